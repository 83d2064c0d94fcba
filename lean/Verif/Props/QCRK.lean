import Verif.Model.QCRK
import Verif.Props.Cubic
import Verif.Props.Factory
import Verif.Props.Superanc
import Verif.Lemmas.Outcome

/-! # The quantum-corrected Peng-Robinson and RK-PR models at run time: C150, C151, C152 -/

set_option autoImplicit false

namespace Teqp.Props
open Teqp.Model Teqp.Spec Teqp.Lemmas Filter Topology

/-! ## C150: documents and sizes -/

theorem rowAt_ok (fs : List (String × JTree)) (k : String) (r : List ℝ) :
    rowAt (.obj fs) k = .ok r ↔ fs.lookup k = some (.arr (r.map .num)) := by
  unfold rowAt JTree.at
  cases h : fs.lookup k with
  | none => simp only [h, Outcome.bind_throws, reduceCtorEq]
  | some v => simp only [h, Outcome.bind_ok, Option.some.injEq]; exact toRow_ok v r

theorem qcpr_fin_congr {n n' : ℕ} (h : n = n') (m : QCPR (Fin n)) (m' : QCPR (Fin n')) (hTc : ∀ i hi hi', m.Tc ⟨i, hi⟩ = m'.Tc ⟨i, hi'⟩)
    (hpc : ∀ i hi hi', m.pc ⟨i, hi⟩ = m'.pc ⟨i, hi'⟩) (hal : ∀ i hi hi', m.alphas ⟨i, hi⟩ = m'.alphas ⟨i, hi'⟩)
    (hA : ∀ i hi hi', m.As ⟨i, hi⟩ = m'.As ⟨i, hi'⟩) (hB : ∀ i hi hi', m.Bs ⟨i, hi⟩ = m'.Bs ⟨i, hi'⟩) (hc : ∀ i hi hi', m.cs ⟨i, hi⟩ = m'.cs ⟨i, hi'⟩)
    (hk : ∀ i hi hi' j hj hj', m.kmat ⟨i, hi⟩ ⟨j, hj⟩ = m'.kmat ⟨i, hi'⟩ ⟨j, hj'⟩)
    (hl : ∀ i hi hi' j hj hj', m.lmat ⟨i, hi⟩ ⟨j, hj⟩ = m'.lmat ⟨i, hi'⟩ ⟨j, hj'⟩) (hR : m.Ru = m'.Ru) (x : ℕ → ℝ) (T rho : ℝ) :
    m.alphar T rho (fun i => x i) = m'.alphar T rho (fun i => x i) := by
  subst h
  have : m = m' := by
    cases m
    cases m'
    simp only [QCPR.mk.injEq]
    exact ⟨funext fun i => hTc _ i.2 i.2, funext fun i => hpc _ i.2 i.2, funext fun i => hal _ i.2 i.2, funext fun i => hA _ i.2 i.2,
      funext fun i => hB _ i.2 i.2, funext fun i => hc _ i.2 i.2, funext fun i => funext fun j => hk _ i.2 i.2 _ j.2 j.2,
      funext fun i => funext fun j => hl _ i.2 i.2 _ j.2 j.2, hR⟩
  rw [this]

/-- What a document of the quantum-corrected model says, for `N` components: the arrays and matrices have the sizes of the components. -/
structure QCPRDoc (N : ℕ) (fs : List (String × JTree)) (Tc pc L M Nn As Bs cs : List ℝ) (k l : ℕ → ℕ → ℝ) : Prop where
  tc : fs.lookup "Tcrit / K" = some (.arr (Tc.map .num))
  pcr : fs.lookup "pcrit / Pa" = some (.arr (pc.map .num))
  ls : fs.lookup "Ls" = some (.arr (L.map .num))
  ms : fs.lookup "Ms" = some (.arr (M.map .num))
  ns : fs.lookup "Ns" = some (.arr (Nn.map .num))
  as_ : fs.lookup "As" = some (.arr (As.map .num))
  bs : fs.lookup "Bs" = some (.arr (Bs.map .num))
  csv : fs.lookup "cs / m^3/mol" = some (.arr (cs.map .num))
  km : ∃ j, fs.lookup "kmat" = some j ∧ IsMatrix j N k
  lm : ∃ j, fs.lookup "lmat" = some j ∧ IsMatrix j N l

/-- The components of such a document. -/
noncomputable def docQCPR (N : ℕ) (Tc pc L M Nn As Bs cs : List ℝ) (k l : ℕ → ℕ → ℝ) (R : ℝ) : QCPR (Fin N) where
  Tc i := Tc.getD i 0
  pc i := pc.getD i 0
  alphas i := .twu (Tc.getD i 0) (L.getD i 0) (M.getD i 0) (Nn.getD i 0)
  As i := As.getD i 0
  Bs i := Bs.getD i 0
  cs i := cs.getD i 0
  kmat i j := k i j
  lmat i j := l i j
  Ru := R

/-- The gas constant of a document. -/
def DocR (fs : List (String × JTree)) (R : ℝ) : Prop :=
  fs.lookup "R / J/mol/K" = some (.num R) ∨ fs.lookup "R / J/mol/K" = none ∧ R = 8.31446261815324

theorem docR_read {fs : List (String × JTree)} {R : ℝ} (h : DocR fs R) :
    ∃ o, optEntry (.obj fs) "R / J/mol/K" JTree.toDouble = .ok o ∧ o.getD RCodata2017 = R := by
  unfold optEntry JTree.contains JTree.at
  rcases h with h | ⟨h, rfl⟩
  · exact ⟨some R, by simp only [h]; rfl, rfl⟩
  · exact ⟨none, by simp only [h]; rfl, rfl⟩

/-- C150. A document with arrays of the number of components is read, and the model evaluates to the published expression with the parameters of the document
for every composition of that size. -/
theorem qcpr_document_partial (N : ℕ) (fs : List (String × JTree)) (Tc pc L M Nn As Bs cs : List ℝ) (k l : ℕ → ℕ → ℝ) (R : ℝ)
    (h : QCPRDoc N fs Tc pc L M Nn As Bs cs k l) (hR : DocR fs R)
    (hl : Tc.length = N ∧ pc.length = N ∧ L.length = N ∧ M.length = N ∧ Nn.length = N ∧ As.length = N ∧ Bs.length = N ∧ cs.length = N) :
    ∃ m, qcprFactory (.obj fs) = .ok m ∧ (∀ T rho (x : List ℝ), x.length = N →
        m.alphar T rho x = .ok ((docQCPR N Tc pc L M Nn As Bs cs k l R).alphar T rho fun i => x.getD i 0)) ∧
      ∀ T rho (x : List ℝ), x.length ≠ N → m.alphar T rho x = .throws .stdInvalidArgument := by
  obtain ⟨h1, h2, h3, h4, h5, h6, h7, h8⟩ := hl
  obtain ⟨jk, hjk, hk⟩ := h.km
  obtain ⟨jl, hjl, hlm⟩ := h.lm
  obtain ⟨K, hK, hKn, hKv⟩ := buildSquareMatrix_faithful jk N k hk
  obtain ⟨Lm, hL, hLn, hLv⟩ := buildSquareMatrix_faithful jl N l hlm
  obtain ⟨o, ho, hoR⟩ := docR_read hR
  have hal : qcprAlphas Tc (.obj fs) = .ok ((List.range L.length).map fun i => .twu (Tc.getD i 0) (L.getD i 0) (M.getD i 0) (Nn.getD i 0)) := by
    unfold qcprAlphas
    rw [(rowAt_ok fs _ L).mpr h.ls, Outcome.bind_ok, (rowAt_ok fs _ M).mpr h.ms, Outcome.bind_ok, (rowAt_ok fs _ Nn).mpr h.ns, Outcome.bind_ok,
      if_neg (by omega), if_neg (by omega)]
  have hjk' : (JTree.obj fs).at "kmat" = .ok jk := by simp [JTree.at, hjk]
  have hjl' : (JTree.obj fs).at "lmat" = .ok jl := by simp [JTree.at, hjl]
  refine ⟨⟨Tc, pc, (List.range L.length).map fun i => .twu (Tc.getD i 0) (L.getD i 0) (M.getD i 0) (Nn.getD i 0), As, Bs, cs, K, Lm, R⟩, ?_, ?_, ?_⟩
  · unfold qcprFactory
    rw [(rowAt_ok fs _ Tc).mpr h.tc, Outcome.bind_ok, (rowAt_ok fs _ pc).mpr h.pcr, Outcome.bind_ok, hal, Outcome.bind_ok,
      (rowAt_ok fs _ As).mpr h.as_, Outcome.bind_ok, (rowAt_ok fs _ Bs).mpr h.bs, Outcome.bind_ok, (rowAt_ok fs _ cs).mpr h.csv, Outcome.bind_ok,
      hjk', Outcome.bind_ok, hK, Outcome.bind_ok, hjl', Outcome.bind_ok, hL, Outcome.bind_ok, ho, Outcome.bind_ok, hoR]
  · intro T rho x hx
    unfold QCPRrt.alphar
    have hlen : ((List.range L.length).map fun i => AlphaFn.twu (Tc.getD i 0) (L.getD i 0) (M.getD i 0) (Nn.getD i 0)).length = N := by simp [h3]
    rw [if_neg (by simp [hx, h3]), if_neg (by simp [h3, h8]), if_pos (by unfold QCPRrt.abInside; simp only [hlen]; omega)]
    congr 1
    refine qcpr_fin_congr hlen _ _ ?_ ?_ ?_ ?_ ?_ ?_ ?_ ?_ rfl (fun i => x.getD i 0) T rho
    · exact fun i hi hi' => rfl
    · exact fun i hi hi' => rfl
    · intro i hi hi'
      simp [QCPRrt.toFin, docQCPR]
    · exact fun i hi hi' => rfl
    · exact fun i hi hi' => rfl
    · exact fun i hi hi' => rfl
    · exact fun i hi hi' j hj hj' => hKv i j hi' hj'
    · exact fun i hi hi' j hj hj' => hLv i j hi' hj'
  · intro T rho x hx
    unfold QCPRrt.alphar
    rw [if_pos (by simpa [h3] using hx)]

/-- A document of one neon-like component. -/
noncomputable def qcprFs (Ls As : List ℝ) (kmat : JTree) : List (String × JTree) :=
  [("Tcrit / K", .arr ([44.492].map .num)), ("pcrit / Pa", .arr ([2.679e6].map .num)), ("Ls", .arr (Ls.map .num)),
   ("Ms", .arr (Ls.map fun _ => .num 0.95861)), ("Ns", .arr (Ls.map fun _ => .num 0.8396)), ("As", .arr (As.map .num)),
   ("Bs", .arr ([2.4634].map .num)), ("cs / m^3/mol", .arr ([-2.4665e-6].map .num)), ("kmat", kmat), ("lmat", .arr [.arr [.num 0]])]

theorem one_isMatrix (v : ℝ) : IsMatrix (.arr [.arr [.num v]]) 1 fun _ _ => v :=
  ⟨_, rfl, rfl, fun i hi => ⟨[.num v], by interval_cases i; rfl, rfl, fun k hk => by interval_cases k; rfl⟩⟩

theorem qcprFs_doc : QCPRDoc 1 (qcprFs [0.40453] [0.4673] (.arr [.arr [.num 0]])) [44.492] [2.679e6] [0.40453] [0.95861] [0.8396] [0.4673] [2.4634] [-2.4665e-6]
    (fun _ _ => 0) fun _ _ => 0 := by
  constructor
  any_goals rfl
  all_goals exact ⟨_, rfl, one_isMatrix 0⟩

example : ∃ m, qcprFactory (.obj (qcprFs [0.40453] [0.4673] (.arr [.arr [.num 0]]))) = .ok m ∧ (∀ T rho (x : List ℝ), x.length = 1 →
    m.alphar T rho x = .ok ((docQCPR 1 [44.492] [2.679e6] [0.40453] [0.95861] [0.8396] [0.4673] [2.4634] [-2.4665e-6] (fun _ _ => 0) (fun _ _ => 0)
      8.31446261815324).alphar T rho fun i => x.getD i 0)) ∧ ∀ T rho (x : List ℝ), x.length ≠ 1 → m.alphar T rho x = .throws .stdInvalidArgument :=
  qcpr_document_partial 1 _ _ _ _ _ _ _ _ _ _ _ _ qcprFs_doc (Or.inr ⟨rfl, rfl⟩) (by simp)

/-- C150. When the array `Ls` is longer than that of the critical temperatures, the constructor reads past the end of the latter. -/
theorem qcpr_long_alphas_ub (fs : List (String × JTree)) (Tc pc L M N : List ℝ) (h1 : fs.lookup "Tcrit / K" = some (.arr (Tc.map .num)))
    (h2 : fs.lookup "pcrit / Pa" = some (.arr (pc.map .num))) (h3 : fs.lookup "Ls" = some (.arr (L.map .num)))
    (h4 : fs.lookup "Ms" = some (.arr (M.map .num))) (h5 : fs.lookup "Ns" = some (.arr (N.map .num))) (hLM : L.length = M.length) (hMN : M.length = N.length)
    (h : Tc.length < L.length) : qcprFactory (.obj fs) = .ub := by
  unfold qcprFactory qcprAlphas
  rw [(rowAt_ok fs _ Tc).mpr h1, Outcome.bind_ok, (rowAt_ok fs _ pc).mpr h2, Outcome.bind_ok, (rowAt_ok fs _ L).mpr h3, Outcome.bind_ok,
    (rowAt_ok fs _ M).mpr h4, Outcome.bind_ok, (rowAt_ok fs _ N).mpr h5, Outcome.bind_ok, if_neg (by omega), if_pos h]
  rfl

example : qcprFactory (.obj (qcprFs [0.4, 0.5] [0.4673] (.arr [.arr [.num 0]]))) = .ub :=
  qcpr_long_alphas_ub _ [44.492] [2.679e6] [0.4, 0.5] [0.95861, 0.95861] [0.8396, 0.8396] rfl rfl rfl rfl rfl rfl rfl (by simp)

/-- C150. The three arrays of the alpha functions are compared with each other. -/
theorem qcpr_alphas_refused (fs : List (String × JTree)) (Tc pc L M N : List ℝ) (h1 : fs.lookup "Tcrit / K" = some (.arr (Tc.map .num)))
    (h2 : fs.lookup "pcrit / Pa" = some (.arr (pc.map .num))) (h3 : fs.lookup "Ls" = some (.arr (L.map .num)))
    (h4 : fs.lookup "Ms" = some (.arr (M.map .num))) (h5 : fs.lookup "Ns" = some (.arr (N.map .num))) (h : ¬(L.length = M.length ∧ M.length = N.length)) :
    qcprFactory (.obj fs) = .throws .invalidArgument := by
  unfold qcprFactory qcprAlphas
  rw [(rowAt_ok fs _ Tc).mpr h1, Outcome.bind_ok, (rowAt_ok fs _ pc).mpr h2, Outcome.bind_ok, (rowAt_ok fs _ L).mpr h3, Outcome.bind_ok,
    (rowAt_ok fs _ M).mpr h4, Outcome.bind_ok, (rowAt_ok fs _ N).mpr h5, Outcome.bind_ok, if_pos (by omega)]
  rfl

/-- C150. Evaluation of any model of this kind: a composition of the size of the array `Ls` is evaluated inside the arrays exactly when all other arrays and both
matrices have at least that size; nothing else checks them. -/
theorem qcpr_evaluates_iff (m : QCPRrt) (T rho : ℝ) (x : List ℝ) (hx : x.length = m.alphas.length) :
    (m.alphar T rho x ≠ .ub ↔ ∀ n ∈ [m.Tc.length, m.pc.length, m.As.length, m.Bs.length, m.cs.length, m.kmat.n, m.lmat.n], x.length ≤ n) ∧
      ∀ e, m.alphar T rho x ≠ .throws e := by
  unfold QCPRrt.alphar QCPRrt.abInside
  rw [if_neg (by simpa using hx)]
  simp only [List.mem_cons, List.not_mem_nil, or_false, forall_eq_or_imp, forall_eq]
  by_cases h1 : m.cs.length < m.alphas.length
  · rw [if_pos h1]
    simp only [ne_eq, not_true_eq_false, false_iff, reduceCtorEq, not_false_eq_true, implies_true, and_true]
    omega
  · rw [if_neg h1]
    split_ifs with h2
    · simp only [ne_eq, reduceCtorEq, not_false_eq_true, true_iff, implies_true, and_true]
      omega
    · simp only [ne_eq, not_true_eq_false, false_iff, reduceCtorEq, not_false_eq_true, implies_true, and_true]
      omega

/-- C150 is false of the code: a document with an empty matrix of interaction parameters, or with an empty array `As`, is accepted, and the model then reads past the end. -/
theorem qcpr_accepts_bad :
    (∃ m, qcprFactory (.obj (qcprFs [0.4] [0.4673] (.arr []))) = .ok m ∧ ∀ T rho x, m.alphar T rho [x] = .ub) ∧
    ∃ m, qcprFactory (.obj (qcprFs [0.4] [] (.arr [.arr [.num 0]]))) = .ok m ∧ ∀ T rho x, m.alphar T rho [x] = .ub := by
  have hal : ∀ As k, qcprAlphas [44.492] (.obj (qcprFs [0.4] As k)) = .ok [.twu 44.492 0.4 0.95861 0.8396] := by
    intro As k
    unfold qcprAlphas
    rw [(rowAt_ok _ _ [0.4]).mpr rfl, Outcome.bind_ok, (rowAt_ok _ _ [0.95861]).mpr rfl, Outcome.bind_ok, (rowAt_ok _ _ [0.8396]).mpr rfl, Outcome.bind_ok]
    simp
  have hread : ∀ As k K, buildSquareMatrix k = .ok K → ∃ Lm, qcprFactory (.obj (qcprFs [0.4] As k))
      = .ok ⟨[44.492], [2.679e6], [.twu 44.492 0.4 0.95861 0.8396], As, [2.4634], [-2.4665e-6], K, Lm, RCodata2017⟩ := by
    intro As k K hK
    obtain ⟨Lm, hL, hLn, -⟩ := buildSquareMatrix_faithful _ 1 _ (one_isMatrix 0)
    refine ⟨Lm, ?_⟩
    unfold qcprFactory
    rw [(rowAt_ok _ _ [44.492]).mpr rfl, Outcome.bind_ok, (rowAt_ok _ _ [2.679e6]).mpr rfl, Outcome.bind_ok, hal, Outcome.bind_ok,
      (rowAt_ok _ _ As).mpr rfl, Outcome.bind_ok, (rowAt_ok _ _ [2.4634]).mpr rfl, Outcome.bind_ok, (rowAt_ok _ _ [-2.4665e-6]).mpr rfl, Outcome.bind_ok]
    have h1 : (JTree.obj (qcprFs [0.4] As k)).at "kmat" = .ok k := rfl
    have h2 : (JTree.obj (qcprFs [0.4] As k)).at "lmat" = .ok (.arr [.arr [.num 0]]) := rfl
    have h3 : optEntry (.obj (qcprFs [0.4] As k)) "R / J/mol/K" JTree.toDouble = .ok none := rfl
    rw [h1, Outcome.bind_ok, hK, Outcome.bind_ok, h2, Outcome.bind_ok, hL, Outcome.bind_ok, h3, Outcome.bind_ok]
    rfl
  constructor
  · obtain ⟨Lm, h⟩ := hread [0.4673] (.arr []) _ rfl
    refine ⟨_, h, fun T rho x => ?_⟩
    by_contra hc
    have := (qcpr_evaluates_iff _ T rho [x] rfl).1.mp hc 0 (by simp)
    simp at this
  · obtain ⟨K, hK, -⟩ := buildSquareMatrix_faithful _ 1 _ (one_isMatrix 0)
    obtain ⟨Lm, h⟩ := hread [] _ K hK
    refine ⟨_, h, fun T rho x => ?_⟩
    by_contra hc
    have := (qcpr_evaluates_iff _ T rho [x] rfl).1.mp hc 0 (by simp)
    simp at this

/-! ### RK-PR -/

/-- What a document of RK-PR says. -/
structure RKPRDoc (N : ℕ) (fs : List (String × JTree)) (d Tc pc k : List ℝ) (km lm : ℕ → ℕ → ℝ) : Prop where
  de : fs.lookup "delta_1" = some (.arr (d.map .num))
  tc : fs.lookup "Tcrit / K" = some (.arr (Tc.map .num))
  pcr : fs.lookup "pcrit / Pa" = some (.arr (pc.map .num))
  kv : fs.lookup "k" = some (.arr (k.map .num))
  kma : ∃ j, fs.lookup "kmat" = some j ∧ IsMatrix j N km
  lma : ∃ j, fs.lookup "lmat" = some j ∧ IsMatrix j N lm

/-- The components of such a document. -/
noncomputable def docRKPR (N : ℕ) (d Tc pc k : List ℝ) (km lm : ℕ → ℕ → ℝ) (R : ℝ) : RKPR (Fin N) where
  delta1 i := d.getD i 0
  Tc i := Tc.getD i 0
  pc i := pc.getD i 0
  k i := k.getD i 0
  kmat i j := km i j
  lmat i j := lm i j
  Ru := R

/-- C150 for RK-PR. -/
theorem rkpr_document_partial (N : ℕ) (hN : 0 < N) (fs : List (String × JTree)) (d Tc pc k : List ℝ) (km lm : ℕ → ℕ → ℝ) (R : ℝ)
    (h : RKPRDoc N fs d Tc pc k km lm) (hR : DocR fs R) (hl : d.length = N ∧ Tc.length = N ∧ pc.length = N ∧ k.length = N) :
    ∃ m, rkprFactory (.obj fs) = .ok m ∧ (∀ T rho (x : List ℝ), x.length = N →
        m.alphar T rho x = .ok ((docRKPR N d Tc pc k km lm R).alphar T rho fun i => x.getD i 0)) ∧
      ∀ T rho (x : List ℝ), x.length ≠ N → m.alphar T rho x = .throws .stdInvalidArgument := by
  obtain ⟨rfl, h2, h3, h4⟩ := hl
  obtain ⟨jk, hjk, hk⟩ := h.kma
  obtain ⟨jl, hjl, hlm⟩ := h.lma
  obtain ⟨K, hK, hKn, hKv⟩ := buildSquareMatrix_faithful jk d.length km hk
  obtain ⟨Lm, hL, hLn, hLv⟩ := buildSquareMatrix_faithful jl d.length lm hlm
  obtain ⟨o, ho, hoR⟩ := docR_read hR
  have hjk' : (JTree.obj fs).at "kmat" = .ok jk := by simp [JTree.at, hjk]
  have hjl' : (JTree.obj fs).at "lmat" = .ok jl := by simp [JTree.at, hjl]
  refine ⟨⟨d, Tc, pc, k, K, Lm, R⟩, ?_, ?_, ?_⟩
  · unfold rkprFactory
    rw [(rowAt_ok fs _ d).mpr h.de, Outcome.bind_ok, (rowAt_ok fs _ Tc).mpr h.tc, Outcome.bind_ok, (rowAt_ok fs _ pc).mpr h.pcr, Outcome.bind_ok,
      (rowAt_ok fs _ k).mpr h.kv, Outcome.bind_ok, hjk', Outcome.bind_ok, hK, Outcome.bind_ok, hjl', Outcome.bind_ok, hL, Outcome.bind_ok, ho,
      Outcome.bind_ok, if_neg (by omega), hoR]
  · intro T rho x hx
    unfold RKPRrt.alphar
    rw [if_neg (by simpa using hx), if_neg]
    · congr 2
      unfold RKPRrt.toFin docRKPR
      simp only [RKPR.mk.injEq, true_and, and_true]
      refine ⟨funext fun i => ?_, funext fun i => funext fun j => hKv i j i.2 j.2, funext fun i => funext fun j => hLv i j i.2 j.2⟩
      simp
    · rw [← List.length_eq_zero_iff]
      simp only
      omega
  · intro T rho x hx
    unfold RKPRrt.alphar
    rw [if_pos hx]

/-- A document of one methane-like component. -/
noncomputable def rkprFs (k : List ℝ) (kmat : JTree) : List (String × JTree) :=
  [("delta_1", .arr ([0.85].map .num)), ("Tcrit / K", .arr ([190.564].map .num)), ("pcrit / Pa", .arr ([4.5992e6].map .num)), ("k", .arr (k.map .num)),
   ("kmat", kmat), ("lmat", .arr [.arr [.num 0]]), ("R / J/mol/K", .num 8.4)]

example : ∃ m, rkprFactory (.obj (rkprFs [1.5] (.arr [.arr [.num 0.1]]))) = .ok m ∧ (∀ T rho (x : List ℝ), x.length = 1 →
    m.alphar T rho x = .ok ((docRKPR 1 [0.85] [190.564] [4.5992e6] [1.5] (fun _ _ => 0.1) (fun _ _ => 0) 8.4).alphar T rho fun i => x.getD i 0)) ∧
      ∀ T rho (x : List ℝ), x.length ≠ 1 → m.alphar T rho x = .throws .stdInvalidArgument :=
  rkpr_document_partial 1 one_pos _ _ _ _ _ _ _ _ ⟨rfl, rfl, rfl, rfl, ⟨_, rfl, one_isMatrix _⟩, ⟨_, rfl, one_isMatrix _⟩⟩ (Or.inl rfl) (by simp)

/-- C150. A short array of critical temperatures or pressures makes the constructor read past the end. -/
theorem rkpr_short_ub (N : ℕ) (fs : List (String × JTree)) (d Tc pc k : List ℝ) (km lm : ℕ → ℕ → ℝ) (R : ℝ) (h : RKPRDoc N fs d Tc pc k km lm) (hR : DocR fs R)
    (hs : Tc.length < d.length ∨ pc.length < d.length) : rkprFactory (.obj fs) = .ub := by
  obtain ⟨jk, hjk, hk⟩ := h.kma
  obtain ⟨jl, hjl, hlm⟩ := h.lma
  obtain ⟨K, hK, hKn, hKv⟩ := buildSquareMatrix_faithful jk N km hk
  obtain ⟨Lm, hL, hLn, hLv⟩ := buildSquareMatrix_faithful jl N lm hlm
  obtain ⟨o, ho, hoR⟩ := docR_read hR
  have hjk' : (JTree.obj fs).at "kmat" = .ok jk := by simp [JTree.at, hjk]
  have hjl' : (JTree.obj fs).at "lmat" = .ok jl := by simp [JTree.at, hjl]
  unfold rkprFactory
  rw [(rowAt_ok fs _ d).mpr h.de, Outcome.bind_ok, (rowAt_ok fs _ Tc).mpr h.tc, Outcome.bind_ok, (rowAt_ok fs _ pc).mpr h.pcr, Outcome.bind_ok,
    (rowAt_ok fs _ k).mpr h.kv, Outcome.bind_ok, hjk', Outcome.bind_ok, hK, Outcome.bind_ok, hjl', Outcome.bind_ok, hL, Outcome.bind_ok, ho,
    Outcome.bind_ok, if_pos hs]

example : rkprFactory (.obj [("delta_1", .arr ([0.85, 1].map .num)), ("Tcrit / K", .arr ([190.564].map .num)), ("pcrit / Pa", .arr ([4.5992e6, 5e6].map .num)),
    ("k", .arr ([1, 2].map .num)), ("kmat", .arr [.arr [.num 0]]), ("lmat", .arr [.arr [.num 0]])]) = .ub :=
  rkpr_short_ub 1 _ [0.85, 1] [190.564] [4.5992e6, 5e6] [1, 2] (fun _ _ => 0) (fun _ _ => 0) 8.31446261815324
    ⟨rfl, rfl, rfl, rfl, ⟨_, rfl, one_isMatrix _⟩, ⟨_, rfl, one_isMatrix _⟩⟩ (Or.inr ⟨rfl, rfl⟩) (by simp)

/-- C150 for the evaluation of RK-PR. -/
theorem rkpr_evaluates_iff (m : RKPRrt) (T rho : ℝ) (x : List ℝ) (hx : x.length = m.delta1.length) :
    (m.alphar T rho x ≠ .ub ↔ 0 < x.length ∧ ∀ n ∈ [m.Tc.length, m.k.length, m.kmat.n, m.lmat.n], x.length ≤ n) ∧
      ∀ e, m.alphar T rho x ≠ .throws e := by
  unfold RKPRrt.alphar
  rw [if_neg (by simpa using hx)]
  simp only [List.mem_cons, List.not_mem_nil, or_false, forall_eq_or_imp, forall_eq]
  split_ifs with h1 <;> rw [← List.length_eq_zero_iff] at h1
  · simp only [ne_eq, not_true_eq_false, false_iff, reduceCtorEq, not_false_eq_true, implies_true, and_true]
    omega
  · simp only [ne_eq, reduceCtorEq, not_false_eq_true, true_iff, implies_true, and_true]
    omega

/-- C150 is false of RK-PR: an empty matrix or an empty array `k` is accepted, and evaluation then reads past the end. -/
theorem rkpr_accepts_bad :
    (∃ m, rkprFactory (.obj (rkprFs [1.5] (.arr []))) = .ok m ∧ ∀ T rho x, m.alphar T rho [x] = .ub) ∧
    ∃ m, rkprFactory (.obj (rkprFs [] (.arr [.arr [.num 0]]))) = .ok m ∧ ∀ T rho x, m.alphar T rho [x] = .ub := by
  have hread : ∀ k km K, buildSquareMatrix km = .ok K → ∃ Lm, rkprFactory (.obj (rkprFs k km))
      = .ok ⟨[0.85], [190.564], [4.5992e6], k, K, Lm, 8.4⟩ := by
    intro k km K hK
    obtain ⟨Lm, hL, hLn, -⟩ := buildSquareMatrix_faithful _ 1 _ (one_isMatrix 0)
    refine ⟨Lm, ?_⟩
    unfold rkprFactory
    have h1 : (JTree.obj (rkprFs k km)).at "kmat" = .ok km := rfl
    have h2 : (JTree.obj (rkprFs k km)).at "lmat" = .ok (.arr [.arr [.num 0]]) := rfl
    have h3 : optEntry (.obj (rkprFs k km)) "R / J/mol/K" JTree.toDouble = .ok (some 8.4) := rfl
    rw [(rowAt_ok _ _ [0.85]).mpr rfl, Outcome.bind_ok, (rowAt_ok _ _ [190.564]).mpr rfl, Outcome.bind_ok, (rowAt_ok _ _ [4.5992e6]).mpr rfl,
      Outcome.bind_ok, (rowAt_ok _ _ k).mpr rfl, Outcome.bind_ok, h1, Outcome.bind_ok, hK, Outcome.bind_ok, h2, Outcome.bind_ok, hL, Outcome.bind_ok, h3,
      Outcome.bind_ok, if_neg (by simp)]
    rfl
  constructor
  · obtain ⟨Lm, h⟩ := hread [1.5] (.arr []) _ rfl
    refine ⟨_, h, fun T rho x => ?_⟩
    by_contra hc
    have := ((rkpr_evaluates_iff _ T rho [x] rfl).1.mp hc).2 0 (by simp)
    simp at this
  · obtain ⟨K, hK, -⟩ := buildSquareMatrix_faithful _ 1 _ (one_isMatrix 0)
    obtain ⟨Lm, h⟩ := hread [] _ K hK
    refine ⟨_, h, fun T rho x => ?_⟩
    by_contra hc
    have := ((rkpr_evaluates_iff _ T rho [x] rfl).1.mp hc).2 0 (by simp)
    simp at this

end Teqp.Props
