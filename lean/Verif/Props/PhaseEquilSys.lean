import Verif.Props.PhaseEquil

/-! # The general phase-equilibrium system as a whole (C46) -/

set_option autoImplicit false

open Teqp.Calc Teqp.Model Teqp.Spec Teqp.Lemmas Teqp.MixVLE Teqp.PhaseEquil Filter Topology

namespace Teqp.Props

/-! ## The Jacobian of the whole system -/

section
variable {n q : ℕ} {w0 : PhaseVars n q}

/-- A row that is not there. -/
def noRow : PERow := (0, fun _ => 0)

/-- Every row of a list of rows is exact. -/
def RowsExact (F : PhaseVars n q → List PERow) (w0 : PhaseVars n q) : Prop :=
  ∃ N, (∀ w, (F w).length = N) ∧ ∀ i < N, RowExact (fun w => (F w).getD i noRow) w0

theorem RowsExact.append {F G : PhaseVars n q → List PERow} (hF : RowsExact F w0) (hG : RowsExact G w0) :
    RowsExact (fun w => F w ++ G w) w0 := by
  obtain ⟨N, h1, h2⟩ := hF
  obtain ⟨M, h3, h4⟩ := hG
  refine ⟨N + M, fun w => by rw [List.length_append, h1, h3], fun i hi => ?_⟩
  by_cases h : i < N
  · have e : (fun w => (F w ++ G w).getD i noRow) = fun w => (F w).getD i noRow := by
      funext w
      simp only [List.getD_eq_getElem?_getD]
      rw [List.getElem?_append_left (by rw [h1]; exact h)]
    rw [e]
    exact h2 i h
  · have e : (fun w => (F w ++ G w).getD i noRow) = fun w => (G w).getD (i - N) noRow := by
      funext w
      simp only [List.getD_eq_getElem?_getD]
      rw [List.getElem?_append_right (by rw [h1]; omega), h1]
    rw [e]
    exact h4 _ (by omega)

theorem RowsExact.nil : RowsExact (fun _ => []) w0 := ⟨0, fun _ => rfl, fun i hi => absurd hi (by omega)⟩

theorem RowsExact.singleton {f : PhaseVars n q → PERow} (h : RowExact f w0) : RowsExact (fun w => [f w]) w0 := by
  refine ⟨1, fun _ => rfl, fun i hi => ?_⟩
  obtain rfl : i = 0 := by omega
  exact h

theorem RowsExact.flatMap {α : Type} (l : List α) {G : α → PhaseVars n q → List PERow} (h : ∀ a ∈ l, RowsExact (G a) w0) :
    RowsExact (fun w => l.flatMap fun a => G a w) w0 := by
  induction l with
  | nil => exact RowsExact.nil
  | cons a l ih =>
    simp only [List.flatMap_cons]
    exact (h a List.mem_cons_self).append (ih fun b hb => h b (List.mem_cons_of_mem _ hb))

theorem RowsExact.map {α : Type} (l : List α) {f : α → PhaseVars n q → PERow} (h : ∀ a ∈ l, RowExact (f a) w0) :
    RowsExact (fun w => l.map fun a => f a w) w0 := by
  have := RowsExact.flatMap l (G := fun a w => [f a w]) fun a ha => RowsExact.singleton (h a ha)
  have e : (fun w => l.flatMap fun a => [f a w]) = fun w => l.map fun a => f a w := by
    funext w
    exact List.flatMap_pure_eq_map _ _
  rwa [e] at this

variable {m : EOS (Fin (n + 1))} {ig : Option (EOS (Fin (n + 1)))} {R : ℝ}

theorem peSpecRows_exact (hr : PERegular m ig R w0) (specs : List PESpec) {rs : List PERow}
    (h : peSpecRows m R w0 ig specs = .ok rs) :
    ∃ F, (∀ w, peSpecRows m R w ig specs = .ok (F w)) ∧ RowsExact F w0 := by
  induction specs generalizing rs with
  | nil => exact ⟨fun _ => [], fun _ => rfl, RowsExact.nil⟩
  | cons sp ss ih =>
    rw [peSpecRows] at h
    obtain ⟨r, h1, h2⟩ := Outcome.bind_eq_ok.mp h
    obtain ⟨rs', h3, -⟩ := Outcome.bind_eq_ok.mp h2
    obtain ⟨f, hf, he⟩ := peSpecRow_exact hr sp h1
    obtain ⟨F, hF, hE⟩ := ih h3
    refine ⟨fun w => f w :: F w, fun w => by rw [peSpecRows, hf, Outcome.bind_ok, hF, Outcome.bind_ok], ?_⟩
    exact (RowsExact.singleton he).append hE

theorem peCommonRows_exact {n q : ℕ} {m : EOS (Fin (n + 1))} {ig : Option (EOS (Fin (n + 1)))} {R : ℝ} {w0 : PhaseVars n q}
    (hnq : q = 0 ∨ (q = 1 ∧ n = 1)) (hr : PERegular m ig R w0) (z : List ℝ) :
    RowsExact (fun w => peCommonRows m R w z) w0 := by
  unfold peCommonRows
  refine RowsExact.append (RowsExact.append (RowsExact.append (RowsExact.flatMap _ fun k _ => RowsExact.map _ fun i _ => ?_)
    (RowsExact.map _ fun k _ => ?_)) (RowsExact.map _ fun i _ => peBalRow_exact (fun k => (hr.smooth k).tot) _ _))
    (RowsExact.singleton (peSumRow_exact _))
  · rcases hnq with rfl | ⟨rfl, rfl⟩
    · exact k.elim0
    · obtain rfl : k = 0 := Subsingleton.elim _ _
      exact peFugRow_exact hr i
  · rcases hnq with rfl | ⟨rfl, rfl⟩
    · exact k.elim0
    · obtain rfl : k = 0 := Subsingleton.elim _ _
      exact pePresRow_exact hr

theorem peSingular_iff (hr : PERegular m ig R w0) : ¬peSingular R w0 := by
  rintro (h | ⟨k, hk⟩ | ⟨-, k, i, h⟩)
  · exact absurd h (mul_pos hr.R_pos hr.T_pos).ne'
  · exact (hr.smooth k).tot hk
  · have := mul_pos (mul_pos (hr.rho_pos k i) hr.R_pos) hr.T_pos
    linarith

theorem peSingular_near (hr : PERegular m ig R w0) {w : ℝ → PhaseVars n q} {v : PhaseVars n q} {s : ℝ} (hw : Moves w v s)
    (hs : w s = w0) : ∀ᶠ u in 𝓝 s, ¬peSingular R (w u) := by
  subst hs
  have h1 : ∀ᶠ u in 𝓝 s, 0 < (w u).T := hw.T.continuousAt.eventually (lt_mem_nhds hr.T_pos)
  have h2 : ∀ᶠ u in 𝓝 s, ∀ k i, 0 < (w u).rho k i := by
    rw [eventually_all]
    intro k
    exact Envelope.pos_curve (hw.rho k).continuousAt (hr.rho_pos k)
  filter_upwards [h1, h2] with u g1 g2
  rintro (h | ⟨k, hk⟩ | ⟨-, k, i, h⟩)
  · exact absurd h (mul_pos hr.R_pos g1).ne'
  · have : 0 < rhotot ((w u).rho k) := Finset.sum_pos (fun i _ => g2 k i) ⟨0, Finset.mem_univ _⟩
    exact this.ne' hk
  · have := mul_pos (mul_pos (g2 k i) hr.R_pos) g1
    linarith

/-- **C46** For one phase, and for two phases of two components, the Jacobian is the derivative of the residual: along every
curve of states each residual changes at the rate the Jacobian gives. -/
theorem peCall_jacobian_partial {n q : ℕ} {m : EOS (Fin (n + 1))} {ig : Option (EOS (Fin (n + 1)))} {R : ℝ}
    {w0 : PhaseVars n q} (hnq : q = 0 ∨ (q = 1 ∧ n = 1)) (hr : PERegular m ig R w0) {z : List ℝ} {specs : List PESpec}
    {rows : List PERow} (h : peCall (q := q) m R z ig specs (peVector w0) = .ok rows) {w : ℝ → PhaseVars n q}
    {v : PhaseVars n q} {s : ℝ} (hw : Moves w v s) (hs : w s = w0) :
    ∃ G : ℝ → List PERow, G s = rows ∧ (∀ᶠ u in 𝓝 s, peCall (q := q) m R z ig specs (peVector (w u)) = .ok (G u)) ∧
      ∀ i < rows.length, HasDerivAt (fun u => ((G u).getD i noRow).1) (rowDot (rows.getD i noRow).2 v) s := by
  obtain ⟨hz, hub, -, ss, h1, h2⟩ := peCall_ok h
  obtain ⟨F, hF, hE⟩ := peSpecRows_exact hr specs h1
  obtain ⟨N, hN, hX⟩ := (peCommonRows_exact hnq hr z).append hE
  have hss : ss = F w0 := by
    have := hF w0
    rw [h1] at this
    injection this
  subst hss
  subst h2
  refine ⟨fun u => peCommonRows m R (w u) z ++ F (w u), by simp only [hs], ?_, fun i hi => ?_⟩
  · filter_upwards [peSingular_near hr hw hs] with u hu
    unfold peCall
    rw [if_neg (by rw [peVector_length]; simp), if_neg (by push Not at hub ⊢; exact ⟨hub, hz⟩), peVector_unpack]
    simp only
    rw [hF, Outcome.bind_ok, if_neg hu]
  · exact hX i (by rw [← hN w0]; exact hi) w v s hw hs

end

/-! ## Where the Jacobian is wrong -/

/-- A mixture of ideal gases with gas constant one. -/
def idealEOS (n : ℕ) : EOS (Fin (n + 1)) := ⟨fun _ _ _ => 0, fun _ => 1⟩

theorem idealEOS_smooth {n : ℕ} {T : ℝ} {ρ : Fin (n + 1) → ℝ} (h : ∀ i, 0 < ρ i) : SmoothAt (idealEOS n) T ρ :=
  ⟨(Finset.sum_pos (fun i _ => h i) ⟨0, Finset.mem_univ _⟩).ne', contDiffAt_const, contDiffAt_const⟩

theorem idealEOS_hess {n : ℕ} (T : ℝ) (ρ : Fin (n + 1) → ℝ) (i j : Fin (n + 1)) : hessPsir (idealEOS n) T ρ i j = 0 := by
  have e : Psir (idealEOS n) T = fun _ => 0 := by
    funext r
    simp [Psir, idealEOS]
  simp [hessPsir, partialD2, partialD, e]

theorem ideal_regular {n q : ℕ} {w : PhaseVars n q} (hT : 0 < w.T) (hρ : ∀ k i, 0 < w.rho k i) :
    PERegular (idealEOS n) none 1 w where
  R_pos := one_pos
  T_pos := hT
  rho_pos := hρ
  smooth k := idealEOS_smooth (hρ k)
  R_eq _ := rfl
  ig_smooth := by simp
  ig_R := by simp

/-- The state with the concentration of one component of one phase changed by `u`. -/
def bump {n q : ℕ} (w : PhaseVars n q) (k : Fin (q + 1)) (i : Fin (n + 1)) (u : ℝ) : PhaseVars n q :=
  ⟨w.T, fun k' i' => w.rho k' i' + u * if k' = k ∧ i' = i then 1 else 0, w.beta⟩

theorem bump_zero {n q : ℕ} (w : PhaseVars n q) (k : Fin (q + 1)) (i : Fin (n + 1)) : bump w k i 0 = w := by
  simp [bump]

theorem bump_other {n q : ℕ} (w : PhaseVars n q) {k k' : Fin (q + 1)} (i : Fin (n + 1)) (u : ℝ) (h : k' ≠ k) :
    (bump w k i u).rho k' = w.rho k' := by
  funext i'
  simp [bump, h]

theorem moves_bump {n q : ℕ} (w : PhaseVars n q) (k : Fin (q + 1)) (i : Fin (n + 1)) :
    Moves (bump w k i) ⟨0, fun k' i' => if k' = k ∧ i' = i then 1 else 0, 0⟩ 0 where
  T := hasDerivAt_const _ _
  rho k' := by
    refine hasDerivAt_pi.mpr fun i' => ?_
    have := ((hasDerivAt_id (0 : ℝ)).mul_const (if k' = k ∧ i' = i then (1 : ℝ) else 0)).const_add (w.rho k' i')
    simpa [bump] using this
  beta k' := hasDerivAt_const _ _

theorem rowDot_one {n q : ℕ} (J : ℕ → ℝ) (k : Fin (q + 1)) (i : Fin (n + 1)) :
    rowDot J (⟨0, fun k' i' => if k' = k ∧ i' = i then 1 else 0, 0⟩ : PhaseVars n q) = J (1 + k * (n + 1) + i) := by
  unfold rowDot
  rw [rowDot_eq]
  simp only [mul_zero, zero_add, Pi.zero_apply, Finset.sum_const_zero, add_zero, mul_ite, mul_one]
  rw [Finset.sum_eq_single k, Finset.sum_eq_single i]
  · simp
  · intro b _ hb
    rw [if_neg (by tauto)]
  · simp
  · intro b _ hb
    refine Finset.sum_eq_zero fun j _ => ?_
    rw [if_neg (by tauto)]
  · simp

/-- **C46** is false of the code: with two or more phases, unless both phases and components number two, the Jacobian of
some equality of fugacities is not the derivative of its residual, in every state of an ideal-gas mixture.  (With more
components than phases it is not even written within bounds, `peCall_out_of_bounds`.) -/
theorem peFugRow_wrong {n q : ℕ} (hq : 0 < q) (hn : n ≤ q) (hne : ¬(q = 1 ∧ n = 1)) (w0 : PhaseVars n q) (hT : 0 < w0.T)
    (hρ : ∀ k i, 0 < w0.rho k i) :
    ∃ (k : Fin q) (i : Fin (n + 1)), ¬RowExact (fun w => peFugRow (idealEOS n) 1 w k.succ i) w0 := by
  have hr := ideal_regular hT hρ
  have hRT : 0 < 1 * w0.T := by linarith
  by_cases h0 : n = 0
  · subst h0
    obtain ⟨q, rfl⟩ : ∃ q', q = q' + 1 := ⟨q - 1, by omega⟩
    refine ⟨0, 0, fun h => ?_⟩
    have hm := moves_bump w0 (Fin.succ 0) 0
    have h1 := h _ _ 0 hm (bump_zero _ _ _)
    have r0 := peLnf_rate (τ := fun _ => w0.T) (s := 0) (m := idealEOS 0) (R := 1)
      (by rw [bump_zero]; exact hr.smooth 0) hRT (hasDerivAt_const _ _) (hm.rho 0) 0 (by rw [bump_zero]; exact hρ _ _)
    have r1 := peLnf_rate (τ := fun _ => w0.T) (s := 0) (m := idealEOS 0) (R := 1)
      (by rw [bump_zero]; exact hr.smooth (Fin.succ 0)) hRT (hasDerivAt_const _ _) (hm.rho (Fin.succ 0)) 0
      (by rw [bump_zero]; exact hρ _ _)
    rw [bump_zero] at r0 r1
    have h2 := (r0.sub r1).unique h1
    rw [rowDot_one] at h2
    simp only [peFugRow] at h2
    rw [setBlocks_above _ (by simp)] at h2
    simp [peDlnfdrho, idealEOS_hess] at h2
    have := hρ 1 0
    linarith
  · have hq2 : 2 ≤ q := by omega
    obtain ⟨q, rfl⟩ : ∃ q', q = q' + 2 := ⟨q - 2, by omega⟩
    refine ⟨1, 0, fun h => ?_⟩
    have hm := moves_bump w0 (Fin.succ 0) 0
    have h1 := h _ _ 0 hm (bump_zero _ _ _)
    have e : (fun u : ℝ => (peFugRow (idealEOS n) 1 (bump w0 (Fin.succ 0) 0 u) (Fin.succ 1) 0).1) = fun _ =>
        (peFugRow (idealEOS n) 1 w0 (Fin.succ 1) 0).1 := by
      funext u
      simp only [peFugRow]
      have a1 : (0 : Fin (q + 3)) ≠ Fin.succ 0 := (Fin.succ_ne_zero 0).symm
      have a2 : (Fin.succ 1 : Fin (q + 3)) ≠ Fin.succ 0 := by
        intro h
        have h' : 2 % (q + 3) = 1 := congrArg Fin.val h
        rw [Nat.mod_eq_of_lt (by omega)] at h'
        omega
      rw [bump_other _ _ _ a1, bump_other _ _ _ a2]
      rfl
    rw [e] at h1
    have h2 := (hasDerivAt_const _ _).unique h1
    rw [rowDot_one] at h2
    simp only [peFugRow] at h2
    have e2 := setBlocks_in (row := Function.update (fun _ => 0) 0 (peDlnfdT (idealEOS n) 1 w0.T (w0.rho 0) 0 -
      peDlnfdT (idealEOS n) 1 w0.T (w0.rho (Fin.succ 1)) 0)) (nb := n + 1) (fun j jc => if j = 0 then
        peDlnfdrho (idealEOS n) 1 w0.T (w0.rho 0) 0 jc else -peDlnfdrho (idealEOS n) 1 w0.T (w0.rho (Fin.succ 1)) 0 jc)
        (k := 1) (by omega) 0
    have e3 : ((Fin.succ 0 : Fin (q + 2 + 1)) : ℕ) = 1 := rfl
    rw [e3, e2, if_neg one_ne_zero] at h2
    simp only [peDlnfdrho, idealEOS_hess, if_true] at h2
    have := hρ (Fin.succ 1) 0
    have h3 : 1 / w0.rho (Fin.succ 1) 0 = 0 := by linarith
    rw [one_div, inv_eq_zero] at h3
    linarith

/-- **C46** is false of the code: with three or more phases the equalities of pressure have the same defect, for any number of
components. -/
theorem pePresRow_wrong {n q : ℕ} (w0 : PhaseVars n (q + 2)) (hT : 0 < w0.T) :
    ¬RowExact (fun w => pePresRow (idealEOS n) 1 w 2) w0 := by
  intro h
  have hm := moves_bump w0 (Fin.succ 0) 0
  have h1 := h _ _ 0 hm (bump_zero _ _ _)
  have e : (fun u : ℝ => (pePresRow (idealEOS n) 1 (bump w0 (Fin.succ 0) 0 u) 2).1) = fun _ =>
      (pePresRow (idealEOS n) 1 w0 2).1 := by
    funext u
    simp only [pePresRow]
    have a1 : (0 : Fin (q + 3)) ≠ Fin.succ 0 := (Fin.succ_ne_zero 0).symm
    have a2 : (2 : Fin (q + 3)) ≠ Fin.succ 0 := by
      intro h
      have h' : 2 % (q + 3) = 1 := congrArg Fin.val h
      rw [Nat.mod_eq_of_lt (by omega)] at h'
      omega
    rw [bump_other _ _ _ a1, bump_other _ _ _ a2]
    rfl
  rw [e] at h1
  have h2 := (hasDerivAt_const _ _).unique h1
  rw [rowDot_one] at h2
  simp only [pePresRow] at h2
  have e2 := setBlocks_in (row := Function.update (fun _ => 0) 0 (peDpdT (idealEOS n) 1 w0.T (w0.rho 0) -
    peDpdT (idealEOS n) 1 w0.T (w0.rho 2))) (nb := q + 2 + 1) (fun j jc => if j = 0 then
      peDpdrho (idealEOS n) 1 w0.T (w0.rho 0) jc else -peDpdrho (idealEOS n) 1 w0.T (w0.rho 2) jc)
      (k := 1) (by omega) 0
  have e3 : ((Fin.succ 0 : Fin (q + 2 + 1)) : ℕ) = 1 := rfl
  rw [e3, e2, if_neg one_ne_zero] at h2
  simp only [peDpdrho, idealEOS_hess] at h2
  simp at h2
  linarith

/-! ## What a solution of the system is -/

section meaning
variable {n q : ℕ} {m : EOS (Fin (n + 1))} {ig : Option (EOS (Fin (n + 1)))} {R : ℝ} {w : PhaseVars n q}

theorem peP_meaning (hr : PERegular m ig R w) (k : Fin (q + 1)) : peP m R w.T (w.rho k) = mixP m.alphar R w.T (w.rho k) := by
  rw [mixP_eq (hr.smooth k) hr.R_eq]
  unfold peP solverP
  ring

theorem peLnf_meaning (hr : PERegular m ig R w) (k : Fin (q + 1)) (i : Fin (n + 1)) :
    R * w.T * peLnf m R w.T (w.rho k) i = mixMu m.alphar R w.T (w.rho k) i + R * w.T * Real.log (R * w.T) := by
  have h1 := hr.rho_pos k i
  have h2 := hr.R_pos
  have h3 := hr.T_pos
  rw [mixMu_eq (hr.smooth k) hr.R_eq i h1]
  unfold peLnf
  rw [mul_assoc (w.rho k i), Real.log_mul h1.ne' (by positivity)]
  field_simp
  ring

/-- **C46** The equations that are always present hold exactly when every phase is in equilibrium with the first, the phases
add up to the bulk composition (in all components but the last), and the phase fractions add up to one. -/
theorem peCommonRows_zero (hr : PERegular m ig R w) (z : List ℝ) :
    (∀ r ∈ peCommonRows m R w z, r.1 = 0) ↔
      (∀ k, MixCoexist m.alphar R w.T (w.rho 0) (w.rho k)) ∧
      (∀ i : Fin n, ∑ k, w.beta k * (w.rho k i.castSucc / ∑ j, w.rho k j) = z.getD i 0) ∧ ∑ k, w.beta k = 1 := by
  have hRT : R * w.T ≠ 0 := (mul_pos hr.R_pos hr.T_pos).ne'
  have hf : ∀ k i, peLnf m R w.T (w.rho 0) i = peLnf m R w.T (w.rho k) i ↔
      mixMu m.alphar R w.T (w.rho 0) i = mixMu m.alphar R w.T (w.rho k) i := by
    intro k i
    have h0 := peLnf_meaning hr 0 i
    have h1 := peLnf_meaning hr k i
    constructor
    · intro h
      rw [h] at h0
      linarith
    · intro h
      refine mul_left_cancel₀ hRT ?_
      linarith
  simp only [peCommonRows, List.mem_append, List.mem_flatMap, List.mem_map, List.mem_finRange, true_and, List.mem_singleton]
  constructor
  · intro h
    refine ⟨fun k => ?_, fun i => ?_, ?_⟩
    · induction k using Fin.cases with
      | zero => exact ⟨fun _ => rfl, rfl⟩
      | succ k =>
        refine ⟨fun i => (hf _ i).mp (sub_eq_zero.mp (h _ (Or.inl (Or.inl (Or.inl ⟨k, i, rfl⟩))))), ?_⟩
        have := sub_eq_zero.mp (h _ (Or.inl (Or.inl (Or.inr ⟨k, rfl⟩))))
        rwa [peP_meaning hr, peP_meaning hr] at this
    · exact sub_eq_zero.mp (h _ (Or.inl (Or.inr ⟨i, rfl⟩)))
    · exact sub_eq_zero.mp (h _ (Or.inr rfl))
  · rintro ⟨h1, h2, h3⟩ r (((⟨k, i, rfl⟩ | ⟨k, rfl⟩) | ⟨i, rfl⟩) | rfl)
    · exact sub_eq_zero.mpr ((hf _ i).mpr ((h1 k.succ).1 i))
    · have := (h1 k.succ).2
      rw [← peP_meaning hr, ← peP_meaning hr] at this
      exact sub_eq_zero.mpr this
    · exact sub_eq_zero.mpr (h2 i)
    · exact sub_eq_zero.mpr h3

/-- **C46** When the bulk composition adds up to one, the balance of the last component follows from the others. -/
theorem peBalance_last {β : Fin (q + 1) → ℝ} {ρ : Fin (q + 1) → Fin (n + 1) → ℝ} {z : Fin (n + 1) → ℝ}
    (hρ : ∀ k, ∑ j, ρ k j ≠ 0) (hz : ∑ i, z i = 1) (hβ : ∑ k, β k = 1)
    (h : ∀ i : Fin n, ∑ k, β k * (ρ k i.castSucc / ∑ j, ρ k j) = z i.castSucc) (i : Fin (n + 1)) :
    ∑ k, β k * (ρ k i / ∑ j, ρ k j) = z i := by
  induction i using Fin.lastCases with
  | cast i => exact h i
  | last =>
    have h1 : ∑ i, ∑ k, β k * (ρ k i / ∑ j, ρ k j) = 1 := by
      rw [Finset.sum_comm, ← hβ]
      refine Finset.sum_congr rfl fun k _ => ?_
      rw [← Finset.mul_sum, ← Finset.sum_div, div_self (hρ k), mul_one]
    rw [Fin.sum_univ_castSucc] at h1 hz
    have h2 : ∑ i : Fin n, ∑ k, β k * (ρ k i.castSucc / ∑ j, ρ k j) = ∑ i : Fin n, z i.castSucc :=
      Finset.sum_congr rfl fun i _ => h i
    linarith

/-- The reduced Helmholtz energy of a phase at its composition: ideal gas and residual part. -/
noncomputable def phaseAlpha (g m : EOS (Fin (n + 1))) (ρ : Fin (n + 1) → ℝ) (T r : ℝ) : ℝ :=
  g.alphar T r (fun i => ρ i / ∑ j, ρ j) + m.alphar T r (fun i => ρ i / ∑ j, ρ j)

variable {g : EOS (Fin (n + 1))} {T : ℝ} {ρ : Fin (n + 1) → ℝ}

theorem phase_helmholtz (hm : ∀ x, m.R x = R) (hg : ∀ x, g.R x = R) (hρ : ∑ j, ρ j ≠ 0) (T : ℝ) :
    helmholtz (phaseAlpha g m ρ) R T (∑ j, ρ j) = (Psir g T ρ + Psir m T ρ) / ∑ j, ρ j := by
  unfold helmholtz phaseAlpha Psir
  rw [hm, hg]
  have e : rhotot ρ = ∑ j, ρ j := rfl
  have e2 : molefrac ρ = fun i => ρ i / ∑ j, ρ j := rfl
  rw [e, e2]
  field_simp

/-- **C46** The entropy used by the caloric specifications is the entropy of the phase. -/
theorem peS_meaning (sm : SmoothAt m T ρ) (sg : SmoothAt g T ρ) (hm : ∀ x, m.R x = R) (hg : ∀ x, g.R x = R) (hT : T ≠ 0) :
    peS m R T ρ g = entropy (phaseAlpha g m ρ) R T (∑ j, ρ j) := by
  unfold peS entropy
  rw [peDPsiigDT_eq sg hg hT, peDPsirDT_eq sm hm hT]
  simp only [phase_helmholtz hm hg sm.tot]
  have d : ∀ {e : EOS (Fin (n + 1))}, SmoothAt e T ρ → HasDerivAt (fun T' => Psir e T' ρ) (dPsirdT e T ρ) T := by
    intro e he
    rw [dPsirdT_deriv]
    refine DifferentiableAt.hasDerivAt ?_
    have := Psir_curve (τ := fun T' => T') (γ := fun _ => ρ) he (hasDerivAt_id T) (hasDerivAt_const _ _)
    exact (this rfl rfl).differentiableAt
  rw [(((d sg).fun_add (d sm)).div_const _).deriv]
  have : rhotot ρ = ∑ j, ρ j := rfl
  rw [this]
  ring

/-- **C46** The internal energy used by the caloric specifications is the one of the phase. -/
theorem peU_meaning (sm : SmoothAt m T ρ) (sg : SmoothAt g T ρ) (hm : ∀ x, m.R x = R) (hg : ∀ x, g.R x = R) (hT : T ≠ 0) :
    peU m R T ρ g = energy (phaseAlpha g m ρ) R T (∑ j, ρ j) := by
  unfold peU energy
  rw [peS_meaning sm sg hm hg hT, phase_helmholtz hm hg sm.tot]
  unfold peA
  rw [pePsiig_eq hg]
  rfl

/-- **C46** The enthalpy used by the caloric specifications is internal energy plus pressure over density, with the pressure
of the phase. -/
theorem peH_meaning (sm : SmoothAt m T ρ) (sg : SmoothAt g T ρ) (hm : ∀ x, m.R x = R) (hg : ∀ x, g.R x = R) (hT : T ≠ 0) :
    peH m R T ρ g = energy (phaseAlpha g m ρ) R T (∑ j, ρ j) + mixP m.alphar R T ρ / ∑ j, ρ j := by
  unfold peH
  rw [peU_meaning sm sg hm hg hT, mixP_eq sm hm]
  unfold peP solverP
  rw [mul_assoc]
  rfl

/-- What a specification asks of a state, in observable terms. -/
def PESpecHolds (m : EOS (Fin (n + 1))) (R : ℝ) (ig : Option (EOS (Fin (n + 1)))) (w : PhaseVars n q) : PESpec → Prop
  | .T v => w.T = v
  | .beta v k => ∃ h : k < q + 1, w.beta ⟨k, h⟩ = v
  | .p v => mixP m.alphar R w.T (w.rho 0) = v
  | .v v => ∑ k, w.beta k / ∑ j, w.rho k j = v
  | .s v => ∃ g ∈ ig, ∑ k, w.beta k * entropy (phaseAlpha g m (w.rho k)) R w.T (∑ j, w.rho k j) = v
  | .u v => ∃ g ∈ ig, ∑ k, w.beta k * energy (phaseAlpha g m (w.rho k)) R w.T (∑ j, w.rho k j) = v
  | .h v => ∃ g ∈ ig, ∑ k, w.beta k * (energy (phaseAlpha g m (w.rho k)) R w.T (∑ j, w.rho k j) +
      mixP m.alphar R w.T (w.rho k) / ∑ j, w.rho k j) = v

/-- **C46** The residual of a specification is zero exactly when the state has the property asked for. -/
theorem peSpecRow_zero (hr : PERegular m ig R w) (sp : PESpec) {r : PERow} (h : peSpecRow m R w ig sp = .ok r) :
    r.1 = 0 ↔ PESpecHolds m R ig w sp := by
  have hT := hr.T_pos.ne'
  cases sp with
  | T v => injection h with h; subst h; exact sub_eq_zero
  | beta v k =>
    simp only [peSpecRow] at h
    by_cases hk : k < q + 1
    · rw [dif_pos hk] at h
      injection h with h; subst h
      rw [PESpecHolds]
      exact sub_eq_zero.trans ⟨fun e => ⟨hk, e⟩, fun ⟨_, e⟩ => e⟩
    · rw [dif_neg hk] at h; simp at h
  | p v =>
    injection h with h; subst h
    rw [PESpecHolds, ← peP_meaning hr]
    exact sub_eq_zero
  | v v => injection h with h; subst h; exact sub_eq_zero
  | s v =>
    cases ig with
    | none => simp [peSpecRow] at h
    | some g =>
      injection h with h; subst h
      have e : ∀ k, peS m R w.T (w.rho k) g = _ := fun k =>
        peS_meaning (hr.smooth k) (hr.ig_smooth g rfl k) hr.R_eq (hr.ig_R g rfl) hT
      simp only [PESpecHolds, Option.mem_some_iff, exists_eq_left', peCaloric, e]
      exact sub_eq_zero
  | u v =>
    cases ig with
    | none => simp [peSpecRow] at h
    | some g =>
      injection h with h; subst h
      have e : ∀ k, peU m R w.T (w.rho k) g = _ := fun k =>
        peU_meaning (hr.smooth k) (hr.ig_smooth g rfl k) hr.R_eq (hr.ig_R g rfl) hT
      simp only [PESpecHolds, Option.mem_some_iff, exists_eq_left', peCaloric, e]
      exact sub_eq_zero
  | h v =>
    cases ig with
    | none => simp [peSpecRow] at h
    | some g =>
      injection h with h; subst h
      have e : ∀ k, peH m R w.T (w.rho k) g = _ := fun k =>
        peH_meaning (hr.smooth k) (hr.ig_smooth g rfl k) hr.R_eq (hr.ig_R g rfl) hT
      simp only [PESpecHolds, Option.mem_some_iff, exists_eq_left', peCaloric, e]
      exact sub_eq_zero

theorem peSpecRows_zero (hr : PERegular m ig R w) (specs : List PESpec) {rs : List PERow}
    (h : peSpecRows m R w ig specs = .ok rs) : (∀ r ∈ rs, r.1 = 0) ↔ ∀ sp ∈ specs, PESpecHolds m R ig w sp := by
  induction specs generalizing rs with
  | nil =>
    simp only [peSpecRows, Outcome.ok.injEq] at h
    subst h
    simp
  | cons sp ss ih =>
    rw [peSpecRows] at h
    obtain ⟨r, h1, h2⟩ := Outcome.bind_eq_ok.mp h
    obtain ⟨rs', h3, h4⟩ := Outcome.bind_eq_ok.mp h2
    injection h4 with h4
    subst h4
    simp only [List.forall_mem_cons, ih h3, peSpecRow_zero hr sp h1]

/-- **C46** When `call` returns, all residuals are zero exactly in the states asked for: phases in equilibrium, balances closed,
fractions adding up to one and both specifications met. -/
theorem peCall_zero (hr : PERegular m ig R w) {z : List ℝ} {specs : List PESpec} {rows : List PERow}
    (h : peCall (q := q) m R z ig specs (peVector w) = .ok rows) :
    (∀ r ∈ rows, r.1 = 0) ↔
      ((∀ k, MixCoexist m.alphar R w.T (w.rho 0) (w.rho k)) ∧
      (∀ i : Fin n, ∑ k, w.beta k * (w.rho k i.castSucc / ∑ j, w.rho k j) = z.getD i 0) ∧ ∑ k, w.beta k = 1) ∧
      ∀ sp ∈ specs, PESpecHolds m R ig w sp := by
  obtain ⟨-, -, -, ss, h1, rfl⟩ := peCall_ok h
  rw [← peCommonRows_zero hr z, ← peSpecRows_zero hr specs h1]
  simp only [List.mem_append, or_imp, forall_and]

/-- Whether a specification can be evaluated. -/
def PESpecUsable (n q : ℕ) (ig : Option (EOS (Fin (n + 1)))) : PESpec → Prop
  | .T _ | .p _ | .v _ => True
  | .beta _ k => k < q + 1
  | .s _ | .u _ | .h _ => ig.isSome

theorem peSpecRow_usable (sp : PESpec) : (∃ r, peSpecRow m R w ig sp = .ok r) ↔ PESpecUsable n q ig sp := by
  cases sp with
  | T v => simp [peSpecRow, PESpecUsable]
  | beta v k => by_cases hk : k < q + 1 <;> simp [peSpecRow, PESpecUsable, hk]
  | p v => simp [peSpecRow, PESpecUsable]
  | v v => simp [peSpecRow, PESpecUsable]
  | s v => cases ig <;> simp [peSpecRow, PESpecUsable]
  | u v => cases ig <;> simp [peSpecRow, PESpecUsable]
  | h v => cases ig <;> simp [peSpecRow, PESpecUsable]

theorem peSpecRows_usable (specs : List PESpec) :
    (∃ rs, peSpecRows m R w ig specs = .ok rs) ↔ ∀ sp ∈ specs, PESpecUsable n q ig sp := by
  induction specs with
  | nil => simp [peSpecRows]
  | cons sp ss ih =>
    rw [List.forall_mem_cons, ← ih, ← peSpecRow_usable (m := m) (R := R) (w := w)]
    constructor
    · rintro ⟨rs, h⟩
      rw [peSpecRows] at h
      obtain ⟨r, h1, h2⟩ := Outcome.bind_eq_ok.mp h
      obtain ⟨rs', h3, -⟩ := Outcome.bind_eq_ok.mp h2
      exact ⟨⟨r, h1⟩, rs', h3⟩
    · rintro ⟨⟨r, h1⟩, rs, h2⟩
      exact ⟨r :: rs, by rw [peSpecRows, h1, Outcome.bind_ok, h2, Outcome.bind_ok]⟩

/-- **C46** In a regular state `call` returns exactly when there are not fewer phases than components (or a single phase), the
bulk composition is long enough and the specifications can be evaluated. -/
theorem peCall_returns (hr : PERegular m ig R w) (z : List ℝ) (specs : List PESpec) :
    (∃ rows, peCall (q := q) m R z ig specs (peVector w) = .ok rows) ↔
      (q = 0 ∨ n ≤ q) ∧ n ≤ z.length ∧ ∀ sp ∈ specs, PESpecUsable n q ig sp := by
  have hns := peSingular_iff hr
  have hsz : (0 < q ∧ peSize n q < 1 + (n + 1) * (n + 1)) ↔ ¬(q = 0 ∨ n ≤ q) := by
    unfold peSize
    constructor
    · rintro ⟨h0, h⟩ (h1 | h1)
      · omega
      · have : (n + 1 + 1) * (n + 1) ≤ (n + 1 + 1) * (q + 1) := Nat.mul_le_mul_left _ (by omega)
        have e : (n + 1 + 1) * (n + 1) = (n + 1) * (n + 1) + (n + 1) := by ring
        omega
    · intro h
      push Not at h
      refine ⟨by omega, ?_⟩
      have : (n + 1 + 1) * (q + 1) ≤ (n + 1 + 1) * n := Nat.mul_le_mul_left _ (by omega)
      have e : (n + 1) * (n + 1) = (n + 1 + 1) * n + 1 := by ring
      omega
  constructor
  · rintro ⟨rows, h⟩
    obtain ⟨h1, h2, -, ss, h3, -⟩ := peCall_ok h
    rw [hsz, not_not] at h2
    exact ⟨h2, h1, (peSpecRows_usable specs).mp ⟨ss, h3⟩⟩
  · rintro ⟨h1, h2, h3⟩
    obtain ⟨ss, h4⟩ := (peSpecRows_usable (m := m) (R := R) (w := w) specs).mpr h3
    refine ⟨peCommonRows m R w z ++ ss, ?_⟩
    unfold peCall
    rw [if_neg (by rw [peVector_length]; simp), if_neg (by rw [hsz]; push Not; exact ⟨by tauto, h2⟩), peVector_unpack]
    simp only
    rw [h4, Outcome.bind_ok, if_neg hns]

/-- **C46** A caloric specification without an ideal-gas model is refused. -/
theorem peCall_needs_ideal {z : List ℝ} {ss : List PESpec} (v : ℝ) (hq : q = 0 ∨ n ≤ q) (hz : n ≤ z.length)
    (hr : PERegular m none R w) (sp : PESpec) (hsp : sp = .s v ∨ sp = .u v ∨ sp = .h v) :
    peCall (q := q) m R z none (sp :: ss) (peVector w) = .throws .invalidArgument := by
  obtain ⟨r, h⟩ := (peCall_returns hr z []).mpr ⟨hq, hz, by simp⟩
  obtain ⟨-, h2, -⟩ := peCall_ok h
  unfold peCall
  rw [if_neg (by rw [peVector_length]; simp), if_neg (by push Not at h2 ⊢; exact ⟨h2, hz⟩), peVector_unpack]
  rcases hsp with rfl | rfl | rfl <;> simp [peSpecRows, peSpecRow]

end meaning

/-! ## A concrete system -/

/-- An ideal-gas part that depends on temperature and density. -/
noncomputable def sampleIdeal (n : ℕ) : EOS (Fin (n + 1)) := ⟨fun T r _ => Real.log r - 3 / 2 * Real.log T, fun _ => 1⟩

/-- Two phases of two components. -/
noncomputable def samplePhases : PhaseVars 1 1 := ⟨2, ![![1, 3], ![2, 2]], ![1 / 2, 1 / 2]⟩

theorem sampleIdeal_smooth {n : ℕ} {T : ℝ} (hT : T ≠ 0) {ρ : Fin (n + 1) → ℝ} (h : ∀ i, 0 < ρ i) :
    SmoothAt (sampleIdeal n) T ρ := by
  have hs : 0 < ∑ i, ρ i := Finset.sum_pos (fun i _ => h i) ⟨0, Finset.mem_univ _⟩
  refine ⟨hs.ne', ?_, contDiffAt_const⟩
  have h1 : ContDiffAt ℝ 2 (fun p : ℝ × ℝ × (Fin (n + 1) → ℝ) => Real.log p.2.1) (T, rhotot ρ, molefrac ρ) :=
    ContDiffAt.log (contDiffAt_snd.fst) hs.ne'
  have h2 : ContDiffAt ℝ 2 (fun p : ℝ × ℝ × (Fin (n + 1) → ℝ) => Real.log p.1) (T, rhotot ρ, molefrac ρ) :=
    ContDiffAt.log contDiffAt_fst hT
  exact h1.sub (contDiffAt_const.mul h2)

theorem samplePhases_regular : PERegular (idealEOS 1) (some (sampleIdeal 1)) 1 samplePhases where
  R_pos := one_pos
  T_pos := by norm_num [samplePhases]
  rho_pos k i := by fin_cases k <;> fin_cases i <;> norm_num [samplePhases]
  smooth k := idealEOS_smooth fun i => by fin_cases k <;> fin_cases i <;> norm_num [samplePhases]
  R_eq _ := rfl
  ig_smooth g hg k := by
    simp only [Option.mem_some_iff] at hg
    subst hg
    exact sampleIdeal_smooth (by norm_num [samplePhases]) fun i => by
      fin_cases k <;> fin_cases i <;> norm_num [samplePhases]
  ig_R g hg _ := by
    simp only [Option.mem_some_iff] at hg
    subst hg
    rfl

/-- The system of two phases of two components with pressure and entropy specified returns; along every curve its Jacobian
is the derivative of its residual; this state does not solve it (the fugacities differ). -/
example : ∃ rows, peCall (q := 1) (idealEOS 1) 1 [3 / 8, 5 / 8] (some (sampleIdeal 1)) [.p 8, .s 1] (peVector samplePhases) =
      .ok rows ∧ rows.length = 7 ∧
    ∀ (w : ℝ → PhaseVars 1 1) (v : PhaseVars 1 1), Moves w v 0 → w 0 = samplePhases → ∃ G : ℝ → List PERow, G 0 = rows ∧
      ∀ i < rows.length, HasDerivAt (fun u => ((G u).getD i noRow).1) (rowDot (rows.getD i noRow).2 v) 0 := by
  obtain ⟨rows, h⟩ := (peCall_returns samplePhases_regular [3 / 8, 5 / 8] [.p 8, .s 1]).mpr
    ⟨Or.inr le_rfl, by norm_num, by simp [PESpecUsable]⟩
  refine ⟨rows, h, ?_, fun w v hw hs => ?_⟩
  · rw [peCall_square rfl h, peVector_length]
    rfl
  · obtain ⟨G, h1, -, h2⟩ := peCall_jacobian_partial (Or.inr ⟨rfl, rfl⟩) samplePhases_regular h hw hs
    exact ⟨G, h1, h2⟩

/-- Two phases of a pure fluid: the Jacobian of an equality of fugacities is wrong. -/
example : ∃ (k : Fin 1) (i : Fin 1), ¬RowExact (fun w => peFugRow (idealEOS 0) 1 w k.succ i)
    (⟨1, ![![1], ![2]], ![1 / 2, 1 / 2]⟩ : PhaseVars 0 1) :=
  peFugRow_wrong one_pos (by decide) (by decide) _ (by norm_num) (by
    intro k i; fin_cases k <;> fin_cases i <;> norm_num)

/-- Three identical phases solve the equations that are always present. -/
example : ∀ r ∈ peCommonRows (idealEOS 1) 1 (⟨2, fun _ => ![1, 3], ![1 / 2, 1 / 4, 1 / 4]⟩ : PhaseVars 1 2) [1 / 4, 3 / 4],
    r.1 = 0 := by
  rw [peCommonRows_zero (ideal_regular (by norm_num) fun k i => by fin_cases i <;> norm_num)]
  refine ⟨fun k => ⟨fun _ => rfl, rfl⟩, fun i => ?_, ?_⟩
  · obtain rfl : i = 0 := Subsingleton.elim _ _
    simp [Fin.sum_univ_three, Fin.sum_univ_two]
    norm_num
  · simp [Fin.sum_univ_three]
    norm_num

end Teqp.Props
