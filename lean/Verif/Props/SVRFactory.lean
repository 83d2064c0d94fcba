import Verif.Model.SVRFactory
import Verif.Props.SVRMix
import Verif.Props.Factory

/-! # C113: building SAFT-VR-Mie models -/

set_option autoImplicit false

namespace Teqp.Props
open Model

/-! ## The chain terms -/

/-- C113. A model is built exactly for an interaction matrix of the right size (or none) and a known combining rule. -/
theorem svrChain_cases (cs : List SVRCoeffs) (k : Option SqMat) (flags : Option JTree) :
    ((∀ m, k = some m → m.n = cs.length) → svrRule flags ≠ .invalid →
      svrChain cs k flags = .ok (svrTerms cs (match k with | some m => m.val | none => fun _ _ => 0) (svrRule flags = .lorentzBerthelot))) ∧
    (∀ m, k = some m → m.n ≠ 0 → m.n ≠ cs.length → svrChain cs k flags = .throws .invalidArgument) ∧
    ((∀ m, k = some m → m.n = cs.length ∨ m.n = 0) → svrRule flags = .invalid → svrChain cs k flags = .throws .stdInvalidArgument) := by
  refine ⟨fun h1 h2 => ?_, fun m h1 h2 h3 => ?_, fun h1 h2 => ?_⟩
  · unfold svrChain
    cases k with
    | none =>
      cases hr : svrRule flags with
      | invalid => exact absurd hr h2
      | lafitte => simp [Outcome.bind]
      | lorentzBerthelot => simp [Outcome.bind]
    | some m =>
      have hm := h1 m rfl
      cases hr : svrRule flags with
      | invalid => exact absurd hr h2
      | lafitte => simp [Outcome.bind, hm]
      | lorentzBerthelot => simp [Outcome.bind, hm]
  · subst h1
    simp [svrChain, Outcome.bind, h2, h3]
  · unfold svrChain
    rw [h2]
    cases k with
    | none => simp [Outcome.bind]
    | some m =>
      rcases h1 m rfl with h | h <;> simp [Outcome.bind, h]

/-- C113, finding. A matrix without elements passes the check of its size, and its elements are then read although they do not exist. -/
theorem svrChain_empty_ub (cs : List SVRCoeffs) (v : ℕ → ℕ → ℝ) (flags : Option JTree) (hcs : cs ≠ []) (hr : svrRule flags ≠ .invalid) :
    svrChain cs (some ⟨0, v⟩) flags = .ub := by
  unfold svrChain
  cases h : svrRule flags with
  | invalid => exact absurd h hr
  | lafitte => simp [Outcome.bind, hcs]
  | lorentzBerthelot => simp [Outcome.bind, hcs]

/-- C113. The names of the combining rules; without the key the rule is that of Lafitte et al., and anything else is refused. -/
theorem svrRule_cases (fs : List (String × JTree)) (v : JTree) (h : fs.lookup "epsilon_ij" = some v) :
    (svrRule (some (.obj fs)) = .lorentzBerthelot ↔ v = .str "Lorentz-Berthelot") ∧ (svrRule (some (.obj fs)) = .lafitte ↔ v = .str "Lafitte") := by
  unfold svrRule
  simp only [JTree.at, h]
  cases v with
  | str s =>
    by_cases h1 : s = "Lorentz-Berthelot"
    · simp [h1]
    · by_cases h2 : s = "Lafitte"
      · simp [h2]
      · simp [h1, h2]
  | _ => simp

/-- C113. A diameter in Angstrom and the same diameter in metres give the same model. -/
theorem svr_sigma_units (cs : List SVRCoeffs) (k : ℕ → ℕ → ℝ) (lb : Bool) (i : Fin cs.length) (s : ℝ) (h : (cs.get i).sigma = s / 1e10) :
    (svrTerms cs k lb).sigma i = s := by
  show (cs.get i).sigma * 1e10 = s
  rw [h]
  norm_num

/-- C113. The segments of a built component interact by the Mie potential of its coefficients (distances in Angstrom), and the model has
its number of segments. -/
theorem svr_segment_potential (cs : List SVRCoeffs) (k : ℕ → ℕ → ℝ) (lb : Bool) (i : Fin cs.length) (r : ℝ) (ha : 3 ≤ (cs.get i).la) (hr : 3 ≤ (cs.get i).lr) :
    (svrTerms cs k lb).u i r = (cs.get i).lr / ((cs.get i).lr - (cs.get i).la) * ((cs.get i).lr / (cs.get i).la) ^ ((cs.get i).la / ((cs.get i).lr - (cs.get i).la))
      * (cs.get i).eps * (((cs.get i).sigma * 1e10 / r) ^ (cs.get i).lr - ((cs.get i).sigma * 1e10 / r) ^ (cs.get i).la)
    ∧ (svrTerms cs k lb).m i = (cs.get i).m := by
  have hl : ∀ a : ℝ, 3 ≤ a → svrLam a a = a := by
    intro a h
    unfold svrLam
    rw [Real.sqrt_mul_self (by linarith)]
    ring
  refine ⟨?_, rfl⟩
  unfold SVR.u SVRPair.C SVR.pair svrTerms
  simp only [hl _ ha, hl _ hr]

example : (svrTerms [{ name := "x", m := 1, eps := 100, sigma := 3e-10, lr := 12, la := 6 }] (fun _ _ => 0) false).u 0 3 = 0 := by
  rw [(svr_segment_potential _ _ _ 0 3 (by norm_num) (by norm_num)).1]
  norm_num

/-! ## The polar term made from coefficients -/

theorem anyPositive_zero (n q : List ℝ) (h : ∀ t ∈ List.zipWith (· * ·) n q, t = 0) : anyPositive n q = false := by
  unfold anyPositive
  rw [decide_eq_false_iff_not]
  rintro ⟨t, ht, hp⟩
  rw [h t ht] at hp
  exact lt_irrefl _ hp

/-- C113, finding. When both a dipole and a quadrupole are given, the constructor from coefficients drops the polar term. -/
theorem svrBuildPolar_drops (cs : List SVRCoeffs) (hd : (cs.map fun c => |c.mustar2 * c.nmu|).sum ≠ 0)
    (hq : (cs.map fun c => |c.Qstar2 * c.nQ|).sum ≠ 0) : svrBuildPolar cs = .ok none := by
  unfold svrBuildPolar
  exact if_pos ⟨hd, hq⟩

/-- C113, finding. A mixture without any polar moment gets a polar term, which is empty. -/
theorem svrBuildPolar_empty (cs : List SVRCoeffs) (hd : ∀ c ∈ cs, c.mustar2 * c.nmu = 0) (hq : ∀ c ∈ cs, c.Qstar2 * c.nQ = 0) :
    svrBuildPolar cs = .ok (some (.grossVrabec ⟨none, none, none⟩)) := by
  have h0 : (cs.map fun c => |c.mustar2 * c.nmu|).sum = 0 := by
    refine List.sum_eq_zero fun x hx => ?_
    obtain ⟨c, hc, rfl⟩ := List.mem_map.1 hx
    rw [hd c hc, abs_zero]
  have key : ∀ f g : SVRCoeffs → ℝ, (∀ c ∈ cs, g c * f c = 0) → anyPositive (cs.map f) (cs.map g) = false := by
    intro f g h
    refine anyPositive_zero _ _ fun t ht => ?_
    rw [List.zipWith_map] at ht
    rw [List.zipWith_self] at ht
    obtain ⟨c, hc, rfl⟩ := List.mem_map.1 ht
    rw [mul_comm]
    exact h c hc
  unfold svrBuildPolar
  simp only
  rw [if_neg fun h => h.1 h0]
  unfold GVMulti.make svrPolarArrays
  simp [key _ _ hd, key _ _ hq, Outcome.bind]

/-- An empty polar term adds nothing. -/
theorem svr_empty_polar (multi : String → List ℝ → List ℝ → ℝ → ℝ → ℝ → List ℝ → Outcome ℝ) (cs : List SVRCoeffs) (t : SVR cs.length)
    (NA EPS T rho : ℝ) (x : List ℝ) :
    (⟨cs, t, some (.grossVrabec ⟨none, none, none⟩)⟩ : SVRMixture).alphar multi NA EPS T rho x = (⟨cs, t, none⟩ : SVRMixture).alphar multi NA EPS T rho x := by
  unfold SVRMixture.alphar
  congr 1
  funext v
  simp [GVMulti.eval, Outcome.bind]

theorem svrLibrary_nonpolar (name : String) (c : SVRCoeffs) (h : svrLibrary name = .ok c) : c.mustar2 * c.nmu = 0 ∧ c.Qstar2 * c.nQ = 0 := by
  unfold svrLibrary at h
  split at h
  · rw [← Outcome.ok.inj h]; simp
  · split at h
    · rw [← Outcome.ok.inj h]; simp
    · split at h
      · rw [← Outcome.ok.inj h]; simp
      · cases h

/-! ## The factories -/

/-- C113. For names the factory of the general class and that of the nonpolar class give the same residual Helmholtz energies, although the
first one always reports a polar term. -/
theorem svrFactory_names (j : JTree) (mx : SVRMixture) (hn : j.contains "names" = true) (h : svrFactory j = .ok mx) :
    mx.polar = some (.grossVrabec ⟨none, none, none⟩) ∧ svrNonpolarFactory j = .ok { mx with polar := none } ∧
      ∀ multi NA EPS T rho x, mx.alphar multi NA EPS T rho x = ({ mx with polar := none } : SVRMixture).alphar multi NA EPS T rho x := by
  unfold svrFactory at h
  obtain ⟨k, hk, h⟩ := Outcome.bind_eq_ok.1 h
  rw [if_pos hn] at h
  obtain ⟨names, hnames, h⟩ := Outcome.bind_eq_ok.1 h
  obtain ⟨u, hu, h⟩ := Outcome.bind_eq_ok.1 h
  obtain ⟨cs, hcs, h⟩ := Outcome.bind_eq_ok.1 h
  unfold SVRMixture.ofCoeffs at h
  obtain ⟨t, ht, h⟩ := Outcome.bind_eq_ok.1 h
  have hmem : ∀ c ∈ cs, c.mustar2 * c.nmu = 0 ∧ c.Qstar2 * c.nQ = 0 := by
    intro c hc
    have hf := (mapOutcome_ok _ _ _).1 hcs
    obtain ⟨i, hi, rfl⟩ := List.mem_iff_getElem.1 hc
    have := hf.get (i := i) (by rw [hf.length_eq]; exact hi) hi
    exact svrLibrary_nonpolar _ _ this
  rw [svrBuildPolar_empty cs (fun c hc => (hmem c hc).1) (fun c hc => (hmem c hc).2), Outcome.bind_ok] at h
  have e := Outcome.ok.inj h
  subst e
  refine ⟨rfl, ?_, fun multi NA EPS T rho x => svr_empty_polar multi cs t NA EPS T rho x⟩
  unfold svrNonpolarFactory
  rw [hk, Outcome.bind_ok, if_pos hn, hnames, Outcome.bind_ok, hu, Outcome.bind_ok, hcs, Outcome.bind_ok, ht, Outcome.bind_ok]

theorem svrLegacy_nonpolar (e : JTree) (c : SVRCoeffs) (h : svrIsPolar e = false) : svrLegacy e c = .ok c := by
  unfold svrIsPolar at h
  simp only [Bool.or_eq_false_iff, Bool.and_eq_false_imp] at h
  obtain ⟨⟨⟨⟨⟨h1, h2⟩, _⟩, _⟩, _⟩, _⟩ := h
  have n1 : ¬(e.contains "(mu^*)^2" = true ∧ e.contains "nmu" = true) := by
    rintro ⟨a, b⟩
    rw [h1 a] at b
    cases b
  have n2 : ¬(e.contains "(Q^*)^2" = true ∧ e.contains "nQ" = true) := by
    rintro ⟨a, b⟩
    rw [h2 a] at b
    cases b
  unfold svrLegacy
  rw [if_neg n1, Outcome.bind_ok, if_neg n2]

/-- C113. For coefficients that say nothing about polar moments the two factories do the same, including the exceptions. -/
theorem svrFactory_nonpolar (j jc : JTree) (hn : j.contains "names" = false) (hc : j.at "coeffs" = .ok jc) (hp : jc.items.any svrIsPolar = false) :
    svrFactory j = svrNonpolarFactory j := by
  unfold svrFactory svrNonpolarFactory
  have hmap : ∀ l : List JTree, l.any svrIsPolar = false → mapOutcome (fun e => (svrCoeffs e).bind (svrLegacy e)) l = mapOutcome svrCoeffs l := by
    intro l
    induction l with
    | nil => intro _; rfl
    | cons e l ih =>
      intro h
      rw [List.any_cons, Bool.or_eq_false_iff] at h
      have he : (svrCoeffs e).bind (svrLegacy e) = svrCoeffs e := by
        cases hx : svrCoeffs e with
        | ok c => rw [Outcome.bind_ok, svrLegacy_nonpolar e c h.1]
        | _ => rfl
      simp only [mapOutcome]
      rw [he, ih h.2]
  simp only [hn, hc, Outcome.bind_ok, hmap _ hp, hp]
  simp

/-- C113. Only the names and the interaction matrix matter when names are given: other keys, such as coefficients, flags or a polar model,
are not looked at. -/
theorem svrFactory_names_only (j j' : JTree) (hn : j.contains "names" = true) (hn' : j'.contains "names" = true)
    (h1 : j.at "names" = j'.at "names") (h2 : j.at "kmat" = j'.at "kmat") : svrFactory j = svrFactory j' := by
  unfold svrFactory pcKmat
  simp only [hn, hn', h1, h2, if_true]

/-- C113. A document with neither names nor coefficients is refused. -/
theorem svrFactory_neither (j : JTree) (k : Option SqMat) (hk : pcKmat j = .ok k) (hn : j.contains "names" = false) (hc : j.contains "coeffs" = false) :
    svrFactory j = .throws .stdInvalidArgument := by
  unfold svrFactory
  simp [hk, hn, hc, Outcome.bind]

/-- C113. An unknown polar model is refused. -/
theorem svrPolarOf_unknown (kind : String) (ms : List SVRMoments) (h : kind ∉ ["GrossVrabec", "GubbinsTwu+Luckas", "GubbinsTwu+GubbinsTwu",
    "GubbinsTwu+Gottschalk", "GubbinsTwu+Luckas+GubbinsTwuRhostar", "GubbinsTwu+GubbinsTwu+GubbinsTwuRhostar", "GrayGubbins+GubbinsTwu",
    "GrayGubbins+Luckas"]) : svrPolarOf kind ms = .throws .invalidArgument := by
  simp only [List.mem_cons, List.not_mem_nil, or_false, not_or] at h
  obtain ⟨h1, h2, h3, h4, h5, h6, h7, h8⟩ := h
  simp [svrPolarOf, h1, h2, h3, h4, h5, h6, h7, h8]

theorem svrPolarFactor_pos : 0 < svrPolarFactor := by
  unfold svrPolarFactor
  positivity

/-- C113. The reduced moments in the old form survive the conversion to SI units and back. -/
theorem svr_legacy_roundtrip (j : JTree) (q : SVRMoments) (h : svrMoments j = .ok q) (hm : 0 < q.m) (he : 0 < q.eps) (hs : 0 < q.sigma) :
    (∀ v, 0 ≤ v → j.contains "nmu" = true → j.at "(mu^*)^2" = .ok (.num v) → q.mustar2 = v) ∧
      (∀ v, 0 ≤ v → j.contains "nQ" = true → j.at "(Q^*)^2" = .ok (.num v) → q.Qstar2 = v) := by
  unfold svrMoments at h
  obtain ⟨m, h1, h⟩ := Outcome.bind_eq_ok.1 h
  obtain ⟨sigma, h2, h⟩ := Outcome.bind_eq_ok.1 h
  obtain ⟨eps, h3, h⟩ := Outcome.bind_eq_ok.1 h
  obtain ⟨mu, h4, h⟩ := Outcome.bind_eq_ok.1 h
  obtain ⟨Q, h5, h⟩ := Outcome.bind_eq_ok.1 h
  obtain ⟨nmu, h6, h⟩ := Outcome.bind_eq_ok.1 h
  obtain ⟨nQ, h7, h⟩ := Outcome.bind_eq_ok.1 h
  have e := Outcome.ok.inj h
  subst e
  simp only at hm he hs
  have hF := svrPolarFactor_pos
  have hat : ∀ k v, j.at k = .ok v → j.contains k = true := by
    intro k v hk
    cases j with
    | obj fs =>
      simp only [JTree.at, JTree.contains] at hk ⊢
      cases hl : fs.lookup k with
      | none => rw [hl] at hk; cases hk
      | some w => rfl
    | _ => cases hk
  refine ⟨fun v hv hn hat2 => ?_, fun v hv hn hat2 => ?_⟩
  · unfold svrDipole at h4
    rw [if_pos ⟨hat _ _ hat2, hn⟩] at h4
    unfold numAt at h4
    rw [hat2] at h4
    simp only [Outcome.bind_ok, JTree.toDouble] at h4
    have h4' := Outcome.ok.inj h4
    unfold SVRMoments.mustar2
    simp only [← h4']
    rw [Real.sq_sqrt (by positivity)]
    field_simp
  · unfold svrQuadrupole at h5
    rw [if_pos ⟨hat _ _ hat2, hn⟩] at h5
    unfold numAt at h5
    rw [hat2] at h5
    simp only [Outcome.bind_ok, JTree.toDouble] at h5
    have h5' := Outcome.ok.inj h5
    unfold SVRMoments.Qstar2
    simp only [← h5']
    rw [Real.sq_sqrt (by positivity)]
    field_simp

/-- C113, finding. With the default polar model a dipole or quadrupole moment has no effect unless the number of polar segments is given too: the
missing number is taken to be zero. -/
theorem svr_missing_number (ms : List SVRMoments) (h : ∀ q ∈ ms, q.nmu = 0 ∧ q.nQ = 0) :
    svrPolarOf "GrossVrabec" ms = .ok (.grossVrabec ⟨none, none, none⟩) := by
  have key : ∀ f g : SVRMoments → ℝ, (∀ q ∈ ms, f q = 0) → anyPositive (ms.map f) (ms.map g) = false := by
    intro f g h
    refine anyPositive_zero _ _ fun t ht => ?_
    rw [List.zipWith_map, List.zipWith_self] at ht
    obtain ⟨c, hc, rfl⟩ := List.mem_map.1 ht
    rw [h c hc, zero_mul]
  unfold svrPolarOf
  rw [if_pos rfl]
  unfold GVMulti.make svrGVArrays
  simp [key _ _ fun q hq => (h q hq).1, key _ _ fun q hq => (h q hq).2, Outcome.bind]

theorem svrMoments_number (j : JTree) (q : SVRMoments) (h : svrMoments j = .ok q) (h1 : j.contains "nmu" = false) (h2 : j.contains "nQ" = false) :
    q.nmu = 0 ∧ q.nQ = 0 := by
  unfold svrMoments at h
  obtain ⟨m, _, h⟩ := Outcome.bind_eq_ok.1 h
  obtain ⟨sigma, _, h⟩ := Outcome.bind_eq_ok.1 h
  obtain ⟨eps, _, h⟩ := Outcome.bind_eq_ok.1 h
  obtain ⟨mu, _, h⟩ := Outcome.bind_eq_ok.1 h
  obtain ⟨Q, _, h⟩ := Outcome.bind_eq_ok.1 h
  obtain ⟨nmu, h6, h⟩ := Outcome.bind_eq_ok.1 h
  obtain ⟨nQ, h7, h⟩ := Outcome.bind_eq_ok.1 h
  rw [h1] at h6
  rw [h2] at h7
  rw [← Outcome.ok.inj h]
  exact ⟨(Outcome.ok.inj h6).symm, (Outcome.ok.inj h7).symm⟩

/-- C113. Every model the factory makes has one interaction matrix entry for each pair: the matrix of the document is absent or of the size of the
list of components. -/
theorem svrFactory_fits (j : JTree) (mx : SVRMixture) (h : svrFactory j = .ok mx) :
    pcKmat j = .ok none ∨ ∃ k, pcKmat j = .ok (some k) ∧ k.n = mx.coeffs.length := by
  have fit : ∀ (k : Option SqMat) (N : ℕ) (u : Unit), pcKmatFits k N = .ok u → k = none ∨ ∃ m, k = some m ∧ m.n = N := by
    intro k N u hk
    cases k with
    | none => exact Or.inl rfl
    | some m =>
      unfold pcKmatFits at hk
      by_cases hm : m.n = N
      · exact Or.inr ⟨m, rfl, hm⟩
      · simp [hm] at hk
  unfold svrFactory at h
  obtain ⟨k, hk, h⟩ := Outcome.bind_eq_ok.1 h
  rw [hk]
  have fin : ∀ N, N = mx.coeffs.length → (k = none ∨ ∃ m, k = some m ∧ m.n = N) → (Outcome.ok k = Outcome.ok none ∨ ∃ m, Outcome.ok k = Outcome.ok (some m) ∧ m.n = mx.coeffs.length) := by
    rintro N hN (h | ⟨m, h, hm⟩)
    · exact Or.inl (by rw [h])
    · exact Or.inr ⟨m, by rw [h], hm.trans hN⟩
  split at h
  · obtain ⟨names, _, h⟩ := Outcome.bind_eq_ok.1 h
    obtain ⟨u, hu, h⟩ := Outcome.bind_eq_ok.1 h
    obtain ⟨cs, hcs, h⟩ := Outcome.bind_eq_ok.1 h
    unfold SVRMixture.ofCoeffs at h
    obtain ⟨t, _, h⟩ := Outcome.bind_eq_ok.1 h
    obtain ⟨pol, _, h⟩ := Outcome.bind_eq_ok.1 h
    have e := Outcome.ok.inj h
    subst e
    exact fin _ ((mapOutcome_ok _ _ _).1 hcs).length_eq (fit _ _ _ hu)
  · split at h
    · obtain ⟨jc, _, h⟩ := Outcome.bind_eq_ok.1 h
      obtain ⟨cs, hcs, h⟩ := Outcome.bind_eq_ok.1 h
      obtain ⟨u, hu, h⟩ := Outcome.bind_eq_ok.1 h
      split at h
      · obtain ⟨t, _, h⟩ := Outcome.bind_eq_ok.1 h
        have e := Outcome.ok.inj h
        subst e
        exact fin _ rfl (fit _ _ _ hu)
      · obtain ⟨kind, _, h⟩ := Outcome.bind_eq_ok.1 h
        obtain ⟨ms, _, h⟩ := Outcome.bind_eq_ok.1 h
        obtain ⟨t, _, h⟩ := Outcome.bind_eq_ok.1 h
        obtain ⟨pol, _, h⟩ := Outcome.bind_eq_ok.1 h
        have e := Outcome.ok.inj h
        subst e
        exact fin _ rfl (fit _ _ _ hu)
    · cases h

/-! ## Examples -/

/-- Methane by name. -/
example : ∃ mx, svrFactory (.obj [("names", .arr [.str "Methane"]), ("SAFTVRMie_flags", .num 3)]) = .ok mx ∧ mx.polar.isSome = true := by
  have hk : List.lookup "kmat" [("names", JTree.arr [JTree.str "Methane"]), ("SAFTVRMie_flags", JTree.num 3)] = none := by decide
  have hl : svrLibrary "Methane" = .ok { name := "Methane", m := 1, sigma := 3.7412e-10, eps := 153.36, lr := 12.650, la := 6, bibtex := "Lafitte-JCP-2001" } := by
    simp [svrLibrary]
  simp [hk, svrFactory, pcKmat, pcKmatFits, JTree.at, JTree.contains, JTree.toStrs, JTree.toStr, mapOutcome, hl, SVRMixture.ofCoeffs, svrChain, svrRule,
    Outcome.bind, svrBuildPolar_empty]

example : svrBuildPolar [{ name := "both", mustar2 := 1, nmu := 1, Qstar2 := 2, nQ := 1 }] = .ok none :=
  svrBuildPolar_drops _ (by norm_num) (by norm_num)

example (v : ℕ → ℕ → ℝ) : svrChain [{ name := "one" }] (some ⟨0, v⟩) none = .ub := svrChain_empty_ub _ v none (by simp) (by simp [svrRule])

end Teqp.Props
