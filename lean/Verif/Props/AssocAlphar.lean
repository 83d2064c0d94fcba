import Verif.Props.Assoc

/-! # C57: the association contribution to the Helmholtz energy -/

set_option autoImplicit false

namespace Teqp.Props
open Teqp.Model Teqp.Spec Teqp.Lemmas Finset

variable {n : ℕ}

theorem site_term_bounds (X : ℝ) (h0 : 0 < X) (h1 : X ≤ 1) :
    Real.log X ≤ Real.log X - X * (1/2) + 1/2 ∧ Real.log X - X * (1/2) + 1/2 ≤ 0 := by
  have := Real.log_le_sub_one_of_pos h0
  constructor <;> linarith

/-- With fractions in `(0, 1]` the contribution is never positive. -/
theorem assocSum_nonpos (x : List ℝ) (hx : ∀ i < x.length, 0 ≤ x.getD i 0) (comp count : Fin n → ℕ)
    (X : Fin n → ℝ) (hX : ∀ i, 0 < X i ∧ X i ≤ 1) : assocSum x comp count X ≤ 0 := by
  unfold assocSum
  refine Finset.sum_nonpos fun i hi => mul_nonpos_of_nonneg_of_nonpos (hx i (mem_range.mp hi)) ?_
  refine Finset.sum_nonpos fun I _ => ?_
  split
  · exact mul_nonpos_of_nonpos_of_nonneg (site_term_bounds (X I) (hX I).1 (hX I).2).2 (Nat.cast_nonneg _)
  · exact le_rfl

/-- ... and not below minus the number of sites per molecule times `ln (1 + A)`. -/
theorem assocSum_lower (A : ℝ) (hA : 0 ≤ A) (x : List ℝ) (hx : ∀ i < x.length, 0 ≤ x.getD i 0) (comp count : Fin n → ℕ)
    (X : Fin n → ℝ) (hX : ∀ i, (1 + A)⁻¹ ≤ X i ∧ X i ≤ 1) :
    -(∑ i ∈ range x.length, x.getD i 0 * ∑ I : Fin n, if comp I = i then (count I : ℝ) else 0) * Real.log (1 + A) ≤
      assocSum x comp count X := by
  unfold assocSum
  rw [neg_mul, Finset.sum_mul, ← Finset.sum_neg_distrib]
  refine Finset.sum_le_sum fun i hi => ?_
  rw [mul_assoc, ← mul_neg]
  refine mul_le_mul_of_nonneg_left ?_ (hx i (mem_range.mp hi))
  rw [Finset.sum_mul, ← Finset.sum_neg_distrib]
  refine Finset.sum_le_sum fun I _ => ?_
  split
  · have h0 : 0 < X I := lt_of_lt_of_le (inv_pos.mpr (by linarith)) (hX I).1
    have h1 := (site_term_bounds (X I) h0 (hX I).2).1
    have h2 : -Real.log (1 + A) ≤ Real.log (X I) := by
      rw [← Real.log_inv]
      exact Real.log_le_log (inv_pos.mpr (by linarith)) (hX I).1
    have hc : (0 : ℝ) ≤ count I := Nat.cast_nonneg _
    change -((count I : ℝ) * Real.log (1 + A)) ≤ (Real.log (X I) - X I * (1/2) + 1/2) * (count I : ℝ)
    have := mul_le_mul_of_nonneg_right (h2.trans h1) hc
    linarith
  · simp

/-- Without bonds there is no contribution. -/
theorem assocSum_ones (x : List ℝ) (comp count : Fin n → ℕ) : assocSum x comp count (fun _ => (1 : ℝ)) = 0 := by
  unfold assocSum
  refine Finset.sum_eq_zero fun i _ => ?_
  rw [Finset.sum_eq_zero, mul_zero]
  intro I _
  split
  · change (Real.log 1 - 1 * (1/2) + 1/2) * (count I : ℝ) = 0
    rw [Real.log_one]; ring
  · rfl

/-- The solver keeps the fractions physical in both branches. -/
theorem assocSolve_physical (o : AssocOptions) (h0 : 0 ≤ o.alpha) (h1 : o.alpha ≤ 1) (ncomp : ℕ) (rho NA : ℝ)
    (Delta : Fin n → Fin n → ℝ) (D : Fin n → Fin n → ℕ) (count : Fin n → ℕ) (xj X : Fin n → ℝ) (hrho : 0 ≤ rho)
    (hNA : 0 ≤ NA) (hΔ : ∀ i j, 0 ≤ Delta i j) (hx : ∀ i, 0 ≤ xj i) (hX : ∀ i, 0 < X i ∧ X i ≤ 1) (i : Fin n) :
    0 < assocSolve o ncomp rho NA Delta D count xj X i ∧ assocSolve o ncomp rho NA Delta D count xj X i ≤ 1 := by
  have hK : ∀ i j, 0 ≤ rDDX rho NA Delta D xj i j := fun i j => by
    unfold rDDX
    have : (0 : ℝ) ≤ ADScalar.ofR (D i j : ℝ) := Nat.cast_nonneg (α := ℝ) _
    exact mul_nonneg (mul_nonneg (mul_nonneg hrho hNA) (mul_nonneg (hΔ i j) this)) (hx j)
  by_cases hcond : useExplicit o ncomp (rDDX rho NA Delta D xj)
  · unfold assocSolve
    simp only
    rw [dif_pos hcond]
    have h2 : n = 2 := hcond.2.2.1
    generalize hi0 : (⟨0, by omega⟩ : Fin n) = i0
    generalize hi1 : (⟨1, by omega⟩ : Fin n) = i1
    have hkA : 0 ≤ rho * NA * ADScalar.ofR (count i0 : ℝ) * Delta i0 i1 :=
      mul_nonneg (mul_nonneg (mul_nonneg hrho hNA) (Nat.cast_nonneg (α := ℝ) _)) (hΔ _ _)
    have hkB : 0 ≤ rho * NA * ADScalar.ofR (count i1 : ℝ) * Delta i0 i1 :=
      mul_nonneg (mul_nonneg (mul_nonneg hrho hNA) (Nat.cast_nonneg (α := ℝ) _)) (hΔ _ _)
    generalize rho * NA * ADScalar.ofR (count i0 : ℝ) * Delta i0 i1 = κA at hkA
    generalize rho * NA * ADScalar.ofR (count i1 : ℝ) * Delta i0 i1 = κB at hkB
    have hX0 : 0 < explicitX0 κA κB (X i0) ∧ explicitX0 κA κB (X i0) ≤ 1 := by
      rcases hkA.lt_or_eq with h | h
      · obtain ⟨a, b, -⟩ := explicit_massAction κA κB (X i0) h hkB
        exact ⟨a, b⟩
      · rw [← h, explicit_zero]
        exact hX i0
    split
    · exact hX0
    · have : 0 ≤ κA * explicitX0 κA κB (X i0) := mul_nonneg hkA hX0.1.le
      exact ⟨inv_pos.mpr (by linarith), inv_le_one_of_one_le₀ (by linarith)⟩
  · unfold assocSolve
    simp only
    rw [dif_neg hcond]
    exact ssLoop_physical o.alpha o.rtol o.atol h0 h1 _ hK _ X hX i

/-- Parameters and a state in the physical range: nothing negative, a packing fraction below the pole of the
radial distribution function, and damping between zero and one. -/
structure AssocValid (a : AssocModel) (R NA T rho : ℝ) (x : List ℝ) : Prop where
  hR : 0 < R
  hNA : 0 < NA
  hT : 0 < T
  hrho : 0 ≤ rho
  hxlen : x.length = a.ncomp
  hx : ∀ i < x.length, 0 ≤ x.getD i 0
  hblen : a.data.b.length = x.length
  hbetalen : a.data.beta.length = x.length
  hepslen : a.data.epsilon.length = x.length
  hb : ∀ i, 0 ≤ a.data.b.getD i 0
  hbeta : ∀ i, 0 ≤ a.data.beta.getD i 0
  heps : ∀ i, 0 ≤ a.data.epsilon.getD i 0
  hsites : ∀ s ∈ a.sites, s.comp < x.length
  hrd : ∃ d, a.data.radialDist = some d ∧
    (∑ i ∈ range x.length, x.getD i 0 * a.data.b.getD i 0) * rho / 4 < (match d with | .CS => 1 | .KG => 1 / 1.9)
  halpha0 : 0 ≤ a.opts.alpha
  halpha1 : a.opts.alpha ≤ 1

theorem assocG_pos (d : RadialDist) (eta : ℝ) (h : eta < (match d with | .CS => 1 | .KG => 1 / 1.9)) :
    0 < assocG d eta := by
  cases d with
  | CS =>
    simp only at h
    unfold assocG
    simp only
    have : 0 < 1 - eta := by linarith
    have : 0 < 2 - eta := by linarith
    positivity
  | KG =>
    simp only at h
    unfold assocG
    simp only
    rw [lt_div_iff₀ (by norm_num)] at h
    have : 0 < 1 - 1.9 * eta := by linarith
    positivity

theorem getDelta_ok (a : AssocModel) (R NA T rho : ℝ) (x : List ℝ) (h : AssocValid a R NA T rho x) :
    ∃ Δ, getDelta R NA T rho x a.data a.sites = .ok Δ ∧ ∀ i j, 0 ≤ Δ i j := by
  obtain ⟨d, hd, heta⟩ := h.hrd
  unfold getDelta
  rw [if_neg (by
    rintro (h' | h' | h' | ⟨s, hs, h'⟩)
    · exact h' h.hblen
    · exact h' h.hbetalen
    · exact h' h.hepslen
    · exact absurd (h.hsites s hs) (not_lt.mpr h')), hd]
  simp only
  generalize (∑ i ∈ range x.length, x.getD i 0 * a.data.b.getD i 0) * rho / 4 = eta at heta
  have hg := assocG_pos d eta heta
  rw [if_neg]
  · refine ⟨_, rfl, fun i j => ?_⟩
    unfold cr1Delta
    have hexp : 0 ≤ Real.exp ((a.data.epsilon.getD i 0 + a.data.epsilon.getD j 0) / 2 / (R * T)) - 1 := by
      rw [sub_nonneg, Real.one_le_exp_iff]
      have := h.heps i
      have := h.heps j
      have := h.hR
      have := h.hT
      positivity
    have := h.hb i
    have := h.hb j
    have := h.hNA
    positivity
  · rintro (h' | h' | ⟨i, -, j, -, h'⟩)
    · exact (mul_pos h.hR h.hT).ne' h'
    · cases d with
      | CS => simp only at h' heta; linarith
      | KG =>
        simp only at h' heta
        rw [lt_div_iff₀ (by norm_num)] at heta
        linarith
    · exact absurd (mul_nonneg (h.hbeta i) (h.hbeta j)) (not_le.mpr h')

/-- For every model and state in the physical range the contribution is a number that is not positive, and
at zero density it is zero. -/
theorem assoc_alphar_nonpos (a : AssocModel) (R NA T rho : ℝ) (x : List ℝ) (h : AssocValid a R NA T rho x) :
    ∃ v, a.alphar R NA T rho x = .ok v ∧ v ≤ 0 ∧ (rho = 0 → v = 0) := by
  obtain ⟨Δ, hΔ, hΔ0⟩ := getDelta_ok a R NA T rho x h
  have hxn : ∀ i, 0 ≤ x.getD i 0 := fun i => by
    by_cases hi : i < x.length
    · exact h.hx i hi
    · simp [List.getD_eq_getElem?_getD, not_lt.mp hi]
  have hone : ∀ I : Fin a.sites.length, (List.replicate a.sites.length (1 : ℝ)).getD I 0 = 1 := fun I => by
    simp [List.getD_eq_getElem?_getD, I.2]
  have hfr : a.fractions R NA T rho x (List.replicate a.sites.length 1) = .ok (assocSolve a.opts x.length rho NA
      (fun I J => Δ (a.sites.get I).comp (a.sites.get J).comp) a.Dmat (fun I => (a.sites.get I).count)
      (fun I => x.getD (a.sites.get I).comp 0) (fun _ => 1)) := by
    unfold AssocModel.fractions
    rw [if_neg (by simp), hΔ, Outcome.bind_ok]
    simp only [hone]
  have hphys := assocSolve_physical a.opts h.halpha0 h.halpha1 x.length rho NA
    (fun I J => Δ (a.sites.get I).comp (a.sites.get J).comp) a.Dmat (fun I => (a.sites.get I).count)
    (fun I => x.getD (a.sites.get I).comp 0) (fun _ => 1) h.hrho h.hNA.le (fun _ _ => hΔ0 _ _) (fun _ => hxn _)
    (fun _ => ⟨one_pos, le_rfl⟩)
  unfold AssocModel.alphar
  rw [if_neg (by simp [h.hxlen]), hfr, Outcome.bind_ok, if_neg (by
    rintro ⟨I, hI⟩
    exact absurd (hphys I).1 (not_lt.mpr hI))]
  refine ⟨_, rfl, assocSum_nonpos x h.hx _ _ _ hphys, ?_⟩
  rintro rfl
  convert assocSum_ones x (fun I => (a.sites.get I).comp) (fun I => (a.sites.get I).count) using 2
  -- at zero density nothing is bonded
  unfold assocSolve
  have hK : rDDX (0 : ℝ) NA (fun I J => Δ (a.sites.get I).comp (a.sites.get J).comp) a.Dmat
      (fun I => x.getD (a.sites.get I).comp 0) = fun _ _ => 0 := by
    funext I J; unfold rDDX; simp
  simp only [hK]
  split
  · funext I
    simp only [zero_mul]
    rw [explicit_zero]
    split
    · rfl
    · change (1 + (0 : ℝ))⁻¹ = 1
      norm_num
  · generalize a.opts.maxIters.toNat = m
    obtain ⟨k, -, he, -⟩ := ssLoop_real a.opts.alpha a.opts.rtol a.opts.atol
      (fun _ _ => 0 : Fin a.sites.length → Fin a.sites.length → ℝ) m (fun _ => 1)
    rw [he]
    clear he
    induction k with
    | zero => rfl
    | succ k ih =>
      rw [Function.iterate_succ_apply', ih]
      funext I
      simp [maG, maF]

/-- A composition of the wrong size is refused, and so is an initial array of the wrong size. -/
theorem assoc_sizes_refused (a : AssocModel) (R NA T rho : ℝ) (x X : List ℝ) :
    (x.length ≠ a.ncomp → a.alphar R NA T rho x = .throws .invalidArgument) ∧
    (X.length ≠ a.sites.length → a.fractions R NA T rho x X = .throws .invalidArgument) :=
  ⟨fun h => by unfold AssocModel.alphar; rw [if_pos h], fun h => by unfold AssocModel.fractions; rw [if_pos h]⟩

/-! ## Concrete cases -/

/-- A pure fluid with two kinds of sites of multiplicity two (the 4C scheme of water). -/
noncomputable def waterLike : AssocModel :=
  ⟨{ partners := [("H", ["e"]), ("e", ["H"])] }, 1, [⟨0, "H", 2⟩, ⟨0, "e", 2⟩], [[0, 2], [2, 0]],
    ⟨[15e-6], [0.07], [16000], some .CS⟩⟩

theorem waterLike_valid : AssocValid waterLike 8 6e23 300 1000 [1] where
  hR := by norm_num
  hNA := by norm_num
  hT := by norm_num
  hrho := by norm_num
  hxlen := rfl
  hx := by
    intro i hi
    have : i = 0 := by simpa using hi
    subst this; norm_num
  hblen := rfl
  hbetalen := rfl
  hepslen := rfl
  hb := by intro i; rcases i with - | i <;> norm_num [waterLike]
  hbeta := by intro i; rcases i with - | i <;> norm_num [waterLike]
  heps := by intro i; rcases i with - | i <;> norm_num [waterLike]
  hsites := by intro s hs; simp [waterLike] at hs; rcases hs with rfl | rfl <;> simp
  hrd := ⟨.CS, rfl, by norm_num [waterLike]⟩
  halpha0 := by norm_num [waterLike]
  halpha1 := by norm_num [waterLike]

example : ∃ v, waterLike.alphar 8 6e23 300 1000 [1] = .ok v ∧ v ≤ 0 :=
  let ⟨v, h1, h2, _⟩ := assoc_alphar_nonpos waterLike 8 6e23 300 1000 [1] waterLike_valid
  ⟨v, h1, h2⟩

/-- Two kinds of sites of multiplicity one with a strength of 2: the fractions are both one half. -/
example : explicitX0 (2 : ℝ) 2 1 = 1 / 2 := by
  obtain ⟨h1, h2, h3⟩ := explicit_massAction 2 2 1 (by norm_num) (by norm_num)
  set X := explicitX0 (2 : ℝ) 2 1
  have hd : (1 + 2 * X) ≠ 0 := by linarith
  field_simp at h3
  have : (2 * X - 1) * (X + 1) = 0 := by linarith
  rcases mul_eq_zero.mp this with h | h <;> linarith

/-- The iteration for one kind of site with strength 2, solution one half: 60 damped steps are enough for four
digits. -/
example (m : ℕ) (hm : 60 ≤ m) :
    |(maG (1/2) (fun _ _ => 2 : Fin 1 → Fin 1 → ℝ))^[m] (fun _ => 1) 0 - 1/2| ≤ 1e-4 := by
  have hM : MassAction (fun _ _ => 2 : Fin 1 → Fin 1 → ℝ) (fun _ => 1/2) :=
    ⟨fun _ => by norm_num, fun _ => by norm_num⟩
  have := (ssLoop_converges (1/2) 1e-12 1e-12 (by norm_num) (by norm_num) (by norm_num) (by norm_num) _
    (fun _ _ => by norm_num) _ hM).1 2 (by norm_num) (by intro i; simp) m 0
  refine this.trans ?_
  have e : (1/2 + (1 - 1/2) * (2 / (1 + 2)) : ℝ) = 5/6 := by norm_num
  rw [e]
  have : (5/6 : ℝ) ^ m ≤ (5/6) ^ 60 := pow_le_pow_of_le_one (by norm_num) (by norm_num) hm
  have : (5/6 : ℝ) ^ 60 ≤ 5e-5 := by norm_num
  linarith

/-! ## What is not checked -/

/-- The damping factor is not checked: with 3 a fraction above one is returned. -/
theorem assoc_alpha_unchecked :
    1 < ssLoop 3 1e-12 1e-12 (fun _ _ => 10 : Fin 1 → Fin 1 → ℝ) 1 (fun _ => 1) 0 := by
  have hs : maG 3 (fun _ _ => 10 : Fin 1 → Fin 1 → ℝ) (fun _ => 1) 0 = 31/11 := by
    norm_num [maG, maF]
  rw [ssLoop]
  refine lt_of_lt_of_eq (b := 31/11) (by norm_num) ?_
  rw [← hs]
  refine (congrFun (if_neg fun h => ?_) 0).symm
  have := h 0
  change |maG 3 (fun _ _ => 10 : Fin 1 → Fin 1 → ℝ) (fun _ => 1) 0 - 1| <
    1e-12 * maG 3 (fun _ _ => 10 : Fin 1 → Fin 1 → ℝ) (fun _ => 1) 0 + 1e-12 at this
  rw [hs, abs_of_pos (by norm_num)] at this
  norm_num at this

/-- With a damping factor of one association is silently switched off: nothing is bonded, whatever the
strengths. -/
theorem assoc_alpha_one (rtol atol : ℝ) (K : Fin n → Fin n → ℝ) (m : ℕ) :
    ssLoop 1 rtol atol K m (fun _ => 1) = fun _ => 1 := by
  obtain ⟨k, -, he, -⟩ := ssLoop_real 1 rtol atol K m (fun _ => 1)
  rw [he]
  clear he
  induction k with
  | zero => rfl
  | succ k ih => rw [Function.iterate_succ_apply', ih]; funext i; simp [maG]

/-- Running out of iterations is not reported: with few iterations the result is far from the
solution. -/
theorem assoc_limit_silent :
    ∃ Y, MassAction (fun _ _ => 2 : Fin 1 → Fin 1 → ℝ) Y ∧
      1/4 ≤ |ssLoop (1/2) 1e-12 1e-12 (fun _ _ => 2 : Fin 1 → Fin 1 → ℝ) 0 (fun _ => 1) 0 - Y 0| := by
  refine ⟨fun _ => 1/2, ⟨fun _ => by norm_num, fun _ => by norm_num⟩, ?_⟩
  rw [ssLoop]
  norm_num

/-- All of these values are accepted from a document. -/
theorem assoc_options_unchecked (α : ℝ) (m : ℕ) :
    assocOptsFromJson (.obj [("alpha", .num α), ("max_iters", .num m)]) =
      .ok { radialDist := some .CS, alpha := α, maxIters := m } := by
  simp [assocOptsFromJson, optDouble, optInt, JTree.toInt, JTree.contains, JTree.at, List.lookup, JTree.toDouble]

end Teqp.Props
