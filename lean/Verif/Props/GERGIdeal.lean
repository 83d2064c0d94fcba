import Verif.Props.GERGMix
import Mathlib.Analysis.SpecialFunctions.Log.Deriv
import Mathlib.Analysis.SpecialFunctions.Trigonometric.DerivHyp

/-! # GERG ideal gas: reference state, ideal-gas law, mixtures -/

set_option autoImplicit false

namespace Teqp.Spec
open Model

/-- What `colPivHouseholderQr().solve` is trusted to do for a regular matrix. -/
def Solves2 (solve : Matrix (Fin 2) (Fin 2) ℝ → (Fin 2 → ℝ) → Fin 2 → ℝ) : Prop :=
  ∀ (A : Matrix (Fin 2) (Fin 2) ℝ) (b : Fin 2 → ℝ), A.det ≠ 0 → A.mulVec (solve A b) = b

/-- A solver with that property: Cramer's rule. -/
noncomputable def gCramer2 (A : Matrix (Fin 2) (Fin 2) ℝ) (b : Fin 2 → ℝ) : Fin 2 → ℝ :=
  ![(b 0 * A 1 1 - A 0 1 * b 1) / A.det, (A 0 0 * b 1 - b 0 * A 1 0) / A.det]

end Teqp.Spec

namespace Teqp.Props
open Model Spec Finset

theorem gcramer2_solves : Solves2 gCramer2 := by
  intro A b h
  funext i
  fin_cases i
  · simp only [Matrix.mulVec, dotProduct, Fin.sum_univ_two, gCramer2, Matrix.cons_val_zero, Matrix.cons_val_one, Fin.zero_eta]
    rw [mul_div_assoc', mul_div_assoc', ← add_div, div_eq_iff h, Matrix.det_fin_two]
    ring
  · simp only [Matrix.mulVec, dotProduct, Fin.sum_univ_two, gCramer2, Matrix.cons_val_zero, Matrix.cons_val_one, Fin.mk_one]
    rw [mul_div_assoc', mul_div_assoc', ← add_div, div_eq_iff h, Matrix.det_fin_two]
    ring

/-- Coefficients that the two conditions of the code, on `n` when the constants are computed and on `theta` when
they are used, treat alike. -/
structure GIdealOk (c : GIdeal) : Prop where
  h4 : c.n4 ≠ 0 ↔ c.th4 ≠ 0
  h5 : c.n5 ≠ 0 ↔ c.th5 ≠ 0
  h6 : c.n6 ≠ 0 ↔ c.th6 ≠ 0
  h7 : c.n7 ≠ 0 ↔ c.th7 ≠ 0

/-- The same for a table entry, with the sizes. -/
def GAig.good (a : GAig) : Bool :=
  match a.n, a.theta with
  | [_, _, n3, n4, n5, n6, n7], [t4, t5, t6, t7] =>
    decide (0 < n3 ∧ (n4 ≠ 0 ↔ t4 ≠ 0) ∧ (n5 ≠ 0 ↔ t5 ≠ 0) ∧ (n6 ≠ 0 ↔ t6 ≠ 0) ∧ (n7 ≠ 0 ↔ t7 ≠ 0))
  | _, _ => false

theorem gerg_aig_table (v : GVer) (f : GFluid) :
    (f ∈ gergComponents v → ∃ a c, gergAigRaw v f = some a ∧ a.pad = .ok c ∧ GIdealOk c ∧ 0 < c.n3) ∧
      (f ∉ gergComponents v → gergAigRaw v f = none) := by
  have key : ∀ v ∈ [GVer.v2004, .v2008], ∀ f ∈ gergNames08,
      (f ∈ gergComponents v → ((gergAigRaw v f).any GAig.good) = true) ∧
      (f ∉ gergComponents v → gergAigRaw v f = none) := by decide +kernel
  obtain ⟨h1, h2⟩ := key v (by cases v <;> simp) f (gerg_mem f)
  refine ⟨fun hf => ?_, h2⟩
  obtain ⟨a, ha, hd⟩ := (Option.any_eq_true _ _).1 (h1 hf)
  obtain ⟨n, th⟩ := a
  unfold GAig.good at hd
  simp only at hd
  split at hd
  · rename_i n1 n2 n3 n4 n5 n6 n7 t4 t5 t6 t7
    have hd := of_decide_eq_true hd
    obtain ⟨p3, p4, p5, p6, p7⟩ := hd
    exact ⟨_, _, ha, rfl, ⟨by simpa using p4, by simpa using p5, by simpa using p6, by simpa using p7⟩, by simpa using p3⟩
  · cases hd

/-- `-T` times the temperature derivative of the ideal-gas Helmholtz energy. -/
noncomputable def gergA10 (c : GIdeal) (tau : ℝ) : ℝ :=
  GIdeal.ratio * (c.n2 * tau + c.n3 + (if c.th4 ≠ 0 then c.n4 * (c.th4 * tau) / Real.tanh (c.th4 * tau) else 0)
    + (if c.th6 ≠ 0 then c.n6 * (c.th6 * tau) / Real.tanh (c.th6 * tau) else 0)
    - c.n5 * (c.th5 * tau) * Real.tanh (c.th5 * tau) - c.n7 * (c.th7 * tau) * Real.tanh (c.th7 * tau))

theorem log_sinh_deriv (n th Tc T : ℝ) (hT : 0 < T) (hTc : 0 < Tc) :
    HasDerivAt (fun T => if th ≠ 0 then n * Real.log |Real.sinh (th * Tc / T)| else 0)
      (-(if th ≠ 0 then n * (th * (Tc / T)) / Real.tanh (th * (Tc / T)) else 0) / T) T := by
  by_cases h : th = 0
  · simp only [h, ne_eq, not_true_eq_false, if_false, neg_zero, zero_div]
    exact hasDerivAt_const _ _
  · simp only [ne_eq, h, not_false_eq_true, if_true, Real.log_abs]
    have hu : HasDerivAt (fun T : ℝ => th * Tc / T) (-(th * Tc) / T ^ 2) T := by
      have := (hasDerivAt_inv hT.ne').const_mul (th * Tc)
      refine this.congr_deriv ?_
      field_simp
    have hne : Real.sinh (th * Tc / T) ≠ 0 := by
      rw [Ne, Real.sinh_eq_zero]
      positivity
    refine ((hu.sinh.log hne).const_mul n).congr_deriv ?_
    rw [Real.tanh_eq_sinh_div_cosh, show th * (Tc / T) = th * Tc / T by ring]
    have hc := (Real.cosh_pos (th * Tc / T)).ne'
    field_simp

theorem log_cosh_deriv (n th Tc T : ℝ) (hT : 0 < T) :
    HasDerivAt (fun T => if th ≠ 0 then n * Real.log |Real.cosh (th * Tc / T)| else 0)
      (-(n * (th * (Tc / T)) * Real.tanh (th * (Tc / T))) / T) T := by
  by_cases h : th = 0
  · simp only [h, ne_eq, not_true_eq_false, if_false, zero_mul, mul_zero, neg_zero, zero_div]
    exact hasDerivAt_const _ _
  · simp only [ne_eq, h, not_false_eq_true, if_true, Real.log_abs]
    have hu : HasDerivAt (fun T : ℝ => th * Tc / T) (-(th * Tc) / T ^ 2) T := by
      have := (hasDerivAt_inv hT.ne').const_mul (th * Tc)
      refine this.congr_deriv ?_
      field_simp
    have hc := (Real.cosh_pos (th * Tc / T)).ne'
    refine ((hu.cosh.log hc).const_mul n).congr_deriv ?_
    rw [Real.tanh_eq_sinh_div_cosh, show th * (Tc / T) = th * Tc / T by ring]
    field_simp

theorem gerg_ideal_deriv (c : GIdeal) (Tc rhoc T rho : ℝ) (hT : 0 < T) (hTc : 0 < Tc) :
    HasDerivAt (fun T => c.pure Tc rhoc T rho) (-(gergA10 c (Tc / T)) / T) T := by
  unfold GIdeal.pure
  have h1 : HasDerivAt (fun T : ℝ => c.n1 + c.n2 * Tc / T) (-(c.n2 * (Tc / T)) / T) T := by
    have := ((hasDerivAt_inv hT.ne').const_mul (c.n2 * Tc)).const_add c.n1
    refine this.congr_deriv ?_
    field_simp
  have h2 : HasDerivAt (fun T : ℝ => c.n3 * Real.log (Tc / T)) (-c.n3 / T) T := by
    have hu : HasDerivAt (fun T : ℝ => Tc / T) (-Tc / T ^ 2) T := by
      have := (hasDerivAt_inv hT.ne').const_mul Tc
      refine this.congr_deriv ?_
      field_simp
    refine ((hu.log (div_pos hTc hT).ne').const_mul c.n3).congr_deriv ?_
    field_simp
  have h4 := log_sinh_deriv c.n4 c.th4 Tc T hT hTc
  have h6 := log_sinh_deriv c.n6 c.th6 Tc T hT hTc
  have h5 := log_cosh_deriv c.n5 c.th5 Tc T hT
  have h7 := log_cosh_deriv c.n7 c.th7 Tc T hT
  refine (((((((h1.add h2).add h4).add h6).sub h5).sub h7).const_mul GIdeal.ratio).const_add _).congr_deriv ?_
  unfold gergA10
  ring

/-- C103. For coefficients of the tables, the integration constants computed by the code make enthalpy and entropy
of the pure ideal gas zero at 298.15 K and 101325 Pa: `h/(RT) = 1 - T da/dT`, `s/R = -T da/dT - a`. -/
theorem gerg_reference (solve : Matrix (Fin 2) (Fin 2) ℝ → (Fin 2 → ℝ) → Fin 2 → ℝ) (hs : Solves2 solve) (c : GIdeal)
    (hc : GIdealOk c) (Tc rhoc : ℝ) (hTc : 0 < Tc) :
    (∀ rho, 1 - 298.15 * deriv (fun T => (c.reset solve Tc rhoc).pure Tc rhoc T rho) 298.15 = 0) ∧
    -(298.15 * deriv (fun T => (c.reset solve Tc rhoc).pure Tc rhoc T (101325 / (8.314472 * 298.15))) 298.15)
      - (c.reset solve Tc rhoc).pure Tc rhoc 298.15 (101325 / (8.314472 * 298.15)) = 0 := by
  have hT : (0 : ℝ) < 298.15 := by norm_num
  have hr : (0 : ℝ) < GIdeal.ratio := by unfold GIdeal.ratio; norm_num
  -- the two equations
  obtain ⟨A00, hA00⟩ : ∃ a : ℝ, a = Real.log (GIdeal.rho0 / rhoc) + GIdeal.ratio * (c.n3 * Real.log (Tc / 298.15)
    + (if c.n4 ≠ 0 then c.n4 * Real.log |Real.sinh (c.th4 * Tc / 298.15)| else 0)
    + (if c.n6 ≠ 0 then c.n6 * Real.log |Real.sinh (c.th6 * Tc / 298.15)| else 0)
    - (if c.n5 ≠ 0 then c.n5 * Real.log |Real.cosh (c.th5 * Tc / 298.15)| else 0)
    - (if c.n7 ≠ 0 then c.n7 * Real.log |Real.cosh (c.th7 * Tc / 298.15)| else 0)) := ⟨_, rfl⟩
  obtain ⟨A10, hA10⟩ : ∃ a : ℝ, a = GIdeal.ratio * (c.n3
    + (if c.n4 ≠ 0 then c.n4 * c.th4 * Tc / 298.15 / Real.tanh (c.th4 * Tc / 298.15) else 0)
    + (if c.n6 ≠ 0 then c.n6 * c.th6 * Tc / 298.15 / Real.tanh (c.th6 * Tc / 298.15) else 0)
    - c.n5 * c.th5 * Tc / 298.15 * Real.tanh (c.th5 * Tc / 298.15) - c.n7 * c.th7 * Tc / 298.15 * Real.tanh (c.th7 * Tc / 298.15)) := ⟨_, rfl⟩
  have hrec : GIdeal.recalc solve c 298.15 Tc GIdeal.rho0 rhoc GIdeal.ratio =
      solve !![0, GIdeal.ratio * Tc / 298.15; 0 - GIdeal.ratio, GIdeal.ratio * Tc / 298.15 - GIdeal.ratio * Tc / 298.15] ![-1 - A10, -A10 + A00] := by
    unfold GIdeal.recalc
    rw [hA00, hA10]
  obtain ⟨x, hx⟩ : ∃ x, x = GIdeal.recalc solve c 298.15 Tc GIdeal.rho0 rhoc GIdeal.ratio := ⟨_, rfl⟩
  have hsol := hs !![0, GIdeal.ratio * Tc / 298.15; 0 - GIdeal.ratio, GIdeal.ratio * Tc / 298.15 - GIdeal.ratio * Tc / 298.15] ![-1 - A10, -A10 + A00]
    (by
      rw [Matrix.det_fin_two_of]
      have : 0 < GIdeal.ratio * Tc / 298.15 * GIdeal.ratio := by positivity
      intro h
      have h2 : 0 * (GIdeal.ratio * Tc / 298.15 - GIdeal.ratio * Tc / 298.15) - GIdeal.ratio * Tc / 298.15 * (0 - GIdeal.ratio)
        = GIdeal.ratio * Tc / 298.15 * GIdeal.ratio := by ring
      rw [h2] at h
      exact this.ne' h)
  rw [← hrec, ← hx] at hsol
  have e0 : GIdeal.ratio * Tc / 298.15 * x 1 = -1 - A10 := by
    have := congrFun hsol 0
    simpa [Matrix.mulVec, dotProduct, Fin.sum_univ_two] using this
  have e1 : -(GIdeal.ratio * x 0) = -A10 + A00 := by
    have := congrFun hsol 1
    simpa [Matrix.mulVec, dotProduct, Fin.sum_univ_two] using this
  -- the coefficients after the reset
  have f4 : (c.th4 ≠ 0) = (c.n4 ≠ 0) := propext hc.h4.symm
  have f5 : (c.th5 ≠ 0) = (c.n5 ≠ 0) := propext hc.h5.symm
  have f6 : (c.th6 ≠ 0) = (c.n6 ≠ 0) := propext hc.h6.symm
  have f7 : (c.th7 ≠ 0) = (c.n7 ≠ 0) := propext hc.h7.symm
  have hd : ∀ rho, deriv (fun T => (c.reset solve Tc rhoc).pure Tc rhoc T rho) 298.15 = 1 / 298.15 := fun rho => by
    rw [(gerg_ideal_deriv _ Tc rhoc 298.15 rho hT hTc).deriv]
    congr 1
    have : gergA10 (c.reset solve Tc rhoc) (Tc / 298.15) = GIdeal.ratio * Tc / 298.15 * x 1 + A10 := by
      unfold gergA10
      simp only [GIdeal.reset, ← hx, f4, f6]
      rw [hA10]
      simp only [mul_assoc, mul_div_assoc]
      ring_nf
    rw [this, e0]
    ring
  refine ⟨fun rho => by rw [hd]; norm_num, ?_⟩
  rw [hd]
  have hp : (c.reset solve Tc rhoc).pure Tc rhoc 298.15 (101325 / (8.314472 * 298.15)) = GIdeal.ratio * x 0 + GIdeal.ratio * Tc / 298.15 * x 1 + A00 := by
    unfold GIdeal.pure
    simp only [GIdeal.reset, ← hx, f4, f5, f6, f7]
    rw [hA00]
    unfold GIdeal.rho0
    ring
  rw [hp, e0]
  have : (298.15 : ℝ) * (1 / 298.15) = 1 := by norm_num
  rw [this]
  linarith

/-- C103. The models: every accepted list of components is built, all components have zero enthalpy and entropy in the
reference state, whatever the published integration constants are; other lists are refused. -/
theorem gerg_ideal_build (v : GVer) (solve : Matrix (Fin 2) (Fin 2) ℝ → (Fin 2 → ℝ) → Fin 2 → ℝ) (hs : Solves2 solve) {n : ℕ}
    (names : Fin n → String) (fl : Fin n → GFluid) (h : ∀ i, (fl i).name = names i ∧ fl i ∈ gergComponents v) :
    ∃ m, gergIdealBuild v solve names = .ok m ∧ (∀ i, m.Tc i = (gergCrit v (fl i)).Tc ∧ m.rhoc i = (gergCrit v (fl i)).rhoc * 1000) ∧
      ∀ i, (∀ rho, 1 - 298.15 * deriv (fun T => (m.coeffs i).pure (m.Tc i) (m.rhoc i) T rho) 298.15 = 0) ∧
        -(298.15 * deriv (fun T => (m.coeffs i).pure (m.Tc i) (m.rhoc i) T (101325 / (8.314472 * 298.15))) 298.15)
          - (m.coeffs i).pure (m.Tc i) (m.rhoc i) 298.15 (101325 / (8.314472 * 298.15)) = 0 := by
  have h1 : (finLoop fun i => gFluidOf (names i)) = .ok fl := by
    refine finLoop_ok _ _ fun i => ?_
    unfold gFluidOf
    rw [(gerg_ofName (names i) (fl i)).2 (h i).1]; rfl
  have h2 : (finLoop fun i => gOrThrow (gergInfo v (fl i))) = .ok fun i => gergCrit v (fl i) := by
    refine finLoop_ok _ _ fun i => ?_
    obtain ⟨x, hx, _⟩ := (gerg_info v (fl i)).1 (h i).2
    unfold gergCrit
    rw [hx]; rfl
  have h3 : ∀ i, ∃ c, (gOrThrow (gergAigRaw v (fl i))).bind GAig.pad = .ok c ∧ GIdealOk c := fun i => by
    obtain ⟨a, c, ha, hp, hc, _⟩ := (gerg_aig_table v (fl i)).1 (h i).2
    exact ⟨c, by rw [ha]; exact hp, hc⟩
  choose c hc hok using h3
  refine ⟨⟨fun i => (gergCrit v (fl i)).Tc, fun i => (gergCrit v (fl i)).rhoc * 1000,
    fun i => (c i).reset solve (gergCrit v (fl i)).Tc ((gergCrit v (fl i)).rhoc * 1000)⟩, ?_, fun i => ⟨rfl, rfl⟩, fun i => ?_⟩
  · unfold gergIdealBuild
    rw [h1, Outcome.bind_ok, h2, Outcome.bind_ok, finLoop_ok _ c hc, Outcome.bind_ok]
  · obtain ⟨p1, p2⟩ := gergCrit_pos v (fl i) (h i).2
    have q1 : (0 : ℝ) < (gergCrit v (fl i)).Tc := by exact_mod_cast p1
    exact gerg_reference solve hs (c i) (hok i) _ _ q1

example : ∃ m, gergIdealBuild .v2008 gCramer2 ![("n-decane" : String), "methane", "hydrogensulfide"] = .ok m ∧
    1 - 298.15 * deriv (fun T => (m.coeffs 1).pure (m.Tc 1) (m.rhoc 1) T 40) 298.15 = 0 := by
  obtain ⟨m, hm, _, h⟩ := gerg_ideal_build .v2008 gCramer2 gcramer2_solves _ _ gerg_sample.1
  exact ⟨m, hm, (h 1).1 40⟩

/-- C103. The published integration constants of the tables have no influence. -/
theorem gerg_constants_unused (solve : Matrix (Fin 2) (Fin 2) ℝ → (Fin 2 → ℝ) → Fin 2 → ℝ) (c : GIdeal) (a b Tc rhoc T rho : ℝ) :
    (GIdeal.reset solve { c with n1 := a, n2 := b } Tc rhoc).pure Tc rhoc T rho = (c.reset solve Tc rhoc).pure Tc rhoc T rho := rfl

/-- C103. A list with an unknown name or a component that the version does not have is refused. -/
theorem gerg_ideal_refused (v : GVer) (solve : Matrix (Fin 2) (Fin 2) ℝ → (Fin 2 → ℝ) → Fin 2 → ℝ) {n : ℕ}
    (names : Fin n → String) (k : Fin n) (h : ∀ f ∈ gergComponents v, f.name ≠ names k) :
    gergIdealBuild v solve names = .throws .stdInvalidArgument := by
  unfold gergIdealBuild
  rcases finLoop_total (fun i => gFluidOf (names i)) .stdInvalidArgument (fun i => gOrThrow_cases _) with ⟨fl, e, hfl⟩ | e
  swap
  · rw [e]; rfl
  rw [e, Outcome.bind_ok]
  have hname : (fl k).name = names k := by
    have := hfl k
    unfold gFluidOf at this
    refine (gerg_ofName (names k) (fl k)).1 ?_
    cases ho : GFluid.ofName (names k) with
    | none => rw [ho] at this; cases this
    | some x =>
      rw [ho] at this
      have : x = fl k := by injection this
      rw [this]
  rw [finLoop_throws _ .stdInvalidArgument (fun i => gOrThrow_cases _) k (by
    rw [(gerg_info v (fl k)).2 fun hc => h _ hc hname]; rfl)]
  rfl

example : gergIdealBuild .v2004 gCramer2 ![("methane" : String), "n-nonane"] = .throws .stdInvalidArgument :=
  gerg_ideal_refused _ _ _ 1 (by decide +kernel)

/-- C103. Mixtures: the ideal-gas law, zero enthalpy in the reference state and the ideal entropy of mixing, at every
composition including those with absent components. -/
theorem gerg_ideal_mixture (v : GVer) (solve : Matrix (Fin 2) (Fin 2) ℝ → (Fin 2 → ℝ) → Fin 2 → ℝ) (hs : Solves2 solve) {n : ℕ}
    (names : Fin n → String) (fl : Fin n → GFluid) (h : ∀ i, (fl i).name = names i ∧ fl i ∈ gergComponents v) :
    ∃ m, gergIdealBuild v solve names = .ok m ∧ ∀ x : Fin n → ℝ, (∀ i, 0 ≤ x i) → ∑ i, x i = 1 →
      ∃ a : ℝ → ℝ → ℝ, (∀ T rho, 0 < T → 0 < rho → m.alphaig T rho x = .ok (a T rho)) ∧
        (∀ T rho, 0 < T → 0 < rho → rho * deriv (fun r => a T r) rho = 1) ∧
        (∀ rho, 0 < rho → 1 - 298.15 * deriv (fun T => a T rho) 298.15 = 0) ∧
        -(298.15 * deriv (fun T => a T (101325 / (8.314472 * 298.15))) 298.15) - a 298.15 (101325 / (8.314472 * 298.15))
          = -∑ i, x i * Real.log (x i) := by
  obtain ⟨m, hm, hdat, href⟩ := gerg_ideal_build v solve hs names fl h
  refine ⟨m, hm, fun x hx hsum => ?_⟩
  have hTc : ∀ i, 0 < m.Tc i ∧ 0 < m.rhoc i := fun i => by
    obtain ⟨p1, p2⟩ := gergCrit_pos v (fl i) (h i).2
    rw [(hdat i).1, (hdat i).2]
    have q1 : (0 : ℝ) < (gergCrit v (fl i)).Tc := by exact_mod_cast p1
    have : (0 : ℝ) < (gergCrit v (fl i)).rhoc := by exact_mod_cast p2
    exact ⟨q1, by positivity⟩
  refine ⟨fun T rho => ∑ i, x i * ((m.coeffs i).pure (m.Tc i) (m.rhoc i) T rho + Real.log (x i)), ?_, ?_, ?_, ?_⟩
  · intro T rho hT hrho
    unfold GIdealMix.alphaig
    rw [if_neg (by rintro ⟨_, h | h⟩ <;> linarith)]
    congr 1
    refine sum_congr rfl fun i _ => ?_
    by_cases hi : 0 < x i
    · rw [if_pos hi]
    · rw [if_neg hi, le_antisymm (not_lt.1 hi) (hx i)]; ring
  · intro T rho hT hrho
    have hd : HasDerivAt (fun r => ∑ i, x i * ((m.coeffs i).pure (m.Tc i) (m.rhoc i) T r + Real.log (x i))) (∑ i, x i * (1 / rho)) rho := by
      refine HasDerivAt.fun_sum fun i _ => HasDerivAt.const_mul (x i) (HasDerivAt.add_const _ ?_)
      unfold GIdeal.pure
      refine HasDerivAt.add_const _ ?_
      have hne := (hTc i).2.ne'
      have h1 : HasDerivAt (fun r : ℝ => r / m.rhoc i) (1 / m.rhoc i) rho := (hasDerivAt_id rho).div_const _
      refine (h1.log (div_pos hrho (hTc i).2).ne').congr_deriv ?_
      have := hrho.ne'
      field_simp
    rw [hd.deriv, ← sum_mul, hsum]
    have := hrho.ne'
    field_simp
  · intro rho hrho
    have hd : HasDerivAt (fun T => ∑ i, x i * ((m.coeffs i).pure (m.Tc i) (m.rhoc i) T rho + Real.log (x i))) (∑ i, x i * (1 / 298.15)) 298.15 := by
      refine HasDerivAt.fun_sum fun i _ => HasDerivAt.const_mul (x i) (HasDerivAt.add_const _ ?_)
      have hda := gerg_ideal_deriv (m.coeffs i) (m.Tc i) (m.rhoc i) 298.15 rho (by norm_num) (hTc i).1
      have := (href i).1 rho
      rw [hda.deriv] at this
      refine hda.congr_deriv ?_
      linarith
    rw [hd.deriv, ← sum_mul, hsum]
    norm_num
  · have hd : HasDerivAt (fun T => ∑ i, x i * ((m.coeffs i).pure (m.Tc i) (m.rhoc i) T (101325 / (8.314472 * 298.15)) + Real.log (x i)))
        (∑ i, x i * (1 / 298.15)) 298.15 := by
      refine HasDerivAt.fun_sum fun i _ => HasDerivAt.const_mul (x i) (HasDerivAt.add_const _ ?_)
      have hda := gerg_ideal_deriv (m.coeffs i) (m.Tc i) (m.rhoc i) 298.15 (101325 / (8.314472 * 298.15)) (by norm_num) (hTc i).1
      have := (href i).1 (101325 / (8.314472 * 298.15))
      rw [hda.deriv] at this
      refine hda.congr_deriv ?_
      linarith
    have hval : ∀ i, (m.coeffs i).pure (m.Tc i) (m.rhoc i) 298.15 (101325 / (8.314472 * 298.15)) = -1 := fun i => by
      have h1 := (href i).1 (101325 / (8.314472 * 298.15))
      have h2 := (href i).2
      linarith
    rw [hd.deriv, ← sum_mul, hsum]
    simp only [hval, mul_add, sum_add_distrib, ← sum_mul, hsum]
    norm_num

/-- C106. The ideal-gas models refuse a wrong number of mole fractions. -/
theorem gerg_ideal_sizes {n : ℕ} (m : GIdealMix n) (T rho : ℝ) (x : List ℝ) (h : x.length ≠ n) :
    m.alphaigV T rho x = .throws .stdInvalidArgument := by
  unfold GIdealMix.alphaigV
  rw [dif_neg h]

/-- C102. Where GERG-2008 changed critical data, the ideal-gas heat capacity did not change: the same coefficients
and, to the digits of the tables, the same characteristic temperatures `theta * Tc`. -/
theorem gerg_ideal_versions (f : GFluid) (hf : f ∈ gergNames04) :
    ∃ a b i j, gergAigRaw .v2004 f = some a ∧ gergAigRaw .v2008 f = some b ∧ gergInfo .v2004 f = some i ∧
      gergInfo .v2008 f = some j ∧ a.n.drop 2 = b.n.drop 2 ∧ a.theta.length = b.theta.length ∧
      ∀ p ∈ a.theta.zip b.theta, |p.1 * i.Tc - p.2 * j.Tc| ≤ 1e-6 := by
  have key : ∀ f ∈ gergNames04, ((gergAigRaw .v2004 f).any fun a => (gergAigRaw .v2008 f).any fun b =>
      (gergInfo .v2004 f).any fun i => (gergInfo .v2008 f).any fun j =>
        decide (a.n.drop 2 = b.n.drop 2 ∧ a.theta.length = b.theta.length ∧
          ∀ p ∈ a.theta.zip b.theta, |p.1 * i.Tc - p.2 * j.Tc| ≤ 1e-6)) = true := by decide +kernel
  obtain ⟨a, ha, h1⟩ := (Option.any_eq_true _ _).1 (key f hf)
  obtain ⟨b, hb, h2⟩ := (Option.any_eq_true _ _).1 h1
  obtain ⟨i, hi, h3⟩ := (Option.any_eq_true _ _).1 h2
  obtain ⟨j, hj, h4⟩ := (Option.any_eq_true _ _).1 h3
  exact ⟨a, b, i, j, ha, hb, hi, hj, of_decide_eq_true h4⟩

example : gergInfo .v2004 .carbonMonoxide ≠ gergInfo .v2008 .carbonMonoxide ∧
    gergAigRaw .v2004 .carbonMonoxide ≠ gergAigRaw .v2008 .carbonMonoxide := by decide +kernel

end Teqp.Props
