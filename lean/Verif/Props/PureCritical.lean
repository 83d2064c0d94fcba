import Verif.Lemmas.PureVLE
import Verif.Lemmas.Outcome
import Verif.Props.PureVLE

/-! # Pure-fluid critical points (C36) -/

set_option autoImplicit false
open Filter Topology

namespace Teqp.Props
open Teqp.Calc Teqp.Model Teqp.Spec Teqp.Lemmas Teqp.PureVLE

/-- The two residuals are the first and second density derivatives of the pressure along the isotherm. -/
theorem crit_residual_is_derivs (α : ℝ → ℝ → ℝ) (R T ρ : ℝ) (hρ : ρ ≠ 0) (h : ContDiffAt ℝ 3 (α T) ρ) :
    HasDerivAt (totalPressure α R T) (critResid α R ⟨T, ρ⟩).x ρ
    ∧ HasDerivAt (deriv (totalPressure α R T)) (critResid α R ⟨T, ρ⟩).y ρ := by
  refine ⟨(pressure_drho (h.of_le (by norm_num))).congr_deriv ?_, (pressure_drho2 h).congr_deriv ?_⟩
  · simp only [critResid, Ar0]; ring
  · simp only [critResid, Ar0]; field_simp

/-- The residual vanishes exactly at a critical point of the isotherm. -/
theorem crit_residual_zero_iff (α : ℝ → ℝ → ℝ) (R T ρ : ℝ) (hρ : ρ ≠ 0) (h : ContDiffAt ℝ 3 (α T) ρ) :
    critResid α R ⟨T, ρ⟩ = ⟨0, 0⟩ ↔ IsCriticalPoint (totalPressure α R T) ρ (totalPressure α R T ρ) := by
  obtain ⟨h1, h2⟩ := crit_residual_is_derivs α R T ρ hρ h
  constructor
  · intro e
    rw [e] at h1 h2
    exact ⟨rfl, h1, h2⟩
  · rintro ⟨-, g1, g2⟩
    have a := h1.unique g1
    have b := h2.unique g2
    cases hc : critResid α R ⟨T, ρ⟩ with
    | mk u v =>
      rw [hc] at a b
      simp only at a b
      rw [a, b]

/-- The Jacobian holds the exact derivatives of `dp/dρ` and `d²p/dρ²` with respect to temperature and density. -/
theorem crit_jacobian_exact (α : ℝ → ℝ → ℝ) (R T ρ : ℝ) (hT : T ≠ 0) (hρ : ρ ≠ 0) (h : ContDiffAt ℝ 4 (unc α) (T, ρ)) :
    HasDerivAt (fun T' => deriv (totalPressure α R T') ρ) (critJac α R ⟨T, ρ⟩).a00 T
    ∧ HasDerivAt (deriv (totalPressure α R T)) (critJac α R ⟨T, ρ⟩).a01 ρ
    ∧ HasDerivAt (fun T' => deriv (deriv (totalPressure α R T')) ρ) (critJac α R ⟨T, ρ⟩).a10 T
    ∧ HasDerivAt (deriv (deriv (totalPressure α R T))) (critJac α R ⟨T, ρ⟩).a11 ρ := by
  have hi := iso_of_joint (n := 4) h
  have d1 := Ar1 1 hT (hasDerivAt_dT (n := 4) (j := 1) h (by norm_num))
  have d2 := Ar1 2 hT (hasDerivAt_dT (n := 4) (j := 2) h (by norm_num))
  have d3 := Ar1 3 hT (hasDerivAt_dT (n := 4) (j := 3) h (by norm_num))
  refine ⟨(pressure_drho_dT (h.of_le (by norm_num))).congr_deriv ?_, (pressure_drho2 (hi.of_le (by norm_num))).congr_deriv ?_,
    (pressure_drho2_dT h).congr_deriv ?_, (pressure_drho3 hi).congr_deriv ?_⟩
  · simp only [critJac, Ar0, d1, d2]; ring
  · simp only [critJac, Ar0]; field_simp
  · simp only [critJac, Ar0, d1, d2, d3]; field_simp; ring
  · simp only [critJac, Ar0]; field_simp

/-! ## A fluid with a known critical point

`ρ(ln ρ + α) = (ρ-2)⁴ + (T-1)(ρ-2)²`: critical point at `T = 1`, `ρ = 2`. -/

/-- The residual Helmholtz energy of the sample. -/
noncomputable def quarticFluid : ℝ → ℝ → ℝ := fun T ρ => ((ρ - 2) ^ 4 + (T - 1) * (ρ - 2) ^ 2) / ρ - Real.log ρ

theorem quarticFluid_smooth (n : ℕ) (T ρ : ℝ) (h : ρ ≠ 0) : ContDiffAt ℝ n (unc quarticFluid) (T, ρ) := by
  unfold unc quarticFluid
  refine ContDiffAt.sub (ContDiffAt.div ?_ contDiffAt_snd h) (ContDiffAt.log contDiffAt_snd h)
  fun_prop

theorem quarticFluid_pressure (R T ρ : ℝ) (h : ρ ≠ 0) : totalPressure quarticFluid R T ρ
    = R * T * (ρ * (4 * (ρ - 2) ^ 3 + 2 * (T - 1) * (ρ - 2)) - ((ρ - 2) ^ 4 + (T - 1) * (ρ - 2) ^ 2)) := by
  rw [pressure_eq, drn_eq, iteratedDeriv_one]
  have h2 := (hasDerivAt_id ρ).sub_const 2
  have h1 := ((h2.pow 4).add ((h2.pow 2).const_mul (T - 1))).div (hasDerivAt_id ρ) h
  have h3 : HasDerivAt (quarticFluid T) ((4 * (ρ - 2) ^ 3 + 2 * (T - 1) * (ρ - 2)) / ρ
      - ((ρ - 2) ^ 4 + (T - 1) * (ρ - 2) ^ 2) / ρ ^ 2 - 1 / ρ) ρ := by
    unfold quarticFluid
    refine (h1.sub (Real.hasDerivAt_log h)).congr_deriv ?_
    simp only [id, Pi.pow_apply, Pi.add_apply, Nat.cast_ofNat, show (2 - 1 : ℕ) = 1 from rfl,
      show (4 - 1 : ℕ) = 3 from rfl, pow_one]
    field_simp
  rw [h3.deriv]
  field_simp
  ring

/-- The first derivative of the pressure of the sample. -/
theorem quarticFluid_dp (R T ρ : ℝ) (h : ρ ≠ 0) :
    HasDerivAt (totalPressure quarticFluid R T) (R * T * (ρ * (12 * (ρ - 2) ^ 2 + 2 * (T - 1)))) ρ := by
  have e : totalPressure quarticFluid R T =ᶠ[𝓝 ρ] fun ρ =>
      R * T * (ρ * (4 * (ρ - 2) ^ 3 + 2 * (T - 1) * (ρ - 2)) - ((ρ - 2) ^ 4 + (T - 1) * (ρ - 2) ^ 2)) := by
    filter_upwards [isOpen_ne.mem_nhds h] with r hr
    exact quarticFluid_pressure R T r hr
  have h2 := (hasDerivAt_id ρ).sub_const 2
  have h3 := (((hasDerivAt_id ρ).mul (((h2.pow 3).const_mul 4).add (h2.const_mul (2 * (T - 1))))).sub
    ((h2.pow 4).add ((h2.pow 2).const_mul (T - 1)))).const_mul (R * T)
  refine (h3.congr_of_eventuallyEq e).congr_deriv ?_
  simp only [id, Pi.pow_apply, Pi.add_apply, Nat.cast_ofNat, show (2 - 1 : ℕ) = 1 from rfl,
    show (3 - 1 : ℕ) = 2 from rfl, show (4 - 1 : ℕ) = 3 from rfl, pow_one]
  ring

/-- The second derivative. -/
theorem quarticFluid_dp2 (R T ρ : ℝ) (h : ρ ≠ 0) :
    HasDerivAt (deriv (totalPressure quarticFluid R T))
      (R * T * ((12 * (ρ - 2) ^ 2 + 2 * (T - 1)) + ρ * (24 * (ρ - 2)))) ρ := by
  have e : deriv (totalPressure quarticFluid R T) =ᶠ[𝓝 ρ] fun ρ => R * T * (ρ * (12 * (ρ - 2) ^ 2 + 2 * (T - 1))) := by
    filter_upwards [isOpen_ne.mem_nhds h] with r hr
    exact (quarticFluid_dp R T r hr).deriv
  have h2 := (hasDerivAt_id ρ).sub_const 2
  have h3 := ((hasDerivAt_id ρ).mul (((h2.pow 2).const_mul 12).add_const (2 * (T - 1)))).const_mul (R * T)
  refine (h3.congr_of_eventuallyEq e).congr_deriv ?_
  simp only [id, Pi.pow_apply, Nat.cast_ofNat, show (2 - 1 : ℕ) = 1 from rfl, pow_one]
  ring

/-- The third derivative. -/
theorem quarticFluid_dp3 (R T ρ : ℝ) (h : ρ ≠ 0) :
    HasDerivAt (deriv (deriv (totalPressure quarticFluid R T))) (R * T * (48 * (ρ - 2) + ρ * 24)) ρ := by
  have e : deriv (deriv (totalPressure quarticFluid R T)) =ᶠ[𝓝 ρ]
      fun ρ => R * T * ((12 * (ρ - 2) ^ 2 + 2 * (T - 1)) + ρ * (24 * (ρ - 2))) := by
    filter_upwards [isOpen_ne.mem_nhds h] with r hr
    exact (quarticFluid_dp2 R T r hr).deriv
  have h2 := (hasDerivAt_id ρ).sub_const 2
  have h3 := ((((h2.pow 2).const_mul 12).add_const (2 * (T - 1))).add ((hasDerivAt_id ρ).mul (h2.const_mul 24))).const_mul (R * T)
  refine (h3.congr_of_eventuallyEq e).congr_deriv ?_
  simp only [id, Nat.cast_ofNat, show (2 - 1 : ℕ) = 1 from rfl, pow_one]
  ring

theorem quarticFluid_critical (R : ℝ) : critResid quarticFluid R ⟨1, 2⟩ = ⟨0, 0⟩ := by
  refine (crit_residual_zero_iff quarticFluid R 1 2 (by norm_num)
    (iso_of_joint (quarticFluid_smooth 3 1 2 (by norm_num)))).mpr ⟨rfl, ?_, ?_⟩
  · exact (quarticFluid_dp R 1 2 (by norm_num)).congr_deriv (by ring)
  · exact (quarticFluid_dp2 R 1 2 (by norm_num)).congr_deriv (by ring)

example : (critJac quarticFluid 8 ⟨1, 2⟩).a11 = 384 :=
  ((crit_jacobian_exact quarticFluid 8 1 2 (by norm_num) (by norm_num) (quarticFluid_smooth 4 1 2 (by norm_num))).2.2.2.unique
    (quarticFluid_dp3 8 1 2 (by norm_num))).trans (by norm_num)

example : (critJac quarticFluid 8 ⟨1, 2⟩).a00 = 32 := by
  refine (crit_jacobian_exact quarticFluid 8 1 2 (by norm_num) (by norm_num)
    (quarticFluid_smooth 4 1 2 (by norm_num))).1.unique ?_
  have e : (fun T' => deriv (totalPressure quarticFluid 8 T') 2) = fun T' => 8 * T' * (2 * (2 * (T' - 1))) := by
    funext T'
    rw [(quarticFluid_dp 8 T' 2 (by norm_num)).deriv]
    norm_num
  rw [e]
  have h := ((hasDerivAt_id (1 : ℝ)).const_mul 8).mul ((((hasDerivAt_id (1 : ℝ)).sub_const 1).const_mul 2).const_mul 2)
  refine h.congr_deriv ?_
  norm_num

/-! ## The solver -/

/-- One finite Newton step of the critical-point solver. -/
noncomputable def critStep (α : ℝ → ℝ → ℝ) (R : ℝ) (solve : M2 → V2 → Option V2) (x : V2) : Option V2 :=
  if x.x = 0 ∨ x.y = 0 then none
  else (solve (critJac α R x) ⟨-(critResid α R x).x, -(critResid α R x).y⟩).map fun v => ⟨x.x + v.x, x.y + v.y⟩

/-- The solver makes exactly the requested number of Newton steps, with no convergence test; its result is not finite exactly if
one of them is not. -/
theorem crit_exact_step_count (α : ℝ → ℝ → ℝ) (R : ℝ) (solve : M2 → V2 → Option V2) (n : ℕ) (x : V2) :
    critLoop (pureCritSys α R) solve n x =
      match (fun y : Option V2 => y.bind (critStep α R solve))^[n] (some x) with
      | some y => .ok y
      | none => .nonFinite := by
  have hnone : ∀ n, (fun y : Option V2 => y.bind (critStep α R solve))^[n] none = none := by
    intro n
    induction n with
    | zero => rfl
    | succ n ih => rw [Function.iterate_succ_apply]; exact ih
  induction n generalizing x with
  | zero => rfl
  | succ n ih =>
    rw [critLoop, Function.iterate_succ_apply]
    simp only [Option.bind_some, pureCritSys, critStep]
    by_cases h : x.x = 0 ∨ x.y = 0
    · rw [if_pos h, if_pos h, hnone]
    · rw [if_neg h, if_neg h]
      simp only
      cases solve (critJac α R x) ⟨-(critResid α R x).x, -(critResid α R x).y⟩ with
      | none => simp only [Option.map_none]; rw [hnone]
      | some v => simp only [Option.map_some]; exact ih _

/-- The result of the solver is the requested number of Newton steps for the selected component. -/
theorem crit_solver_result (fluid : List ℝ → (ℝ → ℝ → ℝ) × ℝ) (solve : M2 → V2 → Option V2) (n : ℕ) (i m : ℕ) (hn : 0 < n)
    (hi : i < m) (hm : 2 ≤ m) (x : V2) :
    ∃ z : List ℝ, z.length = m ∧ (∀ k < m, z[k]? = some (if k = i then 1 else 0))
      ∧ solvePureCritical fluid solve n (some i) (some m) x =
        match (fun y : Option V2 => y.bind (critStep (fluid z).1 (fluid z).2 solve))^[n] (some x) with
        | some y => .ok y
        | none => .nonFinite := by
  refine ⟨(List.range m).map fun k => if k = i then 1 else 0, by simp, fun k hk => by simp [hk], ?_⟩
  have h1 : ¬ (m : ℤ) < 2 := by omega
  have h2 : ¬ (n : ℤ) ≤ 0 := by omega
  have h3 : ¬ (i : ℤ) < 0 := by omega
  unfold solvePureCritical critFlags
  simp only [critFlag, if_neg h1, if_neg h3, Outcome.bind_ok, if_neg h2, critMoleFracs, Int.toNat_natCast, if_pos hi,
    crit_exact_step_count]

example (fluid : List ℝ → (ℝ → ℝ → ℝ) × ℝ) :
    ∃ q, solvePureCritical fluid (fun _ _ => some ⟨0, 0⟩) 1 (some 1) (some 2) ⟨300, 5⟩ = .ok q := by
  obtain ⟨z, -, -, h⟩ := crit_solver_result fluid (fun _ _ => some ⟨0, 0⟩) 1 1 2 (by norm_num) (by norm_num) (by norm_num) ⟨300, 5⟩
  refine ⟨⟨300 + 0, 5 + 0⟩, ?_⟩
  rw [Nat.cast_one] at h
  rw [show (1 : ℤ) = ((1 : ℕ) : ℤ) from rfl]
  refine h.trans ?_
  simp [critStep]

/-- A critical point at non-zero temperature and density is left unchanged by any number of steps (the linear solver returns zero for
a zero right-hand side). -/
theorem crit_point_fixed (fluid : List ℝ → (ℝ → ℝ → ℝ) × ℝ) (solve : M2 → V2 → Option V2)
    (hsolve : ∀ J, solve J ⟨0, 0⟩ = some ⟨0, 0⟩)
    (n : ℤ) (T ρ : ℝ) (hT : T ≠ 0) (hρ : ρ ≠ 0) (h : ContDiffAt ℝ 3 ((fluid [1]).1 T) ρ)
    (hc : IsCriticalPoint (totalPressure (fluid [1]).1 (fluid [1]).2 T) ρ (totalPressure (fluid [1]).1 (fluid [1]).2 T ρ)) :
    solvePureCritical fluid solve n none none ⟨T, ρ⟩ = .ok ⟨T, ρ⟩ := by
  have h0 := (crit_residual_zero_iff (fluid [1]).1 (fluid [1]).2 T ρ hρ h).mpr hc
  unfold solvePureCritical
  simp only [critFlags, critFlag, Outcome.bind_ok]
  split
  · rfl
  · simp only [critMoleFracs, Outcome.bind_ok]
    rw [crit_exact_step_count, Function.iterate_fixed]
    simp [critStep, hT, hρ, h0, hsolve]

example (solve : M2 → V2 → Option V2) (hs : ∀ J, solve J ⟨0, 0⟩ = some ⟨0, 0⟩) :
    solvePureCritical (fun _ => (quarticFluid, 8)) solve 10 none none ⟨1, 2⟩ = .ok ⟨1, 2⟩ :=
  crit_point_fixed (fun _ => (quarticFluid, 8)) solve hs 10 1 2 (by norm_num) (by norm_num)
    (iso_of_joint (quarticFluid_smooth 3 1 2 (by norm_num)))
    ((crit_residual_zero_iff quarticFluid 8 1 2 (by norm_num)
      (iso_of_joint (quarticFluid_smooth 3 1 2 (by norm_num)))).mp (quarticFluid_critical 8))

/-- A pure-component choice is accepted exactly if it is absent, or the index is non-negative and below the length and
the length is given and at least two (a length without an index is only checked to be at least two). -/
def AcceptedChoice (index length : Option ℤ) : Prop :=
  (∀ n, length = some n → 2 ≤ n) ∧ (∀ i, index = some i → 0 ≤ i ∧ ∃ n, length = some n ∧ i < n)

/-- With at least one step, the choice of the pure component is refused unless it is acceptable, and never leads to
anything but a result, finite or not, or an exception. -/
theorem crit_index_checked (fluid : List ℝ → (ℝ → ℝ → ℝ) × ℝ) (solve : M2 → V2 → Option V2) (n : ℤ) (hn : 0 < n)
    (index length : Option ℤ) (x : V2) :
    (AcceptedChoice index length → (∃ q, solvePureCritical fluid solve n index length x = .ok q) ∨
      solvePureCritical fluid solve n index length x = .nonFinite)
    ∧ (¬ AcceptedChoice index length → ∃ e, solvePureCritical fluid solve n index length x = .throws e) := by
  have hcl : ∀ α R, (∃ q, critLoop (pureCritSys α R) solve n.toNat x = .ok q) ∨ critLoop (pureCritSys α R) solve n.toNat x = .nonFinite := by
    intro α R
    rw [crit_exact_step_count]
    split
    · exact Or.inl ⟨_, rfl⟩
    · exact Or.inr rfl
  unfold solvePureCritical critFlags AcceptedChoice
  have hn' : ¬ n ≤ 0 := by omega
  rcases index with _ | i <;> rcases length with _ | m
  · simp [critFlag, critMoleFracs, hn', hcl]
  · by_cases hm : m < 2
    · simp [critFlag, hm]
    · have : 2 ≤ m := by omega
      simp [critFlag, critMoleFracs, hm, hn', this, hcl]
  · by_cases hi : i < 0
    · simp [critFlag, hi]
    · simp [critFlag, critMoleFracs, hi, hn']
  · by_cases hi : i < 0
    · simp [critFlag, hi]
    · by_cases hm : m < 2
      · simp [critFlag, hi, hm]
      · have h2 : 2 ≤ m := by omega
        have h0 : 0 ≤ i := by omega
        by_cases him : i < m
        · have : i.toNat < m.toNat := by omega
          simp [critFlag, critMoleFracs, hi, hm, hn', this, him, h2, h0, hcl]
        · have : ¬ i.toNat < m.toNat := by omega
          simp [critFlag, critMoleFracs, hi, hm, hn', this, him, h2, h0, hcl]

/-- An index without a length is refused with the exception of the standard library, not with the documented class. -/
theorem crit_index_without_length (fluid : List ℝ → (ℝ → ℝ → ℝ) × ℝ) (solve : M2 → V2 → Option V2) (n i : ℤ) (hn : 0 < n) (hi : 0 ≤ i)
    (x : V2) : solvePureCritical fluid solve n (some i) none x = .throws .stdBadOptionalAccess := by
  have : ¬ i < 0 := by omega
  have hn' : ¬ n ≤ 0 := by omega
  simp [solvePureCritical, critFlags, critFlag, critMoleFracs, this, hn']

/-- The component selected is the one asked for: the mole-fraction vector has the given length, one at the index, zero
elsewhere. -/
theorem crit_molefracs (i n : ℕ) (h : i < n) :
    ∃ z, critMoleFracs (some i) (some n) = .ok z ∧ z.length = n ∧ ∀ k < n, z[k]? = some (if k = i then 1 else 0) := by
  refine ⟨(List.range n).map fun k => if k = i then 1 else 0, by simp [critMoleFracs, h], by simp, ?_⟩
  intro k hk
  simp [hk]

example : critMoleFracs (some 1) (some 3) = .ok [0, 1, 0] := by simp [critMoleFracs, List.range_succ]

/-! ## The near-critical estimate -/

/-- The estimate exists only below the critical temperature, is symmetric about the critical density, puts the liquid above
the vapour, and solves the classical expansion `p_{ρT} (T-Tc) δ + p_{ρρρ} δ³/6 = 0` for the density difference `δ`. -/
theorem extrapolation_spec (α : ℝ → ℝ → ℝ) (R Tc ρc T : ℝ) (q : V2) (hTc : 0 < Tc) (hρ : ρc ≠ 0)
    (h : ContDiffAt ℝ 4 (unc α) (Tc, ρc)) (hq : extrapolateFromCritical α R Tc ρc T = .ok q) :
    T < Tc ∧ q.x + q.y = 2 * ρc ∧ ρc ≤ q.x
    ∧ deriv (fun T' => deriv (totalPressure α R T') ρc) Tc * (T - Tc) * (q.x - ρc)
      + deriv (deriv (deriv (totalPressure α R Tc))) ρc * (q.x - ρc) ^ 3 / 6 = 0 := by
  have e3 : deriv (deriv (deriv (totalPressure α R Tc))) ρc = critD3 α R Tc ρc := by
    rw [(crit_jacobian_exact α R Tc ρc hTc.ne' hρ h).2.2.2.deriv]; rfl
  have e2 : deriv (fun T' => deriv (totalPressure α R T') ρc) Tc = critD2T α R Tc ρc := by
    rw [(crit_jacobian_exact α R Tc ρc hTc.ne' hρ h).1.deriv]
    simp only [critJac, critD2T]; ring
  rw [e3, e2]
  unfold extrapolateFromCritical critBrho at hq
  split at hq
  · cases hq
  rename_i hd3
  split at hq
  · cases hq
  rename_i hneg
  rw [Outcome.bind_ok] at hq
  split at hq
  · cases hq
  rename_i hs
  cases hq
  have hs' : 0 < 1 - T / Tc := by linarith
  have hTT : T < Tc := by
    have := (sub_pos.mp hs')
    rwa [div_lt_one hTc] at this
  set B2 := 6 * critD2T α R Tc ρc * Tc / critD3 α R Tc ρc with hB2
  have hB0 : 0 ≤ B2 := not_lt.mp hneg
  have hsq : Real.sqrt (1 - T / Tc) ≠ 0 := (Real.sqrt_pos.mpr hs').ne'
  have hδ : -((T - Tc) * (Real.sqrt B2 / Tc)) / Real.sqrt (1 - T / Tc) = Real.sqrt B2 * Real.sqrt (1 - T / Tc) := by
    rw [div_eq_iff hsq, mul_assoc, Real.mul_self_sqrt hs'.le]
    field_simp
    ring
  refine ⟨hTT, by ring, ?_, ?_⟩
  · simp only [hδ]
    have := mul_nonneg (Real.sqrt_nonneg B2) (Real.sqrt_nonneg (1 - T / Tc))
    linarith
  · simp only [hδ, add_sub_cancel_right]
    have k1 : (Real.sqrt B2 * Real.sqrt (1 - T / Tc)) ^ 3
        = B2 * (1 - T / Tc) * (Real.sqrt B2 * Real.sqrt (1 - T / Tc)) := by
      rw [pow_succ, mul_pow, Real.sq_sqrt hB0, Real.sq_sqrt hs'.le]
    rw [k1, hB2]
    field_simp
    ring

/-- For the sample fluid the estimate exists at `T = 1/2`. -/
example : ∃ q, extrapolateFromCritical quarticFluid 8 1 2 (1 / 2) = .ok q := by
  have h := crit_jacobian_exact quarticFluid 8 1 2 (by norm_num) (by norm_num) (quarticFluid_smooth 4 1 2 (by norm_num))
  have e3 : critD3 quarticFluid 8 1 2 = 384 :=
    (h.2.2.2.unique (quarticFluid_dp3 8 1 2 (by norm_num))).trans (by norm_num)
  have e2 : critD2T quarticFluid 8 1 2 = 32 := by
    have : (critJac quarticFluid 8 ⟨1, 2⟩).a00 = 32 := by
      refine h.1.unique ?_
      have e : (fun T' => deriv (totalPressure quarticFluid 8 T') 2) = fun T' => 8 * T' * (2 * (2 * (T' - 1))) := by
        funext T'
        rw [(quarticFluid_dp 8 T' 2 (by norm_num)).deriv]
        norm_num
      rw [e]
      refine (((hasDerivAt_id (1 : ℝ)).const_mul 8).mul
        ((((hasDerivAt_id (1 : ℝ)).sub_const 1).const_mul 2).const_mul 2)).congr_deriv ?_
      norm_num
    rw [← this]
    simp only [critJac, critD2T]; ring
  unfold extrapolateFromCritical critBrho
  rw [e3, e2, if_neg (by norm_num), if_neg (by norm_num), Outcome.bind_ok, if_neg (by norm_num)]
  exact ⟨_, rfl⟩

end Teqp.Props
