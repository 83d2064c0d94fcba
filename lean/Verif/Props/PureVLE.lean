import Verif.Lemmas.PureVLE
import Verif.Lemmas.Outcome

/-! # Pure-fluid saturation (C33, C34, C35) -/

set_option autoImplicit false
open Filter Topology

namespace Teqp.Props
open Teqp.Calc Teqp.Model Teqp.Spec Teqp.Lemmas Teqp.PureVLE

/-! ## A fluid with known saturation densities

`ρ(ln ρ + α) = ((ρ-2)² - (1-T)²)²`: the two minima `2 ± (1-T)` of this Helmholtz energy density coexist. -/

/-- The residual Helmholtz energy of the sample fluid. -/
noncomputable def wellFluid : ℝ → ℝ → ℝ := fun T ρ => ((ρ - 2) ^ 2 - (1 - T) ^ 2) ^ 2 / ρ - Real.log ρ

theorem wellFluid_smooth (n : ℕ) (T ρ : ℝ) (h : ρ ≠ 0) : ContDiffAt ℝ n (unc wellFluid) (T, ρ) := by
  unfold unc wellFluid
  refine ContDiffAt.sub (ContDiffAt.div ?_ contDiffAt_snd h) (ContDiffAt.log contDiffAt_snd h)
  fun_prop

theorem wellFluid_d1 (T ρ : ℝ) (h : ρ ≠ 0) :
    HasDerivAt (wellFluid T) (4 * (ρ - 2) * ((ρ - 2) ^ 2 - (1 - T) ^ 2) / ρ
      - ((ρ - 2) ^ 2 - (1 - T) ^ 2) ^ 2 / ρ ^ 2 - 1 / ρ) ρ := by
  unfold wellFluid
  have h1 := (((((hasDerivAt_id ρ).sub_const 2).pow 2).sub_const ((1 - T) ^ 2)).pow 2).div (hasDerivAt_id ρ) h
  refine (h1.sub (Real.hasDerivAt_log h)).congr_deriv ?_
  simp only [id, Pi.pow_apply, Nat.cast_ofNat, show (2 - 1 : ℕ) = 1 from rfl, pow_one]
  field_simp
  ring

theorem wellFluid_drn1 (T ρ : ℝ) (h : ρ ≠ 0) :
    drn wellFluid 1 T ρ = 4 * (ρ - 2) * ((ρ - 2) ^ 2 - (1 - T) ^ 2) / ρ
      - ((ρ - 2) ^ 2 - (1 - T) ^ 2) ^ 2 / ρ ^ 2 - 1 / ρ := by
  rw [drn_eq, iteratedDeriv_one, (wellFluid_d1 T ρ h).deriv]

/-- The two saturation densities. -/
noncomputable def wellSat (T : ℝ) : V2 := ⟨2 + (1 - T), 2 - (1 - T)⟩

theorem wellFluid_sat1 (T ρ : ℝ) (h : ρ ≠ 0) (hs : (ρ - 2) ^ 2 = (1 - T) ^ 2) : drn wellFluid 1 T ρ = -(1 / ρ) := by
  rw [wellFluid_drn1 T ρ h, hs]; simp

theorem wellFluid_sat0 (T ρ : ℝ) (hs : (ρ - 2) ^ 2 = (1 - T) ^ 2) : wellFluid T ρ = -Real.log ρ := by
  unfold wellFluid; rw [hs]; simp

/-! ## C33 -/

/-- The residual vanishes exactly at phase equilibrium: equal pressures and equal chemical potentials. -/
theorem vle_residual_zero_iff (α : ℝ → ℝ → ℝ) (c : ℝ → ℝ) (R T ρL ρV : ℝ) (hR : R ≠ 0) (hT : T ≠ 0) (hL : 0 < ρL) (hV : 0 < ρV)
    (dL : DifferentiableAt ℝ (α T) ρL) (dV : DifferentiableAt ℝ (α T) ρV) :
    vleResid α R T ⟨ρL, ρV⟩ = ⟨0, 0⟩ ↔ Coexist α c R T ρL ρV := by
  have hRT : R * T ≠ 0 := mul_ne_zero hR hT
  unfold Coexist vleResid
  rw [← phase_p hR, ← phase_p hR, ← phase_mu hR hL.ne' dL, ← phase_mu hR hV.ne' dV, V2.mk.injEq]
  simp only [mul_right_inj' hRT, add_left_inj, sub_eq_zero]

theorem wellFluid_coexist (c : ℝ → ℝ) (R T : ℝ) (h1 : -1 < T) (h2 : T < 3) :
    Coexist wellFluid c R T (wellSat T).x (wellSat T).y := by
  have hL : (wellSat T).x ≠ 0 := by unfold wellSat; simp only; linarith
  have hV : (wellSat T).y ≠ 0 := by unfold wellSat; simp only; linarith
  have sL : ((wellSat T).x - 2) ^ 2 = (1 - T) ^ 2 := by unfold wellSat; ring
  have sV : ((wellSat T).y - 2) ^ 2 = (1 - T) ^ 2 := by unfold wellSat; ring
  refine ⟨?_, ?_⟩
  · rw [pressure_eq, pressure_eq, wellFluid_sat1 _ _ hL sL, wellFluid_sat1 _ _ hV sV]
    field_simp
    ring
  · rw [chemPot_eq hL (wellFluid_d1 T _ hL).differentiableAt, chemPot_eq hV (wellFluid_d1 T _ hV).differentiableAt,
      wellFluid_sat1 _ _ hL sL, wellFluid_sat1 _ _ hV sV, wellFluid_sat0 _ _ sL, wellFluid_sat0 _ _ sV]
    field_simp
    ring

/-- The residual of the sample fluid vanishes at its two saturation densities. -/
theorem wellFluid_resid (R T : ℝ) (hR : R ≠ 0) (h1 : 0 < T) (h2 : T < 3) : vleResid wellFluid R T (wellSat T) = ⟨0, 0⟩ := by
  have hL : 0 < (wellSat T).x := by unfold wellSat; simp only; linarith
  have hV : 0 < (wellSat T).y := by unfold wellSat; simp only; linarith
  exact (vle_residual_zero_iff wellFluid (fun _ => 0) R T _ _ hR h1.ne' hL hV (wellFluid_d1 T _ hL.ne').differentiableAt
    (wellFluid_d1 T _ hV.ne').differentiableAt).mpr (wellFluid_coexist _ R T (by linarith) h2)

example : vleResid wellFluid 8 (1 / 4) ⟨11 / 4, 5 / 4⟩ = ⟨0, 0⟩ := by
  have := wellFluid_resid 8 (1 / 4) (by norm_num) (by norm_num) (by norm_num)
  unfold wellSat at this
  norm_num at this
  exact this

/-- The Jacobian holds the exact derivatives of the residual with respect to both densities. -/
theorem vle_jacobian_exact (α : ℝ → ℝ → ℝ) (R T ρL ρV : ℝ) (hR : R ≠ 0) (hL : ρL ≠ 0) (hV : ρV ≠ 0)
    (dL : ContDiffAt ℝ 2 (α T) ρL) (dV : ContDiffAt ℝ 2 (α T) ρV) :
    HasDerivAt (fun r => (vleResid α R T ⟨r, ρV⟩).x) (vleJac α R T ⟨ρL, ρV⟩).a00 ρL
    ∧ HasDerivAt (fun r => (vleResid α R T ⟨ρL, r⟩).x) (vleJac α R T ⟨ρL, ρV⟩).a01 ρV
    ∧ HasDerivAt (fun r => (vleResid α R T ⟨r, ρV⟩).y) (vleJac α R T ⟨ρL, ρV⟩).a10 ρL
    ∧ HasDerivAt (fun r => (vleResid α R T ⟨ρL, r⟩).y) (vleJac α R T ⟨ρL, ρV⟩).a11 ρV :=
  ⟨(phase_dp hR dL).sub_const (vlePhase α R T ρV).1.1, (phase_dp hR dV).const_sub (vlePhase α R T ρL).1.1,
    (phase_dmu hR hL dL).sub_const (vlePhase α R T ρV).2.1, (phase_dmu hR hV dV).const_sub (vlePhase α R T ρL).2.1⟩

example : HasDerivAt (fun r => (vleResid wellFluid 8 (1 / 4) ⟨r, 1⟩).y) (vleJac wellFluid 8 (1 / 4) ⟨3, 1⟩).a10 3 :=
  (vle_jacobian_exact wellFluid 8 (1 / 4) 3 1 (by norm_num) (by norm_num) (by norm_num)
    (iso_of_joint (wellFluid_smooth 2 _ _ (by norm_num))) (iso_of_joint (wellFluid_smooth 2 _ _ (by norm_num)))).2.2.1

/-- The system is not finite exactly for a vanishing gas constant or a density that is not positive; otherwise it is the residual
and its Jacobian. -/
theorem vle_system (α : ℝ → ℝ → ℝ) (R T : ℝ) (r : V2) :
    (R ≠ 0 ∧ 0 < r.x ∧ 0 < r.y → vleSys α R T r = some (vleResid α R T r, vleJac α R T r)) ∧
      (R = 0 ∨ r.x ≤ 0 ∨ r.y ≤ 0 → vleSys α R T r = none) := by
  constructor
  · rintro ⟨h1, h2, h3⟩
    exact if_neg (by rintro (h | h | h) <;> [exact h1 h; linarith; linarith])
  · exact fun h => if_pos h

example : vleSys wellFluid 8 (1 / 4) ⟨3, -1⟩ = none := (vle_system _ _ _ _).2 (Or.inr (Or.inr (by norm_num)))

/-- The two stopping tests of the solver at the densities `r`, where the system `sys` is finite: the Newton step is finite and below
`eps`, or the residual is below `eps`. -/
def StopsAt (sys : V2 → Option (V2 × M2)) (solve : M2 → V2 → Option V2) (eps : ℝ) (r : V2) : Prop :=
  ∃ r0 J, sys r = some (r0, J) ∧ ((∃ v, solve J ⟨-r0.x, -r0.y⟩ = some v ∧ |v.x| < eps ∧ |v.y| < eps) ∨ (|r0.x| < eps ∧ |r0.y| < eps))

/-- A finite Newton step leads from `r` to `r'`. -/
def NewtonTo (sys : V2 → Option (V2 × M2)) (solve : M2 → V2 → Option V2) (r r' : V2) : Prop :=
  ∃ r0 J v, sys r = some (r0, J) ∧ solve J ⟨-r0.x, -r0.y⟩ = some v ∧ r' = ⟨r.x + v.x, r.y + v.y⟩

/-- A run of `k` Newton steps from `r` along the iterates `x`, with no stopping test met before the last iterate. -/
def NewtonRun (sys : V2 → Option (V2 × M2)) (solve : M2 → V2 → Option V2) (eps : ℝ) (r : V2) (k : ℕ) (x : ℕ → V2) : Prop :=
  x 0 = r ∧ ∀ j < k, NewtonTo sys solve (x j) (x (j + 1)) ∧ ¬ StopsAt sys solve eps (x j)

theorem newtonRun_cons {sys : V2 → Option (V2 × M2)} {solve : M2 → V2 → Option V2} {eps : ℝ} {r r' : V2} {k : ℕ} {x : ℕ → V2}
    (h1 : NewtonTo sys solve r r') (h2 : ¬ StopsAt sys solve eps r) (h : NewtonRun sys solve eps r' k x) :
    NewtonRun sys solve eps r (k + 1) (fun j => Nat.casesOn j r x) := by
  refine ⟨rfl, fun j hj => ?_⟩
  cases j with
  | zero => exact ⟨by show NewtonTo sys solve r (x 0); rw [h.1]; exact h1, h2⟩
  | succ j => exact h.2 j (by omega)

/-- The solver returns the first Newton iterate at which a stopping test holds, the very densities that were tested, or
the last iterate if no test held within the allowed steps; its result is not finite exactly if on the way there the system, or
a step that no test had stopped, was not finite. -/
theorem vle_loop_spec (sys : V2 → Option (V2 × M2)) (solve : M2 → V2 → Option V2) (eps : ℝ) (n : ℕ) (r : V2) :
    ∃ (k : ℕ) (x : ℕ → V2), k ≤ n ∧ NewtonRun sys solve eps r k x ∧
      ((vleLoop sys solve eps n r = .ok (x k) ∧ (k < n → StopsAt sys solve eps (x k))) ∨
        (vleLoop sys solve eps n r = .nonFinite ∧ k < n ∧ ¬ StopsAt sys solve eps (x k) ∧
          ∀ y, ¬ NewtonTo sys solve (x k) y)) := by
  induction n generalizing r with
  | zero => exact ⟨0, fun _ => r, le_rfl, ⟨rfl, by simp⟩, Or.inl ⟨rfl, by simp⟩⟩
  | succ n ih =>
    rw [vleLoop]
    cases hs : sys r with
    | none =>
      refine ⟨0, fun _ => r, Nat.zero_le _, ⟨rfl, by simp⟩, Or.inr ⟨rfl, Nat.succ_pos _, ?_, ?_⟩⟩
      · rintro ⟨r0, J, h, -⟩
        rw [hs] at h; cases h
      · rintro y ⟨r0, J, v, h, -⟩
        rw [hs] at h; cases h
    | some rJ =>
      obtain ⟨r0, J⟩ := rJ
      simp only
      cases hv : solve J ⟨-r0.x, -r0.y⟩ with
      | none =>
        simp only
        by_cases hr : |r0.x| < eps ∧ |r0.y| < eps
        · rw [if_pos hr]
          exact ⟨0, fun _ => r, Nat.zero_le _, ⟨rfl, by simp⟩, Or.inl ⟨rfl, fun _ => ⟨r0, J, hs, Or.inr hr⟩⟩⟩
        · rw [if_neg hr]
          refine ⟨0, fun _ => r, Nat.zero_le _, ⟨rfl, by simp⟩, Or.inr ⟨rfl, Nat.succ_pos _, ?_, ?_⟩⟩
          · rintro ⟨r0', J', h, h'⟩
            rw [hs] at h
            injection h with h
            injection h with h1 h2
            subst h1 h2
            rcases h' with ⟨v, h, -⟩ | h
            · rw [hv] at h; cases h
            · exact hr h
          · rintro y ⟨r0', J', v, h, h', -⟩
            rw [hs] at h
            injection h with h
            injection h with h1 h2
            subst h1 h2
            rw [hv] at h'; cases h'
      | some v =>
        simp only [add_sub_cancel_left]
        by_cases h1 : |v.x| < eps ∧ |v.y| < eps
        · rw [if_pos h1]
          exact ⟨0, fun _ => r, Nat.zero_le _, ⟨rfl, by simp⟩, Or.inl ⟨rfl, fun _ => ⟨r0, J, hs, Or.inl ⟨v, hv, h1⟩⟩⟩⟩
        rw [if_neg h1]
        by_cases hr : |r0.x| < eps ∧ |r0.y| < eps
        · rw [if_pos hr]
          exact ⟨0, fun _ => r, Nat.zero_le _, ⟨rfl, by simp⟩, Or.inl ⟨rfl, fun _ => ⟨r0, J, hs, Or.inr hr⟩⟩⟩
        rw [if_neg hr]
        have hst : ¬ StopsAt sys solve eps r := by
          rintro ⟨r0', J', h, h'⟩
          rw [hs] at h
          injection h with h
          injection h with e1 e2
          subst e1 e2
          rcases h' with ⟨w, h, h''⟩ | h
          · rw [hv] at h
            injection h with h
            subst h
            exact h1 h''
          · exact hr h
        obtain ⟨k, x, hk, hrun, hres⟩ := ih ⟨r.x + v.x, r.y + v.y⟩
        refine ⟨k + 1, _, by omega, newtonRun_cons ⟨r0, J, v, hs, hv, rfl⟩ hst hrun, ?_⟩
        rcases hres with ⟨e, h⟩ | ⟨e, h, h', h''⟩
        · exact Or.inl ⟨e, fun hkn => h (by omega)⟩
        · exact Or.inr ⟨e, by omega, h', h''⟩

/-- The same for the public entry point and its iteration limit, for finite results: every density before the last is positive. -/
theorem pure_vle_spec (α : ℝ → ℝ → ℝ) (R eps T : ℝ) (solve : M2 → V2 → Option V2) (maxiter : ℤ) (r q : V2)
    (h : pureVLE α R solve eps T maxiter r = .ok q) :
    ∃ (k : ℕ) (x : ℕ → V2), (k : ℤ) ≤ max maxiter 0 ∧ NewtonRun (vleSys α R T) solve eps r k x ∧ q = x k ∧
      (∀ j < k, 0 < (x j).x ∧ 0 < (x j).y) ∧
      ((k : ℤ) < maxiter → StopsAt (vleSys α R T) solve eps q ∧ 0 < q.x ∧ 0 < q.y) := by
  obtain ⟨k, x, hk, hrun, hres⟩ := vle_loop_spec (vleSys α R T) solve eps maxiter.toNat r
  have hpos : ∀ y p, vleSys α R T y = some p → 0 < y.x ∧ 0 < y.y := by
    intro y p hy
    by_contra hn
    rw [(vle_system α R T y).2 (by
      by_contra hc
      push Not at hc
      exact hn ⟨hc.2.1, hc.2.2⟩)] at hy
    cases hy
  unfold pureVLE at h
  rcases hres with ⟨e, hst⟩ | ⟨e, -⟩
  · rw [e] at h
    have hq := (Outcome.ok.inj h).symm
    refine ⟨k, x, by omega, hrun, hq, fun j hj => ?_, fun hkm => ?_⟩
    · obtain ⟨r0, J, v, h1, -⟩ := (hrun.2 j hj).1
      exact hpos _ _ h1
    · have hs := hst (by omega)
      rw [hq]
      obtain ⟨r0, J, h1, -⟩ := id hs
      exact ⟨hs, hpos _ _ h1⟩
  · rw [e] at h; cases h

/-- Densities that are not positive give a result that is not finite, as soon as one step is allowed. -/
theorem pure_vle_nonpositive (α : ℝ → ℝ → ℝ) (R eps T : ℝ) (solve : M2 → V2 → Option V2) {maxiter : ℤ} (hm : 0 < maxiter) {r : V2}
    (h : r.x ≤ 0 ∨ r.y ≤ 0) : pureVLE α R solve eps T maxiter r = .nonFinite := by
  obtain ⟨k, hk⟩ : ∃ k, maxiter.toNat = k + 1 := ⟨maxiter.toNat - 1, by omega⟩
  unfold pureVLE
  rw [hk, vleLoop, (vle_system α R T r).2 (Or.inr h)]

example (solve : M2 → V2 → Option V2) : pureVLE wellFluid 8 solve 1 1 10 ⟨-1, 1⟩ = .nonFinite :=
  pure_vle_nonpositive _ _ _ _ _ (by norm_num) (Or.inl (by norm_num))

/-- A solution of the equations at positive densities is returned unchanged, for every iteration limit. -/
theorem vle_solution_fixed (α : ℝ → ℝ → ℝ) (R eps T : ℝ) (solve : M2 → V2 → Option V2) (n : ℤ) (r : V2) (he : 0 < eps) (hR : R ≠ 0)
    (hx : 0 < r.x) (hy : 0 < r.y) (h0 : vleResid α R T r = ⟨0, 0⟩) : pureVLE α R solve eps T n r = .ok r := by
  unfold pureVLE
  cases n.toNat with
  | zero => rfl
  | succ n =>
    rw [vleLoop, (vle_system α R T r).1 ⟨hR, hx, hy⟩]
    simp only [h0, abs_zero]
    cases solve (vleJac α R T r) ⟨-0, -0⟩ with
    | none => simp only; rw [if_pos ⟨he, he⟩]
    | some v => simp only; rw [if_pos (⟨he, he⟩ : 0 < eps ∧ 0 < eps), ite_self]

example (solve : M2 → V2 → Option V2) : pureVLE wellFluid 8 solve (1 / 1000) (1 / 4) 10 (wellSat (1 / 4)) = .ok (wellSat (1 / 4)) :=
  vle_solution_fixed _ _ _ _ _ _ _ (by norm_num) (by norm_num) (by unfold wellSat; norm_num) (by unfold wellSat; norm_num)
    (wellFluid_resid 8 (1 / 4) (by norm_num) (by norm_num) (by norm_num))

/-- After a stop before the iteration limit the residual at the returned densities is small: below `eps`, or below `eps`
times the sum of the Jacobian row (with a linear solver that solves). -/
theorem vle_converged_residual (α : ℝ → ℝ → ℝ) (R T eps : ℝ) (solve : M2 → V2 → Option V2)
    (hsolve : ∀ (J : M2) (b v : V2), solve J b = some v → J.a00 * v.x + J.a01 * v.y = b.x ∧ J.a10 * v.x + J.a11 * v.y = b.y)
    (r : V2) (h : StopsAt (vleSys α R T) solve eps r) :
    |(vleResid α R T r).x| ≤ max eps ((|(vleJac α R T r).a00| + |(vleJac α R T r).a01|) * eps)
    ∧ |(vleResid α R T r).y| ≤ max eps ((|(vleJac α R T r).a10| + |(vleJac α R T r).a11|) * eps) := by
  obtain ⟨r0, J, hs, h⟩ := h
  have hrJ : vleResid α R T r = r0 ∧ vleJac α R T r = J := by
    unfold vleSys at hs
    split at hs
    · cases hs
    · injection hs with hs
      injection hs with a b
      exact ⟨a, b⟩
  rw [hrJ.1, hrJ.2]
  rcases h with ⟨v, hv, h1, h2⟩ | ⟨h1, h2⟩
  · obtain ⟨e1, e2⟩ := hsolve _ _ _ hv
    have key : ∀ a b c : ℝ, a * v.x + b * v.y = -c → |c| ≤ (|a| + |b|) * eps := by
      intro a b c h
      rw [← abs_neg, ← h]
      refine (abs_add_le _ _).trans ?_
      rw [abs_mul, abs_mul, add_mul]
      exact add_le_add (mul_le_mul_of_nonneg_left h1.le (abs_nonneg _)) (mul_le_mul_of_nonneg_left h2.le (abs_nonneg _))
    exact ⟨le_max_of_le_right (key _ _ _ e1), le_max_of_le_right (key _ _ _ e2)⟩
  · exact ⟨le_max_of_le_left h1.le, le_max_of_le_left h2.le⟩

example : StopsAt (vleSys wellFluid 8 (1 / 4)) (fun _ _ => none) (1 / 1000) (wellSat (1 / 4)) := by
  refine ⟨_, _, (vle_system _ _ _ _).1 ⟨by norm_num, by unfold wellSat; norm_num, by unfold wellSat; norm_num⟩, Or.inr ?_⟩
  rw [wellFluid_resid 8 (1 / 4) (by norm_num) (by norm_num) (by norm_num)]
  norm_num

/-! ## C34 -/

theorem dpsatdT_defined (α : ℝ → ℝ → ℝ) {R T ρL ρV : ℝ} (hL : 0 < ρL) (hV : 0 < ρV) (hne : ρL ≠ ρV) :
    dpsatdTPure α R T ρL ρV = .ok (dpsatdT α R T ρL ρV) := by
  unfold dpsatdTPure
  rw [if_neg hne, if_neg (by rintro (h | h) <;> linarith)]

/-- At equal densities the slope is not finite. -/
theorem dpsatdT_equal (α : ℝ → ℝ → ℝ) (R T ρ : ℝ) : dpsatdTPure α R T ρ ρ = .nonFinite := if_pos rfl

/-- Clapeyron: at coexistence the returned slope is the entropy of vaporisation over the volume of vaporisation. -/
theorem dpsatdT_clapeyron (α : ℝ → ℝ → ℝ) (c : ℝ → ℝ) (R T ρL ρV : ℝ) (hT : T ≠ 0) (hR : R ≠ 0) (hL : 0 < ρL) (hV : 0 < ρV)
    (dL : ContDiffAt ℝ 2 (unc α) (T, ρL)) (dV : ContDiffAt ℝ 2 (unc α) (T, ρV)) (dc : DifferentiableAt ℝ c T)
    (hμ : chemPot α c R T ρL = chemPot α c R T ρV) (hne : ρL ≠ ρV) :
    dpsatdTPure α R T ρL ρV
      = .ok ((entropy (totalAlpha α c) R T ρV - entropy (totalAlpha α c) R T ρL) / (1 / ρV - 1 / ρL)) := by
  rw [dpsatdT_defined α hL hV hne]
  congr 1
  unfold dpsatdT
  rw [Ar0, Ar0, Ar1 0 hT (hasDerivAt_dT (n := 2) dL (by norm_num)), Ar1 0 hT (hasDerivAt_dT (n := 2) dV (by norm_num)),
    entropy_eq dL dc.hasDerivAt, entropy_eq dV dc.hasDerivAt]
  rw [chemPot_eq hL.ne' ((iso_of_joint (n := 2) dL).differentiableAt (by norm_num)),
    chemPot_eq hV.ne' ((iso_of_joint (n := 2) dV).differentiableAt (by norm_num))] at hμ
  have h := mul_left_cancel₀ (mul_ne_zero hR hT) hμ
  simp only [pow_zero, pow_one]
  congr 1
  linear_combination -R * h

/-- The same slope as the enthalpy of vaporisation over `T` times the volume of vaporisation, at any two densities. -/
theorem dpsatdT_enthalpy (α : ℝ → ℝ → ℝ) (c : ℝ → ℝ) (R T ρL ρV : ℝ) (hT : T ≠ 0) (hL : 0 < ρL) (hV : 0 < ρV)
    (dL : ContDiffAt ℝ 2 (unc α) (T, ρL)) (dV : ContDiffAt ℝ 2 (unc α) (T, ρV)) (dc : DifferentiableAt ℝ c T) (hne : ρL ≠ ρV) :
    dpsatdTPure α R T ρL ρV
      = .ok ((enthalpy (totalAlpha α c) R T ρV - enthalpy (totalAlpha α c) R T ρL) / (T * (1 / ρV - 1 / ρL))) := by
  rw [dpsatdT_defined α hL hV hne]
  congr 1
  have hp : ∀ ρ : ℝ, 0 < ρ → ContDiffAt ℝ 2 (unc α) (T, ρ) →
      pressure (totalAlpha α c) R T ρ = R * T * (ρ + ρ ^ 2 * drn α 1 T ρ) := by
    intro ρ hρ d
    have hd : HasDerivAt (α T) (drn α 1 T ρ) ρ := hasDerivAt_r (n := 2) (j := 0) (iso_of_joint (n := 2) d) (by norm_num)
    have h1 : HasDerivAt (fun r => helmholtz (totalAlpha α c) R T r) ((ρ⁻¹ + drn α 1 T ρ) * R * T) ρ :=
      ((((Real.hasDerivAt_log hρ.ne').add_const (c T)).add hd).mul_const R).mul_const T
    unfold pressure
    rw [h1.deriv]
    field_simp
  have hh : ∀ ρ : ℝ, 0 < ρ → ContDiffAt ℝ 2 (unc α) (T, ρ) → enthalpy (totalAlpha α c) R T ρ
      = T * (R * (-(T * dT α 0 T ρ) - T * deriv c T + 1 + ρ * drn α 1 T ρ)) := by
    intro ρ hρ d
    unfold enthalpy energy helmholtz
    rw [entropy_eq d dc.hasDerivAt, hp ρ hρ d]
    unfold totalAlpha
    field_simp
    ring
  rw [hh ρL hL dL, hh ρV hV dV]
  unfold dpsatdT
  rw [Ar0, Ar0, Ar1 0 hT (hasDerivAt_dT (n := 2) dL (by norm_num)), Ar1 0 hT (hasDerivAt_dT (n := 2) dV (by norm_num))]
  rw [← mul_sub T, mul_div_mul_left _ _ hT]
  simp only [pow_zero, pow_one]
  ring

/-- The returned slope is the true slope of the saturation pressure along any differentiable pair of coexisting
densities. -/
theorem dpsatdT_true_slope (α : ℝ → ℝ → ℝ) (c : ℝ → ℝ) (R T : ℝ) (ρL ρV : ℝ → ℝ) (hT : T ≠ 0) (hR : R ≠ 0)
    (hL : 0 < ρL T) (hV : 0 < ρV T) (hne : ρL T ≠ ρV T)
    (dL : ContDiffAt ℝ 2 (unc α) (T, ρL T)) (dV : ContDiffAt ℝ 2 (unc α) (T, ρV T)) (dc : DifferentiableAt ℝ c T)
    (gL : DifferentiableAt ℝ ρL T) (gV : DifferentiableAt ℝ ρV T)
    (hco : ∀ᶠ T' in 𝓝 T, Coexist α c R T' (ρL T') (ρV T')) :
    ∃ d, dpsatdTPure α R T (ρL T) (ρV T) = .ok d ∧ HasDerivAt (fun T' => totalPressure α R T' (ρL T')) d T := by
  refine ⟨_, dpsatdT_clapeyron α c R T _ _ hT hR hL hV dL dV dc hco.self_of_nhds.2 hne, ?_⟩
  have hp := (curve_p (R := R) dL gL.hasDerivAt).differentiableAt.hasDerivAt
  refine hp.congr_deriv ?_
  set p' := deriv (fun T' => totalPressure α R T' (ρL T')) T
  have hpV : HasDerivAt (fun T' => totalPressure α R T' (ρV T')) p' T :=
    hp.congr_of_eventuallyEq (hco.mono fun T' h => h.1.symm)
  have mL := curve_mu dL hL.ne' gL.hasDerivAt dc.hasDerivAt hp
  have mV := curve_mu dV hV.ne' gV.hasDerivAt dc.hasDerivAt hpV
  have hu := mL.unique (mV.congr_of_eventuallyEq (hco.mono fun T' h => h.2))
  have hv : 1 / ρV T - 1 / ρL T ≠ 0 := by
    intro h
    have : ρV T = ρL T := by
      rw [sub_eq_zero, one_div, one_div] at h
      exact inv_injective h
    exact hne this.symm
  rw [eq_div_iff hv]
  linear_combination -hu

/-- The density slopes used by the predictor are the true slopes along the saturation curve. -/
theorem drhodT_true_slope (α : ℝ → ℝ → ℝ) (R T dps : ℝ) (ρs : ℝ → ℝ) (hT : T ≠ 0)
    (d : ContDiffAt ℝ 2 (unc α) (T, ρs T)) (g : DifferentiableAt ℝ ρs T)
    (hs : deriv (totalPressure α R T) (ρs T) ≠ 0)
    (hp : HasDerivAt (fun T' => totalPressure α R T' (ρs T')) dps T) :
    ∃ d, drhodTOpt α R dps T (ρs T) = some d ∧ HasDerivAt ρs d T := by
  have hs0 := hs
  rw [(pressure_drho (iso_of_joint (n := 2) d)).deriv] at hs0
  refine ⟨drhodTsat α R dps T (ρs T), ?_, ?_⟩
  · unfold drhodTOpt
    rw [Ar0, Ar0, if_neg]
    simp only [pow_one]
    rwa [← mul_assoc 2]
  refine g.hasDerivAt.congr_deriv ?_
  have e := hp.unique (curve_p d g.hasDerivAt)
  rw [(pressure_drho (iso_of_joint (n := 2) d)).deriv] at hs
  unfold drhodTsat
  rw [Ar0, Ar0, Ar1 1 hT (hasDerivAt_dT (n := 2) d (by norm_num))]
  simp only [pow_one]
  have hd : R * T * (1 + 2 * (ρs T * drn α 1 T (ρs T)) + ρs T ^ 2 * drn α 2 T (ρs T)) ≠ 0 := by
    rwa [← mul_assoc 2]
  rw [← add_div, eq_div_iff hd, e]
  ring

/-- Both statements apply to the sample fluid: its saturation pressure is constant. -/
example : dpsatdTPure wellFluid 8 (1 / 4) (11 / 4) (5 / 4) = .ok 0 := by
  obtain ⟨d, hd, h⟩ := dpsatdT_true_slope wellFluid (fun _ => 0) 8 (1 / 4) (fun T => (wellSat T).x) (fun T => (wellSat T).y)
    (by norm_num) (by norm_num) (by unfold wellSat; norm_num) (by unfold wellSat; norm_num) (by unfold wellSat; norm_num)
    (wellFluid_smooth 2 _ _ (by unfold wellSat; norm_num)) (wellFluid_smooth 2 _ _ (by unfold wellSat; norm_num))
    (by fun_prop) (by unfold wellSat; fun_prop) (by unfold wellSat; fun_prop) (by
      have : ∀ᶠ T in 𝓝 (1 / 4 : ℝ), T ∈ Set.Ioo (-1 : ℝ) 3 := Ioo_mem_nhds (by norm_num) (by norm_num)
      exact this.mono fun T hT => wellFluid_coexist _ 8 T hT.1 hT.2)
  have h0 : HasDerivAt (fun T' => totalPressure wellFluid 8 T' (wellSat T').x) 0 (1 / 4) := by
    refine (hasDerivAt_const (1 / 4 : ℝ) (0 : ℝ)).congr_of_eventuallyEq ?_
    have : ∀ᶠ T in 𝓝 (1 / 4 : ℝ), T ∈ Set.Ioo (-1 : ℝ) 3 := Ioo_mem_nhds (by norm_num) (by norm_num)
    filter_upwards [this] with T hT
    have hL : (wellSat T).x ≠ 0 := by unfold wellSat; simp only; linarith [hT.2]
    rw [pressure_eq, wellFluid_sat1 _ _ hL (by unfold wellSat; ring)]
    field_simp
    ring
  have e := h.unique h0
  subst e
  unfold wellSat at hd
  norm_num at hd ⊢
  exact hd

theorem wellFluid_dp (R T ρ : ℝ) (h : ρ ≠ 0) (hs : (ρ - 2) ^ 2 = (1 - T) ^ 2) :
    HasDerivAt (totalPressure wellFluid R T) (R * T * (8 * ρ * (ρ - 2) ^ 2)) ρ := by
  have e : totalPressure wellFluid R T =ᶠ[𝓝 ρ]
      fun r => R * T * (4 * r * (r - 2) * ((r - 2) ^ 2 - (1 - T) ^ 2) - ((r - 2) ^ 2 - (1 - T) ^ 2) ^ 2) := by
    filter_upwards [isOpen_ne.mem_nhds h] with r hr
    rw [pressure_eq, wellFluid_drn1 T r hr]
    have hr' : r ≠ 0 := hr
    field_simp
    ring
  have hq : HasDerivAt (fun r : ℝ => (r - 2) ^ 2 - (1 - T) ^ 2) (2 * (ρ - 2)) ρ := by
    refine ((((hasDerivAt_id ρ).sub_const 2).pow 2).sub_const ((1 - T) ^ 2)).congr_deriv ?_
    simp
  have hl : HasDerivAt (fun r : ℝ => 4 * r * (r - 2)) (4 * (ρ - 2) + 4 * ρ) ρ := by
    refine (((hasDerivAt_id ρ).const_mul 4).mul ((hasDerivAt_id ρ).sub_const 2)).congr_deriv ?_
    simp
  refine ((((hl.mul hq).sub (hq.pow 2)).const_mul (R * T)).congr_of_eventuallyEq e).congr_deriv ?_
  simp only [Nat.cast_ofNat, show (2 - 1 : ℕ) = 1 from rfl, pow_one]
  linear_combination R * T * ((8 * ρ - 8) - 4 * (ρ - 2)) * hs

/-- The saturation slopes of the sample fluid are `∓1`. -/
theorem wellFluid_slopes (R T : ℝ) (hR : R ≠ 0) (h1 : 0 < T) (h2 : T < 1) :
    satSlopes wellFluid R T (wellSat T) = (some (-1), some 1) := by
  have hL : 0 < (wellSat T).x := by unfold wellSat; simp only; linarith
  have hV : 0 < (wellSat T).y := by unfold wellSat; simp only; linarith
  have sL : ((wellSat T).x - 2) ^ 2 = (1 - T) ^ 2 := by unfold wellSat; ring
  have sV : ((wellSat T).y - 2) ^ 2 = (1 - T) ^ 2 := by unfold wellSat; ring
  have s0 : 0 < (1 - T) ^ 2 := by have : 0 < 1 - T := by linarith
                                  positivity
  have hco : ∀ᶠ T' in 𝓝 T, Coexist wellFluid (fun _ => 0) R T' (wellSat T').x (wellSat T').y := by
    have : ∀ᶠ T' in 𝓝 T, T' ∈ Set.Ioo (-1 : ℝ) 3 := Ioo_mem_nhds (by linarith) (by linarith)
    exact this.mono fun T hT => wellFluid_coexist _ R T hT.1 hT.2
  have gL : HasDerivAt (fun T => (wellSat T).x) (-1) T := by
    unfold wellSat
    simpa using ((hasDerivAt_id T).const_sub 1).const_add 2
  have gV : HasDerivAt (fun T => (wellSat T).y) 1 T := by
    unfold wellSat
    simpa using ((hasDerivAt_id T).const_sub 1).const_sub 2
  obtain ⟨dps, hdps, hp⟩ := dpsatdT_true_slope wellFluid (fun _ => 0) R T (fun T => (wellSat T).x) (fun T => (wellSat T).y)
    h1.ne' hR hL hV (by unfold wellSat; simp only; intro h; linarith)
    (wellFluid_smooth 2 _ _ hL.ne') (wellFluid_smooth 2 _ _ hV.ne') (by fun_prop) gL.differentiableAt gV.differentiableAt hco
  have hpV := hp.congr_of_eventuallyEq (hco.mono fun T' h => h.1.symm)
  obtain ⟨sL', qL, eL⟩ := (drhodT_true_slope wellFluid R T _ (fun T => (wellSat T).x) h1.ne' (wellFluid_smooth 2 _ _ hL.ne')
    gL.differentiableAt (by
      rw [(wellFluid_dp R T _ hL.ne' sL).deriv, sL]; positivity) hp)
  obtain ⟨sV', qV, eV⟩ := (drhodT_true_slope wellFluid R T _ (fun T => (wellSat T).y) h1.ne' (wellFluid_smooth 2 _ _ hV.ne')
    gV.differentiableAt (by
      rw [(wellFluid_dp R T _ hV.ne' sV).deriv, sV]; positivity) hpV)
  unfold satSlopes
  rw [hdps]
  simp only [qL, qV, eL.unique gL, eV.unique gV]

/-! ## C35 -/

theorem linSpaced_succ (n : ℕ) (a b : ℝ) : ∃ l, linSpaced (n + 1) a b = l ++ [b] := by
  refine ⟨(List.range n).map fun i => if i + 1 = n + 1 then b else a + i * ((b - a) / ((n + 1 : ℕ) - 1)), ?_⟩
  rw [linSpaced, List.range_succ, List.map_append]
  simp

/-- The temperatures visited are evenly spaced from the near-critical one to the target. -/
theorem linSpaced_spec (n : ℕ) (a b : ℝ) (hn : 2 ≤ n) : (linSpaced n a b).length = n
    ∧ ∀ k < n, (linSpaced n a b)[k]? = some (a + (b - a) * (k / (n - 1))) := by
  refine ⟨by simp [linSpaced], fun k hk => ?_⟩
  simp only [linSpaced, List.getElem?_map, List.getElem?_range hk, Option.map_some, Option.some.injEq]
  have h1 : (n : ℝ) - 1 ≠ 0 := by
    have : (2 : ℝ) ≤ n := by exact_mod_cast hn
    intro h; linarith
  split
  · rename_i h
    have : (k : ℝ) = n - 1 := by rw [← h]; push_cast; ring
    rw [this, div_self h1]; ring
  · field_simp

example : linSpaced 3 (1 / 2) (1 / 4) = [1 / 2, 3 / 8, 1 / 4] := by
  simp [linSpaced, List.range_succ]; norm_num

theorem traceLoop_append (polish : ℝ → V2 → Option V2) (slopes : ℝ → V2 → Option ℝ × Option ℝ) (w : Bool) (d : Option ℝ) (l : List ℝ)
    (T : ℝ) (r q : V2) (h : traceLoop polish slopes w d (l ++ [T]) r = .ok q) :
    ∃ r', traceLoop polish slopes w d [T] r' = .ok q := by
  induction l generalizing r with
  | nil => exact ⟨r, h⟩
  | cons S l ih =>
    rw [List.cons_append, traceLoop] at h
    split at h
    · cases h
    · split at h
      · split at h
        · cases h
        · exact ih _ h
      · split at h
        · cases h
        · exact ih _ h
      · split at h <;> cases h
      · cases h

/-- The successful outcome of the trace, described: the densities polished at the target temperature, with one more
predictor increment added if the predictor is on. -/
theorem trace_result (polish : ℝ → V2 → Option V2) (slopes : ℝ → V2 → Option ℝ × Option ℝ) (w : Bool) (Nstep : ℤ) (Tclose T : ℝ)
    (r : Option V2) (q : V2) (hN : 1 ≤ Nstep) (h : pureTrace polish slopes w Nstep Tclose T r = .ok q) :
    q.x ≠ q.y ∧ ∃ r' p, polish T r' = some p ∧ (w = false → q = p) ∧
      (w = true → 2 ≤ Nstep ∧ ∃ vx vy, slopes T p = (some vx, some vy) ∧
        q = ⟨p.x + -(Tclose - T) / (Nstep - 1) * vx, p.y + -(Tclose - T) / (Nstep - 1) * vy⟩) := by
  unfold pureTrace at h
  split at h
  · rw [if_neg (by omega), if_neg (by omega)] at h; cases h
  rename_i p0 hp0
  split at h
  · cases h
  rw [if_neg (by omega)] at h
  obtain ⟨n, hn⟩ : ∃ n : ℕ, Nstep.toNat = n + 1 := ⟨Nstep.toNat - 1, by omega⟩
  obtain ⟨l, hl⟩ := linSpaced_succ n Tclose T
  simp only at h
  rw [hn, hl] at h
  obtain ⟨r', h2⟩ := traceLoop_append _ _ _ _ _ _ _ _ h
  rw [traceLoop] at h2
  cases hp : polish T r' with
  | none => simp only [hp] at h2; cases h2
  | some p =>
    simp only [hp] at h2
    cases w with
    | false =>
      simp only at h2
      split at h2
      · cases h2
      · rename_i hne
        rw [traceLoop] at h2
        cases h2
        exact ⟨hne, r', _, hp, fun _ => rfl, by simp⟩
    | true =>
      by_cases h1 : Nstep = 1
      · rw [if_pos h1] at h2; cases h2
      · rw [if_neg h1] at h2
        cases hs : slopes T p with
        | mk a b =>
          cases a with
          | none => simp only [hs] at h2; cases h2
          | some vx =>
            cases b with
            | none => simp only [hs, if_true] at h2; cases h2
            | some vy =>
              simp only [hs] at h2
              split at h2
              · cases h2
              · rename_i hne
                rw [traceLoop] at h2
                cases h2
                exact ⟨hne, r', p, hp, by simp, fun _ => ⟨by omega, vx, vy, hs, rfl⟩⟩

/-- Without the predictor and with at least one step the traced densities are the output of the saturation solver at the
requested temperature, and are not equal.  The full property also asks this with the predictor on: that part is refuted by
`trace_with_predictor_overshoots`. -/
theorem pure_trace_partial (fluid : List ℝ → (ℝ → ℝ → ℝ) × ℝ) (solve : M2 → V2 → Option V2) (eps T : ℝ) (s : TraceSpec) (q : V2)
    (hw : s.withDeriv = false) (hN : 1 ≤ s.Nstep) (h : pureTraceVLE fluid solve eps T s = .ok q) :
    q.x ≠ q.y ∧ ∃ z r', traceMoleFracs s.pure = .ok z ∧ pureVLE (fluid z).1 (fluid z).2 solve eps T s.NVLE r' = .ok q := by
  unfold pureTraceVLE at h
  obtain ⟨z, hz, h⟩ := Outcome.bind_eq_ok.mp h
  simp only at h
  have key : ∀ Tc r, pureTrace (fun T r => finiteOf (pureVLE (fluid z).1 (fluid z).2 solve eps T s.NVLE r))
      (satSlopes (fluid z).1 (fluid z).2) s.withDeriv s.Nstep Tc T r = .ok q →
      q.x ≠ q.y ∧ ∃ z r', traceMoleFracs s.pure = .ok z ∧ pureVLE (fluid z).1 (fluid z).2 solve eps T s.NVLE r' = .ok q := by
    intro Tc r h
    obtain ⟨hne, r', p, hp, e, -⟩ := trace_result _ _ _ _ _ _ _ _ hN h
    refine ⟨hne, z, r', hz, ?_⟩
    rw [e hw]
    cases hv : pureVLE (fluid z).1 (fluid z).2 solve eps T s.NVLE r' with
    | ok a => simp only [hv, finiteOf, Option.some.injEq] at hp; rw [hp]
    | throws a => simp [hv, finiteOf] at hp
    | ub => simp [hv, finiteOf] at hp
    | nonFinite => simp [hv, finiteOf] at hp
  split at h
  · exact key _ _ h
  · exact key _ _ h
  · cases h
  · cases h

/-- No outcome of the trace is a pair of equal densities. -/
theorem pure_trace_not_trivial (fluid : List ℝ → (ℝ → ℝ → ℝ) × ℝ) (solve : M2 → V2 → Option V2) (eps T : ℝ) (s : TraceSpec) (q : V2)
    (h : pureTraceVLE fluid solve eps T s = .ok q) : q.x ≠ q.y := by
  unfold pureTraceVLE at h
  obtain ⟨z, -, h⟩ := Outcome.bind_eq_ok.mp h
  simp only at h
  have key : ∀ polish slopes Tc r, pureTrace polish slopes s.withDeriv s.Nstep Tc T r = .ok q → q.x ≠ q.y := by
    intro polish slopes Tc r h
    by_cases hN : 1 ≤ s.Nstep
    · exact (trace_result _ _ _ _ _ _ _ _ hN h).1
    · unfold pureTrace at h
      split at h
      · split at h
        · cases h
        · split at h <;> cases h
      · split at h
        · cases h
        · rename_i hne
          split at h
          · cases h
          · have h0 : s.Nstep = 0 := by omega
            rw [h0] at h
            cases h
            exact hne
  split at h
  · exact key _ _ _ _ h
  · exact key _ _ _ _ h
  · cases h
  · cases h

/-- The exact saturation densities of the sample fluid pass through the solver unchanged. -/
theorem wellFluid_polish (solve : M2 → V2 → Option V2) (eps : ℝ) (he : 0 < eps) (N : ℤ) (T : ℝ) (h1 : 0 < T) (h2 : T < 3) :
    finiteOf (pureVLE wellFluid 8 solve eps T N (wellSat T)) = some (wellSat T) := by
  rw [vle_solution_fixed _ _ _ _ _ _ _ he (by norm_num) (by unfold wellSat; simp only; linarith)
    (by unfold wellSat; simp only; linarith) (wellFluid_resid 8 T (by norm_num) h1 h2)]
  rfl

/-- With the predictor on, tracing the sample fluid from `T = 1/2` to `T = 1/4` in two steps, started from the exact
densities, returns the densities `3, 1`.  These are not saturation densities at `1/4`. -/
theorem trace_with_predictor_overshoots (solve : M2 → V2 → Option V2) (eps : ℝ) (he : 0 < eps) (N : ℤ) (c : ℝ → ℝ) :
    pureTrace (fun T r => finiteOf (pureVLE wellFluid 8 solve eps T N r)) (satSlopes wellFluid 8) true 2 (1 / 2) (1 / 4)
      (some (wellSat (1 / 2))) = .ok ⟨3, 1⟩
    ∧ ¬ Coexist wellFluid c 8 (1 / 4) 3 1 := by
  constructor
  · have p1 := wellFluid_polish solve eps he N (1 / 2) (by norm_num) (by norm_num)
    have p2 := wellFluid_polish solve eps he N (1 / 4) (by norm_num) (by norm_num)
    have s1 := wellFluid_slopes 8 (1 / 2) (by norm_num) (by norm_num) (by norm_num)
    have s2 := wellFluid_slopes 8 (1 / 4) (by norm_num) (by norm_num) (by norm_num)
    have e1 : (wellSat (1 / 2)).x + -(1 / 2 - 1 / 4) / ((2 : ℤ) - 1) * (-1) = (wellSat (1 / 4)).x := by
      unfold wellSat; norm_num
    have e2 : (wellSat (1 / 2)).y + -(1 / 2 - 1 / 4) / ((2 : ℤ) - 1) * 1 = (wellSat (1 / 4)).y := by
      unfold wellSat; norm_num
    have hl : linSpaced (2 : ℤ).toNat (1 / 2) (1 / 4) = [1 / 2, 1 / 4] := by
      simp [linSpaced, List.range_succ]
    have n1 : (wellSat (1 / 2)).x ≠ (wellSat (1 / 2)).y := by unfold wellSat; norm_num
    have n2 : (wellSat (1 / 4)).x ≠ (wellSat (1 / 4)).y := by unfold wellSat; norm_num
    unfold pureTrace
    simp only [Option.bind_some, p1, hl]
    rw [if_neg n1, if_neg (by norm_num), if_neg (by norm_num : ¬ (2 : ℤ) = 1)]
    simp only [traceLoop, p1, s1, e1, e2]
    rw [if_neg n2]
    simp only [p2, s2]
    have f1 : (wellSat (1 / 4)).x + -(1 / 2 - 1 / 4) / ((2 : ℤ) - 1) * (-1) = 3 := by unfold wellSat; norm_num
    have f2 : (wellSat (1 / 4)).y + -(1 / 2 - 1 / 4) / ((2 : ℤ) - 1) * 1 = 1 := by unfold wellSat; norm_num
    rw [f1, f2, if_neg (by norm_num)]
  · rintro ⟨hp, -⟩
    rw [pressure_eq, pressure_eq, wellFluid_drn1 _ _ (by norm_num), wellFluid_drn1 _ _ (by norm_num)] at hp
    norm_num at hp

/-- The trace of the sample fluid without the predictor, in one step from the exact densities: accepted. -/
example (solve : M2 → V2 → Option V2) (N : ℤ) :
    pureTrace (fun T r => finiteOf (pureVLE wellFluid 8 solve 1 T N r)) (satSlopes wellFluid 8) false 1 (1 / 4) (1 / 4)
      (some (wellSat (1 / 4))) = .ok (wellSat (1 / 4)) := by
  have p2 := wellFluid_polish solve 1 (by norm_num) N (1 / 4) (by norm_num) (by norm_num)
  have n2 : (wellSat (1 / 4)).x ≠ (wellSat (1 / 4)).y := by unfold wellSat; norm_num
  have hl : linSpaced (1 : ℤ).toNat (1 / 4) (1 / 4) = [1 / 4] := by simp [linSpaced, List.range_succ]
  unfold pureTrace
  simp only [Option.bind_some, p2, hl, traceLoop]
  rw [if_neg n2, if_neg (by norm_num), if_neg n2]

/-- With no step at all the densities returned are those of the near-critical temperature, not of the target. -/
theorem trace_no_steps (polish : ℝ → V2 → Option V2) (slopes : ℝ → V2 → Option ℝ × Option ℝ) (w : Bool) (Tclose T : ℝ) (r p : V2)
    (hp : polish Tclose r = some p) (h : p.x ≠ p.y) : pureTrace polish slopes w 0 Tclose T (some r) = .ok p := by
  unfold pureTrace
  simp only [Option.bind_some, hp, if_neg h]
  rfl

/-- A single step with the predictor on is refused: the temperature increment is a division by zero. -/
theorem trace_one_step_predictor (polish : ℝ → V2 → Option V2) (slopes : ℝ → V2 → Option ℝ × Option ℝ) (Tclose T : ℝ) (r : Option V2) :
    pureTrace polish slopes true 1 Tclose T r = .throws .iterationFailure := by
  unfold pureTrace
  split
  · rfl
  · split
    · rfl
    · simp only [linSpaced]
      simp [traceLoop, List.range_succ]
      split <;> rfl

/-- A start that is not finite is refused as soon as one step is asked for. -/
theorem trace_nonfinite_start (polish : ℝ → V2 → Option V2) (slopes : ℝ → V2 → Option ℝ × Option ℝ) (w : Bool) {Nstep : ℤ} (hN : 1 ≤ Nstep)
    (Tclose T : ℝ) : pureTrace polish slopes w Nstep Tclose T none = .throws .iterationFailure := by
  unfold pureTrace
  simp only [Option.bind_none]
  rw [if_neg (by omega), if_neg (by omega)]

/-- **C35** fails in one more way: a vapour density that is not finite is not noticed in the last step, only the liquid one is checked. -/
theorem trace_vapour_unchecked (T d vx : ℝ) (p r : V2) (polish : ℝ → V2 → Option V2) (slopes : ℝ → V2 → Option ℝ × Option ℝ)
    (hp : polish T r = some p) (hs : slopes T p = (some vx, none)) :
    traceLoop polish slopes true (some d) [T] r = .nonFinite ∧
      ∀ S Ts, traceLoop polish slopes true (some d) (T :: S :: Ts) r = .throws .iterationFailure := by
  constructor
  · simp [traceLoop, hp, hs]
  · intro S Ts
    rw [traceLoop]
    simp [hp, hs]

/-- The component index of the trace is not checked: an index outside the vector is an out-of-bounds write, not a refusal. -/
theorem trace_index_unchecked (fluid : List ℝ → (ℝ → ℝ → ℝ) × ℝ) (solve : M2 → V2 → Option V2) (eps T : ℝ) (s : TraceSpec)
    (n i : ℤ) (m : ℤ) (hs : s.pure = some ⟨some n, some i, m⟩) (hi : i < 0 ∨ n ≤ i) : pureTraceVLE fluid solve eps T s = .ub := by
  have : traceMoleFracs s.pure = .ub := by
    rw [hs]
    simp only [traceMoleFracs]
    split
    · rfl
    · rw [if_neg (by omega)]
  unfold pureTraceVLE
  rw [this]
  rfl

example (fluid : List ℝ → (ℝ → ℝ → ℝ) × ℝ) (solve : M2 → V2 → Option V2) :
    pureTraceVLE fluid solve 1 1 ⟨some ⟨some 2, some 2, 10⟩, 1, 1, 1, 10, 10, true⟩ = .ub :=
  trace_index_unchecked _ _ _ _ _ 2 2 10 rfl (Or.inr le_rfl)

/-- A vapour phase at its spinodal: its slope is not finite while that of the liquid is. -/
example : traceLoop (fun _ r => some r) (fun _ _ => (some 1, none)) true (some (-1)) [1] ⟨2, 1⟩ = .nonFinite :=
  (trace_vapour_unchecked 1 (-1) 1 ⟨2, 1⟩ ⟨2, 1⟩ _ _ rfl rfl).1

end Teqp.Props
