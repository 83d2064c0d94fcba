import Verif.Props.GERGTables
import Mathlib.Analysis.Calculus.Deriv.Pow
import Mathlib.Analysis.SpecialFunctions.ExpDeriv
import Mathlib.Analysis.SpecialFunctions.Pow.Real
import Mathlib.Analysis.Calculus.IteratedDeriv.Lemmas
import Mathlib.Analysis.Complex.ExponentialBounds

/-! # GERG pure fluids: the published formula, zero density and critical points -/

set_option autoImplicit false

namespace Teqp.Spec
open Model

/-- The published form of the residual Helmholtz energy of a pure fluid. -/
noncomputable def gergPureSum (terms : List GTerm) (tau delta : ℝ) : ℝ :=
  (terms.map fun x => (x.n : ℝ) * delta ^ x.d * tau ^ (x.t : ℝ) * Real.exp (-(x.c * delta ^ x.l))).sum

/-- The published form of a departure function. -/
noncomputable def gergDepSum (terms : List GDepTerm) (tau delta : ℝ) : ℝ :=
  (terms.map fun x => (x.n : ℝ) * delta ^ x.d * tau ^ (x.t : ℝ) *
    Real.exp (-x.eta * (delta - x.epsilon) ^ 2 - x.beta * (delta - x.gamma))).sum

end Teqp.Spec

namespace Teqp.Props
open Model Spec

/-! ## Values -/

theorem gterm_value (x : GTerm) (tau delta : ℝ) (ht : 0 < tau) :
    x.zeroBranch tau delta = (x.n : ℝ) * delta ^ x.d * tau ^ (x.t : ℝ) * Real.exp (-(x.c * delta ^ x.l)) ∧
      (0 < delta → x.logBranch tau delta = (x.n : ℝ) * delta ^ x.d * tau ^ (x.t : ℝ) * Real.exp (-(x.c * delta ^ x.l))) := by
  have h1 : tau ^ (x.t : ℝ) = Real.exp (x.t * Real.log tau) := by rw [Real.rpow_def_of_pos ht, mul_comm]
  refine ⟨?_, fun hd => ?_⟩
  · unfold GTerm.zeroBranch
    rw [h1, sub_eq_add_neg, Real.exp_add]
    ring
  · unfold GTerm.logBranch
    have h2 : delta ^ x.d = Real.exp (x.d * Real.log delta) := by
      rw [← Real.rpow_natCast, Real.rpow_def_of_pos hd, mul_comm]
    rw [h1, h2, sub_eq_add_neg, Real.exp_add, Real.exp_add]
    ring

theorem gdepterm_value (x : GDepTerm) (tau delta : ℝ) (ht : 0 < tau) :
    x.zeroBranch tau delta = (x.n : ℝ) * delta ^ x.d * tau ^ (x.t : ℝ) *
      Real.exp (-x.eta * (delta - x.epsilon) ^ 2 - x.beta * (delta - x.gamma)) ∧
    (0 < delta → x.logBranch tau delta = (x.n : ℝ) * delta ^ x.d * tau ^ (x.t : ℝ) *
      Real.exp (-x.eta * (delta - x.epsilon) ^ 2 - x.beta * (delta - x.gamma))) := by
  have h1 : tau ^ (x.t : ℝ) = Real.exp (x.t * Real.log tau) := by rw [Real.rpow_def_of_pos ht, mul_comm]
  refine ⟨?_, fun hd => ?_⟩
  · unfold GDepTerm.zeroBranch
    rw [h1, show x.t * Real.log tau - x.eta * ((delta - x.epsilon) * (delta - x.epsilon)) - x.beta * (delta - x.gamma)
      = x.t * Real.log tau + (-x.eta * (delta - x.epsilon) ^ 2 - x.beta * (delta - x.gamma)) by ring, Real.exp_add]
    ring
  · unfold GDepTerm.logBranch
    have h2 : delta ^ x.d = Real.exp (x.d * Real.log delta) := by
      rw [← Real.rpow_natCast, Real.rpow_def_of_pos hd, mul_comm]
    rw [h1, h2, show x.t * Real.log tau + x.d * Real.log delta - x.eta * ((delta - x.epsilon) * (delta - x.epsilon))
      - x.beta * (delta - x.gamma) = x.t * Real.log tau + x.d * Real.log delta +
        (-x.eta * (delta - x.epsilon) ^ 2 - x.beta * (delta - x.gamma)) by ring, Real.exp_add, Real.exp_add]
    ring

/-- For every component of either version, all positive `tau` and all densities including zero, the code returns
the published sum. -/
theorem gerg_pure_value (v : GVer) (f : GFluid) (hf : f ∈ gergComponents v) :
    ∃ p, gergPure v f = some p ∧ ∀ tau delta, 0 < tau → 0 ≤ delta →
      p.alphar tau delta = .ok (gergPureSum p.terms tau delta) := by
  obtain ⟨p, hp, hn, h1, h2, h3, h4, _⟩ := (gerg_pure_table v f).1 hf
  refine ⟨p, hp, fun tau delta ht hd => ?_⟩
  unfold GPure.alphar gergPureSum
  have hl : ¬ (p.l = [] ∧ p.n ≠ []) := by
    rintro ⟨hl, -⟩
    rw [hl] at h4
    exact hn (List.length_eq_zero_iff.1 h4.symm)
  have hb : p.inBounds = true := by unfold GPure.inBounds; simp [h1, h2, h3, h4]
  rw [if_neg hl, if_neg (by simp [hb]), if_neg (by simp [not_or, ht, hd])]
  by_cases h0 : delta = 0
  · rw [if_pos h0]
    congr 2
    exact List.map_congr_left fun x _ => (gterm_value x tau delta ht).1
  · rw [if_neg h0]
    congr 2
    exact List.map_congr_left fun x _ => (gterm_value x tau delta ht).2 (lt_of_le_of_ne hd (Ne.symm h0))

/-- Outside of that domain there is no finite value. -/
theorem gerg_pure_domain (v : GVer) (f : GFluid) (hf : f ∈ gergComponents v) :
    ∃ p, gergPure v f = some p ∧ ∀ tau delta, tau ≤ 0 ∨ delta < 0 → p.alphar tau delta = .nonFinite := by
  obtain ⟨p, hp, hn, h1, h2, h3, h4, _⟩ := (gerg_pure_table v f).1 hf
  refine ⟨p, hp, fun tau delta h => ?_⟩
  unfold GPure.alphar
  have hl : ¬ (p.l = [] ∧ p.n ≠ []) := by
    rintro ⟨hl, -⟩
    rw [hl] at h4
    exact hn (List.length_eq_zero_iff.1 h4.symm)
  have hb : p.inBounds = true := by unfold GPure.inBounds; simp [h1, h2, h3, h4]
  rw [if_neg hl, if_neg (by simp [hb]), if_pos h]

/-- The same for the departure functions. -/
theorem gerg_dep_value (a b : GFluid) (p : GDep) (hp : gergDep a b = some p) (tau delta : ℝ) (ht : 0 < tau) (hd : 0 ≤ delta) :
    p.alphar tau delta = .ok (gergDepSum p.terms tau delta) := by
  obtain ⟨-, h1, h2, h3, h4, h5, h6, -⟩ := (gerg_departure a b).2.2.2 p hp
  unfold GDep.alphar gergDepSum
  have hb : p.inBounds = true := by unfold GDep.inBounds; simp [h1, h2, h3, h4, h5, h6]
  rw [if_neg (by simp [hb]), if_neg (by simp [not_or, ht, hd])]
  by_cases h0 : delta = 0
  · rw [if_pos h0]
    congr 2
    exact List.map_congr_left fun x _ => (gdepterm_value x tau delta ht).1
  · rw [if_neg h0]
    congr 2
    exact List.map_congr_left fun x _ => (gdepterm_value x tau delta ht).2 (lt_of_le_of_ne hd (Ne.symm h0))

/-- Both contributions vanish at zero density. -/
theorem gerg_zero_density (v : GVer) (f : GFluid) (hf : f ∈ gergComponents v) (a b : GFluid) (tau : ℝ) (ht : 0 < tau) :
    (∃ p, gergPure v f = some p ∧ p.alphar tau 0 = .ok 0) ∧
      ∀ q, gergDep a b = some q → q.alphar tau 0 = .ok 0 := by
  constructor
  · obtain ⟨p, hp, hv⟩ := gerg_pure_value v f hf
    obtain ⟨p', hp', -, -, -, -, -, hx⟩ := (gerg_pure_table v f).1 hf
    have : p' = p := Option.some.inj (hp'.symm.trans hp)
    subst this
    refine ⟨p', hp, (hv tau 0 ht le_rfl).trans ?_⟩
    congr 1
    unfold gergPureSum
    apply List.sum_eq_zero
    intro y hy
    obtain ⟨x, hx1, rfl⟩ := List.mem_map.1 hy
    have := (hx x hx1).2.2.1
    rw [zero_pow (by omega)]
    ring
  · intro q hq
    rw [gerg_dep_value a b q hq tau 0 ht le_rfl]
    congr 1
    unfold gergDepSum
    apply List.sum_eq_zero
    intro y hy
    obtain ⟨x, hx1, rfl⟩ := List.mem_map.1 hy
    have := (((gerg_departure a b).2.2.2 q hq).2.2.2.2.2.2.2 x hx1).1
    rw [zero_pow (by omega)]
    ring

example : ∃ p, gergPure .v2008 .water = some p ∧ p.alphar 2 0 = .ok 0 :=
  (gerg_zero_density .v2008 .water (by decide) .water .water 2 (by norm_num)).1

/-! ## Critical points

`PE` is a sum of terms `a * delta^d * exp(-c * delta^l)`; such sums are closed under differentiation, with
rational coefficients. -/

/-- Terms `a * delta^d * exp(-c * delta^l)`. -/
abbrev PE := List (ℚ × ℕ × ℕ × ℕ)

/-- Value. -/
noncomputable def PE.eval (L : PE) (x : ℝ) : ℝ :=
  (L.map fun e => (e.1 : ℝ) * x ^ e.2.1 * Real.exp (-(e.2.2.1 * x ^ e.2.2.2))).sum

/-- Derivative. -/
def PE.D (L : PE) : PE :=
  L.flatMap fun e => [(e.1 * e.2.1, e.2.1 - 1, e.2.2.1, e.2.2.2),
    (-(e.1 * e.2.2.1 * e.2.2.2), e.2.1 + e.2.2.2 - 1, e.2.2.1, e.2.2.2)]

/-- Multiplication by the square of the variable. -/
def PE.sq (L : PE) : PE := L.map fun e => (e.1, e.2.1 + 2, e.2.2)

theorem PE.hasDerivAt (L : PE) (x : ℝ) : HasDerivAt L.eval (L.D.eval x) x := by
  induction L with
  | nil => exact hasDerivAt_const x (0 : ℝ)
  | cons e L ih =>
    have hE : PE.eval (e :: L) = fun y => (e.1 : ℝ) * y ^ e.2.1 * Real.exp (-(e.2.2.1 * y ^ e.2.2.2)) + PE.eval L y := by
      funext y; simp [PE.eval]
    rw [hE]
    have h1 : HasDerivAt (fun y : ℝ => (e.1 : ℝ) * y ^ e.2.1) ((e.1 : ℝ) * (e.2.1 * x ^ (e.2.1 - 1))) x :=
      (hasDerivAt_pow e.2.1 x).const_mul _
    have h2 : HasDerivAt (fun y : ℝ => -((e.2.2.1 : ℝ) * y ^ e.2.2.2)) (-((e.2.2.1 : ℝ) * (e.2.2.2 * x ^ (e.2.2.2 - 1)))) x :=
      ((hasDerivAt_pow e.2.2.2 x).const_mul _).neg
    refine ((h1.mul h2.exp).add ih).congr_deriv ?_
    have hD : PE.eval (PE.D (e :: L)) x = ((e.1 * e.2.1 : ℚ) : ℝ) * x ^ (e.2.1 - 1) * Real.exp (-(e.2.2.1 * x ^ e.2.2.2))
        + ((-(e.1 * e.2.2.1 * e.2.2.2) : ℚ) : ℝ) * x ^ (e.2.1 + e.2.2.2 - 1) * Real.exp (-(e.2.2.1 * x ^ e.2.2.2)) + PE.eval (PE.D L) x := by
      simp [PE.eval, PE.D, add_assoc]
    rw [hD]
    push_cast
    rcases Nat.eq_zero_or_pos e.2.2.2 with hl | hl
    · rw [hl]; push_cast; ring
    · have : x ^ (e.2.1 + e.2.2.2 - 1) = x ^ e.2.1 * x ^ (e.2.2.2 - 1) := by
        rw [← pow_add]; congr 1; omega
      rw [this]; ring

theorem PE.eval_sq (L : PE) (x : ℝ) : L.sq.eval x = x ^ 2 * L.eval x := by
  unfold PE.eval PE.sq
  rw [← List.sum_map_mul_left, List.map_map]
  congr 1
  refine List.map_congr_left fun e _ => ?_
  simp only [Function.comp]
  ring

/-- At one, with switches zero or one: a rational number plus a rational multiple of `exp(-1)`. -/
def PE.plain (L : PE) : ℚ := (L.map fun e => if e.2.2.1 = 0 then e.1 else 0).sum

/-- See `PE.plain`. -/
def PE.damped (L : PE) : ℚ := (L.map fun e => if e.2.2.1 = 0 then 0 else e.1).sum

theorem PE.eval_one (L : PE) (h : ∀ e ∈ L, e.2.2.1 = 0 ∨ e.2.2.1 = 1) :
    L.eval 1 = L.plain + L.damped * Real.exp (-1) := by
  induction L with
  | nil => simp [PE.eval, PE.plain, PE.damped]
  | cons e L ih =>
    have ih' := ih fun e he => h e (List.mem_cons_of_mem _ he)
    unfold PE.eval PE.plain PE.damped at ih' ⊢
    simp only [List.map_cons, List.sum_cons, Rat.cast_add]
    rw [ih']
    rcases h e List.mem_cons_self with hc | hc <;> simp [hc] <;> ring

/-- The terms of a pure fluid as a function of `delta` at `tau = 1`. -/
def GPure.pe (p : GPure) : PE := p.terms.map fun x => (x.n, x.d, x.c, x.l)

/-- Bounds of a `PE` at one that can be computed. -/
def PE.small (L : PE) (a eps : ℚ) : Bool :=
  (L.all fun e => e.2.2.1 == 0 || e.2.2.1 == 1) &&
    decide (|a + L.plain + L.damped * (133877442384 / 363916618873)| + |L.damped| * 1e-20 ≤ eps)

theorem exp_neg_one_bound : |Real.exp (-1) - (133877442384 / 363916618873)| ≤ 1e-20 := by
  have h := Real.exp_one_near_20
  have he : (2 : ℝ) < Real.exp 1 := by have := Real.exp_one_gt_d9; linarith
  have hx : Real.exp (-1) - (133877442384 / 363916618873) =
      -(Real.exp 1 - 363916618873 / 133877442384) * (133877442384 / 363916618873 / Real.exp 1) := by
    rw [Real.exp_neg]
    have : Real.exp 1 ≠ 0 := by positivity
    field_simp
    ring
  have hb : 133877442384 / 363916618873 / Real.exp 1 ≤ 1 := by
    rw [div_le_one (by positivity)]
    refine le_trans ?_ he.le
    norm_num
  rw [hx, abs_mul, abs_neg, abs_of_pos (show 0 < 133877442384 / 363916618873 / Real.exp 1 by positivity)]
  calc _ ≤ (1 / 10 ^ 20 : ℝ) * 1 := mul_le_mul h hb (by positivity) (by positivity)
    _ = 1e-20 := by norm_num

theorem PE.small_spec (L : PE) (a eps : ℚ) (h : L.small a eps = true) : |(a : ℝ) + L.eval 1| ≤ eps := by
  unfold PE.small at h
  simp only [Bool.and_eq_true, List.all_eq_true, Bool.or_eq_true, beq_iff_eq, decide_eq_true_eq] at h
  rw [PE.eval_one L h.1]
  have h2 : |((a : ℝ) + L.plain + L.damped * (133877442384 / 363916618873))| + |(L.damped : ℝ)| * 1e-20 ≤ eps := by
    have := h.2
    have hc : ((|a + L.plain + L.damped * (133877442384 / 363916618873)| + |L.damped| * 1e-20 : ℚ) : ℝ) ≤ (eps : ℝ) := by exact_mod_cast this
    push_cast at hc
    exact hc
  have h3 : (a : ℝ) + (L.plain + L.damped * Real.exp (-1)) =
      ((a : ℝ) + L.plain + L.damped * (133877442384 / 363916618873)) + L.damped * (Real.exp (-1) - (133877442384 / 363916618873)) := by ring
  rw [h3]
  refine (abs_add_le _ _).trans (le_trans ?_ h2)
  rw [abs_mul]
  have := mul_le_mul_of_nonneg_left exp_neg_one_bound (abs_nonneg (L.damped : ℝ))
  linarith

/-- Reduced pressure `p / (rhoc * R * Tc)` on the critical isotherm. -/
noncomputable def gergIsotherm (a : ℝ → ℝ) (x : ℝ) : ℝ := x * (1 + x * deriv a x)

theorem gerg_isotherm_derivs (L : PE) (a : ℝ → ℝ) (ha : ∀ x, 0 < x → a x = L.eval x) :
    gergIsotherm a 1 = 1 + L.D.eval 1 ∧ deriv (gergIsotherm a) 1 = 1 + L.D.sq.D.eval 1 ∧
      deriv (deriv (gergIsotherm a)) 1 = L.D.sq.D.D.eval 1 := by
  have hpos : ∀ x : ℝ, 0 < x → ∀ᶠ y in nhds x, 0 < y := fun x hx => lt_mem_nhds hx
  have h0 : ∀ x, 0 < x → deriv a x = L.D.eval x := fun x hx =>
    ((L.hasDerivAt x).congr_of_eventuallyEq ((hpos x hx).mono fun y hy => ha y hy)).deriv
  have h1 : ∀ x, 0 < x → gergIsotherm a x = x + L.D.sq.eval x := fun x hx => by
    unfold gergIsotherm; rw [h0 x hx, PE.eval_sq]; ring
  have h2 : ∀ x, 0 < x → deriv (gergIsotherm a) x = 1 + L.D.sq.D.eval x := fun x hx =>
    (((hasDerivAt_id x).add (L.D.sq.hasDerivAt x)).congr_of_eventuallyEq ((hpos x hx).mono fun y hy => h1 y hy)).deriv
  refine ⟨?_, h2 1 one_pos, ?_⟩
  · unfold gergIsotherm; rw [h0 1 one_pos]; ring
  · have h3 : HasDerivAt (fun x => 1 + L.D.sq.D.eval x) (0 + L.D.sq.D.D.eval 1) 1 :=
      (hasDerivAt_const _ _).add (L.D.sq.D.hasDerivAt 1)
    rw [(h3.congr_of_eventuallyEq ((hpos 1 one_pos).mono fun y hy => h2 y hy)).deriv, zero_add]

theorem gergPureSum_pe (p : GPure) (x : ℝ) : gergPureSum p.terms 1 x = (GPure.pe p).eval x := by
  unfold gergPureSum PE.eval GPure.pe
  rw [List.map_map]
  congr 1
  refine List.map_congr_left fun e _ => ?_
  simp [Function.comp]

/-- How well the published coefficients meet the critical conditions: fitted with the conditions as constraints
(the last digits printed), coefficients of five digits, or short technical equations fitted without them. -/
def gergCritEps : GVer → GFluid → ℚ
  | .v2008, .isopentane => 1.4e-6
  | .v2008, .carbonMonoxide => 4e-6
  | .v2008, .hydrogenSulfide => 1.6e-4
  | .v2008, .nNonane => 3e-5
  | .v2008, .nDecane => 3.4e-6
  | _, .methane => 3e-13
  | _, .nitrogen => 3e-13
  | _, .carbonDioxide => 3e-13
  | _, .ethane => 3e-13
  | _, .hydrogen => 3e-13
  | _, .water => 3e-13
  | _, .helium => 3e-13
  | .v2004, .carbonMonoxide => 3e-13
  | _, .nPentane => 0.00242
  | _, .isobutane => 0.0089
  | _, .isopentane => 0.0101
  | _, .propane => 0.0112
  | _, .argon => 0.0156
  | _, .oxygen => 0.0217
  | _, .nOctane => 0.0256
  | _, .nHeptane => 0.0289
  | _, .nHexane => 0.0303
  | _, _ => 0.0349

set_option maxHeartbeats 1600000 in
/-- On the critical isotherm the pressure has zero slope and zero curvature at the critical density, to the
accuracy of the published coefficients. -/
theorem gerg_critical (v : GVer) (f : GFluid) (hf : f ∈ gergComponents v) :
    ∃ p, gergPure v f = some p ∧ ∃ a : ℝ → ℝ, (∀ x, 0 ≤ x → p.alphar 1 x = .ok (a x)) ∧
      |deriv (gergIsotherm a) 1| ≤ gergCritEps v f ∧ |deriv (deriv (gergIsotherm a)) 1| ≤ gergCritEps v f ∧
      0.22 ≤ gergIsotherm a 1 ∧ gergIsotherm a 1 ≤ 0.32 := by
  have key : ∀ v ∈ [GVer.v2004, .v2008], ∀ f ∈ gergComponents v, ((gergPure v f).any fun p =>
      (GPure.pe p).D.sq.D.small 1 (gergCritEps v f) && (GPure.pe p).D.sq.D.D.small 0 (gergCritEps v f) &&
        (GPure.pe p).D.small 0.73 0.05) = true := by
    decide +kernel
  have hk := key v (by cases v <;> simp) f hf
  obtain ⟨p, hp, hs⟩ := (Option.any_eq_true _ _).1 hk
  obtain ⟨p', hp', hv⟩ := gerg_pure_value v f hf
  have : p' = p := Option.some.inj (hp'.symm.trans hp)
  subst this
  simp only [Bool.and_eq_true] at hs
  obtain ⟨⟨s1, s2⟩, s3⟩ := hs
  refine ⟨p', hp, (GPure.pe p').eval, fun x hx => ?_, ?_⟩
  · rw [hv 1 x one_pos hx, gergPureSum_pe]
  · obtain ⟨d0, d1, d2⟩ := gerg_isotherm_derivs (GPure.pe p') _ fun x _ => rfl
    have b1 := PE.small_spec _ _ _ s1
    have b2 := PE.small_spec _ _ _ s2
    have b3 := PE.small_spec _ _ _ s3
    rw [d1, d2, d0]
    push_cast at b1 b2 b3
    rw [zero_add] at b2
    rw [abs_le] at b3
    norm_num at b3
    refine ⟨b1, b2, ?_, ?_⟩ <;> norm_num <;> linarith [b3.1, b3.2]

example : ∃ p, gergPure .v2004 .methane = some p ∧ ∃ a : ℝ → ℝ, (∀ x, 0 ≤ x → p.alphar 1 x = .ok (a x)) ∧
    |deriv (gergIsotherm a) 1| ≤ (3e-13 : ℚ) := by
  obtain ⟨p, hp, a, ha, h, _⟩ := gerg_critical .v2004 .methane (by decide)
  exact ⟨p, hp, a, ha, h⟩

end Teqp.Props
