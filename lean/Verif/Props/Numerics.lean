import Verif.Model.Numerics
import Mathlib.Algebra.Polynomial.Taylor
import Mathlib.Algebra.Polynomial.HasseDeriv
import Mathlib.Algebra.BigOperators.Field
import Mathlib.Analysis.Calculus.IteratedDeriv.Lemmas
import Mathlib.Analysis.Calculus.Deriv.Polynomial
import Mathlib.Analysis.SpecialFunctions.Integrals.Basic
import Mathlib.MeasureTheory.Integral.IntervalIntegral.Basic
import Mathlib.Tactic.IntervalCases
import Mathlib.Tactic.LinearCombination
import Mathlib.Tactic.NormNum

/-! # C19 (finite differences), C20 (quadrature) -/

set_option autoImplicit false

namespace Teqp.Props
open Teqp.Model Polynomial

/-! ## C19 -/

/-- The moments `∑ c k^j` of a finite-difference formula. -/
def fdMoment (t : List (Int × ℚ)) (j : ℕ) : ℚ := (t.map fun p => p.2 * (p.1 : ℚ) ^ j).sum

/-- The supported combinations. -/
def fdSupported (n o : ℕ) : Prop := (1 ≤ n ∧ n ≤ 4) ∧ (o = 2 ∨ o = 4 ∨ o = 6)

theorem fdMoment_table (n o : ℕ) (h : fdSupported n o) (j : ℕ) (hj : j < n + o) :
    fdMoment (centralDiffCoeffs n o) j = if j = n then (n.factorial : ℚ) else 0 := by
  obtain ⟨⟨h1, h2⟩, h3⟩ := h
  rcases h3 with rfl | rfl | rfl <;> interval_cases n <;> interval_cases j <;>
    simp [fdMoment, centralDiffCoeffs, Nat.factorial] <;> norm_num

theorem fdMoment_next (n o : ℕ) (h : fdSupported n o) :
    fdMoment (centralDiffCoeffs n o) (n + o) ≠ 0 := by
  obtain ⟨⟨h1, h2⟩, h3⟩ := h
  rcases h3 with rfl | rfl | rfl <;> interval_cases n <;>
    simp [fdMoment, centralDiffCoeffs] <;> norm_num

theorem fd_eq_moments (t : List (Int × ℚ)) (p : ℝ[X]) (N : ℕ) (hp : p.natDegree < N) (x h : ℝ) :
    (t.map fun q => (q.2 : ℝ) * p.eval (x + h * q.1)).sum
      = ∑ j ∈ Finset.range N, (taylor x p).coeff j * h ^ j * (fdMoment t j : ℝ) := by
  have e : ∀ s, p.eval (x + s) = ∑ j ∈ Finset.range N, (taylor x p).coeff j * s ^ j := fun s => by
    rw [add_comm, ← taylor_eval, eval_eq_sum_range' (by rwa [natDegree_taylor])]
  induction t with
  | nil => simp [fdMoment]
  | cons q t ih =>
    rw [List.map_cons, List.sum_cons, ih, e, Finset.mul_sum, ← Finset.sum_add_distrib]
    refine Finset.sum_congr rfl fun j _ => ?_
    simp only [fdMoment, List.map_cons, List.sum_cons]
    push_cast
    rw [mul_pow]
    ring

theorem iteratedDeriv_polynomial (p : ℝ[X]) (n : ℕ) :
    iteratedDeriv n (fun y => p.eval y) = fun y => (derivative^[n] p).eval y := by
  induction n generalizing p with
  | zero => simp
  | succ n ih =>
    rw [iteratedDeriv_succ']
    have : deriv (fun y => p.eval y) = fun y => (derivative p).eval y := by
      funext y; exact p.deriv
    rw [this, ih, Function.iterate_succ_apply]

theorem taylor_coeff_factorial (p : ℝ[X]) (n : ℕ) (x : ℝ) :
    (taylor x p).coeff n * (n.factorial : ℝ) = iteratedDeriv n (fun y => p.eval y) x := by
  rw [iteratedDeriv_polynomial, taylor_coeff, ← factorial_smul_hasseDeriv]
  simp [mul_comm]

/-- C19. The formula for the `n`-th derivative of order `o` is exact on every polynomial of degree
below `n + o`, at every point and every non-zero step; every other combination is refused. -/
theorem centeredDiff_exact (n o : ℕ) (p : ℝ[X]) (x h : ℝ) (hh : h ≠ 0) :
    (fdSupported n o → p.natDegree < n + o →
      centeredDiff n o (fun y => p.eval y) x h = .ok (iteratedDeriv n (fun y => p.eval y) x)) ∧
    (¬fdSupported n o → centeredDiff n o (fun y => p.eval y) x h = .throws .stdInvalidArgument) := by
  constructor
  · intro hs hp
    have hlen : (centralDiffCoeffs n o).length ≠ 0 := by
      obtain ⟨⟨h1, h2⟩, h3⟩ := hs
      rcases h3 with rfl | rfl | rfl <;> interval_cases n <;> simp [centralDiffCoeffs]
    unfold centeredDiff
    rw [if_neg hlen, if_neg hh]
    congr 1
    rw [fd_eq_moments _ p (n + o) hp]
    have ho : 0 < o := by rcases hs.2 with rfl | rfl | rfl <;> norm_num
    rw [Finset.sum_eq_single n]
    · rw [fdMoment_table n o hs n (by omega), if_pos rfl, ← taylor_coeff_factorial]
      push_cast
      field_simp
    · intro j hj hne
      rw [fdMoment_table n o hs j (Finset.mem_range.mp hj), if_neg hne]; simp
    · intro hn; exact absurd (Finset.mem_range.mpr (by omega)) hn
  · intro hs
    unfold centeredDiff
    rw [if_pos]
    unfold centralDiffCoeffs
    split <;> first | rfl | (exfalso; exact hs ⟨by omega, by omega⟩)

/-- C19. The advertised order is not exceeded: on the monomial of degree `n + o` centred at the point the
formula has a non-zero error (the true derivative there is zero). -/
theorem centeredDiff_order_sharp (n o : ℕ) (hs : fdSupported n o) (x h : ℝ) (hh : h ≠ 0) :
    centeredDiff n o (fun y => (y - x) ^ (n + o)) x h
        = .ok ((fdMoment (centralDiffCoeffs n o) (n + o) : ℝ) * h ^ o) ∧
      (fdMoment (centralDiffCoeffs n o) (n + o) : ℝ) * h ^ o ≠ 0 := by
  refine ⟨?_, mul_ne_zero (by exact_mod_cast fdMoment_next n o hs) (pow_ne_zero _ hh)⟩
  have hlen : (centralDiffCoeffs n o).length ≠ 0 := by
    obtain ⟨⟨h1, h2⟩, h3⟩ := hs
    rcases h3 with rfl | rfl | rfl <;> interval_cases n <;> simp [centralDiffCoeffs]
  unfold centeredDiff
  rw [if_neg hlen, if_neg hh]
  congr 1
  have : ∀ t : List (Int × ℚ), (t.map fun p => (p.2 : ℝ) * (x + h * (p.1 : ℝ) - x) ^ (n + o)).sum
      = h ^ (n + o) * (fdMoment t (n + o) : ℝ) := by
    intro t
    induction t with
    | nil => simp [fdMoment]
    | cons q t ih =>
      rw [List.map_cons, List.sum_cons, ih]
      simp only [fdMoment, List.map_cons, List.sum_cons]
      push_cast
      rw [add_sub_cancel_left, mul_pow]
      ring
  rw [this, pow_add]
  field_simp

example : centeredDiff 3 4 (fun y => (X ^ 6 : ℝ[X]).eval y) 2 0.1
    = .ok (iteratedDeriv 3 (fun y => (X ^ 6 : ℝ[X]).eval y) 2) :=
  (centeredDiff_exact 3 4 (X ^ 6) 2 0.1 (by norm_num)).1 ⟨by norm_num, by norm_num⟩ (by simp)

example : centeredDiff 5 2 (fun y => (X : ℝ[X]).eval y) 2 0.1 = .throws .stdInvalidArgument :=
  (centeredDiff_exact 5 2 X 2 0.1 (by norm_num)).2 (by simp [fdSupported])

/-- C19. The mixed formula gives the mixed derivative of every polynomial of degree at most two in each
variable. -/
theorem centeredDiffXY_exact (c : ℕ → ℕ → ℝ) (x y dx dy : ℝ) (hx : dx ≠ 0) (hy : dy ≠ 0) :
    centeredDiffXY (fun u v => ∑ i ∈ Finset.range 3, ∑ j ∈ Finset.range 3, c i j * u ^ i * v ^ j)
        x y dx dy
      = deriv (fun u => deriv (fun v => ∑ i ∈ Finset.range 3, ∑ j ∈ Finset.range 3,
          c i j * u ^ i * v ^ j) y) x := by
  have h1 : ∀ u v, HasDerivAt (fun v => ∑ i ∈ Finset.range 3, ∑ j ∈ Finset.range 3,
      c i j * u ^ i * v ^ j) (∑ i ∈ Finset.range 3, ∑ j ∈ Finset.range 3,
        c i j * u ^ i * (j * v ^ (j - 1))) v := fun u v =>
    HasDerivAt.fun_sum fun i _ => HasDerivAt.fun_sum fun j _ => (hasDerivAt_pow j v).const_mul _
  have h2 : HasDerivAt (fun u => ∑ i ∈ Finset.range 3, ∑ j ∈ Finset.range 3,
      c i j * u ^ i * (j * y ^ (j - 1))) (∑ i ∈ Finset.range 3, ∑ j ∈ Finset.range 3,
        c i j * (i * x ^ (i - 1)) * (j * y ^ (j - 1))) x :=
    HasDerivAt.fun_sum fun i _ => HasDerivAt.fun_sum fun j _ =>
      ((hasDerivAt_pow i x).const_mul _).mul_const _
  have e : (fun u => deriv (fun v => ∑ i ∈ Finset.range 3, ∑ j ∈ Finset.range 3,
      c i j * u ^ i * v ^ j) y) = fun u => ∑ i ∈ Finset.range 3, ∑ j ∈ Finset.range 3,
      c i j * u ^ i * (j * y ^ (j - 1)) := funext fun u => (h1 u y).deriv
  rw [e, h2.deriv]
  unfold centeredDiffXY
  simp only [Finset.sum_range_succ, Finset.sum_range_zero]
  norm_num
  field_simp
  ring

example : centeredDiffXY (fun u v => ∑ i ∈ Finset.range 3, ∑ j ∈ Finset.range 3,
    (if i = 2 ∧ j = 1 then 5 else 0) * u ^ i * v ^ j) 3 1 0.1 0.2 = 30 := by
  simp [centeredDiffXY, Finset.sum_range_succ]; norm_num

/-- C19. The forward gradient is exact on affine functions of any number of variables. -/
theorem gradientForward_exact {ι : Type} [Fintype ι] [DecidableEq ι] (c : ι → ℝ) (d : ℝ) (x : ι → ℝ)
    (h : ℝ) (hh : h ≠ 0) (i : ι) :
    gradientForward (fun z => ∑ j, c j * z j + d) x h i = c i := by
  unfold gradientForward
  have : ∑ j, c j * (Function.update x i (x i + h)) j = ∑ j, c j * x j + c i * h := by
    have e : ∀ j, c j * (Function.update x i (x i + h)) j = c j * x j + if j = i then c i * h else 0 := by
      intro j
      by_cases hj : j = i
      · subst hj; simp; ring
      · simp [hj]
    simp_rw [e, Finset.sum_add_distrib]
    simp
  simp only [this]
  field_simp
  ring

example : gradientForward (fun z : Fin 2 → ℝ => ∑ j, ![2, 5] j * z j + 7) ![1, 1] 0.1 1 = 5 := by
  rw [gradientForward_exact _ _ _ _ (by norm_num)]; simp

/-! ## C20 -/

/-- Moments of a quadrature rule on `[-1, 1]`. -/
noncomputable def quadMoment (t : List (ℝ × ℝ)) (k : ℕ) : ℝ := (t.map fun p => p.2 * p.1 ^ k).sum

/-- `∫_{-1}^{1} x^k dx`. -/
noncomputable def exactMoment (k : ℕ) : ℝ := ∫ x in (-1 : ℝ)..1, x ^ k

theorem exactMoment_eq (k : ℕ) : exactMoment k = (1 - (-1) ^ (k + 1)) / (k + 1) := by
  unfold exactMoment; rw [integral_pow]; simp

theorem exactMoment_even (k : ℕ) : exactMoment (2 * k) = 2 / (2 * k + 1) := by
  rw [exactMoment_eq, pow_succ, pow_mul]; norm_num

theorem exactMoment_odd (k : ℕ) : exactMoment (2 * k + 1) = 0 := by
  rw [exactMoment_eq, show 2 * k + 1 + 1 = 2 * (k + 1) by ring, pow_mul]; norm_num

theorem quad_sum (t : List (ℝ × ℝ)) (q : ℝ[X]) (N : ℕ) (hq : q.natDegree < N) :
    (t.map fun p => p.2 * q.eval p.1).sum
      = ∑ k ∈ Finset.range N, q.coeff k * quadMoment t k := by
  induction t with
  | nil => simp [quadMoment]
  | cons a t ih =>
    rw [List.map_cons, List.sum_cons, ih, eval_eq_sum_range' hq, Finset.mul_sum,
      ← Finset.sum_add_distrib]
    refine Finset.sum_congr rfl fun k _ => ?_
    simp only [quadMoment, List.map_cons, List.sum_cons]
    ring

theorem integral_sum_moments (q : ℝ[X]) (N : ℕ) (hq : q.natDegree < N) :
    ∫ x in (-1 : ℝ)..1, q.eval x = ∑ k ∈ Finset.range N, q.coeff k * exactMoment k := by
  have : (fun x => q.eval x) = fun x => ∑ k ∈ Finset.range N, q.coeff k * x ^ k := by
    funext x; exact eval_eq_sum_range' hq x
  rw [show (∫ x in (-1 : ℝ)..1, q.eval x)
    = ∫ x in (-1 : ℝ)..1, ∑ k ∈ Finset.range N, q.coeff k * x ^ k from by rw [← this]]
  rw [intervalIntegral.integral_finsetSum]
  · exact Finset.sum_congr rfl fun k _ => intervalIntegral.integral_const_mul _ _
  · intro k _
    exact ((continuous_const.mul (continuous_pow k)).intervalIntegrable _ _)

/-- The integrand rescaled to `[-1, 1]`. -/
noncomputable def rescaled (p : ℝ[X]) (a b : ℝ) : ℝ[X] :=
  p.comp (C ((b - a) / 2) * X + C ((a + b) / 2))

theorem rescaled_eval (p : ℝ[X]) (a b x : ℝ) :
    (rescaled p a b).eval x = p.eval ((b - a) / 2 * x + (a + b) / 2) := by simp [rescaled]

theorem rescaled_natDegree (p : ℝ[X]) (a b : ℝ) : (rescaled p a b).natDegree ≤ p.natDegree := by
  unfold rescaled
  refine natDegree_comp_le.trans ?_
  have : (C ((b - a) / 2) * X + C ((a + b) / 2)).natDegree ≤ 1 := natDegree_linear_le
  calc p.natDegree * _ ≤ p.natDegree * 1 := Nat.mul_le_mul_left _ this
    _ = p.natDegree := by ring

theorem rescaled_integral (p : ℝ[X]) (a b : ℝ) :
    (b - a) / 2 * ∫ x in (-1 : ℝ)..1, (rescaled p a b).eval x = ∫ x in a..b, p.eval x := by
  simp_rw [rescaled_eval]
  rw [intervalIntegral.mul_integral_comp_mul_add (f := fun y => p.eval y)]
  congr 1 <;> ring

theorem rule3 : ∀ k < 6, ∀ t, quadRule 3 = some t → quadMoment t k = exactMoment k := by
  intro k hk t ht
  simp only [quadRule, Option.some.injEq] at ht
  subst ht
  have hs : Real.sqrt (3 / 5) ^ 2 = 3 / 5 := Real.sq_sqrt (by norm_num)
  generalize Real.sqrt (3 / 5) = s at hs
  have e : ∀ m, quadMoment [(0, 8 / 9), (s, 5 / 9), (-s, 5 / 9)] (2 * m)
      = 8 / 9 * (0 : ℝ) ^ m + 10 / 9 * (3 / 5) ^ m := by
    intro m
    simp only [quadMoment, List.map_cons, List.map_nil, List.sum_cons, List.sum_nil, pow_mul, neg_sq, hs]
    norm_num
    ring
  have o : ∀ m, quadMoment [(0, 8 / 9), (s, 5 / 9), (-s, 5 / 9)] (2 * m + 1) = 0 := by
    intro m
    simp only [quadMoment, List.map_cons, List.map_nil, List.sum_cons, List.sum_nil, pow_succ, pow_mul]
    ring
  interval_cases k
  · refine (e 0).trans (Eq.trans ?_ (exactMoment_even 0).symm); norm_num
  · exact (o 0).trans (exactMoment_odd 0).symm
  · refine (e 1).trans (Eq.trans ?_ (exactMoment_even 1).symm); norm_num
  · exact (o 1).trans (exactMoment_odd 1).symm
  · refine (e 2).trans (Eq.trans ?_ (exactMoment_even 2).symm); norm_num
  · exact (o 2).trans (exactMoment_odd 2).symm

theorem rule4 : ∀ k < 8, ∀ t, quadRule 4 = some t → quadMoment t k = exactMoment k := by
  intro k hk t ht
  simp only [quadRule, Option.some.injEq] at ht
  subst ht
  have hs : Real.sqrt (6 / 5) ^ 2 = 6 / 5 := Real.sq_sqrt (by norm_num)
  have h30 : Real.sqrt 30 = 5 * Real.sqrt (6 / 5) := by
    rw [show (30 : ℝ) = 5 ^ 2 * (6 / 5) by norm_num, Real.sqrt_mul (by norm_num),
      Real.sqrt_sq (by norm_num)]
  have hle : Real.sqrt (6 / 5) ≤ 3 / 2 := Real.sqrt_le_iff.mpr (by norm_num)
  have h0 := Real.sqrt_nonneg (6 / 5 : ℝ)
  rw [h30]
  generalize Real.sqrt (6 / 5) = s at *
  have hp : Real.sqrt (3 / 7 - 2 / 7 * s) ^ 2 = 3 / 7 - 2 / 7 * s := Real.sq_sqrt (by linarith)
  have hq : Real.sqrt (3 / 7 + 2 / 7 * s) ^ 2 = 3 / 7 + 2 / 7 * s := Real.sq_sqrt (by linarith)
  generalize Real.sqrt (3 / 7 - 2 / 7 * s) = p at *
  generalize Real.sqrt (3 / 7 + 2 / 7 * s) = q at *
  have hs4 : s ^ 4 = 36 / 25 := by rw [show s ^ 4 = (s ^ 2) ^ 2 by ring, hs]; norm_num
  have e : ∀ m, quadMoment [(p, (18 + 5 * s) / 36), (-p, (18 + 5 * s) / 36), (q, (18 - 5 * s) / 36),
      (-q, (18 - 5 * s) / 36)] (2 * m)
      = 2 * ((18 + 5 * s) / 36 * (3 / 7 - 2 / 7 * s) ^ m + (18 - 5 * s) / 36 * (3 / 7 + 2 / 7 * s) ^ m) := by
    intro m
    simp only [quadMoment, List.map_cons, List.map_nil, List.sum_cons, List.sum_nil, pow_mul, neg_sq,
      hp, hq]
    ring
  have o : ∀ m, quadMoment [(p, (18 + 5 * s) / 36), (-p, (18 + 5 * s) / 36), (q, (18 - 5 * s) / 36),
      (-q, (18 - 5 * s) / 36)] (2 * m + 1) = 0 := by
    intro m
    simp only [quadMoment, List.map_cons, List.map_nil, List.sum_cons, List.sum_nil, pow_succ, pow_mul]
    ring
  interval_cases k
  · refine (e 0).trans (Eq.trans ?_ (exactMoment_even 0).symm); push_cast; ring
  · exact (o 0).trans (exactMoment_odd 0).symm
  · refine (e 1).trans (Eq.trans ?_ (exactMoment_even 1).symm); push_cast
    linear_combination 2 * (-5 / 63) * hs
  · exact (o 1).trans (exactMoment_odd 1).symm
  · refine (e 2).trans (Eq.trans ?_ (exactMoment_even 2).symm); push_cast
    linear_combination 2 * (2 / 147) * hs
  · exact (o 2).trans (exactMoment_odd 2).symm
  · refine (e 3).trans (Eq.trans ?_ (exactMoment_even 3).symm); push_cast
    linear_combination 2 * (3 / 49) * hs + 2 * (-20 / 3087) * hs4
  · exact (o 3).trans (exactMoment_odd 3).symm

theorem rule5 : ∀ k < 10, ∀ t, quadRule 5 = some t → quadMoment t k = exactMoment k := by
  intro k hk t ht
  simp only [quadRule, Option.some.injEq] at ht
  subst ht
  have hs : Real.sqrt (10 / 7) ^ 2 = 10 / 7 := Real.sq_sqrt (by norm_num)
  have h70 : Real.sqrt 70 = 7 * Real.sqrt (10 / 7) := by
    rw [show (70 : ℝ) = 7 ^ 2 * (10 / 7) by norm_num, Real.sqrt_mul (by norm_num),
      Real.sqrt_sq (by norm_num)]
  have hle : Real.sqrt (10 / 7) ≤ 5 / 2 := Real.sqrt_le_iff.mpr (by norm_num)
  have h0 := Real.sqrt_nonneg (10 / 7 : ℝ)
  rw [h70]
  generalize Real.sqrt (10 / 7) = s at *
  have hp : (1 / 3 * Real.sqrt (5 - 2 * s)) ^ 2 = 5 / 9 - 2 / 9 * s := by
    rw [mul_pow, Real.sq_sqrt (by linarith)]; ring
  have hq : (1 / 3 * Real.sqrt (5 + 2 * s)) ^ 2 = 5 / 9 + 2 / 9 * s := by
    rw [mul_pow, Real.sq_sqrt (by linarith)]; ring
  generalize 1 / 3 * Real.sqrt (5 - 2 * s) = p at *
  generalize 1 / 3 * Real.sqrt (5 + 2 * s) = q at *
  have hs4 : s ^ 4 = 100 / 49 := by rw [show s ^ 4 = (s ^ 2) ^ 2 by ring, hs]; norm_num
  have e : ∀ m, quadMoment [(0, 128 / 225), (p, (322 + 13 * (7 * s)) / 900),
      (-p, (322 + 13 * (7 * s)) / 900), (q, (322 - 13 * (7 * s)) / 900),
      (-q, (322 - 13 * (7 * s)) / 900)] (2 * m)
      = 128 / 225 * (0 : ℝ) ^ m + 2 * ((322 + 91 * s) / 900 * (5 / 9 - 2 / 9 * s) ^ m +
        (322 - 91 * s) / 900 * (5 / 9 + 2 / 9 * s) ^ m) := by
    intro m
    simp only [quadMoment, List.map_cons, List.map_nil, List.sum_cons, List.sum_nil, pow_mul, neg_sq,
      hp, hq]
    norm_num
    ring
  have o : ∀ m, quadMoment [(0, 128 / 225), (p, (322 + 13 * (7 * s)) / 900),
      (-p, (322 + 13 * (7 * s)) / 900), (q, (322 - 13 * (7 * s)) / 900),
      (-q, (322 - 13 * (7 * s)) / 900)] (2 * m + 1) = 0 := by
    intro m
    simp only [quadMoment, List.map_cons, List.map_nil, List.sum_cons, List.sum_nil, pow_succ, pow_mul]
    ring
  interval_cases k
  · refine (e 0).trans (Eq.trans ?_ (exactMoment_even 0).symm); push_cast; ring
  · exact (o 0).trans (exactMoment_odd 0).symm
  · refine (e 1).trans (Eq.trans ?_ (exactMoment_even 1).symm); push_cast
    linear_combination 2 * (-91 / 2025) * hs
  · exact (o 1).trans (exactMoment_odd 1).symm
  · refine (e 2).trans (Eq.trans ?_ (exactMoment_even 2).symm); push_cast
    linear_combination 2 * (-266 / 18225) * hs
  · exact (o 2).trans (exactMoment_odd 2).symm
  · refine (e 3).trans (Eq.trans ?_ (exactMoment_even 3).symm); push_cast
    linear_combination 2 * (7 / 405) * hs + 2 * (-364 / 164025) * hs4
  · exact (o 3).trans (exactMoment_odd 3).symm
  · refine (e 4).trans (Eq.trans ?_ (exactMoment_even 4).symm); push_cast
    linear_combination 2 * (2044 / 59049) * hs + 2 * (-1568 / 492075) * hs4
  · exact (o 4).trans (exactMoment_odd 4).symm

theorem quad_exact_of {N : ℕ} {t : List (ℝ × ℝ)} (ht : quadRule N = some t)
    (hm : ∀ k < 2 * N, quadMoment t k = exactMoment k) (p : ℝ[X]) (hp : p.natDegree < 2 * N) (a b : ℝ) :
    quad N (fun x => p.eval x) a b = .ok (∫ x in a..b, p.eval x) := by
  unfold quad
  rw [ht]
  simp only [← rescaled_eval]
  congr 1
  have hq := (rescaled_natDegree p a b).trans_lt hp
  rw [← rescaled_integral, quad_sum t _ _ hq, integral_sum_moments _ _ hq]
  congr 1
  exact Finset.sum_congr rfl fun k hk => by rw [hm k (Finset.mem_range.mp hk)]

/-- C20. The closed-form rules integrate every polynomial of degree at most `2N-1` exactly, over every
interval (also reversed or empty). -/
theorem quad_exact (N : ℕ) (hN : N = 3 ∨ N = 4 ∨ N = 5) (p : ℝ[X]) (hp : p.natDegree ≤ 2 * N - 1)
    (a b : ℝ) : quad N (fun x => p.eval x) a b = .ok (∫ x in a..b, p.eval x) := by
  rcases hN with rfl | rfl | rfl
  · exact quad_exact_of rfl (fun k hk => rule3 k hk _ rfl) p (by omega) a b
  · exact quad_exact_of rfl (fun k hk => rule4 k hk _ rfl) p (by omega) a b
  · exact quad_exact_of rfl (fun k hk => rule5 k hk _ rfl) p (by omega) a b

example : quad 4 (fun x => (X ^ 7 : ℝ[X]).eval x) 0 2 = .ok 32 := by
  rw [quad_exact 4 (by norm_num) (X ^ 7) (by simp)]
  simp; norm_num

/-- C20. Sizes for which there is no table are refused at run time. -/
theorem quad_unsupported (N : ℕ) (h : N ∉ [3, 4, 5, 7, 10, 15, 30]) (F : ℝ → ℝ) (a b : ℝ) :
    quad N F a b = .throws .stdOutOfRange := by
  have : quadRule N = none := by
    unfold quadRule
    split <;> simp_all
  unfold quad
  rw [this]

example : quad 6 (fun x => x) 0 1 = .throws .stdOutOfRange := quad_unsupported 6 (by decide) _ _ _

/-- Moments of a decimal table in units of the last place. -/
def intMoment (t : List (Int × Int)) (k : ℕ) : Int := (t.map fun p => p.2 * p.1 ^ k).sum

/-- The moment `k` of a decimal table is within `5 · 10⁻¹⁶` of the exact one. -/
def intMomentOK (t : List (Int × Int)) (k : ℕ) : Bool :=
  ((k + 1 : Int) * intMoment t k - (if k % 2 = 0 then 2 * 10 ^ (16 * (k + 1)) else 0)).natAbs *
    (2 * 10 ^ 15) ≤ (k + 1) * 10 ^ (16 * (k + 1))

theorem decimal_tables_ok : (∀ k < 14, intMomentOK gl7 k = true) ∧ (∀ k < 20, intMomentOK gl10 k = true) ∧
    (∀ k < 30, intMomentOK gl15 k = true) ∧ (∀ k < 60, intMomentOK gl30 k = true) := by
  refine ⟨?_, ?_, ?_, ?_⟩ <;> decide +kernel

theorem quadMoment_decimal (t : List (Int × Int)) (k : ℕ) :
    quadMoment (decimalRule t) k = (intMoment t k : ℝ) / 10 ^ (16 * (k + 1)) := by
  induction t with
  | nil => simp [quadMoment, decimalRule, intMoment]
  | cons a t ih =>
    have h1 : quadMoment (decimalRule (a :: t)) k
        = (a.2 : ℝ) / 10 ^ 16 * ((a.1 : ℝ) / 10 ^ 16) ^ k + quadMoment (decimalRule t) k := rfl
    have h2 : intMoment (a :: t) k = a.2 * a.1 ^ k + intMoment t k := rfl
    rw [h1, h2, ih]
    push_cast
    rw [div_pow, add_div, mul_add, mul_one, pow_add, pow_mul]
    field_simp

theorem decimal_moment (t : List (Int × Int)) (k : ℕ) (h : intMomentOK t k = true) :
    |quadMoment (decimalRule t) k - exactMoment k| ≤ 5e-16 := by
  rw [quadMoment_decimal]
  have hM : exactMoment k = (if k % 2 = 0 then (2 : ℝ) else 0) / (k + 1) := by
    rw [exactMoment_eq]
    rcases Nat.even_or_odd k with he | ho
    · rw [if_pos (Nat.even_iff.mp he), (he.add_one).neg_one_pow]; norm_num
    · rw [if_neg (by rw [Nat.odd_iff.mp ho]; norm_num), (ho.add_one).neg_one_pow]; norm_num
  rw [hM]
  unfold intMomentOK at h
  rw [decide_eq_true_eq] at h
  obtain ⟨Q, hQ⟩ : ∃ Q : ℕ, Q = 10 ^ (16 * (k + 1)) := ⟨_, rfl⟩
  have hQI : (10 : Int) ^ (16 * (k + 1)) = (Q : Int) := by rw [hQ]; push_cast; rfl
  have hQR : (10 : ℝ) ^ (16 * (k + 1)) = (Q : ℝ) := by rw [hQ]; push_cast; rfl
  rw [hQI, ← hQ] at h
  rw [hQR]
  have hQ0 : 0 < Q := by rw [hQ]; exact Nat.pow_pos (by norm_num)
  clear hQ hQI hQR
  have h' := (Nat.cast_le (α := ℝ)).mpr h
  rw [Nat.cast_mul, Nat.cast_natAbs] at h'
  push_cast at h'
  have hP : (0 : ℝ) < Q := by exact_mod_cast hQ0
  generalize (Q : ℝ) = P at *
  have hk : (0 : ℝ) < (k : ℝ) + 1 := by positivity
  have e : (intMoment t k : ℝ) / P - (if k % 2 = 0 then (2 : ℝ) else 0) / (k + 1)
      = (((k : ℝ) + 1) * intMoment t k - (if k % 2 = 0 then 2 * P else 0)) / (P * (k + 1)) := by
    split_ifs <;> field_simp <;> ring
  rw [e, abs_div, abs_of_pos (mul_pos hP hk), div_le_iff₀ (mul_pos hP hk)]
  linarith

theorem quad_decimal_of {N : ℕ} {t : List (Int × Int)} (ht : quadRule N = some (decimalRule t))
    (hm : ∀ k < 2 * N, intMomentOK t k = true) (p : ℝ[X]) (hp : p.natDegree < 2 * N) (a b : ℝ) :
    ∃ v, quad N (fun x => p.eval x) a b = .ok v ∧ |v - ∫ x in a..b, p.eval x|
      ≤ |(b - a) / 2| * (5e-16 * ∑ k ∈ Finset.range (2 * N), |(rescaled p a b).coeff k|) := by
  unfold quad
  rw [ht]
  refine ⟨_, rfl, ?_⟩
  simp only [← rescaled_eval]
  have hq := (rescaled_natDegree p a b).trans_lt hp
  rw [← rescaled_integral, quad_sum _ _ _ hq, integral_sum_moments _ _ hq, ← mul_sub,
    ← Finset.sum_sub_distrib, abs_mul]
  refine mul_le_mul_of_nonneg_left ?_ (abs_nonneg _)
  refine (Finset.abs_sum_le_sum_abs _ _).trans ?_
  rw [Finset.mul_sum]
  refine Finset.sum_le_sum fun k hk => ?_
  rw [← mul_sub, abs_mul, mul_comm]
  exact mul_le_mul_of_nonneg_right (decimal_moment t k (hm k (Finset.mem_range.mp hk))) (abs_nonneg _)

/-- C20. The rules with decimal tables integrate every polynomial of degree at most `2N-1` up to
`5 · 10⁻¹⁶` times the size of its coefficients on the rescaled interval: what 16 printed digits allow. -/
theorem quad_decimal (N : ℕ) (hN : N = 7 ∨ N = 10 ∨ N = 15 ∨ N = 30) (p : ℝ[X])
    (hp : p.natDegree ≤ 2 * N - 1) (a b : ℝ) :
    ∃ v, quad N (fun x => p.eval x) a b = .ok v ∧ |v - ∫ x in a..b, p.eval x|
      ≤ |(b - a) / 2| * (5e-16 * ∑ k ∈ Finset.range (2 * N), |(rescaled p a b).coeff k|) := by
  obtain ⟨h7, h10, h15, h30⟩ := decimal_tables_ok
  rcases hN with rfl | rfl | rfl | rfl
  · exact quad_decimal_of (t := gl7) rfl h7 p (by omega) a b
  · exact quad_decimal_of (t := gl10) rfl h10 p (by omega) a b
  · exact quad_decimal_of (t := gl15) rfl h15 p (by omega) a b
  · exact quad_decimal_of (t := gl30) rfl h30 p (by omega) a b

example : ∃ v, quad 10 (fun x => (X ^ 19 : ℝ[X]).eval x) 0 1 = .ok v ∧
    |v - ∫ x in (0 : ℝ)..1, (X ^ 19 : ℝ[X]).eval x| ≤ |((1 : ℝ) - 0) / 2| *
      (5e-16 * ∑ k ∈ Finset.range (2 * 10), |(rescaled (X ^ 19) 0 1).coeff k|) :=
  quad_decimal 10 (by norm_num) _ (by simp) 0 1

end Teqp.Props
