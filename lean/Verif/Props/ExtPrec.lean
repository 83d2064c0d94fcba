import Verif.Model.ExtPrec
import Verif.Model.Lambda
import Verif.Props.Numerics
import Verif.Lemmas.Outcome
import Verif.Lemmas.Powi
import Mathlib.Analysis.Calculus.Taylor

/-! # C19 and C137: errors of finite differences and of the derivatives in extended precision -/

set_option autoImplicit false

namespace Teqp.Props
open Teqp.Model Teqp

/-- The absolute moments of a finite-difference formula. -/
def fdAbs (t : List (Int × ℚ)) (j : ℕ) : ℚ := (t.map fun p => |p.2| * |(p.1 : ℚ)| ^ j).sum

/-- The constant of the remainder is at most one for every formula of the table. -/
theorem fdAbs_le (n o : ℕ) (h : fdSupported n o) :
    fdAbs (centralDiffCoeffs n o) (n + o) ≤ ((n + o).factorial : ℚ) := by
  obtain ⟨⟨h1, h2⟩, h3⟩ := h
  rcases h3 with rfl | rfl | rfl <;> interval_cases n <;> decide +kernel

/-- No point of a formula is further away than four steps. -/
theorem fd_offsets (n o : ℕ) : ∀ p ∈ centralDiffCoeffs n o, |p.1| ≤ 4 := by
  unfold centralDiffCoeffs
  split <;> decide +kernel

/-- Taylor's formula on both sides of the point, with a bound of the remainder. -/
theorem taylor_both (N : ℕ) (f : ℝ → ℝ) (x s M : ℝ)
    (hf : ∀ y, |y - x| ≤ |s| → ContDiffAt ℝ (N + 1) f y)
    (hM : ∀ y, |y - x| ≤ |s| → |iteratedDeriv (N + 1) f y| ≤ M) :
    |f (x + s) - ∑ j ∈ Finset.range (N + 1), (iteratedDeriv j f x / j.factorial) * s ^ j| ≤
      M * |s| ^ (N + 1) / (N + 1).factorial := by
  by_cases hs : s = 0
  · subst hs
    rw [Finset.sum_eq_single 0 (fun j _ hj => by simp [hj]) (by simp)]
    simp
  have hx : x ≠ x + s := by simpa using fun h => hs h
  have hdist : ∀ y ∈ Set.uIcc x (x + s), |y - x| ≤ |s| := fun y hy => by
    have := Set.abs_sub_left_of_mem_uIcc hy
    simpa using this
  have hcd : ContDiffOn ℝ (N + 1) f (Set.uIcc x (x + s)) := fun y hy => (hf y (hdist y hy)).contDiffWithinAt
  obtain ⟨x', hx', he⟩ := taylor_mean_remainder_lagrange_iteratedDeriv hx hcd
  have hx'' : x' ∈ Set.uIcc x (x + s) := Set.uIoo_subset_uIcc_self hx'
  have ht : taylorWithinEval f N (Set.uIcc x (x + s)) x (x + s) =
      ∑ j ∈ Finset.range (N + 1), (iteratedDeriv j f x / j.factorial) * s ^ j := by
    rw [taylor_within_apply]
    refine Finset.sum_congr rfl fun j hj => ?_
    have hj' : j < N + 1 := Finset.mem_range.mp hj
    have hle : ((j : ℕ) : WithTop ℕ∞) ≤ (N : WithTop ℕ∞) + 1 := by exact_mod_cast hj'.le
    have hfj : ContDiffAt ℝ (j : ℕ) f x := (hf x (by simp)).of_le hle
    rw [iteratedDerivWithin_eq_iteratedDeriv (uniqueDiffOn_uIcc hx) hfj Set.left_mem_uIcc, add_sub_cancel_left,
      smul_eq_mul]
    field_simp
  rw [← ht, he, add_sub_cancel_left, abs_div, abs_mul, abs_pow, Nat.abs_cast]
  have := hM x' (hdist x' hx'')
  gcongr

/-- C19.  The error of every formula of the table on a function that is smooth near the point: at most the step to the
order of the formula times a bound of the derivative of the next order within four steps. -/
theorem centeredDiff_error (n o : ℕ) (hs : fdSupported n o) (f : ℝ → ℝ) (x h M : ℝ) (hh : h ≠ 0)
    (hf : ∀ y, |y - x| ≤ 4 * |h| → ContDiffAt ℝ (n + o) f y)
    (hM : ∀ y, |y - x| ≤ 4 * |h| → |iteratedDeriv (n + o) f y| ≤ M) :
    ∃ d, centeredDiff n o f x h = .ok d ∧ |d - iteratedDeriv n f x| ≤ M * |h| ^ o := by
  have hlen : (centralDiffCoeffs n o).length ≠ 0 := by
    obtain ⟨⟨h1, h2⟩, h3⟩ := hs
    rcases h3 with rfl | rfl | rfl <;> interval_cases n <;> simp [centralDiffCoeffs]
  refine ⟨_, by unfold centeredDiff; rw [if_neg hlen, if_neg hh], ?_⟩
  have ho : 0 < o := by rcases hs.2 with rfl | rfl | rfl <;> norm_num
  obtain ⟨N, hN⟩ : ∃ N, n + o = N + 1 := ⟨n + o - 1, by omega⟩
  have hM0 : 0 ≤ M := (abs_nonneg _).trans (hM x (by simp))
  -- the sum over the points against the moments
  have key : ∀ t : List (Int × ℚ), (∀ p ∈ t, |p.1| ≤ 4) →
      |(t.map fun p => (p.2 : ℝ) * f (x + h * p.1)).sum -
        ∑ j ∈ Finset.range (N + 1), (iteratedDeriv j f x / j.factorial) * h ^ j * (fdMoment t j : ℝ)| ≤
      M * |h| ^ (N + 1) / (N + 1).factorial * (fdAbs t (N + 1) : ℝ) := by
    intro t
    induction t with
    | nil => simp [fdMoment, fdAbs]
    | cons q t ih =>
      intro hq
      have h1 := ih fun p hp => hq p (List.mem_cons_of_mem _ hp)
      have hq4 : |(q.1 : ℝ)| ≤ 4 := by exact_mod_cast hq q List.mem_cons_self
      have hstep : |h * (q.1 : ℝ)| ≤ 4 * |h| := by
        rw [abs_mul, mul_comm]; gcongr
      have h2 := taylor_both N f x (h * q.1) M
        (fun y hy => by
          have := hf y (hy.trans hstep)
          rwa [show (n : WithTop ℕ∞) + (o : WithTop ℕ∞) = (N : WithTop ℕ∞) + 1 by exact_mod_cast hN] at this)
        (fun y hy => hN ▸ hM y (hy.trans hstep))
      have e1 : ∑ j ∈ Finset.range (N + 1), (iteratedDeriv j f x / j.factorial) * h ^ j * (fdMoment (q :: t) j : ℝ) =
          (q.2 : ℝ) * ∑ j ∈ Finset.range (N + 1), (iteratedDeriv j f x / j.factorial) * (h * q.1) ^ j +
          ∑ j ∈ Finset.range (N + 1), (iteratedDeriv j f x / j.factorial) * h ^ j * (fdMoment t j : ℝ) := by
        rw [Finset.mul_sum, ← Finset.sum_add_distrib]
        refine Finset.sum_congr rfl fun j _ => ?_
        simp only [fdMoment, List.map_cons, List.sum_cons]
        push_cast
        rw [mul_pow]
        ring
      rw [List.map_cons, List.sum_cons, e1]
      have e2 : (fdAbs (q :: t) (N + 1) : ℝ) = |(q.2 : ℝ)| * |(q.1 : ℝ)| ^ (N + 1) + (fdAbs t (N + 1) : ℝ) := by
        simp [fdAbs]
      rw [e2]
      calc _ = |(q.2 : ℝ) * (f (x + h * q.1) -
            ∑ j ∈ Finset.range (N + 1), (iteratedDeriv j f x / j.factorial) * (h * q.1) ^ j) +
          ((t.map fun p => (p.2 : ℝ) * f (x + h * p.1)).sum -
            ∑ j ∈ Finset.range (N + 1), (iteratedDeriv j f x / j.factorial) * h ^ j * (fdMoment t j : ℝ))| := by
            congr 1; ring
        _ ≤ |(q.2 : ℝ)| * (M * |h * q.1| ^ (N + 1) / (N + 1).factorial) +
          M * |h| ^ (N + 1) / (N + 1).factorial * (fdAbs t (N + 1) : ℝ) := by
            refine (abs_add_le _ _).trans (add_le_add ?_ h1)
            rw [abs_mul]
            gcongr
        _ = _ := by rw [abs_mul, mul_pow]; ring
  have hk := key _ (fd_offsets n o)
  -- only the moment of order n remains
  have hmom : ∑ j ∈ Finset.range (N + 1), (iteratedDeriv j f x / j.factorial) * h ^ j *
      (fdMoment (centralDiffCoeffs n o) j : ℝ) = iteratedDeriv n f x * h ^ n := by
    rw [Finset.sum_eq_single n]
    · rw [fdMoment_table n o hs n (by omega), if_pos rfl]
      push_cast
      field_simp
    · intro j hj hne
      rw [fdMoment_table n o hs j (hN ▸ Finset.mem_range.mp hj), if_neg hne]; simp
    · intro hn; exact absurd (Finset.mem_range.mpr (by omega)) hn
  rw [hmom] at hk
  have hc : (fdAbs (centralDiffCoeffs n o) (N + 1) : ℝ) ≤ ((N + 1).factorial : ℝ) := by
    have := fdAbs_le n o hs
    rw [hN] at this
    exact_mod_cast this
  have hb : |(List.map (fun p : Int × ℚ => (p.2 : ℝ) * f (x + h * p.1)) (centralDiffCoeffs n o)).sum -
      iteratedDeriv n f x * h ^ n| ≤ M * |h| ^ (N + 1) := by
    refine hk.trans ?_
    have hfac : (0 : ℝ) < ((N + 1).factorial : ℝ) := by positivity
    calc M * |h| ^ (N + 1) / (N + 1).factorial * (fdAbs (centralDiffCoeffs n o) (N + 1) : ℝ)
        ≤ M * |h| ^ (N + 1) / (N + 1).factorial * (N + 1).factorial := by gcongr
      _ = _ := by field_simp
  have hn0 : h ^ n ≠ 0 := pow_ne_zero _ hh
  rw [div_sub' hn0, abs_div, abs_pow, div_le_iff₀ (by positivity), mul_comm (h ^ n)]
  refine hb.trans (le_of_eq ?_)
  rw [← hN, pow_add]
  ring

/-- The hypotheses are met by the exponential function: the fourth-order formula for the second derivative. -/
example : ∃ d, centeredDiff 2 4 Real.exp 0 (1 / 10) = .ok d ∧ |d - 1| ≤ Real.exp 1 * |(1 / 10 : ℝ)| ^ 4 := by
  have hid : ∀ n, iteratedDeriv n Real.exp = Real.exp := fun n => by
    rw [iteratedDeriv_eq_iterate, Real.iter_deriv_exp]
  obtain ⟨d, hd, hb⟩ := centeredDiff_error 2 4 ⟨by norm_num, by norm_num⟩ Real.exp 0 (1 / 10) (Real.exp 1) (by norm_num)
    (fun y _ => Real.contDiff_exp.contDiffAt) (fun y hy => by
      rw [hid, abs_of_pos (Real.exp_pos _), Real.exp_le_exp]
      have := le_abs_self (y - 0)
      norm_num at hy this
      linarith)
  exact ⟨d, hd, by simpa [hid] using hb⟩

/-- A step of zero is a division by zero. -/
theorem centeredDiff_zero_step (n o : ℕ) (hs : fdSupported n o) (f : ℝ → ℝ) (x : ℝ) :
    centeredDiff n o f x 0 = .nonFinite := by
  have hlen : (centralDiffCoeffs n o).length ≠ 0 := by
    obtain ⟨⟨h1, h2⟩, h3⟩ := hs
    rcases h3 with rfl | rfl | rfl <;> interval_cases n <;> simp [centralDiffCoeffs]
  unfold centeredDiff
  rw [if_neg hlen, if_pos rfl]

example : centeredDiff 2 4 Real.exp 1 0 = .nonFinite := centeredDiff_zero_step 2 4 ⟨by norm_num, by norm_num⟩ _ _

/-! ## C137 -/

/-- C137, part that holds.  At a density other than zero the derivative in extended precision agrees with the one by
automatic differentiation up to `1e-64` times the density to the power `N + 4` times a bound of the derivative of order
`N + 4` near the density. -/
theorem Ar0Nep_partial (α : ℝ → ℝ → ℝ) (N : ℕ) (hN : N = 1 ∨ N = 2 ∨ N = 3) (T rho M : ℝ) (hrho : rho ≠ 0)
    (hf : ∀ r, |r - rho| ≤ 4e-16 * |rho| → ContDiffAt ℝ (N + 4) (fun r' => α T r') r)
    (hM : ∀ r, |r - rho| ≤ 4e-16 * |rho| → |iteratedDeriv (N + 4) (fun r' => α T r') r| ≤ M) :
    ∃ v, Ar0Nep α N T rho = .ok v ∧ |v - Agenxy α 0 N T rho| ≤ 1e-64 * |rho| ^ (N + 4) * M := by
  have habs : |(1e-16 : ℝ) * rho| = 1e-16 * |rho| := by rw [abs_mul, abs_of_pos (by norm_num)]
  have h4 : (4 : ℝ) * |1e-16 * rho| = 4e-16 * |rho| := by rw [habs]; ring
  obtain ⟨d, hd, hb⟩ := centeredDiff_error N 4 ⟨by omega, by norm_num⟩ (fun r => α T r) rho (1e-16 * rho) M
    (mul_ne_zero (by norm_num) hrho) (fun y hy => hf y (h4 ▸ hy)) (fun y hy => hM y (h4 ▸ hy))
  refine ⟨rho ^ N * d, by unfold Ar0Nep; rw [hd, Outcome.bind_ok], ?_⟩
  have hA : Agenxy α 0 N T rho = rho ^ N * iteratedDeriv N (fun r => α T r) rho := by
    unfold Agenxy
    rw [if_neg (by omega), if_pos rfl, powiNat_eq]
  rw [hA, ← mul_sub, abs_mul, abs_pow]
  calc |rho| ^ N * |d - iteratedDeriv N (fun r => α T r) rho| ≤ |rho| ^ N * (M * |1e-16 * rho| ^ 4) := by gcongr
    _ = _ := by rw [habs]; ring

/-- C137, the negation.  At zero density the derivatives in extended precision are not finite, whatever the model, while
those by automatic differentiation are zero. -/
theorem Ar0Nep_zero (α : ℝ → ℝ → ℝ) (N : ℕ) (hN : N = 1 ∨ N = 2 ∨ N = 3) (T : ℝ) :
    Ar0Nep α N T 0 = .nonFinite ∧ Agenxy α 0 N T 0 = 0 := by
  constructor
  · unfold Ar0Nep
    rw [mul_zero, centeredDiff_zero_step N 4 ⟨by omega, by norm_num⟩]
    rfl
  · unfold Agenxy
    rw [if_neg (by omega), if_pos rfl, powiNat_eq, zero_pow (by omega), zero_mul]

example : Ar0Nep (fun _ r => r ^ 2) 2 300 0 = .nonFinite ∧ Agenxy (fun _ r => r ^ 2) 0 2 300 0 = 0 :=
  Ar0Nep_zero _ 2 (by norm_num) 300

/-- For a virial expansion up to the fourth power of the density nothing is lost. -/
theorem Ar0Nep_virial (c : ℕ → ℝ) (N : ℕ) (hN : N = 1 ∨ N = 2 ∨ N = 3) (T rho : ℝ) (hrho : rho ≠ 0) :
    Ar0Nep (fun _ r => ∑ k ∈ Finset.range 5, c k * r ^ k) N T rho =
      .ok (Agenxy (fun _ r => ∑ k ∈ Finset.range 5, c k * r ^ k) 0 N T rho) := by
  have hp : (fun r : ℝ => ∑ k ∈ Finset.range 5, c k * r ^ k) =
      fun r => (∑ k ∈ Finset.range 5, Polynomial.C (c k) * Polynomial.X ^ k : Polynomial ℝ).eval r := by
    funext r
    simp [Polynomial.eval_finset_sum]
  have hdeg : (∑ k ∈ Finset.range 5, Polynomial.C (c k) * Polynomial.X ^ k : Polynomial ℝ).natDegree < N + 4 := by
    have : (∑ k ∈ Finset.range 5, Polynomial.C (c k) * Polynomial.X ^ k : Polynomial ℝ).natDegree ≤ 4 :=
      Polynomial.natDegree_sum_le_of_forall_le _ _ fun k hk =>
        (Polynomial.natDegree_C_mul_X_pow_le _ _).trans (by have := Finset.mem_range.mp hk; omega)
    omega
  have h := (centeredDiff_exact N 4 (∑ k ∈ Finset.range 5, Polynomial.C (c k) * Polynomial.X ^ k) rho (1e-16 * rho)
    (mul_ne_zero (by norm_num) hrho)).1 ⟨by omega, by norm_num⟩ hdeg
  unfold Ar0Nep Agenxy
  rw [if_neg (by omega), if_pos rfl, powiNat_eq]
  simp only [hp, h, Outcome.bind_ok]

example : Ar0Nep (fun _ r => ∑ k ∈ Finset.range 5, (k : ℝ) * r ^ k) 3 300 2 =
    .ok (Agenxy (fun _ r => ∑ k ∈ Finset.range 5, (k : ℝ) * r ^ k) 0 3 300 2) :=
  Ar0Nep_virial (fun k => (k : ℝ)) 3 (by norm_num) 300 2 (by norm_num)

/-- The hypotheses of the error bound are met by an exponential. -/
example : ∃ v, Ar0Nep (fun _ r => Real.exp r) 1 300 1 = .ok v ∧
    |v - Agenxy (fun _ r => Real.exp r) 0 1 300 1| ≤ 1e-64 * |(1 : ℝ)| ^ (1 + 4) * Real.exp 2 := by
  have hid : ∀ n, iteratedDeriv n Real.exp = Real.exp := fun n => by
    rw [iteratedDeriv_eq_iterate, Real.iter_deriv_exp]
  refine Ar0Nep_partial (fun _ r => Real.exp r) 1 (by norm_num) 300 1 (Real.exp 2) (by norm_num)
    (fun r _ => Real.contDiff_exp.contDiffAt) fun r hr => ?_
  rw [show (fun r' : ℝ => Real.exp r') = Real.exp from rfl, hid, abs_of_pos (Real.exp_pos _), Real.exp_le_exp]
  have := le_abs_self (r - 1)
  norm_num at hr this
  linarith

end Teqp.Props
