import Verif.Model.PCSAFT
import Verif.Lemmas.Outcome
import Mathlib.Analysis.Calculus.Deriv.Inv
import Mathlib.Analysis.Calculus.Deriv.Pow
import Mathlib.Analysis.Calculus.Deriv.Mul
import Mathlib.Analysis.Calculus.Deriv.Add
import Mathlib.Algebra.BigOperators.Fin
import Mathlib.Algebra.BigOperators.Group.Finset.Sigma
import Mathlib.Algebra.Order.BigOperators.Group.Finset
import Mathlib.Tactic.FieldSimp
import Mathlib.Tactic.Linarith
import Mathlib.Tactic.LinearCombination
import Mathlib.Tactic.NormNum

/-! # C61: PC-SAFT for mixtures and for pure fluids -/

set_option autoImplicit false

namespace Teqp.Props
open Teqp.Model Finset

variable {ι κ : Type} [Fintype ι] [Fintype κ]

/-! ## The hard-sphere term -/

/-- The branch for zero density is the same function of density as the ordinary branch, so that it agrees in value
and in all derivatives. -/
theorem hs_branches (D : ℕ → ℝ) (rho : ℝ) (hrho : rho ≠ 0) (h0 : D 0 ≠ 0) (h3 : D 3 ≠ 0) (h1 : 1 - D 3 * rho ≠ 0) :
    hsFull (D 0 * rho) (D 1 * rho) (D 2 * rho) (D 3 * rho) = hsZero (D 0) (D 1) (D 2) (D 3) (D 2 * rho) (D 3 * rho) := by
  unfold hsFull hsZero
  simp only
  generalize Real.log (1 - D 3 * rho) = L
  generalize hU : 1 - D 3 * rho = U at h1
  field_simp
  ring

/-- Hence the term as computed is that one function for every density below close packing. -/
theorem pcHS_eq (D : ℕ → ℝ) (rho : ℝ) (h0 : D 0 ≠ 0) (h3 : D 3 ≠ 0) (h1 : 1 - D 3 * rho ≠ 0) :
    pcHS D (fun n => D n * rho) = hsZero (D 0) (D 1) (D 2) (D 3) (D 2 * rho) (D 3 * rho) := by
  unfold pcHS
  by_cases h : D 3 * rho = 0
  · rw [if_pos h]
  · rw [if_neg h, hs_branches D rho (fun h' => h (by rw [h', mul_zero])) h0 h3 h1]

/-! ## The compressibility expression -/

/-- `C2` is the derivative of `C1` with respect to the packing fraction. -/
theorem pcC2_deriv (eta mbar : ℝ) (h1 : 1 - eta ≠ 0) (h2 : 2 - eta ≠ 0)
    (h3 : 1 + mbar * (8 * eta - 2 * eta * eta) / ((1 - eta) * (1 - eta) * (1 - eta) * (1 - eta))
      + (1 - mbar) * (20 * eta - 27 * eta * eta + 12 * eta * eta * eta - 2 * eta * eta * eta * eta) /
        ((1 - eta) * (2 - eta) * (1 - eta) * (2 - eta)) ≠ 0) :
    HasDerivAt (fun e => pcC1 e mbar) (pcC2 eta mbar) eta := by
  have hid := hasDerivAt_id eta
  have hu : HasDerivAt (fun e : ℝ => 1 - e) (-1) eta := by simpa using hid.const_sub 1
  have hv : HasDerivAt (fun e : ℝ => 2 - e) (-1) eta := by simpa using hid.const_sub 2
  have hA : HasDerivAt (fun e : ℝ => mbar * (8 * e - 2 * e * e) / ((1 - e) * (1 - e) * (1 - e) * (1 - e)))
      (mbar * (-4 * eta * eta + 20 * eta + 8) / (1 - eta) ^ 5) eta := by
    have hn : HasDerivAt (fun e : ℝ => mbar * (8 * e - 2 * e * e)) (mbar * (8 - 4 * eta)) eta := by
      have := ((hid.const_mul 8).sub ((hid.const_mul 2).mul hid)).const_mul mbar
      refine this.congr_deriv ?_
      simp only [id]
      ring
    have hd : HasDerivAt (fun e : ℝ => (1 - e) * (1 - e) * (1 - e) * (1 - e)) (-4 * (1 - eta) ^ 3) eta := by
      refine (((hu.mul hu).mul hu).mul hu).congr_deriv ?_
      simp only [Pi.mul_apply]
      ring
    refine (hn.fun_div hd (by positivity)).congr_deriv ?_
    rw [div_eq_div_iff (by positivity) (by positivity)]
    ring
  have hB : HasDerivAt (fun e : ℝ => (1 - mbar) * (20 * e - 27 * e * e + 12 * e * e * e - 2 * e * e * e * e) /
        ((1 - e) * (2 - e) * (1 - e) * (2 - e)))
      ((1 - mbar) * (2 * eta * eta * eta + 12 * eta * eta - 48 * eta + 40) / ((1 - eta) * (2 - eta)) ^ 3) eta := by
    have hn : HasDerivAt (fun e : ℝ => (1 - mbar) * (20 * e - 27 * e * e + 12 * e * e * e - 2 * e * e * e * e))
        ((1 - mbar) * (20 - 54 * eta + 36 * eta ^ 2 - 8 * eta ^ 3)) eta := by
      have := ((((hid.const_mul 20).sub ((hid.const_mul 27).mul hid)).add (((hid.const_mul 12).mul hid).mul hid)).sub
        ((((hid.const_mul 2).mul hid).mul hid).mul hid)).const_mul (1 - mbar)
      refine this.congr_deriv ?_
      simp only [id, Pi.mul_apply]
      ring
    have hd : HasDerivAt (fun e : ℝ => (1 - e) * (2 - e) * (1 - e) * (2 - e))
        (-2 * ((1 - eta) * (2 - eta)) * ((1 - eta) + (2 - eta))) eta := by
      refine (((hu.mul hv).mul hu).mul hv).congr_deriv ?_
      simp only [Pi.mul_apply]
      ring
    refine (hn.fun_div hd (by positivity)).congr_deriv ?_
    rw [div_eq_div_iff (by positivity) (by positivity)]
    ring
  have hall := ((hA.const_add 1).add hB).fun_inv h3
  unfold pcC1 pcC2 pcC1
  simp only [one_div]
  refine hall.congr_deriv ?_
  simp only [Pi.add_apply]
  rw [inv_pow, div_eq_mul_inv]
  ring

/-- For chains of at least one segment the denominator of `C1` is at least one at every packing fraction below
close packing, so `C1` lies in `(0, 1]`. -/
theorem pcC1_bounds (eta mbar : ℝ) (h0 : 0 ≤ eta) (h1 : eta < 1) (hm : 1 ≤ mbar) :
    1 ≤ 1 + mbar * (8 * eta - 2 * eta * eta) / ((1 - eta) * (1 - eta) * (1 - eta) * (1 - eta))
      + (1 - mbar) * (20 * eta - 27 * eta * eta + 12 * eta * eta * eta - 2 * eta * eta * eta * eta) /
        ((1 - eta) * (2 - eta) * (1 - eta) * (2 - eta)) ∧ 0 < pcC1 eta mbar ∧ pcC1 eta mbar ≤ 1 := by
  have hu : 0 < 1 - eta := by linarith
  have hv : 0 < 2 - eta := by linarith
  have hA : 0 ≤ (8 * eta - 2 * eta * eta) / ((1 - eta) * (1 - eta) * (1 - eta) * (1 - eta)) := by
    have : 0 ≤ 8 * eta - 2 * eta * eta := by nlinarith
    positivity
  have hAB : (20 * eta - 27 * eta * eta + 12 * eta * eta * eta - 2 * eta * eta * eta * eta) /
        ((1 - eta) * (2 - eta) * (1 - eta) * (2 - eta)) ≤
      (8 * eta - 2 * eta * eta) / ((1 - eta) * (1 - eta) * (1 - eta) * (1 - eta)) := by
    rw [div_le_div_iff₀ (by positivity) (by positivity)]
    have key : 0 ≤ eta * (1 - eta) ^ 2 * ((8 - 2 * eta) * (2 - eta) ^ 2 -
        (20 - 27 * eta + 12 * eta ^ 2 - 2 * eta ^ 3) * (1 - eta) ^ 2) := by
      refine mul_nonneg (by positivity) ?_
      have e : (8 - 2 * eta) * (2 - eta) ^ 2 - (20 - 27 * eta + 12 * eta ^ 2 - 2 * eta ^ 3) * (1 - eta) ^ 2 =
        12 + 27 * eta * (1 - eta) + eta * (0 + 22 * (1 - eta) ^ 2) + eta * (-22) + (eta ^ 2 * (-23 + 43) - eta ^ 2 * 20)
          + ((8 - 2 * eta) * (2 - eta) ^ 2 - (20 - 27 * eta + 12 * eta ^ 2 - 2 * eta ^ 3) * (1 - eta) ^ 2
          - (12 + 27 * eta * (1 - eta) + eta * (0 + 22 * (1 - eta) ^ 2) + eta * (-22))) := by ring
      nlinarith [mul_nonneg h0 hu.le, mul_nonneg (mul_nonneg h0 h0) hu.le, mul_nonneg (mul_nonneg (mul_nonneg h0 h0) h0) hu.le,
        mul_nonneg (mul_nonneg h0 hu.le) hu.le, sq_nonneg eta, sq_nonneg (eta ^ 2), mul_nonneg (mul_nonneg (mul_nonneg (mul_nonneg h0 h0) h0) h0) hu.le]
    nlinarith
  have hmain : 1 ≤ 1 + mbar * (8 * eta - 2 * eta * eta) / ((1 - eta) * (1 - eta) * (1 - eta) * (1 - eta))
      + (1 - mbar) * (20 * eta - 27 * eta * eta + 12 * eta * eta * eta - 2 * eta * eta * eta * eta) /
        ((1 - eta) * (2 - eta) * (1 - eta) * (2 - eta)) := by
    rw [mul_div_assoc, mul_div_assoc]
    nlinarith
  refine ⟨hmain, ?_, ?_⟩
  · unfold pcC1
    simp only
    exact div_pos one_pos (by linarith)
  · unfold pcC1
    simp only
    rw [div_le_one (by linarith)]
    exact hmain

example : HasDerivAt (fun e => pcC1 e 2) (pcC2 0.3 2) 0.3 :=
  pcC2_deriv 0.3 2 (by norm_num) (by norm_num)
    (by have := (pcC1_bounds 0.3 2 (by norm_num) (by norm_num) (by norm_num)).1; intro h; rw [h] at this; norm_num at this)

/-! ## Copies of components, relabelling, absent components -/

/-- Parameters pulled back along a map of components. -/
def PCParams.pull (p : PCParams ι) (f : κ → ι) : PCParams κ :=
  { m := fun i => p.m (f i), sigma := fun i => p.sigma (f i), eps := fun i => p.eps (f i)
    k := fun i j => p.k (f i) (f j), a := p.a, b := p.b }

open Classical in
theorem sum_pull (f : κ → ι) (x : ι → ℝ) (y : κ → ℝ) (h : ∀ i, x i = ∑ c ∈ univ.filter (fun c => f c = i), y c) (g : ι → ℝ) :
    ∑ c, y c * g (f c) = ∑ i, x i * g i := by
  rw [← Finset.sum_fiberwise univ f fun c => y c * g (f c)]
  refine Finset.sum_congr rfl fun i _ => ?_
  rw [h i, Finset.sum_mul]
  refine Finset.sum_congr rfl fun c hc => ?_
  rw [(Finset.mem_filter.mp hc).2]

open Classical in
/-- If components of one mixture are copies of components of another one and the fractions of the copies add
up to the fraction of the original, the result is the same.  This covers splitting a component into copies,
relabelling components, and adding components with zero fraction. -/
theorem pc_copies (p : PCParams ι) (f : κ → ι) (T rhoA3 : ℝ) (x : ι → ℝ) (y : κ → ℝ)
    (h : ∀ i, x i = ∑ c ∈ univ.filter (fun c => f c = i), y c) : pcEval (PCParams.pull p f) T rhoA3 y = pcEval p T rhoA3 x := by
  have hs := sum_pull f x y h
  have hm : pcMbar (PCParams.pull p f) y = pcMbar p x := hs p.m
  have hD : pcD (PCParams.pull p f) T y = pcD p T x := by
    funext n
    unfold pcD
    congr 1
    simp only [mul_assoc]
    exact hs fun i => p.m i * pcDiam (p.sigma i) (p.eps i) T ^ n
  have hmix : ∀ q, pcMix (PCParams.pull p f) T y q = pcMix p T x q := by
    intro q
    unfold pcMix
    have e1 : ∀ (μ : Type) [Fintype μ] (P : PCParams μ) (z : μ → ℝ),
        (∑ i, ∑ j, z i * z j * P.m i * P.m j * (Real.sqrt (P.eps i * P.eps j) * (1 - P.k i j) / T) ^ q *
          ((0.5 * P.sigma i + 0.5 * P.sigma j) * (0.5 * P.sigma i + 0.5 * P.sigma j) * (0.5 * P.sigma i + 0.5 * P.sigma j))) =
        ∑ i, z i * ∑ j, z j * (P.m i * P.m j * (Real.sqrt (P.eps i * P.eps j) * (1 - P.k i j) / T) ^ q *
          ((0.5 * P.sigma i + 0.5 * P.sigma j) * (0.5 * P.sigma i + 0.5 * P.sigma j) * (0.5 * P.sigma i + 0.5 * P.sigma j))) := by
      intro μ _ P z
      refine Finset.sum_congr rfl fun i _ => ?_
      rw [Finset.mul_sum]
      exact Finset.sum_congr rfl fun j _ => by ring
    rw [e1, e1]
    have e2 : ∀ i : κ, (∑ j, y j * ((PCParams.pull p f).m i * (PCParams.pull p f).m j *
        (Real.sqrt ((PCParams.pull p f).eps i * (PCParams.pull p f).eps j) * (1 - (PCParams.pull p f).k i j) / T) ^ q *
        ((0.5 * (PCParams.pull p f).sigma i + 0.5 * (PCParams.pull p f).sigma j) *
          (0.5 * (PCParams.pull p f).sigma i + 0.5 * (PCParams.pull p f).sigma j) *
          (0.5 * (PCParams.pull p f).sigma i + 0.5 * (PCParams.pull p f).sigma j)))) =
        ∑ j, x j * (p.m (f i) * p.m j * (Real.sqrt (p.eps (f i) * p.eps j) * (1 - p.k (f i) j) / T) ^ q *
          ((0.5 * p.sigma (f i) + 0.5 * p.sigma j) * (0.5 * p.sigma (f i) + 0.5 * p.sigma j) *
            (0.5 * p.sigma (f i) + 0.5 * p.sigma j))) := fun i =>
      hs fun j => p.m (f i) * p.m j * (Real.sqrt (p.eps (f i) * p.eps j) * (1 - p.k (f i) j) / T) ^ q *
          ((0.5 * p.sigma (f i) + 0.5 * p.sigma j) * (0.5 * p.sigma (f i) + 0.5 * p.sigma j) *
            (0.5 * p.sigma (f i) + 0.5 * p.sigma j))
    rw [Finset.sum_congr rfl fun i _ => by rw [e2 i]]
    exact hs fun i => ∑ j, x j * (p.m i * p.m j * (Real.sqrt (p.eps i * p.eps j) * (1 - p.k i j) / T) ^ q *
          ((0.5 * p.sigma i + 0.5 * p.sigma j) * (0.5 * p.sigma i + 0.5 * p.sigma j) *
            (0.5 * p.sigma i + 0.5 * p.sigma j)))
  have hg : ∀ z : ℕ → ℝ, (∑ i, y i * ((PCParams.pull p f).m i - 1) * Real.log (pcG z
        (pcDiam ((PCParams.pull p f).sigma i) ((PCParams.pull p f).eps i) T)
        (pcDiam ((PCParams.pull p f).sigma i) ((PCParams.pull p f).eps i) T))) =
      ∑ i, x i * (p.m i - 1) * Real.log (pcG z (pcDiam (p.sigma i) (p.eps i) T) (pcDiam (p.sigma i) (p.eps i) T)) := by
    intro z
    simp only [mul_assoc]
    exact hs fun i => (p.m i - 1) * Real.log (pcG z (pcDiam (p.sigma i) (p.eps i) T) (pcDiam (p.sigma i) (p.eps i) T))
  unfold pcEval
  simp only [hm, hD, hmix, hg]
  rfl

/-- Splitting: a pure fluid and an equimolar mixture of two copies of it; and a binary mixture with its components
exchanged. -/
example (p : PCParams (Fin 1)) (T rho : ℝ) :
    pcEval (PCParams.pull p (fun _ : Fin 2 => 0)) T rho (fun _ => 0.5) = pcEval p T rho (fun _ => 1) := by
  classical
  refine pc_copies p _ T rho _ _ fun i => ?_
  fin_cases i
  norm_num

example (p : PCParams (Fin 2)) (T rho a b : ℝ) :
    pcEval (PCParams.pull p (Equiv.swap 0 1)) T rho (fun i => if i = 0 then b else a) =
      pcEval p T rho (fun i => if i = 0 then a else b) := by
  classical
  refine pc_copies p _ T rho _ _ fun i => ?_
  fin_cases i <;> simp [Finset.sum_filter, Fin.sum_univ_two]

/-! ## Pure fluids -/

/-- The tables of the two classes are the same. -/
theorem pure_tables (n : Fin 7) : pureCoeff n 0 = gsA 0 n ∧ pureCoeff n 1 = gsA 1 n ∧ pureCoeff n 2 = gsA 2 n ∧
    pureCoeff n 3 = gsB 0 n ∧ pureCoeff n 4 = gsB 1 n ∧ pureCoeff n 5 = gsB 2 n := by
  unfold pureCoeff gsA gsB
  fin_cases n <;> simp

/-- One component. -/
noncomputable def onePC (m sigma eps : ℝ) : PCParams (Fin 1) := ⟨fun _ => m, fun _ => sigma, fun _ => eps, fun _ _ => 0, gsA, gsB⟩

/-- The pure-fluid class gives the packing fraction, the hard-chain and the dispersion contribution of the mixture
class with one component and without interaction parameter. -/
theorem pure_eq_mixture (m sigma eps T rhoA3 : ℝ) (hm : 0 < m) (he : 0 ≤ eps) (hT : T ≠ 0)
    (hd : pcDiam sigma eps T ≠ 0) (hU : 1 - pcD (onePC m sigma eps) T (fun _ => 1) 3 * rhoA3 ≠ 0) :
    pureEval m sigma eps T rhoA3 = pcEval (onePC m sigma eps) T rhoA3 (fun _ => 1) := by
  have hD : ∀ n, pcD (onePC m sigma eps) T (fun _ => 1) n = Real.pi / 6 * m * pcDiam sigma eps T ^ n := fun n => by
    unfold pcD onePC
    simp
    ring
  have hpi := Real.pi_pos
  have hmb : pcMbar (onePC m sigma eps) (fun _ => 1) = m := by unfold pcMbar onePC; simp
  have hI1 : ∀ e, (∑ n : Fin 7, pureIm m 0 1 2 n * e ^ (n : ℕ)) = pcI gsA m e := fun e => by
    unfold pcI pureIm
    refine Finset.sum_congr rfl fun n _ => ?_
    obtain ⟨h0, h1, h2, -⟩ := pure_tables n
    simp only [h0, h1, h2]
    ring
  have hI2 : ∀ e, (∑ n : Fin 7, pureIm m 3 4 5 n * e ^ (n : ℕ)) = pcI gsB m e := fun e => by
    unfold pcI pureIm
    refine Finset.sum_congr rfl fun n _ => ?_
    obtain ⟨-, -, -, h0, h1, h2⟩ := pure_tables n
    simp only [h0, h1, h2]
    ring
  have hs1 : pcMix (onePC m sigma eps) T (fun _ => 1) 1 = m ^ 2 * (eps / T) * sigma ^ 3 := by
    unfold pcMix onePC
    simp [Real.sqrt_mul_self he]
    ring
  have hs2 : pcMix (onePC m sigma eps) T (fun _ => 1) 2 = m ^ 2 * (eps / T) ^ 2 * sigma ^ 3 := by
    unfold pcMix onePC
    simp [Real.sqrt_mul_self he]
    ring
  have hHS : pcHS (pcD (onePC m sigma eps) T (fun _ => 1)) (fun n => pcD (onePC m sigma eps) T (fun _ => 1) n * rhoA3) =
      hsZero (Real.pi / 6 * m * pcDiam sigma eps T ^ 0) (Real.pi / 6 * m * pcDiam sigma eps T ^ 1)
        (Real.pi / 6 * m * pcDiam sigma eps T ^ 2) (Real.pi / 6 * m * pcDiam sigma eps T ^ 3)
        (Real.pi / 6 * m * pcDiam sigma eps T ^ 2 * rhoA3) (Real.pi / 6 * m * pcDiam sigma eps T ^ 3 * rhoA3) := by
    rw [pcHS_eq _ _ (by rw [hD]; positivity) (by rw [hD]; positivity) hU]
    simp only [hD]
  rw [hD] at hU
  unfold pureEval pcEval
  simp only [hI1, hI2, hmb, hHS, hs1, hs2]
  simp only [hD]
  change PCTerms.mk _ _ _ = PCTerms.mk _ _ _
  have hdd : sigma * (1 - 0.12 * Real.exp (-3 * eps / T)) = pcDiam sigma eps T := rfl
  simp only [hdd]
  have hcomm : ∀ n : ℕ, rhoA3 * (Real.pi / 6 * m * pcDiam sigma eps T ^ n) = Real.pi / 6 * m * pcDiam sigma eps T ^ n * rhoA3 :=
    fun n => mul_comm _ _
  simp only [hcomm]
  congr 1
  · -- hard chain
    have hhs : (if Real.pi / 6 * m * pcDiam sigma eps T ^ 0 * rhoA3 = 0 then
        hsZero (Real.pi / 6 * m * pcDiam sigma eps T ^ 0) (Real.pi / 6 * m * pcDiam sigma eps T ^ 1)
        (Real.pi / 6 * m * pcDiam sigma eps T ^ 2) (Real.pi / 6 * m * pcDiam sigma eps T ^ 3)
        (Real.pi / 6 * m * pcDiam sigma eps T ^ 2 * rhoA3) (Real.pi / 6 * m * pcDiam sigma eps T ^ 3 * rhoA3) else
        (3 * (Real.pi / 6 * m * pcDiam sigma eps T ^ 1 * rhoA3) * (Real.pi / 6 * m * pcDiam sigma eps T ^ 2 * rhoA3) /
          (1 - Real.pi / 6 * m * pcDiam sigma eps T ^ 3 * rhoA3) +
          Real.pi / 6 * m * pcDiam sigma eps T ^ 2 * rhoA3 * (Real.pi / 6 * m * pcDiam sigma eps T ^ 2 * rhoA3) *
            (Real.pi / 6 * m * pcDiam sigma eps T ^ 2 * rhoA3) / (Real.pi / 6 * m * pcDiam sigma eps T ^ 3 * rhoA3 *
            ((1 - Real.pi / 6 * m * pcDiam sigma eps T ^ 3 * rhoA3) * (1 - Real.pi / 6 * m * pcDiam sigma eps T ^ 3 * rhoA3))) +
          (Real.pi / 6 * m * pcDiam sigma eps T ^ 2 * rhoA3 * (Real.pi / 6 * m * pcDiam sigma eps T ^ 2 * rhoA3) *
            (Real.pi / 6 * m * pcDiam sigma eps T ^ 2 * rhoA3) / (Real.pi / 6 * m * pcDiam sigma eps T ^ 3 * rhoA3 *
            (Real.pi / 6 * m * pcDiam sigma eps T ^ 3 * rhoA3)) - Real.pi / 6 * m * pcDiam sigma eps T ^ 0 * rhoA3) *
            Real.log (1 - Real.pi / 6 * m * pcDiam sigma eps T ^ 3 * rhoA3)) / (Real.pi / 6 * m * pcDiam sigma eps T ^ 0 * rhoA3)) =
        hsZero (Real.pi / 6 * m * pcDiam sigma eps T ^ 0) (Real.pi / 6 * m * pcDiam sigma eps T ^ 1)
        (Real.pi / 6 * m * pcDiam sigma eps T ^ 2) (Real.pi / 6 * m * pcDiam sigma eps T ^ 3)
        (Real.pi / 6 * m * pcDiam sigma eps T ^ 2 * rhoA3) (Real.pi / 6 * m * pcDiam sigma eps T ^ 3 * rhoA3) := by
      by_cases h0 : Real.pi / 6 * m * pcDiam sigma eps T ^ 0 * rhoA3 = 0
      · rw [if_pos h0]
      · rw [if_neg h0]
        have hrho : rhoA3 ≠ 0 := fun h => h0 (by rw [h, mul_zero])
        rw [← hs_branches (fun n => Real.pi / 6 * m * pcDiam sigma eps T ^ n) rhoA3 hrho (by positivity) (by positivity) hU]
        unfold hsFull
        simp only
        rw [div_div, div_div, one_div_mul_eq_div, mul_assoc (_ * rhoA3) _ _]
    rw [hhs]
    simp only [Finset.univ_unique]
    have hg : 1 / (1 - Real.pi / 6 * m * pcDiam sigma eps T ^ 3 * rhoA3) +
        pcDiam sigma eps T / 2 * 3 * (Real.pi / 6 * m * pcDiam sigma eps T ^ 2 * rhoA3) /
          ((1 - Real.pi / 6 * m * pcDiam sigma eps T ^ 3 * rhoA3) * (1 - Real.pi / 6 * m * pcDiam sigma eps T ^ 3 * rhoA3)) +
        pcDiam sigma eps T / 2 * (pcDiam sigma eps T / 2) * 2 * (Real.pi / 6 * m * pcDiam sigma eps T ^ 2 * rhoA3 *
          (Real.pi / 6 * m * pcDiam sigma eps T ^ 2 * rhoA3)) / ((1 - Real.pi / 6 * m * pcDiam sigma eps T ^ 3 * rhoA3) *
          ((1 - Real.pi / 6 * m * pcDiam sigma eps T ^ 3 * rhoA3) * (1 - Real.pi / 6 * m * pcDiam sigma eps T ^ 3 * rhoA3))) =
        pcG (fun n => Real.pi / 6 * m * pcDiam sigma eps T ^ n * rhoA3) (pcDiam sigma eps T) (pcDiam sigma eps T) := by
      unfold pcG
      simp only
      have e : pcDiam sigma eps T * pcDiam sigma eps T / (pcDiam sigma eps T + pcDiam sigma eps T) = pcDiam sigma eps T / 2 := by
        field_simp
        norm_num
      rw [e]
      ring
    rw [hg]
    rw [Finset.sum_singleton, one_mul]
    rfl
  · -- dispersion
    have hc1 : pcC1 (Real.pi / 6 * m * pcDiam sigma eps T ^ 3 * rhoA3) m =
        (1 + m * (8 * (Real.pi / 6 * m * pcDiam sigma eps T ^ 3 * rhoA3) - 2 * (Real.pi / 6 * m * pcDiam sigma eps T ^ 3 * rhoA3 *
          (Real.pi / 6 * m * pcDiam sigma eps T ^ 3 * rhoA3))) / ((1 - Real.pi / 6 * m * pcDiam sigma eps T ^ 3 * rhoA3) *
          ((1 - Real.pi / 6 * m * pcDiam sigma eps T ^ 3 * rhoA3) * ((1 - Real.pi / 6 * m * pcDiam sigma eps T ^ 3 * rhoA3) *
          (1 - Real.pi / 6 * m * pcDiam sigma eps T ^ 3 * rhoA3)))) +
        (1 - m) * (20 * (Real.pi / 6 * m * pcDiam sigma eps T ^ 3 * rhoA3) - 27 * (Real.pi / 6 * m * pcDiam sigma eps T ^ 3 * rhoA3 *
          (Real.pi / 6 * m * pcDiam sigma eps T ^ 3 * rhoA3)) + 12 * (Real.pi / 6 * m * pcDiam sigma eps T ^ 3 * rhoA3 *
          (Real.pi / 6 * m * pcDiam sigma eps T ^ 3 * rhoA3) * (Real.pi / 6 * m * pcDiam sigma eps T ^ 3 * rhoA3)) -
          2 * (Real.pi / 6 * m * pcDiam sigma eps T ^ 3 * rhoA3 * (Real.pi / 6 * m * pcDiam sigma eps T ^ 3 * rhoA3) *
          (Real.pi / 6 * m * pcDiam sigma eps T ^ 3 * rhoA3 * (Real.pi / 6 * m * pcDiam sigma eps T ^ 3 * rhoA3)))) /
          ((1 - Real.pi / 6 * m * pcDiam sigma eps T ^ 3 * rhoA3) * (1 - Real.pi / 6 * m * pcDiam sigma eps T ^ 3 * rhoA3)) /
          ((2 - Real.pi / 6 * m * pcDiam sigma eps T ^ 3 * rhoA3) * (2 - Real.pi / 6 * m * pcDiam sigma eps T ^ 3 * rhoA3)))⁻¹ := by
      unfold pcC1
      simp only [one_div]
      generalize Real.pi / 6 * m * pcDiam sigma eps T ^ 3 * rhoA3 = e
      congr 1
      rw [div_div]
      congr 2
      · ring
      · ring
      · ring
    rw [hc1]
    change _ = -2 * Real.pi * rhoA3 * pcI gsA m _ * _ - Real.pi * rhoA3 * m * _ * pcI gsB m _ * _
    field_simp

/-- The hypotheses hold for methane at 300 K and a liquid-like density. -/
example : pureEval 1 3.7039 150.03 300 0.001 = pcEval (onePC 1 3.7039 150.03) 300 0.001 (fun _ => 1) := by
  have hexp : 0 < Real.exp (-3 * 150.03 / 300) ∧ Real.exp (-3 * 150.03 / 300) < 1 :=
    ⟨Real.exp_pos _, (Real.exp_lt_exp.mpr (by norm_num : (-3 * 150.03 / 300 : ℝ) < 0)).trans_eq Real.exp_zero⟩
  have hd0 : 0 < pcDiam 3.7039 150.03 300 := by unfold pcDiam; nlinarith [hexp.1, hexp.2]
  have hd1 : pcDiam 3.7039 150.03 300 < 4 := by unfold pcDiam; nlinarith [hexp.1, hexp.2]
  refine pure_eq_mixture 1 3.7039 150.03 300 0.001 (by norm_num) (by norm_num) (by norm_num) hd0.ne' ?_
  have hD : pcD (onePC 1 3.7039 150.03) 300 (fun _ => 1) 3 = Real.pi / 6 * pcDiam 3.7039 150.03 300 ^ 3 := by
    unfold pcD onePC
    simp
  rw [hD]
  have h3 : pcDiam 3.7039 150.03 300 ^ 3 < 64 := by
    calc pcDiam 3.7039 150.03 300 ^ 3 < 4 ^ 3 := by gcongr
      _ = 64 := by norm_num
  have hp := Real.pi_le_four
  have hp0 := Real.pi_pos
  have : Real.pi / 6 * pcDiam 3.7039 150.03 300 ^ 3 < 1 * 64 := by
    have : Real.pi / 6 < 1 := by linarith
    nlinarith [pow_pos hd0 3]
  intro h
  linarith

/-! ## Where the result is a number -/

/-- Physical parameters: chains of at least one segment, positive diameters and energies, and a composition of
non-negative fractions with sum one. -/
structure PCPhysical (p : PCParams ι) (T : ℝ) (x : ι → ℝ) : Prop where
  hT : 0 < T
  hm : ∀ i, 1 ≤ p.m i
  hsigma : ∀ i, 0 < p.sigma i
  heps : ∀ i, 0 ≤ p.eps i
  hx : ∀ i, 0 ≤ x i
  hx1 : ∑ i, x i = 1

theorem pcDiam_pos {sigma eps T : ℝ} (hT : 0 < T) (hs : 0 < sigma) (he : 0 ≤ eps) : 0 < pcDiam sigma eps T := by
  unfold pcDiam
  have : Real.exp (-3 * eps / T) ≤ 1 := Real.exp_le_one_iff.mpr (div_nonpos_of_nonpos_of_nonneg (by linarith) hT.le)
  exact mul_pos hs (by linarith)

theorem pcD_pos {p : PCParams ι} {T : ℝ} {x : ι → ℝ} (h : PCPhysical p T x) (n : ℕ) : 0 < pcD p T x n := by
  have hd : ∀ i, 0 < pcDiam (p.sigma i) (p.eps i) T := fun i => pcDiam_pos h.hT (h.hsigma i) (h.heps i)
  have hm : ∀ i, 0 < p.m i := fun i => lt_of_lt_of_le one_pos (h.hm i)
  unfold pcD
  refine mul_pos (div_pos Real.pi_pos (by norm_num)) ?_
  have hex : ∃ i, x i ≠ 0 := by
    by_contra hc
    push Not at hc
    have := h.hx1
    rw [Finset.sum_eq_zero fun i _ => hc i] at this
    exact zero_ne_one this
  obtain ⟨i, hi⟩ := hex
  refine Finset.sum_pos' (fun j _ => ?_) ⟨i, Finset.mem_univ i, ?_⟩
  · have := h.hx j
    have := hm j
    have := hd j
    positivity
  · have : 0 < x i := lt_of_le_of_ne (h.hx i) (Ne.symm hi)
    have := hm i
    have := hd i
    positivity

theorem pcMbar_ge {p : PCParams ι} {T : ℝ} {x : ι → ℝ} (h : PCPhysical p T x) : 1 ≤ pcMbar p x := by
  unfold pcMbar
  rw [← h.hx1]
  exact Finset.sum_le_sum fun i _ => le_mul_of_one_le_right (h.hx i) (h.hm i)

/-- With physical parameters the value is a number for every density from zero (included) up to, and not including, the
density at which the packing fraction is one. -/
theorem pc_regular (p : PCParams ι) (T rhoA3 : ℝ) (x : ι → ℝ) (h : PCPhysical p T x) (h0 : 0 ≤ rhoA3) (h1 : pcD p T x 3 * rhoA3 < 1) :
    PCRegular p T rhoA3 x := by
  have hD := pcD_pos h
  have hmb := pcMbar_ge h
  have hd : ∀ i, 0 < pcDiam (p.sigma i) (p.eps i) T := fun i => pcDiam_pos h.hT (h.hsigma i) (h.heps i)
  have he : 0 ≤ pcD p T x 3 * rhoA3 := mul_nonneg (hD 3).le h0
  have hu : 0 < 1 - pcD p T x 3 * rhoA3 := by linarith
  refine ⟨h.hT.ne', fun i j => mul_nonneg (h.heps i) (h.heps j), by linarith, (hD 0).ne', (hD 3).ne', fun hz => ?_, hu,
    fun i => (hd i).ne', fun i => ?_, ?_⟩
  · exact mul_ne_zero (hD 0).ne' (right_ne_zero_of_mul hz)
  · have h2 : 0 ≤ pcD p T x 2 * rhoA3 := mul_nonneg (hD 2).le h0
    have := hd i
    unfold pcG
    simp only
    positivity
  · have := (pcC1_bounds _ _ he h1 hmb).1
    linarith

/-- The reported maximal density is the one at which the packing fraction is 0.74, so it lies in the range of the last theorem. -/
theorem pc_maxdensity (p : PCParams ι) (T : ℝ) (x : ι → ℝ) (h : PCPhysical p T x) :
    pcD p T x 3 * (pcMaxRhoN p T x * 1e-30) = 0.74 ∧ PCRegular p T (pcMaxRhoN p T x * 1e-30) x := by
  have hD := pcD_pos h 3
  have hS : (∑ i, x i * p.m i * pcDiam (p.sigma i) (p.eps i) T ^ 3) ≠ 0 := by
    intro hc
    unfold pcD at hD
    rw [hc, mul_zero] at hD
    exact lt_irrefl _ hD
  have hS0 : 0 < ∑ i, x i * p.m i * pcDiam (p.sigma i) (p.eps i) T ^ 3 := by
    unfold pcD at hD
    exact pos_of_mul_pos_right hD (by positivity)
  have e : pcD p T x 3 * (pcMaxRhoN p T x * 1e-30) = 0.74 := by
    unfold pcD pcMaxRhoN
    have := Real.pi_ne_zero
    generalize (∑ i, x i * p.m i * pcDiam (p.sigma i) (p.eps i) T ^ 3) = S at hS
    field_simp
    norm_num
  refine ⟨e, pc_regular p T _ x h ?_ (by rw [e]; norm_num)⟩
  unfold pcMaxRhoN
  have := Real.pi_pos
  positivity

/-- At zero density the contributions vanish. -/
theorem pc_zero (p : PCParams ι) (T : ℝ) (x : ι → ℝ) : (pcEval p T 0 x).hc = 0 ∧ (pcEval p T 0 x).disp = 0 := by
  unfold pcEval pcHS hsZero pcG
  simp

/-- Equimolar methane and propane at 300 K. -/
noncomputable def mixC1C3 : PCParams (Fin 2) :=
  ⟨fun i => if i = 0 then 1 else 2.0020, fun i => if i = 0 then 3.7039 else 3.6184, fun i => if i = 0 then 150.03 else 208.11,
    fun _ _ => 0, gsA, gsB⟩

example : PCPhysical mixC1C3 300 (fun _ => 0.5) := by
  refine ⟨by norm_num, fun i => ?_, fun i => ?_, fun i => ?_, fun _ => by norm_num, by simp; norm_num⟩ <;>
    fin_cases i <;> simp [mixC1C3] <;> norm_num

/-- The constructed model: a vector of the wrong length is refused, at every density up to the maximal one there is
a number, and at zero density it is zero (without polar terms). -/
theorem pcMixture_alphar (dip quad : ℝ → ℝ → ℝ → List ℝ → Outcome ℝ) (NA : ℝ) (mx : PCMixture) (T rho : ℝ) (x : List ℝ)
    (hdip : ¬ mx.hasDipole) (hquad : ¬ mx.hasQuadrupole) :
    (x.length ≠ mx.coeffs.length → mx.alphar dip quad NA T rho x = .throws .stdInvalidArgument) ∧
    (x.length = mx.coeffs.length → PCPhysical mx.params T (fun i => x.getD i 0) → 0 ≤ rho → 0 < NA →
      (rho * NA ≤ pcMaxRhoN mx.params T (fun i => x.getD i 0) →
        mx.alphar dip quad NA T rho x = .ok ((pcEval mx.params T (rho * NA * 1e-30) (fun i => x.getD i 0)).hc +
          (pcEval mx.params T (rho * NA * 1e-30) (fun i => x.getD i 0)).disp)) ∧
      mx.alphar dip quad NA T 0 x = .ok 0) := by
  constructor
  · intro h
    unfold PCMixture.alphar
    rw [if_pos h]
  · intro hl hp hr hNA
    have hval : ∀ r : ℝ, 0 ≤ r → r * NA ≤ pcMaxRhoN mx.params T (fun i => x.getD i 0) →
        mx.alphar dip quad NA T r x = .ok ((pcEval mx.params T (r * NA * 1e-30) (fun i => x.getD i 0)).hc +
          (pcEval mx.params T (r * NA * 1e-30) (fun i => x.getD i 0)).disp) := by
      intro r hr hmax
      have hreg : PCRegular mx.params T (r * NA * 1e-30) (fun i => x.getD i 0) := by
        refine pc_regular _ _ _ _ hp (by positivity) ?_
        have hD := pcD_pos hp 3
        have := (pc_maxdensity mx.params T _ hp).1
        have h2 : pcD mx.params T (fun i => x.getD i 0) 3 * (r * NA * 1e-30) ≤
            pcD mx.params T (fun i => x.getD i 0) 3 * (pcMaxRhoN mx.params T (fun i => x.getD i 0) * 1e-30) := by
          gcongr
        rw [this] at h2
        linarith
      unfold PCMixture.alphar
      rw [if_neg (not_not.mpr hl)]
      simp only
      rw [if_neg (not_not.mpr hreg), if_neg hdip, if_neg hquad]
      simp
    refine ⟨hval rho hr, ?_⟩
    have hmaxpos : 0 ≤ pcMaxRhoN mx.params T (fun i => x.getD i 0) := by
      have := (pc_maxdensity mx.params T _ hp).1
      have hD := pcD_pos hp 3
      by_contra hc
      push Not at hc
      nlinarith
    rw [hval 0 le_rfl (by simpa using hmaxpos), zero_mul, zero_mul, (pc_zero _ _ _).1, (pc_zero _ _ _).2, add_zero]

/-! ## Building from JSON -/

/-- The matrix of a constructed model always fits its components. -/
theorem pcMake_fits {cs : List SAFTCoeffs} {a b : Fin 3 → Fin 7 → ℝ} {k : SqMat} {mx : PCMixture} (h : PCMixture.make cs a b k = .ok mx) :
    mx.coeffs = cs ∧ mx.kmat.n = cs.length ∧ mx.a = a ∧ mx.b = b ∧ (k.n ≠ 0 → mx.kmat = k) ∧
      (k.n = 0 → ∀ i j, mx.kmat.val i j = 0) := by
  unfold PCMixture.make pcCheckKmat at h
  by_cases h0 : k.n = 0
  · rw [if_pos h0] at h
    injection h with h
    subst h
    exact ⟨rfl, rfl, rfl, rfl, fun h => absurd h0 h, fun _ _ _ => rfl⟩
  · rw [if_neg h0] at h
    by_cases h1 : k.n ≠ cs.length
    · rw [if_pos h1] at h
      exact absurd h (by simp [Outcome.bind])
    · rw [if_neg h1] at h
      injection h with h
      subst h
      push Not at h1
      exact ⟨rfl, h1, rfl, rfl, fun _ => rfl, fun h => absurd h h0⟩

/-- A model built from a document has one coefficient record per entry, a matrix of that size, and one of the three
pairs of tables. -/
theorem pcFactory_fits {j : JTree} {mx : PCMixture} (h : pcFactory j = .ok mx) :
    mx.kmat.n = mx.coeffs.length ∧
    ((mx.a, mx.b) = (gsA, gsB) ∨ (mx.a, mx.b) = (liang12A, liang12B) ∨ (mx.a, mx.b) = (liang14A, liang14B)) ∧
    (j.contains "names" = true ∨ j.contains "coeffs" = true) := by
  unfold pcFactory at h
  obtain ⟨k, hk, h⟩ := Outcome.bind_eq_ok.mp h
  obtain ⟨ab, hab, h⟩ := Outcome.bind_eq_ok.mp h
  have htab : ab = (gsA, gsB) ∨ ab = (liang12A, liang12B) ∨ ab = (liang14A, liang14B) := by
    unfold pcTables at hab
    by_cases hc : j.contains "ab"
    · rw [if_pos hc] at hab
      obtain ⟨s, -, hs⟩ := Outcome.bind_eq_ok.mp hab
      by_cases h1 : s = "Liang-IECR-2012"
      · rw [if_pos h1] at hs
        injection hs with hs
        exact Or.inr (Or.inl hs.symm)
      · rw [if_neg h1] at hs
        by_cases h2 : s = "Liang-IECR-2014"
        · rw [if_pos h2] at hs
          injection hs with hs
          exact Or.inr (Or.inr hs.symm)
        · rw [if_neg h2] at hs
          exact absurd hs (by simp)
    · rw [if_neg hc] at hab
      injection hab with hab
      exact Or.inl hab.symm
  have fin : ∀ {cs : List SAFTCoeffs} {K : SqMat}, PCMixture.make cs ab.1 ab.2 K = .ok mx → mx.kmat.n = mx.coeffs.length ∧
      ((mx.a, mx.b) = (gsA, gsB) ∨ (mx.a, mx.b) = (liang12A, liang12B) ∨ (mx.a, mx.b) = (liang14A, liang14B)) := by
    intro cs K hm
    obtain ⟨h1, h2, h3, h4, -⟩ := pcMake_fits hm
    rw [h1, h3, h4]
    exact ⟨h2, htab⟩
  by_cases hn : j.contains "names"
  · rw [if_pos hn] at h
    obtain ⟨names, -, h⟩ := Outcome.bind_eq_ok.mp h
    obtain ⟨-, -, h⟩ := Outcome.bind_eq_ok.mp h
    obtain ⟨cs, -, h⟩ := Outcome.bind_eq_ok.mp h
    exact ⟨(fin h).1, (fin h).2, Or.inl hn⟩
  · rw [if_neg hn] at h
    by_cases hc : j.contains "coeffs"
    · rw [if_pos hc] at h
      obtain ⟨jc, -, h⟩ := Outcome.bind_eq_ok.mp h
      obtain ⟨cs, -, h⟩ := Outcome.bind_eq_ok.mp h
      obtain ⟨-, -, h⟩ := Outcome.bind_eq_ok.mp h
      exact ⟨(fin h).1, (fin h).2, Or.inr hc⟩
    · rw [if_neg hc] at h
      exact absurd h (by simp)

/-- A matrix given in the document that is square but not of the size of the list of names is refused, whatever the names are. -/
theorem pcFactory_kmat {j : JTree} {k : SqMat} {names : List String} {ab : (Fin 3 → Fin 7 → ℝ) × (Fin 3 → Fin 7 → ℝ)}
    (hk : pcKmat j = .ok (some k)) (hab : pcTables j = .ok ab) (hn : j.contains "names" = true)
    (hnames : (j.at "names").bind JTree.toStrs = .ok names) (hne : k.n ≠ names.length) : pcFactory j = .throws .invalidArgument := by
  unfold pcFactory pcKmatFits
  simp only [hk, hab, hn, hnames, Outcome.bind_ok, if_true]
  rw [if_pos hne]
  rfl

example : pcFactory (.obj [("kmat", .arr [.arr [.num 0]]), ("names", .arr [.str "Methane", .str "Ethane"])]) = .throws .invalidArgument := by
  refine pcFactory_kmat (k := ⟨1, copyRow 0 0 [0] fun _ _ => 0⟩) (names := ["Methane", "Ethane"]) (ab := (gsA, gsB)) ?_ ?_ ?_ ?_ (by decide)
  · simp [pcKmat, JTree.at, buildSquareMatrix, JTree.toRows, JTree.toRow, JTree.toDouble, mapOutcome, catchJson, copyRows, Outcome.bind]
  · simp [pcTables, JTree.contains]
  · simp [JTree.contains]
  · have h : List.lookup "names" [("kmat", JTree.arr [.arr [.num 0]]), ("names", JTree.arr [.str "Methane", .str "Ethane"])] =
        some (.arr [.str "Methane", .str "Ethane"]) := by
      simp [List.lookup]
    simp [JTree.at, h, JTree.toStrs, JTree.toStr, mapOutcome, Outcome.bind]

/-- The message of the last exception says that names or coefficients must be given, "but not both"; a document with
both is accepted and the coefficients are not looked at. -/
theorem pcFactory_both_accepted :
    ∃ j : JTree, j.contains "names" = true ∧ j.contains "coeffs" = true ∧
      ∃ mx, pcFactory j = .ok mx ∧ mx.coeffs.map (·.name) = ["Methane"] := by
  refine ⟨.obj [("names", .arr [.str "Methane"]), ("coeffs", .arr [.str "not even an object"])], ?_, ?_, ?_⟩
  · simp [JTree.contains]
  · simp [JTree.contains]
  · have hk : List.lookup "kmat" [("names", JTree.arr [JTree.str "Methane"]), ("coeffs", JTree.arr [JTree.str "not even an object"])] = none := by
      decide
    simp [hk, pcFactory, pcKmat, pcTables, pcKmatFits, JTree.at, JTree.contains, JTree.toStrs, JTree.toStr, mapOutcome, pcLibrary, PCMixture.make,
      pcCheckKmat, Outcome.bind]

/-- Neither names nor coefficients: refused. -/
theorem pcFactory_neither {j : JTree} {k : Option SqMat} {ab : (Fin 3 → Fin 7 → ℝ) × (Fin 3 → Fin 7 → ℝ)}
    (hk : pcKmat j = .ok k) (hab : pcTables j = .ok ab) (hn : j.contains "names" = false) (hc : j.contains "coeffs" = false) :
    pcFactory j = .throws .stdInvalidArgument := by
  unfold pcFactory
  simp [hk, hab, hn, hc, Outcome.bind]

end Teqp.Props
