import Verif.Model.LennardJones
import Verif.Lemmas.Outcome
import Mathlib.Analysis.SpecialFunctions.Pow.Deriv
import Mathlib.Analysis.SpecialFunctions.Log.Deriv
import Mathlib.Analysis.Calculus.Deriv.Pow
import Mathlib.Analysis.Calculus.Deriv.Inv
import Mathlib.Tactic

set_option autoImplicit false

/-! Properties of the Lennard-Jones equations of Johnson and of Kolafa and Nezbeda, of chains and of soft-SAFT. -/

namespace Teqp.Spec
open Finset

/-- One term of the 32-term modified Benedict-Webb-Rubin equation: twice the exponent of the temperature and the exponent of the density. -/
def mbwrTab : List (ℤ × ℕ) := [(2, 2), (1, 2), (0, 2), (-2, 2), (-4, 2), (2, 3), (0, 3), (-2, 3), (-4, 3), (2, 4), (0, 4), (-2, 4), (0, 5),
  (-2, 6), (-4, 6), (-2, 7), (-2, 8), (-4, 8), (-4, 9),
  (-4, 3), (-6, 3), (-4, 5), (-8, 5), (-4, 7), (-6, 7), (-4, 9), (-8, 9), (-4, 11), (-6, 11), (-4, 13), (-6, 13), (-8, 13)]

/-- The pressure of the modified Benedict-Webb-Rubin equation in reduced units: 19 terms without and 13 with the exponential. -/
noncomputable def mbwrPressure (x : ℕ → ℝ) (g T rho : ℝ) : ℝ :=
  let term := fun k => x (k + 1) * Real.sqrt T ^ (mbwrTab.getD k (0, 0)).1 * rho ^ (mbwrTab.getD k (0, 0)).2
  rho * T + ∑ k ∈ range 19, term k + Real.exp (-g * rho ^ 2) * ∑ k ∈ Ico 19 32, term k

/-- The compressibility factor of hard spheres, equation 4 of Kolafa and Nezbeda. -/
noncomputable def zKolafa (z : ℝ) : ℝ := (1 + z + z ^ 2 - 2 / 3 * z ^ 3 * (1 + z)) / (1 - z) ^ 3

/-- The contact value of hard Lennard-Jones spheres to first order in the density: the sum of the first row of the table. -/
noncomputable def contactSlope (a : List ℝ) (T : ℝ) : ℝ := ∑ j ∈ range 5, a.getD j 0 / T ^ j

end Teqp.Spec

namespace Teqp.Props
open Finset Teqp.Model Teqp.Spec

/-! ## Johnson -/

/-- The functions `G` are the integrals of the odd powers with the exponential. -/
theorem hasDerivAt_johnsonG (k : ℕ) (rho : ℝ) :
    HasDerivAt (fun r => johnsonG (Real.exp (-johnsonGamma * r ^ 2)) r k) (Real.exp (-johnsonGamma * rho ^ 2) * rho ^ (2 * k + 1)) rho := by
  have hg : johnsonGamma ≠ 0 := by norm_num [johnsonGamma]
  have hF : HasDerivAt (fun r : ℝ => Real.exp (-johnsonGamma * r ^ 2)) (Real.exp (-johnsonGamma * rho ^ 2) * (-johnsonGamma * (2 * rho))) rho := by
    have := (((hasDerivAt_id rho).fun_pow 2).const_mul (-johnsonGamma)).exp
    simpa using this
  induction k with
  | zero =>
    refine ((hF.const_sub 1).div_const (2 * johnsonGamma)).congr_deriv ?_
    field_simp
    ring
  | succ k ih =>
    have h := (((hF.fun_mul ((hasDerivAt_id rho).fun_pow (2 * (k + 1)))).fun_sub (ih.const_mul (2 * ((k : ℝ) + 1)))).neg).div_const (2 * johnsonGamma)
    refine h.congr_deriv ?_
    simp only [id, Nat.cast_mul, Nat.cast_ofNat, Nat.cast_add, Nat.cast_one, mul_one]
    rw [show 2 * (k + 1) - 1 = 2 * k + 1 by omega]
    field_simp
    ring

theorem johnsonG_zero (k : ℕ) : johnsonG (Real.exp (-johnsonGamma * 0 ^ 2)) 0 k = 0 := by
  induction k with
  | zero => simp [johnsonG]
  | succ k ih =>
    unfold johnsonG
    rw [ih]
    simp

/-- **Johnson's equation is the integral of the 32-term pressure equation**: it vanishes at zero density, and the pressure from its density
derivative is the published modified Benedict-Webb-Rubin form, at every positive temperature and every density. -/
theorem johnson_pressure (T : ℝ) (hT : 0 < T) : ∃ f d : ℝ → ℝ, (∀ rho, johnsonAlphar T rho = .ok (f rho)) ∧ f 0 = 0 ∧
    d 0 = (jx 1 * T + jx 2 * Real.sqrt T + jx 3 + jx 4 / T + jx 5 / T ^ 2) / T ∧
    ∀ rho, HasDerivAt f (d rho) rho ∧ rho * T * (1 + rho * d rho) = mbwrPressure jx 3 T rho := by
  have hT' : T ≠ 0 := hT.ne'
  set a : ℕ → ℝ := fun i => match i with
    | 1 => jx 1 * T + jx 2 * Real.sqrt T + jx 3 + jx 4 / T + jx 5 / T ^ 2
    | 2 => jx 6 * T + jx 7 + jx 8 / T + jx 9 / T ^ 2
    | 3 => jx 10 * T + jx 11 + jx 12 / T
    | 4 => jx 13
    | 5 => jx 14 / T + jx 15 / T ^ 2
    | 6 => jx 16 / T
    | 7 => jx 17 / T + jx 18 / T ^ 2
    | 8 => jx 19 / T ^ 2
    | _ => 0 with ha
  set b : ℕ → ℝ := fun i => match i with
    | 1 => jx 20 / T ^ 2 + jx 21 / T ^ 3
    | 2 => jx 22 / T ^ 2 + jx 23 / T ^ 4
    | 3 => jx 24 / T ^ 2 + jx 25 / T ^ 3
    | 4 => jx 26 / T ^ 2 + jx 27 / T ^ 4
    | 5 => jx 28 / T ^ 2 + jx 29 / T ^ 3
    | 6 => jx 30 / T ^ 2 + jx 31 / T ^ 3 + jx 32 / T ^ 4
    | _ => 0 with hb
  set f : ℝ → ℝ := fun rho => (∑ i ∈ range 8, a (i + 1) * rho ^ (i + 1) / ((i + 1 : ℕ) : ℝ) +
    ∑ i ∈ range 6, b (i + 1) * johnsonG (Real.exp (-johnsonGamma * rho ^ 2)) rho i) / T with hf
  refine ⟨f, fun rho => (∑ i ∈ range 8, a (i + 1) * rho ^ i + ∑ i ∈ range 6, b (i + 1) * (Real.exp (-johnsonGamma * rho ^ 2) * rho ^ (2 * i + 1))) / T,
    fun rho => ?_, ?_, ?_, fun rho => ⟨?_, ?_⟩⟩
  · unfold johnsonAlphar johnsonSum
    rw [if_neg (not_le.mpr hT)]
    simp only [addTerms, johnsonA, johnsonB, Outcome.bind_ok, hf, ha, hb, Finset.sum_range_succ, Finset.sum_range_zero]
    norm_num
    ring
  · simp only [hf]
    rw [Finset.sum_eq_zero, Finset.sum_eq_zero]
    · simp
    · intro i _
      rw [johnsonG_zero, mul_zero]
    · intro i _
      simp
  · simp [ha, Finset.sum_range_succ]
  · refine HasDerivAt.div_const (HasDerivAt.add ?_ ?_) T
    · refine HasDerivAt.fun_sum fun i _ => ?_
      have h := (((hasDerivAt_id rho).fun_pow (i + 1)).const_mul (a (i + 1))).div_const ((i + 1 : ℕ) : ℝ)
      refine h.congr_deriv ?_
      have : ((i + 1 : ℕ) : ℝ) ≠ 0 := by positivity
      simp only [id, Nat.add_sub_cancel, mul_one]
      field_simp
    · exact HasDerivAt.fun_sum fun i _ => (hasDerivAt_johnsonG i rho).const_mul _
  · have e : rho * T * (1 + rho * ((∑ i ∈ range 8, a (i + 1) * rho ^ i + ∑ i ∈ range 6, b (i + 1) * (Real.exp (-johnsonGamma * rho ^ 2) * rho ^ (2 * i + 1))) / T)) =
        rho * T + rho ^ 2 * ∑ i ∈ range 8, a (i + 1) * rho ^ i + rho ^ 2 * ∑ i ∈ range 6, b (i + 1) * (Real.exp (-johnsonGamma * rho ^ 2) * rho ^ (2 * i + 1)) := by
      generalize (∑ i ∈ range 8, a (i + 1) * rho ^ i) = A
      generalize (∑ i ∈ range 6, b (i + 1) * (Real.exp (-johnsonGamma * rho ^ 2) * rho ^ (2 * i + 1))) = B
      field_simp
      ring
    show rho * T * (1 + rho * _) = _
    rw [e]
    unfold mbwrPressure
    obtain ⟨s, hs, hsT⟩ : ∃ s : ℝ, 0 < s ∧ T = s ^ 2 := ⟨Real.sqrt T, Real.sqrt_pos.mpr hT, (Real.sq_sqrt hT.le).symm⟩
    have hsq := Real.sqrt_sq hs.le
    simp only [johnsonGamma, ha, hb, hsT, hsq, Finset.sum_range_succ, Finset.sum_range_zero, mbwrTab, Finset.sum_Ico_eq_sum_range, List.getD_cons_zero,
      List.getD_cons_succ, zero_add, Nat.reduceAdd, Nat.reduceSub, zpow_neg, zpow_ofNat, zpow_zero, zpow_one]
    field_simp
    ring

example : ∃ v, johnsonAlphar 1.5 0.6 = .ok v := by
  obtain ⟨f, -, h, -⟩ := johnson_pressure 1.5 (by norm_num)
  exact ⟨_, h 0.6⟩

/-! ## Kolafa and Nezbeda -/

/-- **The hard-sphere part integrates the hard-sphere compressibility factor of the paper.** -/
theorem kn_hard_sphere (T rho : ℝ) (hT : 0 < T) (hz : knZeta T rho < 1) :
    ∃ d, HasDerivAt (fun r => knAhs T r / T) d rho ∧ 1 + rho * d = zKolafa (knZeta T rho) := by
  have h1 : 1 - knZeta T rho ≠ 0 := by linarith
  set c := Real.pi / 6 * knDiam T ^ 3 with hc
  have hzr : ∀ r, knZeta T r = c * r := fun r => by rw [knZeta, hc]; ring
  have hd : HasDerivAt (fun r => knZeta T r) c rho := by
    simp only [hzr]
    simpa using (hasDerivAt_id rho).const_mul c
  have hlog := ((hd.const_sub 1).log h1).const_mul (5 / 3 : ℝ)
  have hnum := hd.fun_mul (((hd.const_mul 33).const_sub 34).fun_add ((hd.fun_pow 2).const_mul 4))
  have hden := ((hd.const_sub 1).fun_pow 2).const_mul 6
  have hden0 : (6 : ℝ) * (1 - knZeta T rho) ^ 2 ≠ 0 := mul_ne_zero (by norm_num) (pow_ne_zero 2 h1)
  have h := hlog.fun_add (hnum.fun_div hden hden0)
  refine ⟨_, (h.congr_of_eventuallyEq (Filter.Eventually.of_forall fun r => ?_)), ?_⟩
  · simp only [knAhs]
    field_simp
  · simp only [Nat.cast_ofNat, Nat.reduceSub, pow_one]
    unfold zKolafa
    rw [hzr] at h1 ⊢
    have h1' : 1 - rho * c ≠ 0 := by rwa [mul_comm rho c]
    rw [mul_comm c rho]
    field_simp
    ring

example : (0 : ℝ) < 1 ∧ knZeta 1 0.8 < 1 := by
  refine ⟨one_pos, ?_⟩
  have hpi := Real.pi_le_four
  simp only [knZeta, knDiam, knPow, knD, Real.log_one, Real.one_rpow, List.map_cons, List.map_nil, List.sum_cons, List.sum_nil]
  norm_num
  nlinarith [Real.pi_pos]

/-- **The two temperature functions and their derivatives agree**: the functions for the derivative with respect to the inverse temperature
are the derivatives of the functions. -/
theorem kn_temperature (T : ℝ) (hT : 0 < T) :
    HasDerivAt (fun b => knDiam (1 / b)) (knDiamD T) (1 / T) ∧ HasDerivAt (fun b => knDB2 (1 / b)) (knDB2D T) (1 / T) := by
  have hinv : HasDerivAt (fun b : ℝ => 1 / b) (-T ^ 2) (1 / T) := by
    have := hasDerivAt_inv (x := 1 / T) (by positivity)
    simp only [one_div] at this ⊢
    refine this.congr_deriv ?_
    field_simp
  have hTT : 1 / (1 / T) = T := by field_simp
  have hpow : ∀ l : List (ℤ × ℝ), HasDerivAt (fun b => knPow l (1 / b)) (-T * knPowD l T) (1 / T) := by
    intro l
    induction l with
    | nil => simpa [knPow, knPowD] using hasDerivAt_const (1 / T) (0 : ℝ)
    | cons e l ih =>
      have h1 : HasDerivAt (fun b : ℝ => e.2 * (1 / b) ^ ((e.1 : ℝ) / 2)) (-T * ((e.1 : ℝ) / 2 * e.2 * T ^ ((e.1 : ℝ) / 2))) (1 / T) := by
        have hp := (hinv.rpow_const (p := (e.1 : ℝ) / 2) (Or.inl (by rw [hTT]; exact hT.ne'))).const_mul e.2
        refine hp.congr_deriv ?_
        rw [hTT, Real.rpow_sub_one hT.ne']
        field_simp
      refine ((h1.add ih).congr_of_eventuallyEq (Filter.Eventually.of_forall fun b => ?_)).congr_deriv ?_
      · simp [knPow]
      · simp [knPowD]
        ring
  refine ⟨?_, hpow knB⟩
  have hl := (hinv.log (by rw [hTT]; exact hT.ne')).const_mul knLn
  refine ((hl.add (hpow knD)).congr_of_eventuallyEq (Filter.Eventually.of_forall fun b => rfl)).congr_deriv ?_
  rw [hTT, knDiamD]
  field_simp
  ring

example : (0 : ℝ) < 0.7 := by norm_num

/-- **Kolafa and Nezbeda's equation vanishes at zero density with the second virial coefficient of hard spheres of its diameter plus the
correction**, at every positive temperature. -/
theorem kn_virial (T : ℝ) (hT : 0 < T) : ∃ f : ℝ → ℝ, (∀ᶠ rho in nhds 0, knAlphar T rho = .ok (f rho)) ∧ f 0 = 0 ∧
    HasDerivAt f (2 * Real.pi / 3 * knDiam T ^ 3 + knDB2 T) 0 := by
  have hz0 : knZeta T 0 = 0 := by simp [knZeta]
  have hcont : Continuous fun r => knZeta T r := by unfold knZeta; fun_prop
  refine ⟨fun rho => knHelm T rho / T, ?_, ?_, ?_⟩
  · have : ∀ᶠ r in nhds (0 : ℝ), knZeta T r < 1 := (hcont.continuousAt (x := (0 : ℝ))).eventually_lt continuousAt_const (by simp [hz0])
    filter_upwards [this] with r hr
    rw [knAlphar, if_neg (by push Not; exact ⟨hT, hr⟩)]
  · have : (knC.map fun e => e.2.2 * T ^ ((e.1 : ℝ) / 2) * (0 : ℝ) ^ e.2.1).sum = 0 := by simp [knC]
    simp [knHelm, this, knAhs, hz0]
  · obtain ⟨d, hd, hd'⟩ : ∃ d, HasDerivAt (fun r => knAhs T r / T) d 0 ∧ d = 2 * Real.pi / 3 * knDiam T ^ 3 := by
      set c := Real.pi / 6 * knDiam T ^ 3 with hc
      have hzr : ∀ r, knZeta T r = c * r := fun r => by rw [knZeta, hc]; ring
      have hdz : HasDerivAt (fun r => knZeta T r) c 0 := by
        simp only [hzr]
        simpa using (hasDerivAt_id (0 : ℝ)).const_mul c
      have h1 : 1 - knZeta T 0 ≠ 0 := by rw [hz0]; norm_num
      have hlog := ((hdz.const_sub 1).log h1).const_mul (5 / 3 : ℝ)
      have hnum := hdz.fun_mul (((hdz.const_mul 33).const_sub 34).fun_add ((hdz.fun_pow 2).const_mul 4))
      have hden := ((hdz.const_sub 1).fun_pow 2).const_mul 6
      have hden0 : (6 : ℝ) * (1 - knZeta T 0) ^ 2 ≠ 0 := mul_ne_zero (by norm_num) (pow_ne_zero 2 h1)
      have h := hlog.fun_add (hnum.fun_div hden hden0)
      refine ⟨_, h.congr_of_eventuallyEq (Filter.Eventually.of_forall fun r => ?_), ?_⟩
      · simp only [knAhs]
        field_simp
      · rw [hz0]
        simp only [Nat.cast_ofNat, Nat.reduceSub, pow_one]
        rw [hc]
        ring
    have hexp : HasDerivAt (fun r : ℝ => Real.exp (-knGamma * r ^ 2) * r * knDB2 T) (knDB2 T) 0 := by
      have h := (((((hasDerivAt_id (0 : ℝ)).fun_pow 2).const_mul (-knGamma)).exp).fun_mul (hasDerivAt_id 0)).mul_const (knDB2 T)
      refine h.congr_deriv ?_
      simp
    have hpoly : HasDerivAt (fun r : ℝ => (knC.map fun e => e.2.2 * T ^ ((e.1 : ℝ) / 2) * r ^ e.2.1).sum / T) 0 0 := by
      have key : ∀ l : List (ℤ × ℕ × ℝ), (∀ e ∈ l, 2 ≤ e.2.1) → HasDerivAt (fun r : ℝ => (l.map fun e => e.2.2 * T ^ ((e.1 : ℝ) / 2) * r ^ e.2.1).sum) 0 0 := by
        intro l
        induction l with
        | nil => intro _; simpa using hasDerivAt_const (0 : ℝ) (0 : ℝ)
        | cons e l ih =>
          intro hl
          have h2 := hl e (by simp)
          have h1 : HasDerivAt (fun r : ℝ => e.2.2 * T ^ ((e.1 : ℝ) / 2) * r ^ e.2.1) 0 0 := by
            refine (((hasDerivAt_id (0 : ℝ)).fun_pow e.2.1).const_mul (e.2.2 * T ^ ((e.1 : ℝ) / 2))).congr_deriv ?_
            simp only [id]
            rw [zero_pow (by omega)]
            ring
          have h := h1.add (ih fun e he => hl e (List.mem_cons_of_mem _ he))
          rw [add_zero] at h
          refine h.congr_of_eventuallyEq (Filter.Eventually.of_forall fun r => ?_)
          simp
      have := (key knC (by simp [knC])).div_const T
      rwa [zero_div] at this
    have h := (hd.add hexp).add hpoly
    rw [hd', add_zero] at h
    refine h.congr_of_eventuallyEq (Filter.Eventually.of_forall fun r => ?_)
    simp only [knHelm, Pi.add_apply]
    field_simp

/-! ## Chains -/

/-- The contact value tends to one at zero density with the slope of the first row. -/
theorem gLJ_zero (T : ℝ) : gLJ T 0 = 1 ∧ HasDerivAt (fun r => gLJ T r) (contactSlope (chainA.getD 0 []) T) 0 := by
  constructor
  · unfold gLJ
    rw [Finset.sum_eq_zero, add_zero]
    intro i hi
    refine Finset.sum_eq_zero fun j _ => ?_
    rw [zero_pow (by have := (Finset.mem_Icc.mp hi).1; omega)]
    ring
  · unfold gLJ
    have h := (HasDerivAt.fun_sum (u := Icc 1 5) fun i (_ : i ∈ Icc 1 5) => HasDerivAt.fun_sum (u := Icc 1 5) fun j (_ : j ∈ Icc 1 5) =>
      (((hasDerivAt_pow i (0 : ℝ)).const_mul ((chainA.getD (i - 1) []).getD (j - 1) 0)).mul_const ((1 / T) ^ (j - 1)))).const_add 1
    refine h.congr_deriv ?_
    rw [show Icc 1 5 = ({1, 2, 3, 4, 5} : Finset ℕ) by decide]
    simp only [contactSlope, Finset.sum_range_succ, Finset.sum_range_zero, div_pow, one_pow]
    simp
    ring

/-- **A chain of one segment is the monomer** wherever the contact value is positive; **a chain vanishes with the monomer at zero density, and
its second virial coefficient** is `m²` times that of the monomer plus `(1 - m) m` times the slope of the contact value. -/
theorem chain_limits (mono : ℝ → ℝ → Outcome ℝ) (T : ℝ) (hT : 0 < T) :
    (∀ rho, 0 < gLJ T rho → ljChain mono 1 T rho = mono T rho) ∧
    (∀ (m B : ℝ) (f : ℝ → ℝ), (∀ rho, mono T rho = .ok (f rho)) → f 0 = 0 → HasDerivAt f B 0 →
      ∃ h : ℝ → ℝ, (∀ᶠ rho in nhds 0, ljChain mono m T rho = .ok (h rho)) ∧ h 0 = 0 ∧
        HasDerivAt h (m ^ 2 * B + (1 - m) * m * contactSlope (chainA.getD 0 []) T) 0) := by
  refine ⟨fun rho hg => ?_, fun m B f hf h0 hB => ?_⟩
  · unfold ljChain
    rw [mul_one]
    cases mono T rho with
    | ok a => simp [Outcome.bind, hT.ne', not_le.mpr hg]
    | throws e => rfl
    | ub => rfl
    | nonFinite => rfl
  · obtain ⟨g0, hg⟩ := gLJ_zero T
    have hm : HasDerivAt (fun r : ℝ => r * m) m 0 := by simpa using (hasDerivAt_id (0 : ℝ)).mul_const m
    have hgm : HasDerivAt (fun r => gLJ T (r * m)) (contactSlope (chainA.getD 0 []) T * m) 0 :=
      HasDerivAt.comp (h₂ := fun r => gLJ T r) 0 (by rw [zero_mul]; exact hg) hm
    have hfm : HasDerivAt (fun r => f (r * m)) (B * m) 0 := HasDerivAt.comp (h₂ := f) 0 (by rw [zero_mul]; exact hB) hm
    refine ⟨fun r => (1 - m) * Real.log (gLJ T (r * m)) + m * f (r * m), ?_, ?_, ?_⟩
    · have : ∀ᶠ r in nhds (0 : ℝ), 0 < gLJ T (r * m) :=
        continuousAt_const.eventually_lt hgm.continuousAt (by rw [zero_mul, g0]; exact one_pos)
      filter_upwards [this] with r hr
      rw [ljChain, hf, Outcome.bind_ok, if_neg (by push Not; exact ⟨hT.ne', hr⟩)]
    · simp [g0, h0]
    · refine (((hgm.log (by rw [zero_mul, g0]; exact one_ne_zero)).const_mul (1 - m)).add (hfm.const_mul m)).congr_deriv ?_
      rw [zero_mul, g0]
      ring

example : ∃ f : ℝ → ℝ, (∀ rho, johnsonAlphar 1.3 rho = .ok (f rho)) ∧ f 0 = 0 ∧ ∃ B, HasDerivAt f B 0 := by
  obtain ⟨f, d, h1, h2, h3⟩ := johnson_pressure 1.3 (by norm_num)
  exact ⟨f, h1, h2, d 0, (h3.2 0).1⟩

/-- At a low temperature the contact value of the fit is negative, and even a chain of one segment has no value there. -/
theorem chain_monomer_nonFinite : ∃ T rho v : ℝ, 0 < T ∧ 0 < rho ∧ johnsonAlphar T rho = .ok v ∧ ljChain johnsonAlphar 1 T rho = .nonFinite := by
  obtain ⟨f, d, h1, -, -⟩ := johnson_pressure (1 / 10) (by norm_num)
  refine ⟨1 / 10, 1 / 100, f (1 / 100), by norm_num, by norm_num, h1 _, ?_⟩
  have hg : gLJ (1 / 10) (1 / 100) ≤ 0 := by
    unfold gLJ
    rw [show Icc 1 5 = ({1, 2, 3, 4, 5} : Finset ℕ) by decide]
    norm_num [chainA]
  unfold ljChain
  rw [mul_one, h1, Outcome.bind_ok, if_pos (Or.inr hg)]

/-! ## Soft-SAFT -/

/-- The denominator of the mixing rules is the square of the number of segments. -/
theorem soft_den (p : SoftSAFT) (x : List ℝ) : p.denSum x = p.mMix x ^ 2 := by
  unfold SoftSAFT.denSum SoftSAFT.mMix SoftSAFT.den
  rw [sq, Finset.sum_mul_sum]
  refine Finset.sum_congr rfl fun i _ => Finset.sum_congr rfl fun j _ => ?_
  ring

/-- **Components that are present and alike act as one**: if all components with a non-zero mole fraction have the same parameters (a pure
component of a mixture, or a mixture of identical components), soft-SAFT is the chain of Johnson's monomers in the reduced variables of that
component. -/
theorem soft_alike (p : SoftSAFT) (NA T rho m e s : ℝ) (x : List ℝ) (h1 : x.length ≤ p.m.length) (h2 : x.length ≤ p.eps.length)
    (h3 : x.length ≤ p.sigma.length) (hpos : ∀ i < x.length, 0 < p.eps.getD i 0) (hm : 0 < m) (he : 0 < e) (hs : 0 < s)
    (hx : ∀ i < x.length, x.getD i 0 ≠ 0 → p.m.getD i 0 = m ∧ p.eps.getD i 0 = e ∧ p.sigma.getD i 0 = s)
    (hsum : ∑ i ∈ range x.length, x.getD i 0 = 1) :
    p.alphar NA T rho x = ljChain johnsonAlphar m (T / e) (rho * NA * s ^ 3) := by
  have hmix : p.mMix x = m := by
    unfold SoftSAFT.mMix
    rw [Finset.sum_congr rfl (g := fun i => m * x.getD i 0) fun i hi => ?_, ← Finset.mul_sum, hsum, mul_one]
    by_cases h0 : x.getD i 0 = 0
    · rw [h0, mul_zero, mul_zero]
    · rw [(hx i (Finset.mem_range.mp hi) h0).1]
  have hden : p.denSum x = m ^ 2 := by rw [soft_den, hmix]
  have hnum1 : p.num1 x = m ^ 2 * s ^ 3 := by
    rw [← hden]
    unfold SoftSAFT.num1 SoftSAFT.denSum
    rw [Finset.sum_mul]
    refine Finset.sum_congr rfl fun i hi => ?_
    rw [Finset.sum_mul]
    refine Finset.sum_congr rfl fun j hj => ?_
    unfold SoftSAFT.den SoftSAFT.sigma3
    by_cases h0 : x.getD i 0 = 0
    · rw [h0]; ring
    · by_cases h0' : x.getD j 0 = 0
      · rw [h0']; ring
      · rw [(hx i (Finset.mem_range.mp hi) h0).2.2, (hx j (Finset.mem_range.mp hj) h0').2.2]
        ring
  have hnum2 : p.num2 x = m ^ 2 * s ^ 3 * e := by
    rw [← hnum1]
    unfold SoftSAFT.num1 SoftSAFT.num2
    rw [Finset.sum_mul]
    refine Finset.sum_congr rfl fun i hi => ?_
    rw [Finset.sum_mul]
    refine Finset.sum_congr rfl fun j hj => ?_
    unfold SoftSAFT.den SoftSAFT.epsij
    by_cases h0 : x.getD i 0 = 0
    · rw [h0]; ring
    · by_cases h0' : x.getD j 0 = 0
      · rw [h0']; ring
      · rw [(hx i (Finset.mem_range.mp hi) h0).2.1, (hx j (Finset.mem_range.mp hj) h0').2.1, Real.sqrt_mul_self he.le]
  have hsig : p.sig3 x = s ^ 3 := by
    rw [SoftSAFT.sig3, hnum1, hden]
    field_simp
  have heps : p.epsMix x = e := by
    rw [SoftSAFT.epsMix, hnum2, hden, hsig]
    field_simp
  unfold SoftSAFT.alphar
  rw [if_neg (by omega), if_neg ?_]
  · dsimp only
    rw [heps, hsig, hmix, show rho * m * NA * s ^ 3 = rho * NA * s ^ 3 * m by ring]
    unfold ljChain
    by_cases hT : T / e = 0
    · rw [johnsonAlphar, if_pos hT.le]
      rfl
    · congr 1
      funext a
      simp only [hT, false_or]
      split_ifs
      · rfl
      · rw [add_comm]
  · rw [hden, hsig, heps]
    push Not
    refine ⟨by positivity, by positivity, he.ne', fun i hi j hj => ?_⟩
    exact (mul_pos (hpos i hi) (hpos j hj)).le

/-- A mixture of three whose first component is absent and whose others are identical. -/
example : (⟨[2, 1.5, 1.5], [100, 300, 300], [3e-10, 4e-10, 4e-10]⟩ : SoftSAFT).alphar 6.02214076e23 400 2000 [0, 0.3, 0.7] =
    ljChain johnsonAlphar 1.5 (400 / 300) (2000 * 6.02214076e23 * 4e-10 ^ 3) := by
  refine soft_alike _ _ _ _ _ _ _ _ (by simp) (by simp) (by simp) ?_ (by norm_num) (by norm_num) (by norm_num) ?_ ?_
  · intro i hi
    simp only [List.length_cons, List.length_nil] at hi
    interval_cases i <;> norm_num
  · intro i hi h
    simp only [List.length_cons, List.length_nil] at hi
    interval_cases i
    · simp at h
    · simp
    · simp
  · simp [Finset.sum_range_succ]
    norm_num

/-- The sizes of the arrays of a soft-SAFT model are not compared with each other: a model with a missing diameter is built and reads past
the array when evaluated. -/
theorem soft_sizes : ∃ (j : JTree) (p : SoftSAFT), SoftSAFT.make j = .ok p ∧ p.m.length ≠ p.sigma.length ∧ ∀ NA T rho x0 x1, p.alphar NA T rho [x0, x1] = .ub := by
  refine ⟨.obj [("m", .arr [.num 1, .num 2]), ("epsilon/kB / K", .arr [.num 100, .num 200]), ("sigma / m", .arr [.num 3e-10])], ⟨[1, 2], [100, 200], [3e-10]⟩,
    ?_, by simp, fun NA T rho x0 x1 => ?_⟩
  · rfl
  · unfold SoftSAFT.alphar
    rw [if_pos (by simp)]

end Teqp.Props
