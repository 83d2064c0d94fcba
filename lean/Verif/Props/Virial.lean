import Verif.Model.Virial
import Verif.Spec.Virial
import Verif.Lemmas.CompDerivs
import Mathlib.Analysis.Calculus.IteratedDeriv.Lemmas
import Mathlib.Analysis.Calculus.FDeriv.Analytic
import Mathlib.Analysis.Analytic.Constructions
import Mathlib.Analysis.Analytic.Uniqueness
import Mathlib.Tactic.FinCases
import Mathlib.Tactic.IntervalCases
import Mathlib.Tactic.FieldSimp
import Mathlib.Tactic.Linarith

/-! # C05, C06: virial coefficients -/

set_option autoImplicit false

namespace Teqp.Props
open Teqp.Model Teqp.Spec Teqp.Lemmas

theorem analyticAt_Z {f : ℝ → ℝ} (h : AnalyticAt ℝ f 0) : AnalyticAt ℝ (compressibility f) 0 := by
  unfold compressibility
  exact analyticAt_const.add (analyticAt_id.mul h.deriv)

/-- Taylor coefficient of `Z`. -/
theorem iteratedDeriv_Z {f : ℝ → ℝ} (h : AnalyticAt ℝ f 0) (m : ℕ) :
    iteratedDeriv (m + 1) (compressibility f) 0 = (m + 1) * iteratedDeriv (m + 1) f 0 := by
  have hd : ContDiffAt ℝ (m + 1 : ℕ) (deriv f) 0 := h.deriv.contDiffAt
  have hid : ContDiffAt ℝ (m + 1 : ℕ) (fun a : ℝ => a) 0 := contDiffAt_id
  have e : compressibility f = fun r => 1 + (fun r => r * deriv f r) r := rfl
  rw [e, iteratedDeriv_const_add (Nat.succ_pos m), iteratedDeriv_fun_mul hid hd]
  rw [Finset.sum_eq_single 1]
  · rw [iteratedDeriv_fun_id_zero]
    simp only [if_true, Nat.choose_one_right, Nat.add_sub_cancel]
    rw [iteratedDeriv_succ']
    push_cast; ring
  · intro b _ hb
    rw [iteratedDeriv_fun_id_zero, if_neg hb]; simp
  · intro hn; exact absurd (Finset.mem_range.mpr (by omega)) hn

theorem tgammaFactorial_eq (n : ℕ) : tgammaFactorial n = (n.factorial : ℝ) := by
  unfold tgammaFactorial; exact Real.Gamma_nat_eq_factorial n

theorem isVirial_iff {f : ℝ → ℝ} (h : AnalyticAt ℝ f 0) (n : ℕ) (hn : 2 ≤ n) (b : ℝ) :
    IsVirial f n b ↔ b = iteratedDeriv (n - 1) f 0 / ((n - 2).factorial : ℝ) := by
  obtain ⟨m, rfl⟩ : ∃ m, n = m + 2 := ⟨n - 2, by omega⟩
  have hZ := (analyticAt_Z h).hasFPowerSeriesAt
  have hc : (FormalMultilinearSeries.ofScalars ℝ
      (fun n ↦ iteratedDeriv n (compressibility f) 0 / n.factorial)).coeff (m + 1)
      = iteratedDeriv (m + 1) f 0 / (m.factorial : ℝ) := by
    rw [FormalMultilinearSeries.coeff_ofScalars]
    rw [iteratedDeriv_Z h, Nat.factorial_succ]
    have : ((m : ℝ) + 1) ≠ 0 := by positivity
    have h2 : (m.factorial : ℝ) ≠ 0 := by positivity
    push_cast; field_simp
  constructor
  · rintro ⟨_, hq⟩
    rw [← hq _ hZ]
    simpa using hc
  · intro hb
    refine ⟨⟨_, hZ⟩, fun q hq => ?_⟩
    rw [hq.eq_formalMultilinearSeries hZ, hb]
    simpa using hc

theorem Bnvir_eq (N : ℕ) (α : ℝ → ℝ → ℝ) (T : ℝ) (n : ℕ) :
    Bnvir N α T n = if 2 ≤ n ∧ n ≤ N then
      some (iteratedDeriv (n - 1) (fun ρ => α T ρ) 0 / ((n - 2).factorial : ℝ)) else none := by
  unfold Bnvir
  by_cases h : 2 ≤ n ∧ n ≤ N
  · rw [if_pos h, if_pos h]
    simp only [tgammaFactorial_eq]
    by_cases h3 : 3 < n
    · rw [if_pos h3]
    · rw [if_neg h3]
      have : n = 2 ∨ n = 3 := by omega
      rcases this with rfl | rfl <;> simp
  · rw [if_neg h, if_neg h]

/-- C05. For a model analytic in density about zero, the map returned by the templated function has
exactly the keys `2..N`, and entry `n` is the coefficient of `ρ^(n-1)` in the expansion of `Z`. -/
theorem Bnvir_is_virial (N : ℕ) (α : ℝ → ℝ → ℝ) (T : ℝ) (h : AnalyticAt ℝ (fun ρ => α T ρ) 0)
    (n : ℕ) :
    (2 ≤ n ∧ n ≤ N → ∃ b, Bnvir N α T n = some b ∧ IsVirial (fun ρ => α T ρ) n b) ∧
    (¬ (2 ≤ n ∧ n ≤ N) → Bnvir N α T n = none) := by
  rw [Bnvir_eq]
  constructor
  · intro hn
    rw [if_pos hn]
    exact ⟨_, rfl, (isVirial_iff h n hn.1 _).2 rfl⟩
  · intro hn; rw [if_neg hn]

/-- C05. `get_B2vir` returns the second virial coefficient. -/
theorem B2vir_is_virial (α : ℝ → ℝ → ℝ) (T : ℝ) (h : AnalyticAt ℝ (fun ρ => α T ρ) 0) :
    IsVirial (fun ρ => α T ρ) 2 (B2vir α T) := by
  rw [isVirial_iff h 2 le_rfl]
  simp [B2vir, iteratedDeriv_one]

/-- C05. The run-time form accepts exactly `2..9` and forwards; everything else is refused. -/
theorem Bnvir_runtime_total (N : Int) (α : ℝ → ℝ → ℝ) (T : ℝ) :
    Bnvir_runtime N α T =
      if 2 ≤ N ∧ N ≤ 9 then .ok (Bnvir N.toNat α T) else .throws .stdInvalidArgument := by
  by_cases h : 2 ≤ N ∧ N ≤ 9
  · rw [if_pos h]
    obtain ⟨h1, h2⟩ := h
    interval_cases N <;> rfl
  · rw [if_neg h]
    unfold Bnvir_runtime
    split <;> first | rfl | (exfalso; omega)

theorem dmBnvirdTm_eq (n m : ℕ) (α : ℝ → ℝ → ℝ) (T : ℝ) :
    dmBnvirdTm n m α T =
      iteratedDeriv m (fun T' => iteratedDeriv (n - 1) (fun ρ => α T' ρ) 0
        / ((n - 2).factorial : ℝ)) T := by
  unfold dmBnvirdTm
  simp only [tgammaFactorial_eq]
  rw [iteratedDeriv_div_const, adLast_append, adLast_replicate]
  simp only [adLast_replicate]
  have h1 : ∀ t, Function.update ![T, (0 : ℝ)] 0 t = ![t, 0] := by
    intro t; funext k; fin_cases k <;> rfl
  have h2 : ∀ t r : ℝ, Function.update ![t, (0 : ℝ)] 1 r = ![t, r] := by
    intro t r; funext k; fin_cases k <;> rfl
  simp only [h1, h2]
  rfl

/-- C05. For a model analytic in density, the run-time temperature-derivative accessor accepts
exactly `n ∈ {2,3,4}`, `m ∈ {0,1,2,3}` and returns the `m`-th temperature derivative of the `n`-th
virial coefficient (`B` being the function of temperature giving that coefficient). -/
theorem dmBnvirdTm_runtime_total (α : ℝ → ℝ → ℝ) (T : ℝ)
    (h : ∀ T', AnalyticAt ℝ (fun ρ => α T' ρ) 0) (n m : Int)
    (B : ℝ → ℝ) (hB : 2 ≤ n → ∀ T', IsVirial (fun ρ => α T' ρ) n.toNat (B T')) :
    dmBnvirdTm_runtime n m α T =
      if 2 ≤ n ∧ n ≤ 4 ∧ 0 ≤ m ∧ m ≤ 3 then .ok (iteratedDeriv m.toNat B T)
      else .throws .stdInvalidArgument := by
  by_cases hn : 2 ≤ n ∧ n ≤ 4
  · have hB' : B = fun T' => iteratedDeriv (n.toNat - 1) (fun ρ => α T' ρ) 0
        / ((n.toNat - 2).factorial : ℝ) := by
      funext T'
      exact (isVirial_iff (h T') n.toNat (by omega) _).1 (hB hn.1 T')
    by_cases hm : 0 ≤ m ∧ m ≤ 3
    · rw [if_pos ⟨hn.1, hn.2, hm.1, hm.2⟩, hB']
      obtain ⟨h1, h2⟩ := hn
      obtain ⟨h3, h4⟩ := hm
      interval_cases n <;> interval_cases m <;>
        first
        | (simp only [dmBnvirdTm_runtime, BnvirAt, Bnvir_eq]; simp; done)
        | (simp only [dmBnvirdTm_runtime, dmBnvirdTm_eq]; rfl)
    · rw [if_neg (by tauto)]
      obtain ⟨h1, h2⟩ := hn
      interval_cases n <;> simp only [dmBnvirdTm_runtime] <;> simp <;>
        (split <;> first | rfl | (exfalso; omega))
  · rw [if_neg (by tauto)]
    unfold dmBnvirdTm_runtime
    rw [if_neg (by omega), if_neg (by omega), if_neg (by omega)]

/-- C06. If the second virial coefficient follows the exact quadratic composition law
`B = x₀² B₀₀ + 2 x₀ x₁ B₀₁ + x₁² B₁₁`, then the extracted cross coefficient is `B₀₁` for every
composition with `0 < x₀ < 1`. -/
theorem B12vir_exact (α : ℝ → ℝ → List ℝ → ℝ) (T B00 B01 B11 : ℝ)
    (hquad : ∀ y0 y1 : ℝ, B2vir (fun T ρ => α T ρ [y0, y1]) T =
      y0 ^ 2 * B00 + 2 * y0 * y1 * B01 + y1 ^ 2 * B11) (x0 : ℝ) (h0 : 0 < x0) (h1 : x0 < 1) :
    B12vir α T [x0, 1 - x0] = .ok B01 := by
  have hne : x0 ≠ 0 := h0.ne'
  have hne1 : 1 - x0 ≠ 0 := by linarith
  unfold B12vir
  simp only [hquad]
  rw [if_neg (by positivity)]
  congr 1
  field_simp
  ring

/-- C06, limit of the claim: a pure component has no cross coefficient; the formula divides zero by zero there, also when
the other mole fraction is arbitrary. -/
theorem B12vir_pure (α : ℝ → ℝ → List ℝ → ℝ) (T z1 : ℝ) :
    B12vir α T [0, z1] = .nonFinite ∧ B12vir α T [1, z1] = .nonFinite := by
  constructor <;> simp [B12vir]

example : B12vir (fun _ ρ _ => 3 * ρ) 300 [1, 0] = .nonFinite := (B12vir_pure _ _ _).2

/-- C06. Any mole fraction vector whose length is not two is refused. -/
theorem B12vir_refuses (α : ℝ → ℝ → List ℝ → ℝ) (T : ℝ) (z : List ℝ) (h : z.length ≠ 2) :
    B12vir α T z = .throws .stdInvalidArgument := by
  unfold B12vir
  split
  · simp at h
  · rfl

/-- C06, limit of the claim: the second mole fraction is never read by the formula (only through
the model), so the result is right only when the composition is normalised. Witness: a quadratic
law with `B₀₀ = B₁₁ = 0`, `B₀₁ = 1`, composition `(1/2, 1)`: the returned value is 2, not 1. -/
theorem B12vir_needs_normalised :
    ∃ α : ℝ → ℝ → List ℝ → ℝ, (∀ y0 y1 : ℝ, B2vir (fun T ρ => α T ρ [y0, y1]) 300 =
        y0 ^ 2 * 0 + 2 * y0 * y1 * 1 + y1 ^ 2 * 0) ∧
      B12vir α 300 [1 / 2, 1] = .ok 2 := by
  refine ⟨fun _ ρ z => match z with | [a, b] => (2 * a * b) * ρ | _ => 0, ?_, ?_⟩
  · intro y0 y1
    simp [B2vir]
  · simp only [B12vir, B2vir]
    rw [if_neg (by norm_num)]
    simp
    norm_num

/-- The van der Waals-like model `α = B(T) ρ + C ρ²` is analytic in density and has a non-trivial
virial series. -/
example (B C T : ℝ) : AnalyticAt ℝ (fun ρ : ℝ => (B / T) * ρ + C * ρ ^ 2) 0 :=
  (analyticAt_const.mul analyticAt_id).add (analyticAt_const.mul (analyticAt_id.pow 2))

example (B C T : ℝ) : Bnvir 3 (fun T ρ => (B / T) * ρ + C * ρ ^ 2) T 3 = some (2 * C) := by
  rw [Bnvir_eq]
  simp only [show (2 ≤ 3 ∧ 3 ≤ 3) by omega, and_self, if_true]
  norm_num
  rw [iteratedDeriv_succ', iteratedDeriv_one]
  have h1 : deriv (fun ρ : ℝ => B / T * ρ + C * ρ ^ 2) = fun ρ => B / T + 2 * C * ρ := by
    funext ρ
    have := ((hasDerivAt_id ρ).const_mul (B / T)).add ((hasDerivAt_pow 2 ρ).const_mul C)
    refine (HasDerivAt.deriv (this.congr_deriv ?_))
    norm_num; ring
  rw [h1]
  simp

/-- The quadratic law is satisfiable with different coefficients. -/
example : ∃ α : ℝ → ℝ → List ℝ → ℝ, ∀ y0 y1 : ℝ, B2vir (fun T ρ => α T ρ [y0, y1]) 300 =
    y0 ^ 2 * (-1) + 2 * y0 * y1 * (-3) + y1 ^ 2 * (-2) :=
  ⟨fun _ ρ z => match z with
    | [a, b] => (a ^ 2 * (-1) + 2 * a * b * (-3) + b ^ 2 * (-2)) * ρ | _ => 0, by
    intro y0 y1; simp [B2vir]⟩

end Teqp.Props
