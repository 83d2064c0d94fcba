import Verif.Props.Cubic
import Verif.Model.Lambda
import Verif.Lemmas.Powi
import Mathlib.Analysis.SpecialFunctions.Sqrt
import Mathlib.Analysis.Complex.ExponentialBounds
import Mathlib.Analysis.Calculus.IteratedDeriv.Lemmas

/-! # C170: caloric properties of cubic mixtures with Soave's alpha function -/

set_option autoImplicit false

namespace Teqp.Props
open Teqp Teqp.Model Teqp.Lemmas Finset
open scoped Topology

variable {ι : Type} [Fintype ι]

/-- A mixture whose alpha functions are those of Soave, at a temperature where none of them has passed its zero `T_c (1 + 1/m)²`. -/
structure SoaveAt (c : Cubic ι) (Tc mm : ι → ℝ) (T : ℝ) : Prop where
  alphas : ∀ i, c.alphas i = .basic (Tc i) (mm i)
  crit : ∀ i, 0 < Tc i
  ai : ∀ i, 0 ≤ c.ai i
  temp : 0 < T
  bracket : ∀ i, mm i * Real.sqrt (T / Tc i) < 1 + mm i

/-- A weighted double sum over the components, as in the mixing rule. -/
noncomputable def mixSum (c : Cubic ι) (x : ι → ℝ) (f : ι → ι → ℝ) : ℝ :=
  ∑ i, ∑ j, x i * x j * ((1 - c.kmat i j) * (Real.sqrt (c.ai i) * Real.sqrt (c.ai j))) * f i j

theorem soave_sqrt {c : Cubic ι} {Tc mm : ι → ℝ} {T : ℝ} (h : SoaveAt c Tc mm T) (i j : ι) :
    Real.sqrt (c.ai i * (c.alphas i).eval T * (c.ai j * (c.alphas j).eval T)) = Real.sqrt (c.ai i) * Real.sqrt (c.ai j) *
      ((1 + mm i - mm i / Real.sqrt (Tc i) * Real.sqrt T) * (1 + mm j - mm j / Real.sqrt (Tc j) * Real.sqrt T)) := by
  have key : ∀ i, (c.alphas i).eval T = (1 + mm i - mm i / Real.sqrt (Tc i) * Real.sqrt T) ^ 2 ∧
      0 ≤ 1 + mm i - mm i / Real.sqrt (Tc i) * Real.sqrt T := fun i => by
    have e : Real.sqrt (T / Tc i) = Real.sqrt T / Real.sqrt (Tc i) := Real.sqrt_div h.temp.le _
    have hb := h.bracket i
    rw [e] at hb
    constructor
    · rw [h.alphas i]
      simp only [AlphaFn.eval, e]
      ring
    · have : mm i / Real.sqrt (Tc i) * Real.sqrt T = mm i * (Real.sqrt T / Real.sqrt (Tc i)) := by ring
      linarith
  obtain ⟨e1, n1⟩ := key i
  obtain ⟨e2, n2⟩ := key j
  rw [e1, e2, Real.sqrt_mul (mul_nonneg (h.ai i) (sq_nonneg _)), Real.sqrt_mul (h.ai i), Real.sqrt_mul (h.ai j), Real.sqrt_sq n1, Real.sqrt_sq n2]
  ring

/-- `a(T)/T` as a function of the reciprocal temperature. -/
theorem soave_a {c : Cubic ι} {Tc mm : ι → ℝ} {t : ℝ} (ht : 0 < t) (h : SoaveAt c Tc mm (1 / t)) (x : ι → ℝ) :
    c.get_a (1 / t) x * t = mixSum c x (fun i j => (1 + mm i) * (1 + mm j)) * t
      - mixSum c x (fun i j => (1 + mm i) * (mm j / Real.sqrt (Tc j)) + (1 + mm j) * (mm i / Real.sqrt (Tc i))) * Real.sqrt t
      + mixSum c x (fun i j => mm i / Real.sqrt (Tc i) * (mm j / Real.sqrt (Tc j))) := by
  have hs : Real.sqrt (1 / t) * t = Real.sqrt t := by
    rw [Real.sqrt_div zero_le_one, Real.sqrt_one, div_mul_eq_mul_div, one_mul, Real.div_sqrt]
  have hs2 : Real.sqrt (1 / t) * Real.sqrt (1 / t) * t = 1 := by
    rw [Real.mul_self_sqrt (by positivity)]; field_simp
  unfold Cubic.get_a mixSum
  simp only [sum_mul, ← sum_sub_distrib, ← sum_add_distrib]
  refine sum_congr rfl fun i _ => sum_congr rfl fun j _ => ?_
  rw [soave_sqrt h]
  generalize Real.sqrt (c.ai i) = A
  generalize Real.sqrt (c.ai j) = B
  generalize mm i / Real.sqrt (Tc i) = ni
  generalize mm j / Real.sqrt (Tc j) = nj
  generalize Real.sqrt (1 / t) = s at *
  rw [← hs]
  linear_combination (x i * x j * ((1 - c.kmat i j) * (A * B)) * (ni * nj)) * hs2

/-- The function `Ψ⁺` of the cubic equations. -/
noncomputable def psiPlus (D1 D2 b ρ : ℝ) : ℝ := Real.log ((D1 * b * ρ + 1) / (D2 * b * ρ + 1)) / (b * (D1 - D2))

theorem soave_nearby {c : Cubic ι} {Tc mm : ι → ℝ} {T : ℝ} (h : SoaveAt c Tc mm T) : ∀ᶠ t in 𝓝 (1 / T), 0 < t ∧ SoaveAt c Tc mm (1 / t) := by
  have hT := h.temp
  have h0 : 0 < 1 / T := by positivity
  have hb : ∀ᶠ t in 𝓝 (1 / T), ∀ i, mm i * Real.sqrt (1 / t / Tc i) < 1 + mm i := by
    rw [Filter.eventually_all]
    intro i
    have hc : ContinuousAt (fun t : ℝ => mm i * Real.sqrt (1 / t / Tc i)) (1 / T) :=
      ContinuousAt.mul continuousAt_const (ContinuousAt.sqrt (ContinuousAt.div_const (ContinuousAt.div continuousAt_const continuousAt_id h0.ne') _))
    refine hc.eventually_lt continuousAt_const ?_
    rw [one_div_one_div]
    exact h.bracket i
  filter_upwards [hb, lt_mem_nhds h0] with t h1 h2
  exact ⟨h2, ⟨h.alphas, h.crit, h.ai, by positivity, h1⟩⟩

variable {c : Cubic ι} {Tc mm : ι → ℝ} {T ρ : ℝ} {x : ι → ℝ}

/-- Where `a(T)/T` is a polynomial of the root of the reciprocal temperature, so is the Helmholtz energy. -/
theorem quad_alphar {P Q S : ℝ} (h : ∀ᶠ t in 𝓝 (1 / T), 0 < t ∧ c.get_a (1 / t) x * t = P * t - Q * Real.sqrt t + S) :
    (fun t => c.alphar (1 / t) ρ x) =ᶠ[𝓝 (1 / T)] fun t =>
    -Real.log (1 - c.get_b x * ρ) - psiPlus c.Delta1 c.Delta2 (c.get_b x) ρ / c.R * (P * t - Q * Real.sqrt t + S) := by
  filter_upwards [h] with t ht
  rw [← ht.2]
  unfold Cubic.alphar cubicAlphar psiPlus
  have : t ≠ 0 := ht.1.ne'
  rw [show c.get_a (1 / t) x / (c.R * (1 / t)) = c.get_a (1 / t) x * t / c.R by rw [mul_one_div, div_div_eq_mul_div]]
  ring

theorem soave_quad (h : SoaveAt c Tc mm T) (x : ι → ℝ) : ∀ᶠ t in 𝓝 (1 / T), 0 < t ∧ c.get_a (1 / t) x * t = mixSum c x (fun i j => (1 + mm i) * (1 + mm j)) * t
      - mixSum c x (fun i j => (1 + mm i) * (mm j / Real.sqrt (Tc j)) + (1 + mm j) * (mm i / Real.sqrt (Tc i))) * Real.sqrt t
      + mixSum c x (fun i j => mm i / Real.sqrt (Tc i) * (mm j / Real.sqrt (Tc j))) := by
  filter_upwards [soave_nearby h] with t ht
  exact ⟨ht.1, soave_a ht.1 ht.2 x⟩

theorem hasDerivAt_soave (L K P Q S : ℝ) {t : ℝ} (ht : 0 < t) :
    HasDerivAt (fun t => L - K * (P * t - Q * Real.sqrt t + S)) (-(K * (P - Q * (1 / (2 * Real.sqrt t))))) t := by
  have h1 := ((((hasDerivAt_id t).const_mul P).sub ((Real.hasDerivAt_sqrt ht.ne').const_mul Q)).add_const S).const_mul K
  have := h1.const_sub L
  simpa using this

theorem quad_Ar10 (hT : 0 < T) {P Q S : ℝ} (h : ∀ᶠ t in 𝓝 (1 / T), 0 < t ∧ c.get_a (1 / t) x * t = P * t - Q * Real.sqrt t + S) :
    Agenxy (fun T ρ => c.alphar T ρ x) 1 0 T ρ = -(psiPlus c.Delta1 c.Delta2 (c.get_b x) ρ / (c.R * T) * (P - Q * (Real.sqrt T / 2))) := by
  unfold Agenxy
  simp only [one_ne_zero, false_and, if_false, if_true, powiNat_eq, iteratedDeriv_one]
  rw [(quad_alphar h).deriv_eq, (hasDerivAt_soave _ _ _ _ _ (by positivity)).deriv, Real.sqrt_div zero_le_one, Real.sqrt_one]
  have : 1 / (2 * (1 / Real.sqrt T)) = Real.sqrt T / 2 := by
    rw [mul_one_div, one_div_div]
  rw [this]
  ring

theorem quad_Ar20 (hT : 0 < T) {P Q S : ℝ} (h : ∀ᶠ t in 𝓝 (1 / T), 0 < t ∧ c.get_a (1 / t) x * t = P * t - Q * Real.sqrt t + S) :
    Agenxy (fun T ρ => c.alphar T ρ x) 2 0 T ρ = -(psiPlus c.Delta1 c.Delta2 (c.get_b x) ρ / (4 * c.R * Real.sqrt T) * Q) := by
  have h0 : 0 < 1 / T := by positivity
  unfold Agenxy
  simp only [OfNat.ofNat_ne_zero, false_and, if_false, if_true, powiNat_eq]
  rw [iteratedDeriv_succ, iteratedDeriv_one]
  have hd := (quad_alphar (ρ := ρ) h).deriv
  rw [hd.deriv_eq]
  generalize psiPlus c.Delta1 c.Delta2 (c.get_b x) ρ = Y
  have he : (deriv fun t => -Real.log (1 - c.get_b x * ρ) - Y / c.R * (P * t - Q * Real.sqrt t + S))
      =ᶠ[𝓝 (1 / T)] fun t => -(Y / c.R * (P - Q * (1 / (2 * Real.sqrt t)))) := by
    filter_upwards [lt_mem_nhds h0] with t ht
    exact (hasDerivAt_soave _ _ _ _ _ ht).deriv
  rw [he.deriv_eq]
  have hs : 0 < Real.sqrt (1 / T) := Real.sqrt_pos.2 h0
  have h1 : HasDerivAt (fun t : ℝ => (2 * Real.sqrt t)⁻¹) (-(2 * (1 / (2 * Real.sqrt (1 / T)))) / (2 * Real.sqrt (1 / T)) ^ 2) (1 / T) :=
    ((Real.hasDerivAt_sqrt h0.ne').const_mul 2).inv (by positivity)
  have h2 : HasDerivAt (fun t : ℝ => -(Y / c.R * (P - Q * (2 * Real.sqrt t)⁻¹))) _ (1 / T) := (((h1.const_mul Q).const_sub P).const_mul (Y / c.R)).neg
  simp only [one_div] at h2 ⊢
  rw [h2.deriv]
  simp only [← one_div]
  have hq : Real.sqrt (1 / T) = 1 / Real.sqrt T := by rw [Real.sqrt_div zero_le_one, Real.sqrt_one]
  have hsT : 0 < Real.sqrt T := Real.sqrt_pos.2 hT
  have hTT : T = Real.sqrt T ^ 2 := (Real.sq_sqrt hT.le).symm
  rw [hq]
  generalize Real.sqrt T = s at *
  subst hTT
  by_cases hR : c.R = 0
  · simp [hR]
  · field_simp
    ring

theorem quad_entropy (hT : 0 < T) (hR : c.R ≠ 0) {P Q S : ℝ} (h : ∀ᶠ t in 𝓝 (1 / T), 0 < t ∧ c.get_a (1 / t) x * t = P * t - Q * Real.sqrt t + S) :
    Agenxy (fun T ρ => c.alphar T ρ x) 1 0 T ρ - Agenxy (fun T ρ => c.alphar T ρ x) 0 0 T ρ =
      Real.log (1 - c.get_b x * ρ) - psiPlus c.Delta1 c.Delta2 (c.get_b x) ρ / (c.R * (2 * Real.sqrt T)) * (Q - S * (2 * Real.sqrt T)) := by
  have e := (quad_alphar (ρ := ρ) h).self_of_nhds
  simp only [one_div_one_div] at e
  rw [quad_Ar10 hT h]
  have e0 : Agenxy (fun T ρ => c.alphar T ρ x) 0 0 T ρ = c.alphar T ρ x := rfl
  rw [e0, e]
  have hs : Real.sqrt (1 / T) = 1 / Real.sqrt T := by rw [Real.sqrt_div zero_le_one, Real.sqrt_one]
  have hsT : 0 < Real.sqrt T := Real.sqrt_pos.2 hT
  have hTT : Real.sqrt T ^ 2 = T := Real.sq_sqrt hT.le
  rw [hs]
  generalize psiPlus c.Delta1 c.Delta2 (c.get_b x) ρ = Y
  generalize Real.sqrt T = s at *
  subst hTT
  field_simp
  ring

/-- C170. `get_Ar10` in closed form. -/
theorem soave_Ar10 (h : SoaveAt c Tc mm T) : Agenxy (fun T ρ => c.alphar T ρ x) 1 0 T ρ = -(psiPlus c.Delta1 c.Delta2 (c.get_b x) ρ / (c.R * T) *
    (mixSum c x (fun i j => (1 + mm i) * (1 + mm j))
      - mixSum c x (fun i j => (1 + mm i) * (mm j / Real.sqrt (Tc j)) + (1 + mm j) * (mm i / Real.sqrt (Tc i))) * (Real.sqrt T / 2))) :=
  quad_Ar10 h.temp (soave_quad h x)

/-- C170. `get_Ar20` in closed form. -/
theorem soave_Ar20 (h : SoaveAt c Tc mm T) : Agenxy (fun T ρ => c.alphar T ρ x) 2 0 T ρ = -(psiPlus c.Delta1 c.Delta2 (c.get_b x) ρ / (4 * c.R * Real.sqrt T) *
    mixSum c x (fun i j => (1 + mm i) * (mm j / Real.sqrt (Tc j)) + (1 + mm j) * (mm i / Real.sqrt (Tc i)))) :=
  quad_Ar20 h.temp (soave_quad h x)

/-! ## Signs -/

theorem psiPlus_pos {D1 D2 b ρ : ℝ} (hb : 0 < b) (hρ : 0 < ρ) (h : b * ρ < 1) (hD : D1 ≠ D2) (hD1 : -1 < D1) (hD2 : -1 < D2) : 0 < psiPlus D1 D2 b ρ := by
  have hbr : 0 < b * ρ := mul_pos hb hρ
  have k1 : 0 < D1 * b * ρ + 1 := by nlinarith
  have k2 : 0 < D2 * b * ρ + 1 := by nlinarith
  unfold psiPlus
  rcases lt_or_gt_of_ne hD with hlt | hgt
  · refine div_pos_of_neg_of_neg (Real.log_neg (div_pos k1 k2) ?_) (by nlinarith)
    rw [div_lt_one k2]; nlinarith
  · refine div_pos (Real.log_pos ?_) (by nlinarith)
    rw [lt_div_iff₀ k2]; nlinarith

/-- A state of a mixture with Soave's alpha functions with `m ≥ 0`. -/
structure SoaveState (c : Cubic ι) (Tc mm x : ι → ℝ) (T ρ : ℝ) : Prop where
  soave : SoaveAt c Tc mm T
  m : ∀ i, 0 ≤ mm i
  k : ∀ i j, c.kmat i j ≤ 1
  frac : ∀ i, 0 ≤ x i
  R : 0 < c.R
  b : 0 < c.get_b x
  dens : 0 < ρ
  dense : c.get_b x * ρ < 1
  D : c.Delta1 ≠ c.Delta2
  D1 : -1 < c.Delta1
  D2 : -1 < c.Delta2

theorem mixSum_nonneg (hx : ∀ i, 0 ≤ x i) (hk : ∀ i j, c.kmat i j ≤ 1) (f : ι → ι → ℝ) (hf : ∀ i j, 0 ≤ f i j) : 0 ≤ mixSum c x f :=
  sum_nonneg fun i _ => sum_nonneg fun j _ => mul_nonneg (mul_nonneg (mul_nonneg (hx i) (hx j)) (mul_nonneg (sub_nonneg.2 (hk i j))
    (mul_nonneg (Real.sqrt_nonneg _) (Real.sqrt_nonneg _)))) (hf i j)

theorem mixSum_lin (f g : ι → ι → ℝ) (s : ℝ) : mixSum c x f - mixSum c x g * s = mixSum c x fun i j => f i j - g i j * s := by
  unfold mixSum
  simp only [sum_mul, ← sum_sub_distrib]
  exact sum_congr rfl fun i _ => sum_congr rfl fun j _ => by ring

theorem SoaveState.n (h : SoaveState c Tc mm x T ρ) (i : ι) : 0 ≤ mm i / Real.sqrt (Tc i) * Real.sqrt T ∧ mm i / Real.sqrt (Tc i) * Real.sqrt T ≤ 1 + mm i := by
  have hb := h.soave.bracket i
  rw [Real.sqrt_div h.soave.temp.le] at hb
  refine ⟨mul_nonneg (div_nonneg (h.m i) (Real.sqrt_nonneg _)) (Real.sqrt_nonneg _), ?_⟩
  have : mm i / Real.sqrt (Tc i) * Real.sqrt T = mm i * (Real.sqrt T / Real.sqrt (Tc i)) := by ring
  linarith

/-- C170. **The residual isochoric heat capacity `-R Ar20` is not negative.** -/
theorem soave_cv (h : SoaveState c Tc mm x T ρ) : Agenxy (fun T ρ => c.alphar T ρ x) 2 0 T ρ ≤ 0 := by
  rw [soave_Ar20 h.soave, neg_nonpos]
  have hR := h.R
  refine mul_nonneg (div_nonneg (psiPlus_pos h.b h.dens h.dense h.D h.D1 h.D2).le (by positivity)) (mixSum_nonneg h.frac h.k _ fun i j => ?_)
  have := h.m i; have := h.m j
  positivity

/-- C170. **The residual internal energy `R T Ar10` is not positive.** -/
theorem soave_energy (h : SoaveState c Tc mm x T ρ) : Agenxy (fun T ρ => c.alphar T ρ x) 1 0 T ρ ≤ 0 := by
  rw [soave_Ar10 h.soave, neg_nonpos, mixSum_lin]
  have hR := h.R
  have hT := h.soave.temp
  refine mul_nonneg (div_nonneg (psiPlus_pos h.b h.dens h.dense h.D h.D1 h.D2).le (by positivity)) (mixSum_nonneg h.frac h.k _ fun i j => ?_)
  obtain ⟨i1, i2⟩ := h.n i
  obtain ⟨j1, j2⟩ := h.n j
  have := h.m i; have := h.m j
  nlinarith

/-- C170. **The residual entropy `R (Ar10 - Ar00)` is negative.** -/
theorem soave_entropy (h : SoaveState c Tc mm x T ρ) :
    Agenxy (fun T ρ => c.alphar T ρ x) 1 0 T ρ - Agenxy (fun T ρ => c.alphar T ρ x) 0 0 T ρ < 0 := by
  have hR := h.R
  have hT := h.soave.temp
  have hY := psiPlus_pos h.b h.dens h.dense h.D h.D1 h.D2
  rw [quad_entropy hT hR.ne' (soave_quad h.soave x)]
  have hl : Real.log (1 - c.get_b x * ρ) < 0 := Real.log_neg (by linarith [h.dense]) (by linarith [mul_pos h.b h.dens])
  have hsT : 0 < Real.sqrt T := Real.sqrt_pos.2 hT
  rw [mixSum_lin]
  have hn : 0 ≤ mixSum c x (fun i j => (1 + mm i) * (mm j / Real.sqrt (Tc j)) + (1 + mm j) * (mm i / Real.sqrt (Tc i))
      - mm i / Real.sqrt (Tc i) * (mm j / Real.sqrt (Tc j)) * (2 * Real.sqrt T)) := by
    refine mixSum_nonneg h.frac h.k _ fun i j => ?_
    obtain ⟨i1, i2⟩ := h.n i
    obtain ⟨j1, j2⟩ := h.n j
    have a1 : 0 ≤ mm i / Real.sqrt (Tc i) := div_nonneg (h.m i) (Real.sqrt_nonneg _)
    have a2 : 0 ≤ mm j / Real.sqrt (Tc j) := div_nonneg (h.m j) (Real.sqrt_nonneg _)
    nlinarith
  have : 0 ≤ psiPlus c.Delta1 c.Delta2 (c.get_b x) ρ / (c.R * (2 * Real.sqrt T)) * mixSum c x (fun i j => (1 + mm i) * (mm j / Real.sqrt (Tc j)) + (1 + mm j) * (mm i / Real.sqrt (Tc i))
      - mm i / Real.sqrt (Tc i) * (mm j / Real.sqrt (Tc j)) * (2 * Real.sqrt T)) := mul_nonneg (by positivity) hn
  linarith

/-- A binary mixture. -/
noncomputable def demoSoave : Cubic (Fin 2) := Cubic.build 1 0 0.42748 0.08664 ![190, 305] ![4600000, 4870000]
  (fun i => .basic (![190, 305] i) (![0.5, 0.6] i)) (fun i j => if i = j then 0 else 0.01) 8.314

theorem demoSoave_state : SoaveState demoSoave ![190, 305] ![0.5, 0.6] ![0.4, 0.6] 300 1000 where
  soave :=
    { alphas := fun _ => rfl
      crit := fun i => by fin_cases i <;> norm_num
      ai := fun i => by fin_cases i <;> norm_num [demoSoave, Cubic.build]
      temp := by norm_num
      bracket := fun i => by
        have h : ∀ y : ℝ, 0 ≤ y → y < 4 → Real.sqrt y < 2 := fun y h0 hy => (Real.sqrt_lt' (by norm_num)).2 (by linarith)
        fin_cases i
        · have := h (300 / 190) (by norm_num) (by norm_num)
          change (0.5 : ℝ) * Real.sqrt (300 / 190) < 1 + 0.5
          linarith
        · have := h (300 / 305) (by norm_num) (by norm_num)
          change (0.6 : ℝ) * Real.sqrt (300 / 305) < 1 + 0.6
          linarith }
  m := fun i => by fin_cases i <;> norm_num
  k := fun i j => by
    change (if i = j then (0 : ℝ) else 0.01) ≤ 1
    split_ifs <;> norm_num
  frac := fun i => by fin_cases i <;> norm_num
  R := by norm_num [demoSoave, Cubic.build]
  b := by norm_num [demoSoave, Cubic.build, Cubic.get_b, Fin.sum_univ_two]
  dens := by norm_num
  dense := by norm_num [demoSoave, Cubic.build, Cubic.get_b, Fin.sum_univ_two]
  D := by norm_num [demoSoave, Cubic.build]
  D1 := by norm_num [demoSoave, Cubic.build]
  D2 := by norm_num [demoSoave, Cubic.build]

example : Agenxy (fun T ρ => demoSoave.alphar T ρ ![0.4, 0.6]) 2 0 300 1000 ≤ 0 ∧ Agenxy (fun T ρ => demoSoave.alphar T ρ ![0.4, 0.6]) 1 0 300 1000 ≤ 0 ∧
    Agenxy (fun T ρ => demoSoave.alphar T ρ ![0.4, 0.6]) 1 0 300 1000 - Agenxy (fun T ρ => demoSoave.alphar T ρ ![0.4, 0.6]) 0 0 300 1000 < 0 :=
  ⟨soave_cv demoSoave_state, soave_energy demoSoave_state, soave_entropy demoSoave_state⟩

/-! ## Pure fluids, where the zero of the alpha function does no harm to the heat capacity -/

/-- A pure fluid with Soave's alpha function. -/
noncomputable def soavePure (D1 D2 OA OB Tc pc m R : ℝ) : Cubic (Fin 1) :=
  Cubic.build D1 D2 OA OB (fun _ => Tc) (fun _ => pc) (fun _ => .basic Tc m) (fun _ _ => 0) R

theorem soavePure_quad {D1 D2 OA OB Tc pc m R T : ℝ} (hO : 0 ≤ OA) (hpc : 0 < pc) (hTc : 0 < Tc) (hT : 0 < T) :
    ∀ᶠ t in 𝓝 (1 / T), 0 < t ∧ (soavePure D1 D2 OA OB Tc pc m R).get_a (1 / t) (Pi.single 0 1) * t =
      OA * (R * Tc) ^ 2 / pc * (1 + m) ^ 2 * t - OA * (R * Tc) ^ 2 / pc * (2 * (1 + m) * (m / Real.sqrt Tc)) * Real.sqrt t
        + OA * (R * Tc) ^ 2 / pc * (m / Real.sqrt Tc) ^ 2 := by
  filter_upwards [lt_mem_nhds (show 0 < 1 / T by positivity)] with t ht
  refine ⟨ht, ?_⟩
  unfold soavePure
  rw [cubic_pure_a (fun _ => Tc) (fun _ => pc) D1 D2 OA OB R (fun _ => .basic Tc m) (fun _ _ => 0) 0 (1 / t) hO hpc (by positivity) hTc.le rfl]
  have hs : Real.sqrt (1 / t) * t = Real.sqrt t := by
    rw [Real.sqrt_div zero_le_one, Real.sqrt_one, div_mul_eq_mul_div, one_mul, Real.div_sqrt]
  have hs2 : Real.sqrt (1 / t) * Real.sqrt (1 / t) * t = 1 := by
    rw [Real.mul_self_sqrt (by positivity)]; field_simp
  simp only [AlphaFn.eval]
  rw [Real.sqrt_div (by positivity)]
  generalize OA * (R * Tc) ^ 2 / pc = A
  have e : ∀ s, (1 + m * (1 - s / Real.sqrt Tc)) = 1 + m - m / Real.sqrt Tc * s := fun s => by ring
  rw [e]
  generalize m / Real.sqrt Tc = n
  generalize Real.sqrt (1 / t) = s at *
  rw [← hs]
  linear_combination (A * n ^ 2) * hs2

/-- C170. A pure fluid with `m ≥ 0`: the residual isochoric heat capacity is not negative at any temperature. -/
theorem soavePure_cv {D1 D2 OA OB Tc pc m R T ρ : ℝ} (hO : 0 ≤ OA) (hOB : 0 < OB) (hpc : 0 < pc) (hTc : 0 < Tc) (hT : 0 < T) (hm : 0 ≤ m) (hR : 0 < R)
    (hρ : 0 < ρ) (hd : OB * R * Tc / pc * ρ < 1) (hD : D1 ≠ D2) (hD1 : -1 < D1) (hD2 : -1 < D2) :
    Agenxy (fun T ρ => (soavePure D1 D2 OA OB Tc pc m R).alphar T ρ (Pi.single 0 1)) 2 0 T ρ ≤ 0 := by
  rw [quad_Ar20 hT (soavePure_quad hO hpc hTc hT), neg_nonpos]
  have hb : (soavePure D1 D2 OA OB Tc pc m R).get_b (Pi.single 0 1) = OB * R * Tc / pc := by simp [soavePure, Cubic.build, Cubic.get_b]
  rw [hb]
  have := psiPlus_pos (b := OB * R * Tc / pc) (by positivity) hρ hd hD hD1 hD2
  change 0 ≤ psiPlus D1 D2 (OB * R * Tc / pc) ρ / (4 * R * Real.sqrt T) * _
  positivity

/-- A fluid at 100 times its critical temperature. -/
example : Agenxy (fun T ρ => (soavePure 1 0 0.42748 0.08664 190 4600000 0.5 8.314).alphar T ρ (Pi.single 0 1)) 2 0 19000 1000 ≤ 0 :=
  soavePure_cv (by norm_num) (by norm_num) (by norm_num) (by norm_num) (by norm_num) (by norm_num) (by norm_num) (by norm_num) (by norm_num) (by norm_num)
    (by norm_num) (by norm_num)

/-! ## Where the claims end -/

theorem mPR_helium : mPR (-0.385) < -0.25 ∧ -0.26 < mPR (-0.385) := by
  unfold mPR
  rw [if_pos (by norm_num)]
  constructor <;> norm_num

/-- C170 is false for fluids with a negative `m`: helium in the Peng-Robinson equation has a negative residual heat capacity in every state. -/
theorem helium_cv {T ρ : ℝ} (hT : 0 < T) (hρ : 0 < ρ) (hd : OmegaB_PR * 8.314 * 5.1953 / 227600 * ρ < 1) :
    0 < Agenxy (fun T ρ => (soavePure (1 + Real.sqrt 2) (1 - Real.sqrt 2) OmegaA_PR OmegaB_PR 5.1953 227600 (mPR (-0.385)) 8.314).alphar T ρ (Pi.single 0 1)) 2 0 T ρ := by
  rw [quad_Ar20 hT (soavePure_quad (by norm_num [OmegaA_PR]) (by norm_num) (by norm_num) hT)]
  have hb : (soavePure (1 + Real.sqrt 2) (1 - Real.sqrt 2) OmegaA_PR OmegaB_PR 5.1953 227600 (mPR (-0.385)) 8.314).get_b (Pi.single 0 1)
      = OmegaB_PR * 8.314 * 5.1953 / 227600 := by simp [soavePure, Cubic.build, Cubic.get_b]
  rw [hb]
  have h2 : 1 < Real.sqrt 2 := Real.lt_sqrt_of_sq_lt (by norm_num)
  have h3 : Real.sqrt 2 < 2 := (Real.sqrt_lt' (by norm_num)).2 (by norm_num)
  have hY := psiPlus_pos (D1 := 1 + Real.sqrt 2) (D2 := 1 - Real.sqrt 2) (b := OmegaB_PR * 8.314 * 5.1953 / 227600) (by norm_num [OmegaB_PR]) hρ hd
    (by linarith) (by linarith) (by linarith)
  change 0 < -(psiPlus (1 + Real.sqrt 2) (1 - Real.sqrt 2) (OmegaB_PR * 8.314 * 5.1953 / 227600) ρ / (4 * 8.314 * Real.sqrt T) * _)
  obtain ⟨m1, m2⟩ := mPR_helium
  have hA : (0 : ℝ) < OmegaA_PR * (8.314 * 5.1953) ^ 2 / 227600 := by norm_num [OmegaA_PR]
  have hsc : 0 < Real.sqrt 5.1953 := Real.sqrt_pos.2 (by norm_num)
  have hn : mPR (-0.385) / Real.sqrt 5.1953 < 0 := div_neg_of_neg_of_pos (by linarith) hsc
  rw [neg_pos]
  refine mul_neg_of_pos_of_neg (by positivity) (mul_neg_of_pos_of_neg hA (mul_neg_of_pos_of_neg ?_ hn))
  linarith

example : 0 < Agenxy (fun T ρ => (soavePure (1 + Real.sqrt 2) (1 - Real.sqrt 2) OmegaA_PR OmegaB_PR 5.1953 227600 (mPR (-0.385)) 8.314).alphar T ρ (Pi.single 0 1)) 2 0 300 100 :=
  helium_cv (by norm_num) (by norm_num) (by norm_num [OmegaB_PR])

/-- Above the zero of the alpha function the attraction grows with temperature, and the residual entropy may become positive: the fluid with the constants of water
in the equation of Soave at 16 times the critical temperature and half of the densest packing. -/
theorem water_entropy : ∃ ρ, 0 < ρ ∧ OmegaB_SRK * 8.314 * 647.1 / 22064000 * ρ < 1 ∧
    let α := fun T ρ => (soavePure 1 0 OmegaA_SRK OmegaB_SRK 647.1 22064000 (mSRK 0.344) 8.314).alphar T ρ (Pi.single 0 1)
    0 < Agenxy α 1 0 (16 * 647.1) ρ - Agenxy α 0 0 (16 * 647.1) ρ := by
  obtain ⟨q, hq⟩ : ∃ q : ℝ, q = (2 : ℝ) ^ (1 / 3 : ℝ) - 1 := ⟨_, rfl⟩
  have h3 : ((2 : ℝ) ^ (1 / 3 : ℝ)) ^ 3 = 2 := by rw [← Real.rpow_natCast, ← Real.rpow_mul (by norm_num)]; norm_num
  have q1 : 0 < q := by
    have : 1 < (2 : ℝ) ^ (1 / 3 : ℝ) := Real.one_lt_rpow (by norm_num) (by norm_num)
    rw [hq]; linarith
  have q2 : q < 0.26 := by
    have : (2 : ℝ) ^ (1 / 3 : ℝ) < 1.26 := lt_of_pow_lt_pow_left₀ 3 (by norm_num) (by rw [h3]; norm_num)
    rw [hq]; linarith
  have eA : OmegaA_SRK = 1 / (9 * q) := by rw [hq]; rfl
  have eB : OmegaB_SRK = q / 3 := by rw [hq]; rfl
  obtain ⟨b, hb⟩ : ∃ b, b = OmegaB_SRK * 8.314 * 647.1 / 22064000 := ⟨_, rfl⟩
  have b0 : 0 < b := by rw [hb, eB]; positivity
  refine ⟨1 / 2 / b, by positivity, ?_, ?_⟩
  · rw [← hb, mul_div_cancel₀ _ b0.ne']; norm_num
  intro α
  have hbb : (soavePure 1 0 OmegaA_SRK OmegaB_SRK 647.1 22064000 (mSRK 0.344) 8.314).get_b (Pi.single 0 1) = b := by
    rw [hb]; simp [soavePure, Cubic.build, Cubic.get_b]
  rw [quad_entropy (c := soavePure 1 0 OmegaA_SRK OmegaB_SRK 647.1 22064000 (mSRK 0.344) 8.314) (x := Pi.single 0 1) (by norm_num)
    (by change (8.314 : ℝ) ≠ 0; norm_num) (soavePure_quad (by rw [eA]; positivity) (by norm_num) (by norm_num) (by norm_num)), hbb]
  change 0 < Real.log (1 - b * (1 / 2 / b)) - psiPlus 1 0 b (1 / 2 / b) / (8.314 * (2 * Real.sqrt (16 * 647.1))) * _
  have e1 : b * (1 / 2 / b) = 1 / 2 := mul_div_cancel₀ _ b0.ne'
  have eY : psiPlus 1 0 b (1 / 2 / b) = Real.log (3 / 2) / b := by
    unfold psiPlus
    rw [one_mul, e1]
    norm_num
  have hl2 : -0.6931471808 < Real.log (1 - 1 / 2) := by
    have : Real.log (1 - 1 / 2) = -Real.log 2 := by rw [← Real.log_inv]; norm_num
    rw [this]; linarith [Real.log_two_lt_d9]
  have hl3 : 1 / 3 ≤ Real.log (3 / 2) := by
    have := Real.one_sub_inv_le_log_of_pos (show (0 : ℝ) < 3 / 2 by norm_num)
    norm_num at this ⊢
    linarith
  rw [e1, eY]
  have hr : Real.sqrt (16 * 647.1) = 4 * Real.sqrt 647.1 := by
    rw [Real.sqrt_mul (by norm_num), show (16 : ℝ) = 4 ^ 2 by norm_num, Real.sqrt_sq (by norm_num)]
  rw [hr]
  have hs0 : 0 < Real.sqrt 647.1 := Real.sqrt_pos.2 (by norm_num)
  have hs2 : Real.sqrt 647.1 ^ 2 = 647.1 := Real.sq_sqrt (by norm_num)
  obtain ⟨m, hm⟩ : ∃ m, m = mSRK 0.344 := ⟨_, rfl⟩
  have m1 : 1 < m := by rw [hm]; unfold mSRK; norm_num
  rw [← hm]
  have key : Real.log (3 / 2) / b / (8.314 * (2 * (4 * Real.sqrt 647.1))) *
      (OmegaA_SRK * (8.314 * 647.1) ^ 2 / 22064000 * (2 * (1 + m) * (m / Real.sqrt 647.1)) -
        OmegaA_SRK * (8.314 * 647.1) ^ 2 / 22064000 * (m / Real.sqrt 647.1) ^ 2 * (2 * (4 * Real.sqrt 647.1)))
      = -(Real.log (3 / 2) * (1 / (3 * q ^ 2)) * (m ^ 2 - m * (1 + m) / 4)) := by
    rw [hb, eA, eB]
    generalize Real.sqrt 647.1 = s at *
    generalize Real.log (3 / 2) = L
    have : (647.1 : ℝ) = s ^ 2 := hs2.symm
    rw [this]
    field_simp
    ring
  rw [key]
  have h4 : 4.9 < 1 / (3 * q ^ 2) := by
    rw [lt_div_iff₀ (by positivity)]
    nlinarith
  have h5 : 1 / 2 < m ^ 2 - m * (1 + m) / 4 := by nlinarith
  have h6 : 1 / 3 * 4.9 * (1 / 2) ≤ Real.log (3 / 2) * (1 / (3 * q ^ 2)) * (m ^ 2 - m * (1 + m) / 4) := by
    refine mul_le_mul (mul_le_mul hl3 h4.le (by norm_num) (by linarith)) h5.le (by norm_num) (mul_nonneg (by linarith) (by positivity))
  norm_num at h6 hl2 ⊢
  linarith

end Teqp.Props
