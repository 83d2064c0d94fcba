import Verif.Props.LowDensity
import Verif.Props.Residual
import Verif.Props.MultiFluid
import Verif.Props.MultiFluidExt
import Verif.Props.ExtInput

/-! # Multi-fluid models are ideal gases at low density (C165) -/

set_option autoImplicit false

namespace Teqp.Props
open Teqp.Model Teqp.Spec Filter Topology Finset

theorem Ici_diff : Set.Ici (0 : ℝ) \ {0} = Set.Ioi 0 := by ext r; simp [lt_iff_le_and_ne, eq_comm]

/-- A positive whole power of the density times a function that is continuous from above at zero density. -/
theorem power_slope (c g0 : ℝ) (k : ℕ) (hk : 1 ≤ k) (g : ℝ → ℝ) (hg : Tendsto g (𝓝[>] 0) (𝓝 g0)) :
    HasDerivWithinAt (fun δ : ℝ => c * δ ^ (k : ℝ) * g δ) (c * firstOrder k g0) (Set.Ici 0) 0 := by
  rw [hasDerivWithinAt_iff_tendsto_slope, Ici_diff]
  have hk0 : k ≠ 0 := by omega
  have hp : Tendsto (fun δ : ℝ => δ ^ (k - 1)) (𝓝[>] 0) (𝓝 (if k = 1 then 1 else 0)) := by
    have : Tendsto (fun δ : ℝ => δ ^ (k - 1)) (𝓝 0) (𝓝 ((0 : ℝ) ^ (k - 1))) := (continuous_pow (k - 1)).tendsto 0
    refine (this.mono_left nhdsWithin_le_nhds).trans_eq ?_
    split_ifs with h
    · simp [h]
    · rw [zero_pow (by omega)]
  have := (hp.const_mul c).mul hg
  refine (this.congr' ?_).trans_eq ?_
  · filter_upwards [self_mem_nhdsWithin] with δ hδ
    have h0 : δ ≠ 0 := ne_of_gt hδ
    simp only [slope, vsub_eq_sub, sub_zero, smul_eq_mul, Real.rpow_natCast, zero_pow hk0, mul_zero, zero_mul]
    obtain ⟨j, rfl⟩ : ∃ j, k = j + 1 := ⟨k - 1, by omega⟩
    rw [Nat.add_sub_cancel, pow_succ]
    field_simp
  · congr 1
    unfold firstOrder
    by_cases h : k = 1 <;> simp [h]

theorem damped_tendsto (c : ℝ) (l : ℤ) (hl : 0 ≤ l) : Tendsto (fun δ : ℝ => Real.exp (-(c * δ ^ (l : ℝ)))) (𝓝[>] 0) (𝓝 (damped c l)) := by
  have h : ContinuousAt (fun δ : ℝ => Real.exp (-(c * δ ^ (l : ℝ)))) 0 := by
    have : ContinuousAt (fun δ : ℝ => δ ^ (l : ℝ)) 0 := Real.continuousAt_rpow_const 0 _ (.inr (by exact_mod_cast hl))
    fun_prop
  refine (h.tendsto.mono_left nhdsWithin_le_nhds).trans_eq ?_
  unfold damped
  by_cases h0 : l = 0
  · simp [h0]
  · rw [if_neg h0, Real.zero_rpow (by exact_mod_cast h0)]; simp

/-- The second virial coefficient of the equation of Gross and Sadowski, per molecule: hard chains and dispersion at density zero. -/
noncomputable def gsVirial (c : Fin 7 → Fin 6 → ℝ) (m σ ε T : ℝ) : ℝ :=
  let d := σ * (1 - 0.12 * Real.exp (-3 * ε / T))
  let I := fun k0 k1 k2 : Fin 6 => c 0 k0 + (m - 1) / m * c 0 k1 + (m - 1) / m * ((m - 2) / m) * c 0 k2
  Real.pi / 6 * m * d ^ 3 * (4 * m - 5 / 2 * (m - 1)) - 2 * Real.pi * I 0 1 2 * m ^ 2 * (ε / T) * σ ^ 3 - Real.pi * I 3 4 5 * m ^ 3 * (ε / T) ^ 2 * σ ^ 3

theorem grossSadowski_slope (c : Fin 7 → Fin 6 → ℝ) (m σ ε T : ℝ) :
    grossSadowski c m σ ε T 0 = 0 ∧ HasDerivAt (fun r => grossSadowski c m σ ε T r) (gsVirial c m σ ε T) 0 := by
  refine ⟨by simp [grossSadowski], ?_⟩
  unfold grossSadowski gsVirial
  simp only
  generalize σ * (1 - 0.12 * Real.exp (-3 * ε / T)) = d
  set k := Real.pi / 6 * m * d ^ 3 with hk
  have hη : HasDerivAt (fun r : ℝ => Real.pi / 6 * r * m * d ^ 3) k 0 := by
    have := (hasDerivAt_id (0 : ℝ)).const_mul k
    rw [mul_one] at this
    refine this.congr_of_eventuallyEq (.of_forall fun r => ?_)
    simp only [hk, id]; ring
  have hη0 : Real.pi / 6 * (0 : ℝ) * m * d ^ 3 = 0 := by ring
  have h1 : HasDerivAt (fun r : ℝ => 1 - Real.pi / 6 * r * m * d ^ 3) (-k) 0 := by simpa using hη.const_sub 1
  have hhs := (((hη.const_mul 4).sub ((hη.pow 2).const_mul 3)).div (h1.pow 2) (by simp)).const_mul m
  have hg := ((((hη.div_const 2).const_sub 1).div (h1.pow 3) (by simp)).log (by simp)).const_mul (m - 1)
  have hprod : ∀ (q : ℝ → ℝ), ContinuousAt q 0 → HasDerivAt (fun r : ℝ => r * q r) (q 0) 0 := by
    intro q hq
    rw [hasDerivAt_iff_tendsto_slope]
    refine (hq.tendsto.mono_left nhdsWithin_le_nhds).congr' ?_
    filter_upwards [self_mem_nhdsWithin] with r hr
    have : r ≠ 0 := hr
    simp [slope_def_field, this]
  have cη : ContinuousAt (fun r : ℝ => Real.pi / 6 * r * m * d ^ 3) 0 := hη.continuousAt
  have cI : ∀ k0 k1 k2 : Fin 6, ContinuousAt (fun r : ℝ => ∑ i : Fin 7, (c i k0 + (m - 1) / m * c i k1 + (m - 1) / m * ((m - 2) / m) * c i k2) *
      (Real.pi / 6 * r * m * d ^ 3) ^ (i : ℕ)) 0 := fun k0 k1 k2 => by fun_prop
  have vI : ∀ k0 k1 k2 : Fin 6, (∑ i : Fin 7, (c i k0 + (m - 1) / m * c i k1 + (m - 1) / m * ((m - 2) / m) * c i k2) *
      (Real.pi / 6 * (0 : ℝ) * m * d ^ 3) ^ (i : ℕ)) = c 0 k0 + (m - 1) / m * c 0 k1 + (m - 1) / m * ((m - 2) / m) * c 0 k2 := fun k0 k1 k2 => by
    rw [hη0, Fin.sum_univ_succ]
    simp
  have cC : ContinuousAt (fun r : ℝ => (1 + m * (8 * (Real.pi / 6 * r * m * d ^ 3) - 2 * (Real.pi / 6 * r * m * d ^ 3) ^ 2) /
      (1 - Real.pi / 6 * r * m * d ^ 3) ^ 4 + (1 - m) * (20 * (Real.pi / 6 * r * m * d ^ 3) - 27 * (Real.pi / 6 * r * m * d ^ 3) ^ 2
      + 12 * (Real.pi / 6 * r * m * d ^ 3) ^ 3 - 2 * (Real.pi / 6 * r * m * d ^ 3) ^ 4) /
      ((1 - Real.pi / 6 * r * m * d ^ 3) * (2 - Real.pi / 6 * r * m * d ^ 3)) ^ 2)⁻¹) 0 := by
    refine ContinuousAt.inv₀ ?_ (by simp)
    refine ContinuousAt.add (continuousAt_const.add (ContinuousAt.div (by fun_prop) (by fun_prop) (by simp))) (ContinuousAt.div (by fun_prop) (by fun_prop) (by simp))
  have hd1 := (hprod _ (cI 0 1 2)).const_mul (2 * Real.pi * m ^ 2 * (ε / T) * σ ^ 3)
  have hd2 := (hprod _ (cC.mul (cI 3 4 5))).const_mul (Real.pi * m ^ 3 * (ε / T) ^ 2 * σ ^ 3)
  refine ((((hhs.sub hg).sub hd1).sub hd2).congr_of_eventuallyEq (.of_forall fun r => ?_)).congr_deriv ?_
  · simp only [Pi.sub_apply, Pi.mul_apply, Pi.div_apply, Pi.pow_apply]
    ring
  · simp only [Pi.sub_apply, Pi.mul_apply, Pi.div_apply, Pi.pow_apply]
    rw [vI, vI]
    simp only [hη0]
    norm_num
    ring

/-- The place of zero density in the range of a Chebyshev expansion. -/
noncomputable def chebOrigin (e : ChebTermC) : ℝ := -(e.deltamax + e.deltamin) / (e.deltamax - e.deltamin)

/-- The density exponents are positive whole numbers, those inside exponentials whole numbers that are not negative; a non-analytic term has a positive `B`, and a cubic term has the
parameters of a cubic, PC-SAFT segments of positive number and diameter, and a Chebyshev expansion is zero at zero density. -/
def GasTerm : ResTerm → Prop
  | .justPower l => ∀ e ∈ l, ∃ k : ℕ, 1 ≤ k ∧ e.d = k
  | .power l => ∀ e ∈ l, (∃ k : ℕ, 1 ≤ k ∧ e.d = k) ∧ 0 ≤ e.li
  | .exponential l => ∀ e ∈ l, (∃ k : ℕ, 1 ≤ k ∧ e.d = k) ∧ 0 ≤ e.li
  | .doubleExp l => ∀ e ∈ l, (∃ k : ℕ, 1 ≤ k ∧ e.d = k) ∧ 0 ≤ e.ldi
  | .gaussian l => ∀ e ∈ l, ∃ k : ℕ, 1 ≤ k ∧ e.d = k
  | .gerg2004 l => ∀ e ∈ l, ∃ k : ℕ, 1 ≤ k ∧ e.d = k
  | .lemmon2005 l => ∀ e ∈ l, (∃ k : ℕ, 1 ≤ k ∧ e.d = k) ∧ 0 ≤ e.li
  | .gaoB l => ∀ e ∈ l, ∃ k : ℕ, 1 ≤ k ∧ e.d = k
  | .nonAnalytic l => ∀ e ∈ l, 0 < e.B
  | .cubic e => e.b ≠ 0 ∧ e.Delta1 ≠ e.Delta2 ∧ e.R * e.Tred ≠ 0
  | .pcsaft _ e => 0 < e.m ∧ 0 < e.sigma ∧ 0 ≤ e.eps ∧ 0 < e.Tred
  | .cheb e => e.taumin ≠ e.taumax ∧ e.deltamin ≠ e.deltamax ∧
      ∀ j < e.n, ∑ k ∈ Finset.range e.n, halfFirst k * e.a k j * (Polynomial.Chebyshev.T ℝ (k : ℤ)).eval (chebOrigin e) = 0
  | .null => True

/-- The reduced second virial coefficient of a term: the summands of first order in the density. -/
noncomputable def termVirial : ResTerm → ℝ → ℝ
  | .justPower l, τ => (l.map fun e => e.n * τ ^ e.t * firstOrder e.d 1).sum
  | .power l, τ => (l.map fun e => e.n * τ ^ e.t * firstOrder e.d (damped e.c e.li)).sum
  | .exponential l, τ => (l.map fun e => e.n * τ ^ e.t * firstOrder e.d (damped e.g e.li)).sum
  | .doubleExp l, τ => (l.map fun e => e.n * τ ^ e.t * firstOrder e.d (damped e.gd e.ldi * Real.exp (-(e.gt * τ ^ e.lt)))).sum
  | .gaussian l, τ => (l.map fun e => e.n * τ ^ e.t * firstOrder e.d (Real.exp (-(e.eta * e.epsilon ^ 2) - e.beta * (τ - e.gamma) ^ 2))).sum
  | .gerg2004 l, τ => (l.map fun e => e.n * τ ^ e.t * firstOrder e.d (Real.exp (-(e.eta * e.epsilon ^ 2) + e.beta * e.gamma))).sum
  | .lemmon2005 l, τ => (l.map fun e => e.n * τ ^ e.t * firstOrder e.d (damped 1 e.li * Real.exp (-τ ^ e.m))).sum
  | .gaoB l, τ => (l.map fun e => e.n * τ ^ e.t * firstOrder e.d (Real.exp (-(e.eta * e.epsilon ^ 2) + 1 / (e.beta * (τ - e.gamma) ^ 2 + e.b)))).sum
  | .nonAnalytic l, τ => (l.map fun e => e.n * ((1 - τ + e.A) ^ 2 + e.B) ^ e.b * Real.exp (-e.C - e.D * (τ - 1) ^ 2)).sum
  | .cubic e, τ => (e.b - e.a0 * e.alpha.eval (e.Tred / τ) / (e.R * (e.Tred / τ))) * e.rhored
  | .pcsaft NA e, τ => gsVirial pureCoeff e.m e.sigma e.eps (e.Tred / τ) * (NA * e.rhored * 1e-30)
  | .cheb e, τ => ∑ j ∈ Finset.range e.n, ∑ k ∈ Finset.range e.n, halfFirst j * halfFirst k * e.a k j *
      ((Polynomial.Chebyshev.T ℝ (k : ℤ)).derivative.eval (chebOrigin e) * (2 / (e.deltamax - e.deltamin))) *
      (Polynomial.Chebyshev.T ℝ (j : ℤ)).eval ((2 * τ - (e.taumax + e.taumin)) / (e.taumax - e.taumin))
  | .null, _ => 0

theorem gasTerm_integer (t : ResTerm) (h : GasTerm t) : IntegerExponents t := by
  cases t <;> simp only [GasTerm, IntegerExponents, IsNat] at h ⊢
  · exact fun e he => let ⟨k, _, hk⟩ := h e he; ⟨k, hk⟩
  · exact fun e he => let ⟨⟨k, _, hk⟩, hl⟩ := h e he; ⟨⟨k, hk⟩, hl⟩
  · exact fun e he => let ⟨⟨k, _, hk⟩, hl⟩ := h e he; ⟨⟨k, hk⟩, hl⟩
  · exact fun e he => let ⟨⟨k, _, hk⟩, hl⟩ := h e he; ⟨⟨k, hk⟩, hl⟩
  · exact fun e he => let ⟨k, _, hk⟩ := h e he; ⟨k, hk⟩
  · exact fun e he => let ⟨k, _, hk⟩ := h e he; ⟨k, hk⟩
  · exact fun e he => let ⟨⟨k, _, hk⟩, hl⟩ := h e he; ⟨⟨k, hk⟩, hl⟩
  · exact fun e he => let ⟨k, _, hk⟩ := h e he; ⟨k, hk⟩
  · exact h
  · exact h
  · exact ⟨h.1, h.2.1⟩

theorem hasDerivWithin_list_sum {α : Type} (l : List α) (g : α → ℝ → ℝ) (g' : α → ℝ) (h : ∀ e ∈ l, HasDerivWithinAt (g e) (g' e) (Set.Ici 0) 0) :
    HasDerivWithinAt (fun r => (l.map fun e => g e r).sum) ((l.map g').sum) (Set.Ici 0) 0 := by
  induction l with
  | nil => simpa using hasDerivWithinAt_const (0 : ℝ) (Set.Ici 0) (0 : ℝ)
  | cons a l ih =>
    simp only [List.map_cons, List.sum_cons]
    exact (h a (by simp)).add (ih fun e he => h e (by simp [he]))

/-- A summand in the documented form: a positive whole power of the reduced density, a power of the reciprocal temperature, and a factor with a limit. -/
theorem summand_slope (n t d τ g0 : ℝ) (hd : ∃ k : ℕ, 1 ≤ k ∧ d = k) (g : ℝ → ℝ) (hg : Tendsto g (𝓝[>] 0) (𝓝 g0)) :
    HasDerivWithinAt (fun δ : ℝ => n * δ ^ d * τ ^ t * g δ) (n * τ ^ t * firstOrder d g0) (Set.Ici 0) 0 := by
  obtain ⟨k, hk, rfl⟩ := hd
  refine (power_slope (n * τ ^ t) g0 k hk g hg).congr_of_eventuallyEq (.of_forall fun δ => ?_) ?_ <;> ring

theorem tendsto_of_cont {g : ℝ → ℝ} (h : ContinuousAt g 0) : Tendsto g (𝓝[>] 0) (𝓝 (g 0)) := h.tendsto.mono_left nhdsWithin_le_nhds

/-- **The second virial coefficient of every term**: from the documented form, not from the code. -/
theorem term_slope (t : ResTerm) (h : GasTerm t) (τ : ℝ) (hτ : 0 < τ) : HasDerivWithinAt (fun δ => ResTerm.doc t τ δ) (termVirial t τ) (Set.Ici 0) 0 := by
  cases t with
  | justPower l =>
    refine hasDerivWithin_list_sum l _ _ fun e he => ?_
    have := summand_slope e.n e.t e.d τ 1 (h e he) (fun _ => 1) tendsto_const_nhds
    simp only [mul_one] at this
    exact this
  | power l =>
    refine hasDerivWithin_list_sum l _ _ fun e he => ?_
    exact summand_slope e.n e.t e.d τ _ (h e he).1 _ (damped_tendsto e.c e.li (h e he).2)
  | exponential l =>
    refine hasDerivWithin_list_sum l _ _ fun e he => ?_
    exact summand_slope e.n e.t e.d τ _ (h e he).1 _ (damped_tendsto e.g e.li (h e he).2)
  | doubleExp l =>
    refine hasDerivWithin_list_sum l _ _ fun e he => ?_
    refine (summand_slope e.n e.t e.d τ _ (h e he).1 _ ((damped_tendsto e.gd e.ldi (h e he).2).mul_const (Real.exp (-(e.gt * τ ^ e.lt))))).congr_of_eventuallyEq
      (.of_forall fun δ => ?_) ?_ <;> simp only [doubleExpSummand, ← Real.exp_add] <;> rw [sub_eq_add_neg]
  | gaussian l =>
    refine hasDerivWithin_list_sum l _ _ fun e he => ?_
    refine summand_slope e.n e.t e.d τ _ (h e he) _ ((tendsto_of_cont (by fun_prop)).trans_eq ?_)
    simp
  | gerg2004 l =>
    refine hasDerivWithin_list_sum l _ _ fun e he => ?_
    refine summand_slope e.n e.t e.d τ _ (h e he) _ ((tendsto_of_cont (by fun_prop)).trans_eq ?_)
    simp
  | lemmon2005 l =>
    refine hasDerivWithin_list_sum l _ _ fun e he => ?_
    refine (summand_slope e.n e.t e.d τ _ (h e he).1 _ ((damped_tendsto 1 e.li (h e he).2).mul_const (Real.exp (-τ ^ e.m)))).congr_of_eventuallyEq
      (.of_forall fun δ => ?_) ?_ <;> simp only [lemmonSummand, ← Real.exp_add] <;> rw [sub_eq_add_neg, one_mul]
  | gaoB l =>
    refine hasDerivWithin_list_sum l _ _ fun e he => ?_
    refine summand_slope e.n e.t e.d τ _ (h e he) _ ((tendsto_of_cont (by fun_prop)).trans_eq ?_)
    simp
  | nonAnalytic l =>
    refine hasDerivWithin_list_sum l _ _ fun e he => ?_
    have hB : 0 < e.B := h e he
    have hc1 (q : ℝ) : ContinuousAt (fun δ : ℝ => ((δ - 1) ^ 2) ^ q) 0 := by
      refine ContinuousAt.rpow_const (by fun_prop) (.inl (by norm_num))
    have hc : ContinuousAt (fun δ : ℝ => ((1 - τ + e.A * ((δ - 1) ^ 2) ^ (1 / (2 * e.beta))) ^ 2 + e.B * ((δ - 1) ^ 2) ^ e.a) ^ e.b
        * Real.exp (-(e.C * (δ - 1) ^ 2) - e.D * (τ - 1) ^ 2)) 0 := by
      refine ContinuousAt.mul (ContinuousAt.rpow_const ?_ (.inl ?_)) (by fun_prop)
      · have := hc1 (1 / (2 * e.beta))
        have := hc1 e.a
        fun_prop
      · norm_num
        positivity
    have := power_slope e.n _ 1 le_rfl _ (tendsto_of_cont hc)
    refine (this.congr_of_eventuallyEq (.of_forall fun δ => ?_) ?_).congr_deriv ?_
    · simp only [nonAnalyticSummand, Nat.cast_one, Real.rpow_one]; ring
    · simp only [nonAnalyticSummand, Nat.cast_one, Real.rpow_one]; ring
    · simp [firstOrder, mul_assoc]
  | cubic e =>
    obtain ⟨hb, hD, -⟩ := h
    have hl : HasDerivAt (fun δ : ℝ => δ * e.rhored) e.rhored 0 := by simpa using (hasDerivAt_id (0 : ℝ)).mul_const e.rhored
    have h1 := cubicAlphar_slope (R := e.R) (a := e.a0 * e.alpha.eval (e.Tred / τ)) (T := e.Tred / τ) hb hD
    have h2 : HasDerivAt (fun δ => cubicAlphar e.R (e.a0 * e.alpha.eval (e.Tred / τ)) e.b e.Delta1 e.Delta2 (e.Tred / τ) (δ * e.rhored)) (termVirial (.cubic e) τ) 0 := by
      refine HasDerivAt.comp (h₂ := fun r => cubicAlphar e.R (e.a0 * e.alpha.eval (e.Tred / τ)) e.b e.Delta1 e.Delta2 (e.Tred / τ) r) (0 : ℝ) ?_ hl
      simpa using h1
    refine (h2.congr_of_eventuallyEq (.of_forall fun δ => ?_)).hasDerivWithinAt
    have := zeroBranch_doc (.cubic e) trivial τ δ hτ
    rw [← this]
    rfl
  | pcsaft NA e =>
    have hl : HasDerivAt (fun δ : ℝ => NA * (δ * e.rhored) * 1e-30) (NA * e.rhored * 1e-30) 0 := by
      simpa using (((hasDerivAt_id (0 : ℝ)).mul_const e.rhored).const_mul NA).mul_const 1e-30
    have h1 := (grossSadowski_slope pureCoeff e.m e.sigma e.eps (e.Tred / τ)).2
    exact (HasDerivAt.comp (h₂ := fun r => grossSadowski pureCoeff e.m e.sigma e.eps (e.Tred / τ) r) (0 : ℝ) (by simpa using h1) hl).hasDerivWithinAt
  | cheb e =>
    refine HasDerivAt.hasDerivWithinAt ?_
    simp only [ResTerm.doc, chebSum2D, termVirial]
    refine HasDerivAt.fun_sum fun j _ => HasDerivAt.fun_sum fun k _ => ?_
    have hl : HasDerivAt (fun δ : ℝ => (2 * δ - (e.deltamax + e.deltamin)) / (e.deltamax - e.deltamin)) (2 / (e.deltamax - e.deltamin)) 0 := by
      simpa using (((hasDerivAt_id (0 : ℝ)).const_mul 2).sub_const (e.deltamax + e.deltamin)).div_const (e.deltamax - e.deltamin)
    have h0 : (2 * (0 : ℝ) - (e.deltamax + e.deltamin)) / (e.deltamax - e.deltamin) = chebOrigin e := by
      unfold chebOrigin; ring
    have hT := (Polynomial.Chebyshev.T ℝ (k : ℤ)).hasDerivAt (chebOrigin e)
    rw [← h0] at hT
    have := (HasDerivAt.comp (0 : ℝ) hT hl)
    rw [h0] at this
    exact (this.const_mul _).mul_const _
  | null => exact hasDerivWithinAt_const _ _ _

theorem term_zero (t : ResTerm) (h : GasTerm t) (τ : ℝ) : ResTerm.doc t τ 0 = 0 := by
  have hz (d : ℝ) (hd : ∃ k : ℕ, 1 ≤ k ∧ d = k) : (0 : ℝ) ^ d = 0 := by
    obtain ⟨k, hk, rfl⟩ := hd
    rw [Real.rpow_natCast, zero_pow (by omega)]
  have hs {α : Type} (l : List α) (g : α → ℝ) (hg : ∀ e ∈ l, g e = 0) : (l.map g).sum = 0 :=
    List.sum_eq_zero fun y hy => by obtain ⟨e, he, rfl⟩ := List.mem_map.1 hy; exact hg e he
  cases t with
  | justPower l => exact hs l _ fun e he => by simp [polySummand, hz e.d (h e he)]
  | power l => exact hs l _ fun e he => by simp [expSummand, hz e.d (h e he).1]
  | exponential l => exact hs l _ fun e he => by simp [expSummand, hz e.d (h e he).1]
  | doubleExp l => exact hs l _ fun e he => by simp [doubleExpSummand, hz e.d (h e he).1]
  | gaussian l => exact hs l _ fun e he => by simp [gaussSummand, hz e.d (h e he)]
  | gerg2004 l => exact hs l _ fun e he => by simp [gergSummand, hz e.d (h e he)]
  | lemmon2005 l => exact hs l _ fun e he => by simp [lemmonSummand, hz e.d (h e he).1]
  | gaoB l => exact hs l _ fun e he => by simp [gaoBSummand, hz e.d (h e he)]
  | nonAnalytic l => exact hs l _ fun e he => by simp [nonAnalyticSummand]
  | cubic e => simp [ResTerm.doc, cubicResidual]
  | pcsaft NA e => simp [ResTerm.doc, (grossSadowski_slope _ _ _ _ _).1]
  | cheb e =>
    have h0 : (2 * (0 : ℝ) - (e.deltamax + e.deltamin)) / (e.deltamax - e.deltamin) = chebOrigin e := by
      unfold chebOrigin; ring
    simp only [ResTerm.doc, chebSum2D, h0]
    refine Finset.sum_eq_zero fun j hj => ?_
    have := h.2.2 j (Finset.mem_range.1 hj)
    rw [show ∀ u v : ℝ, (∑ k ∈ Finset.range e.n, u * halfFirst k * e.a k j * (Polynomial.Chebyshev.T ℝ (k : ℤ)).eval (chebOrigin e) * v)
      = u * v * ∑ k ∈ Finset.range e.n, halfFirst k * e.a k j * (Polynomial.Chebyshev.T ℝ (k : ℤ)).eval (chebOrigin e) from fun u v => by
        rw [Finset.mul_sum]; exact Finset.sum_congr rfl fun k _ => by ring, this, mul_zero]
  | null => rfl

/-- The coefficient of a sum of terms. -/
noncomputable def eosVirial (ts : List ResTerm) (τ : ℝ) : ℝ := (ts.map fun t => termVirial t τ).sum

theorem eos_slope (ts : List ResTerm) (h : ∀ t ∈ ts, GasTerm t) (τ : ℝ) (hτ : 0 < τ) :
    containerAlphar ts τ 0 = 0 ∧ HasDerivWithinAt (fun δ => containerAlphar ts τ δ) (eosVirial ts τ) (Set.Ici 0) 0 := by
  have hv (δ : ℝ) (hδ : 0 ≤ δ) := container_value ts (fun t ht => gasTerm_integer t (h t ht)) τ δ hτ hδ
  have h0 : containerAlphar ts τ 0 = 0 := by
    rw [hv 0 le_rfl]
    exact List.sum_eq_zero fun y hy => by obtain ⟨t, ht, rfl⟩ := List.mem_map.1 hy; exact term_zero t (h t ht) τ
  refine ⟨h0, ?_⟩
  refine (hasDerivWithin_list_sum ts _ _ fun t ht => term_slope t (h t ht) τ hτ).congr (fun δ hδ => hv δ hδ) (hv 0 le_rfl)

/-- **Multi-fluid mixtures**: the pure fluids' coefficients weighted with the mole fractions and the departure functions' with the pairs, at the reciprocal reduced temperature, over the
reducing density. -/
theorem multifluid_virial {n : ℕ} (m : MultiFluid n) (hn : n ≠ 1) (T : ℝ) (z : List ℝ) (hz : z.length = n) (hT : 0 < T)
    (hTr : 0 < m.Tr fun i => z[i]) (hr : 0 < m.rhor fun i => z[i]) (he : ∀ i, ∀ t ∈ m.eos i, GasTerm t) (hd : ∀ i j, i < j → ∀ t ∈ m.func i j, GasTerm t) :
    HasVirial (fun r => m.alpharV T r z) (((∑ i, z[i] * eosVirial (m.eos i) (m.Tr (fun i => z[i]) / T))
      + ∑ i, ∑ j ∈ univ.filter (i < ·), z[i] * z[j] * m.F i j * eosVirial (m.func i j) (m.Tr (fun i => z[i]) / T)) * (m.rhor fun i => z[i])⁻¹) := by
  set x : Fin n → ℝ := fun i => z[i] with hx
  set τ := m.Tr x / T with hτdef
  have hτ : 0 < τ := div_pos hTr hT
  have key : HasVirial (fun δ => .ok (m.corr τ δ x + m.dep τ δ x)) ((∑ i, x i * eosVirial (m.eos i) τ)
      + ∑ i, ∑ j ∈ univ.filter (i < ·), x i * x j * m.F i j * eosVirial (m.func i j) τ) := by
    refine ⟨fun δ => m.corr τ δ x + m.dep τ δ x, .of_forall fun _ => rfl, ?_, ?_⟩
    · have h1 : m.corr τ 0 x = 0 := sum_eq_zero fun i _ => by rw [(eos_slope _ (he i) τ hτ).1, mul_zero]
      have h2 : m.dep τ 0 x = 0 := sum_eq_zero fun i _ => sum_eq_zero fun j hj => by
        rw [(eos_slope _ (hd i j (mem_filter.1 hj).2) τ hτ).1, mul_zero]
      show m.corr τ 0 x + m.dep τ 0 x = 0
      rw [h1, h2, add_zero]
    · refine HasDerivWithinAt.add ?_ ?_
      · exact HasDerivWithinAt.fun_sum fun i _ => (eos_slope _ (he i) τ hτ).2.const_mul (x i)
      · exact HasDerivWithinAt.fun_sum fun i _ => HasDerivWithinAt.fun_sum fun j hj =>
          (eos_slope _ (hd i j (mem_filter.1 hj).2) τ hτ).2.const_mul (x i * x j * m.F i j)
  refine hasVirial_congr (hasVirial_scale (inv_pos.mpr hr).le key) fun r _ => ?_
  rw [MultiFluid.alpharV, dif_pos hz, MultiFluid.alphar, MultiFluid.alphar_taudelta, dif_neg hn, div_eq_mul_inv r]

/-- Two components with a term of first order and one of second order each, and a departure function of first order. -/
noncomputable def gasSample : MultiFluid 2 where
  Tr _ := 200
  rhor _ := 10000
  eos i := [.justPower [⟨if i = 0 then 2 else 3, 1, 1⟩, ⟨5, 2, 2⟩]]
  F _ _ := 0.5
  func _ _ := [.power [⟨4, 0, 1, 1, 2⟩]]
  Rvals := none

example : HasVirial (fun r => gasSample.alpharV 100 r [0.25, 0.75]) ((0.25 * (2 * 2) + 0.75 * (3 * 2) + 0.25 * 0.75 * 0.5 * 4) / 10000) := by
  have := multifluid_virial gasSample (by norm_num) 100 [0.25, 0.75] rfl (by norm_num) (by norm_num [gasSample]) (by norm_num [gasSample])
    (fun i t ht => by
      rw [List.mem_singleton.1 ht]
      intro e he
      rcases List.mem_cons.1 he with rfl | he
      · exact ⟨1, le_rfl, by simp⟩
      · rw [List.mem_singleton.1 he]
        exact ⟨2, by norm_num, by simp⟩)
    (fun i j _ t ht => by
      rw [List.mem_singleton.1 ht]
      intro e he
      rw [List.mem_singleton.1 he]
      exact ⟨⟨1, le_rfl, by simp⟩, by norm_num⟩)
  have e1 : univ.filter ((0 : Fin 2) < ·) = {1} := by decide
  have e2 : univ.filter ((1 : Fin 2) < ·) = ∅ := by decide
  convert this using 1
  simp only [Fin.sum_univ_two, e1, e2, sum_singleton, sum_empty]
  simp [gasSample, eosVirial, termVirial, firstOrder, damped]
  norm_num

/-- The same for a pure fluid, whose mole fraction is not used. -/
theorem multifluid_pure_virial (m : MultiFluid 1) (T : ℝ) (z : List ℝ) (hz : z.length = 1) (hT : 0 < T) (hTr : 0 < m.Tr fun i => z[i])
    (hr : 0 < m.rhor fun i => z[i]) (he : ∀ t ∈ m.eos 0, GasTerm t) :
    HasVirial (fun r => m.alpharV T r z) (eosVirial (m.eos 0) (m.Tr (fun i => z[i]) / T) * (m.rhor fun i => z[i])⁻¹) := by
  have hτ := div_pos hTr hT
  have key : HasVirial (fun δ => .ok (containerAlphar (m.eos 0) (m.Tr (fun i => z[i]) / T) δ)) (eosVirial (m.eos 0) (m.Tr (fun i => z[i]) / T)) :=
    ⟨_, .of_forall fun _ => rfl, (eos_slope _ he _ hτ).1, (eos_slope _ he _ hτ).2⟩
  refine hasVirial_congr (hasVirial_scale (inv_pos.mpr hr).le key) fun r _ => ?_
  rw [MultiFluid.alpharV, dif_pos hz, MultiFluid.alphar, MultiFluid.alphar_taudelta, dif_pos rfl, div_eq_mul_inv r]
  rfl

/-- A multi-fluid model with an activity-coefficient model: the sum. -/
theorem activity_virial {n : ℕ} (m : PlusActivity n) (T g B : ℝ) (x : List ℝ) (hx : x.length = n) (hb : m.b.length = n)
    (hr : m.Regular T 0 x) (hg : m.act.eval T x = .ok g) (hB : HasVirial (fun r => m.mf.alpharV T r x) B) :
    ∃ C, HasVirial (fun r => m.alphar T r x) (B + C) ∧ C = m.bm x / Real.log (1 + 1 / m.u) *
        (g - (m.mf.corr (m.mf.Tr (fun i => el x i) / T) (1 / (m.u * m.bm x) / m.mf.rhor (fun i => el x i)) (fun i => el x i)
          - ∑ i : Fin n, el x i * purePart m i T (1 / (m.u * el m.b i)))) := by
  obtain ⟨a, ha, h0, hd⟩ := plus_dilute m T g x hx hb hr hg
  refine ⟨_, hasVirial_bind hB (hasVirial_of a ?_ h0 hd), rfl⟩
  have : ∀ᶠ r : ℝ in 𝓝 0, 0 < 1 + r * m.bm x := (by fun_prop : ContinuousAt (fun r : ℝ => 1 + r * m.bm x) 0).eventually_const_lt (by simp)
  filter_upwards [this] with r hr using ha r hr

/-- Ammonia and water: the departure function does not contribute. -/
theorem aw_low (p0 p1 : ℝ → ℝ → ℝ) (T x y B0 B1 : ℝ) (hT : 0 < T) (h0 : 0 < x) (h1 : x ≤ 1) (z0 : p0 (awTredVal x / T) 0 = 0) (z1 : p1 (awTredVal x / T) 0 = 0)
    (hp0 : HasDerivWithinAt (p0 (awTredVal x / T)) B0 (Set.Ici 0) 0) (hp1 : HasDerivWithinAt (p1 (awTredVal x / T)) B1 (Set.Ici 0) 0) :
    HasVirial (fun r => awAlphar p0 p1 T r [x, y]) ((B0 * x + B1 * (1 - x)) * awVredVal x) := by
  set τ := awTredVal x / T
  have hw : HasDerivWithinAt (fun d => awDeparture τ d x) 0 (Set.Ici 0) 0 := (aw_virial τ x h0.ne').1.hasDerivWithinAt
  have hw0 : awDeparture τ 0 x = 0 := by
    rw [aw_table τ 0 x h0.ne']
    refine mul_eq_zero_of_right _ (sum_eq_zero fun i hi => mul_eq_zero_of_right _ ?_)
    have hi' := mem_range.1 hi
    interval_cases i <;> simp [tillnerRothFriend, trfTerm]
  have key : HasVirial (fun d => .ok (p0 τ d * x + p1 τ d * (1 - x) + awDeparture τ d x)) (B0 * x + B1 * (1 - x)) := by
    refine ⟨_, .of_forall fun _ => rfl, by simp [z0, z1, hw0], ?_⟩
    exact (((hp0.mul_const x).add (hp1.mul_const (1 - x))).add hw).congr_deriv (by ring)
  refine hasVirial_congr (hasVirial_scale (aw_reducing_pos x h0 h1).2.le key) fun r _ => ?_
  rw [aw_value p0 p1 T r x y hT.ne' h0 h1]
  rw [awDeparture, if_neg h0.ne']

/-- Pohl's equation for Mie fluids: the four summands of first order. -/
theorem pohl_low (lam T : ℝ) (hl : 1 ≤ lam) (hT : 0 < T) : HasVirial (pohlAlphar lam T)
    ((pohlN pohlC1pol pohlC2pol lam 1 * (pohlTc lam / T) ^ (0.236 : ℝ) + pohlN pohlC1pol pohlC2pol lam 2 * (pohlTc lam / T) ^ (0.872 : ℝ)
      + pohlN pohlC1exp pohlC2exp lam 0 * (pohlTc lam / T) ^ (1.78 : ℝ) + pohlN pohlC1exp pohlC2exp lam 1 * (pohlTc lam / T) ^ (2.99 : ℝ)) * (pohlRhoc lam)⁻¹) := by
  set τ := pohlTc lam / T
  have hp (c : ℝ) (k : ℕ) (hk : 1 ≤ k) (g : ℝ → ℝ) (hg : ContinuousAt g 0) :
      HasDerivWithinAt (fun δ : ℝ => c * δ ^ k * g δ) (c * firstOrder k (g 0)) (Set.Ici 0) 0 := by
    simpa only [Real.rpow_natCast] using power_slope c (g 0) k hk g (tendsto_of_cont hg)
  have key : HasVirial (fun δ => .ok (pohlSum lam τ δ)) (pohlN pohlC1pol pohlC2pol lam 1 * τ ^ (0.236 : ℝ) + pohlN pohlC1pol pohlC2pol lam 2 * τ ^ (0.872 : ℝ)
      + pohlN pohlC1exp pohlC2exp lam 0 * τ ^ (1.78 : ℝ) + pohlN pohlC1exp pohlC2exp lam 1 * τ ^ (2.99 : ℝ)) := by
    refine ⟨_, .of_forall fun _ => rfl, ?_, ?_⟩
    · simp [pohlSum, sum_range_succ, pohlDpol, pohlDexp, pohlDgbs]
    · have h1 : HasDerivWithinAt (fun δ : ℝ => ∑ i ∈ range 6, pohlN pohlC1pol pohlC2pol lam i * τ ^ pohlTpol.getD i 0 * δ ^ pohlDpol.getD i 0)
          (∑ i ∈ range 6, pohlN pohlC1pol pohlC2pol lam i * τ ^ pohlTpol.getD i 0 * firstOrder (pohlDpol.getD i 0 : ℕ) 1) (Set.Ici 0) 0 := by
        refine HasDerivWithinAt.fun_sum fun i hi => ?_
        have hk : 1 ≤ pohlDpol.getD i 0 := by
          have := mem_range.1 hi
          interval_cases i <;> simp [pohlDpol]
        simpa using hp (pohlN pohlC1pol pohlC2pol lam i * τ ^ pohlTpol.getD i 0) _ hk (fun _ => 1) continuousAt_const
      have h2 : HasDerivWithinAt (fun δ : ℝ => ∑ i ∈ range 6, pohlN pohlC1exp pohlC2exp lam i * τ ^ pohlTexp.getD i 0 * δ ^ pohlDexp.getD i 0 * Real.exp (-δ ^ pohlP.getD i 0))
          (∑ i ∈ range 6, pohlN pohlC1exp pohlC2exp lam i * τ ^ pohlTexp.getD i 0 * firstOrder (pohlDexp.getD i 0 : ℕ) (Real.exp (-0 ^ pohlP.getD i 0))) (Set.Ici 0) 0 := by
        refine HasDerivWithinAt.fun_sum fun i hi => ?_
        have hk : 1 ≤ pohlDexp.getD i 0 := by
          have := mem_range.1 hi
          interval_cases i <;> simp [pohlDexp]
        exact hp (pohlN pohlC1exp pohlC2exp lam i * τ ^ pohlTexp.getD i 0) _ hk (fun δ => Real.exp (-δ ^ pohlP.getD i 0)) (by fun_prop)
      have h3 : HasDerivWithinAt (fun δ : ℝ => ∑ i ∈ range 4, pohlN pohlC1gbs pohlC2gbs lam i * τ ^ pohlTgbs.getD i 0 * δ ^ pohlDgbs.getD i 0
          * Real.exp (-pohlEta.getD i 0 * (δ - pohlEps.getD i 0) ^ 2 - pohlBeta.getD i 0 * (τ - pohlGam.getD i 0) ^ 2))
          (∑ i ∈ range 4, pohlN pohlC1gbs pohlC2gbs lam i * τ ^ pohlTgbs.getD i 0 * firstOrder (pohlDgbs.getD i 0 : ℕ)
            (Real.exp (-pohlEta.getD i 0 * (0 - pohlEps.getD i 0) ^ 2 - pohlBeta.getD i 0 * (τ - pohlGam.getD i 0) ^ 2))) (Set.Ici 0) 0 := by
        refine HasDerivWithinAt.fun_sum fun i hi => ?_
        have hk : 1 ≤ pohlDgbs.getD i 0 := by
          have := mem_range.1 hi
          interval_cases i <;> simp [pohlDgbs]
        exact hp (pohlN pohlC1gbs pohlC2gbs lam i * τ ^ pohlTgbs.getD i 0) _ hk
          (fun δ => Real.exp (-pohlEta.getD i 0 * (δ - pohlEps.getD i 0) ^ 2 - pohlBeta.getD i 0 * (τ - pohlGam.getD i 0) ^ 2)) (by fun_prop)
      refine ((h1.add h2).add h3).congr_deriv ?_
      simp [sum_range_succ, firstOrder, pohlDpol, pohlDexp, pohlDgbs, pohlTpol, pohlTexp, pohlP]
      ring
  refine hasVirial_congr (hasVirial_scale (inv_pos.mpr (pohlRhoc_pos lam hl)).le key) fun r _ => ?_
  rw [(pohl_ok lam T r hl hT).1, div_eq_mul_inv r]

/-- **C165 fails for a term with the zeroth power of the density**, which the builders accept: the value at zero density is the coefficient, and there is no virial coefficient. -/
theorem zeroth_power_no_gas (m : MultiFluid 1) (T n t : ℝ) (h : m.eos 0 = [.justPower [⟨n, t, 0⟩]]) (hT : 0 < T) (hTr : 0 < m.Tr fun _ => 1) (hn : n ≠ 0) :
    m.alpharV T 0 [1] ≠ .ok 0 ∧ ∀ B, ¬ HasVirial (fun r => m.alpharV T r [1]) B := by
  have hv : m.alpharV T 0 [1] ≠ .ok 0 := by
    rw [MultiFluid.alpharV, dif_pos (show [(1 : ℝ)].length = 1 from rfl), MultiFluid.alphar, MultiFluid.alphar_taudelta, dif_pos rfl]
    have hx : (fun i : Fin 1 => [(1 : ℝ)][i]) = fun _ => 1 := by
      funext i
      fin_cases i
      rfl
    have h' : m.eos ⟨0, by omega⟩ = [.justPower [⟨n, t, 0⟩]] := h
    rw [hx, h', container_value _ (by
      intro t' ht'
      rw [List.mem_singleton.1 ht']
      exact fun e he => ⟨0, by rw [List.mem_singleton.1 he]; simp⟩) _ _ (div_pos hTr hT) (by simp)]
    have hp : 0 < (m.Tr (fun _ => 1) / T) ^ t := Real.rpow_pos_of_pos (div_pos hTr hT) t
    simp only [List.map_cons, List.map_nil, ResTerm.doc, polySummand, List.sum_cons, List.sum_nil, Real.rpow_zero, add_zero, mul_one]
    intro hc
    injection hc with hc
    exact mul_ne_zero hn hp.ne' hc
  exact ⟨hv, fun B hB => hv ((hasVirial_iff _ _).1 hB).1⟩

example : ∃ m : MultiFluid 1, m.alpharV 300 0 [1] ≠ .ok 0 := by
  refine ⟨⟨fun _ => 190, fun _ => 10000, fun _ => [.justPower [⟨2, 1, 0⟩]], fun _ _ => 0, fun _ _ => [], none⟩, ?_⟩
  exact (zeroth_power_no_gas _ 300 2 1 rfl (by norm_num) (by norm_num) (by norm_num)).1

/-- The Lennard-Jones exponent. -/
example : ∃ B, HasVirial (pohlAlphar 12 1) B := ⟨_, pohl_low 12 1 (by norm_num) one_pos⟩

/-- The departure alone, between two ideal gases. -/
example : HasVirial (fun r => awAlphar (fun _ _ => 0) (fun _ d => 3 * d) 400 r [0.5, 0.5]) ((0 * 0.5 + 3 * (1 - 0.5)) * awVredVal 0.5) :=
  aw_low _ _ 400 0.5 0.5 0 3 (by norm_num) (by norm_num) (by norm_num) rfl (by simp) (hasDerivWithinAt_const _ _ _)
    (by simpa using ((hasDerivAt_id (0 : ℝ)).const_mul 3).hasDerivWithinAt)

end Teqp.Props
