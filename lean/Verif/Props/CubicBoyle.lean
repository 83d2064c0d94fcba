import Verif.Props.CubicStable
import Verif.Props.LowDensity

/-! # C180: the Boyle temperatures of cubic models -/

set_option autoImplicit false

namespace Teqp.Props
open Teqp Teqp.Model Teqp.Spec

variable {ι : Type} [Fintype ι] [DecidableEq ι]

/-- A step of the alpha function, with `κ² = ΩB/ΩA` and `s` the root of the reduced temperature. -/
theorem soave_sign {m κ s : ℝ} (hm : -1 < m) (hmκ : -κ < m) (hκ : 0 < κ) (hs : 0 < s) :
    (κ ^ 2 * s ^ 2 < (1 + m * (1 - s)) ^ 2 ↔ s < (1 + m) / (m + κ) ∨ (κ < m ∧ (1 + m) / (m - κ) < s)) ∧
    (κ ^ 2 * s ^ 2 = (1 + m * (1 - s)) ^ 2 ↔ s = (1 + m) / (m + κ) ∨ (κ < m ∧ s = (1 + m) / (m - κ))) := by
  have hp : 0 < m + κ := by linarith
  have f : (1 + m * (1 - s)) ^ 2 - κ ^ 2 * s ^ 2 = (1 + m - (m + κ) * s) * (1 + m - (m - κ) * s) := by ring
  have h1 : s < (1 + m) / (m + κ) ↔ 0 < 1 + m - (m + κ) * s := by
    rw [lt_div_iff₀ hp]
    constructor <;> intro h <;> linarith
  have h1' : s = (1 + m) / (m + κ) ↔ 1 + m - (m + κ) * s = 0 := by
    rw [eq_div_iff hp.ne']
    constructor <;> intro h <;> linarith
  have hle : 1 + m - (m + κ) * s < 1 + m - (m - κ) * s := by nlinarith
  have h2 : (κ < m ∧ (1 + m) / (m - κ) < s) ↔ 1 + m - (m - κ) * s < 0 := by
    constructor
    · rintro ⟨h, h'⟩
      rw [div_lt_iff₀ (by linarith)] at h'
      linarith
    · intro h
      have hk : κ < m := by
        by_contra hc
        push Not at hc
        nlinarith
      exact ⟨hk, by rw [div_lt_iff₀ (by linarith)]; linarith⟩
  have h2' : (κ < m ∧ s = (1 + m) / (m - κ)) ↔ 1 + m - (m - κ) * s = 0 := by
    constructor
    · rintro ⟨h, h'⟩
      rw [eq_div_iff (by linarith)] at h'
      linarith
    · intro h
      have hk : κ < m := by
        by_contra hc
        push Not at hc
        nlinarith
      exact ⟨hk, by rw [eq_div_iff (by linarith)]; linarith⟩
  constructor
  · rw [h1, h2, ← sub_pos, f]
    constructor
    · intro h
      rcases pos_and_pos_or_neg_and_neg_of_mul_pos h with h | h
      · exact .inl h.1
      · exact .inr h.2
    · rintro (h | h)
      · exact mul_pos h (h.trans hle)
      · exact mul_pos_of_neg_of_neg (hle.trans h) h
  · rw [h1', h2', eq_comm, ← sub_eq_zero, f, mul_eq_zero]

/-- **C180** The sign of the second virial coefficient of a pure fluid with Soave's alpha function of slope `m > -κ`, any constants: negative below the Boyle temperature
`Tc ((1 + m)/(m + κ))²` with `κ² = ΩB/ΩA`, and negative again above `Tc ((1 + m)/(m - κ))²` when `m > κ`; zero exactly at these temperatures. -/
theorem soave_boyle (Tc pc m : ι → ℝ) (k : ι → ι → ℝ) {D1 D2 ΩA ΩB R T : ℝ} (i : ι) (hD : D1 ≠ D2) (hA : 0 < ΩA) (hB : 0 < ΩB) (hR : 0 < R) (hT : 0 < T) (hTc : 0 < Tc i)
    (hp : 0 < pc i) (hk : k i i = 0) (hm : -1 < m i) (hmκ : -Real.sqrt (ΩB / ΩA) < m i) :
    (B2vir (fun T r => (Cubic.build D1 D2 ΩA ΩB Tc pc (fun i => .basic (Tc i) (m i)) k R).alphar T r (Pi.single i 1)) T < 0 ↔
      T < Tc i * ((1 + m i) / (m i + Real.sqrt (ΩB / ΩA))) ^ 2 ∨ (Real.sqrt (ΩB / ΩA) < m i ∧ Tc i * ((1 + m i) / (m i - Real.sqrt (ΩB / ΩA))) ^ 2 < T)) ∧
    (B2vir (fun T r => (Cubic.build D1 D2 ΩA ΩB Tc pc (fun i => .basic (Tc i) (m i)) k R).alphar T r (Pi.single i 1)) T = 0 ↔
      T = Tc i * ((1 + m i) / (m i + Real.sqrt (ΩB / ΩA))) ^ 2 ∨ (Real.sqrt (ΩB / ΩA) < m i ∧ T = Tc i * ((1 + m i) / (m i - Real.sqrt (ΩB / ΩA))) ^ 2)) := by
  have hb : (Cubic.build D1 D2 ΩA ΩB Tc pc (fun i => .basic (Tc i) (m i)) k R).get_b (Pi.single i 1) = ΩB * R * Tc i / pc i := cubic_b_single _ i
  have ha := cubic_pure_a Tc pc D1 D2 ΩA ΩB R (fun i => .basic (Tc i) (m i)) k i T hA.le hp hT.le hTc.le hk
  have hκ : 0 < Real.sqrt (ΩB / ΩA) := Real.sqrt_pos.2 (div_pos hB hA)
  have hκ2 : Real.sqrt (ΩB / ΩA) ^ 2 = ΩB / ΩA := Real.sq_sqrt (div_pos hB hA).le
  have hs : 0 < Real.sqrt (T / Tc i) := Real.sqrt_pos.2 (div_pos hT hTc)
  have hs2 : T = Tc i * Real.sqrt (T / Tc i) ^ 2 := by
    rw [Real.sq_sqrt (div_pos hT hTc).le]
    field_simp
  have hval : B2vir (fun T r => (Cubic.build D1 D2 ΩA ΩB Tc pc (fun i => .basic (Tc i) (m i)) k R).alphar T r (Pi.single i 1)) T =
      ΩA * R * Tc i ^ 2 / (pc i * T) * (Real.sqrt (ΩB / ΩA) ^ 2 * Real.sqrt (T / Tc i) ^ 2 - (1 + m i * (1 - Real.sqrt (T / Tc i))) ^ 2) := by
    have h : B2vir (fun T r => (Cubic.build D1 D2 ΩA ΩB Tc pc (fun i => .basic (Tc i) (m i)) k R).alphar T r (Pi.single i 1)) T =
        (Cubic.build D1 D2 ΩA ΩB Tc pc (fun i => .basic (Tc i) (m i)) k R).get_b (Pi.single i 1) -
          (Cubic.build D1 D2 ΩA ΩB Tc pc (fun i => .basic (Tc i) (m i)) k R).get_a T (Pi.single i 1) / (R * T) := by
      unfold B2vir
      exact (cubicAlphar_slope (by rw [hb]; positivity) hD).deriv
    rw [h, hb, ha]
    simp only [AlphaFn.eval]
    rw [hκ2, show Real.sqrt (T / Tc i) ^ 2 = T / Tc i from Real.sq_sqrt (div_pos hT hTc).le]
    generalize (1 + m i * (1 - Real.sqrt (T / Tc i))) ^ 2 = A
    field_simp
  have hf : 0 < ΩA * R * Tc i ^ 2 / (pc i * T) := by positivity
  obtain ⟨g1, g2⟩ := soave_sign hm hmκ hκ hs
  have hkp : 0 < (1 + m i) / (m i + Real.sqrt (ΩB / ΩA)) := div_pos (by linarith) (by linarith)
  have e1 : T < Tc i * ((1 + m i) / (m i + Real.sqrt (ΩB / ΩA))) ^ 2 ↔ Real.sqrt (T / Tc i) < (1 + m i) / (m i + Real.sqrt (ΩB / ΩA)) := by
    conv_lhs => rw [hs2, mul_lt_mul_iff_right₀ hTc]
    rw [sq_lt_sq, abs_of_pos hs, abs_of_pos hkp]
  have e1' : T = Tc i * ((1 + m i) / (m i + Real.sqrt (ΩB / ΩA))) ^ 2 ↔ Real.sqrt (T / Tc i) = (1 + m i) / (m i + Real.sqrt (ΩB / ΩA)) := by
    constructor
    · intro h
      rw [hs2] at h
      have := mul_left_cancel₀ hTc.ne' h
      exact (sq_eq_sq₀ hs.le hkp.le).1 this
    · intro h
      rw [← h]
      exact hs2
  have e2 : (Real.sqrt (ΩB / ΩA) < m i ∧ Tc i * ((1 + m i) / (m i - Real.sqrt (ΩB / ΩA))) ^ 2 < T) ↔
      (Real.sqrt (ΩB / ΩA) < m i ∧ (1 + m i) / (m i - Real.sqrt (ΩB / ΩA)) < Real.sqrt (T / Tc i)) := by
    refine and_congr_right fun hlt => ?_
    have hq : 0 < (1 + m i) / (m i - Real.sqrt (ΩB / ΩA)) := div_pos (by linarith) (by linarith)
    conv_lhs => rw [hs2, mul_lt_mul_iff_right₀ hTc]
    rw [sq_lt_sq, abs_of_pos hs, abs_of_pos hq]
  have e2' : (Real.sqrt (ΩB / ΩA) < m i ∧ T = Tc i * ((1 + m i) / (m i - Real.sqrt (ΩB / ΩA))) ^ 2) ↔
      (Real.sqrt (ΩB / ΩA) < m i ∧ Real.sqrt (T / Tc i) = (1 + m i) / (m i - Real.sqrt (ΩB / ΩA))) := by
    refine and_congr_right fun hlt => ?_
    have hq : 0 < (1 + m i) / (m i - Real.sqrt (ΩB / ΩA)) := div_pos (by linarith) (by linarith)
    constructor
    · intro h
      rw [hs2] at h
      have := mul_left_cancel₀ hTc.ne' h
      exact (sq_eq_sq₀ hs.le hq.le).1 this
    · intro h
      rw [← h]
      exact hs2
  rw [e1, e1', e2, e2', ← g1, ← g2, hval]
  constructor
  · rw [mul_neg_iff]
    constructor
    · rintro (h | h)
      · linarith [h.2]
      · linarith [h.1]
    · intro h
      exact .inl ⟨hf, by linarith⟩
  · rw [mul_eq_zero, or_iff_right hf.ne', sub_eq_zero]

/-- What the name promises: one temperature, below it attraction wins, above it repulsion. -/
def OneBoyle (B : ℝ → ℝ) : Prop := ∃ TB > 0, B TB = 0 ∧ (∀ T, 0 < T → T < TB → B T < 0) ∧ ∀ T, TB < T → 0 < B T

/-- **C180** There is exactly one Boyle temperature precisely when the slope of the alpha function is at most `√(ΩB/ΩA)`. -/
theorem soave_one_boyle_partial (Tc pc m : ι → ℝ) (k : ι → ι → ℝ) {D1 D2 ΩA ΩB R : ℝ} (i : ι) (hD : D1 ≠ D2) (hA : 0 < ΩA) (hB : 0 < ΩB) (hR : 0 < R) (hTc : 0 < Tc i)
    (hp : 0 < pc i) (hk : k i i = 0) (hm : -1 < m i) (hmκ : -Real.sqrt (ΩB / ΩA) < m i) :
    OneBoyle (B2vir fun T r => (Cubic.build D1 D2 ΩA ΩB Tc pc (fun i => .basic (Tc i) (m i)) k R).alphar T r (Pi.single i 1)) ↔ m i ≤ Real.sqrt (ΩB / ΩA) := by
  have key := fun {T : ℝ} (hT : 0 < T) => soave_boyle Tc pc m k (D1 := D1) (D2 := D2) (ΩA := ΩA) (ΩB := ΩB) (R := R) i hD hA hB hR hT hTc hp hk hm hmκ
  have hκ : 0 < Real.sqrt (ΩB / ΩA) := Real.sqrt_pos.2 (div_pos hB hA)
  have hTB : 0 < Tc i * ((1 + m i) / (m i + Real.sqrt (ΩB / ΩA))) ^ 2 := mul_pos hTc (pow_pos (div_pos (by linarith) (by linarith)) 2)
  constructor
  · rintro ⟨TB, h0, -, -, h3⟩
    by_contra hlt
    push Not at hlt
    -- high enough it is negative
    have hT : 0 < max TB (Tc i * ((1 + m i) / (m i - Real.sqrt (ΩB / ΩA))) ^ 2) + 1 := by
      have := le_max_left TB (Tc i * ((1 + m i) / (m i - Real.sqrt (ΩB / ΩA))) ^ 2)
      linarith
    have hn := (key hT).1.2 (.inr ⟨hlt, lt_of_le_of_lt (le_max_right _ _) (lt_add_one _)⟩)
    have hpos := h3 _ (lt_of_le_of_lt (le_max_left TB (Tc i * ((1 + m i) / (m i - Real.sqrt (ΩB / ΩA))) ^ 2)) (lt_add_one _))
    linarith
  · intro hle
    refine ⟨_, hTB, (key hTB).2.2 (.inl rfl), fun T hT hlt => (key hT).1.2 (.inl hlt), fun T hlt => ?_⟩
    have hT := hTB.trans hlt
    refine lt_of_le_of_ne (not_lt.1 fun h => ?_) fun h => ?_
    · rcases (key hT).1.1 h with h | h
      · linarith
      · linarith [h.1]
    · rcases (key hT).2.1 h.symm with h | h
      · linarith
      · linarith [h.1]

theorem srk_ratio : OmegaB_SRK / OmegaA_SRK = 3 * srkU ^ 2 := by
  obtain ⟨hu0, -, -⟩ := srkU_facts
  rw [show OmegaB_SRK = srkU / 3 from rfl, show OmegaA_SRK = 1 / (9 * srkU) from rfl]
  field_simp
  norm_num

theorem srk_kappa : 0.45 < Real.sqrt (OmegaB_SRK / OmegaA_SRK) ∧ Real.sqrt (OmegaB_SRK / OmegaA_SRK) < 0.451 := by
  obtain ⟨hu0, hu1, hu3⟩ := srkU_facts
  have l : 0.2599 < srkU := by
    by_contra hc
    push Not at hc
    have : (1 + srkU) ^ 3 ≤ (1 + 0.2599) ^ 3 := pow_le_pow_left₀ (by linarith) (by linarith) 3
    rw [hu3] at this
    norm_num at this
  have u : srkU < 0.26 := by
    by_contra hc
    push Not at hc
    have : (1 + 0.26) ^ 3 ≤ (1 + srkU) ^ 3 := pow_le_pow_left₀ (by norm_num) (by linarith) 3
    rw [hu3] at this
    norm_num at this
  rw [srk_ratio]
  constructor
  · rw [Real.lt_sqrt (by norm_num)]
    nlinarith
  · rw [Real.sqrt_lt' (by norm_num)]
    nlinarith

theorem pr_kappa : 0.412 < Real.sqrt (OmegaB_PR / OmegaA_PR) ∧ Real.sqrt (OmegaB_PR / OmegaA_PR) < 0.413 := by
  constructor
  · rw [Real.lt_sqrt (by norm_num)]
    norm_num [OmegaA_PR, OmegaB_PR]
  · rw [Real.sqrt_lt' (by norm_num)]
    norm_num [OmegaA_PR, OmegaB_PR]

theorem srk_omegas : 0 < OmegaA_SRK ∧ 0 < OmegaB_SRK := by
  obtain ⟨hu0, -, -⟩ := srkU_facts
  rw [show OmegaB_SRK = srkU / 3 from rfl, show OmegaA_SRK = 1 / (9 * srkU) from rfl]
  constructor <;> positivity

/-- **C180** Soave-Redlich-Kwong: the slope of the alpha function decides, so fluids with acentric factors from `-0.5` to `-0.02` have one Boyle temperature and those from `-0.018` to `2` do not:
their second virial coefficient is negative again at high temperature. -/
theorem srk_boyle (Tc pc ω : ι → ℝ) (k : ι → ι → ℝ) {R : ℝ} (i : ι) (hR : 0 < R) (hTc : 0 < Tc i) (hp : 0 < pc i) (hk : k i i = 0) :
    (-0.5 ≤ ω i → ω i ≤ -0.02 → OneBoyle (B2vir fun T r => (canonicalSRK Tc pc ω k R).alphar T r (Pi.single i 1))) ∧
    (-0.018 ≤ ω i → ω i ≤ 2 → ¬ OneBoyle (B2vir fun T r => (canonicalSRK Tc pc ω k R).alphar T r (Pi.single i 1)) ∧
      ∃ T0 > 0, ∀ T, T0 < T → B2vir (fun T r => (canonicalSRK Tc pc ω k R).alphar T r (Pi.single i 1)) T < 0) := by
  obtain ⟨hA, hB⟩ := srk_omegas
  obtain ⟨hl, hu⟩ := srk_kappa
  constructor
  · intro h1 h2
    have hm1 : mSRK (ω i) < 0.4486 := by unfold mSRK; nlinarith
    have hm2 : -0.36 < mSRK (ω i) := by unfold mSRK; nlinarith
    exact (soave_one_boyle_partial Tc pc (fun i => mSRK (ω i)) k (D1 := 1) (D2 := 0) i (by norm_num) hA hB hR hTc hp hk (by norm_num at hm2 ⊢; linarith) (by linarith)).2 (by linarith)
  · intro h1 h2
    have hm : 0.4515 < mSRK (ω i) := by unfold mSRK; nlinarith
    have key := soave_one_boyle_partial Tc pc (fun i => mSRK (ω i)) k (D1 := 1) (D2 := 0) (R := R) i (by norm_num) hA hB hR hTc hp hk (by norm_num at hm ⊢; linarith) (by linarith)
    refine ⟨fun h => absurd (key.1 h) (by push Not; linarith), Tc i * ((1 + mSRK (ω i)) / (mSRK (ω i) - Real.sqrt (OmegaB_SRK / OmegaA_SRK))) ^ 2,
      mul_pos hTc (pow_pos (div_pos (by linarith) (by linarith)) 2), fun T hT => ?_⟩
    have hT0 : 0 < T := lt_trans (mul_pos hTc (pow_pos (div_pos (by linarith) (by linarith)) 2)) hT
    exact (soave_boyle Tc pc (fun i => mSRK (ω i)) k (D1 := 1) (D2 := 0) (R := R) i (by norm_num) hA hB hR hT0 hTc hp hk (by norm_num at hm ⊢; linarith) (by linarith)).1.2
      (.inr ⟨by linarith, hT⟩)

/-- **C180** Peng-Robinson with the same alpha function: one Boyle temperature from `-0.4` to `0.024`, not so from `0.026` to `2` (the 1978 polynomial included). -/
theorem pr_boyle (Tc pc ω : ι → ℝ) (k : ι → ι → ℝ) {R : ℝ} (i : ι) (hR : 0 < R) (hTc : 0 < Tc i) (hp : 0 < pc i) (hk : k i i = 0) :
    (-0.4 ≤ ω i → ω i ≤ 0.024 → OneBoyle (B2vir fun T r => (prModel Tc pc ω k R).alphar T r (Pi.single i 1))) ∧
    (0.026 ≤ ω i → ω i ≤ 2 → ¬ OneBoyle (B2vir fun T r => (prModel Tc pc ω k R).alphar T r (Pi.single i 1)) ∧
      ∃ T0 > 0, ∀ T, T0 < T → B2vir (fun T r => (prModel Tc pc ω k R).alphar T r (Pi.single i 1)) T < 0) := by
  have hA : 0 < OmegaA_PR := by norm_num [OmegaA_PR]
  have hB : 0 < OmegaB_PR := by norm_num [OmegaB_PR]
  have hD : 1 + Real.sqrt 2 ≠ 1 - Real.sqrt 2 := by
    have : 0 < Real.sqrt 2 := by positivity
    intro h
    linarith
  obtain ⟨hl, hu⟩ := pr_kappa
  constructor
  · intro h1 h2
    have hlt : ω i < 0.491 := by linarith
    have hm1 : mPR (ω i) < 0.4117 := by unfold mPR; rw [if_pos hlt]; nlinarith
    have hm2 : -0.4 < mPR (ω i) := by unfold mPR; rw [if_pos hlt]; nlinarith
    exact (soave_one_boyle_partial Tc pc (fun i => mPR (ω i)) k i hD hA hB hR hTc hp hk (by norm_num at hm2 ⊢; linarith) (by linarith)).2 (by linarith)
  · intro h1 h2
    have hm : 0.413 < mPR (ω i) := by
      unfold mPR
      split_ifs with hlt
      · nlinarith
      · push Not at hlt
        have h3 : 0 ≤ ω i ^ 3 := by positivity
        nlinarith
    have key := soave_one_boyle_partial Tc pc (fun i => mPR (ω i)) k (R := R) i hD hA hB hR hTc hp hk (by norm_num at hm ⊢; linarith) (by linarith)
    refine ⟨fun h => absurd (key.1 h) (by push Not; linarith), Tc i * ((1 + mPR (ω i)) / (mPR (ω i) - Real.sqrt (OmegaB_PR / OmegaA_PR))) ^ 2,
      mul_pos hTc (pow_pos (div_pos (by linarith) (by linarith)) 2), fun T hT => ?_⟩
    have hT0 : 0 < T := lt_trans (mul_pos hTc (pow_pos (div_pos (by linarith) (by linarith)) 2)) hT
    exact (soave_boyle Tc pc (fun i => mPR (ω i)) k (R := R) i hD hA hB hR hT0 hTc hp hk (by norm_num at hm ⊢; linarith) (by linarith)).1.2
      (.inr ⟨by linarith, hT⟩)

/-- Helium: one Boyle temperature. -/
example : OneBoyle (B2vir fun T r => (canonicalSRK (ι := Fin 2) ![5.1953, 617.7] ![227600, 2103000] ![-0.385, 0.488] (fun _ _ => 0) 8.314).alphar T r (Pi.single 0 1)) :=
  (srk_boyle _ _ _ _ 0 (by norm_num) (by norm_num) (by norm_num) rfl).1 (by norm_num) (by norm_num)

/-- Decane: two, and at 6000 K the second virial coefficient is negative. -/
example : B2vir (fun T r => (canonicalSRK (ι := Fin 2) ![5.1953, 617.7] ![227600, 2103000] ![-0.385, 0.488] (fun _ _ => 0) 8.314).alphar T r (Pi.single 1 1)) 6000 < 0 := by
  obtain ⟨hA, hB⟩ := srk_omegas
  obtain ⟨hl, hu⟩ := srk_kappa
  refine (soave_boyle _ _ (fun i => mSRK ((![-0.385, 0.488] : Fin 2 → ℝ) i)) _ (D1 := 1) (D2 := 0) 1 (by norm_num) hA hB (by norm_num) (by norm_num) (by norm_num) (by norm_num) rfl
    (by norm_num [mSRK]) (by norm_num [mSRK] at hl ⊢; linarith)).1.2 (.inr ⟨by norm_num [mSRK] at hu ⊢; linarith, ?_⟩)
  have hm : mSRK ((![-0.385, 0.488] : Fin 2 → ℝ) 1) = 1.206198656 := by norm_num [mSRK]
  rw [hm, show (![5.1953, 617.7] : Fin 2 → ℝ) 1 = 617.7 from rfl]
  have h1 : (1 + 1.206198656) / (1.206198656 - Real.sqrt (OmegaB_SRK / OmegaA_SRK)) < 2.93 := by
    rw [div_lt_iff₀ (by linarith)]
    linarith
  have h0 : 0 < (1 + 1.206198656) / (1.206198656 - Real.sqrt (OmegaB_SRK / OmegaA_SRK)) := div_pos (by norm_num) (by linarith)
  nlinarith

/-- Nitrogen with Peng-Robinson is on the wrong side as well; methane is not. -/
example : ¬ OneBoyle (B2vir fun T r => (prModel (ι := Fin 2) ![126.2, 190.564] ![3390000, 4599200] ![0.037, 0.0114] (fun _ _ => 0) 8.314).alphar T r (Pi.single 0 1)) ∧
    OneBoyle (B2vir fun T r => (prModel (ι := Fin 2) ![126.2, 190.564] ![3390000, 4599200] ![0.037, 0.0114] (fun _ _ => 0) 8.314).alphar T r (Pi.single 1 1)) :=
  ⟨((pr_boyle _ _ _ _ 0 (by norm_num) (by norm_num) (by norm_num) rfl).2 (by norm_num) (by norm_num)).1,
    (pr_boyle _ _ _ _ 1 (by norm_num) (by norm_num) (by norm_num) rfl).1 (by norm_num) (by norm_num)⟩

/-- Twu's alpha function divided by the reduced temperature falls, from any height to any depth. -/
theorem twu_crossing {L p q c : ℝ} (hL : 0 ≤ L) (hp : p < 0) (hq : 0 ≤ q) (hc : 0 < c) :
    ∃ t0 > 0, t0 ^ p * Real.exp (L * (1 - t0 ^ q)) = c ∧ (∀ t, 0 < t → t < t0 → c < t ^ p * Real.exp (L * (1 - t ^ q))) ∧
      ∀ t, t0 < t → t ^ p * Real.exp (L * (1 - t ^ q)) < c := by
  have anti : ∀ t t' : ℝ, 0 < t → t < t' → t' ^ p * Real.exp (L * (1 - t' ^ q)) < t ^ p * Real.exp (L * (1 - t ^ q)) := by
    intro t t' ht htt
    have h1 : t' ^ p < t ^ p := Real.rpow_lt_rpow_of_neg ht htt hp
    have h2 : t ^ q ≤ t' ^ q := Real.rpow_le_rpow ht.le htt.le hq
    have h3 : Real.exp (L * (1 - t' ^ q)) ≤ Real.exp (L * (1 - t ^ q)) := Real.exp_le_exp.2 (by nlinarith)
    exact mul_lt_mul h1 h3 (Real.exp_pos _) (Real.rpow_pos_of_pos ht p).le
  have root : ∀ y : ℝ, 0 < y → 0 < y ^ p⁻¹ ∧ (y ^ p⁻¹) ^ p = y := fun y hy =>
    ⟨Real.rpow_pos_of_pos hy _, by rw [← Real.rpow_mul hy.le, inv_mul_cancel₀ hp.ne, Real.rpow_one]⟩
  -- a reduced temperature below one where the quotient is large
  obtain ⟨hy1, hy2⟩ := root (c + 1) (by linarith)
  have lo : ∃ a, 0 < a ∧ a ≤ 1 ∧ c < a ^ p * Real.exp (L * (1 - a ^ q)) := by
    refine ⟨min 1 ((c + 1) ^ p⁻¹), lt_min one_pos hy1, min_le_left _ _, ?_⟩
    generalize ha : min 1 ((c + 1) ^ p⁻¹) = a
    have ha0 : 0 < a := by rw [← ha]; exact lt_min one_pos hy1
    have ha1 : a ≤ 1 := by rw [← ha]; exact min_le_left _ _
    have h1 : c + 1 ≤ a ^ p := by
      rw [← hy2]
      exact Real.rpow_le_rpow_of_nonpos ha0 (by rw [← ha]; exact min_le_right _ _) hp.le
    have h2 : a ^ q ≤ 1 := Real.rpow_le_one ha0.le ha1 hq
    have h3 : 1 ≤ Real.exp (L * (1 - a ^ q)) := Real.one_le_exp (mul_nonneg hL (by linarith))
    nlinarith
  obtain ⟨hz1, hz2⟩ := root (c / 2) (by linarith)
  have hi : ∃ b, 1 ≤ b ∧ b ^ p * Real.exp (L * (1 - b ^ q)) < c := by
    refine ⟨max 1 ((c / 2) ^ p⁻¹), le_max_left _ _, ?_⟩
    generalize hb : max 1 ((c / 2) ^ p⁻¹) = b
    have hb1 : 1 ≤ b := by rw [← hb]; exact le_max_left _ _
    have h1 : b ^ p ≤ c / 2 := by
      rw [← hz2]
      exact Real.rpow_le_rpow_of_nonpos hz1 (by rw [← hb]; exact le_max_right _ _) hp.le
    have h2 : 1 ≤ b ^ q := Real.one_le_rpow hb1 hq
    have h3 : Real.exp (L * (1 - b ^ q)) ≤ 1 := Real.exp_le_one_iff.2 (by nlinarith)
    have h4 : 0 < b ^ p := Real.rpow_pos_of_pos (by linarith) p
    nlinarith
  obtain ⟨a, ha0, ha1, ha⟩ := lo
  obtain ⟨b, hb1, hb⟩ := hi
  have cont : ContinuousOn (fun t : ℝ => t ^ p * Real.exp (L * (1 - t ^ q))) (Set.Icc a b) := by
    have hr : ∀ r : ℝ, ContinuousOn (fun t : ℝ => t ^ r) (Set.Icc a b) := fun r t ht =>
      (Real.continuousAt_rpow_const t r (.inl (by linarith [ht.1]))).continuousWithinAt
    exact (hr p).mul (Real.continuous_exp.comp_continuousOn (continuousOn_const.mul (continuousOn_const.sub (hr q))))
  obtain ⟨t0, ht0, he⟩ := intermediate_value_Icc' (ha1.trans hb1) cont ⟨hb.le, ha.le⟩
  have he' : t0 ^ p * Real.exp (L * (1 - t0 ^ q)) = c := he
  have h0 : 0 < t0 := by linarith [ht0.1]
  exact ⟨t0, h0, he', fun t h h' => he' ▸ anti t t0 h h', fun t h => he' ▸ anti t0 t h0 h⟩

/-- **C180** With Twu's alpha function there is exactly one Boyle temperature, whatever the acentric factor: any constants of the cubic, Twu parameters with `c0 ≥ 0`, `c1 c2 ≥ 0` and
`c2 (c1 - 1) < 1`. -/
theorem twu_one_boyle (Tc pc : ι → ℝ) (c : ι → Fin 3 → ℝ) (k : ι → ι → ℝ) {D1 D2 ΩA ΩB R : ℝ} (i : ι) (hD : D1 ≠ D2) (hA : 0 < ΩA) (hB : 0 < ΩB) (hR : 0 < R) (hTc : 0 < Tc i)
    (hp : 0 < pc i) (hk : k i i = 0) (h0 : 0 ≤ c i 0) (h12 : 0 ≤ c i 1 * c i 2) (h2 : c i 2 * (c i 1 - 1) < 1) :
    OneBoyle (B2vir fun T r => (Cubic.build D1 D2 ΩA ΩB Tc pc (fun i => .twu (Tc i) (c i 0) (c i 1) (c i 2)) k R).alphar T r (Pi.single i 1)) := by
  have hval : ∀ t : ℝ, 0 < t → B2vir (fun T r => (Cubic.build D1 D2 ΩA ΩB Tc pc (fun i => .twu (Tc i) (c i 0) (c i 1) (c i 2)) k R).alphar T r (Pi.single i 1)) (Tc i * t) =
      ΩA * R * Tc i / pc i * (ΩB / ΩA - t ^ (c i 2 * (c i 1 - 1) - 1) * Real.exp (c i 0 * (1 - t ^ (c i 1 * c i 2)))) := by
    intro t ht
    have hb : (Cubic.build D1 D2 ΩA ΩB Tc pc (fun i => .twu (Tc i) (c i 0) (c i 1) (c i 2)) k R).get_b (Pi.single i 1) = ΩB * R * Tc i / pc i := cubic_b_single _ i
    have ha := cubic_pure_a Tc pc D1 D2 ΩA ΩB R (fun i => .twu (Tc i) (c i 0) (c i 1) (c i 2)) k i (Tc i * t) hA.le hp (by positivity) hTc.le hk
    have h : B2vir (fun T r => (Cubic.build D1 D2 ΩA ΩB Tc pc (fun i => .twu (Tc i) (c i 0) (c i 1) (c i 2)) k R).alphar T r (Pi.single i 1)) (Tc i * t) =
        (Cubic.build D1 D2 ΩA ΩB Tc pc (fun i => .twu (Tc i) (c i 0) (c i 1) (c i 2)) k R).get_b (Pi.single i 1) -
          (Cubic.build D1 D2 ΩA ΩB Tc pc (fun i => .twu (Tc i) (c i 0) (c i 1) (c i 2)) k R).get_a (Tc i * t) (Pi.single i 1) / (R * (Tc i * t)) := by
      unfold B2vir
      exact (cubicAlphar_slope (by rw [hb]; positivity) hD).deriv
    rw [h, hb, ha]
    simp only [AlphaFn.eval]
    rw [mul_div_cancel_left₀ t hTc.ne', Real.rpow_sub_one ht.ne']
    generalize t ^ (c i 2 * (c i 1 - 1)) = A
    generalize Real.exp (c i 0 * (1 - t ^ (c i 1 * c i 2))) = E
    field_simp
  obtain ⟨t0, ht0, he, hlt, hgt⟩ := twu_crossing (p := c i 2 * (c i 1 - 1) - 1) h0 (by linarith) h12 (div_pos hB hA)
  have hf : 0 < ΩA * R * Tc i / pc i := by positivity
  have scale : ∀ T : ℝ, T = Tc i * (T / Tc i) := fun T => by field_simp
  refine ⟨Tc i * t0, by positivity, ?_, fun T hT h => ?_, fun T h => ?_⟩
  · rw [hval t0 ht0, he, sub_self, mul_zero]
  · have ht : 0 < T / Tc i := div_pos hT hTc
    rw [scale T, hval _ ht]
    have := hlt _ ht (by rw [div_lt_iff₀ hTc]; linarith)
    exact mul_neg_of_pos_of_neg hf (by linarith)
  · have hT : 0 < T := lt_trans (by positivity) h
    have ht : 0 < T / Tc i := div_pos hT hTc
    rw [scale T, hval _ ht]
    have := hgt (T / Tc i) (by rw [lt_div_iff₀ hTc]; linarith)
    exact mul_pos hf (by linarith)

/-- Twu parameters of decane, Peng-Robinson constants. -/
example : OneBoyle (B2vir fun T r => (Cubic.build (ι := Fin 1) (1 + Real.sqrt 2) (1 - Real.sqrt 2) OmegaA_PR OmegaB_PR ![617.7] ![2103000]
    (fun i => .twu ((![617.7] : Fin 1 → ℝ) i) ((fun _ => ![0.3863, 0.8440, 2.4197] : Fin 1 → Fin 3 → ℝ) i 0) ((fun _ => ![0.3863, 0.8440, 2.4197] : Fin 1 → Fin 3 → ℝ) i 1)
      ((fun _ => ![0.3863, 0.8440, 2.4197] : Fin 1 → Fin 3 → ℝ) i 2)) (fun _ _ => 0) 8.314).alphar T r (Pi.single 0 1)) :=
  twu_one_boyle _ _ _ _ 0 (by have : 0 < Real.sqrt 2 := by positivity
                              intro h
                              linarith) (by norm_num [OmegaA_PR]) (by norm_num [OmegaB_PR]) (by norm_num) (by norm_num) (by norm_num) rfl (by norm_num)
    (by simp [Matrix.cons_val_one]; norm_num) (by simp [Matrix.cons_val_one]; norm_num)

end Teqp.Props
