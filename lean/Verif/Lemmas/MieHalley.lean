import Mathlib.Analysis.SpecialFunctions.Pow.Deriv
import Mathlib.Analysis.Calculus.Deriv.MeanValue
import Mathlib.Tactic.LinearCombination
import Mathlib.Tactic.Positivity
import Mathlib.Tactic.FieldSimp
import Mathlib.Tactic.Linarith

/-! # Halley's method for `x^r - x^a = c` -/

set_option autoImplicit false

namespace Teqp.Lemmas

section
variable (r a c : ℝ)

/-- The difference of the two powers. -/
noncomputable def gapF (x : ℝ) : ℝ := x ^ r - x ^ a
/-- `x` times its first derivative. -/
noncomputable def gapD (x : ℝ) : ℝ := r * x ^ r - a * x ^ a
/-- `x²` times its second derivative. -/
noncomputable def gapW (x : ℝ) : ℝ := (r - 1) * (r * x ^ r) - (a - 1) * (a * x ^ a)
/-- `x` times the derivative of `gapW`. -/
noncomputable def gapV (x : ℝ) : ℝ := r * (r - 1) * (r * x ^ r) - a * (a - 1) * (a * x ^ a)

/-- One step of Halley's method. -/
noncomputable def gapH (x : ℝ) : ℝ :=
  x * (1 + 2 * (c - gapF r a x) * gapD r a x / (2 * gapD r a x ^ 2 + (c - gapF r a x) * gapW r a x))

/-- The numerator of the derivative of `gapH`, apart from the square of the residual. -/
noncomputable def gapE (x : ℝ) : ℝ := 3 * gapW r a x ^ 2 + 4 * gapD r a x * gapW r a x - 2 * gapD r a x * gapV r a x

variable {r a c}

theorem gap_pow_deriv {x : ℝ} (hx : 0 < x) (l : ℝ) : HasDerivAt (fun x : ℝ => x ^ l) (l * x ^ l / x) x := by
  refine (Real.hasDerivAt_rpow_const (Or.inl hx.ne')).congr_deriv ?_
  rw [Real.rpow_sub_one hx.ne' l, mul_div_assoc]

theorem gapF_deriv {x : ℝ} (hx : 0 < x) : HasDerivAt (gapF r a) (gapD r a x / x) x := by
  refine ((gap_pow_deriv hx r).sub (gap_pow_deriv hx a)).congr_deriv ?_
  unfold gapD
  ring

theorem gapD_deriv {x : ℝ} (hx : 0 < x) : HasDerivAt (gapD r a) ((gapW r a x + gapD r a x) / x) x := by
  refine (((gap_pow_deriv hx r).const_mul r).sub ((gap_pow_deriv hx a).const_mul a)).congr_deriv ?_
  unfold gapD gapW
  ring

theorem gapW_deriv {x : ℝ} (hx : 0 < x) : HasDerivAt (gapW r a) (gapV r a x / x) x := by
  refine ((((gap_pow_deriv hx r).const_mul r).const_mul (r - 1)).sub (((gap_pow_deriv hx a).const_mul a).const_mul (a - 1))).congr_deriv ?_
  unfold gapV
  ring

theorem gapH_deriv {x : ℝ} (hx : 0 < x) (hM : 2 * gapD r a x ^ 2 + (c - gapF r a x) * gapW r a x ≠ 0) :
    HasDerivAt (gapH r a c) ((c - gapF r a x) ^ 2 * gapE r a x / (2 * gapD r a x ^ 2 + (c - gapF r a x) * gapW r a x) ^ 2) x := by
  have hF := (gapF_deriv (r := r) (a := a) hx).const_sub c
  have hD := gapD_deriv (r := r) (a := a) hx
  have hW := gapW_deriv (r := r) (a := a) hx
  have hN := (hF.const_mul 2).mul hD
  have hMd := ((hD.pow 2).const_mul 2).add (hF.mul hW)
  have h := (hasDerivAt_id x).mul ((hN.div hMd hM).const_add 1)
  refine h.congr_deriv ?_
  simp only [id, Pi.add_apply, Pi.mul_apply, Pi.div_apply, Pi.pow_apply]
  unfold gapE
  generalize gapF r a x = F at hM ⊢
  generalize gapD r a x = D at hM ⊢
  generalize gapW r a x = W at hM ⊢
  generalize gapV r a x = V at hM ⊢
  have hx' := hx.ne'
  field_simp
  ring

/-- Where the difference rises it does so further out. -/
theorem gapD_pos_of_le (ha : 0 < a) (har : a < r) {x t : ℝ} (hx : 0 < x) (hD : 0 < gapD r a x) (hxt : x ≤ t) : 0 < gapD r a t := by
  have ht : 0 < t := lt_of_lt_of_le hx hxt
  have h1 : 1 ≤ t / x := (one_le_div hx).2 hxt
  have e : ∀ l : ℝ, t ^ l = x ^ l * (t / x) ^ l := by
    intro l
    rw [← Real.mul_rpow hx.le (by positivity), mul_div_cancel₀ _ hx.ne']
  have h2 : (t / x) ^ a ≤ (t / x) ^ r := Real.rpow_le_rpow_of_exponent_le h1 har.le
  have h3 : 0 < (t / x) ^ a := Real.rpow_pos_of_pos (by linarith) _
  have h4 : 0 < x ^ r := Real.rpow_pos_of_pos hx _
  unfold gapD at *
  rw [e, e]
  have h5 : r * x ^ r * (t / x) ^ a ≤ r * x ^ r * (t / x) ^ r := mul_le_mul_of_nonneg_left h2 (mul_pos (by linarith) h4).le
  have h6 : 0 < (r * x ^ r - a * x ^ a) * (t / x) ^ a := mul_pos hD h3
  linarith

theorem gapW_pos (ha : 0 < a) (har : a < r) (hr1 : 1 ≤ r) {x : ℝ} (hx : 0 < x) (hD : 0 < gapD r a x) : 0 < gapW r a x := by
  have h4 : 0 < x ^ a := Real.rpow_pos_of_pos hx _
  have e : gapW r a x = (r - 1) * gapD r a x + (r - a) * (a * x ^ a) := by
    unfold gapW gapD
    ring
  rw [e]
  have := mul_nonneg (sub_nonneg.2 hr1) hD.le
  have := mul_pos (sub_pos.2 har) (mul_pos ha h4)
  linarith

theorem gapE_eq (x : ℝ) : gapE r a x = 3 * ((r - a) * (a * x ^ a)) ^ 2 + 2 * (2 * r - a) * ((r - a) * (a * x ^ a)) * gapD r a x
    + (r ^ 2 - 1) * gapD r a x ^ 2 := by
  unfold gapE gapW gapV gapD
  ring

theorem gapE_nonneg (ha : 0 < a) (har : a < r) (hr1 : 1 ≤ r) {x : ℝ} (hx : 0 < x) (hD : 0 < gapD r a x) : 0 ≤ gapE r a x := by
  have h4 : 0 < x ^ a := Real.rpow_pos_of_pos hx _
  rw [gapE_eq]
  have h1 : 0 < (r - a) * (a * x ^ a) := mul_pos (sub_pos.2 har) (mul_pos ha h4)
  have h2 : 0 < 2 * r - a := by linarith
  have h3 : 0 ≤ r ^ 2 - 1 := by nlinarith
  positivity

/-- Outside of one the small power is bounded by the derivative. -/
theorem gapQ_le (ha : 0 < a) (har : a < r) {x : ℝ} (hx : 1 ≤ x) : (r - a) * (a * x ^ a) ≤ a * gapD r a x := by
  have h : x ^ a ≤ x ^ r := Real.rpow_le_rpow_of_exponent_le hx har.le
  unfold gapD
  nlinarith [mul_pos ha (ha.trans har)]

theorem gapD_pos (ha : 0 < a) (har : a < r) {x : ℝ} (hx : 1 ≤ x) : 0 < gapD r a x := by
  have h : x ^ a ≤ x ^ r := Real.rpow_le_rpow_of_exponent_le hx har.le
  have h4 : 0 < x ^ a := Real.rpow_pos_of_pos (by linarith) _
  unfold gapD
  nlinarith

theorem gapE_le (ha : 0 < a) (har : a < r) {x : ℝ} (hx : 1 ≤ x) : gapE r a x ≤ 6 * r ^ 2 * gapD r a x ^ 2 := by
  have hq := gapQ_le ha har hx
  have hD := gapD_pos ha har hx
  have h4 : 0 < x ^ a := Real.rpow_pos_of_pos (by linarith) _
  rw [gapE_eq]
  have h1 : 0 < (r - a) * (a * x ^ a) := mul_pos (sub_pos.2 har) (mul_pos ha h4)
  generalize (r - a) * (a * x ^ a) = q at *
  generalize gapD r a x = D at *
  have s1 : q ^ 2 ≤ (a * D) ^ 2 := pow_le_pow_left₀ h1.le hq 2
  have s2 : (2 * r - a) * (q * D) ≤ (2 * r - a) * (a * D * D) :=
    mul_le_mul_of_nonneg_left (mul_le_mul_of_nonneg_right hq hD.le) (by linarith)
  have s3 : (a ^ 2 + 4 * r * a + r ^ 2 - 1) * D ^ 2 ≤ 6 * r ^ 2 * D ^ 2 := by
    refine mul_le_mul_of_nonneg_right ?_ (sq_nonneg D)
    nlinarith
  nlinarith

/-- The difference rises. -/
theorem gapF_mono (ha : 0 < a) (har : a < r) {x y : ℝ} (hx : 0 < x) (hD : 0 < gapD r a x) (hxy : x ≤ y) : gapF r a x ≤ gapF r a y := by
  rcases hxy.lt_or_eq with h | h
  · obtain ⟨t, ht, e⟩ := exists_hasDerivAt_eq_slope (gapF r a) (fun t => gapD r a t / t) h
      (fun t ht => (gapF_deriv (lt_of_lt_of_le hx ht.1)).continuousAt.continuousWithinAt) (fun t ht => gapF_deriv (hx.trans ht.1))
    have ht0 := hx.trans ht.1
    have hDt := gapD_pos_of_le ha har hx hD ht.1.le
    have h2 : 0 < (gapF r a y - gapF r a x) / (y - x) := by rw [← e]; positivity
    have h3 := (div_pos_iff_of_pos_right (sub_pos.2 h)).1 h2
    linarith
  · rw [h]

/-- A step from the outer side of the root moves towards the root and does not pass it. -/
theorem gapH_between (ha : 0 < a) (har : a < r) (hr1 : 1 ≤ r) {x y : ℝ} (hx : 0 < x) (hD : 0 < gapD r a x) (hxy : x ≤ y) (hy : gapF r a y = c) :
    x ≤ gapH r a c x ∧ gapH r a c x ≤ y := by
  have key : ∀ t, x ≤ t → t ≤ y → 0 < gapD r a t ∧ 0 < gapW r a t ∧ 0 ≤ c - gapF r a t ∧
      0 < 2 * gapD r a t ^ 2 + (c - gapF r a t) * gapW r a t := by
    intro t h1 h2
    have ht := lt_of_lt_of_le hx h1
    have d := gapD_pos_of_le ha har hx hD h1
    have w := gapW_pos ha har hr1 ht d
    have f : 0 ≤ c - gapF r a t := by
      rw [← hy]
      exact sub_nonneg.2 (gapF_mono ha har ht d h2)
    refine ⟨d, w, f, ?_⟩
    have := mul_nonneg f w.le
    positivity
  constructor
  · obtain ⟨d, w, f, m⟩ := key x le_rfl hxy
    unfold gapH
    have : 0 ≤ 2 * (c - gapF r a x) * gapD r a x / (2 * gapD r a x ^ 2 + (c - gapF r a x) * gapW r a x) := by positivity
    nlinarith
  · have hyy : gapH r a c y = y := by
      unfold gapH
      rw [hy]
      simp
    rcases hxy.lt_or_eq with h | h
    · obtain ⟨t, ht, e⟩ := exists_hasDerivAt_eq_slope (gapH r a c) _ h
        (fun t ht => (gapH_deriv (lt_of_lt_of_le hx ht.1) (key t ht.1 ht.2).2.2.2.ne').continuousAt.continuousWithinAt)
        (fun t ht => gapH_deriv (hx.trans ht.1) (key t ht.1.le ht.2.le).2.2.2.ne')
      obtain ⟨d, w, f, m⟩ := key t ht.1.le ht.2.le
      have hE := gapE_nonneg ha har hr1 (hx.trans ht.1) d
      have h2 : 0 ≤ (gapH r a c y - gapH r a c x) / (y - x) := by rw [← e]; positivity
      rw [hyy, div_nonneg_iff] at h2
      rcases h2 with h2 | h2
      · linarith [h2.1]
      · linarith [h2.2]
    · rw [h, hyy]

/-- The first derivative rises. -/
theorem gapD_div_mono (ha : 1 ≤ a) (har : a < r) {x y : ℝ} (hx : 1 ≤ x) (hxy : x ≤ y) : gapD r a x / x ≤ gapD r a y / y := by
  have e : ∀ t : ℝ, 0 < t → gapD r a t / t = t ^ (a - 1) * (r * t ^ (r - a) - a) := by
    intro t ht
    unfold gapD
    rw [Real.rpow_sub_one ht.ne', Real.rpow_sub ht]
    have := (Real.rpow_pos_of_pos ht a).ne'
    field_simp
  rw [e x (by linarith), e y (by linarith)]
  have p1 : x ^ (a - 1) ≤ y ^ (a - 1) := Real.rpow_le_rpow (by linarith) hxy (by linarith)
  have p2 : x ^ (r - a) ≤ y ^ (r - a) := Real.rpow_le_rpow (by linarith) hxy (by linarith)
  have p3 : 1 ≤ x ^ (r - a) := Real.one_le_rpow hx (by linarith)
  have p4 : 0 ≤ y ^ (a - 1) := (Real.rpow_pos_of_pos (by linarith) _).le
  refine mul_le_mul p1 ?_ ?_ p4
  · nlinarith
  · nlinarith

/-- The growth of the derivative is bounded by that of the difference. -/
theorem gapD_le (ha : 0 < a) (har : a < r) {x y : ℝ} (hx : 1 ≤ x) (hxy : x ≤ y) :
    gapD r a y ≤ gapD r a x + 2 * r * (gapF r a y - gapF r a x) := by
  rcases hxy.lt_or_eq with h | h
  · have hd : ∀ t, 1 ≤ t → HasDerivAt (fun t => gapD r a t - 2 * r * gapF r a t) ((gapW r a t + gapD r a t) / t - 2 * r * (gapD r a t / t)) t :=
      fun t ht => (gapD_deriv (by linarith)).sub ((gapF_deriv (by linarith)).const_mul (2 * r))
    obtain ⟨t, ht, e⟩ := exists_hasDerivAt_eq_slope (fun t => gapD r a t - 2 * r * gapF r a t) _ h
      (fun t ht => (hd t (hx.trans ht.1)).continuousAt.continuousWithinAt) (fun t ht => hd t (hx.trans ht.1.le))
    have ht1 : 1 ≤ t := hx.trans ht.1.le
    have hs : (gapW r a t + gapD r a t) / t - 2 * r * (gapD r a t / t) ≤ 0 := by
      rw [show (gapW r a t + gapD r a t) / t - 2 * r * (gapD r a t / t) = (gapW r a t + gapD r a t - 2 * r * gapD r a t) / t by ring]
      refine div_nonpos_of_nonpos_of_nonneg ?_ (by linarith)
      have hp : t ^ a ≤ t ^ r := Real.rpow_le_rpow_of_exponent_le ht1 har.le
      have h4 : 0 < t ^ a := Real.rpow_pos_of_pos (by linarith) _
      have e2 : gapW r a t + gapD r a t - 2 * r * gapD r a t = -(r ^ 2 * (t ^ r - t ^ a)) - (r - a) ^ 2 * t ^ a := by
        unfold gapW gapD
        ring
      rw [e2]
      have := mul_nonneg (sq_nonneg r) (sub_nonneg.2 hp)
      have := mul_nonneg (sq_nonneg (r - a)) h4.le
      linarith
    rw [e, div_nonpos_iff] at hs
    rcases hs with hs | hs
    · linarith [hs.2]
    · linarith [hs.1]
  · rw [h]
    linarith

/-- The third power of the relative residual after a step. -/
theorem gapH_cubic (ha : 1 ≤ a) (har : a < r) {x y q : ℝ} (hx : 1 ≤ x) (hxy : x ≤ y) (hy : gapF r a y = c)
    (hq : r * (c - gapF r a x) ≤ q * gapD r a x) :
    r * (c - gapF r a (gapH r a c x)) ≤
      3 / 2 * q ^ 3 * (gapD r a (gapH r a c x) + 2 * (r * (c - gapF r a (gapH r a c x)))) := by
  have ha0 : 0 < a := by linarith
  have hx0 : 0 < x := by linarith
  have hr1 : 1 ≤ r := by linarith
  have hDx := gapD_pos ha0 har hx
  obtain ⟨b1, b2⟩ := gapH_between ha0 har hr1 hx0 hDx hxy hy
  have hx' : 1 ≤ gapH r a c x := hx.trans b1
  have hy1 : 1 ≤ y := hx.trans hxy
  have hf : 0 ≤ c - gapF r a x := by
    rw [← hy]
    exact sub_nonneg.2 (gapF_mono ha0 har hx0 hDx hxy)
  have hq0 : 0 ≤ q := by
    by_contra hn
    have := mul_neg_of_neg_of_pos (not_le.1 hn) hDx
    have := mul_nonneg (by linarith : (0 : ℝ) ≤ r) hf
    linarith
  -- slopes of the difference
  have slope : ∀ s, 1 ≤ s → s ≤ y → gapD r a s / s * (y - s) ≤ c - gapF r a s ∧ c - gapF r a s ≤ gapD r a y / y * (y - s) := by
    intro s h1 h2
    rcases h2.lt_or_eq with h | h
    · obtain ⟨t, ht, e⟩ := exists_hasDerivAt_eq_slope (gapF r a) (fun t => gapD r a t / t) h
        (fun t ht => (gapF_deriv (by linarith [ht.1])).continuousAt.continuousWithinAt) (fun t ht => gapF_deriv (by linarith [ht.1]))
      have hpos : 0 < y - s := sub_pos.2 h
      have e2 : c - gapF r a s = gapD r a t / t * (y - s) := by
        rw [e, hy, div_mul_cancel₀ _ hpos.ne']
      rw [e2]
      exact ⟨mul_le_mul_of_nonneg_right (gapD_div_mono ha har h1 ht.1.le) hpos.le,
        mul_le_mul_of_nonneg_right (gapD_div_mono ha har (h1.trans ht.1.le) ht.2.le) hpos.le⟩
    · rw [h, hy]
      simp
  -- the derivative of the step
  have hstep : y - gapH r a c x ≤ 3 / 2 * q ^ 2 * (y - x) := by
    have hyy : gapH r a c y = y := by
      unfold gapH
      rw [hy]
      simp
    rcases hxy.lt_or_eq with h | h
    · have key : ∀ t, x ≤ t → t ≤ y → 0 < gapD r a t ∧ 0 ≤ c - gapF r a t ∧ 2 * gapD r a t ^ 2 ≤ 2 * gapD r a t ^ 2 + (c - gapF r a t) * gapW r a t := by
        intro t h1 h2
        have ht : 0 < t := by linarith
        have d := gapD_pos ha0 har (hx.trans h1)
        have w := gapW_pos ha0 har hr1 ht d
        have f : 0 ≤ c - gapF r a t := by
          rw [← hy]
          exact sub_nonneg.2 (gapF_mono ha0 har ht d h2)
        exact ⟨d, f, by linarith [mul_nonneg f w.le]⟩
      have kne : ∀ t, x ≤ t → t ≤ y → 2 * gapD r a t ^ 2 + (c - gapF r a t) * gapW r a t ≠ 0 := by
        intro t h1 h2
        obtain ⟨d, _, m⟩ := key t h1 h2
        have : 0 < 2 * gapD r a t ^ 2 := by positivity
        linarith
      obtain ⟨t, ht, e⟩ := exists_hasDerivAt_eq_slope (gapH r a c) _ h
        (fun t ht => (gapH_deriv (by linarith [ht.1]) (kne t ht.1 ht.2)).continuousAt.continuousWithinAt)
        (fun t ht => gapH_deriv (by linarith [ht.1]) (kne t ht.1.le ht.2.le))
      obtain ⟨d, f, m⟩ := key t ht.1.le ht.2.le
      have ht1 : 1 ≤ t := hx.trans ht.1.le
      have hE := gapE_le ha0 har ht1
      -- the relative residual has fallen
      have hrel : r * (c - gapF r a t) ≤ q * gapD r a t := by
        have m1 : gapF r a x ≤ gapF r a t := gapF_mono ha0 har hx0 hDx ht.1.le
        have m2 : gapD r a x ≤ gapD r a t := by
          have := gapD_div_mono ha har hx ht.1.le
          rw [div_le_div_iff₀ hx0 (by linarith)] at this
          nlinarith [mul_le_mul_of_nonneg_left ht.1.le hDx.le]
        calc r * (c - gapF r a t) ≤ r * (c - gapF r a x) := mul_le_mul_of_nonneg_left (by linarith) (by linarith)
          _ ≤ q * gapD r a x := hq
          _ ≤ q * gapD r a t := mul_le_mul_of_nonneg_left m2 hq0
      have hb : (c - gapF r a t) ^ 2 * gapE r a t / (2 * gapD r a t ^ 2 + (c - gapF r a t) * gapW r a t) ^ 2 ≤ 3 / 2 * q ^ 2 := by
        generalize 2 * gapD r a t ^ 2 + (c - gapF r a t) * gapW r a t = M at m
        generalize gapE r a t = E at hE
        generalize c - gapF r a t = φ at f hrel
        generalize gapD r a t = D at d m hE hrel
        have hM : 0 < M := lt_of_lt_of_le (by positivity) m
        rw [div_le_iff₀ (by positivity)]
        have s1 : φ ^ 2 * E ≤ φ ^ 2 * (6 * r ^ 2 * D ^ 2) := mul_le_mul_of_nonneg_left hE (sq_nonneg φ)
        have s2 : (r * φ) ^ 2 ≤ (q * D) ^ 2 := pow_le_pow_left₀ (mul_nonneg (by linarith) f) hrel 2
        have s3 : (2 * D ^ 2) ^ 2 ≤ M ^ 2 := pow_le_pow_left₀ (by positivity) m 2
        have s4 : 6 * D ^ 2 * (r * φ) ^ 2 ≤ 6 * D ^ 2 * (q * D) ^ 2 := mul_le_mul_of_nonneg_left s2 (by positivity)
        have s5 : 3 / 2 * q ^ 2 * (2 * D ^ 2) ^ 2 ≤ 3 / 2 * q ^ 2 * M ^ 2 := mul_le_mul_of_nonneg_left s3 (by positivity)
        nlinarith
      rw [e, hyy, div_le_iff₀ (sub_pos.2 h)] at hb
      exact hb
    · rw [h, hyy]
      simp
  have g1 := (slope x hx hxy).1
  have g2 := (slope _ hx' b2).2
  have g3 := gapD_le ha0 har hx' b2
  rw [hy] at g3
  have hDy := gapD_pos ha0 har hy1
  -- the distance to the root
  have hdist : r * (y - x) ≤ q * x := by
    rw [div_mul_eq_mul_div, div_le_iff₀ hx0] at g1
    have : r * (gapD r a x * (y - x)) ≤ r * ((c - gapF r a x) * x) := mul_le_mul_of_nonneg_left g1 (by linarith)
    have h5 : r * (c - gapF r a x) * x ≤ q * gapD r a x * x := mul_le_mul_of_nonneg_right hq hx0.le
    have h6 : gapD r a x * (r * (y - x)) ≤ gapD r a x * (q * x) := by linarith
    exact le_of_mul_le_mul_left h6 hDx
  have h7 : r * (c - gapF r a (gapH r a c x)) ≤ gapD r a y / y * (3 / 2 * q ^ 2 * (q * x)) := by
    calc r * (c - gapF r a (gapH r a c x)) ≤ r * (gapD r a y / y * (y - gapH r a c x)) := mul_le_mul_of_nonneg_left g2 (by linarith)
      _ ≤ r * (gapD r a y / y * (3 / 2 * q ^ 2 * (y - x))) := by
        refine mul_le_mul_of_nonneg_left (mul_le_mul_of_nonneg_left hstep ?_) (by linarith)
        positivity
      _ = gapD r a y / y * (3 / 2 * q ^ 2 * (r * (y - x))) := by ring
      _ ≤ gapD r a y / y * (3 / 2 * q ^ 2 * (q * x)) := by
        refine mul_le_mul_of_nonneg_left (mul_le_mul_of_nonneg_left hdist (by positivity)) ?_
        positivity
  have h8 : gapD r a y / y * (3 / 2 * q ^ 2 * (q * x)) ≤ 3 / 2 * q ^ 3 * gapD r a y := by
    rw [div_mul_eq_mul_div, div_le_iff₀ (by linarith)]
    have : 3 / 2 * q ^ 3 * gapD r a y * x ≤ 3 / 2 * q ^ 3 * gapD r a y * y := mul_le_mul_of_nonneg_left hxy (by positivity)
    nlinarith
  have h9 : 3 / 2 * q ^ 3 * gapD r a y ≤ 3 / 2 * q ^ 3 * (gapD r a (gapH r a c x) + 2 * (r * (c - gapF r a (gapH r a c x)))) :=
    mul_le_mul_of_nonneg_left (by linarith) (by positivity)
  linarith

end

end Teqp.Lemmas
