import Verif.Props.GERGMix

/-! # GERG: pairs without fitted reducing parameters

For pairs without sufficient data GERG uses `beta = 1` and `gamma` such that the reducing temperature and volume are
linear in composition.  The tables contain these numbers with nine decimals. -/

set_option autoImplicit false

namespace Teqp.Spec
open Model

/-- The pairs of GERG-2004 that follow the linear rule. -/
def gergLinear04 : List (GFluid × GFluid) :=
  [(.ethane, .isopentane), (.nButane, .isopentane), (.nButane, .carbonMonoxide), (.isobutane, .nPentane), (.isobutane, .isopentane), (.isobutane, .nHexane), (.isobutane, .nHeptane), (.isobutane, .nOctane), (.isobutane, .hydrogen), (.isobutane, .carbonMonoxide), (.nPentane, .isopentane), (.nPentane, .nHexane), (.nPentane, .nHeptane), (.nPentane, .hydrogen), (.nPentane, .carbonMonoxide), (.isopentane, .nHexane), (.isopentane, .nHeptane), (.isopentane, .nOctane), (.isopentane, .hydrogen), (.isopentane, .carbonMonoxide), (.nHexane, .nOctane), (.nHexane, .carbonMonoxide), (.nHeptane, .carbonMonoxide), (.nOctane, .hydrogen), (.nOctane, .carbonMonoxide)]

/-- The pairs of a version that follow the linear rule. -/
def gergLinear : GVer → List (GFluid × GFluid)
  | .v2004 => gergLinear04
  | .v2008 => gergLinear04 ++ [(.ethane, .nNonane), (.nButane, .nNonane), (.isobutane, .nNonane), (.isobutane, .nDecane), (.isopentane, .nNonane), (.isopentane, .nDecane), (.nOctane, .nNonane), (.nNonane, .nDecane), (.nNonane, .hydrogen), (.nNonane, .carbonMonoxide)]

end Teqp.Spec

namespace Teqp.Props
open Model Spec Finset Lemmas Lemmas.Red

theorem geometric_close (a b g e : ℝ) (ha : 0 < a) (hb : 0 < b) (he : 0 ≤ g - e) (hge : 0 ≤ e)
    (h1 : (g - e) ^ 2 * (4 * a * b) ≤ (a + b) ^ 2) (h2 : (a + b) ^ 2 ≤ (g + e) ^ 2 * (4 * a * b)) :
    |g * Real.sqrt (a * b) - (a + b) / 2| ≤ e * Real.sqrt (a * b) := by
  have hs := Real.sqrt_nonneg (a * b)
  have hq := Real.sq_sqrt (mul_pos ha hb).le
  obtain ⟨s, hsd⟩ : ∃ s, s = Real.sqrt (a * b) := ⟨_, rfl⟩
  rw [← hsd] at hs hq ⊢
  have k1 : (g - e) * s ≤ (a + b) / 2 := by
    refine abs_le_of_sq_le_sq' ?_ (by positivity) |>.2
    rw [mul_pow, hq]
    linarith
  have k2 : (a + b) / 2 ≤ (g + e) * s := by
    refine abs_le_of_sq_le_sq' ?_ (mul_nonneg (by linarith) hs) |>.2
    rw [mul_pow, hq]
    linarith
  rw [abs_le]
  constructor <;> linarith

theorem cube_gap_mono {m p S K : ℝ} (hm : 0 < m) (hS : m < S) (hK : m < K) (hs : (S - m) ^ 3 = p * S) :
    (p * K ≤ (K - m) ^ 3 → S ≤ K) ∧ ((K - m) ^ 3 ≤ p * K → K ≤ S) := by
  have strict : ∀ x y : ℝ, m < x → x < y → (x - m) ^ 3 * y < x * (y - m) ^ 3 := fun x y hx hxy => by
    have e1 : (x - m) * y < x * (y - m) := by nlinarith
    have e2 : (x - m) ^ 2 ≤ (y - m) ^ 2 := by nlinarith
    have e3 : 0 < (x - m) ^ 2 := by have : 0 < x - m := by linarith
                                    positivity
    have e4 : 0 ≤ x * (y - m) := by nlinarith
    calc (x - m) ^ 3 * y = (x - m) ^ 2 * ((x - m) * y) := by ring
      _ < (x - m) ^ 2 * (x * (y - m)) := mul_lt_mul_of_pos_left e1 e3
      _ ≤ (y - m) ^ 2 * (x * (y - m)) := mul_le_mul_of_nonneg_right e2 e4
      _ = x * (y - m) ^ 3 := by ring
  have hS0 : 0 < S := hm.trans hS
  constructor
  · intro h
    by_contra hlt
    have := strict K S hK (not_le.1 hlt)
    rw [hs] at this
    nlinarith
  · intro h
    by_contra hlt
    have := strict S K hS (not_le.1 hlt)
    rw [hs] at this
    nlinarith

theorem cbrt_close (a b g e : ℝ) (ha : 0 < a) (hb : 0 < b) (hge : 0 < g - e) (he : 0 ≤ e) (hg : g + e < 4)
    (h1 : 27 * (a * b) * (4 * (a + b) / (g - e)) ≤ (4 * (a + b) / (g - e) - (a + b)) ^ 3)
    (h2 : (4 * (a + b) / (g + e) - (a + b)) ^ 3 ≤ 27 * (a * b) * (4 * (a + b) / (g + e))) :
    |g * ((cbrt a + cbrt b) ^ 3 / 8) - (a + b) / 2| ≤ e * ((cbrt a + cbrt b) ^ 3 / 8) := by
  have pa := cbrt_pos ha
  have pb := cbrt_pos hb
  have ca := cbrt_cube a
  have cb := cbrt_cube b
  obtain ⟨u, hu⟩ : ∃ u, u = cbrt a := ⟨_, rfl⟩
  obtain ⟨w, hw⟩ : ∃ w, w = cbrt b := ⟨_, rfl⟩
  rw [← hu] at pa ca ⊢
  rw [← hw] at pb cb ⊢
  obtain ⟨S, hSd⟩ : ∃ S, S = (u + w) ^ 3 := ⟨_, rfl⟩
  rw [← hSd]
  have hS : a + b < S := by
    rw [hSd, ← ca, ← cb]
    have : 0 < 3 * u ^ 2 * w + 3 * u * w ^ 2 := by positivity
    nlinarith
  have hs : (S - (a + b)) ^ 3 = 27 * (a * b) * S := by
    rw [hSd, ← ca, ← cb]
    ring
  have hm : 0 < a + b := by linarith
  have hgp : 0 < g + e := by linarith
  have hK2 : a + b < 4 * (a + b) / (g - e) := by
    rw [lt_div_iff₀ hge]; nlinarith
  have hK1 : a + b < 4 * (a + b) / (g + e) := by
    rw [lt_div_iff₀ hgp]; nlinarith
  have r1 := (cube_gap_mono hm hS hK2 hs).1 h1
  have r2 := (cube_gap_mono hm hS hK1 hs).2 h2
  rw [le_div_iff₀ hge] at r1
  rw [div_le_iff₀ hgp] at r2
  rw [abs_le]
  constructor <;> linarith

/-- The checks on the table. -/
def gergLinearCheck (v : GVer) (a b : GFluid) : Bool :=
  let g := gergPair v a b
  let A := gergCrit v a
  let B := gergCrit v b
  let e : ℚ := 1 / 1000000000
  let x := 1 / (A.rhoc * 1000)
  let y := 1 / (B.rhoc * 1000)
  decide (g.betaT = 1 ∧ g.betaV = 1 ∧ 0 < A.Tc ∧ 0 < B.Tc ∧ 0 < A.rhoc ∧ 0 < B.rhoc ∧ 0 ≤ g.gammaT - e ∧
    (g.gammaT - e) ^ 2 * (4 * A.Tc * B.Tc) ≤ (A.Tc + B.Tc) ^ 2 ∧ (A.Tc + B.Tc) ^ 2 ≤ (g.gammaT + e) ^ 2 * (4 * A.Tc * B.Tc) ∧
    0 < g.gammaV - e ∧ g.gammaV + e < 4 ∧
    27 * (x * y) * (4 * (x + y) / (g.gammaV - e)) ≤ (4 * (x + y) / (g.gammaV - e) - (x + y)) ^ 3 ∧
    (4 * (x + y) / (g.gammaV + e) - (x + y)) ^ 3 ≤ 27 * (x * y) * (4 * (x + y) / (g.gammaV + e)))

/-- C102. The pairs without fitted parameters: `beta = 1`, and the combined critical temperature and volume are the
arithmetic means of those of the components to nine decimals of `gamma`. -/
theorem gerg_linear_pairs (v : GVer) (a b : GFluid) (h : (a, b) ∈ gergLinear v) :
    (gergPair v a b).betaT = 1 ∧ (gergPair v a b).betaV = 1 ∧
      |(gergPair v a b).gammaT * Real.sqrt ((gergCrit v a).Tc * (gergCrit v b).Tc) - (((gergCrit v a).Tc : ℝ) + (gergCrit v b).Tc) / 2|
        ≤ 1 / 1000000000 * Real.sqrt ((gergCrit v a).Tc * (gergCrit v b).Tc) ∧
      |(gergPair v a b).gammaV * ((cbrt (1 / ((gergCrit v a).rhoc * 1000)) + cbrt (1 / ((gergCrit v b).rhoc * 1000))) ^ 3 / 8)
          - (1 / (((gergCrit v a).rhoc : ℝ) * 1000) + 1 / ((gergCrit v b).rhoc * 1000)) / 2|
        ≤ 1 / 1000000000 * ((cbrt (1 / ((gergCrit v a).rhoc * 1000)) + cbrt (1 / ((gergCrit v b).rhoc * 1000))) ^ 3 / 8) := by
  have key : ∀ v ∈ [GVer.v2004, .v2008], ∀ p ∈ gergLinear v, gergLinearCheck v p.1 p.2 = true := by decide +kernel
  have hd := of_decide_eq_true (key v (by cases v <;> simp) _ h)
  simp only at hd
  obtain ⟨b1, b2, t1, t2, r1, r2, p1, p2, p3, q1, q2, q3, q4⟩ := hd
  have s1 : (0 : ℝ) < (gergCrit v a).rhoc := by exact_mod_cast r1
  have s2 : (0 : ℝ) < (gergCrit v b).rhoc := by exact_mod_cast r2
  have p1 := (Rat.cast_le (K := ℝ)).2 p1
  have p2 := (Rat.cast_le (K := ℝ)).2 p2
  have p3 := (Rat.cast_le (K := ℝ)).2 p3
  have q1 := (Rat.cast_lt (K := ℝ)).2 q1
  have q2 := (Rat.cast_lt (K := ℝ)).2 q2
  have q3 := (Rat.cast_le (K := ℝ)).2 q3
  have q4 := (Rat.cast_le (K := ℝ)).2 q4
  push_cast at p1 p2 p3 q1 q2 q3 q4
  exact ⟨b1, b2, geometric_close _ _ _ _ (by exact_mod_cast t1) (by exact_mod_cast t2) p1 (by norm_num) p2 p3,
    cbrt_close _ _ _ _ (by positivity) (by positivity) q1 (by norm_num) q2 q3 q4⟩

example : (GFluid.isobutane, GFluid.nDecane) ∈ gergLinear .v2008 ∧ (GFluid.nOctane, GFluid.carbonMonoxide) ∈ gergLinear .v2004 := by
  decide +kernel

end Teqp.Props
