import Verif.Props.CosmoSeg
import Verif.Props.CosmoMix
import Mathlib.Analysis.SpecialFunctions.Exponential
import Mathlib.Analysis.Complex.ExponentialBounds
import Mathlib.Analysis.SpecificLimits.Basic

/-! # Convergence of the segment activity coefficients of COSMO-SAC

The loops of `get_Gamma` always approach the solution, with a factor per two passes that is given here; the passes that are needed are not bounded,
and neither does the test say how far the solution is. -/

set_option autoImplicit false

namespace Teqp.Spec

/-- The solution inside of a window; one outside of it. -/
structure IsWindowSolution {ι : Type} [Fintype ι] (K : ι → ι → ℝ) (W : ι → Bool) (p Γ : ι → ℝ) : Prop where
  pos : ∀ m, 0 < Γ m
  eq : ∀ m, W m = true → Γ m * ∑ n, (if W n = true then K m n * p n * Γ n else 0) = 1
  out : ∀ m, W m = false → Γ m = 1

/-- Inside of the window `G` is not smaller than `Γ/l` and not larger than `h Γ`. -/
def Between {ι : Type} (W : ι → Bool) (Γ G : ι → ℝ) (l h : ℝ) : Prop := ∀ m, W m = true → Γ m ≤ l * G m ∧ G m ≤ h * Γ m

end Teqp.Spec

namespace Teqp.Props
open Teqp.Model Teqp.Spec Finset

variable {ι : Type} [Fintype ι]

/-- The solution exists and is the only one. -/
theorem window_solution (K : ι → ι → ℝ) (W : ι → Bool) (p : ι → ℝ) (h : SegData K W p) (hs : ∀ m n, K m n = K n m) :
    ∃! Γ, IsWindowSolution K W p Γ := by
  have hq : ∀ n, 0 ≤ (fun n => if W n = true then p n else 0) n := fun n => by
    simp only; split_ifs
    · exact h.hp n
    · exact le_rfl
  have h1 : ∃ n, 0 < (fun n => if W n = true then p n else 0) n := by
    obtain ⟨n, hn, hpn⟩ := h.h1
    exact ⟨n, by simpa [hn] using hpn⟩
  obtain ⟨G, hG, huniq⟩ := seg_exists_unique K _ h.hK hs hq h1
  have conv : ∀ (G Γ : ι → ℝ), (∀ n, W n = true → G n = Γ n) → ∀ m,
      ∑ n, K m n * (if W n = true then p n else 0) * G n = ∑ n, (if W n = true then K m n * p n * Γ n else 0) := by
    intro G Γ hGΓ m
    refine sum_congr rfl fun n _ => ?_
    by_cases hn : W n = true
    · simp [hn, hGΓ n hn]
    · simp [hn]
  refine ⟨fun m => if W m = true then G m else 1, ⟨fun m => ?_, fun m hm => ?_, fun m hm => by simp [hm]⟩, fun Γ hΓ => ?_⟩
  · split_ifs
    · exact hG.pos m
    · exact one_pos
  · rw [← conv G _ (fun n hn => by simp [hn]) m]; simpa [hm] using hG.eq m
  · have hpos : ∀ m, 0 < ∑ n, (if W n = true then K m n * p n * Γ n else 0) := by
      intro m
      obtain ⟨n, hn, hpn⟩ := h.h1
      refine sum_pos' (fun k _ => ?_) ⟨n, mem_univ n, by rw [if_pos hn]; exact mul_pos (mul_pos (h.hK m n) hpn) (hΓ.pos n)⟩
      split_ifs
      · exact mul_nonneg (mul_nonneg (h.hK m k).le (h.hp k)) (hΓ.pos k).le
      · exact le_rfl
    have hall := huniq (fun m => 1 / ∑ n, (if W n = true then K m n * p n * Γ n else 0)) ⟨fun m => one_div_pos.2 (hpos m), fun m => by
      rw [conv (fun m => 1 / ∑ n, (if W n = true then K m n * p n * Γ n else 0)) Γ
        (fun n hn => by have := hΓ.eq n hn; have hp := hpos n; field_simp; linarith) m]
      exact one_div_mul_cancel (hpos m).ne'⟩
    funext m
    by_cases hm : W m = true
    · have e1 := hΓ.eq m hm
      have := congrFun hall m
      rw [if_pos hm, ← this]; have hp := hpos m; field_simp; linarith
    · simp only [hm]; exact hΓ.out m (by simpa using hm)

theorem window_sum {K : ι → ι → ℝ} {W : ι → Bool} {p Γ : ι → ℝ} (m : ι) :
    ∑ n, (if W n = true then K m n * p n * Γ n else 0) = segSum K W p Γ m := by
  unfold segSum; rw [sum_filter]

/-- One pass replaces both bounds by their mean. -/
theorem between_step {K : ι → ι → ℝ} {W : ι → Bool} {p Γ G : ι → ℝ} (h : SegData K W p) (hΓ : IsWindowSolution K W p Γ) (hG : ∀ m, 0 < G m)
    {l u : ℝ} (hl : 0 < l) (hu : 0 < u) (hb : Between W Γ G l u) : Between W Γ (segStep K W p G) ((l + u) / 2) ((l + u) / 2) := by
  intro m hm
  have e := hΓ.eq m hm
  rw [window_sum] at e
  have hs := segSum_pos h hG m
  have hS := segSum_pos h hΓ.pos m
  have b1 : segSum K W p Γ m ≤ l * segSum K W p G m := by
    unfold segSum; rw [mul_sum]
    refine sum_le_sum fun n hn => ?_
    have hk := mul_nonneg (h.hK m n).le (h.hp n)
    calc _ ≤ K m n * p n * (l * G n) := mul_le_mul_of_nonneg_left (hb n (by simpa using hn)).1 hk
      _ = _ := by ring
  have b2 : segSum K W p G m ≤ u * segSum K W p Γ m := by
    unfold segSum; rw [mul_sum]
    refine sum_le_sum fun n hn => ?_
    have hk := mul_nonneg (h.hK m n).le (h.hp n)
    calc _ ≤ K m n * p n * (u * Γ n) := mul_le_mul_of_nonneg_left (hb n (by simpa using hn)).2 hk
      _ = _ := by ring
  have hg := hΓ.pos m
  have n1 : 1 / segSum K W p G m ≤ l * Γ m := by
    rw [div_le_iff₀ hs]; nlinarith
  have n2 : Γ m ≤ u * (1 / segSum K W p G m) := by
    rw [mul_one_div, le_div_iff₀ hs]; nlinarith
  obtain ⟨c1, c2⟩ := hb m hm
  unfold segStep segNew
  rw [if_pos hm, if_pos hm]
  refine ⟨?_, by nlinarith⟩
  have hn0 : 0 < 1 / segSum K W p G m := one_div_pos.2 hs
  generalize 1 / segSum K W p G m = N at *
  -- the product of the two sums is at least four times the value
  have hgm := hG m
  have d1 : Γ m / l ≤ G m := by rw [div_le_iff₀ hl]; linarith
  have d2 : Γ m / u ≤ N := by rw [div_le_iff₀ hu]; linarith
  have key : 4 * Γ m ≤ (l + u) * (Γ m / l + Γ m / u) := by
    rw [show (l + u) * (Γ m / l + Γ m / u) = Γ m * ((l + u) ^ 2 / (l * u)) by field_simp; ring]
    have : 4 ≤ (l + u) ^ 2 / (l * u) := by rw [le_div_iff₀ (mul_pos hl hu)]; nlinarith [sq_nonneg (l - u)]
    nlinarith
  have := mul_le_mul_of_nonneg_left (add_le_add d1 d2) (add_pos hl hu).le
  linarith

/-- One pass from equal bounds improves one of the two. -/
theorem between_improve {K : ι → ι → ℝ} {W : ι → Bool} {p Γ G : ι → ℝ} (h : SegData K W p) (hΓ : IsWindowSolution K W p Γ) (hG : ∀ m, 0 < G m)
    {θ c : ℝ} (hθ : 1 ≤ θ) (hc : 0 ≤ c) (hc1 : c ≤ 1) (n0 : ι) (h0 : W n0 = true) (hw : ∀ m, W m = true → c ≤ Γ m * (K m n0 * p n0 * Γ n0)) (hb : Between W Γ G θ θ) :
    Between W Γ (segStep K W p G) θ (θ - c * (θ - 1) / 3) ∨ Between W Γ (segStep K W p G) (θ - c * (θ - 1) / 3) θ := by
  have hθ0 : 0 < θ := by linarith
  have hstep := between_step h hΓ hG hθ0 hθ0 hb
  rw [show (θ + θ) / 2 = θ by ring] at hstep
  have hx0 : 0 ≤ c * (θ - 1) := mul_nonneg hc (by linarith)
  have hx1 : c * (θ - 1) ≤ θ - 1 := by nlinarith
  rcases le_total (Γ n0) (G n0) with hcase | hcase
  · refine Or.inl fun m hm => ⟨(hstep m hm).1, ?_⟩
    have e := hΓ.eq m hm
    rw [window_sum] at e
    have hs := segSum_pos h hG m
    have b1 : segSum K W p Γ m + (θ - 1) * (K m n0 * p n0 * Γ n0) ≤ θ * segSum K W p G m := by
      have hsub : (θ - 1) * (K m n0 * p n0 * Γ n0) ≤ ∑ n ∈ univ.filter (W · = true), K m n * p n * (θ * G n - Γ n) := by
        have hmem : n0 ∈ univ.filter (W · = true) := by simpa using h0
        refine le_trans ?_ (single_le_sum (f := fun n => K m n * p n * (θ * G n - Γ n)) (fun n hn => ?_) hmem)
        · have hk := mul_nonneg (h.hK m n0).le (h.hp n0)
          have : (θ - 1) * Γ n0 ≤ θ * G n0 - Γ n0 := by nlinarith
          calc _ = K m n0 * p n0 * ((θ - 1) * Γ n0) := by ring
            _ ≤ _ := mul_le_mul_of_nonneg_left this hk
        · exact mul_nonneg (mul_nonneg (h.hK m n).le (h.hp n)) (sub_nonneg.2 (hb n (by simpa using hn)).1)
      have : ∑ n ∈ univ.filter (W · = true), K m n * p n * (θ * G n - Γ n) = θ * segSum K W p G m - segSum K W p Γ m := by
        unfold segSum; rw [mul_sum, ← sum_sub_distrib]; exact sum_congr rfl fun n _ => by ring
      linarith
    have hg := hΓ.pos m
    have b2 : 1 + c * (θ - 1) ≤ θ * (Γ m * segSum K W p G m) := by
      have := mul_le_mul_of_nonneg_left b1 hg.le
      have hw' := mul_le_mul_of_nonneg_right (hw m hm) (sub_nonneg.2 hθ)
      nlinarith
    have hx : 0 < 1 + c * (θ - 1) := by linarith
    have n1 : 1 / segSum K W p G m ≤ θ * Γ m / (1 + c * (θ - 1)) := by
      rw [div_le_div_iff₀ hs hx]; nlinarith
    have n2 : θ * Γ m / (1 + c * (θ - 1)) ≤ (θ - c * (θ - 1) * (2 / 3)) * Γ m := by
      rw [div_le_iff₀ hx]
      have : θ ≤ (θ - c * (θ - 1) * (2 / 3)) * (1 + c * (θ - 1)) := by
        generalize c * (θ - 1) = x at *
        nlinarith [mul_nonneg hx0 (by linarith : 0 ≤ θ - 1 - x), mul_nonneg hx0 hx0]
      nlinarith
    obtain ⟨-, c2⟩ := hb m hm
    unfold segStep segNew
    rw [if_pos hm, if_pos hm]
    nlinarith
  · refine Or.inr fun m hm => ⟨?_, (hstep m hm).2⟩
    have e := hΓ.eq m hm
    rw [window_sum] at e
    have hs := segSum_pos h hG m
    have b1 : segSum K W p G m + (θ - 1) * (K m n0 * p n0 * Γ n0) ≤ θ * segSum K W p Γ m := by
      have hsub : (θ - 1) * (K m n0 * p n0 * Γ n0) ≤ ∑ n ∈ univ.filter (W · = true), K m n * p n * (θ * Γ n - G n) := by
        have hmem : n0 ∈ univ.filter (W · = true) := by simpa using h0
        refine le_trans ?_ (single_le_sum (f := fun n => K m n * p n * (θ * Γ n - G n)) (fun n hn => ?_) hmem)
        · have hk := mul_nonneg (h.hK m n0).le (h.hp n0)
          have : (θ - 1) * Γ n0 ≤ θ * Γ n0 - G n0 := by nlinarith
          calc _ = K m n0 * p n0 * ((θ - 1) * Γ n0) := by ring
            _ ≤ _ := mul_le_mul_of_nonneg_left this hk
        · exact mul_nonneg (mul_nonneg (h.hK m n).le (h.hp n)) (sub_nonneg.2 (hb n (by simpa using hn)).2)
      have : ∑ n ∈ univ.filter (W · = true), K m n * p n * (θ * Γ n - G n) = θ * segSum K W p Γ m - segSum K W p G m := by
        unfold segSum; rw [mul_sum, ← sum_sub_distrib]; exact sum_congr rfl fun n _ => by ring
      linarith
    have hg := hΓ.pos m
    have b2 : Γ m * segSum K W p G m ≤ θ - c * (θ - 1) := by
      have := mul_le_mul_of_nonneg_left b1 hg.le
      have hw' := mul_le_mul_of_nonneg_right (hw m hm) (sub_nonneg.2 hθ)
      nlinarith
    have hy : 0 < θ - c * (θ - 1) := by linarith
    have n1 : Γ m / (θ - c * (θ - 1)) ≤ 1 / segSum K W p G m := by
      rw [div_le_div_iff₀ hy hs]; linarith
    have d1 : Γ m / θ ≤ G m := by rw [div_le_iff₀ hθ0]; linarith [(hb m hm).1]
    unfold segStep segNew
    rw [if_pos hm, if_pos hm]
    have key : 2 * Γ m ≤ (θ - c * (θ - 1) / 3) * (Γ m / θ + Γ m / (θ - c * (θ - 1))) := by
      generalize c * (θ - 1) = x at *
      rw [div_add_div _ _ hθ0.ne' hy.ne', mul_div_assoc', le_div_iff₀ (mul_pos hθ0 hy)]
      have : 2 * (θ * (θ - x)) ≤ (θ - x / 3) * (2 * θ - x) := by nlinarith
      nlinarith
    have hz : 0 ≤ θ - c * (θ - 1) / 3 := by linarith
    have := mul_le_mul_of_nonneg_left (add_le_add d1 n1) hz
    linarith

/-- The bound on the relative distance after `j` passes: the factor `1 - c/6` for every two of them. -/
noncomputable def segBound (c θ : ℝ) (j : ℕ) : ℝ := 1 + (1 - c / 6) ^ (j / 2) * (θ - 1)

theorem segBound_ge {c θ : ℝ} (hc1 : c ≤ 1) (hθ : 1 ≤ θ) (j : ℕ) : 1 ≤ segBound c θ j := by
  unfold segBound
  have : 0 ≤ (1 - c / 6) ^ (j / 2) := pow_nonneg (by linarith) _
  nlinarith

/-- **Rate of the loops.**  When one present segment has a share of at least `c` in the sum of every other, the distance from the solution falls by the
factor `1 - c/6` with every two passes. -/
theorem seg_rate (K : ι → ι → ℝ) (W : ι → Bool) (p Γ : ι → ℝ) (h : SegData K W p) (hΓ : IsWindowSolution K W p Γ) (θ c : ℝ) (hθ : 1 ≤ θ)
    (hc : 0 ≤ c) (hc1 : c ≤ 1) (n0 : ι) (h0 : W n0 = true) (hw : ∀ m, W m = true → c ≤ Γ m * (K m n0 * p n0 * Γ n0))
    (hstart : ∀ m, W m = true → Γ m ≤ θ ∧ 1 ≤ θ * Γ m) (j : ℕ) :
    Between W Γ (segIter K W p j) (segBound c θ j) (segBound c θ j) := by
  have heven : ∀ k, Between W Γ (segIter K W p (2 * k)) (segBound c θ (2 * k)) (segBound c θ (2 * k)) := by
    intro k
    induction k with
    | zero =>
      intro m hm
      obtain ⟨a, b⟩ := hstart m hm
      simp only [segIter, segBound, mul_zero, Function.iterate_zero, id, Nat.zero_div, pow_zero, one_mul, mul_one]
      constructor <;> linarith
    | succ k ih =>
      have hb := segBound_ge hc1 hθ (2 * k)
      have e : segBound c θ (2 * (k + 1)) = (segBound c θ (2 * k) + (segBound c θ (2 * k) - c * (segBound c θ (2 * k) - 1) / 3)) / 2 := by
        unfold segBound
        rw [show 2 * (k + 1) / 2 = k + 1 by omega, show 2 * k / 2 = k by omega, pow_succ]; ring
      rw [show 2 * (k + 1) = 2 * k + 1 + 1 by ring, segIter_succ, segIter_succ, show 2 * k + 1 + 1 = 2 * (k + 1) by ring, e]
      have hpos := segIter_pos h (2 * k)
      have hpos' : ∀ m, 0 < segStep K W p (segIter K W p (2 * k)) m := fun m => (segStep_pos h hpos m).2
      have hy : 0 < segBound c θ (2 * k) - c * (segBound c θ (2 * k) - 1) / 3 := by nlinarith
      rcases between_improve h hΓ hpos hb hc hc1 n0 h0 hw ih with hi | hi
      · exact between_step h hΓ hpos' (by linarith) hy hi
      · rw [add_comm (segBound c θ (2 * k))]; exact between_step h hΓ hpos' hy (by linarith) hi
  rcases Nat.even_or_odd' j with ⟨k, rfl | rfl⟩
  · exact heven k
  · have hb := segBound_ge hc1 hθ (2 * k)
    have e : segBound c θ (2 * k + 1) = segBound c θ (2 * k) := by
      unfold segBound; rw [show (2 * k + 1) / 2 = k by omega, show 2 * k / 2 = k by omega]
    have := between_step h hΓ (segIter_pos h (2 * k)) (by linarith) (by linarith) (heven k)
    rw [e, segIter_succ]
    convert this using 1 <;> ring

/-- The test is met near the solution. -/
theorem seg_done_near (K : ι → ι → ℝ) (W : ι → Bool) (p Γ G : ι → ℝ) (h : SegData K W p) (hΓ : IsWindowSolution K W p Γ) (hG : ∀ m, 0 < G m)
    (hout : ∀ m, W m = false → G m = 1) (θ tol : ℝ) (hθ : 1 ≤ θ) (hb : Between W Γ G θ θ) (ht : θ ^ 2 - 1 < 2 * tol) : SegDone K W p tol G := by
  intro m
  have ht0 : 0 < tol := by nlinarith
  by_cases hm : W m = true
  swap
  · have hm' : W m = false := by simpa using hm
    unfold segStep segNew
    simp [hm', hout m hm', ht0]
  have hθ0 : 0 < θ := by linarith
  have hs := segSum_pos h hG m
  have e := hΓ.eq m hm
  rw [window_sum] at e
  have hg := hΓ.pos m
  have b1 : segSum K W p Γ m ≤ θ * segSum K W p G m := by
    unfold segSum; rw [mul_sum]
    refine sum_le_sum fun n hn => ?_
    have hk := mul_nonneg (h.hK m n).le (h.hp n)
    calc _ ≤ K m n * p n * (θ * G n) := mul_le_mul_of_nonneg_left (hb n (by simpa using hn)).1 hk
      _ = _ := by ring
  have b2 : segSum K W p G m ≤ θ * segSum K W p Γ m := by
    unfold segSum; rw [mul_sum]
    refine sum_le_sum fun n hn => ?_
    have hk := mul_nonneg (h.hK m n).le (h.hp n)
    calc _ ≤ K m n * p n * (θ * Γ n) := mul_le_mul_of_nonneg_left (hb n (by simpa using hn)).2 hk
      _ = _ := by ring
  have n1 : 1 / segSum K W p G m ≤ θ * Γ m := by
    rw [div_le_iff₀ hs]; nlinarith
  have n2 : Γ m ≤ θ * (1 / segSum K W p G m) := by
    rw [mul_one_div, le_div_iff₀ hs]; nlinarith
  obtain ⟨c1, c2⟩ := hb m hm
  have hn0 : 0 < 1 / segSum K W p G m := one_div_pos.2 hs
  have hgm := hG m
  unfold segStep segNew
  rw [if_pos hm, if_pos hm]
  generalize 1 / segSum K W p G m = N at *
  have hd : 0 < (G m + N) / 2 := by linarith
  rw [abs_div, abs_of_pos hd, div_lt_iff₀ hd, abs_lt]
  -- everything in terms of the solution
  have f1 : θ * (G m - N) ≤ (θ ^ 2 - 1) * Γ m := by nlinarith
  have f2 : θ * (N - G m) ≤ (θ ^ 2 - 1) * Γ m := by nlinarith
  have f3 : 2 * Γ m ≤ θ * (G m + N) := by nlinarith
  have f4 : (θ ^ 2 - 1) * Γ m < 2 * tol * Γ m := mul_lt_mul_of_pos_right ht hg
  have f5 : 2 * tol * Γ m ≤ tol * (θ * (G m + N)) := by nlinarith
  constructor <;> nlinarith

/-- The loop ends well as soon as the bound of `seg_rate` is small enough for the test within its passes. -/
theorem seg_enough_passes (K : ι → ι → ℝ) (W : ι → Bool) (p Γ : ι → ℝ) (h : SegData K W p) (hΓ : IsWindowSolution K W p Γ) (θ c tol : ℝ) (hθ : 1 ≤ θ)
    (hc : 0 ≤ c) (hc1 : c ≤ 1) (n0 : ι) (h0 : W n0 = true) (hw : ∀ m, W m = true → c ≤ Γ m * (K m n0 * p n0 * Γ n0))
    (hstart : ∀ m, W m = true → Γ m ≤ θ ∧ 1 ≤ θ * Γ m) (k : ℕ) (ht : segBound c θ k ^ 2 - 1 < 2 * tol) :
    ∃ G, segLoop K W p tol k (fun _ => 1) = .ok G := by
  have hd := seg_done_near K W p Γ (segIter K W p k) h hΓ (segIter_pos h k) (segIter_outside K W p k) _ tol (segBound_ge hc1 hθ k)
    (seg_rate K W p Γ h hΓ θ c hθ hc hc1 n0 h0 hw hstart k) ht
  rcases segLoop_cases K W p tol h k 0 with ⟨i, -, -, -, he⟩ | ⟨hall, -⟩
  · exact ⟨_, he⟩
  · exact absurd (by rwa [zero_add]) (hall k le_rfl)

/-- The constants of `seg_rate` exist. -/
theorem seg_rate_data (K : ι → ι → ℝ) (W : ι → Bool) (p Γ : ι → ℝ) (h : SegData K W p) (hΓ : IsWindowSolution K W p Γ) :
    ∃ θ c, 1 ≤ θ ∧ 0 < c ∧ c ≤ 1 ∧ ∃ n0, W n0 = true ∧ (∀ m, W m = true → c ≤ Γ m * (K m n0 * p n0 * Γ n0)) ∧
      ∀ m, W m = true → Γ m ≤ θ ∧ 1 ≤ θ * Γ m := by
  obtain ⟨n0, h0, hp0⟩ := h.h1
  have hne : (univ : Finset ι).Nonempty := ⟨n0, mem_univ _⟩
  obtain ⟨m1, -, hm1⟩ := exists_min_image univ (fun m => Γ m * (K m n0 * p n0 * Γ n0)) hne
  obtain ⟨m2, -, hm2⟩ := exists_max_image univ (fun m => max (Γ m) (1 / Γ m)) hne
  refine ⟨max 1 (max (Γ m2) (1 / Γ m2)), min 1 (Γ m1 * (K m1 n0 * p n0 * Γ n0)), le_max_left _ _,
    lt_min one_pos (mul_pos (hΓ.pos m1) (mul_pos (mul_pos (h.hK m1 n0) hp0) (hΓ.pos n0))), min_le_left _ _, n0, h0,
    fun m _ => (min_le_right _ _).trans (hm1 m (mem_univ m)), fun m _ => ⟨?_, ?_⟩⟩
  · exact ((le_max_left _ _).trans (hm2 m (mem_univ m))).trans (le_max_right _ _)
  · have : 1 / Γ m ≤ max 1 (max (Γ m2) (1 / Γ m2)) := ((le_max_right _ _).trans (hm2 m (mem_univ m))).trans (le_max_right _ _)
    rwa [div_le_iff₀ (hΓ.pos m)] at this

theorem segBound_tendsto (θ c : ℝ) (hc : 0 < c) (hc1 : c ≤ 1) : Filter.Tendsto (segBound c θ) Filter.atTop (nhds 1) := by
  have h1 : Filter.Tendsto (fun k : ℕ => (1 - c / 6) ^ k) Filter.atTop (nhds 0) := tendsto_pow_atTop_nhds_zero_of_lt_one (by linarith) (by linarith)
  have h2 : Filter.Tendsto (fun j : ℕ => j / 2) Filter.atTop Filter.atTop := Filter.tendsto_atTop_mono' _ (Filter.Eventually.of_forall fun j => le_rfl)
    (Nat.tendsto_div_const_atTop (by norm_num))
  have := ((h1.comp h2).mul_const (θ - 1)).const_add 1
  rw [zero_mul, add_zero] at this
  exact this

/-- **The loops approach the solution from the start that the code uses**, and with enough passes any tolerance is met. -/
theorem seg_converges (K : ι → ι → ℝ) (W : ι → Bool) (p Γ : ι → ℝ) (h : SegData K W p) (hΓ : IsWindowSolution K W p Γ) :
    (∀ m, Filter.Tendsto (fun j => segIter K W p j m) Filter.atTop (nhds (Γ m))) ∧
    ∀ tol, 0 < tol → ∃ N, ∀ k, N ≤ k → ∃ G, segLoop K W p tol k (fun _ => 1) = .ok G := by
  obtain ⟨θ, c, hθ, hc, hc1, n0, h0, hw, hstart⟩ := seg_rate_data K W p Γ h hΓ
  have hlim := segBound_tendsto θ c hc hc1
  constructor
  · intro m
    by_cases hm : W m = true
    · have hr := fun j => seg_rate K W p Γ h hΓ θ c hθ hc.le hc1 n0 h0 hw hstart j m hm
      refine tendsto_of_tendsto_of_tendsto_of_le_of_le (g := fun j => Γ m / segBound c θ j) (h := fun j => segBound c θ j * Γ m) ?_ ?_ (fun j => ?_) fun j => (hr j).2
      · simpa [div_eq_mul_inv] using (hlim.inv₀ one_ne_zero).const_mul (Γ m)
      · simpa using hlim.mul_const (Γ m)
      · have := segBound_ge hc1 hθ j
        show Γ m / segBound c θ j ≤ segIter K W p j m
        rw [div_le_iff₀ (by linarith)]; linarith [(hr j).1]
    · have hm' : W m = false := by simpa using hm
      simp only [segIter_outside K W p _ m hm', hΓ.out m hm']
      exact tendsto_const_nhds
  · intro tol ht
    have h2 : Filter.Tendsto (fun j => segBound c θ j ^ 2 - 1) Filter.atTop (nhds 0) := by simpa using (hlim.pow 2).sub_const 1
    have h3 := h2.eventually_lt_const (show (0 : ℝ) < 2 * tol by linarith)
    obtain ⟨N, hN⟩ := Filter.eventually_atTop.1 h3
    exact ⟨N, fun k hk => seg_enough_passes K W p Γ h hΓ θ c tol hθ hc.le hc1 n0 h0 hw hstart k (hN k hk)⟩

/-- Three segments, the third outside of the window. -/
example : ∃! Γ, IsWindowSolution (fun _ _ : Fin 3 => (4 : ℝ)) (fun n => decide (n ≠ 2)) ![0.25, 0.75, 0] Γ :=
  window_solution _ _ _ ⟨fun _ _ => by norm_num, fun n => by fin_cases n <;> norm_num, ⟨0, rfl, by norm_num⟩⟩ fun _ _ => rfl

example (m : Fin 2) : Filter.Tendsto (fun j => segIter (fun _ _ : Fin 2 => (4 : ℝ)) (fun _ => true) (fun n => if n = 0 then 0.25 else 0.75) j m) Filter.atTop (nhds 0.5) := by
  refine (seg_converges _ _ _ (fun _ => 0.5) ⟨fun _ _ => by norm_num, fun n => by split_ifs <;> norm_num, ⟨0, rfl, by norm_num⟩⟩ ⟨fun _ => by norm_num, fun m _ => ?_, fun m hm => by simp at hm⟩).1 m
  simp [Fin.sum_univ_two]; norm_num

/-! ## The passes of the code can be too few -/

/-- Two segments that hardly see themselves: the densities `0.49` and `0.51`, the factor one between them and at most `1e-9` of each with itself. -/
structure TwoSegs (K : ι → ι → ℝ) (W : ι → Bool) (p : ι → ℝ) (a b : ι) (ε : ℝ) : Prop where
  ne : a ≠ b
  Wa : W a = true
  Wb : W b = true
  pa : p a = 0.49
  pb : p b = 0.51
  p0 : ∀ n, n ≠ a → n ≠ b → p n = 0
  Kab : K a b = 1
  Kba : K b a = 1
  Kaa : K a a = ε
  Kbb : K b b = ε
  ε0 : 0 < ε
  ε1 : ε ≤ 1e-9

theorem TwoSegs.sum {K : ι → ι → ℝ} {W : ι → Bool} {p : ι → ℝ} {a b : ι} {ε : ℝ} (t : TwoSegs K W p a b ε) (G : ι → ℝ) (m : ι) :
    segSum K W p G m = K m a * 0.49 * G a + K m b * 0.51 * G b := by
  classical
  unfold segSum
  rw [← sum_subset (s₁ := {a, b}) (fun n hn => by rcases mem_insert.1 hn with rfl | hn
                                                  · simp [t.Wa]
                                                  · rw [mem_singleton.1 hn]; simp [t.Wb]), sum_pair t.ne, t.pa, t.pb]
  intro n _ hn
  simp only [mem_insert, mem_singleton, not_or] at hn
  rw [t.p0 n hn.1 hn.2]; ring

/-- The two coefficients after the step. -/
theorem TwoSegs.step {K : ι → ι → ℝ} {W : ι → Bool} {p : ι → ℝ} {a b : ι} {ε : ℝ} (t : TwoSegs K W p a b ε) (G : ι → ℝ) :
    segNew K W p G a = 1 / (ε * 0.49 * G a + 0.51 * G b) ∧ segNew K W p G b = 1 / (0.49 * G a + ε * 0.51 * G b) ∧
    segStep K W p G a = (G a + segNew K W p G a) / 2 ∧ segStep K W p G b = (G b + segNew K W p G b) / 2 := by
  refine ⟨?_, ?_, by unfold segStep; rw [if_pos t.Wa], by unfold segStep; rw [if_pos t.Wb]⟩
  · unfold segNew; rw [if_pos t.Wa, t.sum, t.Kaa, t.Kab]; ring
  · unfold segNew; rw [if_pos t.Wb, t.sum, t.Kba, t.Kbb]; ring

/-- The test is not met while the second coefficient is at most 500, not even to half a percent. -/
theorem TwoSegs.not_done {K : ι → ι → ℝ} {W : ι → Bool} {p : ι → ℝ} {a b : ι} {ε : ℝ} (t : TwoSegs K W p a b ε) (G : ι → ℝ) (ha : 0 < G a) (hb : 0 < G b)
    (hb1 : G b ≤ 500) (tol : ℝ) (ht : tol ≤ 0.005) : ¬ SegDone K W p tol G := by
  intro hd
  obtain ⟨ea, eb, sa, sb⟩ := t.step G
  have h0 := t.ε0
  have h1 := t.ε1
  have A := hd a
  have B := hd b
  have da : 0 < ε * 0.49 * G a + 0.51 * G b := by positivity
  have db : 0 < 0.49 * G a + ε * 0.51 * G b := by positivity
  rw [sa] at A
  rw [sb] at B
  have na : 0 < segNew K W p G a := by rw [ea]; positivity
  have nb : 0 < segNew K W p G b := by rw [eb]; positivity
  have ea' : segNew K W p G a * (ε * 0.49 * G a + 0.51 * G b) = 1 := by rw [ea, one_div, inv_mul_cancel₀ da.ne']
  have eb' : segNew K W p G b * (0.49 * G a + ε * 0.51 * G b) = 1 := by rw [eb, one_div, inv_mul_cancel₀ db.ne']
  generalize segNew K W p G a = N at *
  generalize segNew K W p G b = M at *
  generalize G a = x at *
  generalize G b = y at *
  have hA : 0 < (x + N) / 2 := by linarith
  have hB : 0 < (y + M) / 2 := by linarith
  rw [abs_div, abs_of_pos hA, div_lt_iff₀ hA, abs_lt] at A
  rw [abs_div, abs_of_pos hB, div_lt_iff₀ hB, abs_lt] at B
  have A' : x ≤ 1.0102 * N := by nlinarith [A.2]
  have B' : M ≤ 1.0102 * y := by nlinarith [B.1]
  have u1 : 0.51 * (x * y) ≤ 1.0102 := by
    have := mul_le_mul_of_nonneg_right A' da.le
    have e2 : 0 ≤ ε * 0.49 * x * x := by positivity
    nlinarith
  have u2 : 1 ≤ 1.0102 * (0.49 * (x * y) + ε * 0.51 * (y * y)) := by
    have := mul_le_mul_of_nonneg_right B' db.le
    nlinarith
  have u3 : ε * (y * y) ≤ 0.00025 := by
    have : y * y ≤ 250000 := by nlinarith
    nlinarith [mul_le_mul h1 this (by positivity) (by norm_num)]
  nlinarith

/-- One pass multiplies the second coefficient by at most `1.0103`, and the product of the two stays at least two. -/
theorem two_step (ε x y : ℝ) (h0 : 0 < ε) (h1 : ε ≤ 1e-9) (hx : 0 < x) (hx2 : x ≤ 2) (hy : 1 ≤ y) (hy2 : y ≤ 500) (hu : 2 ≤ x * y) :
    0 < (x + 1 / (ε * 0.49 * x + 0.51 * y)) / 2 ∧ (x + 1 / (ε * 0.49 * x + 0.51 * y)) / 2 ≤ 2 ∧
    1 ≤ (y + 1 / (0.49 * x + ε * 0.51 * y)) / 2 ∧ (y + 1 / (0.49 * x + ε * 0.51 * y)) / 2 ≤ 1.0103 * y ∧
    2 ≤ (x + 1 / (ε * 0.49 * x + 0.51 * y)) / 2 * ((y + 1 / (0.49 * x + ε * 0.51 * y)) / 2) := by
  have da : 0 < ε * 0.49 * x + 0.51 * y := by positivity
  have db : 0 < 0.49 * x + ε * 0.51 * y := by positivity
  have hεx : ε * x ≤ 2e-9 := by nlinarith
  have hεy : ε * y ≤ 5e-7 := by nlinarith
  have hεyy : ε * (y * y) ≤ 0.00025 := by
    have : y * y ≤ 250000 := by nlinarith
    nlinarith [mul_le_mul h1 this (by positivity) (by norm_num)]
  have n1 : 1 / (ε * 0.49 * x + 0.51 * y) ≤ 2 := by
    rw [div_le_iff₀ da]; nlinarith [mul_pos h0 hx]
  have n2 : 1 ≤ 1 / (0.49 * x + ε * 0.51 * y) := by
    rw [le_div_iff₀ db]; nlinarith
  have n3 : 1 / (0.49 * x + ε * 0.51 * y) ≤ 1.0206 * y := by
    rw [div_le_iff₀ db]; nlinarith [mul_pos h0 (by linarith : 0 < y), mul_pos (mul_pos h0 (by linarith : 0 < y)) (by linarith : 0 < y)]
  -- lower bounds with the small terms taken relative to the large ones
  have n4 : 1.9604 / y ≤ 1 / (ε * 0.49 * x + 0.51 * y) := by
    rw [div_le_div_iff₀ (by linarith) da]; nlinarith
  have n5 : 2.0405 / x ≤ 1 / (0.49 * x + ε * 0.51 * y) := by
    rw [div_le_div_iff₀ hx db]
    have : ε * y ≤ 0.000125 * x := by
      have h2 : ε * y * y ≤ 0.000125 * x * y := by nlinarith
      exact le_of_mul_le_mul_right h2 (by linarith)
    nlinarith
  refine ⟨by positivity, by linarith, by linarith, by linarith, ?_⟩
  have hprod : (x + 1.9604 / y) * (y + 2.0405 / x) ≤ (x + 1 / (ε * 0.49 * x + 0.51 * y)) * (y + 1 / (0.49 * x + ε * 0.51 * y)) := by
    apply mul_le_mul <;> first | positivity | linarith
  have e : (x + 1.9604 / y) * (y + 2.0405 / x) = x * y + 4.0009 + 4.0001962 / (x * y) := by
    field_simp; ring
  have key : 8 ≤ x * y + 4.0009 + 4.0001962 / (x * y) := by
    have hp : 0 < x * y := by positivity
    have : 3.9991 - x * y ≤ 4.0001962 / (x * y) := by
      rw [le_div_iff₀ hp]; nlinarith [sq_nonneg (x * y - 2)]
    linarith
  nlinarith

/-- The coefficients during the passes of the code. -/
theorem TwoSegs.iter {K : ι → ι → ℝ} {W : ι → Bool} {p : ι → ℝ} {a b : ι} {ε : ℝ} (t : TwoSegs K W p a b ε) (k : ℕ) (hk : k < 501) :
    0 < segIter K W p (k + 1) a ∧ segIter K W p (k + 1) a ≤ 2 ∧ 1 ≤ segIter K W p (k + 1) b ∧ segIter K W p (k + 1) b ≤ 1.53 * 1.0103 ^ k ∧
    2 ≤ segIter K W p (k + 1) a * segIter K W p (k + 1) b := by
  have h0 := t.ε0
  have h1 := t.ε1
  induction k with
  | zero =>
    obtain ⟨ea, eb, sa, sb⟩ := t.step (segIter K W p 0)
    have i0 : ∀ m, segIter K W p 0 m = 1 := fun m => rfl
    rw [segIter_succ, sa, sb, ea, eb, i0, i0]
    have a1 : 1.96 ≤ 1 / (ε * 0.49 * 1 + 0.51 * 1) := by rw [le_div_iff₀ (by linarith)]; linarith
    have a2 : 1 / (ε * 0.49 * 1 + 0.51 * 1) ≤ 2 := by rw [div_le_iff₀ (by linarith)]; linarith
    have b1 : 2.04 ≤ 1 / (0.49 * 1 + ε * 0.51 * 1) := by rw [le_div_iff₀ (by linarith)]; linarith
    have b2 : 1 / (0.49 * 1 + ε * 0.51 * 1) ≤ 2.05 := by rw [div_le_iff₀ (by linarith)]; linarith
    refine ⟨by linarith, by linarith, by linarith, by rw [pow_zero]; linarith, by nlinarith⟩
  | succ k ih =>
    obtain ⟨i1, i2, i3, i4, i5⟩ := ih (by omega)
    have hpow : (1.0103 : ℝ) ^ k ≤ 300 := by
      calc (1.0103 : ℝ) ^ k ≤ 1.0103 ^ 500 := pow_le_pow_right₀ (by norm_num) (by omega)
        _ = (1.0103 ^ 250) ^ 2 := by rw [← pow_mul]
        _ ≤ 13.5 ^ 2 := pow_le_pow_left₀ (by norm_num) (by norm_num) 2
        _ ≤ 300 := by norm_num
    obtain ⟨ea, eb, sa, sb⟩ := t.step (segIter K W p (k + 1))
    rw [segIter_succ, sa, sb, ea, eb]
    obtain ⟨j1, j2, j3, j4, j5⟩ := two_step ε _ _ h0 h1 i1 i2 i3 (by linarith) i5
    exact ⟨j1, j2, j3, by rw [pow_succ]; linarith, j5⟩

/-- **The passes run out although the solution exists.**  With these two segments the 501 passes of the code do not meet the test. -/
theorem two_runs_out (K : ι → ι → ℝ) (W : ι → Bool) (p : ι → ℝ) (a b : ι) (ε : ℝ) (h : SegData K W p) (t : TwoSegs K W p a b ε) (tol : ℝ)
    (ht : tol ≤ 0.005) : segLoop K W p tol 500 (fun _ => 1) = .throws .stdInvalidArgument := by
  rcases segLoop_cases K W p tol h 500 0 with ⟨i, hi, hd, -, -⟩ | ⟨-, he⟩
  swap
  · exact he
  exfalso
  rw [zero_add] at hd
  rcases i with _ | k
  · exact t.not_done _ one_pos one_pos (by show (1 : ℝ) ≤ 500; norm_num) tol ht hd
  · obtain ⟨i1, -, i3, i4, -⟩ := t.iter k (by omega)
    refine t.not_done _ i1 (by linarith) ?_ tol ht hd
    have hpow : (1.0103 : ℝ) ^ k ≤ 300 := by
      calc (1.0103 : ℝ) ^ k ≤ 1.0103 ^ 500 := pow_le_pow_right₀ (by norm_num) (by omega)
        _ = (1.0103 ^ 250) ^ 2 := by rw [← pow_mul]
        _ ≤ 13.5 ^ 2 := pow_le_pow_left₀ (by norm_num) (by norm_num) 2
        _ ≤ 300 := by norm_num
    linarith

/-- The factor of two equal charges of `0.02` at room temperature. -/
theorem cosmo_factor (T : ℝ) (hT : T = 298.15) (f : Bool) (k : Fin 51) (hk : cosmoSigma k = 0.02 ∨ cosmoSigma k = -0.02) :
    CosmoConsts.K { fast := f } T (.nhb, k) (.nhb, k) ≤ 1e-9 := by
  have hsq : cosmoSigma k * cosmoSigma k = 0.0004 := by rcases hk with h | h <;> rw [h] <;> norm_num
  have hd : CosmoConsts.deltaW { fast := f } T (.nhb, k) (.nhb, k) = (6525.69 + 1.4859e8 / (T * T)) * 0.0016 := by
    unfold CosmoConsts.deltaW
    rw [if_pos (by rw [hsq]; norm_num)]
    rw [show (cosmoSigma k + cosmoSigma k) ^ 2 = 4 * (cosmoSigma k * cosmoSigma k) by ring, hsq]; ring
  unfold CosmoConsts.K
  rw [hd, hT]
  have hle : -((6525.69 + 1.4859e8 / ((298.15 : ℝ) * 298.15)) * 0.0016) / (1.38064903e-23 * 6.022140758e23 / 4184 * 298.15) ≤ -22 := by norm_num
  refine (Real.exp_le_exp.2 hle).trans ?_
  rw [Real.exp_neg, show (22 : ℝ) = ((22 : ℕ) : ℝ) * 1 by norm_num, Real.exp_nat_mul]
  have he : (2.7 : ℝ) ^ 22 ≤ Real.exp 1 ^ 22 := pow_le_pow_left₀ (by norm_num) (by linarith [Real.exp_one_gt_d9]) 22
  have : (1e9 : ℝ) ≤ Real.exp 1 ^ 22 := le_trans (by norm_num) he
  calc (Real.exp 1 ^ 22)⁻¹ ≤ (1e9 : ℝ)⁻¹ := inv_anti₀ (by norm_num) this
    _ = 1e-9 := by norm_num

/-- Opposite charges without hydrogen bonds have the factor one at any temperature. -/
theorem cosmo_factor_opposite (c : CosmoConsts) (T : ℝ) (i j : Fin 51) (h : cosmoSigma i + cosmoSigma j = 0) : c.K T (.nhb, i) (.nhb, j) = 1 := by
  have hd : c.deltaW T (.nhb, i) (.nhb, j) = 0 := by
    unfold CosmoConsts.deltaW
    rw [h]
    have : c.chb .nhb .nhb = 0 := by simp [CosmoConsts.chb]
    simp [this]
  unfold CosmoConsts.K
  rw [hd]; simp

/-- **At room temperature and with the published constants** the evaluation ends with the exception of the iteration for a mixture of segments with the
charges `∓0.02` in the ratio `49:51`, in both branches, though its coefficients exist. -/
theorem cosmo_runs_out (m : Cosmo) (f : Bool) (hc : m.c = { fast := f }) (x : List ℝ) (h : CosmoRegular m 298.15 x) (hwin : f = true → m.iL ≤ 5 ∧ 45 ≤ m.iR)
    (h5 : m.pMix x (.nhb, 5) = 0.49) (h45 : m.pMix x (.nhb, 45) = 0.51) (hrest : ∀ s, s ≠ (.nhb, 5) → s ≠ (.nhb, 45) → m.pMix x s = 0) :
    m.resid 298.15 x = .throws .stdInvalidArgument ∧ m.eval 298.15 x = .throws .stdInvalidArgument ∧
    ∃! Γ, IsWindowSolution (m.c.K 298.15) m.window (m.pMix x) Γ := by
  have s5 : cosmoSigma 5 = -0.02 := by unfold cosmoSigma; norm_num
  have s45 : cosmoSigma 45 = 0.02 := by unfold cosmoSigma; norm_num
  have hR : m.c.R ≠ 0 := by rw [hc]; norm_num
  have w : ∀ k : Fin 51, (k : ℕ) = 5 ∨ (k : ℕ) = 45 → m.window (.nhb, k) = true := by
    intro k hk
    unfold Cosmo.window
    cases f with
    | false => simp [hc]
    | true =>
      obtain ⟨a, b⟩ := hwin rfl
      simp only [hc, Bool.not_true, Bool.false_or, Bool.and_eq_true, decide_eq_true_eq]
      omega
  have K5 : m.c.K 298.15 (.nhb, 5) (.nhb, 5) = m.c.K 298.15 (.nhb, 45) (.nhb, 45) := by
    unfold CosmoConsts.K CosmoConsts.deltaW
    rw [s5, s45, if_pos (by norm_num), if_pos (by norm_num)]; norm_num
  have t : TwoSegs (m.c.K 298.15) m.window (m.pMix x) (.nhb, 5) (.nhb, 45) (m.c.K 298.15 (.nhb, 5) (.nhb, 5)) :=
    { ne := by simp
      Wa := w 5 (Or.inl rfl)
      Wb := w 45 (Or.inr rfl)
      pa := h5
      pb := h45
      p0 := hrest
      Kab := cosmo_factor_opposite _ _ _ _ (by rw [s5, s45]; norm_num)
      Kba := cosmo_factor_opposite _ _ _ _ (by rw [s5, s45]; norm_num)
      Kaa := rfl
      Kbb := K5.symm
      ε0 := (cosmo_kernel _ _ _ _).1
      ε1 := by rw [hc]; exact cosmo_factor _ rfl f 5 (Or.inr s5) }
  have hloop := two_runs_out _ _ _ _ _ _ h.mix t m.c.tol (by rw [hc]; norm_num)
  have hg : m.gamma 298.15 (m.pMix x) = .throws .stdInvalidArgument := by
    unfold Cosmo.gamma
    rw [if_neg (by rintro ⟨hf, h1⟩; have := h.branch hf; omega), if_neg (by rintro (h1 | h1); exacts [h.T0 h1, hR h1])]
    exact hloop
  have hr : m.resid 298.15 x = .throws .stdInvalidArgument := by
    unfold Cosmo.resid
    rw [if_neg, if_neg]
    · unfold Cosmo.lnGamma; rw [hg]; rfl
    · rintro (h1 | h1)
      exacts [h.xA_pos.ne' h1, h.aeff h1]
    · rintro (h1 | h1 | ⟨i, hi, h1⟩)
      exacts [absurd h.sizeF (by omega), absurd h.sizeA (by omega), h1 (h.fits i hi)]
  refine ⟨hr, by unfold Cosmo.eval; rw [hr]; rfl, window_solution _ _ _ h.mix fun a b => (cosmo_kernel _ _ a b).2⟩

/-- A pure fluid of this kind. -/
noncomputable def cosmoTwo : Cosmo where
  A := [100]
  V := [100]
  fluids := [⟨List.replicate 5 0 ++ 49 :: (List.replicate 39 0 ++ 51 :: List.replicate 5 0), List.replicate 51 0, List.replicate 51 0⟩]
  c := {}
  iL := 5
  iR := 45

theorem cosmoTwo_pA (s : CSeg) : cosmoTwo.pA 0 s = if s = (.nhb, 5) then 49 else if s = (.nhb, 45) then 51 else 0 := by
  obtain ⟨t, k⟩ := s
  cases t with
  | nhb =>
    have e : cosmoTwo.pA 0 (.nhb, k) = (List.replicate 5 (0 : ℝ) ++ 49 :: (List.replicate 39 0 ++ 51 :: List.replicate 5 0)).getD (k : ℕ) 0 := rfl
    rw [e]
    fin_cases k <;> simp
  | oh => rw [if_neg (by simp), if_neg (by simp)]; exact getD_replicate_zero 51 k
  | ot => rw [if_neg (by simp), if_neg (by simp)]; exact getD_replicate_zero 51 k

theorem cosmoTwo_regular : CosmoRegular cosmoTwo 298.15 [1] where
  T0 := by norm_num
  R0 := by unfold cosmoTwo; norm_num
  aeff := by unfold cosmoTwo; norm_num
  branch := fun _ => ⟨by decide, by decide⟩
  sizeF := le_rfl
  sizeA := le_rfl
  fits := fun i hi t => by
    obtain rfl : i = 0 := by simpa using hi
    cases t <;> rfl
  area := fun i hi => by
    obtain rfl : i = 0 := by simpa using hi
    simp [Cosmo.area, cosmoTwo]
  prof := fun i hi s => by
    obtain rfl : i = 0 := by simpa using hi
    rw [cosmoTwo_pA]; split_ifs <;> norm_num
  seen := fun i hi => by
    obtain rfl : i = 0 := by simpa using hi
    exact ⟨(.nhb, 5), by simp [Cosmo.window, cosmoTwo], by rw [cosmoTwo_pA]; norm_num⟩
  frac := fun i hi => by
    obtain rfl : i = 0 := by simpa using hi
    simp [el]
  some := ⟨0, by simp, by simp [el]⟩

theorem cosmoTwo_mix (s : CSeg) : cosmoTwo.pMix [1] s = cosmoTwo.pA 0 s / 100 := by
  unfold Cosmo.pMix Cosmo.xA
  simp [el, Cosmo.area, cosmoTwo]

example : cosmoTwo.eval 298.15 [1] = .throws .stdInvalidArgument :=
  (cosmo_runs_out cosmoTwo true rfl [1] cosmoTwo_regular (fun _ => ⟨le_rfl, le_rfl⟩) (by rw [cosmoTwo_mix, cosmoTwo_pA]; norm_num)
    (by rw [cosmoTwo_mix, cosmoTwo_pA, if_neg (by decide), if_pos rfl]; norm_num) fun s h1 h2 => by rw [cosmoTwo_mix, cosmoTwo_pA, if_neg h1, if_neg h2]; norm_num).2.1

/-! ## The test says nothing about the distance -/

/-- The factors of two segments that hardly see themselves. -/
def farK (ε : ℝ) (m n : Fin 2) : ℝ := if m = n then ε else 2
/-- Their densities, which differ by a tenth of the tolerance. -/
noncomputable def farP (n : Fin 2) : ℝ := if n = 0 then 0.5 - 5e-10 else 0.5 + 5e-10

/-- **Values that pass the test need not be near the solution**: with the tolerance of the code the loop ends with its first pass and values near one, while
the solution is as far away as one likes. -/
theorem seg_far (M : ℝ) (hM : 1 ≤ M) : SegData (farK (1e-9 / M ^ 2)) (fun _ => true) farP ∧ (∑ n, farP n = 1) ∧
    (∃ G, segLoop (farK (1e-9 / M ^ 2)) (fun _ => true) farP 1e-8 500 (fun _ => 1) = .ok G ∧ ∀ m, 0.99 ≤ G m ∧ G m ≤ 1.01) ∧
    ∀ Γ, IsWindowSolution (farK (1e-9 / M ^ 2)) (fun _ => true) farP Γ → M ≤ Γ 1 := by
  have hM0 : 0 < M := by linarith
  have hε0 : 0 < 1e-9 / M ^ 2 := by positivity
  have hε1 : 1e-9 / M ^ 2 ≤ 1e-9 := div_le_self (by norm_num) (one_le_pow₀ hM)
  have hεM : 1e-9 / M ^ 2 * M ^ 2 = 1e-9 := by field_simp
  generalize 1e-9 / M ^ 2 = ε at *
  have hdata : SegData (farK ε) (fun _ => true) farP := ⟨fun m n => by unfold farK; split_ifs <;> linarith, fun n => by unfold farP; split_ifs <;> norm_num,
    ⟨0, rfl, by unfold farP; norm_num⟩⟩
  have hsum : ∀ (G : Fin 2 → ℝ) m, segSum (farK ε) (fun _ => true) farP G m = farK ε m 0 * (0.5 - 5e-10) * G 0 + farK ε m 1 * (0.5 + 5e-10) * G 1 := by
    intro G m
    unfold segSum
    simp [Fin.sum_univ_two, farP]
  have e0 : segSum (farK ε) (fun _ => true) farP (fun _ => 1) 0 = ε * (0.5 - 5e-10) + 2 * (0.5 + 5e-10) := by rw [hsum]; simp [farK]
  have e1 : segSum (farK ε) (fun _ => true) farP (fun _ => 1) 1 = 2 * (0.5 - 5e-10) + ε * (0.5 + 5e-10) := by rw [hsum]; simp [farK]
  have hs : ∀ m, 1 - 2e-9 ≤ segSum (farK ε) (fun _ => true) farP (fun _ => 1) m ∧ segSum (farK ε) (fun _ => true) farP (fun _ => 1) m ≤ 1 + 2e-9 := by
    intro m
    fin_cases m
    · show 1 - 2e-9 ≤ segSum (farK ε) (fun _ => true) farP (fun _ => 1) 0 ∧ segSum (farK ε) (fun _ => true) farP (fun _ => 1) 0 ≤ 1 + 2e-9
      rw [e0]; constructor <;> nlinarith
    · show 1 - 2e-9 ≤ segSum (farK ε) (fun _ => true) farP (fun _ => 1) 1 ∧ segSum (farK ε) (fun _ => true) farP (fun _ => 1) 1 ≤ 1 + 2e-9
      rw [e1]; constructor <;> nlinarith
  have hn : ∀ m, 1 - 3e-9 ≤ segNew (farK ε) (fun _ => true) farP (fun _ => 1) m ∧ segNew (farK ε) (fun _ => true) farP (fun _ => 1) m ≤ 1 + 3e-9 := by
    intro m
    obtain ⟨a, b⟩ := hs m
    unfold segNew
    rw [if_pos rfl]
    have hp : 0 < segSum (farK ε) (fun _ => true) farP (fun _ => 1) m := by linarith
    constructor
    · rw [le_div_iff₀ hp]; nlinarith
    · rw [div_le_iff₀ hp]; nlinarith
  have hst : ∀ m, segStep (farK ε) (fun _ => true) farP (fun _ => 1) m = (1 + segNew (farK ε) (fun _ => true) farP (fun _ => 1) m) / 2 := fun m => by
    unfold segStep; rw [if_pos rfl]
  have hdone : SegDone (farK ε) (fun _ => true) farP 1e-8 (fun _ => 1) := by
    intro m
    obtain ⟨a, b⟩ := hn m
    rw [hst]
    generalize segNew (farK ε) (fun _ => true) farP (fun _ => 1) m = N at *
    have hp : 0 < (1 + N) / 2 := by linarith
    rw [abs_div, abs_of_pos hp, div_lt_iff₀ hp, abs_lt]
    constructor <;> linarith
  refine ⟨hdata, by simp [Fin.sum_univ_two, farP]; norm_num, ⟨_, (segLoop_unfold _ _ _ _ 500 _ hdata (fun _ => one_pos)).1 hdone, fun m => ?_⟩, fun Γ hΓ => ?_⟩
  · obtain ⟨a, b⟩ := hn m
    rw [hst]; constructor <;> linarith
  · have q0 := hΓ.eq 0 rfl
    have q1 := hΓ.eq 1 rfl
    rw [window_sum, hsum] at q0 q1
    simp only [farK, if_true, show ¬ (0 : Fin 2) = 1 by decide, show ¬ (1 : Fin 2) = 0 by decide, if_false] at q0 q1
    have p0 := hΓ.pos 0
    have p1 := hΓ.pos 1
    generalize Γ 0 = x at *
    generalize Γ 1 = y at *
    by_contra hcon
    push Not at hcon
    have u1 : 2 * (0.5 + 5e-10) * (x * y) ≤ 1 := by nlinarith [mul_pos hε0 (mul_pos p0 p0)]
    have u2 : ε * (0.5 + 5e-10) * (y * y) = 1 - 2 * (0.5 - 5e-10) * (x * y) := by linarith
    have u3 : ε * (y * y) ≤ 1e-9 := by
      rw [← hεM]; exact mul_le_mul_of_nonneg_left (by nlinarith) hε0.le
    nlinarith

/-- Factors of a million. -/
example : ∃ G, segLoop (farK (1e-9 / 1e6 ^ 2)) (fun _ => true) farP 1e-8 500 (fun _ => 1) = .ok G ∧ ∀ m, 0.99 ≤ G m ∧ G m ≤ 1.01 := (seg_far 1e6 (by norm_num)).2.2.1

end Teqp.Props
