import Verif.Model.Cosmo
import Verif.Lemmas.Outcome
import Mathlib.Analysis.SpecialFunctions.ExpDeriv
import Mathlib.Analysis.SpecialFunctions.Log.Deriv
import Mathlib.Analysis.Calculus.Deriv.Pow
import Mathlib.Analysis.Calculus.Deriv.Mul
import Mathlib.Analysis.Calculus.LocalExtr.Basic
import Mathlib.Topology.Order.Compact
import Mathlib.Analysis.Normed.Group.Bounded
import Mathlib.Tactic

/-! # The segment activity coefficients of COSMO-SAC -/

set_option autoImplicit false

namespace Teqp.Spec

/-- The segment activity coefficients of the literature: positive solutions of `Γ_m ∑_n K_mn p_n Γ_n = 1`. -/
structure IsSegActivity {ι : Type} [Fintype ι] (K : ι → ι → ℝ) (p G : ι → ℝ) : Prop where
  pos : ∀ m, 0 < G m
  eq : ∀ m, G m * ∑ n, K m n * p n * G n = 1

end Teqp.Spec

namespace Teqp.Props
open Teqp.Model Teqp.Spec Finset

variable {ι : Type} [Fintype ι]

/-! ## There is exactly one solution -/

/-- Half of the argument for uniqueness: where the ratio of two solutions is largest, all others have the smallest. -/
theorem seg_extreme (K : ι → ι → ℝ) (p G H : ι → ℝ) (hK : ∀ m n, 0 < K m n) (hp : ∀ n, 0 ≤ p n) (hG : IsSegActivity K p G)
    (hH : IsSegActivity K p H) (θ : ℝ) (hθ : 0 < θ) (hle : ∀ n, H n ≤ θ * G n) (m : ι) (hm : G m = θ * H m) (n : ι) (hn : 0 < p n) :
    H n = θ * G n := by
  have h0 : ∑ k, K m k * p k * (θ * G k - H k) = 0 := by
    have e1 : ∑ k, K m k * p k * (θ * G k - H k) = θ * ∑ k, K m k * p k * G k - ∑ k, K m k * p k * H k := by
      rw [mul_sum, ← sum_sub_distrib]; exact sum_congr rfl fun k _ => by ring
    have a := hG.eq m
    have b := hH.eq m
    have gp := hG.pos m
    have hp' := hH.pos m
    have a' : ∑ k, K m k * p k * G k = 1 / G m := by field_simp; linarith
    have b' : ∑ k, K m k * p k * H k = 1 / H m := by field_simp; linarith
    rw [e1, a', b', hm]; field_simp; ring
  have h1 := (sum_eq_zero_iff_of_nonneg fun k _ => mul_nonneg (mul_nonneg (hK m k).le (hp k)) (sub_nonneg.2 (hle k))).1 h0 n (mem_univ n)
  have := (mul_eq_zero.1 h1).resolve_left (mul_pos (hK m n) hn).ne'
  linarith

/-- At most one solution. -/
theorem seg_unique (K : ι → ι → ℝ) (p G H : ι → ℝ) (hK : ∀ m n, 0 < K m n) (hp : ∀ n, 0 ≤ p n) (h1 : ∃ n, 0 < p n)
    (hG : IsSegActivity K p G) (hH : IsSegActivity K p H) : G = H := by
  obtain ⟨n0, hn0⟩ := h1
  obtain ⟨m0, -, hm0⟩ := exists_max_image univ (fun m => max (G m / H m) (H m / G m)) ⟨n0, mem_univ n0⟩
  set θ := max (G m0 / H m0) (H m0 / G m0) with hθdef
  have hθ : 0 < θ := lt_max_of_lt_left (div_pos (hG.pos m0) (hH.pos m0))
  have hGH : ∀ n, G n ≤ θ * H n := fun n =>
    (div_le_iff₀ (hH.pos n)).1 ((le_max_left _ _).trans (hm0 n (mem_univ n)))
  have hHG : ∀ n, H n ≤ θ * G n := fun n =>
    (div_le_iff₀ (hG.pos n)).1 ((le_max_right _ _).trans (hm0 n (mem_univ n)))
  have key : θ = 1 := by
    have fin : G n0 = θ * H n0 → H n0 = θ * G n0 → θ = 1 := by
      intro a b
      have : G n0 * (θ ^ 2 - 1) = 0 := by rw [b] at a; linarith [a]
      have h2 := (mul_eq_zero.1 this).resolve_left (hG.pos n0).ne'
      nlinarith
    rcases max_choice (G m0 / H m0) (H m0 / G m0) with h | h
    · have e : G m0 = θ * H m0 := by rw [hθdef, h, div_mul_cancel₀ _ (hH.pos m0).ne']
      have a := seg_extreme K p G H hK hp hG hH θ hθ hHG m0 e n0 hn0
      exact fin (seg_extreme K p H G hK hp hH hG θ hθ hGH n0 a n0 hn0) a
    · have e : H m0 = θ * G m0 := by rw [hθdef, h, div_mul_cancel₀ _ (hG.pos m0).ne']
      have a := seg_extreme K p H G hK hp hH hG θ hθ hGH m0 e n0 hn0
      exact fin a (seg_extreme K p G H hK hp hG hH θ hθ hHG n0 a n0 hn0)
  funext n
  have a := hGH n
  have b := hHG n
  rw [key, one_mul] at a b
  exact le_antisymm a b

/-- `IsSegActivity` restricted to the segments that are present. -/
theorem seg_extend (K : ι → ι → ℝ) (p : ι → ℝ) (hK : ∀ m n, 0 < K m n) (hp : ∀ n, 0 ≤ p n) (h1 : ∃ n, 0 < p n) (G : ι → ℝ)
    (hG : ∀ m, 0 < G m) (he : ∀ m, 0 < p m → G m * ∑ n, K m n * p n * G n = 1) : ∃ G', IsSegActivity K p G' := by
  have hS : ∀ m, 0 < ∑ n, K m n * p n * G n := by
    intro m
    obtain ⟨n0, hn0⟩ := h1
    exact sum_pos' (fun n _ => mul_nonneg (mul_nonneg (hK m n).le (hp n)) (hG n).le) ⟨n0, mem_univ _, mul_pos (mul_pos (hK m n0) hn0) (hG n0)⟩
  have hcong : ∀ m, ∑ n, K m n * p n * (1 / ∑ k, K n k * p k * G k) = ∑ n, K m n * p n * G n := by
    intro m
    refine sum_congr rfl fun n _ => ?_
    rcases (hp n).lt_or_eq with h | h
    · congr 1; have := he n h; have := (hS n).ne'; field_simp; linarith [he n h]
    · rw [← h]; simp
  refine ⟨fun m => 1 / ∑ n, K m n * p n * G n, fun m => one_div_pos.2 (hS m), fun m => ?_⟩
  show 1 / (∑ n, K m n * p n * G n) * ∑ n, K m n * p n * (1 / ∑ k, K n k * p k * G k) = 1
  rw [hcong m, one_div, inv_mul_cancel₀ (hS m).ne']

/-- At least one solution, by minimising `½ ∑ K_mn p_m p_n exp(u_m + u_n) - ∑ p_m u_m` over the segments that are present, when all are present. -/
theorem seg_exists_pos (K : ι → ι → ℝ) (p : ι → ℝ) [Nonempty ι] (hK : ∀ m n, 0 < K m n) (hs : ∀ m n, K m n = K n m) (hp : ∀ n, 0 < p n) :
    ∃ G, IsSegActivity K p G := by
  classical
  let f : (ι → ℝ) → ℝ := fun u => 1 / 2 * ∑ m, ∑ n, K m n * p m * p n * Real.exp (u m + u n) - ∑ m, p m * u m
  have hcont : Continuous f := by
    refine Continuous.sub (continuous_const.mul (continuous_finset_sum _ fun m _ => continuous_finset_sum _ fun n _ => ?_))
      (continuous_finset_sum _ fun m _ => continuous_const.mul (continuous_apply m))
    exact continuous_const.mul (Real.continuous_exp.comp ((continuous_apply m).add (continuous_apply n)))
  -- a bound from below
  let C : ι → ℝ := fun m => p m * (1 + Real.log (K m m * p m / 2))
  obtain ⟨i0, -, hi0⟩ := exists_min_image univ p univ_nonempty
  have hbound : ∀ u : ι → ℝ, p i0 * ‖u‖ + ∑ m, min 0 (C m) ≤ f u := by
    intro u
    have h1 : ∀ m, p m * |u m| + min 0 (C m) ≤ 1 / 2 * (K m m * p m * p m * Real.exp (u m + u m)) - p m * u m := by
      intro m
      have hc : 0 < K m m * p m / 2 := by have := hK m m; have := hp m; positivity
      have he := Real.add_one_le_exp (u m + u m + Real.log (K m m * p m / 2))
      rw [Real.exp_add, Real.exp_log hc] at he
      have h2 : C m + 2 * (p m * u m) ≤ 1 / 2 * (K m m * p m * p m * Real.exp (u m + u m)) := by
        have := mul_le_mul_of_nonneg_left he (hp m).le
        calc C m + 2 * (p m * u m) = p m * (u m + u m + Real.log (K m m * p m / 2) + 1) := by simp only [C]; ring
          _ ≤ _ := this
          _ = _ := by ring
      have h3 : 0 ≤ 1 / 2 * (K m m * p m * p m * Real.exp (u m + u m)) := by
        have := hK m m; have := hp m; positivity
      rcases le_total 0 (u m) with h | h
      · rw [abs_of_nonneg h]; linarith [min_le_right 0 (C m)]
      · rw [abs_of_nonpos h]; linarith [min_le_left 0 (C m)]
    have h2 : ∑ m, (p m * |u m| + min 0 (C m)) ≤ f u := by
      refine (sum_le_sum fun m _ => h1 m).trans ?_
      rw [sum_sub_distrib, ← mul_sum]
      refine sub_le_sub_right (mul_le_mul_of_nonneg_left (sum_le_sum fun m _ => ?_) (by norm_num)) _
      exact single_le_sum (f := fun n => K m n * p m * p n * Real.exp (u m + u n))
        (fun n _ => mul_nonneg (mul_nonneg (mul_nonneg (hK m n).le (hp m).le) (hp n).le) (Real.exp_pos _).le) (mem_univ m)
    refine le_trans ?_ h2
    rw [sum_add_distrib]
    refine add_le_add_left ?_ _
    have h3 : ‖u‖ ≤ ∑ m, |u m| := by
      refine (pi_norm_le_iff_of_nonneg (sum_nonneg fun m _ => abs_nonneg _)).2 fun m => ?_
      rw [Real.norm_eq_abs]
      exact single_le_sum (f := fun m => |u m|) (fun n _ => abs_nonneg _) (mem_univ m)
    calc p i0 * ‖u‖ ≤ p i0 * ∑ m, |u m| := mul_le_mul_of_nonneg_left h3 (hp i0).le
      _ = ∑ m, p i0 * |u m| := mul_sum _ _ _
      _ ≤ ∑ m, p m * |u m| := sum_le_sum fun m _ => mul_le_mul_of_nonneg_right (hi0 m (mem_univ m)) (abs_nonneg _)
  have hlim : Filter.Tendsto f (Filter.cocompact (ι → ℝ)) Filter.atTop := by
    refine Filter.tendsto_atTop_mono hbound ?_
    refine Filter.tendsto_atTop_add_const_right _ _ ?_
    exact (tendsto_norm_cocompact_atTop).const_mul_atTop (hp i0)
  obtain ⟨u, hu⟩ := hcont.exists_forall_le hlim
  refine ⟨fun m => Real.exp (u m), fun m => Real.exp_pos _, fun k => ?_⟩
  -- the derivative in the direction of one segment
  have hline : HasDerivAt (fun t => f (Function.update u k (u k + t))) (p k * Real.exp (u k) * (∑ n, K k n * p n * Real.exp (u n)) - p k) 0 := by
    have hup : ∀ m, HasDerivAt (fun t => Function.update u k (u k + t) m) (if m = k then 1 else 0) 0 := by
      intro m
      by_cases h : m = k
      · subst h; simp only [Function.update_self, if_true]; exact (hasDerivAt_id (0 : ℝ)).const_add (u m)
      · simp only [Function.update_of_ne h, h, if_false]; exact hasDerivAt_const _ _
    have h0 : Function.update u k (u k + 0) = u := by simp
    have hd : HasDerivAt (fun t => f (Function.update u k (u k + t)))
        (1 / 2 * (∑ m, ∑ n, K m n * p m * p n * (Real.exp (u m + u n) * ((if m = k then 1 else 0) + (if n = k then 1 else 0))))
          - ∑ m, p m * (if m = k then 1 else 0)) 0 := by
      refine HasDerivAt.sub (HasDerivAt.const_mul _ (HasDerivAt.fun_sum fun m _ => HasDerivAt.fun_sum fun n _ => HasDerivAt.const_mul _ ?_))
        (HasDerivAt.fun_sum fun m _ => (hup m).const_mul _)
      have := ((hup m).add (hup n)).exp
      simp only [Pi.add_apply, h0] at this
      exact this
    refine hd.congr_deriv ?_
    have e1 : ∑ m, ∑ n, K m n * p m * p n * (Real.exp (u m + u n) * ((if m = k then 1 else 0) + (if n = k then 1 else 0)))
        = 2 * (p k * Real.exp (u k) * ∑ n, K k n * p n * Real.exp (u n)) := by
      have e2 : ∀ m n, K m n * p m * p n * (Real.exp (u m + u n) * ((if m = k then 1 else 0) + (if n = k then (1 : ℝ) else 0)))
          = (if m = k then K m n * p m * p n * Real.exp (u m + u n) else 0) + (if n = k then K m n * p m * p n * Real.exp (u m + u n) else 0) := by
        intro m n; split_ifs <;> ring
      simp_rw [e2, sum_add_distrib]
      rw [two_mul]
      congr 1
      · rw [sum_comm]
        simp only [sum_ite_eq', mem_univ, if_true]
        rw [mul_sum]
        exact sum_congr rfl fun n _ => by rw [Real.exp_add]; ring
      · simp only [sum_ite_eq', mem_univ, if_true]
        rw [mul_sum]
        exact sum_congr rfl fun n _ => by rw [Real.exp_add, hs n k]; ring
    rw [e1]
    simp only [mul_ite, mul_one, mul_zero, sum_ite_eq', mem_univ, if_true]
    ring
  have hmin : IsLocalMin (fun t => f (Function.update u k (u k + t))) 0 := by
    refine Filter.Eventually.of_forall fun t => ?_
    simp only [add_zero, Function.update_eq_self]
    exact hu _
  have h0 := hmin.hasDerivAt_eq_zero hline
  have : p k * (Real.exp (u k) * (∑ n, K k n * p n * Real.exp (u n)) - 1) = 0 := by linarith
  have := (mul_eq_zero.1 this).resolve_left (hp k).ne'
  show Real.exp (u k) * ∑ n, K k n * p n * Real.exp (u n) = 1
  linarith

/-- For a symmetric positive matrix of exchange and any charge densities that are not all zero there is one and only one set of segment activity
coefficients. -/
theorem seg_exists_unique (K : ι → ι → ℝ) (p : ι → ℝ) (hK : ∀ m n, 0 < K m n) (hs : ∀ m n, K m n = K n m) (hp : ∀ n, 0 ≤ p n) (h1 : ∃ n, 0 < p n) :
    ∃! G, IsSegActivity K p G := by
  classical
  obtain ⟨n0, hn0⟩ := h1
  have : Nonempty {n // 0 < p n} := ⟨⟨n0, hn0⟩⟩
  obtain ⟨g, hg⟩ := seg_exists_pos (ι := {n // 0 < p n}) (fun m n => K m n) (fun n => p n) (fun m n => hK m n) (fun m n => hs m n) (fun n => n.2)
  let G : ι → ℝ := fun m => if h : 0 < p m then g ⟨m, h⟩ else 1
  have hGpos : ∀ m, 0 < G m := by
    intro m
    by_cases h : 0 < p m
    · simp only [G, dif_pos h]; exact hg.pos _
    · simp only [G, dif_neg h]; exact one_pos
  have hsum : ∀ m, ∑ n, K m n * p n * G n = ∑ n : {n // 0 < p n}, K m n * p n * g n := by
    intro m
    have e : ∑ n : {n // 0 < p n}, K m n * p n * g n = ∑ n : {n // 0 < p n}, K m n * p n * G n :=
      sum_congr rfl fun n _ => by simp only [G, dif_pos n.2]
    rw [e, ← sum_subtype (univ.filter fun n => 0 < p n) (by simp) (fun n => K m n * p n * G n), sum_filter]
    refine sum_congr rfl fun n _ => ?_
    by_cases h : 0 < p n
    · rw [if_pos h]
    · rw [if_neg h, le_antisymm (not_lt.1 h) (hp n)]; simp
  obtain ⟨G', hG'⟩ := seg_extend K p hK hp ⟨n0, hn0⟩ G hGpos (fun m hm => by
    rw [hsum m]; simp only [G, dif_pos hm]; exact hg.eq ⟨m, hm⟩)
  exact ⟨G', hG', fun H hH => seg_unique K p H G' hK hp ⟨n0, hn0⟩ hH hG'⟩

/-- Two kinds of segments, equal energies: the coefficients are one half. -/
theorem seg_demo : IsSegActivity (fun _ _ : Fin 2 => (4 : ℝ)) (fun n => if n = 0 then 0.25 else 0.75) (fun _ => 0.5) := by
  refine ⟨fun _ => by norm_num, fun m => ?_⟩
  rw [Fin.sum_univ_two]; norm_num

example : ∃! G, IsSegActivity (fun _ _ : Fin 2 => (4 : ℝ)) (fun n => if n = 0 then 0.25 else 0.75) G :=
  seg_exists_unique _ _ (fun _ _ => by norm_num) (fun _ _ => rfl) (fun n => by split_ifs <;> norm_num) ⟨0, by norm_num⟩

/-! ## What the loops return -/

/-- The conditions of the loops: positive energies factors, charge densities that are not negative and not all zero in the window. -/
structure SegData (K : ι → ι → ℝ) (W : ι → Bool) (p : ι → ℝ) : Prop where
  hK : ∀ m n, 0 < K m n
  hp : ∀ n, 0 ≤ p n
  h1 : ∃ n, W n = true ∧ 0 < p n

theorem segSum_pos {K : ι → ι → ℝ} {W : ι → Bool} {p G : ι → ℝ} (h : SegData K W p) (hG : ∀ m, 0 < G m) (m : ι) : 0 < segSum K W p G m := by
  obtain ⟨n0, hw, hn⟩ := h.h1
  exact sum_pos' (fun n _ => mul_nonneg (mul_nonneg (h.hK m n).le (h.hp n)) (hG n).le)
    ⟨n0, by simp [hw], mul_pos (mul_pos (h.hK m n0) hn) (hG n0)⟩

theorem segStep_pos {K : ι → ι → ℝ} {W : ι → Bool} {p G : ι → ℝ} (h : SegData K W p) (hG : ∀ m, 0 < G m) (m : ι) :
    0 < segNew K W p G m ∧ 0 < segStep K W p G m := by
  have a : 0 < segNew K W p G m := by
    unfold segNew; split_ifs
    · exact one_div_pos.2 (segSum_pos h hG m)
    · exact one_pos
  refine ⟨a, ?_⟩
  unfold segStep; split_ifs
  · have := hG m; linarith
  · exact hG m

/-- The test of the loops after the step from `G`. -/
def SegDone (K : ι → ι → ℝ) (W : ι → Bool) (p : ι → ℝ) (tol : ℝ) (G : ι → ℝ) : Prop :=
  ∀ m, |(segStep K W p G m - segNew K W p G m) / segStep K W p G m| < tol

/-- The values after `k` passes from one. -/
noncomputable def segIter (K : ι → ι → ℝ) (W : ι → Bool) (p : ι → ℝ) (k : ℕ) : ι → ℝ := (segStep K W p)^[k] (fun _ => 1)

theorem segIter_succ (K : ι → ι → ℝ) (W : ι → Bool) (p : ι → ℝ) (k : ℕ) : segIter K W p (k + 1) = segStep K W p (segIter K W p k) := by
  unfold segIter; rw [Function.iterate_succ_apply']

theorem segIter_pos {K : ι → ι → ℝ} {W : ι → Bool} {p : ι → ℝ} (h : SegData K W p) (k : ℕ) : ∀ m, 0 < segIter K W p k m := by
  induction k with
  | zero => intro m; exact one_pos
  | succ k ih => intro m; rw [segIter_succ]; exact (segStep_pos h ih m).2

theorem segIter_outside (K : ι → ι → ℝ) (W : ι → Bool) (p : ι → ℝ) (k : ℕ) (m : ι) (hm : W m = false) : segIter K W p k m = 1 := by
  induction k with
  | zero => rfl
  | succ k ih => rw [segIter_succ]; unfold segStep; simp [hm, ih]

theorem segLoop_unfold (K : ι → ι → ℝ) (W : ι → Bool) (p : ι → ℝ) (tol : ℝ) (k : ℕ) (G : ι → ℝ) (h : SegData K W p) (hG : ∀ m, 0 < G m) :
    (SegDone K W p tol G → segLoop K W p tol k G = .ok (segStep K W p G)) ∧
    (¬ SegDone K W p tol G → segLoop K W p tol k G = match k with
      | 0 => .throws .stdInvalidArgument
      | k + 1 => segLoop K W p tol k (segStep K W p G)) := by
  have hn : ¬ ∃ m, W m = true ∧ (segSum K W p G m = 0 ∨ segStep K W p G m = 0) := by
    rintro ⟨m, -, h0 | h0⟩
    · exact (segSum_pos h hG m).ne' h0
    · exact (segStep_pos h hG m).2.ne' h0
  constructor
  · intro hd
    cases k with
    | zero =>
      conv_lhs => unfold segLoop
      rw [if_neg hn]; exact if_pos hd
    | succ k =>
      conv_lhs => unfold segLoop
      rw [if_neg hn]; exact if_pos hd
  · intro hd
    cases k with
    | zero =>
      conv_lhs => unfold segLoop
      rw [if_neg hn]; exact if_neg hd
    | succ k =>
      conv_lhs => unfold segLoop
      rw [if_neg hn]; exact if_neg hd

/-- The loops end with the first pass that meets the test, or by the exception when no pass of the `k + 1` does; nothing else happens. -/
theorem segLoop_cases (K : ι → ι → ℝ) (W : ι → Bool) (p : ι → ℝ) (tol : ℝ) (h : SegData K W p) (k j : ℕ) :
    (∃ i ≤ k, SegDone K W p tol (segIter K W p (j + i)) ∧ (∀ i' < i, ¬ SegDone K W p tol (segIter K W p (j + i'))) ∧
        segLoop K W p tol k (segIter K W p j) = .ok (segIter K W p (j + i + 1))) ∨
    ((∀ i ≤ k, ¬ SegDone K W p tol (segIter K W p (j + i))) ∧ segLoop K W p tol k (segIter K W p j) = .throws .stdInvalidArgument) := by
  induction k generalizing j with
  | zero =>
    have hu := segLoop_unfold K W p tol 0 (segIter K W p j) h (segIter_pos h j)
    by_cases hd : SegDone K W p tol (segIter K W p j)
    · exact Or.inl ⟨0, le_rfl, hd, fun i' hi' => absurd hi' (Nat.not_lt_zero _), by rw [hu.1 hd, add_zero, segIter_succ]⟩
    · exact Or.inr ⟨fun i hi => by rwa [Nat.le_zero.1 hi], hu.2 hd⟩
  | succ k ih =>
    have hu := segLoop_unfold K W p tol (k + 1) (segIter K W p j) h (segIter_pos h j)
    by_cases hd : SegDone K W p tol (segIter K W p j)
    · exact Or.inl ⟨0, Nat.zero_le _, hd, fun i' hi' => absurd hi' (Nat.not_lt_zero _), by rw [hu.1 hd, add_zero, segIter_succ]⟩
    · have hrec : segLoop K W p tol (k + 1) (segIter K W p j) = segLoop K W p tol k (segIter K W p (j + 1)) := by
        rw [hu.2 hd, segIter_succ]
      rw [hrec]
      rcases ih (j + 1) with ⟨i, hi, hdone, hbefore, hres⟩ | ⟨hall, hres⟩
      · refine Or.inl ⟨i + 1, by omega, by rwa [show j + (i + 1) = j + 1 + i by omega], ?_, by rw [hres]; congr 2; omega⟩
        intro i' hi'
        rcases i' with _ | i'
        · exact hd
        · rw [show j + (i' + 1) = j + 1 + i' by omega]; exact hbefore i' (by omega)
      · refine Or.inr ⟨?_, hres⟩
        intro i hi
        rcases i with _ | i
        · exact hd
        · rw [show j + (i + 1) = j + 1 + i by omega]; exact hall i (by omega)

/-- The result of a loop: positive, one outside of the window, and in the window a solution of the equation up to a relative error that
is about twice the tolerance. -/
theorem segLoop_result (K : ι → ι → ℝ) (W : ι → Bool) (p : ι → ℝ) (tol : ℝ) (h : SegData K W p) (ht : tol < 1) (k : ℕ) (G : ι → ℝ)
    (hr : segLoop K W p tol k (fun _ => 1) = .ok G) :
    (∀ m, 0 < G m) ∧ (∀ m, W m = false → G m = 1) ∧
    ∀ m, W m = true → 1 ≤ (1 + tol) ^ 2 * (G m * ∑ n ∈ univ.filter (W · = true), K m n * p n * G n) ∧
      (1 - tol) ^ 2 * (G m * ∑ n ∈ univ.filter (W · = true), K m n * p n * G n) ≤ 1 := by
  have hc := segLoop_cases K W p tol h k 0
  rw [show segIter K W p 0 = fun _ => 1 from rfl, hr] at hc
  rcases hc with ⟨i, -, hd, -, he⟩ | ⟨-, he⟩
  swap
  · exact absurd he (by simp)
  have hG : G = segIter K W p (0 + i + 1) := by injection he
  rw [zero_add] at hG
  rw [zero_add] at hd
  refine ⟨fun m => by rw [hG]; exact segIter_pos h _ m, fun m hm => by rw [hG]; exact segIter_outside K W p _ m hm, fun m hm => ?_⟩
  set H := segIter K W p i with hH
  have hHpos : ∀ m, 0 < H m := segIter_pos h i
  have hG' : G = segStep K W p H := by rw [hG, segIter_succ]
  have hGpos : ∀ m, 0 < G m := fun m => by rw [hG']; exact (segStep_pos h hHpos m).2
  have key : ∀ n, W n = true → |G n - segNew K W p H n| < tol * G n ∧ H n - G n = G n - segNew K W p H n := by
    intro n hn
    have a := hd n
    rw [← hG', abs_div, abs_of_pos (hGpos n), div_lt_iff₀ (hGpos n)] at a
    refine ⟨a, ?_⟩
    have : G n = (H n + segNew K W p H n) / 2 := by rw [hG']; unfold segStep; rw [if_pos hn]
    linarith
  have ht0 : 0 < tol := by
    have := (key m hm).1
    have h2 := hGpos m
    by_contra hcon
    have := (abs_nonneg (G m - segNew K W p H m)).trans_lt this
    nlinarith
  have hS1 : ∑ n ∈ univ.filter (W · = true), K m n * p n * G n ≤ segSum K W p H m / (1 - tol) := by
    rw [le_div_iff₀ (by linarith), sum_mul]
    unfold segSum
    refine sum_le_sum fun n hn => ?_
    have hn' : W n = true := by simpa using hn
    obtain ⟨a, b⟩ := key n hn'
    have := (abs_lt.1 a).1
    have c : G n * (1 - tol) ≤ H n := by nlinarith
    have hk := mul_nonneg (h.hK m n).le (h.hp n)
    calc K m n * p n * G n * (1 - tol) = K m n * p n * (G n * (1 - tol)) := by ring
      _ ≤ _ := mul_le_mul_of_nonneg_left c hk
  have hS2 : segSum K W p H m ≤ (1 + tol) * ∑ n ∈ univ.filter (W · = true), K m n * p n * G n := by
    rw [mul_sum]
    unfold segSum
    refine sum_le_sum fun n hn => ?_
    have hn' : W n = true := by simpa using hn
    obtain ⟨a, b⟩ := key n hn'
    have := (abs_lt.1 a).2
    have c : H n ≤ (1 + tol) * G n := by nlinarith
    have hk := mul_nonneg (h.hK m n).le (h.hp n)
    calc K m n * p n * H n ≤ K m n * p n * ((1 + tol) * G n) := mul_le_mul_of_nonneg_left c hk
      _ = _ := by ring
  have hspos := segSum_pos h hHpos m
  have hnew : segNew K W p H m * segSum K W p H m = 1 := by
    unfold segNew; rw [if_pos hm, one_div, inv_mul_cancel₀ hspos.ne']
  obtain ⟨a, -⟩ := key m hm
  obtain ⟨a1, a2⟩ := abs_lt.1 a
  have hg := hGpos m
  set S := ∑ n ∈ univ.filter (W · = true), K m n * p n * G n with hS
  set s := segSum K W p H m with hs
  set N := segNew K W p H m with hN
  have hNle : N ≤ (1 + tol) * G m := by linarith
  have hNge : (1 - tol) * G m ≤ N := by linarith
  rw [le_div_iff₀ (by linarith)] at hS1
  constructor
  · calc (1 : ℝ) = N * s := hnew.symm
      _ ≤ (1 + tol) * G m * s := mul_le_mul_of_nonneg_right hNle hspos.le
      _ ≤ (1 + tol) * G m * ((1 + tol) * S) := mul_le_mul_of_nonneg_left hS2 (by positivity)
      _ = _ := by ring
  · calc (1 - tol) ^ 2 * (G m * S) = (1 - tol) * G m * (S * (1 - tol)) := by ring
      _ ≤ (1 - tol) * G m * s := mul_le_mul_of_nonneg_left hS1 (mul_nonneg (by linarith) hg.le)
      _ ≤ N * s := mul_le_mul_of_nonneg_right hNge hspos.le
      _ = 1 := hnew

/-- With equal energies the first two passes are `5/8` and `0.5125`. -/
example : SegData (fun _ _ : Fin 2 => (4 : ℝ)) (fun _ => true) (fun n => if n = 0 then 0.25 else 0.75) :=
  ⟨fun _ _ => by norm_num, fun n => by split_ifs <;> norm_num, ⟨0, rfl, by norm_num⟩⟩

example (m : Fin 2) : segIter (fun _ _ : Fin 2 => (4 : ℝ)) (fun _ => true) (fun n => if n = 0 then 0.25 else 0.75) 1 m = 0.625 := by
  rw [segIter_succ]
  simp only [segStep, segNew, segSum, segIter, Function.iterate_zero, id, if_true, filter_true, Fin.sum_univ_two]
  norm_num

/-! ## The two branches -/

/-- Pass by pass the two branches have the same values in the window when no segment outside of it is present. -/
theorem seg_fast_slow (K : ι → ι → ℝ) (W : ι → Bool) (p : ι → ℝ) (hout : ∀ n, W n = false → p n = 0) (k : ℕ) (m : ι) (hm : W m = true) :
    segIter K W p k m = segIter K (fun _ => true) p k m := by
  induction k generalizing m with
  | zero => rfl
  | succ k ih =>
    have hs : segSum K W p (segIter K W p k) m = segSum K (fun _ => true) p (segIter K (fun _ => true) p k) m := by
      unfold segSum
      rw [sum_filter, sum_filter]
      refine sum_congr rfl fun n _ => ?_
      cases hn : W n with
      | true => simp [ih n hn]
      | false => simp [hout n hn]
    rw [segIter_succ, segIter_succ]
    unfold segStep segNew
    rw [if_pos hm, if_pos hm, if_pos rfl, if_pos rfl, hs, ih m hm]

/-- A third segment without density outside of the window. -/
example : segIter (fun _ _ : Fin 3 => (4 : ℝ)) (fun n => decide (n ≠ 2)) ![0.25, 0.75, 0] 1 0 = segIter (fun _ _ : Fin 3 => (4 : ℝ)) (fun _ => true) ![0.25, 0.75, 0] 1 0 :=
  seg_fast_slow _ _ _ (fun n hn => by fin_cases n <;> simp_all) 1 0 rfl

/-- When the slow branch finds coefficients, so does the fast branch, after at most as many passes. -/
theorem seg_fast_stops (K : ι → ι → ℝ) (W : ι → Bool) (p : ι → ℝ) (tol : ℝ) (ht : 0 < tol) (h : SegData K W p) (hout : ∀ n, W n = false → p n = 0)
    (k : ℕ) (G : ι → ℝ) (hr : segLoop K (fun _ => true) p tol k (fun _ => 1) = .ok G) :
    ∃ i j, j ≤ i ∧ i ≤ k ∧ G = segIter K (fun _ => true) p (i + 1) ∧ segLoop K W p tol k (fun _ => 1) = .ok (segIter K W p (j + 1)) := by
  have h' : SegData K (fun _ => true) p := ⟨h.hK, h.hp, by obtain ⟨n, -, hn⟩ := h.h1; exact ⟨n, rfl, hn⟩⟩
  have hslow := segLoop_cases K (fun _ => true) p tol h' k 0
  rw [show segIter K (fun _ => true) p 0 = fun _ => 1 from rfl, hr] at hslow
  rcases hslow with ⟨i, hi, hd, -, he⟩ | ⟨-, he⟩
  swap
  · exact absurd he (by simp)
  rw [zero_add] at hd he
  have hdW : SegDone K W p tol (segIter K W p i) := by
    intro m
    cases hm : W m with
    | true =>
      have a := hd m
      rw [← segIter_succ] at a ⊢
      have e1 : segNew K W p (segIter K W p i) m = 2 * segIter K W p (i + 1) m - segIter K W p i m := by
        rw [segIter_succ]; unfold segStep; rw [if_pos hm]; ring
      have e2 : segNew K (fun _ => true) p (segIter K (fun _ => true) p i) m
          = 2 * segIter K (fun _ => true) p (i + 1) m - segIter K (fun _ => true) p i m := by
        rw [segIter_succ]; unfold segStep; rw [if_pos rfl]; ring
      rw [e2] at a
      rw [e1, seg_fast_slow K W p hout _ m hm, seg_fast_slow K W p hout _ m hm]
      exact a
    | false =>
      have e1 : segStep K W p (segIter K W p i) m = 1 := by rw [← segIter_succ]; exact segIter_outside K W p _ m hm
      have e2 : segNew K W p (segIter K W p i) m = 1 := by unfold segNew; simp [hm]
      rw [e1, e2]; simpa using ht
  have hfast := segLoop_cases K W p tol h k 0
  rw [show segIter K W p 0 = fun _ => 1 from rfl] at hfast
  rcases hfast with ⟨j, -, -, hbefore, hej⟩ | ⟨hall, -⟩
  · refine ⟨i, j, ?_, hi, by injection he, by rw [hej, zero_add]⟩
    by_contra hcon
    exact hbefore i (by omega) (by rw [zero_add]; exact hdW)
  · exact absurd (by rw [zero_add]; exact hdW) (hall i hi)

/-- The fast branch does not see charge densities outside of its window at all. -/
theorem seg_fast_blind (K : ι → ι → ℝ) (W : ι → Bool) (p p' : ι → ℝ) (tol : ℝ) (heq : ∀ n, W n = true → p n = p' n) (k : ℕ) (G : ι → ℝ) :
    segLoop K W p tol k G = segLoop K W p' tol k G := by
  have hs : ∀ G, segSum K W p G = segSum K W p' G := by
    intro G; funext m; unfold segSum
    exact sum_congr rfl fun n hn => by rw [heq n (by simpa using hn)]
  have hn : ∀ G, segNew K W p G = segNew K W p' G := by intro G; funext m; unfold segNew; rw [hs]
  have ht : ∀ G, segStep K W p G = segStep K W p' G := by intro G; funext m; unfold segStep; rw [hn]
  induction k generalizing G with
  | zero => unfold segLoop; rw [hs, hn, ht]
  | succ k ih => unfold segLoop; rw [hs, hn, ht]; simp only [ih]

/-- But the segment activity coefficients do depend on them: more segments of any kind change them. -/
theorem seg_exact_sees (K : ι → ι → ℝ) (p p' G G' : ι → ℝ) (hK : ∀ m n, 0 < K m n) (hle : ∀ n, p n ≤ p' n) (n0 : ι) (hlt : p n0 < p' n0)
    (hG : IsSegActivity K p G) (hG' : IsSegActivity K p' G') : G ≠ G' := by
  rintro rfl
  have a := hG.eq n0
  have b := hG'.eq n0
  have : ∑ n, K n0 n * p n * G n < ∑ n, K n0 n * p' n * G n :=
    sum_lt_sum (fun n _ => mul_le_mul_of_nonneg_right (mul_le_mul_of_nonneg_left (hle n) (hK n0 n).le) (hG.pos n).le)
      ⟨n0, mem_univ _, mul_lt_mul_of_pos_right (mul_lt_mul_of_pos_left hlt (hK n0 n0)) (hG.pos n0)⟩
  have := mul_lt_mul_of_pos_left this (hG.pos n0)
  linarith

/-- A second segment that the window leaves out changes the coefficient of the first one from `1/2` to `1/4` but not what the fast branch finds. -/
example : segLoop (fun _ _ : Fin 2 => (4 : ℝ)) (fun n => decide (n = 0)) ![1, 0] 1e-8 500 (fun _ => 1)
      = segLoop (fun _ _ : Fin 2 => (4 : ℝ)) (fun n => decide (n = 0)) ![1, 3] 1e-8 500 (fun _ => 1) :=
  seg_fast_blind _ _ _ _ _ (fun n hn => by fin_cases n <;> simp_all) _ _

example : IsSegActivity (fun _ _ : Fin 2 => (4 : ℝ)) ![1, 0] (fun _ => 1 / 2) ∧ IsSegActivity (fun _ _ : Fin 2 => (4 : ℝ)) ![1, 3] (fun _ => 1 / 4) :=
  ⟨⟨fun _ => by norm_num, fun m => by rw [Fin.sum_univ_two]; norm_num⟩, ⟨fun _ => by norm_num, fun m => by rw [Fin.sum_univ_two]; norm_num⟩⟩

/-! ## Thermodynamic consistency -/

/-- The Gibbs-Duhem relation: along any smooth path of the amounts `P` of the segments, of total area `S` proportional to their sum, the amounts times the
changes of the logarithms of the coefficients add up to zero. -/
theorem seg_gibbs_duhem (K : ι → ι → ℝ) (hs : ∀ m n, K m n = K n m) (P G : ℝ → ι → ℝ) (S : ℝ → ℝ) (c t0 : ℝ) (P' G' : ι → ℝ) (S' : ℝ)
    (hP : ∀ m, HasDerivAt (fun t => P t m) (P' m) t0) (hG : ∀ m, HasDerivAt (fun t => G t m) (G' m) t0) (hS : HasDerivAt S S' t0)
    (hS0 : S t0 ≠ 0) (hsum : ∀ t, ∑ m, P t m = c * S t) (hact : ∀ᶠ t in nhds t0, IsSegActivity K (fun m => P t m / S t) (G t)) :
    ∑ m, P t0 m * (G' m / G t0 m) = 0 := by
  have hSne : ∀ᶠ t in nhds t0, S t ≠ 0 := hS.continuousAt.eventually_ne hS0
  have hat := hact.self_of_nhds
  -- `∑ K (PΓ)(PΓ) = S ∑ P`
  have hfix : ∀ t, S t ≠ 0 → IsSegActivity K (fun m => P t m / S t) (G t) → ∀ m, ∑ n, K m n * (P t n * G t n) = S t / G t m := by
    intro t h0 ha m
    have := ha.eq m
    have hg := (ha.pos m).ne'
    have e : ∑ n, K m n * (P t n / S t) * G t n = (∑ n, K m n * (P t n * G t n)) / S t := by
      rw [sum_div]; exact sum_congr rfl fun n _ => by ring
    rw [e] at this
    field_simp at this ⊢
    linarith
  have hX : ∀ m, HasDerivAt (fun t => P t m * G t m) (P' m * G t0 m + P t0 m * G' m) t0 := fun m => (hP m).mul (hG m)
  have hQ1 : HasDerivAt (fun t => ∑ m, ∑ n, K m n * (P t n * G t n) * (P t m * G t m))
      (∑ m, ∑ n, (K m n * (P' n * G t0 n + P t0 n * G' n) * (P t0 m * G t0 m) + K m n * (P t0 n * G t0 n) * (P' m * G t0 m + P t0 m * G' m))) t0 :=
    HasDerivAt.fun_sum fun m _ => HasDerivAt.fun_sum fun n _ => ((hX n).const_mul (K m n)).mul (hX m)
  have hQe : (fun t => ∑ m, ∑ n, K m n * (P t n * G t n) * (P t m * G t m)) =ᶠ[nhds t0] fun t => c * S t ^ 2 := by
    filter_upwards [hSne, hact] with t h0 ha
    calc ∑ m, ∑ n, K m n * (P t n * G t n) * (P t m * G t m) = ∑ m, S t * P t m := sum_congr rfl fun m _ => by
          rw [← sum_mul, hfix t h0 ha]
          have hg := (ha.pos m).ne'
          field_simp
      _ = c * S t ^ 2 := by rw [← mul_sum, hsum]; ring
  have hQ2 : HasDerivAt (fun t => c * S t ^ 2) (c * (2 * S t0 * S')) t0 := by
    refine ((hS.pow 2).const_mul c).congr_deriv ?_
    norm_num
  have hu := hQ1.unique (hQ2.congr_of_eventuallyEq hQe)
  have hsum' : ∑ m, P' m = c * S' := by
    have h1 : HasDerivAt (fun t => ∑ m, P t m) (∑ m, P' m) t0 := HasDerivAt.fun_sum fun m _ => hP m
    rw [show (fun t => ∑ m, P t m) = fun t => c * S t from funext hsum] at h1
    exact h1.unique (hS.const_mul c)
  have e1 : ∑ m, ∑ n, (K m n * (P' n * G t0 n + P t0 n * G' n) * (P t0 m * G t0 m) + K m n * (P t0 n * G t0 n) * (P' m * G t0 m + P t0 m * G' m))
      = 2 * ∑ m, (P' m * G t0 m + P t0 m * G' m) * (S t0 / G t0 m) := by
    simp_rw [sum_add_distrib]
    rw [two_mul]
    congr 1
    · rw [sum_comm]
      refine sum_congr rfl fun n _ => ?_
      rw [← hfix t0 hS0 hat n, mul_sum]
      exact sum_congr rfl fun m _ => by rw [hs m n]; ring
    · refine sum_congr rfl fun m _ => ?_
      rw [← hfix t0 hS0 hat m, mul_sum]
      exact sum_congr rfl fun n _ => by ring
  have e2 : ∑ m, (P' m * G t0 m + P t0 m * G' m) * (S t0 / G t0 m) = S t0 * (∑ m, P' m + ∑ m, P t0 m * (G' m / G t0 m)) := by
    rw [← sum_add_distrib, mul_sum]
    refine sum_congr rfl fun m _ => ?_
    have hg := (hat.pos m).ne'
    field_simp
  rw [e1, e2, hsum'] at hu
  have : S t0 * ∑ m, P t0 m * (G' m / G t0 m) = 0 := by linarith
  exact (mul_eq_zero.1 this).resolve_left hS0

/-- More and more segments of the first kind, at equal energies. -/
example : ∑ m : Fin 2, ![Real.exp 0, 1] m * ((fun _ => (0 : ℝ)) m / (fun _ _ => (0.5 : ℝ)) (0 : ℝ) m) = 0 :=
  seg_gibbs_duhem (fun _ _ : Fin 2 => 4) (fun _ _ => rfl) (fun t => ![Real.exp t, 1]) (fun _ _ => 0.5)
    (fun t => Real.exp t + 1) 1 0 ![Real.exp 0, 0] (fun _ => 0) (Real.exp 0)
    (fun m => by
      fin_cases m
      · exact Real.hasDerivAt_exp 0
      · exact hasDerivAt_const _ _)
    (fun _ => hasDerivAt_const _ _) ((Real.hasDerivAt_exp 0).add_const 1)
    (add_pos (Real.exp_pos 0) one_pos).ne'
    (fun t => by rw [Fin.sum_univ_two]; simp)
    (Filter.Eventually.of_forall fun t => ⟨fun _ => by norm_num, fun m => by
      have h2 : Real.exp t + 1 ≠ 0 := (add_pos (Real.exp_pos t) one_pos).ne'
      rw [Fin.sum_univ_two]; simp; field_simp; norm_num⟩)

/-- `n_k` times the residual part of the logarithm of the activity coefficient, summed: the excess energy of amounts `n` of fluids with the areas `A`,
the profiles `P` and the coefficients `L` of the pure fluids. -/
noncomputable def cosmoExcess {κ : Type} [Fintype κ] (P L : κ → ι → ℝ) (aeff : ℝ) (G : (κ → ℝ) → ι → ℝ) (n : κ → ℝ) : ℝ :=
  ∑ i, n i * (1 / aeff * ∑ s, P i s * (Real.log (G n s) - L i s))

/-- With the exact segment activity coefficients, and profiles whose sums are the same multiple of the areas for all fluids, the residual parts of the logarithms
of the activity coefficients are the derivatives of the excess energy with respect to the amounts. -/
theorem cosmo_consistent {κ : Type} [Fintype κ] [DecidableEq κ] (K : ι → ι → ℝ) (hs : ∀ m n, K m n = K n m) (P L : κ → ι → ℝ) (A : κ → ℝ) (aeff c : ℝ)
    (hc : ∀ i, ∑ s, P i s = c * A i) (G : (κ → ℝ) → ι → ℝ) (n : κ → ℝ) (k : κ) (G' : ι → ℝ) (hS : ∑ i, n i * A i ≠ 0)
    (hG : ∀ s, HasDerivAt (fun t => G (Function.update n k (n k + t)) s) (G' s) 0)
    (hact : ∀ᶠ t in nhds (0 : ℝ), IsSegActivity K
      (fun s => (∑ i, Function.update n k (n k + t) i * P i s) / ∑ i, Function.update n k (n k + t) i * A i) (G (Function.update n k (n k + t)))) :
    HasDerivAt (fun t => cosmoExcess P L aeff G (Function.update n k (n k + t))) (1 / aeff * ∑ s, P k s * (Real.log (G n s) - L k s)) 0 := by
  have h0 : Function.update n k (n k + 0) = n := by simp
  have hn : ∀ i, HasDerivAt (fun t => Function.update n k (n k + t) i) (if i = k then 1 else 0) 0 := by
    intro i
    by_cases h : i = k
    · subst h; simp only [Function.update_self, if_true]; exact (hasDerivAt_id (0 : ℝ)).const_add (n i)
    · simp only [Function.update_of_ne h, h, if_false]; exact hasDerivAt_const _ _
  have hat := hact.self_of_nhds
  rw [h0] at hat
  have hgd := seg_gibbs_duhem K hs (fun t s => ∑ i, Function.update n k (n k + t) i * P i s) (fun t => G (Function.update n k (n k + t)))
    (fun t => ∑ i, Function.update n k (n k + t) i * A i) c 0 (fun s => ∑ i, (if i = k then 1 else 0) * P i s) G' (∑ i, (if i = k then 1 else 0) * A i)
    (fun s => HasDerivAt.fun_sum fun i _ => (hn i).mul_const _) hG (HasDerivAt.fun_sum fun i _ => (hn i).mul_const _) (by rw [h0]; exact hS)
    (fun t => by
      rw [sum_comm, mul_sum]
      exact sum_congr rfl fun i _ => by rw [← mul_sum, hc]; ring) hact
  rw [h0] at hgd
  have hlog : ∀ s, HasDerivAt (fun t => Real.log (G (Function.update n k (n k + t)) s)) (G' s / G n s) 0 := by
    intro s
    have := (hG s).log (by rw [h0]; exact (hat.pos s).ne')
    rwa [h0] at this
  have hd : HasDerivAt (fun t => cosmoExcess P L aeff G (Function.update n k (n k + t)))
      (∑ i, ((if i = k then 1 else 0) * (1 / aeff * ∑ s, P i s * (Real.log (G n s) - L i s)) + n i * (1 / aeff * ∑ s, P i s * (G' s / G n s)))) 0 := by
    unfold cosmoExcess
    refine HasDerivAt.fun_sum fun i _ => ?_
    have h1 : HasDerivAt (fun t => 1 / aeff * ∑ s, P i s * (Real.log (G (Function.update n k (n k + t)) s) - L i s))
        (1 / aeff * ∑ s, P i s * (G' s / G n s)) 0 :=
      HasDerivAt.const_mul _ (HasDerivAt.fun_sum fun s _ => ((hlog s).sub_const (L i s)).const_mul _)
    have := (hn i).mul h1
    simp only [h0] at this
    exact this
  refine hd.congr_deriv ?_
  rw [sum_add_distrib]
  have e1 : ∑ i, n i * (1 / aeff * ∑ s, P i s * (G' s / G n s)) = 1 / aeff * ∑ s, (∑ i, n i * P i s) * (G' s / G n s) := by
    simp_rw [sum_mul, mul_sum]
    rw [sum_comm]
    exact sum_congr rfl fun s _ => sum_congr rfl fun i _ => by ring
  rw [e1, hgd]
  simp

/-- Two fluids of one kind of segment each, with equal energies. -/
example : HasDerivAt (fun t => cosmoExcess (fun i s : Fin 2 => if i = s then (1 : ℝ) else 0) (fun _ _ => 0) 2 (fun _ _ => 1 / 2) (Function.update (fun _ => 3) 0 (3 + t)))
    (1 / 2 * ∑ s : Fin 2, (if (0 : Fin 2) = s then (1 : ℝ) else 0) * (Real.log (1 / 2) - 0)) 0 :=
  cosmo_consistent (fun _ _ : Fin 2 => (4 : ℝ)) (fun _ _ => rfl) (fun i s : Fin 2 => if i = s then (1 : ℝ) else 0) (fun _ _ => 0) (fun _ => 1) 2 1
    (fun i => by simp) (fun _ _ => 1 / 2) (fun _ => 3) 0 (fun _ => 0) (by simp) (fun s => hasDerivAt_const _ _)
    (by
      filter_upwards [Ioo_mem_nhds (show (-1 : ℝ) < 0 by norm_num) (show (0 : ℝ) < 1 by norm_num)] with t ht
      have : (3 + t + 3 : ℝ) ≠ 0 := by have := ht.1; linarith
      refine ⟨fun _ => by norm_num, fun m => ?_⟩
      simp only [Fin.sum_univ_two, Function.update_self, Function.update_of_ne (show (1 : Fin 2) ≠ 0 by decide)]
      simp
      field_simp
      ring)

end Teqp.Props
