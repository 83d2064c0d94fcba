import Mathlib.Analysis.SpecificLimits.Basic
import Mathlib.Topology.Algebra.GroupWithZero
import Mathlib.Topology.Algebra.Ring.Real
import Mathlib.Tactic.Linarith
import Mathlib.Tactic.Positivity
import Mathlib.Tactic.FieldSimp
import Mathlib.Tactic.Ring

/-! # The law of mass action for association sites

For strengths `K i j ≥ 0` the equations `X i (1 + ∑ K i j X j) = 1` have exactly one positive solution, and damped
substitution converges to it.  The distance between two arrays is measured by the largest ratio of
their elements; a substitution contracts it. -/

set_option autoImplicit false

namespace Teqp.Lemmas
open Finset Filter
open scoped Topology

variable {n : ℕ}

/-- The substitution `1 / (1 + ∑ K i j X j)`. -/
noncomputable def maF (K : Fin n → Fin n → ℝ) (X : Fin n → ℝ) (i : Fin n) : ℝ := (1 + ∑ j, K i j * X j)⁻¹

/-- The damped substitution. -/
noncomputable def maG (α : ℝ) (K : Fin n → Fin n → ℝ) (X : Fin n → ℝ) (i : Fin n) : ℝ :=
  α * X i + (1 - α) * maF K X i

/-- All the values are in `(0, 1]`. -/
def Unit01 (X : Fin n → ℝ) : Prop := ∀ i, 0 < X i ∧ X i ≤ 1

variable {K : Fin n → Fin n → ℝ}

theorem ma_sum_nonneg (hK : ∀ i j, 0 ≤ K i j) {X : Fin n → ℝ} (hX : ∀ i, 0 ≤ X i) (i : Fin n) :
    0 ≤ ∑ j, K i j * X j := Finset.sum_nonneg fun j _ => mul_nonneg (hK i j) (hX j)

theorem ma_sum_le {A : ℝ} (hK : ∀ i j, 0 ≤ K i j) (hA : ∀ i, ∑ j, K i j ≤ A) {X : Fin n → ℝ}
    (hX : ∀ i, X i ≤ 1) (i : Fin n) : ∑ j, K i j * X j ≤ A :=
  (Finset.sum_le_sum fun j _ => mul_le_of_le_one_right (hK i j) (hX j)).trans (hA i)

theorem maF_unit (hK : ∀ i j, 0 ≤ K i j) {X : Fin n → ℝ} (hX : ∀ i, 0 ≤ X i) : Unit01 (maF K X) := fun i => by
  have h := ma_sum_nonneg hK hX i
  exact ⟨inv_pos.mpr (by linarith), inv_le_one_of_one_le₀ (by linarith)⟩

theorem maF_lower {A : ℝ} (hK : ∀ i j, 0 ≤ K i j) (hA : ∀ i, ∑ j, K i j ≤ A) {X : Fin n → ℝ}
    (hX : Unit01 X) (i : Fin n) : (1 + A)⁻¹ ≤ maF K X i := by
  have h := ma_sum_nonneg hK (fun i => (hX i).1.le) i
  have h2 := ma_sum_le hK hA (fun i => (hX i).2) i
  exact inv_anti₀ (by linarith) (by linarith)

theorem maG_unit {α : ℝ} (h0 : 0 ≤ α) (h1 : α ≤ 1) (hK : ∀ i j, 0 ≤ K i j) {X : Fin n → ℝ} (hX : Unit01 X) :
    Unit01 (maG α K X) := fun i => by
  have hF := maF_unit hK (fun i => (hX i).1.le) i
  have hx := hX i
  unfold maG
  constructor
  · rcases h0.lt_or_eq with h | h
    · have := mul_pos h hx.1
      have := mul_nonneg (sub_nonneg.mpr h1) hF.1.le
      linarith
    · rw [← h]; simp; exact hF.1
  · have a := mul_le_of_le_one_right h0 hx.2
    have b := mul_le_of_le_one_right (sub_nonneg.mpr h1) hF.2
    linarith

theorem maG_lower {α A : ℝ} (h0 : 0 ≤ α) (h1 : α ≤ 1) (hK : ∀ i j, 0 ≤ K i j) (hA : ∀ i, ∑ j, K i j ≤ A)
    {X : Fin n → ℝ} (hX : Unit01 X) (hl : ∀ i, (1 + A)⁻¹ ≤ X i) (i : Fin n) : (1 + A)⁻¹ ≤ maG α K X i := by
  have hF := maF_lower hK hA hX i
  unfold maG
  have a := mul_le_mul_of_nonneg_left (hl i) h0
  have b := mul_le_mul_of_nonneg_left hF (sub_nonneg.mpr h1)
  linarith

/-- The substitution contracts ratios: from `X ≤ s Y` follows `F Y ≤ s' F X` with `s' = 1 + (s - 1) A / (1 + A)`. -/
theorem maF_ratio {A s : ℝ} (hA0 : 0 ≤ A) (hs : 1 ≤ s) (hK : ∀ i j, 0 ≤ K i j) (hA : ∀ i, ∑ j, K i j ≤ A)
    {X Y : Fin n → ℝ} (hX : Unit01 X) (hY : Unit01 Y) (h : ∀ i, X i ≤ s * Y i) (i : Fin n) :
    maF K Y i ≤ (1 + A / (1 + A) * (s - 1)) * maF K X i := by
  have hx := ma_sum_nonneg hK (fun i => (hX i).1.le) i
  have hy := ma_sum_nonneg hK (fun i => (hY i).1.le) i
  have hyA := ma_sum_le hK hA (fun i => (hY i).2) i
  have hle : ∑ j, K i j * X j ≤ s * ∑ j, K i j * Y j := by
    rw [Finset.mul_sum]
    refine Finset.sum_le_sum fun j _ => ?_
    calc K i j * X j ≤ K i j * (s * Y j) := mul_le_mul_of_nonneg_left (h j) (hK i j)
      _ = s * (K i j * Y j) := by ring
  unfold maF
  set a := ∑ j, K i j * X j
  set b := ∑ j, K i j * Y j
  have e : (1 : ℝ) + A / (1 + A) * (s - 1) = (1 + A * s) / (1 + A) := by
    field_simp; ring
  rw [e, ← div_eq_mul_inv, div_div, ← one_div, div_le_div_iff₀ (by linarith) (by positivity)]
  have : (s - 1) * b ≤ (s - 1) * A := mul_le_mul_of_nonneg_left hyA (by linarith)
  have : (1 + A) * (1 + a) ≤ (1 + A) * (1 + s * b) := mul_le_mul_of_nonneg_left (by linarith) (by linarith)
  nlinarith

/-- The iterates of the undamped substitution. -/
noncomputable def maIter (K : Fin n → Fin n → ℝ) : ℕ → Fin n → ℝ
  | 0 => fun _ => 1
  | k + 1 => maF K (maIter K k)

theorem maIter_unit (hK : ∀ i j, 0 ≤ K i j) (k : ℕ) : Unit01 (maIter K k) := by
  cases k with
  | zero => exact fun i => ⟨one_pos, le_rfl⟩
  | succ k =>
    have : ∀ m, Unit01 (maIter K m) := fun m => by
      induction m with
      | zero => exact fun i => ⟨one_pos, le_rfl⟩
      | succ m ih => exact maF_unit hK fun i => (ih i).1.le
    exact this (k + 1)

theorem maIter_ratio {A : ℝ} (hA0 : 0 ≤ A) (hK : ∀ i j, 0 ≤ K i j) (hA : ∀ i, ∑ j, K i j ≤ A) (k : ℕ) :
    ∀ i, maIter K k i ≤ (1 + (A / (1 + A)) ^ k * A) * maIter K (k + 1) i ∧
      maIter K (k + 1) i ≤ (1 + (A / (1 + A)) ^ k * A) * maIter K k i := by
  have hc0 : 0 ≤ A / (1 + A) := by positivity
  induction k with
  | zero =>
    intro i
    have hl := maF_lower hK hA (maIter_unit hK 0) i
    have hu := (maF_unit hK (fun i => (maIter_unit hK 0 i).1.le) i).2
    simp only [pow_zero, one_mul]
    change (1 : ℝ) ≤ (1 + A) * maF K (maIter K 0) i ∧ maF K (maIter K 0) i ≤ (1 + A) * 1
    constructor
    · have := mul_le_mul_of_nonneg_left hl (by linarith : 0 ≤ 1 + A)
      rwa [mul_inv_cancel₀ (by linarith : (1 + A) ≠ 0)] at this
    · linarith
  | succ k ih =>
    intro i
    have hs : 1 ≤ 1 + (A / (1 + A)) ^ k * A := by
      have := mul_nonneg (pow_nonneg hc0 k) hA0
      linarith
    have e : 1 + A / (1 + A) * (1 + (A / (1 + A)) ^ k * A - 1) = 1 + (A / (1 + A)) ^ (k + 1) * A := by ring
    have h1 := maF_ratio hA0 hs hK hA (maIter_unit hK (k + 1)) (maIter_unit hK k) (fun i => (ih i).2) i
    have h2 := maF_ratio hA0 hs hK hA (maIter_unit hK k) (maIter_unit hK (k + 1)) (fun i => (ih i).1) i
    rw [e] at h1 h2
    exact ⟨h1, h2⟩

/-- There is a positive solution of the law of mass action. -/
theorem ma_exists (hK : ∀ i j, 0 ≤ K i j) : ∃ Y : Fin n → ℝ, Unit01 Y ∧ maF K Y = Y := by
  obtain ⟨A, hA0, hA⟩ : ∃ A, 0 ≤ A ∧ ∀ i, ∑ j, K i j ≤ A :=
    ⟨∑ i, ∑ j, K i j, Finset.sum_nonneg fun i _ => Finset.sum_nonneg fun j _ => hK i j, fun i =>
      Finset.single_le_sum (f := fun i => ∑ j, K i j) (fun i _ => Finset.sum_nonneg fun j _ => hK i j) (mem_univ i)⟩
  have hc1 : A / (1 + A) < 1 := by rw [div_lt_one (by linarith)]; linarith
  have hc0 : 0 ≤ A / (1 + A) := by positivity
  have hdist : ∀ i k, dist (maIter K k i) (maIter K (k + 1) i) ≤ A * (A / (1 + A)) ^ k := by
    intro i k
    have h := maIter_ratio hA0 hK hA k i
    have h1 := maIter_unit hK k i
    have h2 := maIter_unit hK (k + 1) i
    have hp : 0 ≤ (A / (1 + A)) ^ k * A := mul_nonneg (pow_nonneg hc0 k) hA0
    have a1 := mul_le_of_le_one_right hp h1.2
    have a2 := mul_le_of_le_one_right hp h2.2
    rw [Real.dist_eq, abs_le]
    constructor
    · nlinarith [h.2]
    · nlinarith [h.1]
  have hlim : ∀ i, ∃ y, Tendsto (fun k => maIter K k i) atTop (𝓝 y) := fun i =>
    cauchySeq_tendsto_of_complete (cauchySeq_of_le_geometric _ A hc1 (hdist i))
  choose Y hY using hlim
  have hfix : maF K Y = Y := by
    funext i
    have h0 : ∀ j, 0 ≤ Y j := fun j => ge_of_tendsto' (hY j) fun k => (maIter_unit hK k j).1.le
    have hs : Tendsto (fun k => maF K (maIter K k) i) atTop (𝓝 (maF K Y i)) := by
      unfold maF
      refine Tendsto.inv₀ ?_ (by have := ma_sum_nonneg hK h0 i; linarith)
      exact tendsto_const_nhds.add (tendsto_finsetSum _ fun j _ => (hY j).const_mul (K i j))
    have hs' : Tendsto (fun k => maF K (maIter K k) i) atTop (𝓝 (Y i)) := (tendsto_add_atTop_iff_nat 1).mpr (hY i)
    exact tendsto_nhds_unique hs hs'
  refine ⟨Y, ?_, hfix⟩
  have h0 : ∀ j, 0 ≤ Y j := fun j => ge_of_tendsto' (hY j) fun k => (maIter_unit hK k j).1.le
  rw [← hfix]
  exact maF_unit hK h0

/-- The damped substitution brings an array closer to a solution: the ratio `s` goes to `1 + c (s - 1)`. -/
theorem maG_ratio {α A s : ℝ} (h0 : 0 ≤ α) (h1 : α ≤ 1) (hA0 : 0 ≤ A) (hs : 1 ≤ s) (hK : ∀ i j, 0 ≤ K i j)
    (hA : ∀ i, ∑ j, K i j ≤ A) {X Y : Fin n → ℝ} (hX : Unit01 X) (hY : Unit01 Y) (hfix : maF K Y = Y)
    (h : ∀ i, X i ≤ s * Y i ∧ Y i ≤ s * X i) (i : Fin n) :
    maG α K X i ≤ (1 + (α + (1 - α) * (A / (1 + A))) * (s - 1)) * Y i ∧
      Y i ≤ (1 + (α + (1 - α) * (A / (1 + A))) * (s - 1)) * maG α K X i := by
  have hF1 := maF_ratio hA0 hs hK hA hX hY (fun i => (h i).1) i
  have hF2 := maF_ratio hA0 hs hK hA hY hX (fun i => (h i).2) i
  rw [hfix] at hF1 hF2
  set σ := 1 + A / (1 + A) * (s - 1) with hσ
  have hσ1 : 1 ≤ σ := by
    have : 0 ≤ A / (1 + A) * (s - 1) := mul_nonneg (by positivity) (by linarith)
    linarith
  have e : 1 + (α + (1 - α) * (A / (1 + A))) * (s - 1) = α * s + (1 - α) * σ := by rw [hσ]; ring
  rw [e]
  unfold maG
  have ha := sub_nonneg.mpr h1
  have hFp := (maF_unit hK (fun i => (hX i).1.le) i).1
  constructor
  · have a := mul_le_mul_of_nonneg_left (h i).1 h0
    have b := mul_le_mul_of_nonneg_left hF2 ha
    nlinarith
  · -- X ≥ Y / s, F ≥ Y / σ, and the arithmetic mean of s, σ times that of 1/s, 1/σ is at least one
    have hy := (hY i).1
    have hx : Y i / s ≤ X i := by rw [div_le_iff₀ (by linarith)]; linarith [(h i).2]
    have hf : Y i / σ ≤ maF K X i := by rw [div_le_iff₀ (by linarith)]; linarith [hF1]
    have hsum : α * (Y i / s) + (1 - α) * (Y i / σ) ≤ α * X i + (1 - α) * maF K X i :=
      add_le_add (mul_le_mul_of_nonneg_left hx h0) (mul_le_mul_of_nonneg_left hf ha)
    have hm : 0 ≤ α * s + (1 - α) * σ := add_nonneg (mul_nonneg h0 (by linarith)) (mul_nonneg ha (by linarith))
    refine le_trans ?_ (mul_le_mul_of_nonneg_left hsum hm)
    have key : (α * s + (1 - α) * σ) * (α * (Y i / s) + (1 - α) * (Y i / σ)) =
        Y i * (1 + α * (1 - α) * ((s - σ) ^ 2 / (s * σ))) := by
      field_simp
      ring
    rw [key]
    have : 0 ≤ α * (1 - α) * ((s - σ) ^ 2 / (s * σ)) := by positivity
    nlinarith

theorem ma_rate {α A : ℝ} (h0 : 0 ≤ α) (h1 : α < 1) (hA0 : 0 ≤ A) :
    0 ≤ α + (1 - α) * (A / (1 + A)) ∧ α + (1 - α) * (A / (1 + A)) < 1 := by
  have hc0 : 0 ≤ A / (1 + A) := by positivity
  have hc1 : A / (1 + A) < 1 := by rw [div_lt_one (by linarith)]; linarith
  have := mul_nonneg (by linarith : 0 ≤ 1 - α) hc0
  exact ⟨by linarith, by nlinarith⟩

/-- After `k` damped substitutions from the array of ones. -/
theorem maG_iterate_ratio {α A : ℝ} (h0 : 0 ≤ α) (h1 : α ≤ 1) (hA0 : 0 ≤ A) (hK : ∀ i j, 0 ≤ K i j)
    (hA : ∀ i, ∑ j, K i j ≤ A) {Y : Fin n → ℝ} (hY : Unit01 Y) (hfix : maF K Y = Y) (k : ℕ) :
    Unit01 ((maG α K)^[k] fun _ => 1) ∧ ∀ i,
      ((maG α K)^[k] fun _ => 1) i ≤ (1 + (α + (1 - α) * (A / (1 + A))) ^ k * A) * Y i ∧
      Y i ≤ (1 + (α + (1 - α) * (A / (1 + A))) ^ k * A) * ((maG α K)^[k] fun _ => 1) i := by
  have hc0 : 0 ≤ α + (1 - α) * (A / (1 + A)) :=
    add_nonneg h0 (mul_nonneg (sub_nonneg.mpr h1) (by positivity))
  induction k with
  | zero =>
    refine ⟨fun i => ⟨one_pos, le_rfl⟩, fun i => ?_⟩
    simp only [Function.iterate_zero, id_eq, pow_zero, one_mul, mul_one]
    have hl := maF_lower hK hA hY i
    rw [hfix] at hl
    have := mul_le_mul_of_nonneg_left hl (by linarith : 0 ≤ 1 + A)
    rw [mul_inv_cancel₀ (by linarith : (1 + A) ≠ 0)] at this
    exact ⟨this, by linarith [(hY i).2]⟩
  | succ k ih =>
    rw [Function.iterate_succ_apply']
    refine ⟨maG_unit h0 h1 hK ih.1, fun i => ?_⟩
    have hs : 1 ≤ 1 + (α + (1 - α) * (A / (1 + A))) ^ k * A := by
      have := mul_nonneg (pow_nonneg hc0 k) hA0
      linarith
    have := maG_ratio h0 h1 hA0 hs hK hA ih.1 hY hfix ih.2 i
    have e : 1 + (α + (1 - α) * (A / (1 + A))) * (1 + (α + (1 - α) * (A / (1 + A))) ^ k * A - 1) =
        1 + (α + (1 - α) * (A / (1 + A))) ^ (k + 1) * A := by ring
    rwa [e] at this

/-- The iterates approach a solution geometrically. -/
theorem maG_iterate_error {α A : ℝ} (h0 : 0 ≤ α) (h1 : α ≤ 1) (hA0 : 0 ≤ A) (hK : ∀ i j, 0 ≤ K i j)
    (hA : ∀ i, ∑ j, K i j ≤ A) {Y : Fin n → ℝ} (hY : Unit01 Y) (hfix : maF K Y = Y) (k : ℕ) (i : Fin n) :
    |((maG α K)^[k] fun _ => 1) i - Y i| ≤ A * (α + (1 - α) * (A / (1 + A))) ^ k := by
  obtain ⟨hu, h⟩ := maG_iterate_ratio h0 h1 hA0 hK hA hY hfix k
  have hc0 : 0 ≤ α + (1 - α) * (A / (1 + A)) :=
    add_nonneg h0 (mul_nonneg (sub_nonneg.mpr h1) (by positivity))
  have hp : 0 ≤ (α + (1 - α) * (A / (1 + A))) ^ k * A := mul_nonneg (pow_nonneg hc0 k) hA0
  have a1 := mul_le_of_le_one_right hp (hY i).2
  have a2 := mul_le_of_le_one_right hp (hu i).2
  rw [abs_le]
  constructor
  · nlinarith [(h i).2]
  · nlinarith [(h i).1]

theorem ma_bound_exists (hK : ∀ i j, 0 ≤ K i j) : ∃ A, 0 ≤ A ∧ ∀ i, ∑ j, K i j ≤ A :=
  ⟨∑ i, ∑ j, K i j, Finset.sum_nonneg fun i _ => Finset.sum_nonneg fun j _ => hK i j, fun i =>
    Finset.single_le_sum (f := fun i => ∑ j, K i j) (fun i _ => Finset.sum_nonneg fun j _ => hK i j) (mem_univ i)⟩

theorem maG_tendsto {α : ℝ} (h0 : 0 ≤ α) (h1 : α < 1) (hK : ∀ i j, 0 ≤ K i j) {Y : Fin n → ℝ} (hY : Unit01 Y)
    (hfix : maF K Y = Y) (i : Fin n) : Tendsto (fun k => ((maG α K)^[k] fun _ => 1) i) atTop (𝓝 (Y i)) := by
  obtain ⟨A, hA0, hA⟩ := ma_bound_exists hK
  have hr := ma_rate h0 h1 hA0
  rw [tendsto_iff_dist_tendsto_zero]
  have hz : Tendsto (fun k => A * (α + (1 - α) * (A / (1 + A))) ^ k) atTop (𝓝 0) := by
    have := (tendsto_pow_atTop_nhds_zero_of_lt_one hr.1 hr.2).const_mul A
    rwa [mul_zero] at this
  refine squeeze_zero (fun _ => dist_nonneg) (fun k => ?_) hz
  rw [Real.dist_eq]
  exact maG_iterate_error h0 h1.le hA0 hK hA hY hfix k i

theorem maF_unit_of_pos (hK : ∀ i j, 0 ≤ K i j) {Y : Fin n → ℝ} (hY : ∀ i, 0 < Y i) (hfix : maF K Y = Y) : Unit01 Y := by
  rw [← hfix]
  exact maF_unit hK fun i => (hY i).le

/-- The positive solution is unique. -/
theorem ma_unique (hK : ∀ i j, 0 ≤ K i j) {Y Z : Fin n → ℝ} (hY : ∀ i, 0 < Y i) (hfY : maF K Y = Y)
    (hZ : ∀ i, 0 < Z i) (hfZ : maF K Z = Z) : Y = Z := by
  funext i
  exact tendsto_nhds_unique
    (maG_tendsto (α := 0) le_rfl one_pos hK (maF_unit_of_pos hK hY hfY) hfY i)
    (maG_tendsto (α := 0) le_rfl one_pos hK (maF_unit_of_pos hK hZ hfZ) hfZ i)

theorem maF_fix_iff (hK : ∀ i j, 0 ≤ K i j) {Y : Fin n → ℝ} (hY : ∀ i, 0 < Y i) :
    maF K Y = Y ↔ ∀ i, Y i * (1 + ∑ j, K i j * Y j) = 1 := by
  have hne : ∀ i, 1 + ∑ j, K i j * Y j ≠ 0 := fun i => by
    have := ma_sum_nonneg hK (fun i => (hY i).le) i
    linarith
  constructor
  · intro h i
    have := congrFun h i
    unfold maF at this
    calc Y i * (1 + ∑ j, K i j * Y j) = (1 + ∑ j, K i j * Y j)⁻¹ * (1 + ∑ j, K i j * Y j) := by rw [this]
      _ = 1 := inv_mul_cancel₀ (hne i)
  · intro h
    funext i
    unfold maF
    rw [inv_eq_iff_eq_inv]
    exact eq_inv_of_mul_eq_one_right (h i)

end Teqp.Lemmas
