import Verif.Model.Assoc
import Verif.Lemmas.MassAction
import Verif.Lemmas.Outcome
import Mathlib.Tactic.NormNum
import Mathlib.Algebra.BigOperators.Fin
import Mathlib.Algebra.Order.BigOperators.Group.Finset

/-! # C57: association site fractions -/

set_option autoImplicit false

namespace Teqp.Spec
open Finset

/-- The law of mass action: the positive fractions of sites that are not bonded, for strengths `K`. -/
def MassAction {n : ℕ} (K : Fin n → Fin n → ℝ) (X : Fin n → ℝ) : Prop :=
  (∀ i, 0 < X i) ∧ ∀ i, X i * (1 + ∑ j, K i j * X j) = 1

end Teqp.Spec

namespace Teqp.Props
open Teqp.Model Teqp.Spec Teqp.Lemmas Finset Filter
open scoped Topology

variable {n : ℕ}

theorem massAction_iff {K : Fin n → Fin n → ℝ} (hK : ∀ i j, 0 ≤ K i j) (X : Fin n → ℝ) :
    MassAction K X ↔ (∀ i, 0 < X i) ∧ maF K X = X :=
  ⟨fun h => ⟨h.1, (maF_fix_iff hK h.1).mpr h.2⟩, fun h => ⟨h.1, (maF_fix_iff hK h.1).mp h.2⟩⟩

/-- For every number of sites and all strengths that are not negative, the law of mass action has exactly one
positive solution, and it lies in `(0, 1]`. -/
theorem massAction_exists_unique (K : Fin n → Fin n → ℝ) (hK : ∀ i j, 0 ≤ K i j) :
    ∃ Y, MassAction K Y ∧ (∀ i, Y i ≤ 1) ∧ ∀ Z, MassAction K Z → Z = Y := by
  obtain ⟨Y, hu, hf⟩ := ma_exists hK
  refine ⟨Y, (massAction_iff hK Y).mpr ⟨fun i => (hu i).1, hf⟩, fun i => (hu i).2, fun Z hZ => ?_⟩
  obtain ⟨h1, h2⟩ := (massAction_iff hK Z).mp hZ
  exact ma_unique hK h1 h2 (fun i => (hu i).1) hf

/-- The iteration returns one of the damped substitutes: after fewer than the permitted number of
substitutions only if the next one changes every fraction by less than the tolerance. -/
theorem ssLoop_real (α rtol atol : ℝ) (K : Fin n → Fin n → ℝ) (m : ℕ) (X : Fin n → ℝ) :
    ∃ k ≤ m, ssLoop α rtol atol K m X = (maG α K)^[k] X ∧
      (k < m → ∀ i, |(maG α K)^[k + 1] X i - (maG α K)^[k] X i| < rtol * (maG α K)^[k + 1] X i + atol) := by
  induction m generalizing X with
  | zero => exact ⟨0, le_rfl, rfl, fun h => absurd h (lt_irrefl _)⟩
  | succ m ih =>
    by_cases h : ∀ i, |maG α K X i - X i| < rtol * maG α K X i + atol
    · refine ⟨0, Nat.zero_le _, ?_, fun _ => h⟩
      rw [ssLoop]
      exact if_pos h
    · obtain ⟨k, hk, he, hc⟩ := ih (maG α K X)
      refine ⟨k + 1, Nat.succ_le_succ hk, ?_, ?_⟩
      · rw [ssLoop]
        refine (if_neg h).trans ?_
        rw [Function.iterate_succ_apply]
        exact he
      · intro hlt
        have := hc (by omega)
        rw [Function.iterate_succ_apply, Function.iterate_succ_apply (n := k)]
        exact this

theorem maG_iterate_unit {α : ℝ} (h0 : 0 ≤ α) (h1 : α ≤ 1) {K : Fin n → Fin n → ℝ} (hK : ∀ i j, 0 ≤ K i j)
    {X : Fin n → ℝ} (hX : Unit01 X) (k : ℕ) : Unit01 ((maG α K)^[k] X) := by
  induction k with
  | zero => exact hX
  | succ k ih => rw [Function.iterate_succ_apply']; exact maG_unit h0 h1 hK ih

/-- Whatever the number of iterations, the tolerances and the strengths, the fractions are in `(0, 1]`. -/
theorem ssLoop_physical (α rtol atol : ℝ) (h0 : 0 ≤ α) (h1 : α ≤ 1) (K : Fin n → Fin n → ℝ)
    (hK : ∀ i j, 0 ≤ K i j) (m : ℕ) (X : Fin n → ℝ) (hX : ∀ i, 0 < X i ∧ X i ≤ 1) (i : Fin n) :
    0 < ssLoop α rtol atol K m X i ∧ ssLoop α rtol atol K m X i ≤ 1 := by
  obtain ⟨k, -, he, -⟩ := ssLoop_real α rtol atol K m X
  rw [he]
  exact maG_iterate_unit h0 h1 hK hX k i

/-- The fractions are at least `1 / (1 + A)` if the strengths of every site add up to at most `A`. -/
theorem ssLoop_lower (α rtol atol A : ℝ) (h0 : 0 ≤ α) (h1 : α ≤ 1) (hA0 : 0 ≤ A) (K : Fin n → Fin n → ℝ)
    (hK : ∀ i j, 0 ≤ K i j) (hA : ∀ i, ∑ j, K i j ≤ A) (m : ℕ) (i : Fin n) :
    (1 + A)⁻¹ ≤ ssLoop α rtol atol K m (fun _ => 1) i := by
  obtain ⟨k, -, he, -⟩ := ssLoop_real α rtol atol K m (fun _ => 1)
  rw [he]
  clear he
  induction k generalizing i with
  | zero => exact inv_le_one_of_one_le₀ (by linarith)
  | succ k ih =>
    rw [Function.iterate_succ_apply']
    exact maG_lower h0 h1 hK hA (maG_iterate_unit h0 h1 hK (fun i => ⟨one_pos, le_rfl⟩) k) ih i

/-- If the iteration stops before its limit, the returned fractions satisfy the law of mass action up to the
tolerance. -/
theorem ssLoop_massAction (α rtol atol : ℝ) (h0 : 0 ≤ α) (h1 : α < 1) (hr : 0 ≤ rtol) (K : Fin n → Fin n → ℝ)
    (hK : ∀ i j, 0 ≤ K i j) (m : ℕ) :
    (∃ k < m, ssLoop α rtol atol K m (fun _ => 1) = (maG α K)^[k] (fun _ => 1) ∧
      ∀ i, (1 - α) * |ssLoop α rtol atol K m (fun _ => 1) i *
        (1 + ∑ j, K i j * ssLoop α rtol atol K m (fun _ => 1) j) - 1| <
          (rtol + atol) * (1 + ∑ j, K i j * ssLoop α rtol atol K m (fun _ => 1) j)) ∨
    ssLoop α rtol atol K m (fun _ => 1) = (maG α K)^[m] (fun _ => 1) := by
  obtain ⟨k, hk, he, hc⟩ := ssLoop_real α rtol atol K m (fun _ => 1)
  rcases Nat.lt_or_ge k m with hlt | hge
  · left
    refine ⟨k, hlt, he, fun i => ?_⟩
    rw [he]
    have hu := maG_iterate_unit h0 h1.le hK (fun i => ⟨one_pos, le_rfl⟩ : Unit01 (fun _ : Fin n => (1 : ℝ))) k
    have hu' := maG_iterate_unit h0 h1.le hK (fun i => ⟨one_pos, le_rfl⟩ : Unit01 (fun _ : Fin n => (1 : ℝ))) (k + 1)
    have h := hc hlt i
    have hle : rtol * (maG α K)^[k + 1] (fun _ => 1) i + atol ≤ rtol + atol := by
      have := mul_le_of_le_one_right hr (hu' i).2
      linarith
    rw [Function.iterate_succ_apply'] at h hle
    set X := (maG α K)^[k] (fun _ => 1) with hX
    have hd : 0 < 1 + ∑ j, K i j * X j := by
      have := ma_sum_nonneg hK (fun i => (hu i).1.le) i
      linarith
    have e : maG α K X i - X i = -((1 - α) * ((X i * (1 + ∑ j, K i j * X j) - 1) / (1 + ∑ j, K i j * X j))) := by
      unfold maG maF
      field_simp
      ring
    rw [e, abs_neg, abs_mul, abs_of_pos (by linarith : 0 < 1 - α), abs_div, abs_of_pos hd, ← mul_div_assoc] at h
    have := lt_of_lt_of_le h hle
    rwa [div_lt_iff₀ hd] at this
  · right
    have : k = m := le_antisymm hk hge
    rw [he, this]

/-- The fractions approach the solution of the law of mass action geometrically: after `m` substitutions they
are within `A c ^ m`, where `c < 1`, so with enough iterations the loop always ends by its tolerance. -/
theorem ssLoop_converges (α rtol atol : ℝ) (h0 : 0 ≤ α) (h1 : α < 1) (hr : 0 ≤ rtol) (ha : 0 < atol)
    (K : Fin n → Fin n → ℝ) (hK : ∀ i j, 0 ≤ K i j) (Y : Fin n → ℝ) (hY : MassAction K Y) :
    (∀ A, 0 ≤ A → (∀ i, ∑ j, K i j ≤ A) → ∀ k i,
      |(maG α K)^[k] (fun _ => 1) i - Y i| ≤ A * (α + (1 - α) * (A / (1 + A))) ^ k) ∧
    (∃ N k, k < N ∧ ∀ m ≥ N, ssLoop α rtol atol K m (fun _ => 1) = (maG α K)^[k] (fun _ => 1)) := by
  obtain ⟨hp, hf⟩ := (massAction_iff hK Y).mp hY
  have hu := maF_unit_of_pos hK hp hf
  refine ⟨fun A hA0 hA k i => maG_iterate_error h0 h1.le hA0 hK hA hu hf k i, ?_⟩
  -- some substitution changes every fraction by less than `atol`
  have hstep : ∃ k, ∀ i, |(maG α K)^[k + 1] (fun _ => 1) i - (maG α K)^[k] (fun _ => 1) i| <
      rtol * (maG α K)^[k + 1] (fun _ => 1) i + atol := by
    have ht : ∀ i, ∀ᶠ k in atTop, |(maG α K)^[k + 1] (fun _ => 1) i - (maG α K)^[k] (fun _ => 1) i| < atol := by
      intro i
      have h := maG_tendsto h0 h1 hK hu hf i
      have h' : Tendsto (fun k => (maG α K)^[k + 1] (fun _ => 1) i) atTop (𝓝 (Y i)) :=
        (tendsto_add_atTop_iff_nat 1).mpr h
      have hd := (h'.sub h).abs
      rw [sub_self, abs_zero] at hd
      exact hd.eventually_lt_const ha
    obtain ⟨k, hk⟩ := (eventually_all.mpr ht).exists
    refine ⟨k, fun i => lt_of_lt_of_le (hk i) ?_⟩
    have := (maG_iterate_unit h0 h1.le hK (fun i => ⟨one_pos, le_rfl⟩ : Unit01 (fun _ : Fin n => (1 : ℝ))) (k + 1) i).1
    have := mul_nonneg hr this.le
    linarith
  classical
  let k := Nat.find hstep
  have hk := Nat.find_spec hstep
  refine ⟨k + 1, k, Nat.lt_succ_self k, fun m hm => ?_⟩
  obtain ⟨k', hk', he, hc⟩ := ssLoop_real α rtol atol K m (fun _ => 1)
  -- the loop stops at the first such substitution
  have hfirst : ∀ (m : ℕ) (X : Fin n → ℝ) (j : ℕ), j < m →
      (∀ i, |(maG α K)^[j + 1] X i - (maG α K)^[j] X i| < rtol * (maG α K)^[j + 1] X i + atol) →
      (∀ j' < j, ¬∀ i, |(maG α K)^[j' + 1] X i - (maG α K)^[j'] X i| < rtol * (maG α K)^[j' + 1] X i + atol) →
      ssLoop α rtol atol K m X = (maG α K)^[j] X := by
    intro m
    induction m with
    | zero => intro X j hj; exact absurd hj (Nat.not_lt_zero _)
    | succ m ih =>
      intro X j hj h1 h2
      rw [ssLoop]
      cases j with
      | zero => exact if_pos h1
      | succ j =>
        refine (if_neg (h2 0 (Nat.succ_pos _))).trans ?_
        have := ih (maG α K X) j (by omega) (by
            intro i
            have := h1 i
            rwa [Function.iterate_succ_apply, Function.iterate_succ_apply (n := j)] at this) (by
            intro j' hj' hcon
            refine h2 (j' + 1) (by omega) fun i => ?_
            have := hcon i
            rw [Function.iterate_succ_apply, Function.iterate_succ_apply (n := j')]
            exact this)
        rw [Function.iterate_succ_apply]
        exact this
  exact hfirst m _ k (by omega) hk fun j' hj' => Nat.find_min hstep hj'

/-- A stop by the tolerance puts the fractions close to the exact solution: with row sums at most `A`, the
rate `c` and `r = 1 + (rtol + atol) (1 + A)`, they differ by at most `(r - 1) / (1 - r c)`. -/
theorem ssLoop_accuracy (α rtol atol A : ℝ) (h0 : 0 ≤ α) (h1 : α ≤ 1) (hA0 : 0 ≤ A) (hr : 0 ≤ rtol) (ha : 0 ≤ atol)
    (K : Fin n → Fin n → ℝ) (hK : ∀ i j, 0 ≤ K i j) (hA : ∀ i, ∑ j, K i j ≤ A) (Y : Fin n → ℝ) (hY : MassAction K Y)
    (k : ℕ) (hstop : ∀ i, |(maG α K)^[k + 1] (fun _ => 1) i - (maG α K)^[k] (fun _ => 1) i| <
      rtol * (maG α K)^[k + 1] (fun _ => 1) i + atol)
    (hrc : (1 + (rtol + atol) * (1 + A)) * (α + (1 - α) * (A / (1 + A))) < 1) (i : Fin n) :
    |(maG α K)^[k] (fun _ => 1) i - Y i| ≤
      (rtol + atol) * (1 + A) / (1 - (1 + (rtol + atol) * (1 + A)) * (α + (1 - α) * (A / (1 + A)))) := by
  obtain ⟨hp, hf⟩ := (massAction_iff hK Y).mp hY
  have hu := maF_unit_of_pos hK hp hf
  have hX := maG_iterate_unit h0 h1 hK (fun i => ⟨one_pos, le_rfl⟩ : Unit01 (fun _ : Fin n => (1 : ℝ))) k
  have hX' := maG_iterate_unit h0 h1 hK (fun i => ⟨one_pos, le_rfl⟩ : Unit01 (fun _ : Fin n => (1 : ℝ))) (k + 1)
  have hlow : ∀ k i, (1 + A)⁻¹ ≤ (maG α K)^[k] (fun _ => 1) i := by
    intro k
    induction k with
    | zero => exact fun i => inv_le_one_of_one_le₀ (by linarith)
    | succ k ih =>
      intro i
      rw [Function.iterate_succ_apply']
      exact maG_lower h0 h1 hK hA (maG_iterate_unit h0 h1 hK (fun i => ⟨one_pos, le_rfl⟩) k) ih i
  have hl := hlow k
  have hl' := hlow (k + 1)
  rw [Function.iterate_succ_apply'] at hX' hl'
  simp only [Function.iterate_succ_apply'] at hstop
  set X := (maG α K)^[k] (fun _ => 1) with hXdef
  set c := α + (1 - α) * (A / (1 + A)) with hc
  set δ := rtol + atol with hδ
  have hδ0 : 0 ≤ δ := by linarith
  have hA1 : 0 < 1 + A := by linarith
  have hclose : ∀ i, |maG α K X i - X i| ≤ δ := fun i => by
    have := mul_le_of_le_one_right hr (hX' i).2
    have := hstop i
    linarith
  -- the ratio of X and its substitute
  have hr1 : ∀ i, X i ≤ (1 + δ * (1 + A)) * maG α K X i ∧ maG α K X i ≤ (1 + δ * (1 + A)) * X i := by
    intro i
    have hc := abs_le.mp (hclose i)
    have a1 : δ ≤ δ * (1 + A) * maG α K X i := by
      have := mul_le_mul_of_nonneg_left (hl' i) (mul_nonneg hδ0 hA1.le)
      rwa [mul_assoc, mul_inv_cancel₀ hA1.ne', mul_one] at this
    have a2 : δ ≤ δ * (1 + A) * X i := by
      have := mul_le_mul_of_nonneg_left (hl i) (mul_nonneg hδ0 hA1.le)
      rwa [mul_assoc, mul_inv_cancel₀ hA1.ne', mul_one] at this
    constructor <;> linarith
  -- the largest ratio of X and Y
  have : Nonempty (Fin n) := ⟨i⟩
  obtain ⟨i₀, -, hi₀⟩ := Finset.exists_max_image univ (fun i => max (X i / Y i) (Y i / X i)) Finset.univ_nonempty
  set s := max (X i₀ / Y i₀) (Y i₀ / X i₀) with hs
  have hs1 : 1 ≤ s := by
    rcases le_total (Y i₀) (X i₀) with h | h
    · exact le_max_of_le_left ((one_le_div (hp i₀)).mpr h)
    · exact le_max_of_le_right ((one_le_div (hX i₀).1).mpr h)
  have hsr : ∀ i, X i ≤ s * Y i ∧ Y i ≤ s * X i := fun i => by
    have := hi₀ i (mem_univ i)
    exact ⟨(div_le_iff₀ (hp i)).mp ((le_max_left _ _).trans this),
      (div_le_iff₀ (hX i).1).mp ((le_max_right _ _).trans this)⟩
  have hs2 : ∀ i, _ := maG_ratio h0 h1 hA0 hs1 hK hA hX hu hf hsr
  have hcs : 0 ≤ 1 + c * (s - 1) := by
    have : 0 ≤ c := add_nonneg h0 (mul_nonneg (sub_nonneg.mpr h1) (by positivity))
    have := mul_nonneg this (by linarith : 0 ≤ s - 1)
    linarith
  have hr0 : 0 ≤ 1 + δ * (1 + A) := by positivity
  have hbound : s ≤ (1 + δ * (1 + A)) * (1 + c * (s - 1)) := by
    rw [hs]
    apply max_le
    · rw [div_le_iff₀ (hp i₀)]
      calc X i₀ ≤ (1 + δ * (1 + A)) * maG α K X i₀ := (hr1 i₀).1
        _ ≤ (1 + δ * (1 + A)) * ((1 + c * (s - 1)) * Y i₀) := mul_le_mul_of_nonneg_left (hs2 i₀).1 hr0
        _ = _ := by ring
    · rw [div_le_iff₀ (hX i₀).1]
      calc Y i₀ ≤ (1 + c * (s - 1)) * maG α K X i₀ := (hs2 i₀).2
        _ ≤ (1 + c * (s - 1)) * ((1 + δ * (1 + A)) * X i₀) := mul_le_mul_of_nonneg_left (hr1 i₀).2 hcs
        _ = _ := by ring
  have hfin : s - 1 ≤ δ * (1 + A) / (1 - (1 + δ * (1 + A)) * c) := by
    rw [le_div_iff₀ (by linarith)]
    nlinarith
  refine le_trans ?_ hfin
  have h1' := hsr i
  have a1 := mul_le_of_le_one_right (by linarith : 0 ≤ s - 1) (hu i).2
  have a2 := mul_le_of_le_one_right (by linarith : 0 ≤ s - 1) (hX i).2
  rw [abs_le]
  constructor <;> nlinarith [h1'.1, h1'.2]

/-! ## The closed form for two kinds of sites -/

/-- The closed form is the solution of the two mass-action equations. -/
theorem explicit_massAction (κA κB X0 : ℝ) (hA : 0 < κA) (hB : 0 ≤ κB) :
    let XA := explicitX0 κA κB X0
    0 < XA ∧ XA ≤ 1 ∧ XA * (1 + κB * (1 + κA * XA)⁻¹) = 1 := by
  have hrad : κA * κA - 2 * κA * κB + 2 * κA + κB * κB + 2 * κB + 1 = (1 + κB - κA) ^ 2 + 4 * κA := by ring
  have hradp : 0 < (1 + κB - κA) ^ 2 + 4 * κA := by positivity
  set r := Real.sqrt ((1 + κB - κA) ^ 2 + 4 * κA) with hr
  have hr0 : 0 ≤ r := Real.sqrt_nonneg _
  have hr2 : r ^ 2 = (1 + κB - κA) ^ 2 + 4 * κA := Real.sq_sqrt hradp.le
  have hgt : |1 + κB - κA| < r := by
    rw [← sq_lt_sq₀ (abs_nonneg _) hr0, sq_abs, hr2]; linarith
  have h1 := abs_lt.mp hgt
  have hXA : explicitX0 κA κB X0 = (κA - κB + r - 1) * (2 * κA)⁻¹ := by
    unfold explicitX0
    have e : ADScalar.sqrt (κA * κA - ADScalar.ofR 2 * κA * κB + ADScalar.ofR 2 * κA + κB * κB +
        ADScalar.ofR 2 * κB + 1) = r := by
      change Real.sqrt (κA * κA - 2 * κA * κB + 2 * κA + κB * κB + 2 * κB + 1) = r
      rw [hrad]
    simp only [e]
    change (if κA = 0 ∨ κA * κA - 2 * κA * κB + 2 * κA + κB * κB + 2 * κB + 1 < 0 then X0
      else if (κA - κB - r - 1) * (2 * κA)⁻¹ < 0 ∧ 0 < (κA - κB + r - 1) * (2 * κA)⁻¹ then
        (κA - κB + r - 1) * (2 * κA)⁻¹
      else if 0 < (κA - κB - r - 1) * (2 * κA)⁻¹ ∧ (κA - κB + r - 1) * (2 * κA)⁻¹ < 0 then
        (κA - κB - r - 1) * (2 * κA)⁻¹ else X0) = _
    have hi : 0 < (2 * κA)⁻¹ := by positivity
    rw [if_neg (by rw [hrad]; rintro (h | h) <;> linarith), if_pos]
    exact ⟨mul_neg_of_neg_of_pos (by linarith) hi, mul_pos (by linarith) hi⟩
  simp only [hXA]
  set XA := (κA - κB + r - 1) * (2 * κA)⁻¹ with hX
  have hpos : 0 < XA := mul_pos (by linarith) (by positivity)
  have hq : κA * XA ^ 2 + (1 + κB - κA) * XA - 1 = 0 := by
    rw [hX]
    field_simp
    nlinarith
  have hd : 0 < 1 + κA * XA := by positivity
  have heq : XA * (1 + κB * (1 + κA * XA)⁻¹) = 1 := by
    field_simp
    nlinarith
  refine ⟨hpos, ?_, heq⟩
  have : 0 ≤ XA * (κB * (1 + κA * XA)⁻¹) := by positivity
  nlinarith

/-- When the density (or the strength) is zero the closed form keeps the initial value. -/
theorem explicit_zero (κB X0 : ℝ) : explicitX0 0 κB X0 = X0 := by
  unfold explicitX0
  simp only
  rw [if_pos]
  left
  rfl

/-- The solver for two kinds of sites on one component: if each kind interacts only with the other one and the
strength is symmetric, the result is the unique solution of the law of mass action. -/
theorem assocSolve_explicit (o : AssocOptions) (rho NA d : ℝ) (Delta : Fin 2 → Fin 2 → ℝ) (count : Fin 2 → ℕ)
    (D : Fin 2 → Fin 2 → ℕ) (X : Fin 2 → ℝ) (hrho : 0 < rho) (hNA : 0 < NA) (hd : 0 < d)
    (hc : ∀ i, 0 < count i) (hΔ : ∀ i j, Delta i j = d) (hD : ∀ i j, D i j = if i = j then 0 else count j)
    (he : o.allowExplicit = true) :
    MassAction (rDDX rho NA Delta D fun _ => 1) (assocSolve o 1 rho NA Delta D count (fun _ => 1) X) ∧
    ∀ i, assocSolve o 1 rho NA Delta D count (fun _ => 1) X i ≤ 1 := by
  have hcond : useExplicit o 1 (rDDX rho NA Delta D fun _ => 1) := by
    refine ⟨he, rfl, rfl, fun i => ?_⟩
    unfold rDDX
    rw [hD i i, if_pos rfl]
    change rho * NA * (Delta i i * ((0 : ℕ) : ℝ)) * 1 = 0
    simp
  set κA := rho * NA * (count 0 : ℝ) * d with hκA
  set κB := rho * NA * (count 1 : ℝ) * d with hκB
  have hA : 0 < κA := by have : (0 : ℝ) < count 0 := by exact_mod_cast hc 0
                         positivity
  have hB : 0 < κB := by have : (0 : ℝ) < count 1 := by exact_mod_cast hc 1
                         positivity
  have hsol : assocSolve o 1 rho NA Delta D count (fun _ => 1) X =
      fun i => if i = 0 then explicitX0 κA κB (X 0) else (1 + κA * explicitX0 κA κB (X 0))⁻¹ := by
    unfold assocSolve
    simp only
    rw [dif_pos hcond]
    funext i
    have e1 : rho * NA * ADScalar.ofR (count ⟨0, by omega⟩ : ℝ) * Delta ⟨0, by omega⟩ ⟨1, by omega⟩ = κA := by
      rw [hΔ]; rfl
    have e2 : rho * NA * ADScalar.ofR (count ⟨1, by omega⟩ : ℝ) * Delta ⟨0, by omega⟩ ⟨1, by omega⟩ = κB := by
      rw [hΔ]; rfl
    rw [e1, e2]
    rfl
  obtain ⟨h1, h2, h3⟩ := explicit_massAction κA κB (X 0) hA hB.le
  set XA := explicitX0 κA κB (X 0) with hXA
  have hK01 : rDDX rho NA Delta D (fun _ => (1 : ℝ)) 0 1 = κB := by
    unfold rDDX
    rw [hD, if_neg (by decide), hΔ, hκB]
    change rho * NA * (d * (count 1 : ℝ)) * 1 = _
    ring
  have hK10 : rDDX rho NA Delta D (fun _ => (1 : ℝ)) 1 0 = κA := by
    unfold rDDX
    rw [hD, if_neg (by decide), hΔ, hκA]
    change rho * NA * (d * (count 0 : ℝ)) * 1 = _
    ring
  have hK00 : ∀ i, rDDX rho NA Delta D (fun _ => (1 : ℝ)) i i = 0 := fun i => hcond.2.2.2 i
  have hp1 : 0 < 1 + κA * XA := by positivity
  rw [hsol]
  refine ⟨⟨?_, ?_⟩, ?_⟩
  · rw [Fin.forall_fin_two]
    simp only [if_true, one_ne_zero, if_false, Fin.isValue]
    exact ⟨h1, inv_pos.mpr hp1⟩
  · rw [Fin.forall_fin_two]
    simp only [Fin.sum_univ_two, if_true, one_ne_zero, if_false, Fin.isValue, hK01, hK10, hK00, zero_mul, zero_add,
      add_zero]
    exact ⟨h3, inv_mul_cancel₀ hp1.ne'⟩
  · rw [Fin.forall_fin_two]
    simp only [if_true, one_ne_zero, if_false, Fin.isValue]
    exact ⟨h2, inv_le_one_of_one_le₀ (by have : 0 < κA * XA := by positivity
                                         linarith)⟩

end Teqp.Props
