import Verif.Props.Assoc
import Mathlib.Topology.Instances.Matrix
import Mathlib.LinearAlgebra.Matrix.NonsingularInverse
import Mathlib.LinearAlgebra.Matrix.ToLinearEquiv
import Mathlib.Analysis.Calculus.Deriv.Slope
import Mathlib.Topology.Compactness.Compact
import Mathlib.Algebra.BigOperators.Field

/-! # The law of mass action under a change of the strengths -/

set_option autoImplicit false

namespace Teqp.Lemmas
open Teqp.Spec Teqp.Props Finset Filter
open scoped Topology

variable {n : ℕ}

/-- `P` solves the law of mass action differentiated along `K'`, at the solution `Y`. -/
def LinMassAction (K K' : Fin n → Fin n → ℝ) (Y P : Fin n → ℝ) : Prop :=
  ∀ i, P i = -(Y i) ^ 2 * ∑ j, (K' i j * Y j + K i j * P j)

theorem massAction_sum {K : Fin n → Fin n → ℝ} {Y : Fin n → ℝ} (hY : MassAction K Y) (i : Fin n) :
    Y i * ∑ j, K i j * Y j = 1 - Y i := by
  have := hY.2 i
  linarith

theorem ma_hom_zero {K : Fin n → Fin n → ℝ} (hK : ∀ i j, 0 ≤ K i j) {Y : Fin n → ℝ} (hY : MassAction K Y) (v : Fin n → ℝ)
    (hv : ∀ i, v i = -(Y i) ^ 2 * ∑ j, K i j * v j) : v = 0 := by
  by_contra hne
  obtain ⟨k, hk⟩ : ∃ k, v k ≠ 0 := by
    by_contra h
    push Not at h
    exact hne (funext h)
  haveI : Nonempty (Fin n) := ⟨k⟩
  obtain ⟨i, -, hi⟩ := Finset.exists_max_image univ (fun i => |v i| / Y i) ⟨k, mem_univ _⟩
  have hM : 0 < |v i| / Y i := lt_of_lt_of_le (div_pos (abs_pos.2 hk) (hY.1 k)) (hi k (mem_univ _))
  have h1 : |v i| ≤ (Y i) ^ 2 * ∑ j, K i j * (Y j * (|v i| / Y i)) := by
    have e : |v i| = (Y i) ^ 2 * |∑ j, K i j * v j| := by
      conv_lhs => rw [hv i]
      rw [abs_mul, abs_neg, abs_of_nonneg (sq_nonneg _)]
    refine e.le.trans ?_
    refine mul_le_mul_of_nonneg_left ((abs_sum_le_sum_abs _ _).trans (sum_le_sum fun j _ => ?_)) (sq_nonneg _)
    rw [abs_mul, abs_of_nonneg (hK i j)]
    refine mul_le_mul_of_nonneg_left ?_ (hK i j)
    have := hi j (mem_univ _)
    rw [div_le_iff₀ (hY.1 j)] at this
    linarith
  have h2 : (Y i) ^ 2 * ∑ j, K i j * (Y j * (|v i| / Y i)) = (1 - Y i) * |v i| := by
    rw [← massAction_sum hY i]
    simp only [← mul_assoc]
    rw [← Finset.sum_mul]
    have := (hY.1 i).ne'
    field_simp
  rw [h2] at h1
  have h3 : 0 < |v i| := by
    have := mul_pos hM (hY.1 i)
    rwa [div_mul_cancel₀ _ (hY.1 i).ne'] at this
  nlinarith [mul_pos (hY.1 i) h3]

/-- The matrix of the linear system, for two solutions. -/
noncomputable def maMat (K : Fin n → Fin n → ℝ) (Y Z : Fin n → ℝ) : Matrix (Fin n) (Fin n) ℝ :=
  fun i j => (if i = j then (Y i * Z i)⁻¹ else 0) + K i j

theorem maMat_mulVec (K : Fin n → Fin n → ℝ) (Y Z v : Fin n → ℝ) (i : Fin n) :
    (maMat K Y Z).mulVec v i = (Y i * Z i)⁻¹ * v i + ∑ j, K i j * v j := by
  unfold Matrix.mulVec dotProduct maMat
  simp only [add_mul, ite_mul, zero_mul, sum_add_distrib, sum_ite_eq, mem_univ, if_true]

theorem maMat_det {K : Fin n → Fin n → ℝ} (hK : ∀ i j, 0 ≤ K i j) {Y : Fin n → ℝ} (hY : MassAction K Y) : (maMat K Y Y).det ≠ 0 := by
  intro h
  obtain ⟨v, hv, h0⟩ := Matrix.exists_mulVec_eq_zero_iff.2 h
  refine hv (ma_hom_zero hK hY v fun i => ?_)
  have := congrFun h0 i
  rw [maMat_mulVec, Pi.zero_apply] at this
  have hp := (hY.1 i).ne'
  field_simp at this
  linarith

theorem solve_by_adjugate (A : Matrix (Fin n) (Fin n) ℝ) (hA : A.det ≠ 0) (v b : Fin n → ℝ) (h : A.mulVec v = b) (i : Fin n) :
    v i = (A.adjugate.mulVec b) i / A.det := by
  have : A.adjugate.mulVec b = A.det • v := by
    rw [← h, Matrix.mulVec_mulVec, Matrix.adjugate_mul, Matrix.smul_mulVec, Matrix.one_mulVec]
  rw [this, Pi.smul_apply, smul_eq_mul, mul_div_cancel_left₀ _ hA]

theorem lin_iff (K K' : Fin n → Fin n → ℝ) {Y : Fin n → ℝ} (hY : ∀ i, 0 < Y i) (P : Fin n → ℝ) :
    LinMassAction K K' Y P ↔ (maMat K Y Y).mulVec P = fun i => -∑ j, K' i j * Y j := by
  unfold LinMassAction
  rw [funext_iff]
  refine forall_congr' fun i => ?_
  rw [maMat_mulVec, sum_add_distrib]
  have hp := (hY i).ne'
  field_simp
  constructor <;> intro h <;> linarith

/-- The differentiated law has exactly one solution. -/
theorem lin_exists_unique {K : Fin n → Fin n → ℝ} (hK : ∀ i j, 0 ≤ K i j) (K' : Fin n → Fin n → ℝ) {Y : Fin n → ℝ}
    (hY : MassAction K Y) : ∃! P, LinMassAction K K' Y P := by
  have hd := maMat_det hK hY
  refine ⟨fun i => ((maMat K Y Y).adjugate.mulVec (fun i => -∑ j, K' i j * Y j)) i / (maMat K Y Y).det, ?_, fun P hP => ?_⟩
  · refine (lin_iff K K' hY.1 _).2 ?_
    have : (fun i => ((maMat K Y Y).adjugate.mulVec (fun i => -∑ j, K' i j * Y j)) i / (maMat K Y Y).det) =
        (maMat K Y Y).det⁻¹ • (maMat K Y Y).adjugate.mulVec (fun i => -∑ j, K' i j * Y j) := by
      funext i
      rw [Pi.smul_apply, smul_eq_mul, div_eq_inv_mul]
    rw [this, Matrix.mulVec_smul, Matrix.mulVec_mulVec, Matrix.mul_adjugate, Matrix.smul_mulVec, Matrix.one_mulVec, smul_smul,
      inv_mul_cancel₀ hd, one_smul]
  · funext i
    exact solve_by_adjugate _ hd P _ ((lin_iff K K' hY.1 P).1 hP) i

/-- The solution depends continuously on the strengths. -/
theorem massAction_continuous {k : ℝ → Fin n → Fin n → ℝ} {t0 : ℝ} (hk : ∀ᶠ t in 𝓝 t0, ∀ i j, 0 ≤ k t i j)
    (hc : ∀ i j, ContinuousAt (fun t => k t i j) t0) {Y : ℝ → Fin n → ℝ} (hY : ∀ᶠ t in 𝓝 t0, MassAction (k t) (Y t)) :
    ContinuousAt Y t0 := by
  have h0 : ∀ i j, 0 ≤ k t0 i j := hk.self_of_nhds
  have hY0 := hY.self_of_nhds
  -- the values stay in a compact set
  obtain ⟨A, hA0, hA⟩ := ma_bound_exists h0
  have hlow : ∀ᶠ t in 𝓝 t0, ∀ i, (1 + (A + 1))⁻¹ ≤ Y t i ∧ Y t i ≤ 1 := by
    have hs : ∀ i, ∀ᶠ t in 𝓝 t0, ∑ j, k t i j < A + 1 := fun i => by
      have : ContinuousAt (fun t => ∑ j, k t i j) t0 := tendsto_finset_sum _ fun j _ => hc i j
      exact this.eventually_lt continuousAt_const (by have := hA i; linarith)
    filter_upwards [hk, hY, eventually_all.2 hs] with t h1 h2 h3 i
    obtain ⟨hp, hf⟩ := (massAction_iff h1 _).1 h2
    have hu := maF_unit_of_pos h1 hp hf
    refine ⟨?_, (hu i).2⟩
    rw [← hf]
    exact maF_lower h1 (fun i => (h3 i).le) (hu) i
  have hcomp : IsCompact (Set.pi Set.univ fun _ : Fin n => Set.Icc (1 + (A + 1))⁻¹ 1) := isCompact_univ_pi fun _ => isCompact_Icc
  refine hcomp.tendsto_nhds_of_unique_mapClusterPt (hlow.mono fun t h i _ => h i) fun y hy hcl => ?_
  obtain ⟨U, hU, hyU⟩ := mapClusterPt_iff_ultrafilter.1 hcl
  have hypos : ∀ i, 0 < y i := fun i => lt_of_lt_of_le (by positivity) (hy i trivial).1
  have hma : MassAction (k t0) y := by
    refine ⟨hypos, fun i => ?_⟩
    have h1 : Tendsto (fun t => Y t i * (1 + ∑ j, k t i j * Y t j)) U (𝓝 (y i * (1 + ∑ j, k t0 i j * y j))) := by
      refine ((tendsto_pi_nhds.1 hyU) i).mul (tendsto_const_nhds.add (tendsto_finset_sum _ fun j _ => ?_))
      exact ((hc i j).mono_left hU).mul ((tendsto_pi_nhds.1 hyU) j)
    have h2 : Tendsto (fun t => Y t i * (1 + ∑ j, k t i j * Y t j)) U (𝓝 1) := by
      refine tendsto_const_nhds.congr' ?_
      filter_upwards [hU hY] with t ht
      exact (ht.2 i).symm
    exact tendsto_nhds_unique h1 h2
  obtain ⟨z, -, -, hz⟩ := massAction_exists_unique (k t0) h0
  rw [hz y hma, hz _ hY0]

/-- The solution is differentiable if the strengths are; its derivative solves the differentiated law. -/
theorem massAction_hasDeriv {k : ℝ → Fin n → Fin n → ℝ} {k' : Fin n → Fin n → ℝ} {t0 : ℝ} (hk : ∀ᶠ t in 𝓝 t0, ∀ i j, 0 ≤ k t i j)
    (hd : ∀ i j, HasDerivAt (fun t => k t i j) (k' i j) t0) {Y : ℝ → Fin n → ℝ} (hY : ∀ᶠ t in 𝓝 t0, MassAction (k t) (Y t))
    {P : Fin n → ℝ} (hP : LinMassAction (k t0) k' (Y t0) P) (i : Fin n) : HasDerivAt (fun t => Y t i) (P i) t0 := by
  have h0 : ∀ i j, 0 ≤ k t0 i j := hk.self_of_nhds
  have hY0 := hY.self_of_nhds
  have hc := massAction_continuous hk (fun i j => (hd i j).continuousAt) hY
  have hci : ∀ i, ContinuousAt (fun t => Y t i) t0 := fun i => (continuousAt_pi.1 hc) i
  rw [hasDerivAt_iff_tendsto_slope]
  have hA : Tendsto (fun t => maMat (k t0) (Y t) (Y t0)) (𝓝 t0) (𝓝 (maMat (k t0) (Y t0) (Y t0))) := by
    refine tendsto_pi_nhds.2 fun a => tendsto_pi_nhds.2 fun b => ?_
    unfold maMat
    by_cases hab : a = b
    · simp only [if_pos hab]
      exact (((hci a).mul continuousAt_const).inv₀ (mul_pos (hY0.1 a) (hY0.1 a)).ne').add continuousAt_const
    · simp only [if_neg hab]
      exact tendsto_const_nhds
  have hb : ∀ a, Tendsto (fun t => -∑ j, slope (fun t => k t a j) t0 t * Y t j) (𝓝[≠] t0) (𝓝 (-∑ j, k' a j * Y t0 j)) := fun a => by
    refine (tendsto_finset_sum _ fun j _ => ?_).neg
    exact (hasDerivAt_iff_tendsto_slope.1 (hd a j)).mul ((hci j).mono_left nhdsWithin_le_nhds)
  have hdet : Tendsto (fun t => (maMat (k t0) (Y t) (Y t0)).det) (𝓝[≠] t0) (𝓝 (maMat (k t0) (Y t0) (Y t0)).det) :=
    ((continuous_id.matrix_det.tendsto _).comp hA).mono_left nhdsWithin_le_nhds
  have hadj : Tendsto (fun t => (maMat (k t0) (Y t) (Y t0)).adjugate) (𝓝[≠] t0) (𝓝 (maMat (k t0) (Y t0) (Y t0)).adjugate) :=
    ((continuous_id.matrix_adjugate.tendsto _).comp hA).mono_left nhdsWithin_le_nhds
  have hdne := maMat_det h0 hY0
  rw [solve_by_adjugate _ hdne P _ ((lin_iff _ _ hY0.1 P).1 hP) i]
  have hlim : Tendsto (fun t => ((maMat (k t0) (Y t) (Y t0)).adjugate.mulVec fun a => -∑ j, slope (fun t => k t a j) t0 t * Y t j) i /
      (maMat (k t0) (Y t) (Y t0)).det) (𝓝[≠] t0)
      (𝓝 (((maMat (k t0) (Y t0) (Y t0)).adjugate.mulVec fun a => -∑ j, k' a j * Y t0 j) i / (maMat (k t0) (Y t0) (Y t0)).det)) := by
    refine Tendsto.div ?_ hdet hdne
    unfold Matrix.mulVec dotProduct
    refine tendsto_finset_sum _ fun a _ => ?_
    exact ((tendsto_pi_nhds.1 (tendsto_pi_nhds.1 hadj i)) a).mul (hb a)
  refine hlim.congr' ?_
  have hne : ∀ᶠ t in 𝓝[≠] t0, (maMat (k t0) (Y t) (Y t0)).det ≠ 0 := hdet.eventually_ne hdne
  filter_upwards [hne, hY.filter_mono nhdsWithin_le_nhds, self_mem_nhdsWithin] with t h1 h2 h3
  refine (solve_by_adjugate _ h1 (fun i => slope (fun t => Y t i) t0 t) _ ?_ i).symm
  funext a
  rw [maMat_mulVec]
  have e1 := h2.2 a
  have e2 := hY0.2 a
  have p1 := (h2.1 a).ne'
  have p2 := (hY0.1 a).ne'
  have ht : t - t0 ≠ 0 := sub_ne_zero.2 h3
  simp only [slope_def_field]
  have s1 : ∑ j, k t a j * Y t j = (Y t a)⁻¹ - 1 := by field_simp; linarith
  have s2 : ∑ j, k t0 a j * Y t0 j = (Y t0 a)⁻¹ - 1 := by field_simp; linarith
  have s3 : ∑ j, k t0 a j * ((Y t j - Y t0 j) / (t - t0)) = (∑ j, k t0 a j * Y t j - ∑ j, k t0 a j * Y t0 j) / (t - t0) := by
    rw [← Finset.sum_sub_distrib, Finset.sum_div]
    exact sum_congr rfl fun j _ => by ring
  have s4 : ∑ j, (k t a j - k t0 a j) / (t - t0) * Y t j = (∑ j, k t a j * Y t j - ∑ j, k t0 a j * Y t j) / (t - t0) := by
    rw [← Finset.sum_sub_distrib, Finset.sum_div]
    exact sum_congr rfl fun j _ => by ring
  rw [s3, s4, s1, s2]
  field_simp
  ring

end Teqp.Lemmas
