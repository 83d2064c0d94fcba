import Verif.Lemmas.Saturation
import Mathlib.Analysis.Calculus.ImplicitFunction.ProdDomain
import Mathlib.Analysis.Calculus.ContDiff.RCLike
import Mathlib.Topology.Algebra.Module.FiniteDimension

/-! # The saturation densities as differentiable functions of temperature -/

set_option autoImplicit false

namespace Teqp.Lemmas
open Teqp Teqp.Model Teqp.Spec Teqp.Calc Teqp.PureVLE Filter Topology Set

/-- The two conditions of coexistence of the densities `q.2 = (vapour, liquid)` at the temperature `q.1`. -/
noncomputable def satMap (α : ℝ → ℝ → ℝ) (q : ℝ × ℝ × ℝ) : ℝ × ℝ :=
  ((q.2.2 + q.2.2 ^ 2 * drn α 1 q.1 q.2.2) - (q.2.1 + q.2.1 ^ 2 * drn α 1 q.1 q.2.1), volA1 α q.1 q.2.2 - volA1 α q.1 q.2.1)

/-- A linear map of the plane with independent columns is invertible. -/
theorem invertible_of_columns (f : ℝ × ℝ →L[ℝ] ℝ × ℝ) (h : (f (1, 0)).1 * (f (0, 1)).2 - (f (0, 1)).1 * (f (1, 0)).2 ≠ 0) : f.IsInvertible := by
  have hf (p : ℝ × ℝ) : f p = p.1 • f (1, 0) + p.2 • f (0, 1) := by
    rw [← map_smul, ← map_smul, ← map_add]
    congr 1
    ext <;> simp
  have hinj : Function.Injective (f : ℝ × ℝ →ₗ[ℝ] ℝ × ℝ) := by
    rw [injective_iff_map_eq_zero]
    intro p hp
    have hp : f p = 0 := hp
    rw [hf] at hp
    have e1 := congrArg Prod.fst hp
    have e2 := congrArg Prod.snd hp
    simp only [Prod.fst_add, Prod.snd_add, Prod.smul_fst, Prod.smul_snd, smul_eq_mul, Prod.fst_zero, Prod.snd_zero] at e1 e2
    have a1 : p.1 * ((f (1, 0)).1 * (f (0, 1)).2 - (f (0, 1)).1 * (f (1, 0)).2) = 0 := by linear_combination (f (0, 1)).2 * e1 - (f (0, 1)).1 * e2
    have a2 : p.2 * ((f (1, 0)).1 * (f (0, 1)).2 - (f (0, 1)).1 * (f (1, 0)).2) = 0 := by linear_combination (f (1, 0)).1 * e2 - (f (1, 0)).2 * e1
    exact Prod.ext ((mul_eq_zero.1 a1).resolve_right h) ((mul_eq_zero.1 a2).resolve_right h)
  refine ⟨(LinearEquiv.ofInjectiveEndo (f : ℝ × ℝ →ₗ[ℝ] ℝ × ℝ) hinj).toContinuousLinearEquiv, ?_⟩
  ext p <;> simp

theorem satMap_smooth {α : ℝ → ℝ → ℝ} {T v l : ℝ} (hv : v ≠ 0) (hl : l ≠ 0) (sv : ContDiffAt ℝ 2 (unc α) (T, v)) (sl : ContDiffAt ℝ 2 (unc α) (T, l)) :
    ContDiffAt ℝ 1 (satMap α) (T, v, l) := by
  have aV : ContDiffAt ℝ 1 (fun q : ℝ × ℝ × ℝ => α q.1 q.2.1) (T, v, l) :=
    ContDiffAt.comp (g := unc α) (T, v, l) (sv.of_le (by norm_num)) (contDiffAt_fst.prodMk (contDiffAt_fst.comp _ contDiffAt_snd))
  have aL : ContDiffAt ℝ 1 (fun q : ℝ × ℝ × ℝ => α q.1 q.2.2) (T, v, l) :=
    ContDiffAt.comp (g := unc α) (T, v, l) (sl.of_le (by norm_num)) (contDiffAt_fst.prodMk (contDiffAt_snd.comp _ contDiffAt_snd))
  have dV : ContDiffAt ℝ 1 (fun q : ℝ × ℝ × ℝ => drn α 1 q.1 q.2.1) (T, v, l) :=
    ContDiffAt.comp (g := unc (drn α 1)) (T, v, l) (contDiffAt_drn (n := 1) (j := 1) sv) (contDiffAt_fst.prodMk (contDiffAt_fst.comp _ contDiffAt_snd))
  have dL : ContDiffAt ℝ 1 (fun q : ℝ × ℝ × ℝ => drn α 1 q.1 q.2.2) (T, v, l) :=
    ContDiffAt.comp (g := unc (drn α 1)) (T, v, l) (contDiffAt_drn (n := 1) (j := 1) sl) (contDiffAt_fst.prodMk (contDiffAt_snd.comp _ contDiffAt_snd))
  have iV : ContDiffAt ℝ 1 (fun q : ℝ × ℝ × ℝ => q.2.1) (T, v, l) := contDiffAt_fst.comp _ contDiffAt_snd
  have iL : ContDiffAt ℝ 1 (fun q : ℝ × ℝ × ℝ => q.2.2) (T, v, l) := contDiffAt_snd.comp _ contDiffAt_snd
  refine ContDiffAt.prodMk ((iL.add ((iL.pow 2).mul dL)).sub (iV.add ((iV.pow 2).mul dV))) ?_
  exact (((iL.log hl).add contDiffAt_const).add (aL.add (iL.mul dL))).sub (((iV.log hv).add contDiffAt_const).add (aV.add (iV.mul dV)))

/-- The derivatives of the conditions in the densities. -/
theorem satMap_columns {α : ℝ → ℝ → ℝ} {T v l : ℝ} (hv : v ≠ 0) (hl : l ≠ 0) (sv : ContDiffAt ℝ 2 (α T) v) (sl : ContDiffAt ℝ 2 (α T) l) :
    HasDerivAt (fun r => satMap α (T, r, l)) (-(v * volA2 α T v), -volA2 α T v) v ∧ HasDerivAt (fun r => satMap α (T, v, r)) (l * volA2 α T l, volA2 α T l) l := by
  have hp (r : ℝ) (hr : r ≠ 0) (s : ContDiffAt ℝ 2 (α T) r) : HasDerivAt (fun r => r + r ^ 2 * drn α 1 T r) (r * volA2 α T r) r := by
    have h1 : HasDerivAt (drn α 1 T) (drn α 2 T r) r := hasDerivAt_r (n := 2) (j := 1) s (by norm_num)
    have e : HasDerivAt (fun r => r + r ^ 2 * drn α 1 T r) _ r := (hasDerivAt_id r).add ((hasDerivAt_pow 2 r).mul h1)
    refine e.congr_deriv ?_
    unfold volA2
    simp only [Nat.cast_ofNat, Nat.reduceSub, pow_one]
    field_simp
  refine ⟨?_, ?_⟩
  · exact ((hp v hv sv).const_sub (l + l ^ 2 * drn α 1 T l)).prodMk ((volA1_hasDeriv hv sv).const_sub (volA1 α T l))
  · exact ((hp l hl sl).sub_const (v + v ^ 2 * drn α 1 T v)).prodMk ((volA1_hasDeriv hl sl).sub_const (volA1 α T v))

/-- The implicit function theorem for coexisting densities. -/
theorem sat_implicit {α : ℝ → ℝ → ℝ} {T v l : ℝ} (hv : v ≠ 0) (hl : l ≠ 0) (hvl : v ≠ l) (sv : ContDiffAt ℝ 2 (unc α) (T, v)) (sl : ContDiffAt ℝ 2 (unc α) (T, l))
    (cv : volA2 α T v ≠ 0) (cl : volA2 α T l ≠ 0) :
    ∃ ψ : ℝ → ℝ × ℝ, ψ T = (v, l) ∧ DifferentiableAt ℝ ψ T ∧ ∀ᶠ T' in 𝓝 T, satMap α (T', ψ T') = satMap α (T, v, l) := by
  have hf := (satMap_smooth hv hl sv sl).hasStrictFDerivAt (by norm_num)
  obtain ⟨c1, c2⟩ := satMap_columns hv hl (iso_of_joint (n := 2) sv) (iso_of_joint (n := 2) sl)
  have k1 : (fderiv ℝ (satMap α) (T, v, l) ∘L .inr ℝ ℝ (ℝ × ℝ)) (1, 0) = (-(v * volA2 α T v), -volA2 α T v) := by
    have g : HasDerivAt (fun r : ℝ => ((T, r, l) : ℝ × ℝ × ℝ)) (0, 1, 0) v := (hasDerivAt_const v T).prodMk ((hasDerivAt_id v).prodMk (hasDerivAt_const v l))
    have := (HasFDerivAt.comp_hasDerivAt v (f := fun r : ℝ => ((T, r, l) : ℝ × ℝ × ℝ)) hf.hasFDerivAt g).unique c1
    simpa using this
  have k2 : (fderiv ℝ (satMap α) (T, v, l) ∘L .inr ℝ ℝ (ℝ × ℝ)) (0, 1) = (l * volA2 α T l, volA2 α T l) := by
    have g : HasDerivAt (fun r : ℝ => ((T, v, r) : ℝ × ℝ × ℝ)) (0, 0, 1) l := (hasDerivAt_const l T).prodMk ((hasDerivAt_const l v).prodMk (hasDerivAt_id l))
    have := (HasFDerivAt.comp_hasDerivAt l (f := fun r : ℝ => ((T, v, r) : ℝ × ℝ × ℝ)) hf.hasFDerivAt g).unique c2
    simpa using this
  have hinv : (fderiv ℝ (satMap α) (T, v, l) ∘L .inr ℝ ℝ (ℝ × ℝ)).IsInvertible := by
    refine invertible_of_columns _ ?_
    rw [k1, k2]
    have e : -(v * volA2 α T v) * volA2 α T l - l * volA2 α T l * -volA2 α T v = (l - v) * (volA2 α T v * volA2 α T l) := by ring
    rw [e]
    exact mul_ne_zero (sub_ne_zero.2 hvl.symm) (mul_ne_zero cv cl)
  refine ⟨hf.implicitFunctionOfProdDomain hinv, ?_, (hf.hasStrictFDerivAt_implicitFunctionOfProdDomain hinv).hasFDerivAt.differentiableAt,
    hf.eventually_apply_implicitFunctionOfProdDomain hinv⟩
  exact (hf.eventually_apply_eq_iff_implicitFunctionOfProdDomain hinv).self_of_nhds.mp rfl

end Teqp.Lemmas
