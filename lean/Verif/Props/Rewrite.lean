import Verif.Props.Polar
import Verif.Props.LKP
import Verif.Props.LennardJones

/-! # C183: PC-SAFT with its polar terms does not depend on how a mixture is written down -/

set_option autoImplicit false

namespace Teqp.Spec
/-- Another way to write a mixture down: every entry `k` of the new list is the component `f k` of the old one.  The mole fraction of a component is the sum over its entries.  A permutation is
an `f` with an inverse, a component that is listed twice has two entries, and a component without entry is absent. -/
noncomputable def gathered {κ ι : Type} [Fintype κ] [DecidableEq ι] (f : κ → ι) (x : κ → ℝ) (i : ι) : ℝ := ∑ k with f k = i, x k
end Teqp.Spec

namespace Teqp.Props
open Teqp Teqp.Model Teqp.Spec Finset

section
variable {κ ι : Type} [Fintype κ] [Fintype ι] [DecidableEq ι]

theorem gathered_sum (f : κ → ι) (x : κ → ℝ) (φ : ι → ℝ) : ∑ k, x k * φ (f k) = ∑ i, gathered f x i * φ i := by
  rw [← Finset.sum_fiberwise univ f]
  refine sum_congr rfl fun i _ => ?_
  rw [gathered, sum_mul]
  refine sum_congr rfl fun k hk => ?_
  rw [(mem_filter.1 hk).2]

theorem gathered_sum2 (f : κ → ι) (x : κ → ℝ) (φ : ι → ι → ℝ) : ∑ k, ∑ l, x k * x l * φ (f k) (f l) = ∑ i, ∑ j, gathered f x i * gathered f x j * φ i j := by
  have h (k : κ) : ∑ l, x k * x l * φ (f k) (f l) = x k * ∑ j, gathered f x j * φ (f k) j := by
    rw [← gathered_sum f x (φ (f k)), mul_sum]
    exact sum_congr rfl fun l _ => by ring
  rw [sum_congr rfl fun k _ => h k, gathered_sum f x fun i => ∑ j, gathered f x j * φ i j]
  refine sum_congr rfl fun i _ => ?_
  rw [mul_sum]
  exact sum_congr rfl fun j _ => by ring

theorem gathered_sum3 (f : κ → ι) (x : κ → ℝ) (φ : ι → ι → ι → ℝ) :
    ∑ k, ∑ l, ∑ n, x k * x l * x n * φ (f k) (f l) (f n) = ∑ i, ∑ j, ∑ o, gathered f x i * gathered f x j * gathered f x o * φ i j o := by
  have h (k : κ) : ∑ l, ∑ n, x k * x l * x n * φ (f k) (f l) (f n) = x k * ∑ j, ∑ o, gathered f x j * gathered f x o * φ (f k) j o := by
    rw [← gathered_sum2 f x (φ (f k)), mul_sum]
    refine sum_congr rfl fun l _ => ?_
    rw [mul_sum]
    exact sum_congr rfl fun n _ => by ring
  rw [sum_congr rfl fun k _ => h k, gathered_sum f x fun i => ∑ j, ∑ o, gathered f x j * gathered f x o * φ i j o]
  refine sum_congr rfl fun i _ => ?_
  rw [mul_sum]
  refine sum_congr rfl fun j _ => ?_
  rw [mul_sum]
  exact sum_congr rfl fun o _ => by ring

theorem gathered_eq2 (f : κ → ι) (x : κ → ℝ) (φ : ι → ι → ℝ) {F' : κ → κ → ℝ} {F : ι → ι → ℝ} (h' : ∀ k l, F' k l = x k * x l * φ (f k) (f l))
    (h : ∀ i j, F i j = gathered f x i * gathered f x j * φ i j) : ∑ k, ∑ l, F' k l = ∑ i, ∑ j, F i j := by
  simp only [h', h]
  exact gathered_sum2 f x φ

theorem gathered_eq3 (f : κ → ι) (x : κ → ℝ) (φ : ι → ι → ι → ℝ) {F' : κ → κ → κ → ℝ} {F : ι → ι → ι → ℝ} (h' : ∀ k l n, F' k l n = x k * x l * x n * φ (f k) (f l) (f n))
    (h : ∀ i j o, F i j o = gathered f x i * gathered f x j * gathered f x o * φ i j o) : ∑ k, ∑ l, ∑ n, F' k l n = ∑ i, ∑ j, ∑ o, F i j o := by
  simp only [h', h]
  exact gathered_sum3 f x φ

/-- Two sets of parameters describe the same substances. -/
structure SamePC (f : κ → ι) (p' : PCParams κ) (p : PCParams ι) : Prop where
  m : ∀ k, p'.m k = p.m (f k)
  sigma : ∀ k, p'.sigma k = p.sigma (f k)
  eps : ∀ k, p'.eps k = p.eps (f k)
  k : ∀ k l, p'.k k l = p.k (f k) (f l)
  a : p'.a = p.a
  b : p'.b = p.b

variable {f : κ → ι}

theorem SamePC.mbar {p' : PCParams κ} {p : PCParams ι} (h : SamePC f p' p) (x : κ → ℝ) : pcMbar p' x = pcMbar p (gathered f x) := by
  unfold pcMbar
  rw [← gathered_sum f x p.m]
  exact sum_congr rfl fun k _ => by rw [h.m]

theorem SamePC.dn {p' : PCParams κ} {p : PCParams ι} (h : SamePC f p' p) (T : ℝ) (x : κ → ℝ) : pcD p' T x = pcD p T (gathered f x) := by
  funext n
  unfold pcD
  congr 1
  rw [sum_congr rfl fun i _ => mul_assoc (gathered f x i) _ _, ← gathered_sum f x fun i => p.m i * pcDiam (p.sigma i) (p.eps i) T ^ n]
  exact sum_congr rfl fun k _ => by rw [h.m, h.sigma, h.eps]; ring

theorem SamePC.mix {p' : PCParams κ} {p : PCParams ι} (h : SamePC f p' p) (T : ℝ) (x : κ → ℝ) (q : ℕ) : pcMix p' T x q = pcMix p T (gathered f x) q := by
  unfold pcMix
  refine gathered_eq2 f x (fun i j => p.m i * (p.m j * ((Real.sqrt (p.eps i * p.eps j) * (1 - p.k i j) / T) ^ q *
    ((0.5 * p.sigma i + 0.5 * p.sigma j) * (0.5 * p.sigma i + 0.5 * p.sigma j) * (0.5 * p.sigma i + 0.5 * p.sigma j))))) (fun k l => ?_) fun i j => ?_
  · rw [h.m, h.m, h.sigma, h.sigma, h.eps, h.eps, h.k]
    ring
  · ring

/-- **C183, hard chains and dispersion**, absent components included. -/
theorem pc_gathered {p' : PCParams κ} {p : PCParams ι} (h : SamePC f p' p) (T rho : ℝ) (x : κ → ℝ) : pcEval p' T rho x = pcEval p T rho (gathered f x) := by
  unfold pcEval
  simp only [h.mbar, h.dn, h.mix, h.a, h.b, PCTerms.mk.injEq, true_and, and_true]
  congr 1
  simp only [mul_assoc]
  rw [← gathered_sum f x fun i => (p.m i - 1) * Real.log (pcG (fun n => pcD p T (gathered f x) n * rho) (pcDiam (p.sigma i) (p.eps i) T) (pcDiam (p.sigma i) (p.eps i) T))]
  exact sum_congr rfl fun k _ => by rw [h.m, h.sigma, h.eps]

theorem SamePC.regular {p' : PCParams κ} {p : PCParams ι} (h : SamePC f p' p) (hf : Function.Surjective f) (T rho : ℝ) (x : κ → ℝ) :
    PCRegular p' T rho x ↔ PCRegular p T rho (gathered f x) := by
  constructor
  · intro r
    refine ⟨r.hT, fun i j => ?_, h.mbar x ▸ r.hmbar, h.dn T x ▸ r.hD0, h.dn T x ▸ r.hD3, h.dn T x ▸ r.hz0, h.dn T x ▸ r.heta, fun i => ?_, fun i => ?_, ?_⟩
    · obtain ⟨k, rfl⟩ := hf i
      obtain ⟨l, rfl⟩ := hf j
      have := r.heps k l
      rwa [h.eps, h.eps] at this
    · obtain ⟨k, rfl⟩ := hf i
      have := r.hd k
      rwa [h.sigma, h.eps] at this
    · obtain ⟨k, rfl⟩ := hf i
      have := r.hg k
      rwa [h.dn, h.sigma, h.eps] at this
    · have := r.hC1
      rwa [h.dn, h.mbar] at this
  · intro r
    refine ⟨r.hT, fun i j => ?_, h.mbar x ▸ r.hmbar, h.dn T x ▸ r.hD0, h.dn T x ▸ r.hD3, h.dn T x ▸ r.hz0, h.dn T x ▸ r.heta, fun i => ?_, fun i => ?_, ?_⟩
    · rw [h.eps, h.eps]; exact r.heps _ _
    · rw [h.sigma, h.eps]; exact r.hd _
    · rw [h.dn, h.sigma, h.eps]; exact r.hg _
    · rw [h.dn, h.mbar]; exact r.hC1

/-- The same for the data of the polar terms. -/
structure SameGV (f : κ → ι) (p' : GVParams κ) (p : GVParams ι) : Prop where
  m : ∀ k, p'.m k = p.m (f k)
  sigma : ∀ k, p'.sigma k = p.sigma (f k)
  eps : ∀ k, p'.eps k = p.eps (f k)
  mustar2 : ∀ k, p'.mustar2 k = p.mustar2 (f k)
  nmu : ∀ k, p'.nmu k = p.nmu (f k)
  Qstar2 : ∀ k, p'.Qstar2 k = p.Qstar2 (f k)
  nQ : ∀ k, p'.nQ k = p.nQ (f k)

section
variable {p' : GVParams κ} {p : GVParams ι} (h : SameGV f p' p) (T rho eta : ℝ) (x : κ → ℝ)
include h

theorem SameGV.a2DD : alpha2DD p' T rho eta x = alpha2DD p T rho eta (gathered f x) := by
  classical
  unfold alpha2DD
  congr 1
  have e (i j : ι) (y : ℝ) (z : ℝ) : (if p.nmu i * p.nmu j > 0 then y * z * p.eps i / T * p.eps j / T * (p.sigma i * p.sigma j / p.sij i j) ^ 3 * (p.nmu i * p.nmu j) * p.mustar2 i * p.mustar2 j *
      JDD2 eta (p.mij i j) (p.Tstar T i j) else 0) = y * z * (if p.nmu i * p.nmu j > 0 then p.eps i / T * p.eps j / T * (p.sigma i * p.sigma j / p.sij i j) ^ 3 * (p.nmu i * p.nmu j) * p.mustar2 i * p.mustar2 j *
      JDD2 eta (p.mij i j) (p.Tstar T i j) else 0) := by split_ifs <;> ring
  refine gathered_eq2 f x (fun i j => (if p.nmu i * p.nmu j > 0 then p.eps i / T * p.eps j / T * (p.sigma i * p.sigma j / p.sij i j) ^ 3 * (p.nmu i * p.nmu j) * p.mustar2 i * p.mustar2 j *
      JDD2 eta (p.mij i j) (p.Tstar T i j) else 0)) (fun k l => ?_) fun i j => ?_
  · rw [← e _ _ _ _]
    simp only [GVParams.sij, GVParams.mij, GVParams.Tstar, h.m, h.sigma, h.eps, h.mustar2, h.nmu]
  · exact e _ _ _ _

theorem SameGV.a3DD : alpha3DD p' T rho eta x = alpha3DD p T rho eta (gathered f x) := by
  classical
  unfold alpha3DD
  congr 1
  have e (i j k : ι) (u v w : ℝ) : (if p.nmu i * p.nmu j * p.nmu k > 0 then
    u * v * w * p.eps i / T * p.eps j / T * p.eps k / T * (p.sigma i * p.sigma j * p.sigma k) ^ 3 /
      (p.sij i j * p.sij i k * p.sij j k) * (p.nmu i * p.nmu j * p.nmu k) * p.mustar2 i * p.mustar2 j * p.mustar2 k *
      JDD3 eta (p.mijk i j k) else 0) = u * v * w * (if p.nmu i * p.nmu j * p.nmu k > 0 then
    p.eps i / T * p.eps j / T * p.eps k / T * (p.sigma i * p.sigma j * p.sigma k) ^ 3 /
      (p.sij i j * p.sij i k * p.sij j k) * (p.nmu i * p.nmu j * p.nmu k) * p.mustar2 i * p.mustar2 j * p.mustar2 k *
      JDD3 eta (p.mijk i j k) else 0) := by split_ifs <;> ring
  refine gathered_eq3 f x (fun i j k => (if p.nmu i * p.nmu j * p.nmu k > 0 then
    p.eps i / T * p.eps j / T * p.eps k / T * (p.sigma i * p.sigma j * p.sigma k) ^ 3 /
      (p.sij i j * p.sij i k * p.sij j k) * (p.nmu i * p.nmu j * p.nmu k) * p.mustar2 i * p.mustar2 j * p.mustar2 k *
      JDD3 eta (p.mijk i j k) else 0)) (fun k l n => ?_) fun i j k => ?_
  · rw [← e _ _ _ _ _ _]
    simp only [GVParams.sij, GVParams.mijk, h.m, h.sigma, h.eps, h.mustar2, h.nmu]
  · exact e _ _ _ _ _ _

theorem SameGV.a2QQ : alpha2QQ p' T rho eta x = alpha2QQ p T rho eta (gathered f x) := by
  classical
  unfold alpha2QQ
  congr 1
  have e (i j : ι) (y z : ℝ) : (if p.nQ i * p.nQ j > 0 then
    y * z * p.eps i / T * p.eps j / T * (p.sigma i * p.sigma j) ^ 5 / p.sij i j ^ 7 * (p.nQ i * p.nQ j) * p.Qstar2 i * p.Qstar2 j *
      JQQ2 eta (p.mij i j) (p.Tstar T i j) else 0) = y * z * (if p.nQ i * p.nQ j > 0 then
    p.eps i / T * p.eps j / T * (p.sigma i * p.sigma j) ^ 5 / p.sij i j ^ 7 * (p.nQ i * p.nQ j) * p.Qstar2 i * p.Qstar2 j *
      JQQ2 eta (p.mij i j) (p.Tstar T i j) else 0) := by split_ifs <;> ring
  refine gathered_eq2 f x (fun i j => (if p.nQ i * p.nQ j > 0 then
    p.eps i / T * p.eps j / T * (p.sigma i * p.sigma j) ^ 5 / p.sij i j ^ 7 * (p.nQ i * p.nQ j) * p.Qstar2 i * p.Qstar2 j *
      JQQ2 eta (p.mij i j) (p.Tstar T i j) else 0)) (fun k l => ?_) fun i j => ?_
  · rw [← e _ _ _ _]
    simp only [GVParams.sij, GVParams.mij, GVParams.Tstar, h.m, h.sigma, h.eps, h.Qstar2, h.nQ]
  · exact e _ _ _ _

theorem SameGV.a3QQ : alpha3QQ p' T rho eta x = alpha3QQ p T rho eta (gathered f x) := by
  classical
  unfold alpha3QQ
  congr 1
  have e (i j k : ι) (u v w : ℝ) : (if p.nQ i * p.nQ j * p.nQ k > 0 then
    u * v * w * p.eps i / T * p.eps j / T * p.eps k / T * (p.sigma i * p.sigma j * p.sigma k) ^ 5 /
      (p.sij i j * p.sij i k * p.sij j k) ^ 3 * (p.nQ i * p.nQ j * p.nQ k) * p.Qstar2 i * p.Qstar2 j * p.Qstar2 k *
      JDD3 eta (p.mijk i j k) else 0) = u * v * w * (if p.nQ i * p.nQ j * p.nQ k > 0 then
    p.eps i / T * p.eps j / T * p.eps k / T * (p.sigma i * p.sigma j * p.sigma k) ^ 5 /
      (p.sij i j * p.sij i k * p.sij j k) ^ 3 * (p.nQ i * p.nQ j * p.nQ k) * p.Qstar2 i * p.Qstar2 j * p.Qstar2 k *
      JDD3 eta (p.mijk i j k) else 0) := by split_ifs <;> ring
  refine gathered_eq3 f x (fun i j k => (if p.nQ i * p.nQ j * p.nQ k > 0 then
    p.eps i / T * p.eps j / T * p.eps k / T * (p.sigma i * p.sigma j * p.sigma k) ^ 5 /
      (p.sij i j * p.sij i k * p.sij j k) ^ 3 * (p.nQ i * p.nQ j * p.nQ k) * p.Qstar2 i * p.Qstar2 j * p.Qstar2 k *
      JDD3 eta (p.mijk i j k) else 0)) (fun k l n => ?_) fun i j k => ?_
  · rw [← e _ _ _ _ _ _]
    simp only [GVParams.sij, GVParams.mijk, h.m, h.sigma, h.eps, h.Qstar2, h.nQ]
  · exact e _ _ _ _ _ _

theorem SameGV.a2DQ : alpha2DQ p' T rho eta x = alpha2DQ p T rho eta (gathered f x) := by
  classical
  unfold alpha2DQ
  congr 1
  have e (i j : ι) (y z : ℝ) : (if p.nmu i * p.nQ j > 0 then
    y * z * p.eps i / T * p.eps j / T * p.sigma i ^ 3 * p.sigma j ^ 5 / p.sij i j ^ 5 * (p.nmu i * p.nQ j) * p.mustar2 i * p.Qstar2 j *
      JDQ2 eta (p.mij i j) (p.Tstar T i j) else 0) = y * z * (if p.nmu i * p.nQ j > 0 then
    p.eps i / T * p.eps j / T * p.sigma i ^ 3 * p.sigma j ^ 5 / p.sij i j ^ 5 * (p.nmu i * p.nQ j) * p.mustar2 i * p.Qstar2 j *
      JDQ2 eta (p.mij i j) (p.Tstar T i j) else 0) := by split_ifs <;> ring
  refine gathered_eq2 f x (fun i j => (if p.nmu i * p.nQ j > 0 then
    p.eps i / T * p.eps j / T * p.sigma i ^ 3 * p.sigma j ^ 5 / p.sij i j ^ 5 * (p.nmu i * p.nQ j) * p.mustar2 i * p.Qstar2 j *
      JDQ2 eta (p.mij i j) (p.Tstar T i j) else 0)) (fun k l => ?_) fun i j => ?_
  · rw [← e _ _ _ _]
    simp only [GVParams.sij, GVParams.mij, GVParams.Tstar, h.m, h.sigma, h.eps, h.mustar2, h.nmu, h.Qstar2, h.nQ]
  · exact e _ _ _ _

theorem SameGV.a3DQ : alpha3DQ p' T rho eta x = alpha3DQ p T rho eta (gathered f x) := by
  classical
  unfold alpha3DQ
  congr 1
  have e (i j k : ι) (u v w : ℝ) : (if p.nmu i * p.nmu j * p.nQ k > 0 ∨ p.nmu i * p.nQ j * p.nQ k > 0 then
    u * v * w * p.eps i / T * p.eps j / T * p.eps k / T * (p.sigma i * p.sigma j * p.sigma k) ^ 4 /
      (p.sij i j * p.sij i k * p.sij j k) ^ 2 *
      (p.nmu i * p.nmu j * p.nQ k * p.mustar2 i * p.mustar2 j * p.Qstar2 k +
        p.nmu i * p.nQ j * p.nQ k * 1.19374 * p.mustar2 i * p.Qstar2 j * p.Qstar2 k) *
      JDQ3 eta (p.mijk i j k) else 0) = u * v * w * (if p.nmu i * p.nmu j * p.nQ k > 0 ∨ p.nmu i * p.nQ j * p.nQ k > 0 then
    p.eps i / T * p.eps j / T * p.eps k / T * (p.sigma i * p.sigma j * p.sigma k) ^ 4 /
      (p.sij i j * p.sij i k * p.sij j k) ^ 2 *
      (p.nmu i * p.nmu j * p.nQ k * p.mustar2 i * p.mustar2 j * p.Qstar2 k +
        p.nmu i * p.nQ j * p.nQ k * 1.19374 * p.mustar2 i * p.Qstar2 j * p.Qstar2 k) *
      JDQ3 eta (p.mijk i j k) else 0) := by split_ifs <;> ring
  refine gathered_eq3 f x (fun i j k => (if p.nmu i * p.nmu j * p.nQ k > 0 ∨ p.nmu i * p.nQ j * p.nQ k > 0 then
    p.eps i / T * p.eps j / T * p.eps k / T * (p.sigma i * p.sigma j * p.sigma k) ^ 4 /
      (p.sij i j * p.sij i k * p.sij j k) ^ 2 *
      (p.nmu i * p.nmu j * p.nQ k * p.mustar2 i * p.mustar2 j * p.Qstar2 k +
        p.nmu i * p.nQ j * p.nQ k * 1.19374 * p.mustar2 i * p.Qstar2 j * p.Qstar2 k) *
      JDQ3 eta (p.mijk i j k) else 0)) (fun k l n => ?_) fun i j k => ?_
  · rw [← e _ _ _ _ _ _]
    simp only [GVParams.sij, GVParams.mijk, h.m, h.sigma, h.eps, h.mustar2, h.nmu, h.Qstar2, h.nQ]
  · exact e _ _ _ _ _ _

/-- **C183, polar terms**, absent components included. -/
theorem polar_gathered : dipEval p' T rho eta x = dipEval p T rho eta (gathered f x) ∧ quadEval p' T rho eta x = quadEval p T rho eta (gathered f x) ∧
    diquadEval p' T rho eta x = diquadEval p T rho eta (gathered f x) := by
  refine ⟨?_, ?_, ?_⟩
  · unfold dipEval; rw [h.a2DD, h.a3DD]
  · unfold quadEval; rw [h.a2QQ, h.a3QQ]
  · unfold diquadEval; rw [h.a2DQ, h.a3DQ]

end
end

/-! ## Whole models -/

/-- Two PC-SAFT models list the same substances; names and references do not matter. -/
structure SameMixture (q' q : PCMixture) (f : Fin q'.coeffs.length → Fin q.coeffs.length) : Prop where
  m : ∀ k, (q'.coeffs.get k).m = (q.coeffs.get (f k)).m
  sigma : ∀ k, (q'.coeffs.get k).sigma = (q.coeffs.get (f k)).sigma
  eps : ∀ k, (q'.coeffs.get k).eps = (q.coeffs.get (f k)).eps
  mustar2 : ∀ k, (q'.coeffs.get k).mustar2 = (q.coeffs.get (f k)).mustar2
  nmu : ∀ k, (q'.coeffs.get k).nmu = (q.coeffs.get (f k)).nmu
  Qstar2 : ∀ k, (q'.coeffs.get k).Qstar2 = (q.coeffs.get (f k)).Qstar2
  nQ : ∀ k, (q'.coeffs.get k).nQ = (q.coeffs.get (f k)).nQ
  k : ∀ k l : Fin q'.coeffs.length, q'.kmat.val k l = q.kmat.val (f k) (f l)
  a : q'.a = q.a
  b : q'.b = q.b

theorem abs_sum_ne_zero {β : Type} (l : List β) (φ : β → ℝ) : (l.map fun c => |φ c|).sum ≠ 0 ↔ ∃ i, φ (l.get i) ≠ 0 := by
  have h0 : ∀ l : List β, 0 ≤ (l.map fun c => |φ c|).sum := fun l => List.sum_nonneg (by simp only [List.mem_map]; rintro _ ⟨c, -, rfl⟩; exact abs_nonneg _)
  have : (∃ i, φ (l.get i) ≠ 0) ↔ ∃ c ∈ l, φ c ≠ 0 := by
    constructor
    · rintro ⟨i, hi⟩; exact ⟨_, List.get_mem l i, hi⟩
    · rintro ⟨c, hc, h⟩
      obtain ⟨i, rfl⟩ := List.get_of_mem hc
      exact ⟨i, h⟩
  rw [this]
  induction l with
  | nil => simp
  | cons c l ih =>
    have ih' := ih (by
      constructor
      · rintro ⟨i, hi⟩; exact ⟨_, List.get_mem l i, hi⟩
      · rintro ⟨c, hc, h⟩
        obtain ⟨i, rfl⟩ := List.get_of_mem hc
        exact ⟨i, h⟩)
    simp only [List.map_cons, List.sum_cons, List.exists_mem_cons_iff, ← ih']
    have h1 := abs_nonneg (φ c)
    have h2 := h0 l
    constructor
    · intro h
      by_contra hn
      push Not at hn
      rw [hn.1, hn.2] at h
      simp at h
    · rintro (h | h)
      · have := abs_pos.2 h; linarith
      · have := lt_of_le_of_ne h2 (Ne.symm h); linarith

/-- **C183.** A PC-SAFT model whose list of components is reordered, or names substances several times, gives the same residual Helmholtz energy, or fails in the same way. -/
theorem pc_rewrite (NA : ℝ) (m' m : PCMixture) (f : Fin m'.coeffs.length → Fin m.coeffs.length) (h : SameMixture m' m f) (hf : Function.Surjective f) (T rho : ℝ) (x : List ℝ)
    (hx : x.length = m'.coeffs.length) : m'.alpharPolar NA T rho x = m.alpharPolar NA T rho (List.ofFn (gathered f fun k => x.getD k 0)) := by
  classical
  have hp : SamePC f m'.params m.params := ⟨h.m, h.sigma, h.eps, fun k l => h.k k l, h.a, h.b⟩
  have hg : SameGV f m'.gv m.gv := ⟨h.m, h.sigma, h.eps, h.mustar2, h.nmu, h.Qstar2, h.nQ⟩
  have hd : m'.hasDipole ↔ m.hasDipole := by
    unfold PCMixture.hasDipole
    rw [abs_sum_ne_zero, abs_sum_ne_zero]
    constructor
    · rintro ⟨k, hk⟩; exact ⟨f k, by rwa [h.mustar2, h.nmu] at hk⟩
    · rintro ⟨i, hi⟩
      obtain ⟨k, rfl⟩ := hf i
      exact ⟨k, by rwa [h.mustar2, h.nmu]⟩
  have hq : m'.hasQuadrupole ↔ m.hasQuadrupole := by
    unfold PCMixture.hasQuadrupole
    rw [abs_sum_ne_zero, abs_sum_ne_zero]
    constructor
    · rintro ⟨k, hk⟩; exact ⟨f k, by rwa [h.Qstar2, h.nQ] at hk⟩
    · rintro ⟨i, hi⟩
      obtain ⟨k, rfl⟩ := hf i
      exact ⟨k, by rwa [h.Qstar2, h.nQ]⟩
  have hy : (fun i : Fin m.coeffs.length => (List.ofFn (gathered f fun k => x.getD k 0)).getD i 0) = gathered f fun k => x.getD k 0 := by
    funext i
    simp [List.getD_eq_getElem?_getD]
  unfold PCMixture.alpharPolar PCMixture.alphar
  have h1 : ¬ x.length ≠ m'.coeffs.length := by simpa using hx
  have h2 : ¬ (List.ofFn (gathered f fun k => x.getD k 0)).length ≠ m.coeffs.length := by simp
  rw [if_neg h1, if_neg h2]
  dsimp only
  rw [hy]
  simp only [hp.regular hf, pc_gathered hp, hd, hq, (polar_gathered hg _ _ _ _).1, (polar_gathered hg _ _ _ _).2.1]

/-- Two Lee-Kesler-Ploecker models list the same substances. -/
structure SameLKP (q' q : LKPMix) (f : Fin q'.N → Fin q.N) : Prop where
  Tc : ∀ k : Fin q'.N, q'.Tcrit.getD k 0 = q.Tcrit.getD (f k) 0
  pc : ∀ k : Fin q'.N, q'.pcrit.getD k 0 = q.pcrit.getD (f k) 0
  om : ∀ k : Fin q'.N, q'.acentric.getD k 0 = q.acentric.getD (f k) 0
  R : q'.R = q.R
  k : ∀ k l : Fin q'.N, (q'.kmat.getD k []).getD l 0 = (q.kmat.getD (f k) []).getD (f l) 0

theorem getD_gathered {n n' : ℕ} (f : Fin n' → Fin n) (x : List ℝ) (i : Fin n) : (List.ofFn (gathered f fun k => x.getD k 0)).getD i 0 = gathered f (fun k => x.getD k 0) i := by
  simp [List.getD_eq_getElem?_getD]

/-- **C183, Lee-Kesler-Ploecker.** -/
theorem lkp_rewrite (m' m : LKPMix) (f : Fin m'.N → Fin m.N) (h : SameLKP m' m f) (hf : Function.Surjective f) (T rho : ℝ) (x : List ℝ) (hx : x.length = m'.N) :
    m'.alphar T rho x = m.alphar T rho (List.ofFn (gathered f fun k => x.getD k 0)) := by
  have hvc (k : Fin m'.N) : m'.vc k = m.vc (f k) := by unfold LKPMix.vc; rw [h.Tc, h.pc, h.om, h.R]
  have hv (k l : Fin m'.N) : m'.vcij k l = m.vcij (f k) (f l) := by unfold LKPMix.vcij; rw [hvc, hvc]
  have ht (k l : Fin m'.N) : m'.Tcij k l = m.Tcij (f k) (f l) := by unfold LKPMix.Tcij; rw [h.k, h.Tc, h.Tc]
  have e1 : m'.omegaMix x = m.omegaMix (List.ofFn (gathered f fun k => x.getD k 0)) := by
    unfold LKPMix.omegaMix
    rw [Finset.sum_range, Finset.sum_range]
    simp only [getD_gathered, h.om]
    exact gathered_sum f (fun k => x.getD k 0) fun i => m.acentric.getD i 0
  have e2 : m'.vcMix x = m.vcMix (List.ofFn (gathered f fun k => x.getD k 0)) := by
    unfold LKPMix.vcMix
    simp only [Finset.sum_range, getD_gathered, hv]
    exact gathered_sum2 f (fun k => x.getD k 0) fun i j => m.vcij i j
  have e3 : m'.tcSum x = m.tcSum (List.ofFn (gathered f fun k => x.getD k 0)) := by
    unfold LKPMix.tcSum
    simp only [Finset.sum_range, getD_gathered, hv, ht]
    exact gathered_eq2 f (fun k => x.getD k 0) (fun i j => m.vcij i j ^ (0.25 : ℝ) * m.Tcij i j) (fun k l => by ring) fun i j => by ring
  have reg : m'.Regular T x ↔ m.Regular T (List.ofFn (gathered f fun k => x.getD k 0)) := by
    constructor
    · intro r
      refine ⟨r.hT, fun i hi => ?_, fun i hi j hj => ?_, fun i hi j hj => ?_, e2 ▸ r.hvm, e1 ▸ r.hZ⟩
      · obtain ⟨k, hk⟩ := hf ⟨i, hi⟩
        have := r.hp k k.2
        rwa [h.pc, hk] at this
      · obtain ⟨k, hk⟩ := hf ⟨i, hi⟩
        obtain ⟨l, hl⟩ := hf ⟨j, hj⟩
        have := r.hTT k k.2 l l.2
        rwa [h.Tc, h.Tc, hk, hl] at this
      · obtain ⟨k, hk⟩ := hf ⟨i, hi⟩
        obtain ⟨l, hl⟩ := hf ⟨j, hj⟩
        have := r.hv k k.2 l l.2
        rwa [hv, hk, hl] at this
    · intro r
      refine ⟨r.hT, fun i hi => ?_, fun i hi j hj => ?_, fun i hi j hj => ?_, e2 ▸ r.hvm, e1 ▸ r.hZ⟩
      · have := h.pc ⟨i, hi⟩
        dsimp only at this
        rw [this]; exact r.hp _ (f _).2
      · have h1 := h.Tc ⟨i, hi⟩
        have h2 := h.Tc ⟨j, hj⟩
        dsimp only at h1 h2
        rw [h1, h2]; exact r.hTT _ (f _).2 _ (f _).2
      · have h1 := hv ⟨i, hi⟩ ⟨j, hj⟩
        dsimp only at h1
        rw [h1]; exact r.hv _ (f _).2 _ (f _).2
  have h1 : ¬ x.length ≠ m'.N := by simpa using hx
  have h2 : ¬ (List.ofFn (gathered f fun k => x.getD k 0)).length ≠ m.N := by simp
  unfold LKPMix.alphar
  rw [if_neg h1, if_neg h2]
  by_cases hr : m'.Regular T x
  · rw [if_neg (not_not.2 hr), if_neg (not_not.2 (reg.1 hr))]
    simp only [LKPMix.TcMix, e1, e2, e3]
  · rw [if_pos hr, if_pos (mt reg.2 hr)]

/-- Two soft-SAFT models list the same substances. -/
structure SameSoft {n' n : ℕ} (q' q : SoftSAFT) (f : Fin n' → Fin n) : Prop where
  m : ∀ k : Fin n', q'.m.getD k 0 = q.m.getD (f k) 0
  eps : ∀ k : Fin n', q'.eps.getD k 0 = q.eps.getD (f k) 0
  sigma : ∀ k : Fin n', q'.sigma.getD k 0 = q.sigma.getD (f k) 0

/-- **C183, soft-SAFT.**  The number of mole fractions is not compared with the number of components, so it is free here. -/
theorem soft_rewrite (NA : ℝ) (q' q : SoftSAFT) (x : List ℝ) {n : ℕ} (f : Fin x.length → Fin n) (h : SameSoft q' q f) (hf : Function.Surjective f)
    (h' : x.length ≤ q'.m.length ∧ x.length ≤ q'.eps.length ∧ x.length ≤ q'.sigma.length) (hn : n ≤ q.m.length ∧ n ≤ q.eps.length ∧ n ≤ q.sigma.length) (T rho : ℝ) :
    q'.alphar NA T rho x = q.alphar NA T rho (List.ofFn (gathered f fun k => x.getD k 0)) := by
  have hln : (List.ofFn (gathered f fun k => x.getD k 0)).length = n := by simp
  have e0 : q'.mMix x = q.mMix (List.ofFn (gathered f fun k => x.getD k 0)) := by
    unfold SoftSAFT.mMix
    rw [hln]
    simp only [Finset.sum_range, getD_gathered, h.m]
    rw [Finset.sum_congr rfl fun k _ => mul_comm (q.m.getD (f k) 0) _, gathered_sum f (fun k => x.getD k 0) fun i => q.m.getD i 0]
    exact Finset.sum_congr rfl fun i _ => mul_comm _ _
  have hden (k l : Fin x.length) : q'.den x k l = x.getD k 0 * x.getD l 0 * (q.m.getD (f k) 0 * q.m.getD (f l) 0) := by
    unfold SoftSAFT.den; rw [h.m, h.m]; ring
  have hden' (i j : Fin n) : q.den (List.ofFn (gathered f fun k => x.getD k 0)) i j = gathered f (fun k => x.getD k 0) i * gathered f (fun k => x.getD k 0) j * (q.m.getD i 0 * q.m.getD j 0) := by
    unfold SoftSAFT.den; rw [getD_gathered, getD_gathered]; ring
  have hs (k l : Fin x.length) : q'.sigma3 k l = q.sigma3 (f k) (f l) := by unfold SoftSAFT.sigma3; rw [h.sigma, h.sigma]
  have he (k l : Fin x.length) : q'.epsij k l = q.epsij (f k) (f l) := by unfold SoftSAFT.epsij; rw [h.eps, h.eps]
  have e1 : q'.denSum x = q.denSum (List.ofFn (gathered f fun k => x.getD k 0)) := by
    unfold SoftSAFT.denSum
    rw [hln]
    simp only [Finset.sum_range]
    exact gathered_eq2 f (fun k => x.getD k 0) (fun i j => q.m.getD i 0 * q.m.getD j 0) hden hden'
  have e2 : q'.num1 x = q.num1 (List.ofFn (gathered f fun k => x.getD k 0)) := by
    unfold SoftSAFT.num1
    rw [hln]
    simp only [Finset.sum_range]
    refine gathered_eq2 f (fun k => x.getD k 0) (fun i j => q.m.getD i 0 * q.m.getD j 0 * q.sigma3 i j) (fun k l => ?_) fun i j => ?_
    · rw [hden, hs]; ring
    · rw [hden']; ring
  have e3 : q'.num2 x = q.num2 (List.ofFn (gathered f fun k => x.getD k 0)) := by
    unfold SoftSAFT.num2
    rw [hln]
    simp only [Finset.sum_range]
    refine gathered_eq2 f (fun k => x.getD k 0) (fun i j => q.m.getD i 0 * q.m.getD j 0 * q.sigma3 i j * q.epsij i j) (fun k l => ?_) fun i j => ?_
    · rw [hden, hs, he]; ring
    · rw [hden']; ring
  have reg : (∃ i < x.length, ∃ j < x.length, q'.eps.getD i 0 * q'.eps.getD j 0 < 0) ↔
      ∃ i < n, ∃ j < n, q.eps.getD i 0 * q.eps.getD j 0 < 0 := by
    constructor
    · rintro ⟨i, hi, j, hj, hlt⟩
      have h1 := h.eps ⟨i, hi⟩
      have h2 := h.eps ⟨j, hj⟩
      dsimp only at h1 h2
      rw [h1, h2] at hlt
      exact ⟨_, (f _).2, _, (f _).2, hlt⟩
    · rintro ⟨i, hi, j, hj, hlt⟩
      obtain ⟨k, hk⟩ := hf ⟨i, hi⟩
      obtain ⟨l, hl⟩ := hf ⟨j, hj⟩
      refine ⟨k, k.2, l, l.2, ?_⟩
      rw [h.eps, h.eps, hk, hl]
      exact hlt
  unfold SoftSAFT.alphar
  have h1 : ¬ (q'.m.length < x.length ∨ q'.eps.length < x.length ∨ q'.sigma.length < x.length) := by push Not; exact h'
  have h2 : ¬ (q.m.length < n ∨ q.eps.length < n ∨ q.sigma.length < n) := by push Not; exact hn
  have e4 : q'.sig3 x = q.sig3 (List.ofFn (gathered f fun k => x.getD k 0)) := by unfold SoftSAFT.sig3; rw [e1, e2]
  have e5 : q'.epsMix x = q.epsMix (List.ofFn (gathered f fun k => x.getD k 0)) := by unfold SoftSAFT.epsMix; rw [e1, e3, e4]
  rw [hln, if_neg h1, if_neg h2, e0, e1, e4, e5]
  simp only [reg]

/-! ## Examples -/

/-- Methane and a dipolar substance. -/
noncomputable def sampleTwo : PCMixture :=
  ⟨[{ name := "Methane", m := 1, sigma := 3.7039, eps := 150.03 }, { name := "X", m := 2.7, sigma := 3.2, eps := 230, mustar2 := 1.2, nmu := 1 }], ⟨2, fun i j => if i = j then 0 else 0.05⟩, gsA, gsB⟩

/-- The same with methane as first and third entry. -/
noncomputable def sampleThree : PCMixture :=
  ⟨[{ name := "CH4", m := 1, sigma := 3.7039, eps := 150.03 }, { name := "X", m := 2.7, sigma := 3.2, eps := 230, mustar2 := 1.2, nmu := 1 },
    { name := "Methane", m := 1, sigma := 3.7039, eps := 150.03 }], ⟨3, fun i j => if i % 2 = j % 2 then 0 else 0.05⟩, gsA, gsB⟩

example (NA T rho : ℝ) : sampleThree.alpharPolar NA T rho [0.1, 0.6, 0.3] = sampleTwo.alpharPolar NA T rho [0.1 + 0.3, 0.6] := by
  have h : SameMixture sampleThree sampleTwo (![0, 1, 0] : Fin 3 → Fin 2) := by
    constructor
    all_goals first
      | rfl
      | (intro (k : Fin 3); fin_cases k <;> rfl)
      | (intro (k : Fin 3) (l : Fin 3); fin_cases k <;> fin_cases l <;> simp [sampleTwo, sampleThree])
  rw [pc_rewrite NA sampleThree sampleTwo (![0, 1, 0] : Fin 3 → Fin 2) h (fun (i : Fin 2) => by fin_cases i; exacts [⟨(0 : Fin 3), rfl⟩, ⟨(1 : Fin 3), rfl⟩]) T rho _ rfl]
  congr 1
  show List.ofFn (gathered (![0, 1, 0] : Fin 3 → Fin 2) _) = _
  have h0 : (univ.filter fun k : Fin 3 => (![0, 1, 0] : Fin 3 → Fin 2) k = 0) = {0, 2} := by decide
  have h1 : (univ.filter fun k : Fin 3 => (![0, 1, 0] : Fin 3 → Fin 2) k = 1) = {1} := by decide
  simp [List.ofFn_succ, gathered, h0, h1]

/-- A component of mole fraction zero may be left out of the chain and dispersion terms. -/
example (p : PCParams (Fin 3)) (T rho y z : ℝ) :
    pcEval ⟨fun i : Fin 2 => p.m i.succ, fun i => p.sigma i.succ, fun i => p.eps i.succ, fun i j => p.k i.succ j.succ, p.a, p.b⟩ T rho ![y, z] = pcEval p T rho ![0, y, z] := by
  rw [pc_gathered (f := Fin.succ) (p := p) ⟨fun _ => rfl, fun _ => rfl, fun _ => rfl, fun _ _ => rfl, rfl, rfl⟩]
  congr 1
  have h0 : (univ.filter fun k : Fin 2 => k.succ = (0 : Fin 3)) = ∅ := by decide
  have h1 : (univ.filter fun k : Fin 2 => k.succ = (1 : Fin 3)) = {0} := by decide
  have h2 : (univ.filter fun k : Fin 2 => k.succ = (2 : Fin 3)) = {1} := by decide
  funext i
  fin_cases i <;> simp [gathered, h0, h1, h2]

/-- Exchanging two substances of a Lee-Kesler-Ploecker model. -/
example (T rho a b : ℝ) : (⟨[190.5, 305.3], [4.6e6, 4.87e6], [0.011, 0.099], 8.314, [[1, 1.05], [1.02, 1]]⟩ : LKPMix).alphar T rho [a, b] =
    (⟨[305.3, 190.5], [4.87e6, 4.6e6], [0.099, 0.011], 8.314, [[1, 1.02], [1.05, 1]]⟩ : LKPMix).alphar T rho [b, a] := by
  have h : SameLKP ⟨[190.5, 305.3], [4.6e6, 4.87e6], [0.011, 0.099], 8.314, [[1, 1.05], [1.02, 1]]⟩ ⟨[305.3, 190.5], [4.87e6, 4.6e6], [0.099, 0.011], 8.314, [[1, 1.02], [1.05, 1]]⟩
      (![1, 0] : Fin 2 → Fin 2) := by
    constructor
    all_goals first
      | rfl
      | (intro (k : Fin 2); fin_cases k <;> rfl)
      | (intro (k : Fin 2) (l : Fin 2); fin_cases k <;> fin_cases l <;> rfl)
  rw [lkp_rewrite _ _ _ h (fun (i : Fin 2) => by fin_cases i; exacts [⟨(1 : Fin 2), rfl⟩, ⟨(0 : Fin 2), rfl⟩]) T rho [a, b] rfl]
  congr 1
  show List.ofFn (gathered (![1, 0] : Fin 2 → Fin 2) _) = _
  have h0 : (univ.filter fun k : Fin 2 => (![1, 0] : Fin 2 → Fin 2) k = 0) = {1} := by decide
  have h1 : (univ.filter fun k : Fin 2 => (![1, 0] : Fin 2 → Fin 2) k = 1) = {0} := by decide
  simp [List.ofFn_succ, gathered, h0, h1]

/-- A substance listed twice in a soft-SAFT model. -/
example (NA T rho a b : ℝ) : (⟨[2, 2], [300, 300], [4e-10, 4e-10]⟩ : SoftSAFT).alphar NA T rho [a, b] = (⟨[2], [300], [4e-10]⟩ : SoftSAFT).alphar NA T rho [a + b] := by
  have h : SameSoft (n' := 2) (n := 1) ⟨[2, 2], [300, 300], [4e-10, 4e-10]⟩ ⟨[2], [300], [4e-10]⟩ (![0, 0] : Fin 2 → Fin 1) := by
    constructor
    all_goals intro k; fin_cases k <;> rfl
  rw [soft_rewrite NA _ _ [a, b] (n := 1) (![0, 0] : Fin 2 → Fin 1) h (fun i => ⟨(0 : Fin 2), by fin_cases i; rfl⟩) (by simp) (by simp) T rho]
  congr 1
  show List.ofFn (gathered (![0, 0] : Fin 2 → Fin 1) _) = _
  have h0 : (univ.filter fun k : Fin 2 => (![0, 0] : Fin 2 → Fin 1) k = 0) = {0, 1} := by decide
  simp [List.ofFn_succ, gathered, h0]

end Teqp.Props
