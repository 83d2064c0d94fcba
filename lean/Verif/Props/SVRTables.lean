import Verif.Model.SAFTVRMie
import Verif.Spec.Lafitte
import Verif.Props.SVRDerivs
import Mathlib.Analysis.SpecialFunctions.Log.Deriv
import Mathlib.Analysis.SpecialFunctions.ExpDeriv
import Mathlib.Tactic

/-! # C133: the constants of SAFT-VR-Mie and its hard-sphere radial distribution function -/

set_option autoImplicit false

namespace Teqp.Props
open Teqp.Model Teqp.Spec

/-- C133. The functions `f_k` are the published ones, for every `k` and `α`. -/
theorem svr_f_published (k : Fin 7) (α : ℝ) : svrF ((k : ℕ) + 1) α = lafitteF k α := by
  unfold svrF lafitteF
  rw [Fin.sum_univ_four, Fin.sum_univ_three]
  fin_cases k <;> simp [svrPhiAt, svrPhi, lafittePhi, Fin.castLE, Fin.natAdd]

/-- C133. The effective packing fraction is the published one, for every exponent and packing fraction. -/
theorem svr_zeff_published (lam z : ℝ) : svrZeff lam z = lafitteZeff lam z := by
  unfold svrZeff lafitteZeff
  simp only [Fin.sum_univ_four, svrCn, svrA, lafitteA]
  simp

/-- C133. At low density the radial distribution function is the exact one of hard spheres to first order: its derivative
with respect to the packing fraction is the overlap volume, at every distance. -/
theorem svr_rdf_low_density (x0 : ℝ) : svrGHS 0 x0 = 1 ∧ HasDerivAt (fun z => svrGHS z x0) (hardSphereOverlap x0) 0 := by
  have hd : ∀ n : ℕ, HasDerivAt (fun z : ℝ => (1 - z) ^ n) (-(n : ℝ)) 0 := by
    intro n
    have := ((hasDerivAt_const (0 : ℝ) (1 : ℝ)).sub (hasDerivAt_id (0 : ℝ))).pow n
    refine this.congr_deriv ?_
    simp
  have hp : ∀ n : ℕ, HasDerivAt (fun z : ℝ => z ^ (n + 1)) (if n = 0 then 1 else 0) 0 := by
    intro n
    refine (hasDerivAt_pow (n + 1) (0 : ℝ)).congr_deriv ?_
    rcases n with _ | n <;> simp
  have hid : HasDerivAt (fun z : ℝ => z) 1 0 := hasDerivAt_id 0
  have hp2 : HasDerivAt (fun z : ℝ => z ^ 2) 0 0 := by simpa using hp 1
  have hp3 : HasDerivAt (fun z : ℝ => z ^ 3) 0 0 := by simpa using hp 2
  have hp4 : HasDerivAt (fun z : ℝ => z ^ 4) 0 0 := by simpa using hp 3
  have hlog : HasDerivAt (fun z : ℝ => -Real.log (1 - z)) 1 0 := by
    have h1 : HasDerivAt (fun z : ℝ => 1 - z) (-1) 0 := by simpa using hd 1
    have := (h1.log (by norm_num)).neg
    refine this.congr_deriv ?_
    norm_num
  have k0 : HasDerivAt svrk0 8 0 := by
    have hn : HasDerivAt (fun z : ℝ => 42 * z - 39 * z ^ 2 + 9 * z ^ 3 - 2 * z ^ 4) 42 0 := by
      have := (((hid.const_mul 42).sub (hp2.const_mul 39)).add (hp3.const_mul 9)).sub (hp4.const_mul 2)
      refine this.congr_deriv ?_
      norm_num
    have := hlog.add (hn.div ((hd 3).const_mul 6) (by norm_num))
    refine this.congr_deriv ?_
    norm_num
  have k1 : HasDerivAt svrk1 (-6) 0 := by
    have hn : HasDerivAt (fun z : ℝ => z ^ 4 + 6 * z ^ 2 - 12 * z) (-12) 0 := by
      have := (hp4.add (hp2.const_mul 6)).sub (hid.const_mul 12)
      refine this.congr_deriv ?_
      norm_num
    have := hn.div ((hd 3).const_mul 2) (by norm_num)
    refine this.congr_deriv ?_
    norm_num
  have k2 : HasDerivAt svrk2 0 0 := by
    have := (hp2.const_mul (-3)).div ((hd 2).const_mul 8) (by norm_num)
    refine this.congr_deriv ?_
    norm_num
  have k3 : HasDerivAt svrk3 (1 / 2) 0 := by
    have hn : HasDerivAt (fun z : ℝ => -z ^ 4 + 3 * z ^ 2 + 3 * z) 3 0 := by
      have := (hp4.neg.add (hp2.const_mul 3)).add (hid.const_mul 3)
      refine this.congr_deriv ?_
      norm_num
    have := hn.div ((hd 3).const_mul 6) (by norm_num)
    refine this.congr_deriv ?_
    norm_num
  have z0 : svrk0 0 = 0 := by simp [svrk0]
  have z1 : svrk1 0 = 0 := by simp [svrk1]
  have z2 : svrk2 0 = 0 := by simp [svrk2]
  have z3 : svrk3 0 = 0 := by simp [svrk3]
  refine ⟨by simp [svrGHS, z0, z1, z2, z3], ?_⟩
  have := (((k0.add (k1.mul_const x0)).add (k2.mul_const (x0 ^ 2))).add (k3.mul_const (x0 ^ 3))).exp
  refine this.congr_deriv ?_
  simp only [Pi.add_apply, z0, z1, z2, z3, zero_mul, add_zero, Real.exp_zero, one_mul, hardSphereOverlap]
  ring

/-- C133. At contact, for every packing fraction below one: the polynomials of the four coefficients combine to the
contact value and contact slope of Boublik's function. -/
theorem svr_rdf_contact {z : ℝ} (h1 : z < 1) :
    svrGHS z 1 = Real.exp (3 * z / (2 * (1 - z)) - 3 * z ^ 2 / (8 * (1 - z) ^ 2)) / (1 - z) ∧
    HasDerivAt (fun x => Real.log (svrGHS z x)) (-(18 * z + 3 * z ^ 2) / (4 * (1 - z) ^ 2)) 1 := by
  have hz : 1 - z ≠ 0 := by linarith
  constructor
  · have e : svrk0 z + svrk1 z * 1 + svrk2 z * 1 ^ 2 + svrk3 z * 1 ^ 3
        = (3 * z / (2 * (1 - z)) - 3 * z ^ 2 / (8 * (1 - z) ^ 2)) - Real.log (1 - z) := by
      simp only [svrk0, svrk1, svrk2, svrk3]
      field_simp
      ring
    rw [svrGHS, e, Real.exp_sub, Real.exp_log (by linarith)]
  · have he : (fun x => Real.log (svrGHS z x)) = fun x => svrk0 z + svrk1 z * x + svrk2 z * x ^ 2 + svrk3 z * x ^ 3 := by
      funext x
      rw [svrGHS, Real.log_exp]
    rw [he]
    have h0 : HasDerivAt (fun x : ℝ => svrk1 z * x) (svrk1 z) 1 := by simpa using (hasDerivAt_id (1 : ℝ)).const_mul (svrk1 z)
    have h2 := (hasDerivAt_pow 2 (1 : ℝ)).const_mul (svrk2 z)
    have h3 := (hasDerivAt_pow 3 (1 : ℝ)).const_mul (svrk3 z)
    refine (((h0.const_add (svrk0 z)).add h2).add h3).congr_deriv ?_
    simp only [svrk1, svrk2, svrk3]
    norm_num
    field_simp
    ring

example : svrGHS (1 / 5) 1 = Real.exp (3 * (1 / 5) / (2 * (1 - 1 / 5)) - 3 * (1 / 5) ^ 2 / (8 * (1 - 1 / 5) ^ 2)) / (1 - 1 / 5) :=
  (svr_rdf_contact (by norm_num)).1

/-- The third published function at `α = 1`: the sum of its numerator over the sum of its denominator. -/
example : svrF 3 1 = (1550.9 - 5070.1 + 6534.6 - 3288.7) / (1 - 2.7171 + 2.0883) := by
  have := svr_f_published 2 1
  simp only [Fin.val_two, Nat.reduceAdd] at this
  rw [this, lafitteF, Fin.sum_univ_four, Fin.sum_univ_three]
  simp [lafittePhi, Fin.castLE, Fin.natAdd]
  norm_num

/-! ## Third-order term and contact value -/

/-- C133. The third-order term with the published functions. -/
theorem svr_a3_published (p : SVRPair) (zbar : ℝ) :
    p.a3 zbar = -p.eps ^ 3 * lafitteF 3 p.alpha * zbar * Real.exp (lafitteF 4 p.alpha * zbar + lafitteF 5 p.alpha * zbar ^ 2) := by
  unfold SVRPair.a3
  rw [← svr_f_published 3, ← svr_f_published 4, ← svr_f_published 5]
  rfl

/-- The third-order term of a Lennard-Jones fluid is negative: its low-density limit is a multiple of the integral of the cube
of the (negative) potential. -/
theorem svr_a3_negative (e s zbar : ℝ) (he : 0 < e) (hz : 0 < zbar) : SVRPair.a3 ⟨12, 6, e, s⟩ zbar < 0 := by
  have hC : SVRPair.C ⟨12, 6, e, s⟩ = 4 := by
    unfold SVRPair.C
    norm_num
  have ha : SVRPair.alpha ⟨12, 6, e, s⟩ = 8 / 9 := by
    unfold SVRPair.alpha
    rw [hC]
    norm_num
  have hf : 0 < svrF 4 (8 / 9) := by
    unfold svrF svrPhiAt svrPhi
    norm_num
  unfold SVRPair.a3
  rw [ha]
  have := Real.exp_pos (svrF 5 (8 / 9) * zbar + svrF 6 (8 / 9) * zbar ^ 2)
  have : 0 < e ^ 3 * svrF 4 (8 / 9) * zbar * Real.exp (svrF 5 (8 / 9) * zbar + svrF 6 (8 / 9) * zbar ^ 2) := by positivity
  simp only
  linarith

example : SVRPair.a3 ⟨12, 6, 100, 3e-10⟩ 0.2 < 0 := svr_a3_negative _ _ _ (by norm_num) (by norm_num)

/-- C133. The correction of the second-order term (published constants), and its behaviour: not negative, smaller at higher
temperature, larger for a larger van der Waals-like constant `α`. -/
theorem svr_gammaC_published (p : SVRPair) (T zbar : ℝ) :
    p.gammaC T zbar = lafittePhi 6 0 * (1 - Real.tanh (lafittePhi 6 1 * (lafittePhi 6 2 - p.alpha))) * zbar * (Real.exp (p.eps / T) - 1)
      * Real.exp (lafittePhi 6 3 * zbar + lafittePhi 6 4 * zbar ^ 2) := by
  unfold SVRPair.gammaC svrPhiAt svrPhi
  simp [lafittePhi]
  left; left
  ring

theorem tanh_mono {a b : ℝ} (h : a ≤ b) : Real.tanh a ≤ Real.tanh b := by
  rw [Real.tanh_eq_sinh_div_cosh, Real.tanh_eq_sinh_div_cosh, div_le_div_iff₀ (Real.cosh_pos a) (Real.cosh_pos b)]
  have := Real.sinh_nonneg_iff.2 (sub_nonneg.2 h)
  rw [Real.sinh_sub] at this
  linarith

theorem svr_gammaC_mono (p q : SVRPair) (T T' zbar : ℝ) (hT : 0 < T) (hTT : T' ≤ T) (hT' : 0 < T') (he : 0 ≤ p.eps) (heq : q.eps = p.eps)
    (ha : p.alpha ≤ q.alpha) (hz : 0 ≤ zbar) : 0 ≤ p.gammaC T zbar ∧ p.gammaC T zbar ≤ q.gammaC T' zbar := by
  have t1 : ∀ x, Real.tanh x < 1 := fun x => Real.tanh_lt_one x
  have tm : Real.tanh (10 * (0.57 - q.alpha)) ≤ Real.tanh (10 * (0.57 - p.alpha)) := tanh_mono (by linarith)
  have e1 : (1 : ℝ) ≤ Real.exp (p.eps / T) := Real.one_le_exp (by positivity)
  have e2 : Real.exp (p.eps / T) ≤ Real.exp (p.eps / T') := Real.exp_le_exp.2 (div_le_div_of_nonneg_left he hT' hTT)
  have form : ∀ r : SVRPair, ∀ t, r.gammaC t zbar = 10 * (1 - Real.tanh (10 * (0.57 - r.alpha))) * zbar * (Real.exp (r.eps / t) - 1) * Real.exp (-6.7 * zbar + -8 * zbar ^ 2) := by
    intro r t
    rw [svr_gammaC_published]
    simp [lafittePhi]
  rw [form, form, heq]
  have hp := (t1 (10 * (0.57 - p.alpha))).le
  have hx := (Real.exp_pos (-6.7 * zbar + -8 * zbar ^ 2)).le
  constructor
  · have a1 : 0 ≤ 1 - Real.tanh (10 * (0.57 - p.alpha)) := by linarith
    have a2 : 0 ≤ Real.exp (p.eps / T) - 1 := by linarith
    positivity
  · have a1 : 0 ≤ 1 - Real.tanh (10 * (0.57 - p.alpha)) := by linarith
    have a2 : 0 ≤ Real.exp (p.eps / T) - 1 := by linarith
    have a3 : 0 ≤ 1 - Real.tanh (10 * (0.57 - q.alpha)) := by linarith
    gcongr

example : 0 ≤ SVRPair.gammaC ⟨12, 6, 100, 3e-10⟩ 300 0.2 ∧
    SVRPair.gammaC ⟨12, 6, 100, 3e-10⟩ 300 0.2 ≤ SVRPair.gammaC ⟨12, 6, 100, 3e-10⟩ 200 0.2 :=
  svr_gammaC_mono ⟨12, 6, 100, 3e-10⟩ ⟨12, 6, 100, 3e-10⟩ 300 200 0.2 (by norm_num) (by norm_num) (by norm_num) (by norm_num) rfl le_rfl (by norm_num)

/-- C133. **The contact value is the exponentiated second-order expansion in inverse temperature** (at a fixed diameter): its
value at infinite temperature is that of hard spheres, the first derivative with respect to `1/T` is `eps g1`, the second
`2 eps² g2 + (eps g1)² / gHS` with `g2` of the macroscopic compressibility approximation. -/
theorem svr_g_expansion (p : SVRPair) (d z zbar : ℝ) :
    (fun b => p.g (1 / b) d z zbar) 0 = svrGHS z (p.sigma / d) ∧
    deriv (fun b => p.g (1 / b) d z zbar) 0 = p.eps * p.g1 d z ∧
    deriv (deriv fun b => p.g (1 / b) d z zbar) 0 = 2 * (p.eps ^ 2 * p.g2MCA d z) + (p.eps * p.g1 d z) ^ 2 / svrGHS z (p.sigma / d) := by
  set G := svrGHS z (p.sigma / d) with hG
  have hG0 : G ≠ 0 := by rw [hG]; unfold svrGHS; exact (Real.exp_pos _).ne'
  set k := svrPhiAt 0 6 * (-Real.tanh (svrPhiAt 1 6 * (svrPhiAt 2 6 - p.alpha)) + 1) * zbar * Real.exp (svrPhiAt 3 6 * zbar + svrPhiAt 4 6 * zbar ^ 2) with hk
  set g1 := p.g1 d z
  set g2 := p.g2MCA d z
  have hg : ∀ b, p.g (1 / b) d z zbar = G * Real.exp ((p.eps * b * g1 + (p.eps * b) ^ 2 * ((1 + k * (Real.exp (p.eps * b) - 1)) * g2)) / G) := by
    intro b
    unfold SVRPair.g SVRPair.gammaC
    rw [show p.eps / (1 / b) = p.eps * b by rw [div_div_eq_mul_div, div_one], ← hG, hk]
    congr 3
    ring
  rw [funext hg]
  have hu : ∀ b, HasDerivAt (fun b : ℝ => (p.eps * b * g1 + (p.eps * b) ^ 2 * ((1 + k * (Real.exp (p.eps * b) - 1)) * g2)) / G)
      ((p.eps * g1 + (2 * (p.eps * b) * p.eps * ((1 + k * (Real.exp (p.eps * b) - 1)) * g2) + (p.eps * b) ^ 2 * (k * (Real.exp (p.eps * b) * p.eps) * g2))) / G) b := by
    intro b
    have h1 : HasDerivAt (fun b : ℝ => p.eps * b) p.eps b := by simpa using (hasDerivAt_id b).const_mul p.eps
    have h2 := ((((h1.exp.sub_const 1).const_mul k).const_add 1).mul_const g2)
    refine (((h1.mul_const g1).add ((h1.pow 2).mul h2)).div_const G).congr_deriv ?_
    simp
  have hd : ∀ b, HasDerivAt (fun b : ℝ => G * Real.exp ((p.eps * b * g1 + (p.eps * b) ^ 2 * ((1 + k * (Real.exp (p.eps * b) - 1)) * g2)) / G))
      (Real.exp ((p.eps * b * g1 + (p.eps * b) ^ 2 * ((1 + k * (Real.exp (p.eps * b) - 1)) * g2)) / G)
        * (p.eps * g1 + (2 * (p.eps * b) * p.eps * ((1 + k * (Real.exp (p.eps * b) - 1)) * g2) + (p.eps * b) ^ 2 * (k * (Real.exp (p.eps * b) * p.eps) * g2)))) b := by
    intro b
    refine ((hu b).exp.const_mul G).congr_deriv ?_
    field_simp
  refine ⟨by simp, ?_, ?_⟩
  · rw [(hd 0).deriv]; simp
  · rw [funext fun b => (hd b).deriv]
    have h1 : HasDerivAt (fun b : ℝ => p.eps * b) p.eps 0 := by simpa using (hasDerivAt_id (0 : ℝ)).const_mul p.eps
    have h2 := ((((h1.exp.sub_const 1).const_mul k).const_add 1).mul_const g2)
    have h3 := (((h1.const_mul 2).mul_const p.eps).mul h2).add ((h1.pow 2).mul (((h1.exp.mul_const p.eps).const_mul k).mul_const g2))
    have h4 := (hu 0).exp.mul (h3.const_add (p.eps * g1))
    refine h4.deriv.trans ?_
    simp
    field_simp
    ring

example : deriv (fun b => svrLJ.g (1 / b) 0.99 0.1 0.1) 0 = svrLJ.eps * svrLJ.g1 0.99 0.1 := (svr_g_expansion svrLJ 0.99 0.1 0.1).2.1

end Teqp.Props
