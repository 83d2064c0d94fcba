import Verif.Model.SAFTVRMie
import Mathlib.Analysis.Calculus.Deriv.Inv
import Mathlib.Analysis.Calculus.Deriv.Pow
import Mathlib.Tactic.FieldSimp
import Mathlib.Tactic.LinearCombination

/-! # C108: the derivatives written out by hand in SAFT-VR-Mie -/

set_option autoImplicit false

namespace Teqp.Spec
open Model

/-- The first-order term of the radial distribution function at contact of Lafitte et al. (Eq. A33): three times the density
derivative of `a_1`, minus the sum of the terms weighted with their exponents. -/
noncomputable def svrG1 (C eps d la lr : ℝ) (a1 Sa Sr : ℝ → ℝ) (rhos : ℝ) : ℝ :=
  1 / (2 * Real.pi * eps * d ^ 3) * (3 * deriv a1 rhos - eps * C * (la * Sa rhos - lr * Sr rhos) / rhos)

/-- The second-order term without correction (Eq. A34-A36); `b2` is `a_2 / (1 + chi)`. -/
noncomputable def svrG2 (C eps d la lr : ℝ) (K b2 Saa Sar Srr : ℝ → ℝ) (rhos : ℝ) : ℝ :=
  1 / (2 * Real.pi * eps ^ 2 * d ^ 3) *
    (3 * deriv b2 rhos - eps * K rhos * C ^ 2 * (la * Saa rhos - (la + lr) * Sar rhos + lr * Srr rhos) / rhos)

end Teqp.Spec

namespace Teqp.Props
open Model Spec

theorem svrBhat_deriv (I J z : ℝ) (hz : z ≠ 1) :
    HasDerivAt (fun z => svrBhat z ((1 - z) ^ 3) I J)
      ((-3 * I * (z - 2) - 27 * J * z * (z + 1) + (z - 1) * (I + 9 * J * z + 9 * J * (z + 1))) / (2 * (1 - z) ^ 4)) z := by
  have h1 : (1 - z) ≠ 0 := sub_ne_zero.2 hz.symm
  have hX : HasDerivAt (fun z : ℝ => (1 - z) ^ 3) (-3 * (1 - z) ^ 2) z := by
    refine (((hasDerivAt_id z).const_sub 1).fun_pow 3).congr_deriv ?_
    simp
  have hX2 : HasDerivAt (fun z : ℝ => 2 * (1 - z) ^ 3) (2 * (-3 * (1 - z) ^ 2)) z := hX.const_mul 2
  have hN : HasDerivAt (fun z : ℝ => 1 - z / 2) (-(1 / 2)) z := by
    refine (((hasDerivAt_id z).div_const 2).const_sub 1).congr_deriv ?_
    simp
  have hM : HasDerivAt (fun z : ℝ => 9 * z * (1 + z)) (9 * (1 + z) + 9 * z) z := by
    refine ((((hasDerivAt_id z).const_mul 9)).mul ((hasDerivAt_id z).const_add 1)).congr_deriv ?_
    simp
  refine (((hN.div hX (pow_ne_zero 3 h1)).mul_const I).sub ((hM.div hX2 (mul_ne_zero two_ne_zero (pow_ne_zero 3 h1))).mul_const J)).congr_deriv ?_
  field_simp
  ring

/-- `get_rhodBijdrho` is the derivative of `zeta * Bhat`. -/
theorem svrRhoDB_deriv (I J z : ℝ) (hz : z ≠ 1) :
    HasDerivAt (fun z => z * svrBhat z ((1 - z) ^ 3) I J) (svrRhoDB z I J (svrBhat z ((1 - z) ^ 3) I J)) z := by
  refine ((hasDerivAt_id z).mul (svrBhat_deriv I J z hz)).congr_deriv ?_
  unfold svrRhoDB
  simp only [id]
  ring

theorem svrZeff_deriv (lam z : ℝ) : HasDerivAt (svrZeff lam) (svrDZeff lam z) z := by
  unfold svrZeff
  have h := fun (k : ℕ) (c : ℝ) => (hasDerivAt_pow k z).const_mul c
  refine (((((hasDerivAt_id z).const_mul (svrCn 0 lam)).add (h 2 (svrCn 1 lam))).add (h 3 (svrCn 2 lam))).add (h 4 (svrCn 3 lam))).congr_deriv ?_
  unfold svrDZeff
  simp
  ring

/-- `get_rhoda1Shatijdrho` is the derivative of `zeta * a1S(zeta_eff(zeta))`. -/
theorem svrRhoDA1S_deriv (lam z : ℝ) (hl : lam ≠ 3) (hz : svrZeff lam z ≠ 1) :
    HasDerivAt (fun z => z * svrA1S (svrZeff lam z) lam) (svrRhoDA1S z (svrZeff lam z) (svrDZeff lam z) lam) z := by
  have h1 : (1 - svrZeff lam z) ≠ 0 := sub_ne_zero.2 hz.symm
  have h2 : (svrZeff lam z - 1) ≠ 0 := sub_ne_zero.2 hz
  have h3 : lam - 3 ≠ 0 := sub_ne_zero.2 hl
  have he := svrZeff_deriv lam z
  have hX : HasDerivAt (fun z : ℝ => (1 - svrZeff lam z) ^ 3) (-3 * (1 - svrZeff lam z) ^ 2 * svrDZeff lam z) z := by
    refine ((he.const_sub 1).fun_pow 3).congr_deriv ?_
    simp
  have hN : HasDerivAt (fun z : ℝ => -1 / (lam - 3) * (1 - svrZeff lam z / 2)) (-1 / (lam - 3) * (-(svrDZeff lam z / 2))) z :=
    ((he.div_const 2).const_sub 1).const_mul _
  have hA : HasDerivAt (fun z => svrA1S (svrZeff lam z) lam) (((2 * svrZeff lam z - 5) * svrDZeff lam z) / (2 * (lam - 3) * (svrZeff lam z - 1) ^ 4)) z := by
    refine (hN.div hX (pow_ne_zero 3 h1)).congr_deriv ?_
    rw [show (svrZeff lam z - 1) ^ 4 = (1 - svrZeff lam z) ^ 4 by ring]
    field_simp
    ring
  refine ((hasDerivAt_id z).mul hA).congr_deriv ?_
  unfold svrRhoDA1S
  simp only [id]
  ring

/-- `get_rhos_dK_HS_drhos` is `zeta` times the derivative of the isothermal compressibility. -/
theorem svrK_deriv (z : ℝ) (hz : 1 + 4 * z + 4 * z * z - 4 * z * z * z + z * z * z * z ≠ 0) :
    ∃ K', HasDerivAt svrK K' z ∧ svrRhoDK z = z * K' := by
  have hN : HasDerivAt (fun z : ℝ => (1 - z) ^ 4) (-4 * (1 - z) ^ 3) z := by
    refine (((hasDerivAt_id z).const_sub 1).fun_pow 4).congr_deriv ?_
    simp
  have hD : HasDerivAt (fun z : ℝ => 1 + 4 * z + 4 * z * z - 4 * z * z * z + z * z * z * z) (4 + 8 * z - 12 * z ^ 2 + 4 * z ^ 3) z := by
    have i := hasDerivAt_id z
    refine ((((((i.const_mul 4).const_add 1).add ((i.const_mul 4).mul i)).sub (((i.const_mul 4).mul i).mul i))).add
      (((i.mul i).mul i).mul i)).congr_deriv ?_
    simp
    ring
  refine ⟨_, hN.div hD hz, ?_⟩
  unfold svrRhoDK
  have h2 : z ^ 4 - 4 * z ^ 3 + 4 * z ^ 2 + 4 * z + 1 = 1 + 4 * z + 4 * z * z - 4 * z * z * z + z * z * z * z := by ring
  rw [h2]
  have : (-4 * (1 - z) ^ 3 * (1 + 4 * z + 4 * z * z - 4 * z * z * z + z * z * z * z) - (1 - z) ^ 4 * (4 + 8 * z - 12 * z ^ 2 + 4 * z ^ 3))
      = -4 * (z - 1) ^ 3 * (z ^ 2 - 5 * z - 2) := by ring
  rw [this]
  ring

/-- The derivative used for one exponent, in both terms of the chain contribution. -/
theorem svrRhoD_deriv (x0 lam z : ℝ) (hl : lam ≠ 3) (hz : z ≠ 1) (hze : svrZeff lam z ≠ 1) :
    HasDerivAt (fun z => z * svrOne x0 z lam (svrZeff lam z)) (svrRhoD x0 z lam (svrZeff lam z) (svrDZeff lam z)) z := by
  have h := ((svrRhoDB_deriv (svrI x0 lam) (svrJ x0 lam) z hz).add (svrRhoDA1S_deriv lam z hl hze)).const_mul (x0 ^ lam)
  refine (h.congr_of_eventuallyEq (Filter.Eventually.of_forall fun y => ?_)).congr_deriv ?_
  · simp only [svrOne, Pi.add_apply]
    ring
  · unfold svrRhoD
    ring

/-- The derivative with respect to the density of segments, at constant composition. -/
theorem svr_one_density (x0 lam kap r : ℝ) (hl : lam ≠ 3) (hz : kap * r ≠ 1) (hze : svrZeff lam (kap * r) ≠ 1) (hk : kap ≠ 0) :
    HasDerivAt (fun r => r * svrOne x0 (kap * r) lam (svrZeff lam (kap * r))) (svrRhoD x0 (kap * r) lam (svrZeff lam (kap * r)) (svrDZeff lam (kap * r))) r := by
  have h := svrRhoD_deriv x0 lam (kap * r) hl hz hze
  have hi : HasDerivAt (fun r : ℝ => kap * r) kap r := by
    simpa using (hasDerivAt_id r).const_mul kap
  have hc := (HasDerivAt.comp (h₂ := fun z => z * svrOne x0 z lam (svrZeff lam z)) r h hi).const_mul (1 / kap)
  refine (hc.congr_of_eventuallyEq (Filter.Eventually.of_forall fun y => ?_)).congr_deriv ?_
  · simp only [Function.comp]
    field_simp
  · field_simp

/-- C108. The first-order contact value of the chain term is the published combination with the exact density derivative of
the first-order dispersion term. -/
theorem svr_g1 (p : SVRPair) (d kap rhos : ℝ) (hf : p.Fine d (kap * rhos)) (hr : rhos ≠ 0) (hk : kap ≠ 0) (he : p.eps ≠ 0) (hd : d ≠ 0) :
    p.g1 d (kap * rhos) = svrG1 p.C p.eps d p.la p.lr (fun r => p.a1 d (kap * r) r)
      (fun r => 2 * Real.pi * r * d ^ 3 * p.one d (kap * r) p.la) (fun r => 2 * Real.pi * r * d ^ 3 * p.one d (kap * r) p.lr) rhos := by
  obtain ⟨_, _, _, _, hz, _, hl, _⟩ := hf
  have ha := hl p.la (by simp [SVRPair.exponents])
  have hrr := hl p.lr (by simp [SVRPair.exponents])
  have h1 := svr_one_density (p.sigma / d) p.la kap rhos ha.1 hz.ne ha.2.2 hk
  have h2 := svr_one_density (p.sigma / d) p.lr kap rhos hrr.1 hz.ne hrr.2.2 hk
  have hD : HasDerivAt (fun r => p.a1 d (kap * r) r) (2 * Real.pi * d ^ 3 * p.eps * p.C * (p.rhoD d (kap * rhos) p.la - p.rhoD d (kap * rhos) p.lr)) rhos := by
    refine ((h1.sub h2).const_mul (2 * Real.pi * d ^ 3 * p.eps * p.C)).congr_of_eventuallyEq (Filter.Eventually.of_forall fun r => ?_)
    simp only [SVRPair.a1, SVRPair.one, Pi.sub_apply]
    ring
  unfold svrG1
  rw [hD.deriv]
  unfold SVRPair.g1
  have hpi := Real.pi_ne_zero
  field_simp
  ring

/-- C108. The second-order contact value, with the exact density derivative of `a_2 / (1 + chi)`. -/
theorem svr_g2 (p : SVRPair) (d kap rhos : ℝ) (hf : p.Fine d (kap * rhos)) (hr : rhos ≠ 0) (hk : kap ≠ 0) (he : p.eps ≠ 0) (hd : d ≠ 0) :
    p.g2MCA d (kap * rhos) = svrG2 p.C p.eps d p.la p.lr (fun r => svrK (kap * r))
      (fun r => 0.5 * svrK (kap * r) * p.eps * p.C ^ 2 * (2 * Real.pi * r * d ^ 3 * p.eps) * p.S2 d (kap * r))
      (fun r => 2 * Real.pi * r * d ^ 3 * p.eps * p.one d (kap * r) (2 * p.la))
      (fun r => 2 * Real.pi * r * d ^ 3 * p.eps * p.one d (kap * r) (p.la + p.lr))
      (fun r => 2 * Real.pi * r * d ^ 3 * p.eps * p.one d (kap * r) (2 * p.lr)) rhos := by
  obtain ⟨_, _, _, _, hz, hK, hl, _⟩ := hf
  have h1 := hl (2 * p.la) (by simp [SVRPair.exponents])
  have h2 := hl (p.la + p.lr) (by simp [SVRPair.exponents])
  have h3 := hl (2 * p.lr) (by simp [SVRPair.exponents])
  have e1 := svr_one_density (p.sigma / d) (2 * p.la) kap rhos h1.1 hz.ne h1.2.2 hk
  have e2 := svr_one_density (p.sigma / d) (p.la + p.lr) kap rhos h2.1 hz.ne h2.2.2 hk
  have e3 := svr_one_density (p.sigma / d) (2 * p.lr) kap rhos h3.1 hz.ne h3.2.2 hk
  have hKd : 1 + 4 * (kap * rhos) + 4 * (kap * rhos) * (kap * rhos) - 4 * (kap * rhos) * (kap * rhos) * (kap * rhos)
      + (kap * rhos) * (kap * rhos) * (kap * rhos) * (kap * rhos) ≠ 0 := by
    intro h
    refine hK ?_
    unfold svrK
    rw [h, div_zero]
  obtain ⟨K', hK', hKe⟩ := svrK_deriv (kap * rhos) hKd
  have hi : HasDerivAt (fun r : ℝ => kap * r) kap rhos := by
    simpa using (hasDerivAt_id rhos).const_mul kap
  have hKr := HasDerivAt.comp (h₂ := svrK) rhos hK' hi
  have hS := (e1.sub (e2.const_mul 2)).add e3
  have hD := (hKr.mul hS).const_mul (Real.pi * d ^ 3 * p.eps ^ 2 * p.C ^ 2)
  have hD2 := hD.congr_of_eventuallyEq
    (f₁ := fun r => 0.5 * svrK (kap * r) * p.eps * p.C ^ 2 * (2 * Real.pi * r * d ^ 3 * p.eps) * p.S2 d (kap * r))
    (Filter.Eventually.of_forall fun r => by
      simp only [SVRPair.S2, SVRPair.one, Pi.sub_apply, Pi.add_apply, Pi.mul_apply, Function.comp]
      ring)
  unfold svrG2
  rw [hD2.deriv]
  unfold SVRPair.g2MCA SVRPair.S2 SVRPair.rhoD SVRPair.one
  simp only [Pi.sub_apply, Pi.add_apply, Pi.mul_apply, Function.comp]
  rw [hKe]
  have hpi := Real.pi_ne_zero
  field_simp
  ring

/-! A Lennard-Jones segment of unit diameter at a packing fraction of one tenth. -/

/-- The sample. -/
noncomputable def svrLJ : SVRPair := ⟨12, 6, 150, 1⟩

theorem svrLJ_C : svrLJ.C = 4 := by
  unfold SVRPair.C svrLJ
  norm_num

theorem svrLJ_alpha : svrLJ.alpha = 8 / 9 := by
  unfold SVRPair.alpha
  rw [svrLJ_C]
  unfold svrLJ
  norm_num

theorem svrLJ_fine : svrLJ.Fine 0.99 (0.1 * 1) := by
  refine ⟨by norm_num [svrLJ], by norm_num [svrLJ], by norm_num [svrLJ], by norm_num [svrLJ], by norm_num, by norm_num [svrK], ?_, ?_⟩
  · intro l hl
    simp only [SVRPair.exponents, svrLJ, List.mem_cons, List.not_mem_nil, or_false] at hl
    rcases hl with rfl | rfl | rfl | rfl | rfl <;> norm_num [svrZeff, svrCn, svrA]
  · intro k hk
    rw [svrLJ_alpha]
    simp only [List.mem_cons, List.not_mem_nil, or_false] at hk
    rcases hk with rfl | rfl | rfl | rfl | rfl | rfl <;> norm_num [svrPhiAt, svrPhi]

example : svrLJ.g1 0.99 (0.1 * 1) = svrG1 svrLJ.C 150 0.99 6 12 (fun r => svrLJ.a1 0.99 (0.1 * r) r)
      (fun r => 2 * Real.pi * r * 0.99 ^ 3 * svrLJ.one 0.99 (0.1 * r) 6) (fun r => 2 * Real.pi * r * 0.99 ^ 3 * svrLJ.one 0.99 (0.1 * r) 12) 1 :=
  svr_g1 svrLJ 0.99 0.1 1 svrLJ_fine one_ne_zero (by norm_num) (by norm_num [svrLJ]) (by norm_num)

end Teqp.Props
