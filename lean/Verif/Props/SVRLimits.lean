import Verif.Props.SVRDerivs
import Verif.Props.Mie
import Verif.Props.PCSAFT

/-! # C109: SAFT-VR-Mie at low density -/

set_option autoImplicit false

namespace Teqp.Spec

/-- The Mie potential in units of energy and of length. -/
noncomputable def miePot (lr la eps sigma r : ℝ) : ℝ :=
  lr / (lr - la) * (lr / la) ^ (la / (lr - la)) * eps * ((sigma / r) ^ lr - (sigma / r) ^ la)

/-- The excess Helmholtz energy per particle of the mixture of hard spheres of Boublik and Mansoori et al. -/
noncomputable def bmcsl (rhos S1 S2 S3 : ℝ) : ℝ :=
  -- moments of the distribution of diameters
  6 / (Real.pi * rhos) * (3 * (Real.pi / 6 * rhos * S1) * (Real.pi / 6 * rhos * S2) / (1 - Real.pi / 6 * rhos * S3)
    + (Real.pi / 6 * rhos * S2) ^ 3 / (Real.pi / 6 * rhos * S3 * (1 - Real.pi / 6 * rhos * S3) ^ 2)
    + ((Real.pi / 6 * rhos * S2) ^ 3 / (Real.pi / 6 * rhos * S3) ^ 2 - Real.pi / 6 * rhos) * Real.log (1 - Real.pi / 6 * rhos * S3))

end Teqp.Spec

namespace Teqp.Props
open Model Spec Finset

/-! ## The integrals -/

/-- C109. The closed forms of `I` and `J` are the integrals of Lafitte et al. over the shell between the diameter of the
hard core and the zero of the potential. -/
theorem svr_IJ (x0 lam : ℝ) (hx : 0 < x0) (h3 : lam ≠ 3) (h4 : lam ≠ 4) :
    svrI x0 lam = ∫ x in (1 : ℝ)..x0, x ^ (2 - lam) ∧ svrJ x0 lam = ∫ x in (1 : ℝ)..x0, (x ^ (3 - lam) - x ^ (2 - lam)) := by
  have h0 : (0 : ℝ) ∉ Set.uIcc 1 x0 := Set.notMem_uIcc_of_lt one_pos hx
  have e3 : lam - 3 ≠ 0 := sub_ne_zero.2 h3
  have e4 : lam - 4 ≠ 0 := sub_ne_zero.2 h4
  have i2 : ∫ x in (1 : ℝ)..x0, x ^ (2 - lam) = (x0 ^ (3 - lam) - 1) / (3 - lam) := by
    rw [integral_rpow (Or.inr ⟨by intro h; exact h3 (by linarith), h0⟩), show 2 - lam + 1 = 3 - lam by ring, Real.one_rpow]
  have i3 : ∫ x in (1 : ℝ)..x0, x ^ (3 - lam) = (x0 ^ (4 - lam) - 1) / (4 - lam) := by
    rw [integral_rpow (Or.inr ⟨by intro h; exact h4 (by linarith), h0⟩), show 3 - lam + 1 = 4 - lam by ring, Real.one_rpow]
  have d3 : (3 - lam) ≠ 0 := fun h => h3 (by linarith)
  have d4 : (4 - lam) ≠ 0 := fun h => h4 (by linarith)
  refine ⟨?_, ?_⟩
  · rw [i2]
    unfold svrI
    rw [div_eq_div_iff e3 d3]
    ring
  · rw [intervalIntegral.integral_sub (intervalIntegral.intervalIntegrable_rpow (Or.inr h0)) (intervalIntegral.intervalIntegrable_rpow (Or.inr h0)), i2, i3]
    unfold svrJ
    rw [div_sub_div _ _ d4 d3, div_eq_div_iff (mul_ne_zero e3 e4) (mul_ne_zero d4 d3)]
    ring

/-! ## Zero density -/

theorem svrZeff_zero (lam : ℝ) : svrZeff lam 0 = 0 := by
  unfold svrZeff
  ring

theorem svrOne_zero (x0 lam : ℝ) (hx : 0 < x0) (h3 : lam ≠ 3) : svrOne x0 0 lam (svrZeff lam 0) = -(x0 ^ 3) / (lam - 3) := by
  have e3 : lam - 3 ≠ 0 := sub_ne_zero.2 h3
  rw [svrZeff_zero]
  unfold svrOne svrBhat svrA1S svrI
  have h : x0 ^ (3 - lam) = x0 ^ 3 / x0 ^ lam := by
    rw [Real.rpow_sub hx]
    norm_cast
  rw [h]
  have hp : x0 ^ lam ≠ 0 := (Real.rpow_pos_of_pos hx _).ne'
  field_simp
  ring

theorem svrRhoD_zero (x0 lam : ℝ) (hx : 0 < x0) (h3 : lam ≠ 3) :
    svrRhoD x0 0 lam (svrZeff lam 0) (svrDZeff lam 0) = -(x0 ^ 3) / (lam - 3) := by
  rw [← svrOne_zero x0 lam hx h3]
  unfold svrRhoD svrOne svrRhoDA1S svrRhoDB
  ring

/-- C109. At zero density the first- and second-order corrections of the contact value vanish, and the contact value is one. -/
theorem svr_contact_zero (p : SVRPair) (T d : ℝ) (hf : p.Fine d 0) :
    p.g1 d 0 = 0 ∧ p.g2MCA d 0 = 0 ∧ p.g T d 0 0 = 1 := by
  obtain ⟨_, _, _, hx, _, _, hl, _⟩ := hf
  have L : ∀ l ∈ p.exponents, p.one d 0 l = -((p.sigma / d) ^ 3) / (l - 3) ∧ p.rhoD d 0 l = -((p.sigma / d) ^ 3) / (l - 3) ∧ l - 3 ≠ 0 :=
    fun l h => ⟨svrOne_zero _ l hx (hl l h).1, svrRhoD_zero _ l hx (hl l h).1, sub_ne_zero.2 (hl l h).1⟩
  obtain ⟨a1, a2, a3⟩ := L p.la (by simp [SVRPair.exponents])
  obtain ⟨b1, b2, b3⟩ := L p.lr (by simp [SVRPair.exponents])
  obtain ⟨c1, c2, c3⟩ := L (2 * p.la) (by simp [SVRPair.exponents])
  obtain ⟨d1, d2, d3⟩ := L (p.la + p.lr) (by simp [SVRPair.exponents])
  obtain ⟨e1, e2, e3⟩ := L (2 * p.lr) (by simp [SVRPair.exponents])
  have g1 : p.g1 d 0 = 0 := by
    unfold SVRPair.g1
    rw [a1, a2, b1, b2]
    generalize (p.sigma / d) ^ 3 = X
    field_simp
    ring
  have g2 : p.g2MCA d 0 = 0 := by
    unfold SVRPair.g2MCA SVRPair.S2
    rw [c1, c2, d1, d2, e1, e2, show svrRhoDK 0 = 0 by unfold svrRhoDK; ring]
    generalize (p.sigma / d) ^ 3 = X
    field_simp
    ring
  have gh : svrGHS 0 (p.sigma / d) = 1 := by
    unfold svrGHS svrk0 svrk1 svrk2 svrk3
    norm_num
  refine ⟨g1, g2, ?_⟩
  unfold SVRPair.g
  rw [g1, g2, gh]
  simp

/-- C109. The residual Helmholtz energy vanishes at zero density, at every temperature and composition. -/
theorem svr_zero_density {n : ℕ} (p : SVR n) (d : Fin n → ℝ) (T : ℝ) (x : Fin n → ℝ) (hf : p.Fine d T 0 x) :
    p.mono d T 0 x = 0 ∧ p.chain d T 0 x = 0 := by
  obtain ⟨_, _, _, _, _, hp⟩ := hf
  have z0 : p.zetaX d x 0 = 0 := by simp [SVR.zetaX]
  have zb : p.zetaBar x 0 = 0 := by simp [SVR.zetaBar]
  refine ⟨?_, ?_⟩
  · unfold SVR.mono
    simp only [z0, zb]
    have h0 : svrHS 0 (p.D d x) (fun l => p.D d x l * 0) = 0 := by
      unfold svrHS
      simp
    rw [h0]
    simp [SVR.pairSum, SVRPair.a1, SVRPair.a2, SVRPair.a3]
  · unfold SVR.chain
    rw [neg_eq_zero]
    refine Finset.sum_eq_zero fun i _ => ?_
    have hi := (hp i i).2.2.2.2
    rw [z0] at hi
    have : SVR.dIJ d i i = d i := by simp [SVR.dIJ]
    rw [this] at hi
    rw [z0, zb, (svr_contact_zero _ T _ hi).2.2, Real.log_one, mul_zero]

/-! ## The hard-sphere reference -/

/-- C109. The hard-sphere term, in both of its branches, is one function of density: the equation of Boublik and Mansoori et al.
where that is defined, and its smooth continuation at zero density. -/
theorem svr_hs {n : ℕ} (p : SVR n) (d x : Fin n → ℝ) (rhos : ℝ) (hm : p.mbar x ≠ 0) (h3 : p.D d x 3 ≠ 0) (h1 : p.D d x 3 * rhos < 1) :
    svrHS rhos (p.D d x) (fun l => p.D d x l * rhos) =
        hsZero (p.D d x 0) (p.D d x 1) (p.D d x 2) (p.D d x 3) (p.D d x 2 * rhos) (p.D d x 3 * rhos) ∧
      (rhos ≠ 0 → svrHS rhos (p.D d x) (fun l => p.D d x l * rhos) =
        bmcsl rhos (∑ i, p.m i * x i / p.mbar x * d i) (∑ i, p.m i * x i / p.mbar x * d i ^ 2) (∑ i, p.m i * x i / p.mbar x * d i ^ 3)) := by
  have hpi := Real.pi_ne_zero
  have hxs : ∑ i, p.xs x i = 1 := by
    unfold SVR.xs
    rw [← Finset.sum_div, div_eq_one_iff_eq hm]
    unfold SVR.mbar
    exact Finset.sum_congr rfl fun i _ => mul_comm _ _
  have hD0 : p.D d x 0 = Real.pi / 6 := by
    unfold SVR.D
    simp only [pow_zero, mul_one]
    rw [hxs, mul_one]
  have hu : 1 - p.D d x 3 * rhos ≠ 0 := by linarith
  refine ⟨?_, ?_⟩
  · by_cases h : rhos = 0
    · unfold svrHS hsZero
      rw [if_pos h]
    · rw [← hs_branches (p.D d x) rhos h (by rw [hD0]; positivity) h3 hu]
      unfold svrHS hsFull
      rw [if_neg h]
      simp only
      rw [hD0]
      generalize Real.log (1 - p.D d x 3 * rhos) = L
      generalize hU : 1 - p.D d x 3 * rhos = U at hu
      field_simp
  · intro h
    have hl : ∀ l, p.D d x l * rhos = Real.pi / 6 * rhos * ∑ i, p.m i * x i / p.mbar x * d i ^ l := by
      intro l
      unfold SVR.D SVR.xs
      ring
    unfold svrHS bmcsl
    rw [if_neg h]
    simp only [hl]
    have e0 : ∑ i, p.m i * x i / p.mbar x * d i ^ 0 = 1 := by
      simp only [pow_zero, mul_one]
      exact hxs
    rw [e0]
    simp only [pow_one, mul_one]

/-- C109. For one component this is the equation of Carnahan and Starling. -/
theorem svr_hs_pure (p : SVR 1) (d x : Fin 1 → ℝ) (rhos : ℝ) (hm : p.mbar x ≠ 0) (hd : d 0 ≠ 0) (h1 : Real.pi / 6 * d 0 ^ 3 * rhos < 1) :
    svrHS rhos (p.D d x) (fun l => p.D d x l * rhos) =
      Real.pi / 6 * d 0 ^ 3 * rhos * (4 - 3 * (Real.pi / 6 * d 0 ^ 3 * rhos)) / (1 - Real.pi / 6 * d 0 ^ 3 * rhos) ^ 2 := by
  have hpi := Real.pi_ne_zero
  have hxs : p.xs x 0 = 1 := by
    unfold SVR.xs
    rw [div_eq_one_iff_eq hm]
    simp [SVR.mbar, mul_comm]
  have hD : ∀ l, p.D d x l = Real.pi / 6 * d 0 ^ l := by
    intro l
    simp [SVR.D, hxs]
  rw [(svr_hs p d x rhos hm (by rw [hD]; positivity) (by rw [hD]; exact h1)).1]
  unfold hsZero
  simp only [hD]
  have hu : 1 - Real.pi / 6 * d 0 ^ 3 * rhos ≠ 0 := by linarith
  generalize hL : Real.log (1 - Real.pi / 6 * d 0 ^ 3 * rhos) = L
  generalize hU : 1 - Real.pi / 6 * d 0 ^ 3 * rhos = U at hu
  have e : Real.pi / 6 * d 0 ^ 3 * rhos = 1 - U := by linarith
  have e2 : Real.pi / 6 * d 0 ^ 2 * rhos = (1 - U) / d 0 := by
    rw [← e]
    field_simp
  rw [e2, e]
  field_simp
  ring

/-! ## The mean field -/

theorem mieSq_integral (r a : ℝ) (ha : 3 < 2 * a) (hr : 3 < 2 * r) :
    ∫ x in Set.Ioi (1 : ℝ), mieU r a x ^ 2 * x ^ (2 : ℝ) = mieC r a ^ 2 * (1 / (2 * a - 3) - 2 * (1 / (a + r - 3)) + 1 / (2 * r - 3)) := by
  have key : ∀ s : ℝ, 3 < s → MeasureTheory.IntegrableOn (fun x : ℝ => x ^ (-s + 2)) (Set.Ioi 1) ∧ ∫ x in Set.Ioi (1 : ℝ), x ^ (-s + 2) = 1 / (s - 3) := by
    intro s hs
    refine ⟨integrableOn_Ioi_rpow_of_lt (by linarith) one_pos, ?_⟩
    rw [integral_Ioi_rpow_of_lt (by linarith) one_pos, Real.one_rpow]
    rw [div_eq_div_iff (by linarith) (by linarith)]
    ring
  have e : Set.EqOn (fun x : ℝ => mieU r a x ^ 2 * x ^ (2 : ℝ))
      (fun x => mieC r a ^ 2 * ((x ^ (-(2 * a) + 2) - 2 * x ^ (-(a + r) + 2)) + x ^ (-(2 * r) + 2))) (Set.Ioi 1) := by
    intro x hx
    have hx0 : (0 : ℝ) < x := lt_trans one_pos hx
    simp only [mieU]
    rw [Real.rpow_add hx0, Real.rpow_add hx0, Real.rpow_add hx0, show -(2 * a) = -a + -a by ring, show -(2 * r) = -r + -r by ring, neg_add,
      Real.rpow_add hx0, Real.rpow_add hx0, Real.rpow_add hx0]
    ring
  have hsub : MeasureTheory.IntegrableOn (fun x : ℝ => x ^ (-(2 * a) + 2) - 2 * x ^ (-(a + r) + 2)) (Set.Ioi 1) :=
    (key (2 * a) ha).1.sub ((key (a + r) (by linarith)).1.const_mul 2)
  have h2 : MeasureTheory.IntegrableOn (fun x : ℝ => 2 * x ^ (-(a + r) + 2)) (Set.Ioi 1) := (key (a + r) (by linarith)).1.const_mul 2
  rw [MeasureTheory.setIntegral_congr_fun measurableSet_Ioi e, MeasureTheory.integral_const_mul,
    MeasureTheory.integral_add hsub (key (2 * r) hr).1, MeasureTheory.integral_sub (key (2 * a) ha).1 h2, MeasureTheory.integral_const_mul,
    (key (2 * a) ha).2, (key (a + r) (by linarith)).2, (key (2 * r) hr).2]

/-- C109. The first-order dispersion term begins, at low density, with the mean field of the Mie potential outside of its zero,
independently of the diameter of the hard core. -/
theorem svr_a1_slope (p : SVRPair) (d kap : ℝ) (hd : 0 < d) (hs : 0 < p.sigma) (hk : kap ≠ 0) (ha : 3 < p.la) (hr : 3 < p.lr) :
    HasDerivAt (fun r => p.a1 d (kap * r) r) (2 * Real.pi * p.eps * p.sigma ^ 3 * ∫ x in Set.Ioi (1 : ℝ), miePot p.lr p.la 1 1 x * x ^ (2 : ℝ)) 0 := by
  have hx : 0 < p.sigma / d := div_pos hs hd
  have z : ∀ l, svrZeff l (kap * 0) ≠ 1 := by
    intro l
    rw [mul_zero, svrZeff_zero]
    norm_num
  have h1 := svr_one_density (p.sigma / d) p.la kap 0 ha.ne' (by simp) (z _) hk
  have h2 := svr_one_density (p.sigma / d) p.lr kap 0 hr.ne' (by simp) (z _) hk
  rw [mul_zero] at h1 h2
  rw [svrRhoD_zero _ _ hx ha.ne'] at h1
  rw [svrRhoD_zero _ _ hx hr.ne'] at h2
  have hD := ((h1.sub h2).const_mul (2 * Real.pi * d ^ 3 * p.eps * p.C)).congr_of_eventuallyEq (f₁ := fun r => p.a1 d (kap * r) r)
    (Filter.Eventually.of_forall fun r => by
      simp only [SVRPair.a1, SVRPair.one, Pi.sub_apply]
      ring)
  refine hD.congr_deriv ?_
  have hI : ∫ x in Set.Ioi (1 : ℝ), miePot p.lr p.la 1 1 x * x ^ (2 : ℝ) = ∫ x in Set.Ioi (1 : ℝ), mieU p.lr p.la x * x ^ (2 : ℝ) := by
    refine MeasureTheory.setIntegral_congr_fun measurableSet_Ioi fun x hx => ?_
    have hx0 : (0 : ℝ) < x := lt_trans one_pos hx
    simp only [miePot, mieU, mieC]
    rw [one_div, Real.inv_rpow hx0.le, Real.inv_rpow hx0.le, ← Real.rpow_neg hx0.le, ← Real.rpow_neg hx0.le, mul_one]
  have hA := mieAlpha_integral p.lr p.la ha hr
  rw [hI, show ∫ x in Set.Ioi (1 : ℝ), mieU p.lr p.la x * x ^ (2 : ℝ) = -mieAlpha p.lr p.la by linarith]
  have hC : p.C = mieC p.lr p.la := rfl
  unfold mieAlpha
  rw [hC]
  have e3 : p.la - 3 ≠ 0 := by linarith
  have e4 : p.lr - 3 ≠ 0 := by linarith
  field_simp
  ring

/-- C109. The second-order term begins with the mean square of the potential, whatever the correction `chi`. -/
theorem svr_a2_slope (p : SVRPair) (d kap kb : ℝ) (hd : 0 < d) (hs : 0 < p.sigma) (hk : kap ≠ 0) (ha : 3 < p.la) (hr : 3 < p.lr) :
    HasDerivAt (fun r => p.a2 d (kap * r) (kb * r) r)
      (-(Real.pi * p.eps ^ 2 * p.sigma ^ 3 * ∫ x in Set.Ioi (1 : ℝ), miePot p.lr p.la 1 1 x ^ 2 * x ^ (2 : ℝ))) 0 := by
  have hx : 0 < p.sigma / d := div_pos hs hd
  have z : ∀ l, svrZeff l (kap * 0) ≠ 1 := by
    intro l
    rw [mul_zero, svrZeff_zero]
    norm_num
  have n1 : 2 * p.la ≠ 3 := by linarith
  have n2 : p.la + p.lr ≠ 3 := by linarith
  have n3 : 2 * p.lr ≠ 3 := by linarith
  have h1 := svr_one_density (p.sigma / d) (2 * p.la) kap 0 n1 (by simp) (z _) hk
  have h2 := svr_one_density (p.sigma / d) (p.la + p.lr) kap 0 n2 (by simp) (z _) hk
  have h3 := svr_one_density (p.sigma / d) (2 * p.lr) kap 0 n3 (by simp) (z _) hk
  rw [mul_zero] at h1 h2 h3
  rw [svrRhoD_zero _ _ hx n1] at h1
  rw [svrRhoD_zero _ _ hx n2] at h2
  rw [svrRhoD_zero _ _ hx n3] at h3
  have hi : HasDerivAt (fun r : ℝ => kap * r) kap 0 := by
    simpa using (hasDerivAt_id (0 : ℝ)).const_mul kap
  have hb : HasDerivAt (fun r : ℝ => kb * r) kb 0 := by
    simpa using (hasDerivAt_id (0 : ℝ)).const_mul kb
  obtain ⟨K', hK', _⟩ := svrK_deriv (kap * 0) (by norm_num)
  have hK := HasDerivAt.comp (h₂ := svrK) 0 hK' hi
  have hchi : HasDerivAt (fun r : ℝ => 1 + p.chi (kb * r)) (svrF 1 p.alpha * kb + svrF 2 p.alpha * (5 * (kb * 0) ^ 4 * kb) + svrF 3 p.alpha * (8 * (kb * 0) ^ 7 * kb)) 0 := by
    unfold SVRPair.chi
    exact (((hb.const_mul _).add ((hb.fun_pow 5).const_mul _)).add ((hb.fun_pow 8).const_mul _)).const_add 1
  have hS := (h1.sub (h2.const_mul 2)).add h3
  have hD := ((hK.mul hchi).mul hS).const_mul (Real.pi * d ^ 3 * p.eps ^ 2 * p.C ^ 2)
  have hD2 := hD.congr_of_eventuallyEq (f₁ := fun r => p.a2 d (kap * r) (kb * r) r)
    (Filter.Eventually.of_forall fun r => by
      simp only [SVRPair.a2, SVRPair.S2, SVRPair.one, Pi.sub_apply, Pi.add_apply, Pi.mul_apply, Function.comp]
      ring)
  refine hD2.congr_deriv ?_
  have hI : ∫ x in Set.Ioi (1 : ℝ), miePot p.lr p.la 1 1 x ^ 2 * x ^ (2 : ℝ) = ∫ x in Set.Ioi (1 : ℝ), mieU p.lr p.la x ^ 2 * x ^ (2 : ℝ) := by
    refine MeasureTheory.setIntegral_congr_fun measurableSet_Ioi fun x hx => ?_
    have hx0 : (0 : ℝ) < x := lt_trans one_pos hx
    simp only [miePot, mieU, mieC]
    rw [one_div, Real.inv_rpow hx0.le, Real.inv_rpow hx0.le, ← Real.rpow_neg hx0.le, ← Real.rpow_neg hx0.le, mul_one]
  rw [hI, mieSq_integral _ _ (by linarith) (by linarith)]
  have hC : p.C = mieC p.lr p.la := rfl
  have hK0 : svrK 0 = 1 := by norm_num [svrK]
  have hc0 : p.chi 0 = 0 := by norm_num [SVRPair.chi]
  simp only [Pi.mul_apply, Pi.add_apply, Pi.sub_apply, Function.comp, mul_zero, zero_mul, hK0, hc0, hC]
  have e1 : 2 * p.la - 3 ≠ 0 := sub_ne_zero.2 n1
  have e2 : p.la + p.lr - 3 ≠ 0 := sub_ne_zero.2 n2
  have e3 : 2 * p.lr - 3 ≠ 0 := sub_ne_zero.2 n3
  field_simp
  ring

/-! The Lennard-Jones segment again. -/

example : svrI 1.01 6 = ∫ x in (1 : ℝ)..1.01, x ^ ((2 : ℝ) - 6) := (svr_IJ 1.01 6 (by norm_num) (by norm_num) (by norm_num)).1

example : HasDerivAt (fun r => svrLJ.a1 0.99 (0.5 * r) r)
    (2 * Real.pi * 150 * 1 ^ 3 * ∫ x in Set.Ioi (1 : ℝ), miePot 12 6 1 1 x * x ^ (2 : ℝ)) 0 :=
  svr_a1_slope svrLJ 0.99 0.5 (by norm_num) (by norm_num [svrLJ]) (by norm_num) (by norm_num [svrLJ]) (by norm_num [svrLJ])

end Teqp.Props
