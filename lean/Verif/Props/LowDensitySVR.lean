import Verif.Props.LowDensitySAFT
import Verif.Props.SVRReport
import Verif.Props.SVRTables

/-! # SAFT-VR-Mie at low density (C165) -/

set_option autoImplicit false

namespace Teqp.Spec
open Model

/-- The second virial coefficient of segments, per number density of segments: hard spheres, the mean field of the Mie potential, its mean square, and the third-order term. -/
noncomputable def svrSegments {n : ℕ} (p : SVR n) (d : Fin n → ℝ) (T : ℝ) (x : Fin n → ℝ) : ℝ :=
  p.D d x 3 + 3 * p.D d x 1 * p.D d x 2 / p.D d x 0
    + p.pairSum x (fun i j => 2 * Real.pi * (p.pair i j).eps * (p.pair i j).sigma ^ 3 * ∫ s in Set.Ioi (1 : ℝ), miePot (p.pair i j).lr (p.pair i j).la 1 1 s * s ^ (2 : ℝ)) / T
    + p.pairSum x (fun i j => -(Real.pi * (p.pair i j).eps ^ 2 * (p.pair i j).sigma ^ 3 *
        ∫ s in Set.Ioi (1 : ℝ), miePot (p.pair i j).lr (p.pair i j).la 1 1 s ^ 2 * s ^ (2 : ℝ))) / (T * T)
    + p.pairSum x (fun i j => -(p.pair i j).eps ^ 3 * svrF 4 (p.pair i j).alpha * p.zetaBar x 1) / (T * T * T)

/-- The slope of the logarithm of the contact value in the packing fraction: the overlap volume of hard spheres and the slopes of the two corrections. -/
noncomputable def svrContact {n : ℕ} (p : SVR n) (d : Fin n → ℝ) (T : ℝ) (i : Fin n) : ℝ :=
  hardSphereOverlap ((p.pair i i).sigma / d i) + ((p.pair i i).eps / T * deriv (fun z => (p.pair i i).g1 (d i) z) 0
    + ((p.pair i i).eps / T) ^ 2 * deriv (fun z => (p.pair i i).g2MCA (d i) z) 0)

end Teqp.Spec

namespace Teqp.Props
open Teqp.Model Teqp.Spec Filter Topology Finset

theorem svr_one_diff (x0 lam : ℝ) : DifferentiableAt ℝ (fun z => svrOne x0 z lam (svrZeff lam z)) 0 := by
  have hz : DifferentiableAt ℝ (fun z => svrZeff lam z) 0 := (svrZeff_deriv lam 0).differentiableAt
  have h1 : DifferentiableAt ℝ (fun z : ℝ => svrBhat z ((1 - z) ^ 3) (svrI x0 lam) (svrJ x0 lam)) 0 := by
    unfold svrBhat
    exact ((DifferentiableAt.div (by fun_prop) (by fun_prop) (by norm_num)).mul_const _).sub
      ((DifferentiableAt.div (by fun_prop) (by fun_prop) (by norm_num)).mul_const _)
  have h2 : DifferentiableAt ℝ (fun z : ℝ => svrA1S (svrZeff lam z) lam) 0 := by
    unfold svrA1S
    exact DifferentiableAt.div (by fun_prop) (by fun_prop) (by rw [svrZeff_zero]; norm_num)
  unfold svrOne
  exact (h1.add h2).const_mul _

theorem svr_rhoD_diff (x0 lam : ℝ) (h3 : lam ≠ 3) : DifferentiableAt ℝ (fun z => svrRhoD x0 z lam (svrZeff lam z) (svrDZeff lam z)) 0 := by
  have hz : DifferentiableAt ℝ (fun z => svrZeff lam z) 0 := (svrZeff_deriv lam 0).differentiableAt
  have hdz : DifferentiableAt ℝ (fun z => svrDZeff lam z) 0 := by unfold svrDZeff; fun_prop
  have h1 : DifferentiableAt ℝ (fun z : ℝ => svrBhat z ((1 - z) ^ 3) (svrI x0 lam) (svrJ x0 lam)) 0 := by
    unfold svrBhat
    exact ((DifferentiableAt.div (by fun_prop) (by fun_prop) (by norm_num)).mul_const _).sub
      ((DifferentiableAt.div (by fun_prop) (by fun_prop) (by norm_num)).mul_const _)
  have h2 : DifferentiableAt ℝ (fun z : ℝ => svrA1S (svrZeff lam z) lam) 0 := by
    unfold svrA1S
    exact DifferentiableAt.div (by fun_prop) (by fun_prop) (by rw [svrZeff_zero]; norm_num)
  have h4 : DifferentiableAt ℝ (fun z : ℝ => svrRhoDA1S z (svrZeff lam z) (svrDZeff lam z) lam) 0 := by
    unfold svrRhoDA1S
    refine h2.add (DifferentiableAt.mul (DifferentiableAt.div (by fun_prop) (by fun_prop) ?_) differentiableAt_fun_id)
    rw [svrZeff_zero]
    simpa using sub_ne_zero.2 h3
  have h5 : DifferentiableAt ℝ (fun z : ℝ => svrRhoDB z (svrI x0 lam) (svrJ x0 lam) (svrBhat z ((1 - z) ^ 3) (svrI x0 lam) (svrJ x0 lam))) 0 := by
    unfold svrRhoDB
    exact h1.add (DifferentiableAt.mul (DifferentiableAt.div (by fun_prop) (by fun_prop) (by norm_num)) differentiableAt_fun_id)
  unfold svrRhoD
  exact (h4.add h5).const_mul _

theorem svr_contact_slope (p : SVRPair) (T d kap kb : ℝ) (hf : p.Fine d 0) :
    HasDerivAt (fun r => Real.log (p.g T d (kap * r) (kb * r)))
      ((hardSphereOverlap (p.sigma / d) + (p.eps / T * deriv (fun z => p.g1 d z) 0 + (p.eps / T) ^ 2 * deriv (fun z => p.g2MCA d z) 0)) * kap) 0 := by
  obtain ⟨z1, z2, -⟩ := svr_contact_zero p T d hf
  obtain ⟨_, _, _, hx, _, _, hl, _⟩ := hf
  have one (l : ℝ) : DifferentiableAt ℝ (fun z => p.one d z l) 0 := svr_one_diff _ l
  have rhoD (l : ℝ) (h : l ∈ p.exponents) : DifferentiableAt ℝ (fun z => p.rhoD d z l) 0 := svr_rhoD_diff _ l (hl l h).1
  have r1 := rhoD p.la (by simp [SVRPair.exponents])
  have r2 := rhoD p.lr (by simp [SVRPair.exponents])
  have r3 := rhoD (2 * p.la) (by simp [SVRPair.exponents])
  have r4 := rhoD (p.la + p.lr) (by simp [SVRPair.exponents])
  have r5 := rhoD (2 * p.lr) (by simp [SVRPair.exponents])
  have o1 := one p.la
  have o2 := one p.lr
  have o3 := one (2 * p.la)
  have o4 := one (p.la + p.lr)
  have o5 := one (2 * p.lr)
  obtain ⟨K', hK', -⟩ := svrK_deriv 0 (by norm_num)
  have hK : DifferentiableAt ℝ (fun z => svrK z) 0 := hK'.differentiableAt
  have hDK : DifferentiableAt ℝ (fun z => svrRhoDK z) 0 := by
    unfold svrRhoDK
    exact (DifferentiableAt.div (by fun_prop) (by fun_prop) (by norm_num)).mul differentiableAt_fun_id
  have hg1 : DifferentiableAt ℝ (fun z => p.g1 d z) 0 := by
    unfold SVRPair.g1
    fun_prop
  have hg2 : DifferentiableAt ℝ (fun z => p.g2MCA d z) 0 := by
    unfold SVRPair.g2MCA SVRPair.S2
    fun_prop
  have hi := line_slope kap
  have h1 : HasDerivAt (fun r => p.g1 d (kap * r)) (deriv (fun z => p.g1 d z) 0 * kap) 0 :=
    HasDerivAt.comp (h₂ := fun z => p.g1 d z) (0 : ℝ) (by rw [mul_zero]; exact hg1.hasDerivAt) hi
  have h2 : HasDerivAt (fun r => p.g2MCA d (kap * r)) (deriv (fun z => p.g2MCA d z) 0 * kap) 0 :=
    HasDerivAt.comp (h₂ := fun z => p.g2MCA d z) (0 : ℝ) (by rw [mul_zero]; exact hg2.hasDerivAt) hi
  obtain ⟨gz, gd⟩ := svr_rdf_low_density (p.sigma / d)
  have h3 : HasDerivAt (fun r => svrGHS (kap * r) (p.sigma / d)) (hardSphereOverlap (p.sigma / d) * kap) 0 :=
    HasDerivAt.comp (h₂ := fun z => svrGHS z (p.sigma / d)) (0 : ℝ) (by rw [mul_zero]; exact gd) hi
  have hc : DifferentiableAt ℝ (fun r : ℝ => p.gammaC T (kb * r)) 0 := by
    unfold SVRPair.gammaC
    fun_prop
  have c0 : p.gammaC T (kb * 0) = 0 := by simp [SVRPair.gammaC]
  have hN : HasDerivAt (fun r => p.eps / T * p.g1 d (kap * r) + (p.eps / T) ^ 2 * ((1 + p.gammaC T (kb * r)) * p.g2MCA d (kap * r)))
      ((p.eps / T * deriv (fun z => p.g1 d z) 0 + (p.eps / T) ^ 2 * deriv (fun z => p.g2MCA d z) 0) * kap) 0 := by
    refine ((h1.const_mul (p.eps / T)).add (((hc.hasDerivAt.const_add 1).mul h2).const_mul ((p.eps / T) ^ 2))).congr_deriv ?_
    rw [c0, mul_zero, z2]
    ring
  have hQ := hN.div h3 (by rw [mul_zero, gz]; norm_num)
  have hpos (r : ℝ) : 0 < svrGHS (kap * r) (p.sigma / d) := Real.exp_pos _
  have hL := (h3.log (hpos 0).ne').add hQ
  refine (hL.congr_of_eventuallyEq (.of_forall fun r => ?_)).congr_deriv ?_
  · simp only [SVRPair.g, Pi.add_apply, Pi.div_apply]
    rw [Real.log_mul (hpos r).ne' (Real.exp_ne_zero _), Real.log_exp]
  · simp only [mul_zero, gz, z1, z2]
    ring

variable {n : ℕ}

theorem svr_xs_sum (p : SVR n) (x : Fin n → ℝ) (hm : p.mbar x ≠ 0) : ∑ i, p.xs x i = 1 := by
  unfold SVR.xs
  rw [← Finset.sum_div, div_eq_one_iff_eq hm]
  unfold SVR.mbar
  exact Finset.sum_congr rfl fun i _ => mul_comm _ _

/-- Weighted means of positive numbers are positive. -/
theorem svr_zetaX_pos (p : SVR n) (d x : Fin n → ℝ) (hx : ∀ i, 0 ≤ x i) (hmi : ∀ i, 0 < p.m i) (hm : p.mbar x ≠ 0) (hd : ∀ i, 0 < d i) : 0 < p.zetaX d x 1 := by
  have hmb : 0 < p.mbar x := lt_of_le_of_ne (sum_nonneg fun i _ => mul_nonneg (hx i) (hmi i).le) (Ne.symm hm)
  have hxs (i) : 0 ≤ p.xs x i := div_nonneg (mul_nonneg (hmi i).le (hx i)) hmb.le
  have hdd (i j) : 0 < SVR.dIJ d i j := by
    unfold SVR.dIJ
    split_ifs
    · exact hd i
    · have := hd (min i j); have := hd (max i j); linarith
  have ht (i j) : 0 ≤ p.xs x i * p.xs x j * SVR.dIJ d i j ^ 3 * 1 :=
    mul_nonneg (mul_nonneg (mul_nonneg (hxs i) (hxs j)) (pow_pos (hdd i j) 3).le) zero_le_one
  obtain ⟨k, hk⟩ : ∃ k, 0 < p.xs x k := by
    by_contra hcon
    push Not at hcon
    have : ∑ i, p.xs x i ≤ 0 := sum_nonpos fun i _ => hcon i
    rw [svr_xs_sum p x hm] at this
    linarith
  unfold SVR.zetaX
  refine mul_pos (by positivity) (sum_pos' (fun i _ => sum_nonneg fun j _ => ht i j) ⟨k, mem_univ k, sum_pos' (fun j _ => ht k j) ⟨k, mem_univ k, ?_⟩⟩)
  have := pow_pos (hdd k k) 3
  positivity

theorem svr_pairSum_slope (p : SVR n) (x : Fin n → ℝ) (f : Fin n → Fin n → ℝ → ℝ) (f' : Fin n → Fin n → ℝ) (h : ∀ i j, HasDerivAt (f i j) (f' i j) 0) :
    HasDerivAt (fun r => p.pairSum x fun i j => f i j r) (p.pairSum x f') 0 := by
  unfold SVR.pairSum
  exact HasDerivAt.fun_sum fun i _ => HasDerivAt.fun_sum fun j _ => ((h i j).const_mul _).mul_const _

theorem svr_slope (p : SVR n) (d : Fin n → ℝ) (T : ℝ) (x : Fin n → ℝ) (hf : p.Fine d T 0 x) (hx : ∀ i, 0 ≤ x i) (hmi : ∀ i, 0 < p.m i) (hd : ∀ i, 0 < d i)
    (he : ∀ i, 3 < p.la i ∧ 3 < p.lr i) :
    HasDerivAt (fun r => p.mono d T r x + p.chain d T r x)
      (p.mbar x * svrSegments p d T x - ∑ i, x i * (p.m i - 1) * (svrContact p d T i * p.zetaX d x 1)) 0 := by
  obtain ⟨_, hm, _, h3, h0, hp⟩ := hf
  have hk := svr_zetaX_pos p d x hx hmi hm hd
  have ez (r : ℝ) : p.zetaX d x r = p.zetaX d x 1 * r := by
    unfold SVR.zetaX
    rw [mul_assoc, Finset.sum_mul]
    refine congrArg _ (Finset.sum_congr rfl fun i _ => ?_)
    rw [Finset.sum_mul]
    exact Finset.sum_congr rfl fun j _ => by ring
  have eb (r : ℝ) : p.zetaBar x r = p.zetaBar x 1 * r := by
    unfold SVR.zetaBar
    ring
  have z0 : p.zetaX d x 0 = 0 := by rw [ez, mul_zero]
  have hdd (i j) : 0 < SVR.dIJ d i j := by
    unfold SVR.dIJ
    split_ifs
    · exact hd i
    · have := hd (min i j); have := hd (max i j); linarith
  have hs (i j) : 0 < (p.pair i j).sigma := by
    have h1 := (hp i j).2.2.2.1
    have h2 := (hp j i).2.2.2.1
    show 0 < (p.sigma i + p.sigma j) / 2
    linarith
  have hla (i j) : 3 < (p.pair i j).la := by
    have : 0 < Real.sqrt ((p.la i - 3) * (p.la j - 3)) := Real.sqrt_pos.mpr (mul_pos (by linarith [(he i).1]) (by linarith [(he j).1]))
    show 3 < 3 + Real.sqrt ((p.la i - 3) * (p.la j - 3))
    linarith
  have hlr (i j) : 3 < (p.pair i j).lr := by
    have : 0 < Real.sqrt ((p.lr i - 3) * (p.lr j - 3)) := Real.sqrt_pos.mpr (mul_pos (by linarith [(he i).2]) (by linarith [(he j).2]))
    show 3 < 3 + Real.sqrt ((p.lr i - 3) * (p.lr j - 3))
    linarith
  have hHS : HasDerivAt (fun r => svrHS r (p.D d x) (fun l => p.D d x l * r)) (p.D d x 3 + 3 * p.D d x 1 * p.D d x 2 / p.D d x 0) 0 := by
    refine (hsZero_slope (p.D d x 0) (p.D d x 1) (p.D d x 2) (p.D d x 3) h0 h3).congr_of_eventuallyEq ?_
    have : ∀ᶠ r : ℝ in 𝓝 0, p.D d x 3 * r < 1 := (by fun_prop : ContinuousAt (fun r : ℝ => p.D d x 3 * r) 0).eventually_lt_const (by simp)
    filter_upwards [this] with r hr
    exact (svr_hs p d x r hm h3 hr).1
  have h1 := svr_pairSum_slope p x (fun i j r => (p.pair i j).a1 (SVR.dIJ d i j) (p.zetaX d x 1 * r) r) _
    fun i j => svr_a1_slope (p.pair i j) (SVR.dIJ d i j) (p.zetaX d x 1) (hdd i j) (hs i j) hk.ne' (hla i j) (hlr i j)
  have h2 := svr_pairSum_slope p x (fun i j r => (p.pair i j).a2 (SVR.dIJ d i j) (p.zetaX d x 1 * r) (p.zetaBar x 1 * r) r) _
    fun i j => svr_a2_slope (p.pair i j) (SVR.dIJ d i j) (p.zetaX d x 1) (p.zetaBar x 1) (hdd i j) (hs i j) hk.ne' (hla i j) (hlr i j)
  have h4 := svr_pairSum_slope p x (fun i j r => (p.pair i j).a3 (p.zetaBar x 1 * r)) (fun i j => -(p.pair i j).eps ^ 3 * svrF 4 (p.pair i j).alpha * p.zetaBar x 1)
    fun i j => by
      have hl := line_slope (p.zetaBar x 1)
      have hE : DifferentiableAt ℝ (fun r : ℝ => Real.exp (svrF 5 (p.pair i j).alpha * (p.zetaBar x 1 * r) + svrF 6 (p.pair i j).alpha * (p.zetaBar x 1 * r) ^ 2)) 0 := by fun_prop
      unfold SVRPair.a3
      refine ((hl.const_mul _).mul hE.hasDerivAt).congr_deriv ?_
      simp
  have hmono : HasDerivAt (fun r => p.mono d T r x) (p.mbar x * svrSegments p d T x) 0 := by
    refine HasDerivAt.congr_of_eventuallyEq (((((hHS.add (h1.div_const T)).add (h2.div_const (T * T))).add (h4.div_const (T * T * T))).const_mul (p.mbar x)).congr_deriv ?_)
      (.of_forall fun r => ?_)
    · rfl
    · simp only [SVR.mono, Pi.add_apply, ez r, eb r]
  have hchain : HasDerivAt (fun r => p.chain d T r x) (-∑ i, x i * (p.m i - 1) * (svrContact p d T i * p.zetaX d x 1)) 0 := by
    unfold SVR.chain
    refine (HasDerivAt.fun_sum fun i _ => HasDerivAt.const_mul (x i * (p.m i - 1)) ?_).neg
    have hfi := (hp i i).2.2.2.2
    rw [z0, show SVR.dIJ d i i = d i by simp [SVR.dIJ]] at hfi
    refine HasDerivAt.congr_of_eventuallyEq (svr_contact_slope (p.pair i i) T (d i) (p.zetaX d x 1) (p.zetaBar x 1) hfi) (.of_forall fun r => ?_)
    simp only [ez r, eb r]
  exact (hmono.add hchain).congr_deriv (by ring)

/-- **SAFT-VR-Mie**: for diameters that could be calculated, the segments' coefficient with the mean field and mean square of the Mie potential, and the slope of the contact value for the
bonds of the chains, for number densities in cubic Angstrom. -/
theorem svr_virial (p : SVR n) (NA EPS T : ℝ) (x : List ℝ) (hl : x.length = n) (d : Fin n → ℝ) (hdii : ∀ i, p.dii EPS i T = .ok (d i))
    (hf : p.Fine d T 0 fun i => x.get (i.cast hl.symm)) (hx : ∀ y ∈ x, 0 ≤ y) (hmi : ∀ i, 0 < p.m i) (hd : ∀ i, 0 < d i) (he : ∀ i, 3 < p.la i ∧ 3 < p.lr i) :
    HasVirial (fun r => p.alphar NA EPS T r x)
      ((p.mbar (fun i => x.get (i.cast hl.symm)) * svrSegments p d T (fun i => x.get (i.cast hl.symm))
        - ∑ i, x.get (i.cast hl.symm) * (p.m i - 1) * (svrContact p d T i * p.zetaX d (fun i => x.get (i.cast hl.symm)) 1))
        * (NA * p.mbar (fun i => x.get (i.cast hl.symm)) / 1e30)) := by
  set xv : Fin n → ℝ := fun i => x.get (i.cast hl.symm) with hxv
  have hs := svr_slope p d T xv hf (fun i => hx _ (List.get_mem _ _)) hmi hd he
  have hz := svr_zero_density p d T xv hf
  have hr (r : ℝ) : p.rhos NA r xv = NA * p.mbar xv / 1e30 * r := by unfold SVR.rhos; ring
  have hl' := line_slope (NA * p.mbar xv / 1e30)
  refine hasVirial_of (fun r => p.mono d T (NA * p.mbar xv / 1e30 * r) xv + p.chain d T (NA * p.mbar xv / 1e30 * r) xv) ?_ (by simp only [mul_zero]; rw [hz.1, hz.2, add_zero])
    (HasDerivAt.comp (h₂ := fun s => p.mono d T s xv + p.chain d T s xv) (0 : ℝ) (by rw [mul_zero]; exact hs) hl')
  obtain ⟨f1, f2, f3, f4, f5, f6⟩ := hf
  have hcz : Continuous fun r => p.zetaX d xv (p.rhos NA r xv) := by
    unfold SVR.zetaX SVR.rhos
    fun_prop
  have e0 : p.rhos NA 0 xv = 0 := by rw [hr, mul_zero]
  have e1 : ∀ᶠ r in 𝓝 (0 : ℝ), p.D d xv 3 * p.rhos NA r xv < 1 := by
    have : ContinuousAt (fun r => p.D d xv 3 * p.rhos NA r xv) 0 := by unfold SVR.rhos; fun_prop
    exact this.eventually_lt_const (by simp only [e0, mul_zero]; norm_num)
  have e2 : ∀ᶠ r in 𝓝 (0 : ℝ), ∀ i j, (p.pair i j).Fine (SVR.dIJ d i j) (p.zetaX d xv (p.rhos NA r xv)) := by
    rw [eventually_all]
    intro i
    rw [eventually_all]
    intro j
    refine hcz.continuousAt.eventually (svrPair_fine_near _ _ _ ?_)
    simp only [e0]
    exact (f6 i j).2.2.2.2
  filter_upwards [e1, e2] with r a b
  unfold SVR.alphar SVR.core
  rw [dif_pos hl, finLoop_ok _ _ hdii, Outcome.bind_ok]
  simp only
  rw [if_pos ⟨f1, f2, a, f4, f5, fun i j => ⟨(f6 i j).1, (f6 i j).2.1, (f6 i j).2.2.1, (f6 i j).2.2.2.1, b i j⟩⟩, Outcome.bind_ok, hr]

/-- A binary mixture of spheres and of chains of two segments at 300 K. -/
example (NA : ℝ) : ∃ d B, HasVirial (fun r => svrBin.alphar NA (1 / 2 ^ 52) 300 r [1 / 4, 3 / 4]) B ∧
    B = (7 / 4 * svrSegments svrBin d 300 ![1 / 4, 3 / 4] - 3 / 4 * (svrContact svrBin d 300 1 * svrBin.zetaX d ![1 / 4, 3 / 4] 1)) * (NA * (7 / 4) / 1e30) := by
  choose d hd hp _ using svrBin_dii
  have hx : (fun i : Fin 2 => ([1 / 4, 3 / 4] : List ℝ).get (i.cast rfl)) = ![1 / 4, 3 / 4] := by
    funext i
    fin_cases i <;> rfl
  have hm : svrBin.mbar ![1 / 4, 3 / 4] = 7 / 4 := by
    norm_num [SVR.mbar, svrBin, Fin.sum_univ_two]
  refine ⟨d, _, svr_virial svrBin NA (1 / 2 ^ 52) 300 [1 / 4, 3 / 4] rfl d hd ?_ ?_ ?_ hp ?_, ?_⟩
  · rw [hx]
    exact svrBin_fine_of d hp 300 (by norm_num)
  · intro y hy
    simp only [List.mem_cons, List.not_mem_nil, or_false] at hy
    rcases hy with rfl | rfl <;> norm_num
  · intro i
    fin_cases i <;> norm_num [svrBin]
  · intro i
    norm_num [svrBin]
  · rw [hx, hm, Fin.sum_univ_two]
    norm_num [svrBin]

end Teqp.Props
