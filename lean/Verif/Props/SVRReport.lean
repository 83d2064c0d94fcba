import Verif.Model.SVRReport
import Verif.Props.SVREntries

/-! # C161: the SAFT-VR-Mie report -/

set_option autoImplicit false

namespace Teqp.Spec
open Teqp.Model

/-- The Helmholtz energy of the mixture of hard spheres per segment (Boublik, Mansoori) from the moments `zeta` and the density of
segments. -/
noncomputable def hardSpheres (rhos : ℝ) (z : Fin 4 → ℝ) : ℝ :=
  6 / (Real.pi * rhos) * (3 * z 1 * z 2 / (1 - z 3) + z 2 ^ 3 / (z 3 * (1 - z 3) ^ 2) +
    (z 2 ^ 3 / z 3 ^ 2 - z 0) * Real.log (1 - z 3))

end Teqp.Spec

namespace Teqp.Props
open Model Spec Finset

variable {n : ℕ}

theorem svrReport_inv (p : SVR n) {NA EPS T rho : ℝ} {x : List ℝ} {r : SVRReport n} (h : p.report NA EPS T rho x = .ok r) :
    ∃ (hx : x.length = n) (d : Fin n → ℝ), (∀ i, p.dii EPS i T = .ok (d i)) ∧
      p.Fine d T (p.rhos NA rho fun i => x.get (i.cast hx.symm)) (fun i => x.get (i.cast hx.symm)) ∧
      r.dmat = SVR.dIJ d ∧ r.rhos = p.rhos NA rho (fun i => x.get (i.cast hx.symm)) ∧ r.rhoN = rho * NA ∧
      r.mbar = p.mbar (fun i => x.get (i.cast hx.symm)) ∧ r.xs = p.xs (fun i => x.get (i.cast hx.symm)) ∧
      (∀ l, r.zeta l = p.D d (fun i => x.get (i.cast hx.symm)) l * r.rhos) ∧
      r.zetaX = p.zetaX d (fun i => x.get (i.cast hx.symm)) r.rhos ∧ r.zetaBar = p.zetaBar (fun i => x.get (i.cast hx.symm)) r.rhos ∧
      r.mono = r.mbar * (svrHS r.rhos (p.D d fun i => x.get (i.cast hx.symm))
        (fun l => p.D d (fun i => x.get (i.cast hx.symm)) l * r.rhos) + r.a1 / T + r.a2 / (T * T) + r.a3 / (T * T * T)) ∧
      r.chain = p.chain d T r.rhos (fun i => x.get (i.cast hx.symm)) := by
  unfold SVR.report at h
  split at h
  · next hx =>
    obtain ⟨d, hd, h⟩ := Outcome.bind_eq_ok.1 h
    simp only at h
    split at h
    · next hf =>
      cases h
      exact ⟨hx, d, finLoop_inv _ _ hd, hf, rfl, rfl, rfl, rfl, rfl, fun _ => rfl, rfl, rfl, rfl, rfl⟩
    · cases h
  · cases h

/-- The model without polar terms has the sum of the two reported contributions as its residual Helmholtz energy, and fails where the
report fails. -/
theorem svr_report_alphar (p : SVR n) (NA EPS T rho : ℝ) (x : List ℝ) :
    p.alphar NA EPS T rho x = (p.report NA EPS T rho x).bind fun r => .ok (r.mono + r.chain) := by
  unfold SVR.alphar SVR.core SVR.report
  split
  · rcases finLoop fun i => p.dii EPS i T with d | e | _ | _ <;> simp only [Outcome.bind_ok] <;> try rfl
    split <;> rfl
  · rfl

/-- The packing fraction that the polar terms receive is the last reported moment. -/
theorem svr_report_packing (p : SVR n) (NA EPS T rho : ℝ) (x : List ℝ) (r : SVRReport n) (h : p.report NA EPS T rho x = .ok r) :
    p.core NA EPS T rho x = .ok (r.zeta 3, r.mono + r.chain) := by
  unfold SVR.report at h
  unfold SVR.core
  split at h
  · next hx =>
    obtain ⟨d, hd, h⟩ := Outcome.bind_eq_ok.1 h
    rw [dif_pos hx, hd, Outcome.bind_ok]
    simp only at h ⊢
    split at h
    · next hf =>
      rw [if_pos hf]
      cases h
      rfl
    · cases h
  · cases h

/-- Another number of mole fractions is refused. -/
theorem svr_report_size (p : SVR n) (NA EPS T rho : ℝ) (x : List ℝ) (h : x.length ≠ n) :
    p.report NA EPS T rho x = .throws .invalidArgument := dif_neg h

example (NA : ℝ) : svrBin.report NA (1 / 2 ^ 52) 300 0 [1] = .throws .invalidArgument :=
  svr_report_size svrBin NA _ _ _ [1] (by norm_num)

/-- The fields belong together: segments, densities, fractions of segments that sum to one, the moments of the distribution of diameters in
segments per cubic Angstrom, and a matrix of diameters by the linear rule that do not exceed those of the segments. -/
theorem svr_report_fields (p : SVR n) (NA EPS T rho : ℝ) (x : List ℝ) (r : SVRReport n) (h : p.report NA EPS T rho x = .ok r) :
    ∃ hx : x.length = n, r.mbar = ∑ i, x.get (i.cast hx.symm) * p.m i ∧ (∀ i, r.xs i * r.mbar = x.get (i.cast hx.symm) * p.m i) ∧
      ∑ i, r.xs i = 1 ∧ r.rhoN = rho * NA ∧ r.rhos * 1e30 = r.rhoN * r.mbar ∧
      (∀ l : Fin 4, r.zeta l = Real.pi / 6 * r.rhos * ∑ i, r.xs i * r.dmat i i ^ (l : ℕ)) ∧ r.zeta 0 = Real.pi / 6 * r.rhos ∧
      r.zetaX = Real.pi / 6 * r.rhos * ∑ i, ∑ j, r.xs i * r.xs j * r.dmat i j ^ 3 ∧
      r.zetaBar = Real.pi / 6 * r.rhos * ∑ i, ∑ j, r.xs i * r.xs j * ((p.sigma i + p.sigma j) / 2) ^ 3 ∧
      (∀ i j, r.dmat i j = (r.dmat i i + r.dmat j j) / 2) ∧ (∀ i, p.dii EPS i T = .ok (r.dmat i i)) ∧
      (∀ i j, r.dmat i j ≤ (p.sigma i + p.sigma j) / 2) := by
  obtain ⟨hx, d, hd, hf, e1, e2, e3, e4, e5, e6, e7, e8, -, -⟩ := svrReport_inv p h
  have hm : r.mbar ≠ 0 := e4 ▸ hf.2.1
  have hdd : ∀ i j, r.dmat i j = (d i + d j) / 2 := fun i j => by rw [e1, svr_dIJ]
  have hdi : ∀ i, r.dmat i i = d i := fun i => by rw [hdd]; ring
  have hxs : ∀ i, r.xs i * r.mbar = x.get (i.cast hx.symm) * p.m i := fun i => by
    rw [e5]
    unfold SVR.xs
    rw [← e4, div_mul_cancel₀ _ hm]
    ring
  have hsum : ∑ i, r.xs i = 1 := by
    have : (∑ i, r.xs i) * r.mbar = r.mbar := by
      rw [Finset.sum_mul, Finset.sum_congr rfl fun i _ => hxs i, e4]
      rfl
    exact mul_right_cancel₀ hm (by rw [this, one_mul])
  have hz : ∀ l : Fin 4, r.zeta l = Real.pi / 6 * r.rhos * ∑ i, r.xs i * r.dmat i i ^ (l : ℕ) := fun l => by
    rw [e6 l]
    unfold SVR.D
    simp only [hdi, e5]
    ring
  have hle : ∀ i, d i ≤ p.sigma i := fun i => svr_dii_le p i EPS T (d i) (hd i)
  refine ⟨hx, e4, hxs, hsum, e3, ?_, hz, ?_, ?_, ?_, ?_, ?_, ?_⟩
  · rw [e2, e3, e4]
    unfold SVR.rhos
    rw [div_mul_cancel₀ _ (by norm_num)]
  · rw [hz 0]
    simp [hsum]
  · rw [e7]
    unfold SVR.zetaX
    rw [e1, e5]
    simp only [← Finset.sum_mul]
    ring
  · rw [e8]
    unfold SVR.zetaBar SVR.sigmaIJ
    rw [e5]
  · intro i j
    rw [hdi, hdi, hdd]
  · intro i
    rw [hdi]
    exact hd i
  · intro i j
    rw [hdd]
    have := hle i
    have := hle j
    linarith

/-- The monomer contribution follows from the other fields: hard spheres and three orders of perturbation. -/
theorem svr_report_mono (p : SVR n) (NA EPS T rho : ℝ) (x : List ℝ) (r : SVRReport n) (h : p.report NA EPS T rho x = .ok r)
    (hr : r.rhos ≠ 0) : r.mono = r.mbar * (hardSpheres r.rhos r.zeta + r.a1 / T + r.a2 / T ^ 2 + r.a3 / T ^ 3) := by
  obtain ⟨hx, d, hd, hf, e1, e2, e3, e4, e5, e6, e7, e8, e9, -⟩ := svrReport_inv p h
  have z0 : r.zeta 0 = p.D d (fun i => x.get (i.cast hx.symm)) 0 * r.rhos := e6 0
  have z1 : r.zeta 1 = p.D d (fun i => x.get (i.cast hx.symm)) 1 * r.rhos := e6 1
  have z2 : r.zeta 2 = p.D d (fun i => x.get (i.cast hx.symm)) 2 * r.rhos := e6 2
  have z3 : r.zeta 3 = p.D d (fun i => x.get (i.cast hx.symm)) 3 * r.rhos := e6 3
  rw [e9]
  unfold svrHS hardSpheres
  rw [if_neg hr, z0, z1, z2, z3, pow_two T, show T ^ 3 = T * T * T by ring]

/-- For a pure fluid both averages of the packing fraction are the last moment, with the diameters of the spheres and of the segments. -/
theorem svr_report_pure (p : SVR 1) (NA EPS T rho : ℝ) (x : List ℝ) (r : SVRReport 1) (h : p.report NA EPS T rho x = .ok r) :
    r.zetaX = r.zeta 3 ∧ r.zetaBar * r.dmat 0 0 ^ 3 = r.zeta 3 * p.sigma 0 ^ 3 ∧ r.xs 0 = 1 := by
  obtain ⟨hx, -, -, hs, -, -, hz, -, hzx, hzb, -, -, -⟩ := svr_report_fields p NA EPS T rho x r h
  have h1 : r.xs 0 = 1 := by simpa using hs
  rw [hzx, hzb, hz 3]
  simp only [Fin.sum_univ_one, Fin.isValue, h1]
  refine ⟨by norm_num, ?_, trivial⟩
  rw [show (p.sigma 0 + p.sigma 0) / 2 = p.sigma 0 by ring]
  norm_num
  ring

/-! ## Densities near one that works -/

theorem svrK_continuousAt (z : ℝ) (h : svrK z ≠ 0) : ContinuousAt svrK z := by
  have hd : 1 + 4 * z + 4 * z * z - 4 * z * z * z + z * z * z * z ≠ 0 := fun h0 => h (by unfold svrK; rw [h0, div_zero])
  unfold svrK
  exact ContinuousAt.div (by fun_prop) (by fun_prop) hd

theorem svrZeff_continuous (l : ℝ) : Continuous (svrZeff l) := by
  unfold svrZeff
  fun_prop

open Filter Topology in
theorem svrPair_fine_near (p : SVRPair) (d z : ℝ) (h : p.Fine d z) : ∀ᶠ y in 𝓝 z, p.Fine d y := by
  obtain ⟨h1, h2, h3, h4, h5, h6, h7, h8⟩ := h
  have hz : ∀ l ∈ p.exponents, ∀ᶠ y in 𝓝 z, svrZeff l y ≠ 1 := fun l hl =>
    (svrZeff_continuous l).continuousAt.eventually_ne (h7 l hl).2.2
  have hall : ∀ᶠ y in 𝓝 z, ∀ l ∈ p.exponents, svrZeff l y ≠ 1 := by
    have : ∀ L : List ℝ, (∀ l ∈ L, ∀ᶠ y in 𝓝 z, svrZeff l y ≠ 1) → ∀ᶠ y in 𝓝 z, ∀ l ∈ L, svrZeff l y ≠ 1 := by
      intro L
      induction L with
      | nil => exact fun _ => Eventually.of_forall fun _ _ hm => absurd hm List.not_mem_nil
      | cons a L ih =>
        intro hL
        filter_upwards [hL a List.mem_cons_self, ih fun l hl => hL l (List.mem_cons_of_mem _ hl)] with y ha hr l hl
        rcases List.mem_cons.1 hl with rfl | hl
        · exact ha
        · exact hr l hl
    exact this _ hz
  filter_upwards [eventually_lt_nhds h5, (svrK_continuousAt z h6).eventually_ne h6, hall] with y a b c
  exact ⟨h1, h2, h3, h4, a, b, fun l hl => ⟨(h7 l hl).1, (h7 l hl).2.1, c l hl⟩, h8⟩

open Filter Topology in
/-- A density at which the calculation goes through has neighbours at which it does: the failures are a closed set of densities. -/
theorem svr_report_near (p : SVR n) (NA EPS T rho : ℝ) (x : List ℝ) (r : SVRReport n) (h : p.report NA EPS T rho x = .ok r) :
    ∀ᶠ rho' in 𝓝 rho, ∃ r', p.report NA EPS T rho' x = .ok r' := by
  obtain ⟨hx, d, hd, ⟨f1, f2, f3, f4, f5, f6⟩, -⟩ := svrReport_inv p h
  set xv : Fin n → ℝ := fun i => x.get (i.cast hx.symm) with hxv
  have hc : Continuous fun rho' => p.rhos NA rho' xv := by
    unfold SVR.rhos
    fun_prop
  have hcz : Continuous fun rho' => p.zetaX d xv (p.rhos NA rho' xv) := by
    unfold SVR.zetaX
    fun_prop
  have e1 : ∀ᶠ rho' in 𝓝 rho, p.D d xv 3 * p.rhos NA rho' xv < 1 :=
    (continuous_const.mul hc).continuousAt.eventually_lt continuousAt_const f3
  have e2 : ∀ᶠ rho' in 𝓝 rho, ∀ i j, (p.pair i j).Fine (SVR.dIJ d i j) (p.zetaX d xv (p.rhos NA rho' xv)) := by
    rw [eventually_all]
    intro i
    rw [eventually_all]
    intro j
    exact hcz.continuousAt.eventually (svrPair_fine_near _ _ _ (f6 i j).2.2.2.2)
  filter_upwards [e1, e2] with rho' a b
  unfold SVR.report
  rw [dif_pos hx, finLoop_ok _ _ hd, Outcome.bind_ok]
  refine ⟨_, if_pos ⟨f1, f2, a, f4, f5, fun i j => ⟨(f6 i j).1, (f6 i j).2.1, (f6 i j).2.2.1, (f6 i j).2.2.2.1, b i j⟩⟩⟩

theorem svrBin_report (NA : ℝ) : ∃ r, svrBin.report NA (1 / 2 ^ 52) 300 0 [1 / 4, 3 / 4] = .ok r := by
  obtain ⟨v, hv⟩ := svrBin_core NA
  have ha : svrBin.alphar NA (1 / 2 ^ 52) 300 0 [1 / 4, 3 / 4] = .ok v.2 := by
    unfold SVR.alphar
    rw [hv, Outcome.bind_ok]
  rw [svr_report_alphar] at ha
  obtain ⟨r, hr, -⟩ := Outcome.bind_eq_ok.1 ha
  exact ⟨r, hr⟩

/-- The sample at zero density. -/
example (NA : ℝ) : ∃ r, svrBin.report NA (1 / 2 ^ 52) 300 0 [1 / 4, 3 / 4] = .ok r ∧ r.zeta 0 = 0 ∧ ∑ i, r.xs i = 1 := by
  obtain ⟨r, hr⟩ := svrBin_report NA
  obtain ⟨hx, -, -, hs, h1, h2, -, h3, -⟩ := svr_report_fields _ _ _ _ _ _ r hr
  refine ⟨r, hr, ?_, hs⟩
  have : r.rhos * 1e30 = 0 := by rw [h2, h1]; simp
  rw [h3, (mul_eq_zero.mp this).resolve_right (by norm_num), mul_zero]

/-- The sample at some positive density, with the monomer contribution from the other fields. -/
example (NA : ℝ) (hN : 0 < NA) : ∃ rho > 0, ∃ r, svrBin.report NA (1 / 2 ^ 52) 300 rho [1 / 4, 3 / 4] = .ok r ∧
    r.mono = r.mbar * (hardSpheres r.rhos r.zeta + r.a1 / 300 + r.a2 / 300 ^ 2 + r.a3 / 300 ^ 3) := by
  obtain ⟨r0, hr0⟩ := svrBin_report NA
  obtain ⟨rho, ⟨r, hr⟩, hpos⟩ := ((svr_report_near _ _ _ _ _ _ r0 hr0).filter_mono nhdsWithin_le_nhds |>.and
    (self_mem_nhdsWithin (s := Set.Ioi (0 : ℝ)))).exists
  refine ⟨rho, hpos, r, hr, svr_report_mono _ _ _ _ _ _ r hr ?_⟩
  obtain ⟨hx, d, -, hf, -, e2, -⟩ := svrReport_inv _ hr
  rw [e2]
  unfold SVR.rhos
  exact div_ne_zero (mul_ne_zero (mul_ne_zero hpos.ne' hN.ne') hf.2.1) (by norm_num)

/-- The first fluid of the sample alone. -/
noncomputable def svrOnly : SVR 1 :=
  { m := fun _ => 1, eps := fun _ => 150, sigma := fun _ => 1, lr := fun _ => 12, la := fun _ => 6, k := fun _ _ => 0, lb := false }

theorem svrOnly_report (NA : ℝ) : ∃ r, svrOnly.report NA (1 / 2 ^ 52) 300 0 [1] = .ok r := by
  obtain ⟨d, hd, hp, -⟩ := svrBin_dii 0
  have hd' : ∀ i, svrOnly.dii (1 / 2 ^ 52) i 300 = .ok ((fun _ => d) i) := fun i => by
    rw [Subsingleton.elim i 0]
    exact hd
  have hx : (fun i : Fin 1 => ([1] : List ℝ).get (i.cast rfl)) = fun _ => 1 := by
    funext i
    rw [Subsingleton.elim i 0]
    rfl
  have hr : svrOnly.rhos NA 0 (fun _ => 1) = 0 := by simp [SVR.rhos]
  have hm : svrOnly.mbar (fun _ => 1) = 1 := by simp [SVR.mbar, svrOnly]
  have hs : ∀ i, svrOnly.xs (fun _ => 1) i = 1 := fun i => by
    unfold SVR.xs
    rw [hm]
    simp [svrOnly]
  have hD : ∀ l, 0 < svrOnly.D (fun _ => d) (fun _ => 1) l := fun l => by
    unfold SVR.D
    simp only [hs, Fin.sum_univ_one, one_mul]
    have := pow_pos hp l
    positivity
  have hf := (svrBin_fine_of (fun _ => d) (fun _ => hp) 300 (by norm_num)).2.2.2.2.2 0 0
  have hz : svrBin.zetaX (fun _ => d) ![1 / 4, 3 / 4] 0 = svrOnly.zetaX (fun _ => d) (fun _ => 1) 0 := by simp [SVR.zetaX]
  rw [hz] at hf
  unfold SVR.report
  rw [dif_pos (by rfl), finLoop_ok _ _ hd', Outcome.bind_ok]
  refine ⟨_, if_pos ?_⟩
  rw [hx, hr]
  refine ⟨by norm_num, by rw [hm]; norm_num, by simp, (hD 3).ne', (hD 0).ne', fun i j => ?_⟩
  rw [Subsingleton.elim i 0, Subsingleton.elim j 0]
  exact hf

example (NA : ℝ) (hN : 0 < NA) : ∃ rho > 0, ∃ r, svrOnly.report NA (1 / 2 ^ 52) 300 rho [1] = .ok r ∧ r.zetaX = r.zeta 3 := by
  obtain ⟨r0, hr0⟩ := svrOnly_report NA
  obtain ⟨rho, ⟨r, hr⟩, hpos⟩ := ((svr_report_near _ _ _ _ _ _ r0 hr0).filter_mono nhdsWithin_le_nhds |>.and
    (self_mem_nhdsWithin (s := Set.Ioi (0 : ℝ)))).exists
  exact ⟨rho, hpos, r, hr, (svr_report_pure _ _ _ _ _ _ r hr).1⟩

end Teqp.Props
