import Verif.Props.PCSAFT
import Verif.Props.SquareWell
import Verif.Props.SVRLimits

/-! # C171: the hard spheres of PC-SAFT -/

set_option autoImplicit false

namespace Teqp.Props
open Teqp Teqp.Model Teqp.Spec Finset

variable {ι : Type} [Fintype ι]

/-- Moments of the diameters, weighted with the numbers of segments. -/
noncomputable def segMoment (p : PCParams ι) (T : ℝ) (x : ι → ℝ) (n : ℕ) : ℝ := ∑ i, x i * p.m i * pcDiam (p.sigma i) (p.eps i) T ^ n

/-- The derivative of the hard-sphere term. -/
theorem hasDerivAt_hsZero {D0 D1 D2 D3 r : ℝ} (h0 : D0 ≠ 0) (h3 : D3 ≠ 0) (hu : 0 < 1 - D3 * r) :
    HasDerivAt (fun r => hsZero D0 D1 D2 D3 (D2 * r) (D3 * r))
      (D3 / (1 - D3 * r) + 3 * D1 * D2 / D0 / (1 - D3 * r) ^ 2 + D2 ^ 3 * r * (3 - D3 * r) / D0 / (1 - D3 * r) ^ 3) r := by
  have hU : HasDerivAt (fun r : ℝ => 1 - D3 * r) (-D3) r := by
    have := ((hasDerivAt_id r).const_mul D3).const_sub 1
    simpa using this
  have hl : HasDerivAt (fun r : ℝ => Real.log (1 - D3 * r)) (-D3 / (1 - D3 * r)) r := hU.log hu.ne'
  have hz : HasDerivAt (fun r : ℝ => D2 * r) D2 r := by simpa using (hasDerivAt_id r).const_mul D2
  have h1 := (hz.const_mul (3 * D1 / D0)).div hU hu.ne'
  have h2 := (hz.const_mul (D2 * D2)).div ((hU.const_mul (D3 * D0)).mul hU) (by
    have := hu.ne'
    exact mul_ne_zero (mul_ne_zero (mul_ne_zero h3 h0) this) this)
  have h := ((h1.add h2).sub hl).add (hl.const_mul ((D2 * D2 * D2) / (D3 * D3 * D0)))
  refine h.congr_deriv ?_
  have hu' := hu.ne'
  generalize hUU : 1 - D3 * r = U at *
  have hr : D3 * r = 1 - U := by linarith
  have hr' : r = (1 - U) / D3 := by rw [← hr]; field_simp
  simp only [Pi.mul_apply, hUU]
  rw [hr, hr']
  field_simp
  ring

/-- C171. **The virial theorem**: the pressure from the hard-sphere term of PC-SAFT is the one from the radial distribution functions at contact that the chain
term uses, with the mean of the two diameters as distance of contact; at zero density this is the second virial coefficient of hard spheres. -/
theorem pc_virial_theorem (p : PCParams ι) {T r : ℝ} (x : ι → ℝ) (hm : pcMbar p x ≠ 0) (h3 : pcD p T x 3 ≠ 0) (hu : 0 < 1 - pcD p T x 3 * r)
    (hd : ∀ i, 0 < pcDiam (p.sigma i) (p.eps i) T) :
    pcMbar p x * deriv (fun r => pcHS (pcD p T x) fun n => pcD p T x n * r) r =
      2 * Real.pi / 3 * ∑ i, ∑ j, (x i * p.m i) * (x j * p.m j) * ((pcDiam (p.sigma i) (p.eps i) T + pcDiam (p.sigma j) (p.eps j) T) / 2) ^ 3 *
        pcG (fun n => pcD p T x n * r) (pcDiam (p.sigma i) (p.eps i) T) (pcDiam (p.sigma j) (p.eps j) T) := by
  have hpi := Real.pi_ne_zero
  have hM0 : pcD p T x 0 = Real.pi / 6 * pcMbar p x := by simp [pcD, pcMbar]
  have hD0 : pcD p T x 0 ≠ 0 := by rw [hM0]; exact mul_ne_zero (by positivity) hm
  have hfun : (fun r => pcHS (pcD p T x) fun n => pcD p T x n * r) =ᶠ[nhds r]
      fun r => hsZero (pcD p T x 0) (pcD p T x 1) (pcD p T x 2) (pcD p T x 3) (pcD p T x 2 * r) (pcD p T x 3 * r) := by
    have : ContinuousAt (fun r => 1 - pcD p T x 3 * r) r := by fun_prop
    filter_upwards [this.eventually (lt_mem_nhds hu)] with s hs
    exact pcHS_eq _ s hD0 h3 hs.ne'
  rw [hfun.deriv_eq, (hasDerivAt_hsZero hD0 h3 hu).deriv]
  have hM : ∀ n, pcD p T x n = Real.pi / 6 * segMoment p T x n := fun _ => rfl
  have hsum : ∑ i, ∑ j, (x i * p.m i) * (x j * p.m j) * ((pcDiam (p.sigma i) (p.eps i) T + pcDiam (p.sigma j) (p.eps j) T) / 2) ^ 3 *
        pcG (fun n => pcD p T x n * r) (pcDiam (p.sigma i) (p.eps i) T) (pcDiam (p.sigma j) (p.eps j) T)
      = (2 * (segMoment p T x 0 * segMoment p T x 3) + 6 * (segMoment p T x 1 * segMoment p T x 2)) / 8 / (1 - pcD p T x 3 * r)
        + (2 * (segMoment p T x 1 * segMoment p T x 3) + 2 * (segMoment p T x 2 * segMoment p T x 2)) / 8 * (3 * (pcD p T x 2 * r)) / (1 - pcD p T x 3 * r) ^ 2
        + 2 * (segMoment p T x 2 * segMoment p T x 3) / 8 * (2 * (pcD p T x 2 * r) * (pcD p T x 2 * r)) / (1 - pcD p T x 3 * r) ^ 3 := by
    have hterm : ∀ i j, (x i * p.m i) * (x j * p.m j) * ((pcDiam (p.sigma i) (p.eps i) T + pcDiam (p.sigma j) (p.eps j) T) / 2) ^ 3 *
        pcG (fun n => pcD p T x n * r) (pcDiam (p.sigma i) (p.eps i) T) (pcDiam (p.sigma j) (p.eps j) T) =
        (x i * p.m i * pcDiam (p.sigma i) (p.eps i) T ^ 0) * (x j * p.m j * pcDiam (p.sigma j) (p.eps j) T ^ 3) * (1 / 8 / (1 - pcD p T x 3 * r))
        + (x i * p.m i * pcDiam (p.sigma i) (p.eps i) T ^ 3) * (x j * p.m j * pcDiam (p.sigma j) (p.eps j) T ^ 0) * (1 / 8 / (1 - pcD p T x 3 * r))
        + (x i * p.m i * pcDiam (p.sigma i) (p.eps i) T ^ 1) * (x j * p.m j * pcDiam (p.sigma j) (p.eps j) T ^ 2) * (3 / 8 / (1 - pcD p T x 3 * r))
        + (x i * p.m i * pcDiam (p.sigma i) (p.eps i) T ^ 2) * (x j * p.m j * pcDiam (p.sigma j) (p.eps j) T ^ 1) * (3 / 8 / (1 - pcD p T x 3 * r))
        + (x i * p.m i * pcDiam (p.sigma i) (p.eps i) T ^ 1) * (x j * p.m j * pcDiam (p.sigma j) (p.eps j) T ^ 3) * (1 / 8 * (3 * (pcD p T x 2 * r)) / (1 - pcD p T x 3 * r) ^ 2)
        + (x i * p.m i * pcDiam (p.sigma i) (p.eps i) T ^ 3) * (x j * p.m j * pcDiam (p.sigma j) (p.eps j) T ^ 1) * (1 / 8 * (3 * (pcD p T x 2 * r)) / (1 - pcD p T x 3 * r) ^ 2)
        + (x i * p.m i * pcDiam (p.sigma i) (p.eps i) T ^ 2) * (x j * p.m j * pcDiam (p.sigma j) (p.eps j) T ^ 2) * (2 / 8 * (3 * (pcD p T x 2 * r)) / (1 - pcD p T x 3 * r) ^ 2)
        + (x i * p.m i * pcDiam (p.sigma i) (p.eps i) T ^ 2) * (x j * p.m j * pcDiam (p.sigma j) (p.eps j) T ^ 3) * (1 / 8 * (2 * (pcD p T x 2 * r) * (pcD p T x 2 * r)) / (1 - pcD p T x 3 * r) ^ 3)
        + (x i * p.m i * pcDiam (p.sigma i) (p.eps i) T ^ 3) * (x j * p.m j * pcDiam (p.sigma j) (p.eps j) T ^ 2) * (1 / 8 * (2 * (pcD p T x 2 * r) * (pcD p T x 2 * r)) / (1 - pcD p T x 3 * r) ^ 3) := by
      intro i j
      have h1 := hd i
      have h2 := hd j
      unfold pcG
      simp only
      generalize pcDiam (p.sigma i) (p.eps i) T = a at *
      generalize pcDiam (p.sigma j) (p.eps j) T = b at *
      have h12 : a + b ≠ 0 := (add_pos h1 h2).ne'
      have hu' := hu.ne'
      generalize 1 - pcD p T x 3 * r = U at *
      generalize pcD p T x 2 * r = z at *
      field_simp
      ring
    simp only [hterm, sum_add_distrib, ← sum_mul, ← mul_sum]
    unfold segMoment
    ring
  rw [hsum]
  have h30 : segMoment p T x 3 ≠ 0 := fun h => h3 (by rw [hM, h, mul_zero])
  have hmb : pcMbar p x = segMoment p T x 0 := by simp [pcMbar, segMoment]
  rw [hmb] at hm ⊢
  have hu' := hu.ne'
  generalize hUU : 1 - pcD p T x 3 * r = U at *
  have hr : r = (1 - U) / (Real.pi / 6 * segMoment p T x 3) := by
    rw [← hUU, hM]
    field_simp
    ring
  simp only [hM]
  rw [hr]
  generalize segMoment p T x 0 = M0 at *
  generalize segMoment p T x 1 = M1 at *
  generalize segMoment p T x 2 = M2 at *
  generalize segMoment p T x 3 = M3 at *
  field_simp
  ring

/-- Two components: spheres of one segment and dimers, of different diameters. -/
def spheresAndDimers : PCParams (Fin 2) where
  m := ![1, 2]
  sigma := ![3, 4]
  eps := ![100, 200]
  k := fun _ _ => 0
  a := fun _ _ => 0
  b := fun _ _ => 0

theorem spheresAndDimers_physical : PCPhysical spheresAndDimers 300 ![1 / 4, 3 / 4] where
  hT := by norm_num
  hm := by intro i; fin_cases i <;> simp [spheresAndDimers]
  hsigma := by intro i; fin_cases i <;> simp [spheresAndDimers]
  heps := by intro i; fin_cases i <;> simp [spheresAndDimers]
  hx := by intro i; fin_cases i <;> norm_num
  hx1 := by simp [Fin.sum_univ_two]; norm_num

/-- A density below the densest packing, for every physical parameter set. -/
theorem packing_reachable {p : PCParams ι} {T : ℝ} {x : ι → ℝ} (h : PCPhysical p T x) {y : ℝ} : pcD p T x 3 * (y / pcD p T x 3) = y := by
  have := (pcD_pos h 3).ne'
  field_simp

/-- The theorem at a packing fraction of 0.4. -/
example : ∃ r, pcD spheresAndDimers 300 ![1 / 4, 3 / 4] 3 * r = 0.4 ∧
    pcMbar spheresAndDimers ![1 / 4, 3 / 4] * deriv (fun r => pcHS (pcD spheresAndDimers 300 ![1 / 4, 3 / 4]) fun n =>
        pcD spheresAndDimers 300 ![1 / 4, 3 / 4] n * r) r =
      2 * Real.pi / 3 * ∑ i, ∑ j, (![1 / 4, 3 / 4] i * spheresAndDimers.m i) * (![1 / 4, 3 / 4] j * spheresAndDimers.m j) *
        ((pcDiam (spheresAndDimers.sigma i) (spheresAndDimers.eps i) 300 + pcDiam (spheresAndDimers.sigma j) (spheresAndDimers.eps j) 300) / 2) ^ 3 *
        pcG (fun n => pcD spheresAndDimers 300 ![1 / 4, 3 / 4] n * r) (pcDiam (spheresAndDimers.sigma i) (spheresAndDimers.eps i) 300)
          (pcDiam (spheresAndDimers.sigma j) (spheresAndDimers.eps j) 300) := by
  have h := spheresAndDimers_physical
  have hp := packing_reachable h (y := 0.4)
  refine ⟨_, hp, pc_virial_theorem _ _ (by linarith [pcMbar_ge h]) (pcD_pos h 3).ne' (by rw [hp]; norm_num) fun i => pcDiam_pos h.hT (h.hsigma i) (h.heps i)⟩

/-- C171. The contact value is at least that of an ideal gas, and symmetric. -/
theorem pc_contact_ge_one {p : PCParams ι} {T r : ℝ} {x : ι → ℝ} (h : PCPhysical p T x) (h0 : 0 ≤ r) (hr : pcD p T x 3 * r < 1) {di dj : ℝ}
    (hi : 0 < di) (hj : 0 < dj) :
    1 ≤ pcG (fun n => pcD p T x n * r) di dj ∧ pcG (fun n => pcD p T x n * r) di dj = pcG (fun n => pcD p T x n * r) dj di ∧
      (0 < r → 1 < pcG (fun n => pcD p T x n * r) di dj) := by
  have h2 := pcD_pos h 2
  have h3 := pcD_pos h 3
  have hu : 0 < 1 - pcD p T x 3 * r := by linarith
  have hz : 0 ≤ pcD p T x 2 * r := by positivity
  have h1 : 1 ≤ 1 / (1 - pcD p T x 3 * r) := (one_le_div hu).2 (by nlinarith)
  have hA : 0 ≤ di * dj / (di + dj) * 3 * (pcD p T x 2 * r) / (1 - pcD p T x 3 * r) ^ 2 := by positivity
  have hB : 0 ≤ (di * dj / (di + dj)) ^ 2 * 2 * (pcD p T x 2 * r) * (pcD p T x 2 * r) / (1 - pcD p T x 3 * r) ^ 3 := by positivity
  unfold pcG
  simp only
  refine ⟨by linarith, by rw [mul_comm di dj, add_comm di dj], fun h0 => ?_⟩
  have : 1 < 1 / (1 - pcD p T x 3 * r) := (one_lt_div hu).2 (by nlinarith)
  linarith

/-- C171. The hard-sphere term increases with density, from zero, and faster than the logarithm that diverges at the densest packing. -/
theorem pc_hs_increasing {p : PCParams ι} {T : ℝ} {x : ι → ℝ} (h : PCPhysical p T x) :
    StrictMonoOn (fun r => pcHS (pcD p T x) fun n => pcD p T x n * r) {r | 0 ≤ r ∧ pcD p T x 3 * r < 1} ∧
    pcHS (pcD p T x) (fun n => pcD p T x n * 0) = 0 ∧
    (∀ r, 0 ≤ r → pcD p T x 3 * r < 1 → -Real.log (1 - pcD p T x 3 * r) ≤ pcHS (pcD p T x) fun n => pcD p T x n * r) := by
  have hD := pcD_pos h
  have hset : {r : ℝ | 0 ≤ r ∧ pcD p T x 3 * r < 1} = Set.Ico 0 (1 / pcD p T x 3) := by
    ext r
    simp only [Set.mem_setOf_eq, Set.mem_Ico, lt_div_iff₀ (hD 3)]
    rw [mul_comm]
  have hder : ∀ r, 0 ≤ r → pcD p T x 3 * r < 1 → HasDerivAt (fun r => pcHS (pcD p T x) fun n => pcD p T x n * r)
      (pcD p T x 3 / (1 - pcD p T x 3 * r) + 3 * pcD p T x 1 * pcD p T x 2 / pcD p T x 0 / (1 - pcD p T x 3 * r) ^ 2 +
        pcD p T x 2 ^ 3 * r * (3 - pcD p T x 3 * r) / pcD p T x 0 / (1 - pcD p T x 3 * r) ^ 3) r := by
    intro r h0 h1
    have hu : 0 < 1 - pcD p T x 3 * r := by linarith
    refine (hasDerivAt_hsZero (hD 0).ne' (hD 3).ne' hu).congr_of_eventuallyEq ?_
    have : ContinuousAt (fun r => 1 - pcD p T x 3 * r) r := by fun_prop
    filter_upwards [this.eventually (lt_mem_nhds hu)] with s hs
    exact pcHS_eq _ s (hD 0).ne' (hD 3).ne' hs.ne'
  have hzero : pcHS (pcD p T x) (fun n => pcD p T x n * 0) = 0 := by
    rw [pcHS_eq _ 0 (hD 0).ne' (hD 3).ne' (by simp)]
    simp [hsZero]
  have hlow : ∀ r, 0 ≤ r → pcD p T x 3 * r < 1 → 0 ≤ 3 * pcD p T x 1 * pcD p T x 2 / pcD p T x 0 / (1 - pcD p T x 3 * r) ^ 2 +
        pcD p T x 2 ^ 3 * r * (3 - pcD p T x 3 * r) / pcD p T x 0 / (1 - pcD p T x 3 * r) ^ 3 := by
    intro r h0 h1
    have h0' := hD 0
    have h1' := hD 1
    have h2' := hD 2
    have hu : 0 < 1 - pcD p T x 3 * r := by linarith
    have hu3 : 0 < 3 - pcD p T x 3 * r := by linarith
    positivity
  have hlog : ∀ r, pcD p T x 3 * r < 1 → HasDerivAt (fun r : ℝ => Real.log (1 - pcD p T x 3 * r)) (-pcD p T x 3 / (1 - pcD p T x 3 * r)) r := by
    intro r h1
    have hu : 0 < 1 - pcD p T x 3 * r := by linarith
    have : HasDerivAt (fun r : ℝ => 1 - pcD p T x 3 * r) (-pcD p T x 3) r := by
      simpa using ((hasDerivAt_id r).const_mul (pcD p T x 3)).const_sub 1
    exact this.log hu.ne'
  refine ⟨?_, hzero, ?_⟩
  · rw [hset]
    refine strictMonoOn_of_deriv_pos (convex_Ico _ _) (fun r hr => ?_) fun r hr => ?_
    · rw [← hset] at hr
      exact (hder r hr.1 hr.2).continuousAt.continuousWithinAt
    · rw [interior_Ico] at hr
      have h1 : pcD p T x 3 * r < 1 := by have := (lt_div_iff₀ (hD 3)).1 hr.2; linarith
      rw [(hder r hr.1.le h1).deriv]
      have := hlow r hr.1.le h1
      have h3 := hD 3
      have hu : 0 < 1 - pcD p T x 3 * r := by linarith
      have : 0 < pcD p T x 3 / (1 - pcD p T x 3 * r) := by positivity
      linarith
  · intro r h0 h1
    have hmono : MonotoneOn (fun r => (pcHS (pcD p T x) fun n => pcD p T x n * r) + Real.log (1 - pcD p T x 3 * r)) (Set.Ico 0 (1 / pcD p T x 3)) := by
      refine monotoneOn_of_deriv_nonneg (convex_Ico _ _) (fun r hr => ?_) (fun r hr => ?_) fun r hr => ?_
      · rw [← hset] at hr
        exact ((hder r hr.1 hr.2).add (hlog r hr.2)).continuousAt.continuousWithinAt
      · rw [interior_Ico] at hr
        have h1 : pcD p T x 3 * r < 1 := by have := (lt_div_iff₀ (hD 3)).1 hr.2; linarith
        exact ((hder r hr.1.le h1).add (hlog r h1)).differentiableAt.differentiableWithinAt
      · rw [interior_Ico] at hr
        have h1 : pcD p T x 3 * r < 1 := by have := (lt_div_iff₀ (hD 3)).1 hr.2; linarith
        have hd := ((hder r hr.1.le h1).add (hlog r h1)).deriv
        refine le_of_le_of_eq ?_ hd.symm
        have := hlow r hr.1.le h1
        have hs : pcD p T x 3 / (1 - pcD p T x 3 * r) + -pcD p T x 3 / (1 - pcD p T x 3 * r) = 0 := by ring
        linarith
    have hm0 : (0 : ℝ) ∈ Set.Ico 0 (1 / pcD p T x 3) := by rw [← hset]; simp
    have hmr : r ∈ Set.Ico 0 (1 / pcD p T x 3) := by rw [← hset]; exact ⟨h0, h1⟩
    have := hmono hm0 hmr h0
    simp only [hzero, mul_zero, sub_zero, Real.log_one, add_zero] at this
    simp only [mul_zero] at hzero
    rw [hzero] at this
    linarith

example : ∃ r, 0 < r ∧ pcD spheresAndDimers 300 ![1 / 4, 3 / 4] 3 * r = 1 / 2 ∧
    0 < pcHS (pcD spheresAndDimers 300 ![1 / 4, 3 / 4]) fun n => pcD spheresAndDimers 300 ![1 / 4, 3 / 4] n * r := by
  have h := spheresAndDimers_physical
  have hp := packing_reachable h (y := 1 / 2)
  have hr : 0 < 1 / 2 / pcD spheresAndDimers 300 ![1 / 4, 3 / 4] 3 := div_pos (by norm_num) (pcD_pos h 3)
  refine ⟨_, hr, hp, ?_⟩
  obtain ⟨hm, h0, -⟩ := pc_hs_increasing h
  have := hm (a := 0) (by simp) ⟨hr.le, by rw [hp]; norm_num⟩ hr
  simp only [h0] at this
  exact this

/-- C171. With equal diameters the term is the equation of Carnahan and Starling in the packing fraction, whatever the composition. -/
theorem pc_hs_equal_diameters {p : PCParams ι} {T r d : ℝ} {x : ι → ℝ} (h : PCPhysical p T x) (hd : ∀ i, pcDiam (p.sigma i) (p.eps i) T = d)
    (hr : pcD p T x 3 * r < 1) : (pcHS (pcD p T x) fun n => pcD p T x n * r) = carnahanStarling (pcD p T x 3 * r) := by
  have hD := pcD_pos h
  have hu : 1 - pcD p T x 3 * r ≠ 0 := by linarith
  rw [pcHS_eq _ r (hD 0).ne' (hD 3).ne' hu]
  have hn : ∀ n, pcD p T x n = pcD p T x 0 * d ^ n := by
    intro n
    simp only [pcD, hd, ← Finset.sum_mul, pow_zero, mul_one]
    ring
  have h0 := (hD 0).ne'
  have hd0 : d ≠ 0 := by
    rintro rfl
    have := hD 1
    rw [hn 1] at this
    simp at this
  have hn1 := hn 1
  have hn2 := hn 2
  have hn3 := hn 3
  generalize pcD p T x 0 = D0 at *
  generalize pcD p T x 1 = D1 at *
  generalize pcD p T x 2 = D2 at *
  have hd3 : D0 * d ^ 3 ≠ 0 := by positivity
  unfold hsZero carnahanStarling
  simp only
  have hc : D2 * D2 * D2 / (pcD p T x 3 * pcD p T x 3 * D0) = 1 := by
    rw [hn2, hn3]; field_simp
  rw [hc, hn1, hn2]
  rw [hn3] at hu ⊢
  generalize hU : 1 - D0 * d ^ 3 * r = U at *
  have hr' : r = (1 - U) / (D0 * d ^ 3) := by rw [← hU]; field_simp; ring
  rw [hr']
  field_simp
  ring

/-- Two components of the same diameter and different lengths. -/
example : ∃ (p : PCParams (Fin 2)) (x : Fin 2 → ℝ) (r : ℝ), p.m 0 ≠ p.m 1 ∧ x 0 ≠ 0 ∧ x 1 ≠ 0 ∧ pcD p 300 x 3 * r = 1 / 2 ∧
    (pcHS (pcD p 300 x) fun n => pcD p 300 x n * r) = 5 := by
  have h : PCPhysical { spheresAndDimers with sigma := ![3, 3], eps := ![100, 100] } 300 ![1 / 4, 3 / 4] := {
    hT := by norm_num
    hm := by intro i; fin_cases i <;> simp [spheresAndDimers]
    hsigma := by intro i; fin_cases i <;> simp [spheresAndDimers]
    heps := by intro i; fin_cases i <;> simp [spheresAndDimers]
    hx := by intro i; fin_cases i <;> norm_num
    hx1 := by simp [Fin.sum_univ_two]; norm_num }
  have hp := packing_reachable h (y := 1 / 2)
  refine ⟨_, _, _, by simp [spheresAndDimers], by norm_num, by norm_num, hp, ?_⟩
  rw [pc_hs_equal_diameters (d := pcDiam 3 100 300) h (by intro i; fin_cases i <;> simp) (by rw [hp]; norm_num), hp]
  unfold carnahanStarling
  norm_num

end Teqp.Props
