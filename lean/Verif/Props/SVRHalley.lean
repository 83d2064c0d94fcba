import Verif.Props.SVRDiameter
import Verif.Lemmas.MieHalley

/-! # C112: Halley's steps reach the cutoff of the diameter of SAFT-VR-Mie -/

set_option autoImplicit false

namespace Teqp.Props
open Model Spec Lemmas

section
variable {kappa lr la T EPS : ℝ}

/-- The values of Halley's method in terms of the difference of powers. -/
theorem svr_fgh_gap (hk : 0 < kappa) (hT : 0 < T) {j : ℝ} (hj : 0 < j) :
    (svrFgh kappa lr la T (Real.log EPS) j).1 = kappa / T * (-Real.log EPS * T / kappa - gapF lr la j) ∧
      (svrFgh kappa lr la T (Real.log EPS) j).2.1 = -(kappa / T * (gapD lr la j / j)) ∧
      (svrFgh kappa lr la T (Real.log EPS) j).2.2 = -(kappa / T * (gapW lr la j / j ^ 2)) := by
  refine ⟨?_, ?_, ?_⟩ <;> simp only [svrFgh]
  · unfold gapF
    field_simp
    ring
  · unfold gapD
    field_simp
  · unfold gapW
    field_simp

/-- A step of the code is a step of Halley's method, unless it stops. -/
theorem svr_halley_step (hk : 0 < kappa) (hT : 0 < T) (n : ℕ) {j : ℝ} (hj : 0 < j) :
    let c := -Real.log EPS * T / kappa
    let den := (kappa / T) ^ 2 * ((2 * gapD lr la j ^ 2 + (c - gapF lr la j) * gapW lr la j) / j ^ 2)
    svrHalley kappa lr la T EPS (n + 1) j = if den < EPS then j else svrHalley kappa lr la T EPS n (gapH lr la c j) := by
  intro c den
  obtain ⟨e1, e2, e3⟩ := svr_fgh_gap (lr := lr) (la := la) (EPS := EPS) hk hT hj
  have ed : 2 * (svrFgh kappa lr la T (Real.log EPS) j).2.1 * (svrFgh kappa lr la T (Real.log EPS) j).2.1
      - (svrFgh kappa lr la T (Real.log EPS) j).1 * (svrFgh kappa lr la T (Real.log EPS) j).2.2 = den := by
    rw [e1, e2, e3]
    simp only [den, c]
    field_simp
    ring
  rw [svrHalley]
  rw [ed]
  by_cases h : den < EPS
  · rw [if_pos h, if_pos h]
  · rw [if_neg h, if_neg h]
    congr 1
    rw [e1, e2]
    unfold gapH
    by_cases h0 : 2 * gapD lr la j ^ 2 + (c - gapF lr la j) * gapW lr la j = 0
    · simp only [den, h0]
      simp
    · have hkT : kappa / T ≠ 0 := (div_pos hk hT).ne'
      simp only [den, c] at h0 ⊢
      generalize -Real.log EPS * T / kappa - gapF lr la j = φ at h0 ⊢
      generalize kappa / T = K at hkT ⊢
      generalize gapD lr la j = D at h0 ⊢
      generalize gapW lr la j = W at h0 ⊢
      have := hj.ne'
      field_simp
      ring

theorem svr_root_gap (hk : 0 < kappa) (hT : 0 < T) {y : ℝ} (hy : svrResidual kappa lr la T EPS y = 0) : gapF lr la y = -Real.log EPS * T / kappa := by
  unfold svrResidual at hy
  unfold gapF
  field_simp at hy ⊢
  linarith

/-- C112. From a start on the outer side of the cutoff, where the potential is repulsive, any number of Halley's steps moves towards the cutoff and
never passes it. -/
theorem svr_halley_between (hk : 0 < kappa) (hT : 0 < T) (ha : 0 < la) (har : la < lr) (hr1 : 1 ≤ lr) {y : ℝ} (hy : svrResidual kappa lr la T EPS y = 0)
    (n : ℕ) {j : ℝ} (hj : 0 < j) (hD : la * j ^ la < lr * j ^ lr) (hjy : j ≤ y) :
    j ≤ svrHalley kappa lr la T EPS n j ∧ svrHalley kappa lr la T EPS n j ≤ y := by
  have hc : gapF lr la y = -Real.log EPS * T / kappa := svr_root_gap hk hT hy
  have hD' : 0 < gapD lr la j := by
    unfold gapD
    linarith
  clear hD hy
  induction n generalizing j with
  | zero => exact ⟨le_rfl, hjy⟩
  | succ n ih =>
    have hs := svr_halley_step (lr := lr) (la := la) (EPS := EPS) hk hT n hj
    simp only at hs
    rw [hs]
    split
    · exact ⟨le_rfl, hjy⟩
    · obtain ⟨b1, b2⟩ := gapH_between ha har hr1 hj hD' hjy hc
      obtain ⟨i1, i2⟩ := ih (lt_of_lt_of_le hj b1) b2 (gapD_pos_of_le ha har hj hD' b1)
      exact ⟨b1.trans i1, i2⟩

/-- C112, finding. From a start further out than the minimum of the potential the step goes the wrong way. -/
theorem svr_halley_wrong_way (hk : 0 < kappa) (hT : 0 < T) (h0 : 0 < EPS) {j : ℝ} (hj : 0 < j) (hD : lr * j ^ lr < la * j ^ la)
    (hF : 0 < svrResidual kappa lr la T EPS j) : svrHalley kappa lr la T EPS 1 j ≤ j := by
  have hs := svr_halley_step (lr := lr) (la := la) (EPS := EPS) hk hT 0 hj
  simp only at hs
  rw [hs]
  split
  · exact le_rfl
  · next h =>
    have hden := lt_of_lt_of_le h0 (not_lt.1 h)
    have hK : 0 < (kappa / T) ^ 2 := by positivity
    have hM : 0 < 2 * gapD lr la j ^ 2 + (-Real.log EPS * T / kappa - gapF lr la j) * gapW lr la j := by
      have := (mul_pos_iff_of_pos_left hK).1 hden
      exact (div_pos_iff_of_pos_right (by positivity)).1 this
    have hφ : 0 < -Real.log EPS * T / kappa - gapF lr la j := by
      have e := (svr_fgh_gap (lr := lr) (la := la) (EPS := EPS) hk hT hj).1
      have e2 : (svrFgh kappa lr la T (Real.log EPS) j).1 = svrResidual kappa lr la T EPS j := by simp only [svrFgh, svrResidual]
      rw [e2] at e
      rw [e] at hF
      exact (mul_pos_iff_of_pos_left (div_pos hk hT)).1 hF
    have hDn : gapD lr la j < 0 := by
      unfold gapD
      linarith
    simp only [svrHalley]
    unfold gapH
    have : 2 * (-Real.log EPS * T / kappa - gapF lr la j) * gapD lr la j / (2 * gapD lr la j ^ 2 + (-Real.log EPS * T / kappa - gapF lr la j) * gapW lr la j) ≤ 0 :=
      div_nonpos_of_nonpos_of_nonneg (mul_nonpos_of_nonneg_of_nonpos (by linarith) hDn.le) hM.le
    nlinarith

/-- The value at which the iteration starts. -/
theorem svr_start_eq (lr : ℝ) {c : ℝ} (hc : 0 < c) : Real.exp (Real.log c / lr) = c ^ (1 / lr) := by
  rw [Real.rpow_def_of_pos hc]
  congr 1
  ring

/-- C112. A cutoff is always found when the thermal energy is large enough that the start is inside of the zero of the potential: the check
`j < 1` cannot fail, and the distance found is between the exact cutoff and the start. -/
theorem svr_cutoff_found {C epsii : ℝ} (hk : 0 < C * epsii) (hT : 0 < T) (ha : 0 < la) (har : la < lr) (hr1 : 1 ≤ lr) (h0 : 0 < EPS) (h1 : EPS < 1)
    (hc : C * epsii ≤ -Real.log EPS * T) :
    ∃ j y, svrCutoff C epsii lr la EPS T = .ok j ∧ 1 ≤ j ∧ (-Real.log EPS * T / (C * epsii)) ^ (1 / lr) ≤ j ∧ j ≤ y ∧ svrResidual (C * epsii) lr la T EPS y = 0 := by
  obtain ⟨y, ⟨hy1, hy, hs⟩, _⟩ := svr_cutoff_exists (C * epsii) lr la T EPS hk ha har hT h0 h1
  have hc1 : 1 ≤ -Real.log EPS * T / (C * epsii) := (one_le_div hk).2 hc
  have hc0 : 0 < -Real.log EPS * T / (C * epsii) := by linarith
  have hj1 : 1 ≤ (-Real.log EPS * T / (C * epsii)) ^ (1 / lr) := Real.one_le_rpow hc1 (by positivity)
  rw [svr_start_eq lr hc0] at hs
  have hD := gapD_pos ha har hj1
  obtain ⟨b1, b2⟩ := svr_halley_between hk hT ha har hr1 hy 4 (by linarith : 0 < (-Real.log EPS * T / (C * epsii)) ^ (1 / lr)) (by
    unfold gapD at hD
    linarith) hs.le
  refine ⟨svrHalley (C * epsii) lr la T EPS 4 ((-Real.log EPS * T / (C * epsii)) ^ (1 / lr)), y, ?_, hj1.trans b1, b1, b2, hy⟩
  unfold svrCutoff
  simp only
  rw [if_neg (not_le.2 hc0), svr_start_eq lr hc0, if_neg (not_lt.2 (hj1.trans b1))]

/-- One step with bounds of the relative residual. -/
theorem svr_halley_bound (hk : 0 < kappa) (hT : 0 < T) (ha : 1 ≤ la) (har : la < lr) (h0 : 0 < EPS) {y : ℝ} (hy : gapF lr la y = -Real.log EPS * T / kappa)
    (hE : EPS * y ^ 2 ≤ 2 * (Real.log EPS * (lr - la)) ^ 2) (n : ℕ) {j q q' : ℝ} (hj : 1 ≤ j) (hjc : -Real.log EPS * T / kappa ≤ j ^ lr) (hjy : j ≤ y)
    (hq : lr * (-Real.log EPS * T / kappa - gapF lr la j) ≤ q * gapD lr la j) (hqq : 3 / 2 * q ^ 3 * (1 + 2 * q') ≤ q') (hq3 : 3 * q ^ 3 < 1) :
    ∃ j', 1 ≤ j' ∧ -Real.log EPS * T / kappa ≤ j' ^ lr ∧ j' ≤ y ∧ lr * (-Real.log EPS * T / kappa - gapF lr la j') ≤ q' * gapD lr la j' ∧
      svrHalley kappa lr la T EPS (n + 1) j = svrHalley kappa lr la T EPS n j' := by
  have ha0 : 0 < la := by linarith
  have hj0 : 0 < j := by linarith
  have hr1 : 1 ≤ lr := by linarith
  have hD := gapD_pos ha0 har hj
  have hW := gapW_pos ha0 har hr1 hj0 hD
  have hφ : 0 ≤ -Real.log EPS * T / kappa - gapF lr la j := by
    rw [← hy]
    exact sub_nonneg.2 (gapF_mono ha0 har hj0 hD hjy)
  obtain ⟨b1, b2⟩ := gapH_between ha0 har hr1 hj0 hD hjy hy
  have hcub := gapH_cubic ha har hj hjy hy hq
  refine ⟨gapH lr la (-Real.log EPS * T / kappa) j, hj.trans b1, hjc.trans (Real.rpow_le_rpow hj0.le b1 (by linarith)), b2, ?_, ?_⟩
  · have hD' := gapD_pos ha0 har (hj.trans b1)
    generalize gapD lr la (gapH lr la (-Real.log EPS * T / kappa) j) = D' at hcub hD' ⊢
    generalize lr * (-Real.log EPS * T / kappa - gapF lr la (gapH lr la (-Real.log EPS * T / kappa) j)) = f' at hcub ⊢
    have h1 : (1 - 3 * q ^ 3) * f' ≤ 3 / 2 * q ^ 3 * D' := by linarith
    have h2 : 3 / 2 * q ^ 3 * D' ≤ (1 - 3 * q ^ 3) * q' * D' := mul_le_mul_of_nonneg_right (by linarith) hD'.le
    have h3 : (1 - 3 * q ^ 3) * f' ≤ (1 - 3 * q ^ 3) * (q' * D') := by linarith
    exact le_of_mul_le_mul_left h3 (by linarith)
  · have hs := svr_halley_step (lr := lr) (la := la) (EPS := EPS) hk hT n hj0
    simp only at hs
    rw [hs, if_neg]
    rw [not_lt]
    have hc0 : 0 ≤ gapF lr la y := by
      have hp : y ^ la ≤ y ^ lr := Real.rpow_le_rpow_of_exponent_le (hj.trans hjy) har.le
      unfold gapF
      linarith
    rw [hy] at hc0
    have hDj : (lr - la) * (-Real.log EPS * T / kappa) ≤ gapD lr la j := by
      have hp : j ^ la ≤ j ^ lr := Real.rpow_le_rpow_of_exponent_le hj har.le
      have h2 : (lr - la) * (-Real.log EPS * T / kappa) ≤ (lr - la) * j ^ lr := mul_le_mul_of_nonneg_left hjc (by linarith)
      unfold gapD
      nlinarith
    have hK : 0 < (kappa / T) ^ 2 := by positivity
    have e : 2 * (Real.log EPS * (lr - la)) ^ 2 = (kappa / T) ^ 2 * (2 * ((lr - la) * (-Real.log EPS * T / kappa)) ^ 2) := by
      field_simp
    have h2 : 2 * (Real.log EPS * (lr - la)) ^ 2 ≤ (kappa / T) ^ 2 * (2 * gapD lr la j ^ 2 + (-Real.log EPS * T / kappa - gapF lr la j) * gapW lr la j) := by
      have h4 : ((lr - la) * (-Real.log EPS * T / kappa)) ^ 2 ≤ gapD lr la j ^ 2 :=
        pow_le_pow_left₀ (mul_nonneg (by linarith) hc0) hDj 2
      have h3 := mul_nonneg hφ hW.le
      rw [e]
      exact mul_le_mul_of_nonneg_left (by linarith) hK.le
    rw [← mul_div_assoc, le_div_iff₀ (by positivity)]
    have h5 : EPS * j ^ 2 ≤ EPS * y ^ 2 := mul_le_mul_of_nonneg_left (pow_le_pow_left₀ hj0.le hjy 2) h0.le
    linarith

/-- C112. Four steps are enough: when the thermal energy is large enough, the logarithm of the Boltzmann factor at the distance found differs from that
of the machine precision by less than one part in `10¹¹`.  (The last hypothesis excludes temperatures so high that the code stops early.) -/
theorem svr_cutoff_reached {C epsii : ℝ} (hk : 0 < C * epsii) (hT : 0 < T) (ha : 1 ≤ la) (har : la < lr) (h0 : 0 < EPS) (h1 : EPS < 1)
    (hc : 2 + la / lr ≤ (-Real.log EPS * T / (C * epsii)) ^ ((lr - la) / lr)) (hE : 2 * EPS * T ^ 2 ≤ (C * epsii * (lr - la)) ^ 2) :
    ∃ j, svrCutoff C epsii lr la EPS T = .ok j ∧ 1 ≤ j ∧ 0 ≤ svrResidual (C * epsii) lr la T EPS j ∧
      svrResidual (C * epsii) lr la T EPS j ≤ 1e-11 * -Real.log EPS := by
  have ha0 : 0 < la := by linarith
  have hlr : 0 < lr := by linarith
  have hs0 : 0 < lr - la := by linarith
  have hL : 0 < -Real.log EPS := by linarith [Real.log_neg h0 h1]
  obtain ⟨y, ⟨hy1, hy, hs⟩, _⟩ := svr_cutoff_exists (C * epsii) lr la T EPS hk ha0 har hT h0 h1
  have hyF : gapF lr la y = -Real.log EPS * T / (C * epsii) := svr_root_gap hk hT hy
  generalize hκ : C * epsii = kappa at *
  have hc0 : 0 < -Real.log EPS * T / kappa := by positivity
  rw [svr_start_eq lr hc0] at hs
  generalize hcd : -Real.log EPS * T / kappa = c at *
  have hfrac : 0 < la / lr := by positivity
  have hc1 : 1 ≤ c := by
    by_contra hn
    have := Real.rpow_lt_one hc0.le (not_le.1 hn) (div_pos hs0 hlr)
    linarith
  generalize hx : c ^ (1 / lr) = x at *
  have hx1 : 1 ≤ x := by rw [← hx]; exact Real.one_le_rpow hc1 (by positivity)
  have hx0 : 0 < x := by linarith
  have hxr : x ^ lr = c := by
    rw [← hx, ← Real.rpow_mul hc0.le, one_div_mul_cancel hlr.ne', Real.rpow_one]
  have hxs : x ^ (lr - la) = c ^ ((lr - la) / lr) := by
    rw [← hx, ← Real.rpow_mul hc0.le]
    congr 1
    ring
  have hxa : x ^ lr = x ^ la * x ^ (lr - la) := by
    rw [← Real.rpow_add hx0]
    congr 1
    ring
  have hxap : 0 < x ^ la := Real.rpow_pos_of_pos hx0 _
  -- the first relative residual
  have hq0 : lr * (c - gapF lr la x) ≤ 1 / 2 * gapD lr la x := by
    unfold gapF gapD
    rw [← hxr]
    have h2 : 2 * lr + la ≤ lr * x ^ (lr - la) := by
      rw [hxs]
      have := mul_le_mul_of_nonneg_left hc hlr.le
      rw [mul_add, mul_div_cancel₀ _ hlr.ne'] at this
      linarith
    have h3 : x ^ la * (2 * lr + la) ≤ x ^ la * (lr * x ^ (lr - la)) := mul_le_mul_of_nonneg_left h2 hxap.le
    rw [hxa]
    linarith
  -- the root is not far
  have hyr : y ^ lr ≤ 2 * c := by
    have hy0 : 0 < y := by linarith
    have hya : y ^ lr = y ^ la * y ^ (lr - la) := by
      rw [← Real.rpow_add hy0]
      congr 1
      ring
    have h2 : x ^ (lr - la) ≤ y ^ (lr - la) := Real.rpow_le_rpow hx0.le hs.le hs0.le
    have h3 : 0 < y ^ la := Real.rpow_pos_of_pos hy0 _
    have h4 : y ^ la * 2 ≤ y ^ la * y ^ (lr - la) := mul_le_mul_of_nonneg_left (by linarith) h3.le
    unfold gapF at hyF
    linarith
  have hyc : y ≤ 2 * c := by
    have h2 : y ≤ y ^ lr := by
      calc y = y ^ (1 : ℝ) := (Real.rpow_one y).symm
        _ ≤ y ^ lr := Real.rpow_le_rpow_of_exponent_le hy1.le (by linarith)
    linarith
  have hE' : EPS * y ^ 2 ≤ 2 * (Real.log EPS * (lr - la)) ^ 2 := by
    have h2 : EPS * y ^ 2 ≤ EPS * (2 * c) ^ 2 := mul_le_mul_of_nonneg_left (pow_le_pow_left₀ (by linarith) hyc 2) h0.le
    have h3 : EPS * (2 * c) ^ 2 * kappa ^ 2 ≤ 2 * (Real.log EPS * (lr - la)) ^ 2 * kappa ^ 2 := by
      have e : EPS * (2 * c) ^ 2 * kappa ^ 2 = 2 * Real.log EPS ^ 2 * (2 * EPS * T ^ 2) := by
        rw [← hcd]
        field_simp
      rw [e]
      calc 2 * Real.log EPS ^ 2 * (2 * EPS * T ^ 2) ≤ 2 * Real.log EPS ^ 2 * (kappa * (lr - la)) ^ 2 := mul_le_mul_of_nonneg_left hE (by positivity)
        _ = 2 * (Real.log EPS * (lr - la)) ^ 2 * kappa ^ 2 := by ring
    exact h2.trans (le_of_mul_le_mul_right h3 (by positivity))
  subst hcd
  obtain ⟨j1, a1, c1, y1, q1, e1⟩ := svr_halley_bound hk hT ha har h0 hyF hE' 3 (q := 1 / 2) (q' := 3 / 10) hx1 hxr.ge hs.le hq0 (by norm_num) (by norm_num)
  obtain ⟨j2, a2, c2, y2, q2, e2⟩ := svr_halley_bound hk hT ha har h0 hyF hE' 2 (q := 3 / 10) (q' := 0.0442) a1 c1 y1 q1 (by norm_num) (by norm_num)
  obtain ⟨j3, a3, c3, y3, q3, e3⟩ := svr_halley_bound hk hT ha har h0 hyF hE' 1 (q := 0.0442) (q' := 1.3e-4) a2 c2 y2 q2 (by norm_num) (by norm_num)
  obtain ⟨j4, a4, c4, y4, q4, e4⟩ := svr_halley_bound hk hT ha har h0 hyF hE' 0 (q := 1.3e-4) (q' := 3.3e-12) a3 c3 y3 q3 (by norm_num) (by norm_num)
  have e : svrHalley kappa lr la T EPS 4 x = j4 := by rw [e1, e2, e3, e4]; rfl
  have hj0 : 0 < j4 := by linarith
  have eres : svrResidual kappa lr la T EPS j4 = kappa / T * (-Real.log EPS * T / kappa - gapF lr la j4) := by
    rw [← (svr_fgh_gap (lr := lr) (la := la) (EPS := EPS) hk hT hj0).1]
    simp only [svrFgh, svrResidual]
  refine ⟨j4, ?_, a4, ?_, ?_⟩
  · unfold svrCutoff
    simp only
    rw [hκ, if_neg (not_le.2 hc0), svr_start_eq lr hc0, hx, e, if_neg (not_lt.2 a4)]
  · rw [eres, ← hyF]
    exact mul_nonneg (div_pos hk hT).le (sub_nonneg.2 (gapF_mono ha0 har hj0 (gapD_pos ha0 har a4) y4))
  · rw [eres]
    have hD : gapD lr la j4 ≤ lr * (2 * (-Real.log EPS * T / kappa)) := by
      have h2 : j4 ^ lr ≤ y ^ lr := Real.rpow_le_rpow hj0.le y4 hlr.le
      have h3 : 0 < j4 ^ la := Real.rpow_pos_of_pos hj0 _
      have h4 := mul_le_mul_of_nonneg_left (h2.trans hyr) hlr.le
      unfold gapD
      have := mul_pos ha0 h3
      linarith
    have h5 : lr * (-Real.log EPS * T / kappa - gapF lr la j4) ≤ lr * (3.3e-12 * (2 * (-Real.log EPS * T / kappa))) := by
      have := mul_le_mul_of_nonneg_left hD (by norm_num : (0 : ℝ) ≤ 3.3e-12)
      linarith
    have h6 := le_of_mul_le_mul_left h5 hlr
    calc kappa / T * (-Real.log EPS * T / kappa - gapF lr la j4) ≤ kappa / T * (3.3e-12 * (2 * (-Real.log EPS * T / kappa))) :=
          mul_le_mul_of_nonneg_left h6 (div_pos hk hT).le
      _ = 6.6e-12 * -Real.log EPS := by
        field_simp
        ring
      _ ≤ 1e-11 * -Real.log EPS := mul_le_mul_of_nonneg_right (by norm_num) hL.le

end

section
variable {n : ℕ} (p : SVR n) (i : Fin n)

/-- C112. The diameter is always obtained when the thermal energy is at least the well depth times the constant of the potential, divided by the logarithm
of the machine precision. -/
theorem svr_diameter_found (h : SVRComponent p i) (hk : p.k i i = 0) (EPS T : ℝ) (hT : 0 < T) (h0 : 0 < EPS) (h1 : EPS < 1)
    (hc : mieC (p.lr i) (p.la i) * p.eps i ≤ -Real.log EPS * T) : ∃ d, p.dii EPS i T = .ok d ∧ 0 < d ∧ d ≤ p.sigma i := by
  obtain ⟨hC, eC⟩ := svr_C_pos p i h
  have heps : p.epsIJ i i = p.eps i := congrArg SVRPair.eps (svr_pair_diag p i hk h.eps.le h.sigma h.la.le (h.la.le.trans h.lr.le))
  have h2 := h.la
  have h3 := h.lr
  obtain ⟨j, y, hj, _⟩ := svr_cutoff_found (C := (p.pair i i).C) (epsii := p.epsIJ i i) (la := p.la i) (lr := p.lr i) (by rw [heps]; exact mul_pos hC h.eps) hT
    (by linarith) h3 (by linarith) h0 h1 (by rw [heps, eC]; exact hc)
  obtain ⟨d, hd, d0, _, d1⟩ := svr_diameter p i h EPS T j hT hj
  exact ⟨d, hd, d0, d1⟩

/-- C112. The distance inside of which the code takes the integrand to be one changes the integral by less than the machine precision (to a power that
differs from one by `10⁻¹¹`) times that distance. -/
theorem svr_diameter_cutoff (h : SVRComponent p i) (hk : p.k i i = 0) (EPS T : ℝ) (hT : 0 < T) (h0 : 0 < EPS) (h1 : EPS < 1)
    (hc : 2 + p.la i / p.lr i ≤ (-Real.log EPS * T / (mieC (p.lr i) (p.la i) * p.eps i)) ^ ((p.lr i - p.la i) / p.lr i))
    (hE : 2 * EPS * T ^ 2 ≤ (mieC (p.lr i) (p.la i) * p.eps i * (p.lr i - p.la i)) ^ 2) :
    ∃ j d, svrCutoff (p.pair i i).C (p.epsIJ i i) (p.lr i) (p.la i) EPS T = .ok j ∧ p.dii EPS i T = .ok d ∧ p.sigma i / j ≤ d ∧ d ≤ p.sigma i ∧
      |(∫ r in (0 : ℝ)..p.sigma i, 1 - Real.exp (-(p.u i r) / T)) -
        (p.sigma i / j + ∫ r in (p.sigma i / j)..p.sigma i, 1 - Real.exp (-(p.u i r) / T))| ≤ EPS ^ (1 - 1e-11 : ℝ) * (p.sigma i / j) := by
  obtain ⟨hC, eC⟩ := svr_C_pos p i h
  have heps : p.epsIJ i i = p.eps i := congrArg SVRPair.eps (svr_pair_diag p i hk h.eps.le h.sigma h.la.le (h.la.le.trans h.lr.le))
  have h2 := h.la
  have h3 := h.lr
  obtain ⟨j, hj, j1, r0, r1⟩ := svr_cutoff_reached (C := (p.pair i i).C) (epsii := p.epsIJ i i) (la := p.la i) (lr := p.lr i)
    (by rw [heps]; exact mul_pos hC h.eps) hT (by linarith) h3 h0 h1 (by rw [heps, eC]; exact hc) (by rw [heps, eC]; exact hE)
  obtain ⟨d, hd, d0, dl, d1⟩ := svr_diameter p i h EPS T j hT hj
  refine ⟨j, d, hj, hd, dl, d1, (svr_cutoff_error p i h hk EPS T j hT h0 j1).trans ?_⟩
  refine mul_le_mul_of_nonneg_right ?_ (div_pos h.sigma (by linarith)).le
  rw [Real.rpow_def_of_pos h0]
  nth_rewrite 1 [← Real.exp_log h0]
  rw [← Real.exp_add]
  refine Real.exp_le_exp.2 ?_
  linarith

end

/-! The sample mixture. -/

theorem svrBin_hot (i : Fin 2) : mieC (svrBin.lr i) (svrBin.la i) * svrBin.eps i ≤ 800 ∧ 10200 ≤ -Real.log (1 / 2 ^ 52) * 300 := by
  have hl : (0.69 : ℝ) < Real.log 2 := by linarith [Real.log_two_gt_d9]
  constructor
  · show mieC 12 6 * _ ≤ _
    rw [mieC_lj]
    fin_cases i <;> norm_num [svrBin]
  · rw [one_div, Real.log_inv, Real.log_pow]
    push_cast
    linarith

/-- The diameters of the sample, at the machine precision of the code. -/
theorem svrBin_dii (i : Fin 2) : ∃ d, svrBin.dii (1 / 2 ^ 52) i 300 = .ok d ∧ 0 < d ∧ d ≤ svrBin.sigma i := by
  obtain ⟨h1, h2⟩ := svrBin_hot i
  exact svr_diameter_found svrBin i (svrBin_component i) (by fin_cases i <;> rfl) _ _ (by norm_num) (by norm_num) (by norm_num) (by linarith)

example : ∃ j d, svrCutoff (svrBin.pair 0 0).C (svrBin.epsIJ 0 0) 12 6 (1 / 2 ^ 52) 300 = .ok j ∧ svrBin.dii (1 / 2 ^ 52) 0 300 = .ok d ∧ svrBin.sigma 0 / j ≤ d := by
  have e : mieC (svrBin.lr 0) (svrBin.la 0) * svrBin.eps 0 = 600 := by
    show mieC 12 6 * 150 = 600
    rw [mieC_lj]
    norm_num
  obtain ⟨j, d, h1, h2, h3, _⟩ := svr_diameter_cutoff svrBin 0 (svrBin_component 0) rfl (1 / 2 ^ 52) 300 (by norm_num) (by norm_num) (by norm_num) (by
      rw [e]
      show (2 : ℝ) + 6 / 12 ≤ _ ^ (((12 : ℝ) - 6) / 12)
      have h := (svrBin_hot 0).2
      rw [show ((12 : ℝ) - 6) / 12 = 1 / 2 by norm_num, ← Real.sqrt_eq_rpow]
      refine Real.le_sqrt_of_sq_le ?_
      rw [le_div_iff₀ (by norm_num)]
      linarith) (by
      rw [e]
      show (2 : ℝ) * (1 / 2 ^ 52) * 300 ^ 2 ≤ (600 * (12 - 6)) ^ 2
      norm_num)
  exact ⟨j, d, h1, h2, h3⟩

/-- The calculation of the sample goes through at zero density. -/
theorem svrBin_core (NA : ℝ) : ∃ v, svrBin.core NA (1 / 2 ^ 52) 300 0 [1 / 4, 3 / 4] = .ok v := by
  choose d hd hp _ using svrBin_dii
  have hx : (fun i : Fin 2 => ([1 / 4, 3 / 4] : List ℝ).get (i.cast rfl)) = ![1 / 4, 3 / 4] := by
    funext i
    fin_cases i <;> rfl
  have hr : svrBin.rhos NA 0 ![1 / 4, 3 / 4] = 0 := by simp [SVR.rhos]
  unfold SVR.core
  rw [dif_pos (by rfl), finLoop_ok _ _ hd, Outcome.bind_ok]
  refine ⟨_, if_pos ?_⟩
  rw [hx, hr]
  exact svrBin_fine_of d hp 300 (by norm_num)

end Teqp.Props
