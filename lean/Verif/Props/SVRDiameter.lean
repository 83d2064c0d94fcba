import Verif.Props.SVRMix
import Mathlib.Analysis.SpecialFunctions.Pow.Deriv
import Mathlib.Analysis.SpecialFunctions.Pow.Continuity
import Mathlib.MeasureTheory.Integral.IntervalIntegral.Basic
import Mathlib.MeasureTheory.Function.SpecialFunctions.Basic
import Mathlib.Topology.Order.IntermediateValue
import Mathlib.Tactic.FunProp

/-! # C112: the temperature-dependent diameter of SAFT-VR-Mie -/

set_option autoImplicit false

namespace Teqp.Spec

/-- The residual of which the cutoff is the root: the logarithm of the Boltzmann factor at the distance `sigma/j`, minus that of
the machine precision. -/
noncomputable def svrResidual (kappa lr la T EPS j : ℝ) : ℝ := -(kappa * (j ^ lr - j ^ la)) / T - Real.log EPS

end Teqp.Spec

namespace Teqp.Props
open Model Spec Finset

/-- C112. The three values of which Halley's steps are made are the residual and its exact first and second derivatives. -/
theorem svr_fgh (kappa lr la T EPS j : ℝ) (hj : 0 < j) :
    (svrFgh kappa lr la T (Real.log EPS) j).1 = svrResidual kappa lr la T EPS j ∧
      HasDerivAt (svrResidual kappa lr la T EPS) (svrFgh kappa lr la T (Real.log EPS) j).2.1 j ∧
      HasDerivAt (fun j => (svrFgh kappa lr la T (Real.log EPS) j).2.1) (svrFgh kappa lr la T (Real.log EPS) j).2.2 j := by
  have hp : ∀ l : ℝ, HasDerivAt (fun j : ℝ => j ^ l) (l * j ^ (l - 1)) j := fun l => Real.hasDerivAt_rpow_const (Or.inl hj.ne')
  have hs : ∀ l : ℝ, j ^ (l - 1) = j ^ l / j := fun l => Real.rpow_sub_one hj.ne' l
  refine ⟨?_, ?_, ?_⟩
  · simp only [svrFgh, svrResidual]
  · unfold svrResidual
    refine (((((hp lr).sub (hp la)).const_mul kappa).neg.div_const T).sub_const _).congr_deriv ?_
    simp only [svrFgh]
    rw [hs, hs]
    ring
  · simp only [svrFgh]
    have h := ((((((hp lr).const_mul lr).sub ((hp la).const_mul la)).const_mul kappa).div (hasDerivAt_id j) hj.ne').neg.div_const T)
    refine h.congr_deriv ?_
    simp only [id, Pi.sub_apply, hs]
    field_simp
    ring

theorem svr_pow_gap (lr la : ℝ) (ha : 0 < la) (hr : la < lr) : StrictMonoOn (fun j : ℝ => j ^ lr - j ^ la) (Set.Ici 1) := by
  intro a (h1 : 1 ≤ a) b (h2 : 1 ≤ b) hab
  have e : ∀ y : ℝ, 1 ≤ y → y ^ lr - y ^ la = y ^ la * (y ^ (lr - la) - 1) := by
    intro y hy
    rw [mul_sub, ← Real.rpow_add (by linarith), mul_one]
    congr 2
    ring
  show a ^ lr - a ^ la < b ^ lr - b ^ la
  rw [e a h1, e b h2]
  have p1 : a ^ la < b ^ la := Real.rpow_lt_rpow (by linarith) hab ha
  have p2 : a ^ (lr - la) < b ^ (lr - la) := Real.rpow_lt_rpow (by linarith) hab (by linarith)
  have p3 : 1 ≤ a ^ (lr - la) := Real.one_le_rpow h1 (by linarith)
  have p4 : 0 < a ^ la := Real.rpow_pos_of_pos (by linarith) _
  nlinarith

/-- C112. The cutoff sought exists, is unique among the distances inside of the zero of the potential, and the starting value of the
iteration lies outside of it. -/
theorem svr_cutoff_exists (kappa lr la T EPS : ℝ) (hk : 0 < kappa) (ha : 0 < la) (hr : la < lr) (hT : 0 < T) (h0 : 0 < EPS) (h1 : EPS < 1) :
    ∃! j, 1 < j ∧ svrResidual kappa lr la T EPS j = 0 ∧ Real.exp (Real.log (-Real.log EPS * T / kappa) / lr) < j := by
  have hL : 0 < -Real.log EPS := by linarith [Real.log_neg h0 h1]
  set c := -Real.log EPS * T / kappa with hc
  have hc0 : 0 < c := by positivity
  have hres : ∀ j, svrResidual kappa lr la T EPS j = 0 ↔ j ^ lr - j ^ la = c := by
    intro j
    unfold svrResidual
    rw [hc, eq_div_iff hk.ne', sub_eq_zero, div_eq_iff hT.ne']
    constructor <;> intro h <;> linarith
  have hmono := svr_pow_gap lr la ha hr
  have hcont : ContinuousOn (fun j : ℝ => j ^ lr - j ^ la) (Set.Ici 1) := by
    refine ContinuousOn.sub ?_ ?_ <;> exact ContinuousOn.rpow_const continuousOn_id fun x hx => Or.inl (by
      have : (1 : ℝ) ≤ x := hx
      linarith)
  have hd : 0 < lr - la := by linarith
  -- a point beyond the root
  obtain ⟨b, hb1, hb⟩ : ∃ b : ℝ, 1 ≤ b ∧ c ≤ b ^ lr - b ^ la := by
    refine ⟨(c + 1) ^ (1 / (lr - la)), Real.one_le_rpow (by linarith) (by positivity), ?_⟩
    set b := (c + 1) ^ (1 / (lr - la)) with hbd
    have hb1 : 1 ≤ b := Real.one_le_rpow (by linarith) (by positivity)
    have e1 : b ^ (lr - la) = c + 1 := by
      rw [hbd, ← Real.rpow_mul (by linarith), one_div, inv_mul_cancel₀ hd.ne', Real.rpow_one]
    have e2 : b ^ lr = b ^ la * (c + 1) := by
      rw [← e1, ← Real.rpow_add (by linarith)]
      congr 1
      ring
    have e3 : 1 ≤ b ^ la := Real.one_le_rpow hb1 ha.le
    rw [e2]
    nlinarith
  have hz : (1 : ℝ) ^ lr - 1 ^ la = 0 := by simp
  obtain ⟨j, hj, hje⟩ := intermediate_value_Icc hb1 (hcont.mono Set.Icc_subset_Ici_self) ⟨by rw [hz]; exact hc0.le, hb⟩
  have hj1 : 1 < j := by
    rcases hj.1.lt_or_eq with h | h
    · exact h
    · rw [← h] at hje
      simp only at hje
      rw [hz] at hje
      linarith
  have hstart : Real.exp (Real.log c / lr) < j := by
    have hlr : 0 < lr := by linarith
    have e : Real.exp (Real.log c / lr) = c ^ (1 / lr) := by
      rw [Real.rpow_def_of_pos hc0]
      congr 1
      ring
    have hlt : c < j ^ lr := by
      have : 0 < j ^ la := Real.rpow_pos_of_pos (by linarith) _
      simp only at hje
      linarith
    rw [e]
    calc c ^ (1 / lr) < (j ^ lr) ^ (1 / lr) := Real.rpow_lt_rpow hc0.le hlt (by positivity)
      _ = j := by
        rw [← Real.rpow_mul (by linarith), mul_one_div_cancel hlr.ne', Real.rpow_one]
  refine ⟨j, ⟨hj1, (hres j).2 hje, hstart⟩, fun y hy => ?_⟩
  exact hmono.injOn (Set.mem_Ici.2 hy.1.le) (Set.mem_Ici.2 hj1.le) (((hres y).1 hy.2.1).trans hje.symm)

/-- C112. A root of the residual is left alone by Halley's steps. -/
theorem svr_halley_fixed (kappa lr la T EPS j : ℝ) (n : ℕ) (hj : svrResidual kappa lr la T EPS j = 0) : svrHalley kappa lr la T EPS n j = j := by
  induction n with
  | zero => rfl
  | succ n ih =>
    unfold svrHalley
    have h0 : (svrFgh kappa lr la T (Real.log EPS) j).1 = 0 := by
      rw [← hj]
      simp only [svrFgh, svrResidual]
    simp only [h0]
    split
    · rfl
    · rw [show j - 2 * 0 * (svrFgh kappa lr la T (Real.log EPS) j).2.1 / (2 * (svrFgh kappa lr la T (Real.log EPS) j).2.1 * (svrFgh kappa lr la T (Real.log EPS) j).2.1
          - 0 * (svrFgh kappa lr la T (Real.log EPS) j).2.2) = j by simp]
      exact ih

theorem gl10_weights : (∀ q ∈ gl10, 0 < q.2 ∧ -10000000000000000 < q.1 ∧ q.1 < 10000000000000000) ∧ (gl10.map (·.2)).sum ≤ 20000000000000000 := by decide +kernel

/-- The ten-point rule of a function between zero and one lies between zero and the length of the interval. -/
theorem quad10_bounds (F : ℝ → ℝ) (a b : ℝ) (hab : a ≤ b) (hF : ∀ r, a ≤ r → r ≤ b → 0 ≤ F r ∧ F r ≤ 1) :
    ∃ q, quad 10 F a b = .ok q ∧ 0 ≤ q ∧ q ≤ b - a := by
  obtain ⟨hw, hsum⟩ := gl10_weights
  refine ⟨_, rfl, ?_⟩
  have hpt : ∀ t : ℝ, -1 < t → t < 1 → a ≤ (b - a) / 2 * t + (a + b) / 2 ∧ (b - a) / 2 * t + (a + b) / 2 ≤ b := by
    intro t h1 h2
    constructor <;> nlinarith
  have key : ∀ l : List (Int × Int), (∀ q ∈ l, 0 < q.2 ∧ -10000000000000000 < q.1 ∧ q.1 < 10000000000000000) →
      0 ≤ ((decimalRule l).map fun p => p.2 * F ((b - a) / 2 * p.1 + (a + b) / 2)).sum ∧
      ((decimalRule l).map fun p => p.2 * F ((b - a) / 2 * p.1 + (a + b) / 2)).sum ≤ ((l.map (·.2)).sum : ℤ) / 1e16 := by
    intro l
    induction l with
    | nil => intro _; simp [decimalRule]
    | cons q l ih =>
      intro h
      obtain ⟨i1, i2⟩ := ih fun q hq => h q (List.mem_cons_of_mem _ hq)
      obtain ⟨w0, n1, n2⟩ := h q (List.mem_cons_self)
      simp only [decimalRule, List.map_cons, List.sum_cons] at i1 i2 ⊢
      have w0' : (0 : ℝ) < q.2 := by exact_mod_cast w0
      have n1' : (-10000000000000000 : ℝ) < q.1 := by exact_mod_cast n1
      have n2' : (q.1 : ℝ) < 10000000000000000 := by exact_mod_cast n2
      have hp := hpt ((q.1 : ℝ) / 10 ^ 16) (by rw [lt_div_iff₀ (by norm_num)]; linarith) (by rw [div_lt_iff₀ (by norm_num)]; linarith)
      obtain ⟨f0, f1⟩ := hF _ hp.1 hp.2
      have hw0 : 0 < (q.2 : ℝ) / 10 ^ 16 := by positivity
      constructor
      · have := mul_nonneg hw0.le f0
        linarith
      · have := mul_le_mul_of_nonneg_left f1 hw0.le
        rw [Int.cast_add, add_div (q.2 : ℝ)]
        have e : (1e16 : ℝ) = 10 ^ 16 := by norm_num
        rw [e] at i2 ⊢
        rw [mul_one] at this
        exact add_le_add this i2
  obtain ⟨k1, k2⟩ := key gl10 hw
  have h2 : (((gl10.map (·.2)).sum : ℤ) : ℝ) / 1e16 ≤ 2 := by
    rw [div_le_iff₀ (by norm_num)]
    have : (((gl10.map (·.2)).sum : ℤ) : ℝ) ≤ 20000000000000000 := by exact_mod_cast hsum
    linarith
  have hb : 0 ≤ (b - a) / 2 := by linarith
  constructor
  · exact mul_nonneg hb k1
  · nlinarith [mul_le_mul_of_nonneg_left (k2.trans h2) hb]

section
variable {n : ℕ} (p : SVR n) (i : Fin n)

/-- The assumptions on one component. -/
structure SVRComponent : Prop where
  la : 3 < p.la i
  lr : p.la i < p.lr i
  sigma : 0 < p.sigma i
  eps : 0 < p.eps i

theorem svr_C_pos (h : SVRComponent p i) : 0 < (p.pair i i).C ∧ (p.pair i i).C = mieC (p.lr i) (p.la i) := by
  have hl : ∀ a : ℝ, 3 ≤ a → svrLam a a = a := by
    intro a h
    unfold svrLam
    rw [Real.sqrt_mul_self (by linarith)]
    ring
  have h1 := h.la
  have h2 := h.lr
  have e : (p.pair i i).C = mieC (p.lr i) (p.la i) := by
    unfold SVRPair.C mieC SVR.pair
    simp only [hl _ h1.le, hl _ (h1.le.trans h2.le)]
  refine ⟨?_, e⟩
  rw [e]
  unfold mieC
  have h4 : 0 < p.lr i := by linarith
  have h5 : 0 < p.la i := by linarith
  have h3 : 0 < p.lr i - p.la i := by linarith
  exact mul_pos (div_pos h4 h3) (Real.rpow_pos_of_pos (div_pos h4 h5) _)

/-- Inside of its zero the potential is repulsive, and rises inwards. -/
theorem svr_u_antitone (h : SVRComponent p i) {r s : ℝ} (h0 : 0 < r) (hrs : r ≤ s) (hs : s ≤ p.sigma i) : 0 ≤ p.u i s ∧ p.u i s ≤ p.u i r := by
  have hC := (svr_C_pos p i h).1
  have hmono := (svr_pow_gap (p.lr i) (p.la i) (by linarith [h.la]) h.lr).monotoneOn
  have hs0 : 0 < s := by linarith
  have a1 : 1 ≤ p.sigma i / s := by rw [le_div_iff₀ hs0]; linarith
  have a2 : p.sigma i / s ≤ p.sigma i / r := by
    rw [div_le_div_iff₀ hs0 h0]
    exact mul_le_mul_of_nonneg_left hrs h.sigma.le
  have m1 := hmono (Set.mem_Ici.2 (le_refl (1 : ℝ))) (Set.mem_Ici.2 a1) a1
  have m2 := hmono (Set.mem_Ici.2 a1) (Set.mem_Ici.2 (a1.trans a2)) a2
  simp only [Real.one_rpow, sub_self] at m1 m2
  have hp : 0 ≤ (p.pair i i).C * p.eps i := (mul_pos hC h.eps).le
  exact ⟨mul_nonneg hp m1, mul_le_mul_of_nonneg_left m2 hp⟩

/-- C112. Once a cutoff is found the diameter is obtained, and lies between the cutoff and `sigma`: the check for a diameter above
`sigma` cannot fail in exact arithmetic. -/
theorem svr_diameter (h : SVRComponent p i) (EPS T j : ℝ) (hT : 0 < T)
    (hj : svrCutoff (p.pair i i).C (p.epsIJ i i) (p.lr i) (p.la i) EPS T = .ok j) :
    ∃ d, p.dii EPS i T = .ok d ∧ 0 < d ∧ p.sigma i / j ≤ d ∧ d ≤ p.sigma i := by
  have hj1 : 1 ≤ j := by
    unfold svrCutoff at hj
    dsimp only at hj
    split at hj
    · cases hj
    · split at hj
      · cases hj
      · next hn =>
        rw [← Outcome.ok.inj hj]
        exact not_lt.1 hn
  have hrc : 0 < p.sigma i / j := div_pos h.sigma (by linarith)
  have hrs : p.sigma i / j ≤ p.sigma i := div_le_self h.sigma.le hj1
  obtain ⟨q, hq, q0, q1⟩ := quad10_bounds (fun r => 1 - Real.exp (-(p.u i r) / T)) (p.sigma i / j) (p.sigma i) hrs (by
    intro r h1 h2
    have hu := (svr_u_antitone p i h (lt_of_lt_of_le hrc h1) le_rfl h2).1
    have e1 : Real.exp (-(p.u i r) / T) ≤ 1 := Real.exp_le_one_iff.2 (div_nonpos_of_nonpos_of_nonneg (by linarith) hT.le)
    have e2 := Real.exp_pos (-(p.u i r) / T)
    constructor <;> linarith)
  refine ⟨p.sigma i / j + q, ?_, by linarith, by linarith, by linarith⟩
  unfold SVR.dii
  rw [hj, Outcome.bind_ok]
  simp only
  rw [hq, Outcome.bind_ok, if_neg (by linarith)]

/-- C112. Whatever the parameters, a diameter that is returned does not exceed `sigma`. -/
theorem svr_dii_le (EPS T d : ℝ) (hd : p.dii EPS i T = .ok d) : d ≤ p.sigma i := by
  unfold SVR.dii at hd
  cases hj : svrCutoff (p.pair i i).C (p.epsIJ i i) (p.lr i) (p.la i) EPS T with
  | ok j =>
    rw [hj, Outcome.bind_ok] at hd
    simp only [quad, quadRule, Outcome.bind_ok] at hd
    split at hd
    · cases hd
    · next hn =>
      rw [← Outcome.ok.inj hd]
      exact not_lt.1 hn
  | throws e => rw [hj] at hd; cases hd
  | ub => rw [hj] at hd; cases hd
  | nonFinite => rw [hj] at hd; cases hd

/-- C112. Replacing the integrand by one inside of a cutoff changes the diameter by at most the cutoff times the Boltzmann factor there, which is
`EPS` for the exact cutoff. -/
theorem svr_cutoff_error (h : SVRComponent p i) (hk : p.k i i = 0) (EPS T j : ℝ) (hT : 0 < T) (h0 : 0 < EPS) (hj : 1 ≤ j) :
    |(∫ r in (0 : ℝ)..p.sigma i, 1 - Real.exp (-(p.u i r) / T)) -
      (p.sigma i / j + ∫ r in (p.sigma i / j)..p.sigma i, 1 - Real.exp (-(p.u i r) / T))| ≤
        EPS * Real.exp (svrResidual ((p.pair i i).C * p.epsIJ i i) (p.lr i) (p.la i) T EPS j) * (p.sigma i / j) := by
  have heps : p.epsIJ i i = p.eps i := by
    have := svr_pair_diag p i hk h.eps.le h.sigma h.la.le (h.la.le.trans h.lr.le)
    exact congrArg SVRPair.eps this
  set rc := p.sigma i / j with hrcd
  have hrc : 0 < rc := div_pos h.sigma (by linarith)
  have hrs : rc ≤ p.sigma i := div_le_self h.sigma.le hj
  have hu : -(p.u i rc) / T = Real.log EPS + svrResidual ((p.pair i i).C * p.epsIJ i i) (p.lr i) (p.la i) T EPS j := by
    unfold svrResidual
    rw [heps]
    have : p.sigma i / rc = j := by
      rw [hrcd, div_div_cancel₀ h.sigma.ne']
    unfold SVR.u
    rw [this]
    ring
  have hm : Measurable fun r => 1 - Real.exp (-(p.u i r) / T) := by
    unfold SVR.u
    fun_prop
  have hb : ∀ r, 0 < r → r ≤ p.sigma i → ‖1 - Real.exp (-(p.u i r) / T)‖ ≤ 1 := by
    intro r h1 h2
    have hu := (svr_u_antitone p i h h1 le_rfl h2).1
    have e1 : Real.exp (-(p.u i r) / T) ≤ 1 := Real.exp_le_one_iff.2 (div_nonpos_of_nonpos_of_nonneg (by linarith) hT.le)
    have e2 := Real.exp_pos (-(p.u i r) / T)
    rw [Real.norm_eq_abs, abs_le]
    constructor <;> linarith
  have hint : ∀ a b : ℝ, 0 ≤ a → a ≤ b → b ≤ p.sigma i → IntervalIntegrable (fun r => 1 - Real.exp (-(p.u i r) / T)) MeasureTheory.volume a b := by
    intro a b ha hab hb'
    rw [intervalIntegrable_iff_integrableOn_Ioc_of_le hab]
    refine MeasureTheory.Measure.integrableOn_of_bounded (M := 1) (by simp) hm.aestronglyMeasurable ?_
    refine (MeasureTheory.ae_restrict_iff' measurableSet_Ioc).2 (Filter.Eventually.of_forall fun r hr => hb r (by linarith [hr.1]) (by linarith [hr.2]))
  rw [← intervalIntegral.integral_add_adjacent_intervals (hint 0 rc le_rfl hrc.le hrs) (hint rc (p.sigma i) hrc.le hrs le_rfl)]
  have e1 : (∫ r in (0 : ℝ)..rc, 1 - Real.exp (-(p.u i r) / T)) + (∫ r in rc..p.sigma i, 1 - Real.exp (-(p.u i r) / T)) -
      (rc + ∫ r in rc..p.sigma i, 1 - Real.exp (-(p.u i r) / T)) = ∫ r in (0 : ℝ)..rc, ((1 - Real.exp (-(p.u i r) / T)) - 1) := by
    rw [intervalIntegral.integral_sub (hint 0 rc le_rfl hrc.le hrs) intervalIntegrable_const]
    simp
  rw [e1]
  have := intervalIntegral.norm_integral_le_of_norm_le_const (a := 0) (b := rc) (C := EPS * Real.exp (svrResidual ((p.pair i i).C * p.epsIJ i i) (p.lr i) (p.la i) T EPS j)) (f := fun r => (1 - Real.exp (-(p.u i r) / T)) - 1) (by
    intro r hr
    rw [Set.uIoc_of_le hrc.le] at hr
    have ha := (svr_u_antitone p i h hr.1 hr.2 hrs).2
    have e2 := Real.exp_pos (-(p.u i r) / T)
    rw [Real.norm_eq_abs, abs_of_nonpos (by linarith)]
    have : Real.exp (-(p.u i r) / T) ≤ EPS * Real.exp (svrResidual ((p.pair i i).C * p.epsIJ i i) (p.lr i) (p.la i) T EPS j) := by
      nth_rewrite 1 [← Real.exp_log h0]
      rw [← Real.exp_add, ← hu]
      refine Real.exp_le_exp.2 ((div_le_div_iff_of_pos_right hT).2 ?_)
      linarith
    linarith)
  rw [sub_zero, abs_of_pos hrc] at this
  exact this

end

/-- C112. The sign of the temperature and of the well decide about the first logarithm: no diameter at zero or negative temperature. -/
theorem svr_cutoff_nonFinite (C epsii lr la EPS T : ℝ) (hc : 0 < C * epsii) (hT : T ≤ 0) (h0 : 0 < EPS) (h1 : EPS < 1) :
    svrCutoff C epsii lr la EPS T = .nonFinite := by
  unfold svrCutoff
  have hL : 0 < -Real.log EPS := by linarith [Real.log_neg h0 h1]
  exact if_pos (div_nonpos_of_nonpos_of_nonneg (mul_nonpos_of_nonneg_of_nonpos hL.le hT) hc.le)

/-! The sample mixture. -/

theorem svrBin_component (i : Fin 2) : SVRComponent svrBin i := by
  constructor <;> fin_cases i <;> norm_num [svrBin]

example : ∃! j, 1 < j ∧ svrResidual 600 12 6 300 1e-16 j = 0 ∧ Real.exp (Real.log (-Real.log 1e-16 * 300 / 600) / 12) < j :=
  svr_cutoff_exists 600 12 6 300 1e-16 (by norm_num) (by norm_num) (by norm_num) (by norm_num) (by norm_num) (by norm_num)

example (EPS T j : ℝ) (hT : 0 < T) (hj : svrCutoff (svrBin.pair 1 1).C (svrBin.epsIJ 1 1) 12 6 EPS T = .ok j) :
    ∃ d, svrBin.dii EPS 1 T = .ok d ∧ 0 < d ∧ svrBin.sigma 1 / j ≤ d ∧ d ≤ svrBin.sigma 1 := svr_diameter svrBin 1 (svrBin_component 1) EPS T j hT hj

end Teqp.Props
