import Verif.Model.MultiFluidExt
import Verif.Props.MultiFluid
import Verif.Props.ReducingFn
import Mathlib.Analysis.SpecialFunctions.Pow.Continuity
import Mathlib.Analysis.SpecialFunctions.Log.Deriv
import Mathlib.Tactic

/-! # Ammonia-water (C90), activity departures (C91) and the corresponding-states mutant (C92) -/

set_option autoImplicit false

namespace Teqp.Props
open Finset Teqp.Model Filter Topology

/-! ## Ammonia and water -/

/-- The reducing functions of ammonia-water are positive at every composition that the model accepts. -/
theorem aw_reducing_pos (x : ℝ) (h0 : 0 < x) (h1 : x ≤ 1) : 0 < awTredVal x ∧ 0 < awVredVal x := by
  have key : ∀ (a b k e : ℝ), 0 < a → 0 < b → 0 < k → 0 < e →
      0 < a * x * x + b * (1 - x) * (1 - x) + 2 * x * (1 - x ^ e) * k / 2 * (a + b) := by
    intro a b k e ha hb hk he
    have h2 : x ^ e ≤ 1 := Real.rpow_le_one h0.le h1 he.le
    have h3 : 0 < a * x * x := by positivity
    have h4 : 0 ≤ b * (1 - x) * (1 - x) := by
      have : 0 ≤ 1 - x := by linarith
      positivity
    have h5 : 0 ≤ 2 * x * (1 - x ^ e) * k / 2 * (a + b) := by
      have : 0 ≤ 1 - x ^ e := by linarith
      positivity
    linarith
  constructor
  · exact key _ _ _ _ (by unfold awTcNH3; norm_num) (by unfold awTcH2O; norm_num) (by norm_num) (by norm_num)
  · exact key _ _ _ _ (by unfold awVcNH3; norm_num) (by unfold awVcH2O; norm_num) (by norm_num) (by norm_num)

example : (0 : ℝ) < 0.3 ∧ (0.3 : ℝ) ≤ 1 := by norm_num

/-- The value of the model between the pure fluids; the second mole fraction is not read. -/
theorem aw_value (p0 p1 : ℝ → ℝ → ℝ) (T rho x y : ℝ) (hT : T ≠ 0) (h0 : 0 < x) (h1 : x ≤ 1) :
    awAlphar p0 p1 T rho [x, y] = .ok (p0 (awTredVal x / T) (rho * awVredVal x) * x + p1 (awTredVal x / T) (rho * awVredVal x) * (1 - x)
      + x * (1 - x ^ (0.5248379 : ℝ)) * awSum (awTredVal x / T) (rho * awVredVal x) x) := by
  have hv := (aw_reducing_pos x h0 h1).2.ne'
  unfold awAlphar awTred awRhored
  simp only
  rw [if_neg h0.ne', if_neg (not_lt.mpr h0.le), Outcome.bind_ok, if_neg h0.ne', if_neg (by push Not; exact ⟨h0.le, hv⟩), Outcome.bind_ok,
    if_neg (by push Not; exact ⟨hT, one_div_ne_zero hv⟩)]
  unfold awDeparture
  rw [if_neg h0.ne']
  simp only [one_div, div_inv_eq_mul]

/-- **Pure ammonia**: at mole fraction one the model is the equation of state of ammonia at its own reduced variables. -/
theorem aw_ammonia (p0 p1 : ℝ → ℝ → ℝ) (T rho y : ℝ) (hT : T ≠ 0) :
    awAlphar p0 p1 T rho [1, y] = .ok (p0 (405.40 / T) (rho * (0.01703026 / 225))) := by
  rw [aw_value p0 p1 T rho 1 y hT one_pos le_rfl]
  have e1 : awTredVal 1 = 405.40 := by
    unfold awTredVal awTcNH3
    rw [Real.one_rpow]
    ring
  have e2 : awVredVal 1 = 0.01703026 / 225 := by
    unfold awVredVal awVcNH3
    rw [Real.one_rpow]
    ring
  rw [e1, e2, Real.one_rpow]
  congr 1
  ring

example : (300 : ℝ) ≠ 0 := by norm_num

theorem awTred_continuous : Continuous awTredVal := by
  unfold awTredVal
  have h : Continuous fun x : ℝ => x ^ (1.125455 : ℝ) := Real.continuous_rpow_const (by norm_num)
  fun_prop

theorem awVred_continuous : Continuous awVredVal := by
  unfold awVredVal
  have h : Continuous fun x : ℝ => x ^ (0.8978069 : ℝ) := Real.continuous_rpow_const (by norm_num)
  fun_prop

/-- **Pure water is refused although it is the limit**: at mole fraction zero every state throws, while for mole fractions of
ammonia that go to zero the values converge to the equation of state of water. -/
theorem aw_water (p0 p1 : ℝ → ℝ → ℝ) (T rho : ℝ) (hT : 0 < T)
    (h0 : ContinuousAt (fun q : ℝ × ℝ => p0 q.1 q.2) (647.096 / T, rho * (0.018015268 / 322)))
    (h1 : ContinuousAt (fun q : ℝ × ℝ => p1 q.1 q.2) (647.096 / T, rho * (0.018015268 / 322))) :
    (∀ y, awAlphar p0 p1 T rho [0, y] = .throws .invalidArgument) ∧
    ∃ a : ℝ → ℝ, (∀ x y, 0 < x → x ≤ 1 → awAlphar p0 p1 T rho [x, y] = .ok (a x)) ∧
      Tendsto a (𝓝[>] 0) (𝓝 (p1 (647.096 / T) (rho * (0.018015268 / 322)))) := by
  refine ⟨fun y => ?_, _, fun x y hx hx' => aw_value p0 p1 T rho x y hT.ne' hx hx', ?_⟩
  · unfold awAlphar awTred
    simp [Outcome.bind]
  have e1 : awTredVal 0 = 647.096 := by
    unfold awTredVal awTcH2O
    ring
  have e2 : awVredVal 0 = 0.018015268 / 322 := by
    unfold awVredVal awVcH2O
    ring
  have ct : ContinuousAt (fun x => awTredVal x / T) 0 := (awTred_continuous.div_const T).continuousAt
  have cv : ContinuousAt (fun x => rho * awVredVal x) 0 := (awVred_continuous.const_mul rho).continuousAt
  have ht0 : awTredVal 0 / T ≠ 0 := by rw [e1]; positivity
  have cq : ContinuousAt (fun x => (awTredVal x / T, rho * awVredVal x)) 0 := ct.prodMk cv
  have c0 : ContinuousAt (fun x => p0 (awTredVal x / T) (rho * awVredVal x)) 0 := by
    refine ContinuousAt.comp (g := fun q : ℝ × ℝ => p0 q.1 q.2) (f := fun x => (awTredVal x / T, rho * awVredVal x)) ?_ cq
    rw [e1, e2]
    exact h0
  have c1 : ContinuousAt (fun x => p1 (awTredVal x / T) (rho * awVredVal x)) 0 := by
    refine ContinuousAt.comp (g := fun q : ℝ × ℝ => p1 q.1 q.2) (f := fun x => (awTredVal x / T, rho * awVredVal x)) ?_ cq
    rw [e1, e2]
    exact h1
  have cterm : ∀ i, ContinuousAt (fun x => awTerm (awTredVal x / T) (rho * awVredVal x) i) 0 := by
    intro i
    unfold awTerm
    exact (continuousAt_const.mul (ct.rpow_const (Or.inl ht0))).mul (cv.pow _)
  have ctermE : ∀ i, ContinuousAt (fun x => awTermE (awTredVal x / T) (rho * awVredVal x) i) 0 := by
    intro i
    unfold awTermE
    exact (cterm i).mul (Real.continuous_exp.continuousAt.comp (cv.pow _).neg)
  have cs : ContinuousAt (fun x => awSum (awTredVal x / T) (rho * awVredVal x) x) 0 := by
    unfold awSum
    refine (((cterm 1).add ?_).add ?_).add ((continuousAt_id.mul continuousAt_id).mul (ctermE 14))
    · exact tendsto_finsetSum _ fun i _ => ctermE i
    · exact tendsto_finsetSum _ fun i _ => continuousAt_id.mul (ctermE i)
  have cp : ContinuousAt (fun x : ℝ => x ^ (0.5248379 : ℝ)) 0 := (Real.continuous_rpow_const (by norm_num)).continuousAt
  have ctot : ContinuousAt (fun x => p0 (awTredVal x / T) (rho * awVredVal x) * x + p1 (awTredVal x / T) (rho * awVredVal x) * (1 - x)
      + x * (1 - x ^ (0.5248379 : ℝ)) * awSum (awTredVal x / T) (rho * awVredVal x) x) 0 :=
    ((c0.mul continuousAt_id).add (c1.mul (continuousAt_const.sub continuousAt_id))).add ((continuousAt_id.mul (continuousAt_const.sub cp)).mul cs)
  have := ctot.tendsto.mono_left (nhdsWithin_le_nhds (s := Set.Ioi 0))
  simpa only [mul_zero, sub_zero, mul_one, zero_mul, add_zero, zero_add, e1, e2] using this

example : ContinuousAt (fun q : ℝ × ℝ => (fun tau delta : ℝ => delta * tau - delta ^ 2) q.1 q.2) (647.096 / 300, 20000 * (0.018015268 / 322)) := by
  fun_prop

/-- Compositions of another length are refused. -/
theorem aw_sizes (p0 p1 : ℝ → ℝ → ℝ) (T rho : ℝ) (x : List ℝ) (hx : x.length ≠ 2) : awAlphar p0 p1 T rho x = .throws .invalidArgument := by
  unfold awAlphar
  match x with
  | [] => rfl
  | [_] => rfl
  | [_, _] => simp at hx
  | _ :: _ :: _ :: _ => rfl

/-! ## A departure from an activity model -/

/-- The residual Helmholtz energy of component `i` alone. -/
noncomputable def purePart {n : ℕ} (m : PlusActivity n) (i : Fin n) (T rho : ℝ) : ℝ := containerAlphar (m.mf.eos i) (m.Tc i / T) (rho * m.vc i)

theorem summer_eq {n : ℕ} (m : PlusActivity n) (T : ℝ) (x : List ℝ) (hv : ∀ i, m.vc i ≠ 0) :
    m.summer T x = m.mf.corr (m.mf.Tr (fun i => el x i) / T) (1 / (m.u * m.bm x) / m.mf.rhor (fun i => el x i)) (fun i => el x i)
      - ∑ i : Fin n, el x i * purePart m i T (1 / (m.u * el m.b i)) := by
  unfold PlusActivity.summer MultiFluid.corr purePart
  dsimp only
  rw [← Finset.sum_sub_distrib]
  refine Finset.sum_congr rfl fun i _ => ?_
  rw [mul_sub, div_div, show 1 / (m.u * el m.b i / m.vc i) = 1 / (m.u * el m.b i) * m.vc i by rw [one_div_div, one_div, div_eq_mul_inv, mul_comm]]

theorem el_fin {n : ℕ} (x : List ℝ) (hx : x.length = n) : (fun i : Fin n => x[i]'(by have := i.2; omega)) = fun i : Fin n => el x i := by
  funext i
  unfold el
  have : (i : ℕ) < x.length := by have := i.2; omega
  rw [List.getD_eq_getElem _ _ this]
  rfl

/-- **The activity model is reproduced at the reference density.**  At the density `1/(u bm)` the residual Helmholtz energy of the mixture is the
mole-fraction average of the pure fluids, each at its own density `1/(u b_i)`, plus the excess Helmholtz energy of the activity
model, plus the departure of the multi-fluid model. -/
theorem plus_reference {n : ℕ} (hn : n ≠ 1) (m : PlusActivity n) (T g : ℝ) (x : List ℝ) (hx : x.length = n) (hb : m.b.length = n)
    (hr : m.Regular T (1 / (m.u * m.bm x)) x) (hg : m.act.eval T x = .ok g) :
    m.alphar T (1 / (m.u * m.bm x)) x = .ok (∑ i : Fin n, el x i * purePart m i T (1 / (m.u * el m.b i)) + g
      + m.mf.dep (m.mf.Tr (fun i => el x i) / T) (1 / (m.u * m.bm x) / m.mf.rhor (fun i => el x i)) (fun i => el x i)) := by
  have hlog : Real.log (1 + 1 / m.u) ≠ 0 := by
    have h1 : (1 : ℝ) / m.u ≠ 0 := one_div_ne_zero hr.hu
    refine Real.log_ne_zero_of_pos_of_ne_one hr.hu1 fun h => h1 (by linarith)
  have hrho : 1 / (m.u * m.bm x) * m.bm x = 1 / m.u := by
    have := hr.hu
    have := hr.hbm
    field_simp
  unfold PlusActivity.alphar MultiFluid.alpharV
  rw [dif_pos hx, Outcome.bind_ok]
  have ha : m.alpharActivity T (1 / (m.u * m.bm x)) x = .ok (g - m.summer T x) := by
    unfold PlusActivity.alpharActivity
    rw [hg, Outcome.bind_ok, if_neg (by simp [hx, hb]), if_neg (by omega), if_neg (by simpa using hr), hrho, div_self hlog, one_mul]
  rw [ha, Outcome.bind_ok]
  congr 1
  have he := el_fin (n := n) x hx
  rw [show (fun i : Fin n => x[i]) = fun i : Fin n => el x i from he]
  unfold MultiFluid.alphar MultiFluid.alphar_taudelta
  rw [dif_neg hn, summer_eq m T x hr.hv]
  ring

/-- **A component alone** is not affected by the activity model, provided the activity model has no excess there. -/
theorem plus_pure {n : ℕ} (m : PlusActivity n) (T rho : ℝ) (k : Fin n) (x : List ℝ) (hx : x.length = n) (hb : m.b.length = n)
    (hk : ∀ i : Fin n, el x i = if i = k then 1 else 0) (hr : m.Regular T rho x) (hg : m.act.eval T x = .ok 0)
    (hTr : m.mf.Tr (Pi.single k 1) = m.Tc k) (hrr : m.mf.rhor (Pi.single k 1) = 1 / m.vc k) :
    m.alphar T rho x = .ok (purePart m k T rho) := by
  have hs : (fun i : Fin n => el x i) = Pi.single k 1 := by
    funext i
    rw [hk i, Pi.single_apply]
  have hbm : m.bm x = el m.b k := by
    unfold PlusActivity.bm
    rw [Finset.sum_eq_single_of_mem (k : ℕ) (mem_range.mpr (by rw [hx]; exact k.2))]
    · rw [hk k, if_pos rfl, mul_one]
    · intro j hj hjk
      have hj' : j < n := by rw [← hx]; exact mem_range.mp hj
      have := hk ⟨j, hj'⟩
      simp only [Fin.ext_iff] at this
      rw [this, if_neg hjk, mul_zero]
  have hzero : m.summer T x = 0 := by
    rw [summer_eq m T x hr.hv, hs, corr_single, hTr, hrr, hbm, sub_eq_zero]
    rw [Finset.sum_eq_single k]
    · rw [hk k, if_pos rfl, one_mul]
      unfold purePart
      congr 1
      simp
    · intro i _ hi
      rw [hk i, if_neg hi, zero_mul]
    · simp
  unfold PlusActivity.alphar MultiFluid.alpharV
  rw [dif_pos hx, Outcome.bind_ok]
  have ha : m.alpharActivity T rho x = .ok 0 := by
    unfold PlusActivity.alpharActivity
    rw [hg, Outcome.bind_ok, if_neg (by simp [hx, hb]), if_neg (by omega), if_neg (by simpa using hr), hzero]
    simp
  rw [ha, Outcome.bind_ok, show (fun i : Fin n => x[i]) = fun i : Fin n => el x i from el_fin x hx, hs, add_zero]
  congr 1
  unfold MultiFluid.alphar purePart
  rw [taudelta_single, hTr, hrr]
  congr 1
  simp

/-- **The second virial coefficient.**  At zero density the activity term vanishes, and its slope is `bm / ln(1 + 1/u)` times the difference between
the excess of the activity model and that of the multi-fluid model at the reference densities. -/
theorem plus_dilute {n : ℕ} (m : PlusActivity n) (T g : ℝ) (x : List ℝ) (hx : x.length = n) (hb : m.b.length = n)
    (hr : m.Regular T 0 x) (hg : m.act.eval T x = .ok g) :
    ∃ a : ℝ → ℝ, (∀ rho, 0 < 1 + rho * m.bm x → m.alpharActivity T rho x = .ok (a rho)) ∧ a 0 = 0 ∧
      HasDerivAt a (m.bm x / Real.log (1 + 1 / m.u) *
        (g - (m.mf.corr (m.mf.Tr (fun i => el x i) / T) (1 / (m.u * m.bm x) / m.mf.rhor (fun i => el x i)) (fun i => el x i)
          - ∑ i : Fin n, el x i * purePart m i T (1 / (m.u * el m.b i))))) 0 := by
  refine ⟨fun rho => Real.log (1 + rho * m.bm x) / Real.log (1 + 1 / m.u) * (g - m.summer T x), ?_, by simp, ?_⟩
  · intro rho hrho
    unfold PlusActivity.alpharActivity
    have hreg : m.Regular T rho x := ⟨hr.hT, hr.hu, hr.hu1, hr.hb, hr.hv, hr.hbm, hr.hr, hrho⟩
    rw [hg, Outcome.bind_ok, if_neg (by simp [hx, hb]), if_neg (by omega), if_neg (by simpa using hreg)]
  · rw [← summer_eq m T x hr.hv]
    have h1 : HasDerivAt (fun rho : ℝ => 1 + rho * m.bm x) (m.bm x) 0 := by
      simpa using ((hasDerivAt_id (0 : ℝ)).mul_const (m.bm x)).const_add 1
    have h2 := h1.log (by simp)
    refine ((h2.div_const (Real.log (1 + 1 / m.u))).mul_const (g - m.summer T x)).congr_deriv ?_
    simp

/-- A mixture for the examples: two ideal components. -/
noncomputable def plusSample : PlusActivity 2 where
  mf := { Tr := fun z => z 0 * 300 + z 1 * 400, rhor := fun z => 1 / (z 0 * 2 + z 1 * 4), eos := fun _ => [], F := fun _ _ => 0, func := fun _ _ => [], Rvals := none }
  Tc := ![300, 400]
  vc := ![2, 4]
  act := .binaryInvariant [1, 2, 3]
  b := [1, 1.5]
  u := 1.17

theorem plusSample_bm (x0 x1 : ℝ) : plusSample.bm [x0, x1] = x0 + 1.5 * x1 := by
  unfold PlusActivity.bm
  simp [plusSample, el, Finset.sum_range_succ]

theorem plusSample_regular (rho x0 x1 : ℝ) (h0 : 0 ≤ x0) (h1 : 0 ≤ x1) (hs : x0 + x1 = 1) (hr : 0 ≤ rho) : plusSample.Regular 350 rho [x0, x1] where
  hT := by norm_num
  hu := by norm_num [plusSample]
  hu1 := by norm_num [plusSample]
  hb i := by fin_cases i <;> norm_num [plusSample, el]
  hv i := by fin_cases i <;> norm_num [plusSample]
  hbm := by
    rw [plusSample_bm]
    have : 0 < x0 + 1.5 * x1 := by linarith
    exact this.ne'
  hr := by
    show 1 / (el [x0, x1] 0 * 2 + el [x0, x1] 1 * 4) ≠ 0
    have : 0 < el [x0, x1] 0 * 2 + el [x0, x1] 1 * 4 := by
      simp only [el, List.getD_cons_zero, List.getD_cons_succ]
      linarith
    positivity
  hrho := by
    rw [plusSample_bm]
    have : 0 ≤ rho * (x0 + 1.5 * x1) := mul_nonneg hr (by linarith)
    linarith

example : ∃ v, plusSample.alphar 350 (1 / (plusSample.u * plusSample.bm [0.4, 0.6])) [0.4, 0.6] = .ok v := by
  refine ⟨_, plus_reference (by norm_num) plusSample 350 (1 * 0.4 * 0.6 * (2 + 3 * 0.6)) [0.4, 0.6] rfl rfl
    (plusSample_regular _ 0.4 0.6 (by norm_num) (by norm_num) (by norm_num) ?_) rfl⟩
  rw [plusSample_bm]
  norm_num [plusSample]

example : plusSample.alphar 350 0.1 [1, 0] = .ok (purePart plusSample 0 350 0.1) := by
  refine plus_pure plusSample 350 0.1 0 [1, 0] rfl rfl ?_ (plusSample_regular _ 1 0 (by norm_num) (by norm_num) (by norm_num) (by norm_num)) ?_ ?_ ?_
  · intro i
    fin_cases i <;> simp [el]
  · show Teqp.Model.binaryInvariant [1, 2, 3] [1, 0] = .ok 0
    simp [Teqp.Model.binaryInvariant]
  · simp [plusSample, Pi.single_apply]
  · simp [plusSample, Pi.single_apply]

/-- **The sizes are compared too late**: the activity model has already run, and for a composition longer than its arrays it reads outside of
them before the check of the number of mole fractions can throw. -/
theorem plus_check_late : ∃ (m : PlusActivity 2) (T rho : ℝ) (x : List ℝ), m.b.length ≠ x.length ∧ m.alpharActivity T rho x = .ub := by
  refine ⟨{ plusSample with act := .wilson ⟨[1, 2], ⟨2, fun _ _ => 0⟩, ⟨2, fun _ _ => 0⟩⟩ }, 300, 1, [0.2, 0.3, 0.5], by simp [plusSample], ?_⟩
  unfold PlusActivity.alpharActivity ActivityModel.eval Wilson.eval Wilson.total
  simp [Outcome.bind]

/-! ## The corresponding-states mutant -/

/-- The Lorentz-Berthelot reducing function of two components. -/
noncomputable def lorentzRed (T0 T1 v0 v1 : ℝ) : RedFn 2 where
  betaT _ _ := 1
  gammaT _ _ := 1
  betaV _ _ := 1
  gammaV _ _ := 1
  Tc := ![T0, T1]
  vc := ![v0, v1]

/-- **Pure limits**: whatever the coefficients, a component alone is its own equation of state. -/
theorem ecs_pure (m : ECSMutant) (base : MultiFluid 2) (T rho : ℝ) (hT : T ≠ 0) (hTT : 0 ≤ m.Tc0 * m.Tc1) (hv0 : 0 < m.vc0) (hv1 : 0 < m.vc1) :
    ECSMutant.alphar (some m) base T rho [1, 0] = .ok (containerAlphar (base.eos 0) (m.Tc0 / T) (rho * m.vc0)) ∧
    ECSMutant.alphar (some m) base T rho [0, 1] = .ok (containerAlphar (base.eos 1) (m.Tc1 / T) (rho * m.vc1)) := by
  have hs : m.vScale ≠ 0 := by
    unfold ECSMutant.vScale
    have := Real.rpow_pos_of_pos hv0 (1 / 3)
    have := Real.rpow_pos_of_pos hv1 (1 / 3)
    have := Real.rpow_pos_of_pos (show 0 < m.vc0 ^ (1 / 3 : ℝ) + m.vc1 ^ (1 / 3 : ℝ) by positivity) 3
    positivity
  have hz : (0 : ℝ) ^ (2 : ℝ) = 0 := Real.zero_rpow (by norm_num)
  have t0 : m.getTr T rho 1 0 = m.Tc0 := by unfold ECSMutant.getTr; rw [Real.one_rpow, hz]; ring
  have t1 : m.getTr T rho 0 1 = m.Tc1 := by unfold ECSMutant.getTr; rw [Real.one_rpow, hz]; ring
  have v0 : m.getVr T rho 1 0 = m.vc0 := by unfold ECSMutant.getVr; rw [Real.one_rpow, hz]; ring
  have v1 : m.getVr T rho 0 1 = m.vc1 := by unfold ECSMutant.getVr; rw [Real.one_rpow, hz]; ring
  unfold ECSMutant.alphar
  simp only [t0, t1, v0, v1]
  rw [if_neg (by push Not; exact ⟨hT, hv0.ne', hs, hTT⟩), if_neg (by push Not; exact ⟨hT, hv1.ne', hs, hTT⟩)]
  constructor
  · unfold MultiFluid.corr
    simp
  · unfold MultiFluid.corr
    simp

example : (0 : ℝ) ≤ 300 * 400 ∧ (0 : ℝ) < 0.0001 := by norm_num

/-- **Unit coefficients give Lorentz-Berthelot**: if the matrices contain only a one in their first element, the mutant has the reducing temperature and volume of
the multi-fluid model with all interaction parameters equal to one. -/
theorem ecs_lorentz (m : ECSMutant) (T rho x0 x1 : ℝ) (hx0 : 0 ≤ x0) (hx1 : 0 ≤ x1) (hx : x0 + x1 ≠ 0) (hv0 : 0 < m.vc0) (hv1 : 0 < m.vc1)
    (ht : ∀ i j, m.tr i j = if i = 0 ∧ j = 0 then 1 else 0) (hd : ∀ i j, m.dr i j = if i = 0 ∧ j = 0 then 1 else 0) :
    m.getTr T rho x0 x1 = (lorentzRed m.Tc0 m.Tc1 m.vc0 m.vc1).Tr ![x0, x1] ∧
    1 / m.getVr T rho x0 x1 = (lorentzRed m.Tc0 m.Tc1 m.vc0 m.vc1).rhor ![x0, x1] := by
  have hpoly : ∀ (c : ℕ → ℕ → ℝ), (∀ i j, c i j = if i = 0 ∧ j = 0 then 1 else 0) → ∀ tau delta, ECSMutant.poly c x0 tau delta = 1 := by
    intro c hc tau delta
    unfold ECSMutant.poly ECSMutant.coef
    simp [hc]
  have hred : ∀ (Yc : Fin 2 → ℝ) (beta Y : Fin 2 → Fin 2 → ℝ), beta 0 1 = 1 → redY ![x0, x1] Yc beta Y = x0 ^ 2 * Yc 0 + x1 ^ 2 * Yc 1 + x0 * x1 * Y 0 1 := by
    intro Yc beta Y hb
    unfold redY
    rw [Fin.sum_univ_two, Fin.sum_univ_two]
    have f0 : (univ.filter ((0 : Fin 2) < ·)) = {1} := by decide
    have f1 : (univ.filter ((1 : Fin 2) < ·)) = ∅ := by decide
    rw [f0, f1, sum_singleton, sum_empty, add_zero]
    simp only [Matrix.cons_val_zero, Matrix.cons_val_one]
    unfold redTerm
    rw [hb, if_pos (by simpa using hx)]
    have : (1 : ℝ) * 1 * x0 + x1 = x0 + x1 := by ring
    rw [this]
    field_simp
  have sq : ∀ y : ℝ, y ^ (2 : ℝ) = y ^ 2 := fun y => by norm_cast
  have hc : ∀ v : ℝ, 0 < v → v ^ (1 / 3 : ℝ) = cbrt v := by
    intro v hv
    unfold cbrt
    rw [sign_pos hv, abs_of_pos hv]
    simp
  have hvs : m.vScale = 1 / 8 * (cbrt m.vc0 + cbrt m.vc1) ^ 3 := by
    unfold ECSMutant.vScale
    rw [hc _ hv0, hc _ hv1]
    rw [show (3 : ℝ) = ((3 : ℕ) : ℝ) by norm_num, Real.rpow_natCast]
    norm_num
  constructor
  · unfold ECSMutant.getTr RedFn.Tr
    rw [hred _ _ _ rfl, hpoly _ ht, sq, sq]
    unfold RedFn.YT lorentzRed ECSMutant.tScale
    simp
    ring
  · unfold ECSMutant.getVr RedFn.rhor
    rw [hred _ _ _ rfl, hpoly _ hd, sq, sq, one_div_one_div, hvs]
    unfold RedFn.Yv lorentzRed
    simp
    ring_nf

example : ∃ m : ECSMutant, (0 < m.vc0 ∧ 0 < m.vc1) ∧ (∀ i j, m.tr i j = if i = 0 ∧ j = 0 then 1 else 0) ∧ ∀ i j, m.dr i j = if i = 0 ∧ j = 0 then 1 else 0 :=
  ⟨⟨fun i j => if i = 0 ∧ j = 0 then 1 else 0, fun i j => if i = 0 ∧ j = 0 then 1 else 0, 300, 400, 0.0001, 0.0002⟩, by norm_num, fun _ _ => rfl, fun _ _ => rfl⟩

/-- **Missing coefficients are refused, too few are not**: without one of the two matrices construction throws; a matrix of fewer than six rows or
three columns is accepted, and evaluation then reads outside of it. -/
theorem ecs_input (Tc vc : Fin 2 → ℝ) (j : JTree) :
    ((j.contains "tr_coeffs" = false ∨ j.contains "dr_coeffs" = false) → ecsMake Tc vc j = .throws .invalidArgument) ∧
    ∃ j : JTree, ecsMake Tc vc j = .ok none ∧ ∀ base T rho x0 x1, ECSMutant.alphar none base T rho [x0, x1] = .ub := by
  constructor
  · intro h
    unfold ecsMake
    by_cases h1 : j.contains "tr_coeffs" = true
    · have h2 : j.contains "dr_coeffs" = false := by
        rcases h with h | h
        · rw [h1] at h; cases h
        · exact h
      rw [if_neg (by simpa using h1), if_pos (by simp [h2])]
    · rw [if_pos h1]
  · refine ⟨.obj [("tr_coeffs", .arr [.arr [.num 1, .num 2]]), ("dr_coeffs", .arr [.arr [.num 1, .num 2]])], ?_, fun _ _ _ _ _ => rfl⟩
    rfl

end Teqp.Props
