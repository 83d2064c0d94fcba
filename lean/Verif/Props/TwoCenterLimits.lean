import Verif.Props.TwoCenter
import Mathlib.Tactic

/-! # Limits of the two-centre Lennard-Jones fluid (C96): spheres, and the third virial coefficient of dipoles -/

set_option autoImplicit false

namespace Teqp.Props
open Finset Teqp.Model Teqp.Spec Filter Topology

/-! ## Spheres -/

/-- The root in the reducing temperature. -/
noncomputable def tcRoot (v : TwoCenter) (L : ℝ) : ℝ :=
  Real.sqrt (((tcTTab v).getD 0 0 + (tcTTab v).getD 1 0 * L) / (1 + (tcTTab v).getD 2 0 * L + (tcTTab v).getD 3 0 * L ^ 2))

theorem tcTRed_eq (v : TwoCenter) : tcTRed v 0 = 0.25 * tcRoot v 0 ∧ ∀ L, L ≠ 0 → tcTRed v L = tcRoot v L := by
  unfold tcTRed tcRoot
  exact ⟨by simp, fun L hL => by simp [hL]⟩

/-- **The temperature unit changes at elongation zero**: the reducing temperature of spheres is a quarter of the limit of that of short dumbbells. -/
theorem tc_reducing_jump (v : TwoCenter) : Tendsto (tcTRed v) (𝓝[>] 0) (𝓝 (4 * tcTRed v 0)) ∧ 4 * tcTRed v 0 ≠ tcTRed v 0 := by
  constructor
  · rw [(tcTRed_eq v).1]
    have hc : ContinuousAt (tcRoot v) 0 := by
      unfold tcRoot
      refine Real.continuous_sqrt.continuousAt.comp ?_
      exact ContinuousAt.div (by fun_prop) (by fun_prop) (by norm_num)
    have h := hc.tendsto.mono_left (nhdsWithin_le_nhds (s := Set.Ioi 0))
    rw [show 4 * (0.25 * tcRoot v 0) = tcRoot v 0 by ring]
    refine h.congr' ?_
    filter_upwards [self_mem_nhdsWithin] with L hL
    exact ((tcTRed_eq v).2 L (ne_of_gt hL)).symm
  · have := (tcRed_pos v 0 le_rfl).2
    intro h
    linarith

/-- **Spheres are the limit of short dumbbells at four times the temperature**: as the elongation goes to zero, the residual Helmholtz energy at `4 T` tends to that
of the sphere at `T`, for every temperature above zero, every density at which the sphere has a value, and every moment that is not negative. -/
theorem tc_sphere_limit (v : TwoCenter) (k : Pole) (musq T rho a0 : ℝ) (hT : 0 < T) (h0 : (⟨v, k, 0, musq⟩ : TwoCenterModel).alphar T rho = .ok a0) :
    ∃ a : ℝ → ℝ, (∀ᶠ L in 𝓝[>] (0 : ℝ), (⟨v, k, L, musq⟩ : TwoCenterModel).alphar (4 * T) rho = .ok (a L)) ∧ Tendsto a (𝓝[>] 0) (𝓝 a0) := by
  have cr : ContinuousAt (tcRoot v) 0 := by
    unfold tcRoot
    refine Real.continuous_sqrt.continuousAt.comp ?_
    exact ContinuousAt.div (by fun_prop) (by fun_prop) (by norm_num)
  have r0 : 0 < tcRoot v 0 := by
    have := (tcRed_pos v 0 le_rfl).2
    rw [(tcTRed_eq v).1] at this
    linarith
  have hp (p : ℝ) (hp : 0 < p) : ContinuousAt (fun L : ℝ => L ^ p) 0 := Real.continuousAt_rpow_const _ _ (Or.inr hp.le)
  have ca : ContinuousAt (tcAlpha v) 0 := by
    unfold tcAlpha
    have := hp 3.5 (by norm_num)
    fun_prop
  have ce : ContinuousAt (tcEta v) 0 := by
    unfold tcEta
    have := hp 2.5 (by norm_num)
    fun_prop
  have cd : ContinuousAt (tcRhoRed v) 0 := by
    unfold tcRhoRed
    exact ContinuousAt.div (by fun_prop) (by fun_prop) (by norm_num)
  have d0 := (tcRed_pos v 0 le_rfl).1
  have a1 := (tcAlpha_one_le v).1
  -- the reduced variables, with the root in place of the reducing temperature
  set tau : ℝ → ℝ := fun L => 4 * T / tcRoot v L with htau
  have ct : ContinuousAt tau 0 := ContinuousAt.div continuousAt_const cr r0.ne'
  have t0 : 0 < tau 0 := by simp only [htau]; positivity
  set del : ℝ → ℝ := fun L => rho / tcRhoRed v L with hdel
  have cdel : ContinuousAt del 0 := ContinuousAt.div continuousAt_const cd d0.ne'
  set pk : ℝ → ℝ := fun L => tcPacking (tau L) (rho * tcEta v L) with hpk
  have ctp (p : ℝ) : ContinuousAt (fun L => tau L ^ p) 0 := ct.rpow_const (Or.inl t0.ne')
  have cpk : ContinuousAt pk 0 := by
    simp only [hpk, tcPacking]
    refine ContinuousAt.div (continuousAt_const.mul ce) (continuousAt_const.add (continuousAt_const.mul (ctp 0.3674))) ?_
    have := Real.rpow_pos_of_pos t0 0.3674
    norm_num
    positivity
  have e0 : (⟨v, k, 0, musq⟩ : TwoCenterModel).tau T = tau 0 := by
    simp only [TwoCenterModel.tau, htau, (tcTRed_eq v).1]
    field_simp
    norm_num
  have e1 : ∀ L, L ≠ 0 → (⟨v, k, L, musq⟩ : TwoCenterModel).tau (4 * T) = tau L := by
    intro L hL
    simp only [TwoCenterModel.tau, htau, (tcTRed_eq v).2 L hL]
  have p0 : (⟨v, k, 0, musq⟩ : TwoCenterModel).packing T rho = pk 0 := by simp only [TwoCenterModel.packing, hpk, e0]
  have p1 : ∀ L, L ≠ 0 → (⟨v, k, L, musq⟩ : TwoCenterModel).packing (4 * T) rho = pk L := by
    intro L hL
    simp only [TwoCenterModel.packing, hpk, e1 L hL]
  -- the value
  set a : ℝ → ℝ := fun L => tcHard (tcAlpha v L) (pk L) + tcAttr v (tau L) (del L) (tcAlpha v L) + if musq = 0 then 0 else poleSum k.tab (tau L) (del L) musq with ha
  unfold TwoCenterModel.alphar at h0
  rw [p0, e0] at h0
  dsimp only at h0
  by_cases hA : (0 : ℝ) < 0 ∨ T ≤ 0 ∨ 1 ≤ pk 0
  · rw [if_pos hA] at h0; cases h0
  rw [if_neg hA] at h0
  push Not at hA
  have hsafe : musq ≠ 0 → ¬ (musq < 0 ∨ rho < 0) := by
    intro hm h
    rw [if_neg hm, if_pos h] at h0
    cases h0
  have ha0 : a 0 = a0 := by
    simp only [ha]
    by_cases hm : musq = 0
    · rw [if_pos hm] at h0 ⊢
      rw [add_zero]
      exact Outcome.ok.inj h0
    · rw [if_neg hm, if_neg (hsafe hm)] at h0
      rw [if_neg hm]
      exact Outcome.ok.inj h0
  have hev : ∀ᶠ L in 𝓝 (0 : ℝ), pk L < 1 := cpk.eventually_lt continuousAt_const hA.2.2
  refine ⟨a, ?_, ?_⟩
  · filter_upwards [nhdsWithin_le_nhds hev, self_mem_nhdsWithin] with L h1 h2
    have h2 : 0 < L := h2
    unfold TwoCenterModel.alphar
    rw [p1 L h2.ne', e1 L h2.ne']
    dsimp only
    rw [if_neg (by push Not; exact ⟨h2.le, by linarith, h1⟩)]
    simp only [ha]
    by_cases hm : musq = 0
    · rw [if_pos hm, if_pos hm, add_zero]
      rfl
    · rw [if_neg hm, if_neg (hsafe hm), if_neg hm]
      rfl
  · rw [← ha0]
    refine (ContinuousAt.tendsto ?_).mono_left nhdsWithin_le_nhds
    have c1 : ContinuousAt (fun L => tcHard (tcAlpha v L) (pk L)) 0 := by
      unfold tcHard
      have hne : 1 - pk 0 ≠ 0 := by linarith [hA.2.2]
      refine ContinuousAt.add (ContinuousAt.mul (by fun_prop) ((continuousAt_const.sub cpk).log hne)) (ContinuousAt.div (by fun_prop) (by fun_prop) (pow_ne_zero _ hne))
    have c2 : ContinuousAt (fun L => tcAttr v (tau L) (del L) (tcAlpha v L)) 0 := by
      unfold tcAttr tcAttrTerm
      refine tendsto_finsetSum _ fun i _ => ?_
      refine ((((tendsto_const_nhds.mul (ctp _)).mul (cdel.pow _)).mul (ca.zpow₀ _ (Or.inl (by rw [a1]; exact one_ne_zero)))).mul ?_)
      exact (Real.continuous_exp.continuousAt.comp (continuousAt_const.mul (cdel.pow _)))
    simp only [ha]
    refine (c1.add c2).add ?_
    by_cases hm : musq = 0
    · simp only [if_pos hm]
      exact continuousAt_const
    · simp only [if_neg hm]
      unfold poleSum poleTerm
      obtain ⟨N, hc, -, -, -, -, ht⟩ := pole_tables k
      rw [hc]
      refine tendsto_finsetSum _ fun i hi => ?_
      have hr (p : ℝ) (hp : 0 ≤ p) : ContinuousAt (fun L => del L ^ p) 0 := cdel.rpow_const (Or.inr hp)
      refine (((tendsto_const_nhds.mul (ctp _)).mul (hr _ (by positivity))).mul tendsto_const_nhds).mul ?_
      exact Real.continuous_exp.continuousAt.comp (continuousAt_const.mul (hr 2 (by norm_num)))

example (v : TwoCenter) : ∃ a0, (⟨v, .dipole, 0, 2⟩ : TwoCenterModel).alphar 1.5 0 = .ok a0 := by
  refine ⟨tcValue ⟨v, .dipole, 0, 2⟩ 1.5 0, ?_⟩
  unfold TwoCenterModel.alphar tcValue TwoCenterModel.packing tcPacking
  norm_num

/-- **The second virial coefficient of spheres at the reducing temperature is that of the Lennard-Jones fluid**: it is -2.66 there, in units of the cube of the
diameter; both versions of the equation give it to one per cent. -/
theorem tc_sphere_virial (v : TwoCenter) : |tcVirial ⟨v, .dipole, 0, 0⟩ (tcTRed v 0) - (-2.66)| < 0.0266 := by
  have ht : (⟨v, .dipole, 0, 0⟩ : TwoCenterModel).tau (tcTRed v 0) = 1 := div_self (tcRed_pos v 0 le_rfl).2.ne'
  have hf : (range 34).filter (fun i => (tcN .mecke).getD i 0 = 1) = {0, 4, 10, 11, 13, 14, 15, 31, 32} := by unfold tcN; decide
  have hf' : (range 34).filter (fun i => (tcN .lisal).getD i 0 = 1) = {2, 3, 10, 11, 15, 21, 22, 27, 28, 31, 32, 33} := by unfold tcN; decide
  unfold tcVirial
  rw [ht]
  dsimp only
  rw [(tcAlpha_one_le v).1, if_pos rfl]
  simp only [Real.one_rpow, one_zpow, mul_one, add_zero]
  cases v
  · rw [hf]
    rw [abs_lt]
    norm_num [tcC, tcEta, tcEtaTab, tcRhoRed, tcRhoTab, Real.zero_rpow]
  · rw [hf']
    rw [abs_lt]
    norm_num [tcC, tcEta, tcEtaTab, tcRhoRed, tcRhoTab, Real.zero_rpow]

/-! ## The third virial coefficient of dipoles -/

/-- A function with two continuous derivatives leaves its tangent slower than the power three halves. -/
theorem remainder_rpow (g : ℝ → ℝ) (B b : ℝ) (hb : 0 < b) (hg : ContDiffOn ℝ 2 g (Set.Icc 0 b)) (h0 : g 0 = 0) (hB : HasDerivAt g B 0) :
    Tendsto (fun r => (g r - B * r) / r ^ (3 / 2 : ℝ)) (𝓝[>] 0) (𝓝 0) := by
  obtain ⟨C, hC⟩ := exists_taylor_mean_remainder_bound (f := g) (n := 1) hb.le (by exact_mod_cast hg)
  have hd : derivWithin g (Set.Icc 0 b) 0 = B := hB.hasDerivWithinAt.derivWithin ((uniqueDiffOn_Icc hb) 0 (Set.left_mem_Icc.mpr hb.le))
  have hbound : ∀ r ∈ Set.Ioo 0 b, |g r - B * r| ≤ C * r ^ 2 := by
    intro r hr
    have := hC r (Set.Ioo_subset_Icc_self hr)
    rw [taylorWithinEval_succ, taylor_within_zero_eval, iteratedDerivWithin_one, hd, h0, Real.norm_eq_abs] at this
    norm_num at this
    rw [mul_comm B r]
    exact this
  have hlim : Tendsto (fun r : ℝ => C * r ^ (1 / 2 : ℝ)) (𝓝[>] 0) (𝓝 0) := by
    have : ContinuousAt (fun r : ℝ => C * r ^ (1 / 2 : ℝ)) 0 := continuousAt_const.mul (Real.continuousAt_rpow_const _ _ (Or.inr (by norm_num)))
    have h := this.tendsto.mono_left (nhdsWithin_le_nhds (s := Set.Ioi 0))
    rwa [Real.zero_rpow (by norm_num), mul_zero] at h
  refine squeeze_zero_norm' ?_ hlim
  filter_upwards [Ioo_mem_nhdsGT hb] with r hr
  have hr0 : 0 < r ^ (3 / 2 : ℝ) := Real.rpow_pos_of_pos hr.1 _
  rw [Real.norm_eq_abs, abs_div, abs_of_pos hr0, div_le_iff₀ hr0]
  refine (hbound r hr).trans (le_of_eq ?_)
  rw [mul_assoc, ← Real.rpow_add hr.1]
  norm_num

/-- One polar term less its linear part, relative to the power three halves. -/
theorem pole_term_limit (K o : ℝ) (m : ℕ) (hm : 2 ≤ m) :
    Tendsto (fun d : ℝ => (K * d ^ ((m : ℝ) / 2) * Real.exp (-o * d ^ (2 : ℝ)) - (if m = 2 then K else 0) * d) / d ^ (3 / 2 : ℝ)) (𝓝[>] 0)
      (𝓝 (if m = 3 then K else 0)) := by
  have ce : Tendsto (fun d : ℝ => Real.exp (-o * d ^ (2 : ℝ))) (𝓝[>] 0) (𝓝 1) := by
    have : ContinuousAt (fun d : ℝ => Real.exp (-o * d ^ (2 : ℝ))) 0 :=
      Real.continuous_exp.continuousAt.comp (continuousAt_const.mul (Real.continuousAt_rpow_const _ _ (Or.inr (by norm_num))))
    have h := this.tendsto.mono_left (nhdsWithin_le_nhds (s := Set.Ioi 0))
    rwa [Real.zero_rpow (by norm_num), mul_zero, Real.exp_zero] at h
  by_cases h2 : m = 2
  · subst h2
    have : Tendsto (fun r => ((fun d : ℝ => K * d * Real.exp (-o * d ^ 2)) r - K * r) / r ^ (3 / 2 : ℝ)) (𝓝[>] 0) (𝓝 0) := by
      refine remainder_rpow _ K 1 one_pos ?_ (by simp) ?_
      · exact ContDiff.contDiffOn (by fun_prop)
      · have he : HasDerivAt (fun d : ℝ => Real.exp (-o * d ^ 2)) _ 0 := ((hasDerivAt_pow 2 (0 : ℝ)).const_mul (-o)).exp
        refine (((hasDerivAt_id (0 : ℝ)).const_mul K).fun_mul he).congr_deriv ?_
        simp
    rw [if_neg (by norm_num : ¬ (2 : ℕ) = 3)]
    refine this.congr' ?_
    filter_upwards [self_mem_nhdsWithin] with r hr
    have e : r ^ (2 : ℝ) = r ^ 2 := by norm_cast
    rw [if_pos rfl, e]
    norm_num
  · simp only [if_neg h2, zero_mul, sub_zero]
    have key : Tendsto (fun d : ℝ => K * d ^ ((m : ℝ) / 2 - 3 / 2) * Real.exp (-o * d ^ (2 : ℝ))) (𝓝[>] 0) (𝓝 (if m = 3 then K else 0)) := by
      have hm3 : (3 : ℝ) ≤ m := by exact_mod_cast (by omega : 3 ≤ m)
      have hc : ContinuousAt (fun d : ℝ => d ^ ((m : ℝ) / 2 - 3 / 2)) 0 := Real.continuousAt_rpow_const _ _ (Or.inr (by linarith))
      have h := ((hc.tendsto.mono_left (nhdsWithin_le_nhds (s := Set.Ioi 0))).const_mul K).mul ce
      convert h using 2
      by_cases h3 : m = 3
      · rw [if_pos h3, h3]
        norm_num
      · rw [if_neg h3, Real.zero_rpow]
        · ring
        · intro h
          have : (m : ℝ) = 3 := by linarith
          exact h3 (by exact_mod_cast this)
    refine key.congr' ?_
    filter_upwards [self_mem_nhdsWithin] with r hr
    have hr : 0 < r := hr
    have h0 := Real.rpow_pos_of_pos hr (3 / 2)
    rw [eq_div_iff h0.ne', Real.rpow_sub hr]
    field_simp

/-- The sum of the terms with the power three halves of density. -/
noncomputable def poleThreeHalves (k : Pole) (tau musq : ℝ) : ℝ :=
  ∑ i ∈ (range k.tab.c.length).filter fun i => k.tab.m.getD i 0 = 3, k.tab.c.getD i 0 * tau ^ ((k.tab.n.getD i 0 : ℝ) / 2) * musq ^ ((k.tab.k.getD i 0 : ℝ) / 4)

/-- The polar contribution less its linear part. -/
theorem poleSum_limit (k : Pole) (tau musq : ℝ) :
    Tendsto (fun d : ℝ => (poleSum k.tab tau d musq - (∑ i ∈ (range k.tab.c.length).filter fun i => k.tab.m.getD i 0 = 2, k.tab.c.getD i 0 *
      tau ^ ((k.tab.n.getD i 0 : ℝ) / 2) * musq ^ ((k.tab.k.getD i 0 : ℝ) / 4)) * d) / d ^ (3 / 2 : ℝ)) (𝓝[>] 0) (𝓝 (poleThreeHalves k tau musq)) := by
  obtain ⟨N, hc, -, -, -, -, ht⟩ := pole_tables k
  set K : ℕ → ℝ := fun i => k.tab.c.getD i 0 * tau ^ ((k.tab.n.getD i 0 : ℝ) / 2) * musq ^ ((k.tab.k.getD i 0 : ℝ) / 4) with hK
  have h : Tendsto (fun d : ℝ => ∑ i ∈ range N, (K i * d ^ ((k.tab.m.getD i 0 : ℝ) / 2) * Real.exp (-(k.tab.o.getD i 0 : ℝ) * d ^ (2 : ℝ))
      - (if k.tab.m.getD i 0 = 2 then K i else 0) * d) / d ^ (3 / 2 : ℝ)) (𝓝[>] 0) (𝓝 (∑ i ∈ range N, if k.tab.m.getD i 0 = 3 then K i else 0)) :=
    tendsto_finsetSum _ fun i hi => pole_term_limit _ _ _ (ht i (Finset.mem_range.mp hi)).1
  unfold poleThreeHalves poleSum
  rw [hc, Finset.sum_filter, Finset.sum_filter]
  refine h.congr fun d => ?_
  rw [← Finset.sum_div, Finset.sum_sub_distrib, ← Finset.sum_mul]
  congr 2
  refine Finset.sum_congr rfl fun i _ => ?_
  unfold poleTerm
  ring

/-- The non-polar part less its linear part. -/
theorem tc_smooth (t : TwoCenterModel) (T : ℝ) (h0 : t.musq = 0) (hL : 0 ≤ t.L) (hT : 0 < T) :
    Tendsto (fun r => (tcValue t T r - tcVirial t T * r) / r ^ (3 / 2 : ℝ)) (𝓝[>] 0) (𝓝 0) := by
  have hden : 0 < 0.67793 + (1 - 0.67793) * t.tau T ^ (0.3674 : ℝ) := by
    have : 0 < t.tau T := div_pos hT (tcRed_pos t.v t.L hL).2
    have := Real.rpow_pos_of_pos this 0.3674
    norm_num
    positivity
  have he := tcEta_pos t.v t.L hL
  obtain ⟨a, -, -, -⟩ := tc_virial t T hL h0.ge hT
  have hv : tcValue t T = fun rho => tcHard (tcAlpha t.v t.L) (t.packing T rho) + tcAttr t.v (t.tau T) (t.delta rho) (tcAlpha t.v t.L) := by
    funext rho
    unfold tcValue
    rw [if_pos h0, add_zero]
  set q := tcEta t.v t.L / (0.67793 + (1 - 0.67793) * t.tau T ^ (0.3674 : ℝ)) with hq
  have hq0 : 0 < q := div_pos he hden
  have hpk : ∀ r, t.packing T r = r * q := by
    intro r
    unfold TwoCenterModel.packing tcPacking
    rw [hq, mul_div_assoc]
  refine remainder_rpow _ _ (1 / (2 * q)) (by positivity) ?_ ?_ ?_
  · rw [hv]
    have hne : ∀ r ∈ Set.Icc 0 (1 / (2 * q)), 1 - r * q ≠ 0 := by
      intro r hr
      have : r * q ≤ 1 / 2 := by
        calc r * q ≤ 1 / (2 * q) * q := mul_le_mul_of_nonneg_right hr.2 hq0.le
          _ = 1 / 2 := by field_simp
      intro h
      linarith
    refine ContDiffOn.add ?_ ?_
    · simp only [hpk]
      unfold tcHard
      refine ContDiffOn.add (contDiffOn_const.mul (ContDiffOn.log (by fun_prop) hne)) (ContDiffOn.div (by fun_prop) (by fun_prop) fun r hr => pow_ne_zero _ (hne r hr))
    · refine ContDiff.contDiffOn ?_
      unfold tcAttr tcAttrTerm TwoCenterModel.delta
      fun_prop
  · rw [hv]
    simp only [TwoCenterModel.packing, TwoCenterModel.delta, tcPacking, zero_mul, zero_div]
    rw [(hasDerivAt_tcAttr _ _ _).1]
    simp [tcHard]
  · have hd : t.delta 0 = 0 := by simp [TwoCenterModel.delta]
    have p0 : t.packing T 0 = 0 := by simp [hpk]
    rw [hv]
    have h1 : HasDerivAt (fun rho => t.packing T rho) q 0 := by
      simp only [hpk]
      simpa using (hasDerivAt_id (0 : ℝ)).mul_const q
    have h2 : HasDerivAt (fun rho => t.delta rho) (1 / tcRhoRed t.v t.L) 0 := by
      unfold TwoCenterModel.delta
      exact (hasDerivAt_id (0 : ℝ)).div_const _
    have g1 := HasDerivAt.comp (h₂ := tcHard (tcAlpha t.v t.L)) 0 (by rw [p0]; exact hasDerivAt_tcHard _) h1
    have g2 := HasDerivAt.comp (h₂ := fun d => tcAttr t.v (t.tau T) d (tcAlpha t.v t.L)) 0 (by rw [hd]; exact (hasDerivAt_tcAttr _ _ _).2) h2
    refine (g1.add g2).congr_deriv ?_
    unfold tcVirial
    rw [if_pos h0, ← hq]
    ring

/-- **Beyond the second virial coefficient a polar model goes with the power three halves of density**: relative to that power, what is left of the residual
Helmholtz energy after the second virial coefficient tends to the sum of the terms of order three halves. -/
theorem tc_three_halves (t : TwoCenterModel) (T : ℝ) (hL : 0 ≤ t.L) (hm : 0 < t.musq) (hT : 0 < T) :
    ∃ a : ℝ → ℝ, (∀ᶠ rho in 𝓝[≥] (0 : ℝ), t.alphar T rho = .ok (a rho)) ∧
      Tendsto (fun r => (a r - tcVirial t T * r) / r ^ (3 / 2 : ℝ)) (𝓝[>] 0) (𝓝 (poleThreeHalves t.pole (t.tau T) t.musq / tcRhoRed t.v t.L ^ (3 / 2 : ℝ))) := by
  refine ⟨tcValue t T, tc_ok t T hL hm.le hT, ?_⟩
  have hd := (tcRed_pos t.v t.L hL).1
  have h1 := tc_smooth { t with musq := 0 } T rfl hL hT
  have hsub : Tendsto (fun r : ℝ => t.delta r) (𝓝[>] 0) (𝓝[>] 0) := by
    refine tendsto_nhdsWithin_iff.mpr ⟨?_, ?_⟩
    · have : ContinuousAt (fun r : ℝ => t.delta r) 0 := by
        unfold TwoCenterModel.delta
        fun_prop
      have := this.tendsto.mono_left (nhdsWithin_le_nhds (s := Set.Ioi 0))
      simpa [TwoCenterModel.delta] using this
    · filter_upwards [self_mem_nhdsWithin] with r hr
      exact div_pos hr hd
  have h2 := ((poleSum_limit t.pole (t.tau T) t.musq).comp hsub).div_const (tcRhoRed t.v t.L ^ (3 / 2 : ℝ))
  have h3 := h1.add h2
  rw [zero_add] at h3
  refine h3.congr' ?_
  filter_upwards [self_mem_nhdsWithin] with r hr
  have hr : 0 < r := hr
  have hr0 := Real.rpow_pos_of_pos hr (3 / 2)
  have hd0 := Real.rpow_pos_of_pos hd (3 / 2)
  simp only [Function.comp]
  unfold tcValue tcVirial
  rw [if_neg hm.ne', if_neg hm.ne']
  dsimp only
  rw [if_pos rfl, if_pos rfl]
  have e1 : (t.delta r) ^ (3 / 2 : ℝ) = r ^ (3 / 2 : ℝ) / tcRhoRed t.v t.L ^ (3 / 2 : ℝ) := Real.div_rpow hr.le hd.le _
  have e2 : t.delta r = r / tcRhoRed t.v t.L := rfl
  rw [e1, e2]
  simp only [TwoCenterModel.packing, TwoCenterModel.tau, TwoCenterModel.delta]
  generalize poleSum _ _ _ _ = P
  generalize tcHard _ _ = H
  generalize tcAttr _ _ _ _ = A
  generalize (∑ i ∈ _, _ : ℝ) = S1
  generalize (∑ i ∈ _, _ : ℝ) = S2
  generalize r ^ (3 / 2 : ℝ) = R at hr0 ⊢
  generalize tcRhoRed t.v t.L ^ (3 / 2 : ℝ) = D at hd0 ⊢
  field_simp
  ring

example : (0 : ℝ) ≤ (⟨.lisal, .dipole, 0.505, 9⟩ : TwoCenterModel).L ∧ (0 : ℝ) < (⟨.lisal, .dipole, 0.505, 9⟩ : TwoCenterModel).musq ∧
    poleThreeHalves .quadrupole 1 1 = 0 := by
  refine ⟨by norm_num, by norm_num, ?_⟩
  have hf : (range 17).filter (fun i => tqM.getD i 0 = 3) = ∅ := by decide
  unfold poleThreeHalves
  have hl : Pole.quadrupole.tab.c.length = 17 := rfl
  rw [hl]
  show (∑ i ∈ (range 17).filter fun i => tqM.getD i 0 = 3, tqC.getD i 0 * 1 ^ ((tqN.getD i 0 : ℝ) / 2) * 1 ^ ((tqK.getD i 0 : ℝ) / 4)) = 0
  rw [hf, Finset.sum_empty]

/-- **Dipoles have no third virial coefficient in this equation**: at the reducing temperature and unit squared moment, what is left after the second virial
coefficient, divided by the square of the density, grows without bound towards zero density. -/
theorem tc_no_third_virial (v : TwoCenter) (L : ℝ) (hL : 0 ≤ L) :
    ∃ a : ℝ → ℝ, (∀ᶠ rho in 𝓝[≥] (0 : ℝ), (⟨v, .dipole, L, 1⟩ : TwoCenterModel).alphar (tcTRed v L) rho = .ok (a rho)) ∧
      Tendsto (fun r => |(a r - tcVirial ⟨v, .dipole, L, 1⟩ (tcTRed v L) * r) / r ^ 2|) (𝓝[>] 0) atTop := by
  have hr := tcRed_pos v L hL
  obtain ⟨a, h1, h2⟩ := tc_three_halves ⟨v, .dipole, L, 1⟩ (tcTRed v L) hL one_pos hr.2
  refine ⟨a, h1, ?_⟩
  have ht : (⟨v, .dipole, L, 1⟩ : TwoCenterModel).tau (tcTRed v L) = 1 := div_self hr.2.ne'
  have hS : poleThreeHalves .dipole 1 1 ≠ 0 := by
    have hf : (range 28).filter (fun i => tdM.getD i 0 = 3) = {9, 11, 14, 15, 21, 22, 23} := by decide
    unfold poleThreeHalves
    have hl : Pole.dipole.tab.c.length = 28 := rfl
    rw [hl]
    show (∑ i ∈ (range 28).filter fun i => tdM.getD i 0 = 3, tdC.getD i 0 * 1 ^ ((tdN.getD i 0 : ℝ) / 2) * 1 ^ ((tdK.getD i 0 : ℝ) / 4)) ≠ 0
    rw [hf]
    simp only [Real.one_rpow, mul_one]
    norm_num [tdC]
  rw [ht] at h2
  have hne : poleThreeHalves .dipole 1 1 / tcRhoRed v L ^ (3 / 2 : ℝ) ≠ 0 := div_ne_zero hS (Real.rpow_pos_of_pos hr.1 _).ne'
  have h3 := h2.abs
  have hinv : Tendsto (fun r : ℝ => r ^ (-(1 / 2) : ℝ)) (𝓝[>] 0) atTop := tendsto_rpow_neg_nhdsGT_zero (by norm_num)
  refine (h3.pos_mul_atTop (abs_pos.mpr hne) hinv).congr' ?_
  filter_upwards [self_mem_nhdsWithin] with r hr'
  have hr' : 0 < r := hr'
  have e : |r ^ (-(1 / 2) : ℝ)| = r ^ (-(1 / 2) : ℝ) := abs_of_pos (Real.rpow_pos_of_pos hr' _)
  rw [← e, ← abs_mul]
  congr 1
  rw [div_mul_eq_mul_div, div_eq_div_iff (Real.rpow_pos_of_pos hr' _).ne' (by positivity), mul_assoc]
  congr 1
  rw [← Real.rpow_natCast, ← Real.rpow_add hr']
  norm_num

end Teqp.Props
