import Verif.Model.TwoCenter
import Mathlib.Analysis.SpecialFunctions.Pow.Deriv
import Mathlib.Analysis.SpecialFunctions.Pow.Continuity
import Mathlib.Analysis.SpecialFunctions.Log.Deriv
import Mathlib.Analysis.Calculus.Taylor
import Mathlib.Tactic

/-! # The two-centre Lennard-Jones fluid (C96) -/

set_option autoImplicit false

namespace Teqp.Spec

/-- The Carnahan-Starling residual Helmholtz energy of hard spheres. -/
noncomputable def carnahanStarlingA (eta : ℝ) : ℝ := (4 * eta - 3 * eta ^ 2) / (1 - eta) ^ 2

end Teqp.Spec

namespace Teqp.Props
open Finset Teqp.Model Teqp.Spec Filter Topology

/-! ## Names and input -/

/-- **Only two names are known**: every other one throws `std::out_of_range` from all three builders. -/
theorem tc_names (name : String) (L m : ℝ) :
    (name = "2CLJF_Mecke" ∨ name = "2CLJF_Lisal" →
      ∃ v : TwoCenter, twoCenterBuild name L = .ok ⟨v, .dipole, L, 0⟩ ∧ twoCenterDipole name L m = .ok ⟨v, .dipole, L, m⟩ ∧
        twoCenterQuadrupole name L m = .ok ⟨v, .quadrupole, L, m⟩ ∧ (v = .mecke ↔ name = "2CLJF_Mecke")) ∧
    (¬ (name = "2CLJF_Mecke" ∨ name = "2CLJF_Lisal") →
      twoCenterBuild name L = .throws .stdOutOfRange ∧ twoCenterDipole name L m = .throws .stdOutOfRange ∧ twoCenterQuadrupole name L m = .throws .stdOutOfRange) := by
  unfold twoCenterBuild twoCenterDipole twoCenterQuadrupole TwoCenter.ofName
  constructor
  · rintro (rfl | rfl)
    · exact ⟨.mecke, rfl, rfl, rfl, by simp⟩
    · exact ⟨.lisal, rfl, rfl, rfl, by simp⟩
  · intro h
    push Not at h
    rw [if_neg h.1, if_neg h.2]
    exact ⟨rfl, rfl, rfl⟩

/-- **The squared moment is read from the key of its kind**. -/
theorem tc_factory (name : String) (L m q : ℝ) :
    let j : JTree := .obj [("(Q^*)^2", .num q), ("(mu^*)^2", .num m), ("L^*", .num L), ("author", .str name)]
    twoCenterFactory "2CLJF" j = twoCenterBuild name L ∧ twoCenterFactory "2CLJF-Dipole" j = twoCenterDipole name L m ∧
      twoCenterFactory "2CLJF-Quadrupole" j = twoCenterQuadrupole name L q :=
  ⟨rfl, rfl, rfl⟩

/-- Without the key of the moment the polar kinds throw. -/
theorem tc_factory_missing (name : String) (L : ℝ) :
    let j : JTree := .obj [("L^*", .num L), ("author", .str name)]
    twoCenterFactory "2CLJF-Dipole" j = .throws .jsonError ∧ twoCenterFactory "2CLJF-Quadrupole" j = .throws .jsonError := ⟨rfl, rfl⟩

/-! ## The reducing functions -/

theorem rpow_half_sqrt (L : ℝ) (hL : 0 ≤ L) (n : ℕ) : L ^ ((n : ℝ) / 2) = Real.sqrt L ^ n := by
  rw [Real.sqrt_eq_rpow, ← Real.rpow_natCast, ← Real.rpow_mul hL]
  congr 1
  ring

/-- **The shape parameter is one for spheres and more for every elongation**, as for convex bodies. -/
theorem tcAlpha_one_le (v : TwoCenter) : tcAlpha v 0 = 1 ∧ ∀ L, 0 < L → 1 < tcAlpha v L := by
  constructor
  · cases v <;> norm_num [tcAlpha, tcAlphaTab, Real.zero_rpow]
  · intro L hL
    have h := rpow_half_sqrt L hL.le 7
    rw [show ((7 : ℕ) : ℝ) / 2 = 3.5 by norm_num] at h
    have hs := Real.sq_sqrt hL.le
    have hs0 := Real.sqrt_pos.mpr hL
    set s := Real.sqrt L
    have key : 0 < s ^ 4 * (0.5296092 - 0.4531784 * s ^ 3 + 0.4421075 * s ^ 4) := by
      have : 0 < 0.5296092 - 0.4531784 * s ^ 3 + 0.4421075 * s ^ 4 := by
        nlinarith [sq_nonneg (s ^ 2 - 0.77 * s), sq_nonneg (s ^ 2 - 0.6), sq_nonneg (s - 0.77), hs0]
      positivity
    have e : tcAlpha v L = 1 + s ^ 4 * (0.5296092 - 0.4531784 * s ^ 3 + 0.4421075 * s ^ 4) := by
      cases v <;>
      · simp only [tcAlpha, tcAlphaTab, List.getD_cons_zero, List.getD_cons_succ]
        rw [h, ← hs]
        ring
    rw [e]
    linarith

/-- The packing per density is positive. -/
theorem tcEta_pos (v : TwoCenter) (L : ℝ) (hL : 0 ≤ L) : 0 < tcEta v L := by
  have h := rpow_half_sqrt L hL 5
  rw [show ((5 : ℕ) : ℝ) / 2 = 2.5 by norm_num] at h
  have hs := Real.sq_sqrt hL
  have hs0 := Real.sqrt_nonneg L
  set s := Real.sqrt L
  have key : 0 ≤ s ^ 4 * (3.2088804 - 3.1499114 * s + 0.43049357 * s ^ 4) := by
    have : 0 ≤ 3.2088804 - 3.1499114 * s + 0.43049357 * s ^ 4 := by
      nlinarith [sq_nonneg (s ^ 2 - 1.495), sq_nonneg (s - 1.2229)]
    positivity
  have e : tcEta v L = 0.5256 + s ^ 4 * (3.2088804 - 3.1499114 * s + 0.43049357 * s ^ 4) := by
    cases v <;>
    · simp only [tcEta, tcEtaTab, List.getD_cons_zero, List.getD_cons_succ]
      rw [h, ← hs]
      ring
  rw [e]
  linarith

/-- The reducing density and temperature are positive. -/
theorem tcRed_pos (v : TwoCenter) (L : ℝ) (hL : 0 ≤ L) : 0 < tcRhoRed v L ∧ 0 < tcTRed v L := by
  constructor
  · cases v <;>
    · simp only [tcRhoRed, tcRhoTab, List.getD_cons_zero, List.getD_cons_succ]
      positivity
  · have : ∀ r : ℝ, 0 < r → 0 < (if L = 0 then 0.25 * r else r) := by
      intro r hr
      split_ifs
      · positivity
      · exact hr
    unfold tcTRed
    refine this _ (Real.sqrt_pos.mpr ?_)
    cases v <;>
    · simp only [tcTTab, List.getD_cons_zero, List.getD_cons_succ]
      positivity

/-! ## Spheres and the non-polar limit -/

/-- **At elongation zero the hard contribution is Carnahan and Starling's**. -/
theorem tc_hard_sphere (v : TwoCenter) (eta : ℝ) : tcHard (tcAlpha v 0) eta = carnahanStarlingA eta := by
  rw [(tcAlpha_one_le v).1]
  unfold tcHard carnahanStarlingA
  norm_num

/-- **A model with zero moment is the non-polar model**, for both kinds of moment. -/
theorem tc_nonpolar (v : TwoCenter) (L T rho : ℝ) :
    (⟨v, .dipole, L, 0⟩ : TwoCenterModel).alphar T rho = (⟨v, .quadrupole, L, 0⟩ : TwoCenterModel).alphar T rho ∧
    (∀ name m, twoCenterBuild name L = .ok m → ∀ k, twoCenterDipole name L 0 = .ok k → k.alphar T rho = m.alphar T rho) := by
  refine ⟨?_, fun name m hm k hk => ?_⟩
  · unfold TwoCenterModel.alphar TwoCenterModel.packing TwoCenterModel.tau TwoCenterModel.delta
    simp
  · unfold twoCenterBuild at hm
    unfold twoCenterDipole at hk
    rw [hm] at hk
    cases hk
    rfl

/-! ## Low density -/

/-- The hard contribution starts with the second virial coefficient of a convex body, one plus three times the shape parameter. -/
theorem hasDerivAt_tcHard (alpha : ℝ) : HasDerivAt (tcHard alpha) (1 + 3 * alpha) 0 := by
  have h1 : HasDerivAt (fun e : ℝ => 1 - e) (-1) 0 := by simpa using (hasDerivAt_id (0 : ℝ)).const_sub 1
  have hl := (h1.log (by norm_num)).const_mul (alpha ^ 2 - 1)
  have hn : HasDerivAt (fun e : ℝ => (alpha ^ 2 + 3 * alpha) * e - 3 * alpha * e ^ 2) (alpha ^ 2 + 3 * alpha) 0 := by
    refine (((hasDerivAt_id (0 : ℝ)).const_mul (alpha ^ 2 + 3 * alpha)).sub ((hasDerivAt_pow 2 (0 : ℝ)).const_mul (3 * alpha))).congr_deriv ?_
    simp
  have hd := h1.fun_pow 2
  refine (hl.add (hn.fun_div hd (by norm_num))).congr_deriv ?_
  norm_num
  ring

/-- The tables have rows of one length, no term without density, and no exponential of a constant. -/
theorem tc_tables (v : TwoCenter) : (tcC v).length = 34 ∧ (tcM v).length = 34 ∧ (tcN v).length = 34 ∧ (tcO v).length = 34 ∧ (tcP v).length = 34 ∧ (tcQ v).length = 34 ∧
    ∀ i < 34, 1 ≤ (tcN v).getD i 0 ∧ ((tcP v).getD i 0 = 0 ∨ 1 ≤ (tcQ v).getD i 0) := by
  refine ⟨by cases v <;> rfl, by cases v <;> rfl, by cases v <;> rfl, by cases v <;> rfl, by cases v <;> rfl, by cases v <;> rfl, fun i hi => ?_⟩
  cases v <;> interval_cases i <;> simp [tcN, tcP, tcQ]

/-- The attractive contribution: zero at zero density, with a slope from the terms that are linear in density. -/
theorem hasDerivAt_tcAttr (v : TwoCenter) (tau alpha : ℝ) :
    tcAttr v tau 0 alpha = 0 ∧
    HasDerivAt (fun d => tcAttr v tau d alpha)
      (∑ i ∈ (range 34).filter fun i => (tcN v).getD i 0 = 1, (tcC v).getD i 0 * tau ^ (tcM v).getD i 0 * alpha ^ (tcO v).getD i 0) 0 := by
  obtain ⟨hc, -, -, -, -, -, ht⟩ := tc_tables v
  unfold tcAttr
  rw [hc]
  constructor
  · refine Finset.sum_eq_zero fun i hi => ?_
    have := (ht i (Finset.mem_range.mp hi)).1
    unfold tcAttrTerm
    rw [zero_pow (by omega)]
    ring
  · rw [Finset.sum_filter]
    refine HasDerivAt.fun_sum fun i hi => ?_
    obtain ⟨h1, h2⟩ := ht i (Finset.mem_range.mp hi)
    unfold tcAttrTerm
    generalize (tcC v).getD i 0 * tau ^ (tcM v).getD i 0 = K
    generalize alpha ^ (tcO v).getD i 0 = A
    generalize (tcN v).getD i 0 = n at h1 ⊢
    generalize (tcP v).getD i 0 = p at h2 ⊢
    generalize (tcQ v).getD i 0 = q at h2 ⊢
    have he : HasDerivAt (fun d : ℝ => Real.exp (p * d ^ q)) _ 0 := ((hasDerivAt_pow q (0 : ℝ)).const_mul p).exp
    refine ((((hasDerivAt_pow n (0 : ℝ)).const_mul K).mul_const A).fun_mul he).congr_deriv ?_
    have e0 : p * (0 : ℝ) ^ q = 0 := by
      rcases h2 with h | h
      · rw [h, zero_mul]
      · rw [zero_pow (by omega), mul_zero]
    rw [e0, Real.exp_zero, zero_pow (by omega : n ≠ 0)]
    by_cases hn : n = 1
    · rw [if_pos hn, hn]
      simp
    · rw [if_neg hn, zero_pow (by omega : n - 1 ≠ 0)]
      ring

/-- The polar tables have rows of one length and at least the first power of density. -/
theorem pole_tables (k : Pole) : ∃ N, k.tab.c.length = N ∧ k.tab.n.length = N ∧ k.tab.m.length = N ∧ k.tab.k.length = N ∧ k.tab.o.length = N ∧
    (∀ i < N, 2 ≤ k.tab.m.getD i 0 ∧ 5 ≤ k.tab.k.getD i 0) := by
  cases k
  · refine ⟨28, rfl, rfl, rfl, rfl, rfl, ?_⟩
    show ∀ i < 28, 2 ≤ tdM.getD i 0 ∧ 5 ≤ tdK.getD i 0
    decide
  · refine ⟨17, rfl, rfl, rfl, rfl, rfl, ?_⟩
    show ∀ i < 17, 2 ≤ tqM.getD i 0 ∧ 5 ≤ tqK.getD i 0
    decide

/-- The polar contribution: zero at zero density, with a slope from the terms that are linear in density. -/
theorem hasDerivAt_poleSum (k : Pole) (tau musq : ℝ) :
    poleSum k.tab tau 0 musq = 0 ∧
    HasDerivAt (fun d => poleSum k.tab tau d musq)
      (∑ i ∈ (range k.tab.c.length).filter fun i => k.tab.m.getD i 0 = 2, k.tab.c.getD i 0 * tau ^ ((k.tab.n.getD i 0 : ℝ) / 2) * musq ^ ((k.tab.k.getD i 0 : ℝ) / 4)) 0 := by
  obtain ⟨N, hc, -, -, -, -, ht⟩ := pole_tables k
  unfold poleSum
  rw [hc]
  constructor
  · refine Finset.sum_eq_zero fun i hi => ?_
    have := (ht i (Finset.mem_range.mp hi)).1
    unfold poleTerm
    rw [Real.zero_rpow (x := ((k.tab.m.getD i 0 : ℕ) : ℝ) / 2) (by positivity)]
    ring
  · rw [Finset.sum_filter]
    refine HasDerivAt.fun_sum fun i hi => ?_
    have h1 := (ht i (Finset.mem_range.mp hi)).1
    unfold poleTerm
    generalize k.tab.c.getD i 0 * tau ^ ((k.tab.n.getD i 0 : ℝ) / 2) = K
    generalize musq ^ ((k.tab.k.getD i 0 : ℝ) / 4) = A
    generalize k.tab.m.getD i 0 = m at h1 ⊢
    generalize (k.tab.o.getD i 0 : ℝ) = o
    have hm : (1 : ℝ) ≤ (m : ℝ) / 2 := by
      have : (2 : ℝ) ≤ m := by exact_mod_cast h1
      linarith
    have h2 : HasDerivAt (fun d : ℝ => Real.exp (-o * d ^ (2 : ℝ))) _ 0 := ((Real.hasDerivAt_rpow_const (x := (0 : ℝ)) (p := 2) (Or.inr (by norm_num))).const_mul (-o)).exp
    refine ((((Real.hasDerivAt_rpow_const (x := (0 : ℝ)) (p := (m : ℝ) / 2) (Or.inr hm)).const_mul K).mul_const A).fun_mul h2).congr_deriv ?_
    rw [Real.zero_rpow (x := (2 : ℝ)) (by norm_num), mul_zero, Real.exp_zero, Real.zero_rpow (x := (m : ℝ) / 2) (by positivity)]
    by_cases hn : m = 2
    · rw [if_pos hn, hn]
      norm_num
    · rw [if_neg hn, Real.zero_rpow (x := (m : ℝ) / 2 - 1)]
      · ring
      · intro h
        have : (m : ℝ) = 2 := by linarith
        exact hn (by exact_mod_cast this)

/-- The second virial coefficient of the equation: that of the convex body times its volume, and the terms linear in density. -/
noncomputable def tcVirial (t : TwoCenterModel) (T : ℝ) : ℝ :=
  (1 + 3 * tcAlpha t.v t.L) * (tcEta t.v t.L / (0.67793 + (1 - 0.67793) * t.tau T ^ (0.3674 : ℝ)))
  + 1 / tcRhoRed t.v t.L * ((∑ i ∈ (range 34).filter fun i => (tcN t.v).getD i 0 = 1, (tcC t.v).getD i 0 * t.tau T ^ (tcM t.v).getD i 0 * tcAlpha t.v t.L ^ (tcO t.v).getD i 0)
    + if t.musq = 0 then 0 else ∑ i ∈ (range t.pole.tab.c.length).filter fun i => t.pole.tab.m.getD i 0 = 2,
        t.pole.tab.c.getD i 0 * t.tau T ^ ((t.pole.tab.n.getD i 0 : ℝ) / 2) * t.musq ^ ((t.pole.tab.k.getD i 0 : ℝ) / 4))

/-- The value of the code at small densities. -/
noncomputable def tcValue (t : TwoCenterModel) (T rho : ℝ) : ℝ :=
  tcHard (tcAlpha t.v t.L) (t.packing T rho) + tcAttr t.v (t.tau T) (t.delta rho) (tcAlpha t.v t.L)
    + if t.musq = 0 then 0 else poleSum t.pole.tab (t.tau T) (t.delta rho) t.musq

theorem tc_ok (t : TwoCenterModel) (T : ℝ) (hL : 0 ≤ t.L) (hm : 0 ≤ t.musq) (hT : 0 < T) :
    ∀ᶠ rho in 𝓝[≥] (0 : ℝ), t.alphar T rho = .ok (tcValue t T rho) := by
  have hp : ∀ᶠ rho in 𝓝 (0 : ℝ), t.packing T rho < 1 := by
    have : ContinuousAt (fun rho => t.packing T rho) 0 := by
      unfold TwoCenterModel.packing tcPacking
      fun_prop
    exact this.eventually_lt continuousAt_const (by simp [TwoCenterModel.packing, tcPacking])
  filter_upwards [nhdsWithin_le_nhds hp, self_mem_nhdsWithin] with rho h1 h2
  have h2 : 0 ≤ rho := h2
  unfold TwoCenterModel.alphar tcValue
  rw [if_neg (by push Not; exact ⟨hL, hT, h1⟩)]
  dsimp only
  split_ifs with h3 h4
  · rw [add_zero]
  · exact absurd h4 (by push Not; exact ⟨hm, h2⟩)
  · rfl

/-- **The ideal gas at zero density, and the second virial coefficient**: at every temperature above zero and every elongation and squared moment that are not
negative, the residual Helmholtz energy is zero at zero density and leaves it with the slope of the virial coefficient. -/
theorem tc_virial (t : TwoCenterModel) (T : ℝ) (hL : 0 ≤ t.L) (hm : 0 ≤ t.musq) (hT : 0 < T) :
    ∃ a : ℝ → ℝ, (∀ᶠ rho in 𝓝[≥] (0 : ℝ), t.alphar T rho = .ok (a rho)) ∧ a 0 = 0 ∧ HasDerivAt a (tcVirial t T) 0 := by
  refine ⟨tcValue t T, tc_ok t T hL hm hT, ?_, ?_⟩
  · unfold tcValue TwoCenterModel.packing TwoCenterModel.delta tcPacking
    simp only [zero_mul, zero_div]
    rw [(hasDerivAt_tcAttr _ _ _).1, (hasDerivAt_poleSum _ _ _).1]
    simp [tcHard]
  · have hpk : HasDerivAt (fun rho => t.packing T rho) (tcEta t.v t.L / (0.67793 + (1 - 0.67793) * t.tau T ^ (0.3674 : ℝ))) 0 := by
      unfold TwoCenterModel.packing tcPacking
      simpa using ((hasDerivAt_id (0 : ℝ)).mul_const (tcEta t.v t.L)).div_const (0.67793 + (1 - 0.67793) * t.tau T ^ (0.3674 : ℝ))
    have hdl : HasDerivAt (fun rho => t.delta rho) (1 / tcRhoRed t.v t.L) 0 := by
      unfold TwoCenterModel.delta
      exact (hasDerivAt_id (0 : ℝ)).div_const _
    have p0 : t.packing T 0 = 0 := by simp [TwoCenterModel.packing, tcPacking]
    have d0 : t.delta 0 = 0 := by simp [TwoCenterModel.delta]
    have h1 := HasDerivAt.comp (h₂ := tcHard (tcAlpha t.v t.L)) 0 (by rw [p0]; exact hasDerivAt_tcHard _) hpk
    have h2 := HasDerivAt.comp (h₂ := fun d => tcAttr t.v (t.tau T) d (tcAlpha t.v t.L)) 0 (by rw [d0]; exact (hasDerivAt_tcAttr _ _ _).2) hdl
    have h3 := HasDerivAt.comp (h₂ := fun d => poleSum t.pole.tab (t.tau T) d t.musq) 0 (by rw [d0]; exact (hasDerivAt_poleSum _ _ _).2) hdl
    by_cases h0 : t.musq = 0
    · have hv : tcValue t T = fun rho => tcHard (tcAlpha t.v t.L) (t.packing T rho) + tcAttr t.v (t.tau T) (t.delta rho) (tcAlpha t.v t.L) := by
        funext rho
        unfold tcValue
        rw [if_pos h0, add_zero]
      rw [hv]
      refine (h1.add h2).congr_deriv ?_
      unfold tcVirial
      rw [if_pos h0]
      ring
    · have hv : tcValue t T = fun rho => tcHard (tcAlpha t.v t.L) (t.packing T rho) + tcAttr t.v (t.tau T) (t.delta rho) (tcAlpha t.v t.L)
          + poleSum t.pole.tab (t.tau T) (t.delta rho) t.musq := by
        funext rho
        unfold tcValue
        rw [if_neg h0]
      rw [hv]
      refine ((h1.add h2).add h3).congr_deriv ?_
      unfold tcVirial
      rw [if_neg h0]
      ring

example : ∃ t : TwoCenterModel, twoCenterDipole "2CLJF_Lisal" 0.505 9 = .ok t ∧ 0 ≤ t.L ∧ 0 < t.musq := ⟨⟨.lisal, .dipole, 0.505, 9⟩, rfl, by norm_num, by norm_num⟩

end Teqp.Props
