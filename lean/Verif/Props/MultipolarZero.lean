import Verif.Model.Multipolar
import Mathlib.Analysis.SpecialFunctions.Pow.Continuity
import Mathlib.Analysis.Calculus.Deriv.Slope
import Mathlib.Analysis.Calculus.Deriv.Mul
import Mathlib.Analysis.Calculus.Deriv.Inv
import Mathlib.Tactic

/-! # The multipolar term at zero density (C83) and the choice of the reduced density (C84) -/

set_option autoImplicit false

namespace Teqp.Props
open Finset Teqp.Model Filter Topology

section
variable {n : ℕ}

theorem ggAlpha2_zero (p : GGParams (Fin n)) (I : MPIntegrals) (T rs : ℝ) (x mup : Fin n → ℝ) : ggAlpha2 p I T 0 rs x mup = 0 := by
  unfold ggAlpha2
  ring

theorem ggAlpha3_zero (p : GGParams (Fin n)) (I : MPIntegrals) (T rs : ℝ) (x mup : Fin n → ℝ) : ggAlpha3 p I T 0 rs x mup = 0 := by
  unfold ggAlpha3
  ring

/-- **The values at zero density.**  Only the class of Gray and Gubbins without polarizability is finite there; with polarizability
the field, and with the class of Gubbins and Twu the quotient of the two orders, is not a number. -/
theorem multipolar_zero_density (p : GGParams (Fin n)) (q : GTParams (Fin n)) (I : MPIntegrals) (T rs : ℝ) (x : Fin n → ℝ) :
    (p.pol = none → ggEval p I T 0 rs x = .ok 0) ∧ (p.pol.isSome → ggEval p I T 0 rs x = .nonFinite) ∧
    ((∃ i, q.mubar2 i ≠ 0 ∨ q.Qbar2 i ≠ 0) → gtEval q I T 0 rs x = .nonFinite) := by
  refine ⟨fun h => ?_, fun h => ?_, ?_⟩
  · unfold ggEval
    rw [h]
    dsimp only
    rw [if_pos (ggAlpha2_zero p I T rs x p.mu), ite_self]
  · obtain ⟨a, ha⟩ := Option.isSome_iff_exists.mp h
    unfold ggEval
    rw [ha]
    dsimp only
    have hE : ∀ mup, ggEprime p I T 0 rs x mup = .nonFinite := by
      intro mup
      unfold ggEprime
      rw [ha, if_neg (by simp)]
      dsimp only
      rw [if_pos (Or.inl (ggAlpha2_zero p I T rs x mup))]
    unfold ggIterate
    rw [hE]
    rfl
  · rintro ⟨i, hi⟩
    unfold gtEval
    rw [if_pos]
    · dsimp only
      rw [if_pos (by unfold gtAlpha2; ring), if_pos (by unfold gtAlpha3 gtAlpha3A gtAlpha3B; simp)]
    · rcases hi with hi | hi
      · exact Or.inl (Finset.sum_pos' (fun _ _ => abs_nonneg _) ⟨i, mem_univ _, abs_pos.mpr hi⟩)
      · exact Or.inr (Finset.sum_pos' (fun _ _ => abs_nonneg _) ⟨i, mem_univ _, abs_pos.mpr hi⟩)

/-- The integrals are continuous in the reduced density at zero, for the temperature at hand. -/
structure MPContinuous (p : GGParams (Fin n)) (I : MPIntegrals) (T : ℝ) : Prop where
  J : ∀ k i j, ContinuousAt (I.J k (T / p.eij i j)) 0
  K222 : ∀ i j, ContinuousAt (I.K222 (T / p.eij i j)) 0
  K233 : ∀ i j, ContinuousAt (I.K233 (T / p.eij i j)) 0
  K334 : ∀ i j, ContinuousAt (I.K334 (T / p.eij i j)) 0
  K444 : ∀ i j, ContinuousAt (I.K444 (T / p.eij i j)) 0

theorem continuousAt_getKijk (K : ℝ → ℝ → ℝ) (a b c : ℝ) (ha : ContinuousAt (K a) 0) (hb : ContinuousAt (K b) 0) (hc : ContinuousAt (K c) 0) :
    ContinuousAt (fun rs => getKijk K rs a b c) 0 ∧ ContinuousAt (fun rs => getKijkNeg K rs a b c) 0 := by
  unfold getKijk getKijkNeg
  exact ⟨((ha.mul hb).mul hc).rpow_const (Or.inr (by norm_num)), (((ha.mul hb).mul hc).neg.rpow_const (Or.inr (by norm_num))).neg⟩

theorem continuousAt_alpha2 (p : GGParams (Fin n)) (I : MPIntegrals) (T r : ℝ) (x mup : Fin n → ℝ) (h : MPContinuous p I T) :
    ContinuousAt (fun rs => ggAlpha2 p I T r rs x mup) 0 := by
  unfold ggAlpha2 GGParams.In
  refine continuousAt_const.mul (tendsto_finsetSum _ fun i _ => tendsto_finsetSum _ fun j _ => ?_)
  have h6 := h.J 6 i j
  have h8 := h.J 8 i j
  have h10 := h.J 10 i j
  exact continuousAt_const.mul (((continuousAt_const.mul (continuousAt_const.mul h6)).add (continuousAt_const.mul (continuousAt_const.mul h8))).add
    (continuousAt_const.mul (continuousAt_const.mul h10)))

theorem continuousAt_alpha3 (p : GGParams (Fin n)) (I : MPIntegrals) (T r : ℝ) (x mup : Fin n → ℝ) (h : MPContinuous p I T) :
    ContinuousAt (fun rs => ggAlpha3 p I T r rs x mup) 0 := by
  unfold ggAlpha3 GGParams.In GGParams.Immm GGParams.ImmQ GGParams.ImQQ GGParams.IQQQ
  refine (((continuousAt_const.mul ((continuousAt_const.mul (tendsto_finsetSum _ fun i _ => tendsto_finsetSum _ fun j _ => ?_)).add
    (continuousAt_const.mul (tendsto_finsetSum _ fun i _ => tendsto_finsetSum _ fun j _ => tendsto_finsetSum _ fun k _ => ?_)))).mul
    continuousAt_const).mul continuousAt_const).mul continuousAt_const
  · have h11 := h.J 11 i j
    have h13 := h.J 13 i j
    have h15 := h.J 15 i j
    exact continuousAt_const.mul (((continuousAt_const.mul (continuousAt_const.mul h11)).add (continuousAt_const.mul (continuousAt_const.mul h13))).add
      (continuousAt_const.mul (continuousAt_const.mul h15)))
  · have k2 := (continuousAt_getKijk I.K222 _ _ _ (h.K222 i j) (h.K222 i k) (h.K222 j k)).1
    have k3 := (continuousAt_getKijk I.K233 _ _ _ (h.K233 i j) (h.K233 i k) (h.K233 j k)).1
    have k4 := (continuousAt_getKijk I.K334 _ _ _ (h.K334 i j) (h.K334 i k) (h.K334 j k)).2
    have k5 := (continuousAt_getKijk I.K444 _ _ _ (h.K444 i j) (h.K444 i k) (h.K444 j k)).1
    exact continuousAt_const.mul (((continuousAt_const.mul (continuousAt_const.mul k2)).add
      (continuousAt_const.mul ((continuousAt_const.mul (continuousAt_const.mul k3)).add (continuousAt_const.mul (continuousAt_const.mul k4))))).add
      (continuousAt_const.mul (continuousAt_const.mul k5)))

theorem hasDerivAt_id_mul {g : ℝ → ℝ} (hg : ContinuousAt g 0) : HasDerivAt (fun r => r * g r) (g 0) 0 := by
  rw [hasDerivAt_iff_tendsto_slope]
  refine (hg.tendsto.mono_left nhdsWithin_le_nhds).congr' ?_
  filter_upwards [self_mem_nhdsWithin] with r hr
  have hr' : r ≠ 0 := hr
  rw [slope_def_field]
  field_simp
  simp

/-- The part of the third-order term that is linear in the density. -/
noncomputable def ggLin3 (p : GGParams (Fin n)) (I : MPIntegrals) (T rs : ℝ) (x mup : Fin n → ℝ) : ℝ :=
  (ggAlpha3 p I T 1 rs x mup - ggAlpha3 p I T (-1) rs x mup) / 2

theorem ggAlpha3_split (p : GGParams (Fin n)) (I : MPIntegrals) (T r rs : ℝ) (x mup : Fin n → ℝ) :
    ggAlpha3 p I T r rs x mup = r * (ggLin3 p I T rs x mup + r * ((ggAlpha3 p I T 1 rs x mup + ggAlpha3 p I T (-1) rs x mup) / 2)) := by
  unfold ggLin3 ggAlpha3
  ring

theorem ggAlpha2_lin (p : GGParams (Fin n)) (I : MPIntegrals) (T r rs : ℝ) (x mup : Fin n → ℝ) :
    ggAlpha2 p I T r rs x mup = r * ggAlpha2 p I T 1 rs x mup := by
  unfold ggAlpha2
  ring

/-- **The slope of the multipolar term at zero density is lost.**  As a function of the density the term of Gray and Gubbins (without
polarizability) is differentiable at zero with slope `A²/(A - B)`, where `A` and `B` are the slopes of the two orders; evaluated
with a number that carries a derivative, the code returns the derivative zero. -/
theorem gg_zero_slope_lost (p : GGParams (Fin n)) (I : MPIntegrals) (T c : ℝ) (x : Fin n → ℝ) (hpol : p.pol = none) (h : MPContinuous p I T)
    (hA : ggAlpha2 p I T 1 0 x p.mu ≠ 0) (hAB : ggAlpha2 p I T 1 0 x p.mu ≠ ggLin3 p I T 0 x p.mu) :
    (∃ f : ℝ → ℝ, (∀ᶠ r in 𝓝 0, ggEval p I T r (c * r) x = .ok (f r)) ∧
      HasDerivAt f (ggAlpha2 p I T 1 0 x p.mu ^ 2 / (ggAlpha2 p I T 1 0 x p.mu - ggLin3 p I T 0 x p.mu)) 0 ∧
      ggAlpha2 p I T 1 0 x p.mu ^ 2 / (ggAlpha2 p I T 1 0 x p.mu - ggLin3 p I T 0 x p.mu) ≠ 0) ∧
    HasDerivAt (fun r => ggAlpha2 p I T r (c * r) x p.mu) (ggAlpha2 p I T 1 0 x p.mu) 0 ∧
    HasDerivAt (fun r => ggAlpha3 p I T r (c * r) x p.mu) (ggLin3 p I T 0 x p.mu) 0 ∧
    ggEvalJet (ggAlpha2 p I T 0 (c * 0) x p.mu, ggAlpha2 p I T 1 0 x p.mu) (ggAlpha3 p I T 0 (c * 0) x p.mu, ggLin3 p I T 0 x p.mu) = .ok (0, 0) := by
  have hc : ContinuousAt (fun r : ℝ => c * r) 0 := by fun_prop
  have comp : ∀ f : ℝ → ℝ, ContinuousAt f 0 → ContinuousAt (fun r => f (c * r)) 0 := by
    intro f hf
    have : ContinuousAt f (c * 0) := by rwa [mul_zero]
    exact ContinuousAt.comp (f := fun r => c * r) this hc
  have cA := comp _ (continuousAt_alpha2 p I T 1 x p.mu h)
  have c1 := comp _ (continuousAt_alpha3 p I T 1 x p.mu h)
  have c2 := comp _ (continuousAt_alpha3 p I T (-1) x p.mu h)
  set A := fun r => ggAlpha2 p I T 1 (c * r) x p.mu with hAdef
  set B := fun r => ggLin3 p I T (c * r) x p.mu + r * ((ggAlpha3 p I T 1 (c * r) x p.mu + ggAlpha3 p I T (-1) (c * r) x p.mu) / 2) with hBdef
  have cB : ContinuousAt B 0 := by
    have : ContinuousAt (fun r => ggLin3 p I T (c * r) x p.mu) 0 := by
      unfold ggLin3
      exact (c1.sub c2).div_const 2
    exact this.add (continuousAt_id.mul ((c1.add c2).div_const 2))
  have A0 : A 0 = ggAlpha2 p I T 1 0 x p.mu := by simp only [hAdef, mul_zero]
  have B0 : B 0 = ggLin3 p I T 0 x p.mu := by simp only [hBdef, mul_zero, zero_mul, add_zero]
  have e2 : ∀ r, ggAlpha2 p I T r (c * r) x p.mu = r * A r := fun r => ggAlpha2_lin p I T r (c * r) x p.mu
  have e3 : ∀ r, ggAlpha3 p I T r (c * r) x p.mu = r * B r := fun r => ggAlpha3_split p I T r (c * r) x p.mu
  rw [← A0] at hA hAB ⊢
  rw [← B0] at hAB ⊢
  have hsub : A 0 - B 0 ≠ 0 := sub_ne_zero.mpr hAB
  refine ⟨?_, ?_, ?_, ?_⟩
  · by_cases hp : ∑ i, |p.Q i| > 0 ∨ ∑ i, |p.mu i| > 0
    · refine ⟨fun r => r * (A r ^ 2 / (A r - B r)), ?_, hasDerivAt_id_mul ((cA.pow 2).div (cA.sub cB) hsub), div_ne_zero (pow_ne_zero 2 hA) hsub⟩
      filter_upwards [cA.eventually_ne hA, (cA.sub cB).eventually_ne hsub] with r h1 h2
      unfold ggEval
      rw [hpol]
      dsimp only
      rw [if_pos hp, e2, e3]
      have h2' : A r - B r ≠ 0 := h2
      by_cases hr : r = 0
      · rw [hr]
        simp
      · have hne : r * A r ≠ 0 := mul_ne_zero hr h1
        rw [if_neg hne]
        have hq : 1 - r * B r / (r * A r) = (A r - B r) / A r := by field_simp
        rw [hq, if_neg (div_ne_zero h2' h1)]
        congr 1
        field_simp
    · exfalso
      push Not at hp
      have hQ : ∀ i, p.Q i = 0 := fun i => abs_eq_zero.mp (le_antisymm ((Finset.single_le_sum (fun j _ => abs_nonneg (p.Q j)) (mem_univ i)).trans hp.1) (abs_nonneg _))
      have hmu : ∀ i, p.mu i = 0 := fun i => abs_eq_zero.mp (le_antisymm ((Finset.single_le_sum (fun j _ => abs_nonneg (p.mu j)) (mem_univ i)).trans hp.2) (abs_nonneg _))
      refine hA ?_
      rw [A0]
      unfold ggAlpha2
      simp only [GGParams.z1, GGParams.iso, hpol, hQ, hmu]
      simp
  · exact (hasDerivAt_id_mul cA).congr_of_eventuallyEq (Eventually.of_forall e2)
  · exact (hasDerivAt_id_mul cB).congr_of_eventuallyEq (Eventually.of_forall e3)
  · unfold ggEvalJet
    rw [if_pos (ggAlpha2_zero p I T (c * 0) x p.mu)]

/-- A pure dipolar fluid with constant integrals. -/
example : ∃ (p : GGParams (Fin 1)) (I : MPIntegrals) (T : ℝ) (x : Fin 1 → ℝ), p.pol = none ∧ MPContinuous p I T ∧
    ggAlpha2 p I T 1 0 x p.mu ≠ 0 ∧ ggAlpha2 p I T 1 0 x p.mu ≠ ggLin3 p I T 0 x p.mu := by
  have hpi := Real.pi_pos
  refine ⟨⟨fun _ _ => 1, fun _ _ => 1, fun _ => 1, fun _ => 0, 1, 1, none, 1, 1⟩, ⟨fun _ _ _ => 1, fun _ _ => 1, fun _ _ => 1, fun _ _ => -1, fun _ _ => 1⟩,
    1, fun _ => 1, rfl, ⟨fun _ _ _ => continuousAt_const, fun _ _ => continuousAt_const, fun _ _ => continuousAt_const,
      fun _ _ => continuousAt_const, fun _ _ => continuousAt_const⟩, ?_, ?_⟩
  · unfold ggAlpha2 GGParams.In GGParams.z1 GGParams.iso GGParams.beta
    norm_num [hpi.ne']
  · unfold ggLin3 ggAlpha3 ggAlpha2 GGParams.In GGParams.z1 GGParams.iso GGParams.beta
    norm_num [hpi.ne']

/-- **The derivative away from zero density is right**: where the second-order term is not zero the code returns the derivative of the
Padé approximant. -/
theorem gg_jet_partial (a2 a3 : ℝ → ℝ) (d2 d3 r : ℝ) (h2 : HasDerivAt a2 d2 r) (h3 : HasDerivAt a3 d3 r) (hne : a2 r ≠ 0)
    (hne' : 1 - a3 r / a2 r ≠ 0) :
    ∃ d, ggEvalJet (a2 r, d2) (a3 r, d3) = .ok (a2 r / (1 - a3 r / a2 r), d) ∧ HasDerivAt (fun s => a2 s / (1 - a3 s / a2 s)) d r := by
  refine ⟨((1 - 2 * a3 r / a2 r) * d2 + d3) / (1 - a3 r / a2 r) ^ 2, ?_, ?_⟩
  · unfold ggEvalJet
    rw [if_neg hne, if_neg hne']
  · refine (h2.fun_div ((h3.fun_div h2 hne).const_sub 1) hne').congr_deriv ?_
    have : 1 - a3 r / a2 r = (a2 r - a3 r) / a2 r := by field_simp
    rw [this] at hne'
    have hAB : a2 r - a3 r ≠ 0 := fun hc => hne' (by rw [hc, zero_div])
    rw [this]
    field_simp
    ring

example : HasDerivAt (fun r : ℝ => -r) (-1) 2 ∧ HasDerivAt (fun r : ℝ => r) 1 2 ∧ (-2 : ℝ) ≠ 0 ∧ (1 : ℝ) - 2 / (-2) ≠ 0 :=
  ⟨(hasDerivAt_id (2 : ℝ)).fun_neg, hasDerivAt_id _, by norm_num, by norm_num⟩

end

/-- **An unknown name for the reduced density is accepted** when the model is built, and every evaluation throws; each of the two known
names, and no entry at all, gives a value. -/
theorem rhostar_unknown {ι : Type} [Fintype ι] (f : JTree) (s : String) (hf : f.at "approach" = .ok (.str s)) (sigma : ι → ℝ)
    (rhoN packing : ℝ) (x : ι → ℝ) :
    getRhostar (getApproach (some f)) sigma rhoN packing x =
      if s = "use_packing_fraction" then .ok (6 / Real.pi * packing)
      else if s = "calculate_Gubbins_rhostar" then .ok (rhoN * ∑ i, ∑ j, x i * x j * ((sigma i + sigma j) / 2) ^ 3)
      else .throws .invalidArgument := by
  have hpi := Real.pi_pos
  split_ifs with h1 h2
  · subst h1
    simp only [getApproach, hf, getRhostar]
    congr 1
    field_simp
  · subst h2
    simp only [getApproach, hf, getRhostar]
  · have : getApproach (some f) = .kInvalid := by
      unfold getApproach
      simp only [hf]
      split
      · rename_i h
        injection h with h
        injection h with h
        exact absurd h h1
      · rename_i h
        injection h with h
        injection h with h
        exact absurd h h2
      · rfl
      · rename_i h3
        exact absurd rfl (h3 _)
    rw [this]
    rfl

example : (JTree.obj [("approach", .str "rhostar")]).at "approach" = .ok (.str "rhostar") := by rfl

end Teqp.Props
