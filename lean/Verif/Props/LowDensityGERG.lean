import Verif.Props.LowDensity
import Verif.Props.GERGMix

/-! # The GERG models at low density (C165) -/

set_option autoImplicit false

namespace Teqp.Spec
open Model

/-- The second virial coefficient of a pure fluid of GERG, in reduced density: the terms of first order. -/
noncomputable def gergFluidB (v : GVer) (f : GFluid) (tau : ℝ) : ℝ :=
  (((gergPure v f).getD {}).terms.map fun x => if x.d = 1 then (x.n : ℝ) * tau ^ (x.t : ℝ) else 0).sum

/-- That of the departure function of a pair, times its weight. -/
noncomputable def gergExcessB (a b : GFluid) (tau : ℝ) : ℝ :=
  (((gergF a b).getD 0 : ℚ) : ℝ) * (((gergDep a b).getD {}).terms.map fun x =>
    if x.d = 1 then (x.n : ℝ) * tau ^ (x.t : ℝ) * Real.exp (-x.eta * x.epsilon ^ 2 + x.beta * x.gamma) else 0).sum

end Teqp.Spec

namespace Teqp.Props
open Teqp.Model Teqp.Spec Filter Topology Finset

theorem hasDerivAt_term_zero (c : ℝ) (k : ℕ) (hk : 1 ≤ k) (g : ℝ → ℝ) (hg : DifferentiableAt ℝ g 0) :
    HasDerivAt (fun r : ℝ => c * r ^ k * g r) (if k = 1 then c * g 0 else 0) 0 := by
  refine (((hasDerivAt_pow_zero k hk).const_mul c).mul hg.hasDerivAt).congr_deriv ?_
  rw [zero_pow (by omega)]
  split_ifs <;> ring

theorem gergFluid_slope (v : GVer) (f : GFluid) (hf : f ∈ gergComponents v) (tau : ℝ) :
    HasDerivAt (fun d => gergFluid v f tau d) (gergFluidB v f tau) 0 := by
  obtain ⟨p, hp, -, -, -, -, -, hx⟩ := (gerg_pure_table v f).1 hf
  unfold gergFluid gergFluidB gergPureSum
  rw [hp, Option.getD_some]
  refine hasDerivAt_list_sum_zero p.terms _ _ 0 fun x hxm => ?_
  obtain ⟨-, -, hd, hc⟩ := hx x hxm
  have := hasDerivAt_term_zero ((x.n : ℝ) * tau ^ (x.t : ℝ)) x.d hd (fun r => Real.exp (-(x.c * r ^ x.l))) (by fun_prop)
  refine (this.congr_of_eventuallyEq (.of_forall fun r => by ring)).congr_deriv ?_
  rcases hc with ⟨h1, -⟩ | ⟨-, h2⟩
  · simp [h1]
  · simp [zero_pow (show x.l ≠ 0 by omega)]

theorem gergExcess_slope (a b : GFluid) (tau : ℝ) : HasDerivAt (fun d => gergExcess a b tau d) (gergExcessB a b tau) 0 := by
  unfold gergExcess gergExcessB gergDepSum
  refine HasDerivAt.const_mul _ ?_
  cases hd : gergDep a b with
  | none => simpa [GDep.terms, zipDep] using hasDerivAt_const (0 : ℝ) (0 : ℝ)
  | some q =>
    rw [Option.getD_some]
    refine hasDerivAt_list_sum_zero q.terms _ _ 0 fun x hxm => ?_
    have h1 := (((gerg_departure a b).2.2.2 q hd).2.2.2.2.2.2.2 x hxm).1
    have := hasDerivAt_term_zero ((x.n : ℝ) * tau ^ (x.t : ℝ)) x.d h1 (fun r => Real.exp (-x.eta * (r - x.epsilon) ^ 2 - x.beta * (r - x.gamma))) (by fun_prop)
    refine (this.congr_of_eventuallyEq (.of_forall fun r => by ring)).congr_deriv ?_
    congr 2
    congr 1
    ring

/-- **The GERG-2004 and GERG-2008 mixtures**: every mixture of different components of the tables, at every composition, has the published equation's terms of first order as its second
virial coefficient. -/
theorem gerg_virial (v : GVer) {n : ℕ} (names : Fin n → String) (fl : Fin n → GFluid) (h : GergNames v names fl) (T : ℝ) (z : Fin n → ℝ) (hT : 0 < T)
    (hz : ∀ i, 0 ≤ z i) (hs : ∑ i, z i = 1) : ∃ m, gergBuild v names = .ok m ∧
      HasVirial (fun r => m.alphar T r z) ((∑ i, z i * gergFluidB v (fl i) ((gergRed v fl).Tr z / T)
        + ∑ i, ∑ j ∈ univ.filter (i < ·), z i * z j * gergExcessB (fl i) (fl j) ((gergRed v fl).Tr z / T)) * ((gergRed v fl).rhor z)⁻¹) := by
  obtain ⟨m, hm, hv⟩ := gerg_value v names fl h
  have hf := fun i => (h.1 i).2
  refine ⟨m, hm, ?_⟩
  have h0 := gerg_mixture_zero v fl hf h.2 T z hT hz hs
  have key : HasDerivAt (fun r => gergMixture v fl T r z) ((∑ i, z i * gergFluidB v (fl i) ((gergRed v fl).Tr z / T)
        + ∑ i, ∑ j ∈ univ.filter (i < ·), z i * z j * gergExcessB (fl i) (fl j) ((gergRed v fl).Tr z / T)) * ((gergRed v fl).rhor z)⁻¹) 0 := by
    have hl : HasDerivAt (fun r : ℝ => r / (gergRed v fl).rhor z) ((gergRed v fl).rhor z)⁻¹ 0 := by
      simpa using (hasDerivAt_id (0 : ℝ)).div_const ((gergRed v fl).rhor z)
    refine HasDerivAt.comp (h₂ := fun d => gergReduced v fl ((gergRed v fl).Tr z / T) d z) (0 : ℝ) ?_ hl
    rw [zero_div]
    exact (HasDerivAt.fun_sum fun i _ => (gergFluid_slope v (fl i) (hf i) _).const_mul (z i)).add
      (HasDerivAt.fun_sum fun i _ => HasDerivAt.fun_sum fun j _ => (gergExcess_slope (fl i) (fl j) _).const_mul (z i * z j))
  exact hasVirial_congr (F := fun r => .ok (gergMixture v fl T r z)) (hasVirial_of _ (.of_forall fun _ => rfl) h0 key)
    fun r hr => hv T r z hT hr hz hs

example : ∃ m B, gergBuild .v2008 ![("n-decane" : String), "methane", "hydrogensulfide"] = .ok m ∧ HasVirial (fun r => m.alphar 300 r ![0.25, 0.75, 0]) B := by
  obtain ⟨m, hm, h⟩ := gerg_virial _ _ _ gerg_sample 300 ![0.25, 0.75, 0] (by norm_num) (fun i => by fin_cases i <;> norm_num)
    (by rw [Fin.sum_univ_three]; simp; norm_num)
  exact ⟨m, _, hm, h⟩

end Teqp.Props
