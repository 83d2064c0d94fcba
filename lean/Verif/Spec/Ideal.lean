import Verif.Model.Json
import Mathlib.Analysis.SpecialFunctions.Log.Basic
import Mathlib.Analysis.SpecialFunctions.Pow.Real
import Mathlib.MeasureTheory.Integral.IntervalIntegral.Basic

/-! # Specification: the CoolProp `alpha0` format

The documents (field names) and the meaning of the CoolProp ideal-gas terms, in terms of
`τ = T_r / T` and `δ = ρ / ρ_r`.  Heat-capacity terms are specified by the integral of the heat
capacity they state. -/

set_option autoImplicit false

namespace Teqp.Spec
open Teqp.Model

/-- Temperature part of the ideal-gas Helmholtz energy of a heat capacity `cp/R`, referred to `T0`:
enthalpy part `(1/T) ∫ cp` minus entropy part `∫ cp/T`. -/
noncomputable def fromCp0 (cp : ℝ → ℝ) (T0 T : ℝ) : ℝ :=
  (1 / T) * (∫ s in T0..T, cp s) - ∫ s in T0..T, cp s / s

/-- CoolProp ideal-gas terms. -/
inductive CPTerm where
  | lead (a1 a2 : ℝ)
  | offset (a1 a2 : ℝ)
  | logTau (a : ℝ)
  | planckEinstein (nt : List (ℝ × ℝ))
  | planckEinsteinFunctionT (nv : List (ℝ × ℝ))
  | planckEinsteinGeneralized (ncdt : List (ℝ × ℝ × ℝ × ℝ))
  | power (nt : List (ℝ × ℝ))
  | cp0PolyT (ct : List (ℝ × ℝ)) (T0 : ℝ)
  | cp0Constant (c T0 : ℝ)

/-- The JSON document of a term. -/
def CPTerm.toJson : CPTerm → JObj
  | .lead a1 a2 => [("type", .str "IdealGasHelmholtzLead"), ("a1", .num a1), ("a2", .num a2)]
  | .offset a1 a2 => [("type", .str "IdealGasHelmholtzEnthalpyEntropyOffset"), ("a1", .num a1),
      ("a2", .num a2)]
  | .logTau a => [("type", .str "IdealGasHelmholtzLogTau"), ("a", .num a)]
  | .planckEinstein nt => [("type", .str "IdealGasHelmholtzPlanckEinstein"),
      ("n", .arr (nt.map (·.1))), ("t", .arr (nt.map (·.2)))]
  | .planckEinsteinFunctionT nv => [("type", .str "IdealGasHelmholtzPlanckEinsteinFunctionT"),
      ("n", .arr (nv.map (·.1))), ("v", .arr (nv.map (·.2)))]
  | .planckEinsteinGeneralized l => [("type", .str "IdealGasHelmholtzPlanckEinsteinGeneralized"),
      ("n", .arr (l.map (·.1))), ("c", .arr (l.map (·.2.1))), ("d", .arr (l.map (·.2.2.1))),
      ("t", .arr (l.map (·.2.2.2)))]
  | .power nt => [("type", .str "IdealGasHelmholtzPower"), ("n", .arr (nt.map (·.1))),
      ("t", .arr (nt.map (·.2)))]
  | .cp0PolyT ct T0 => [("type", .str "IdealGasHelmholtzCP0PolyT"), ("c", .arr (ct.map (·.1))),
      ("t", .arr (ct.map (·.2))), ("T0", .num T0)]
  | .cp0Constant c T0 => [("type", .str "IdealGasHelmholtzCP0Constant"), ("cp_over_R", .num c),
      ("T0", .num T0)]

/-- The value of a term, for reducing temperature `Tr` and reducing density `ρr`. -/
noncomputable def CPTerm.value (Tr ρr T ρ : ℝ) : CPTerm → ℝ
  | .lead a1 a2 => Real.log (ρ / ρr) + a1 + a2 * (Tr / T)
  | .offset a1 a2 => a1 + a2 * (Tr / T)
  | .logTau a => a * Real.log (Tr / T)
  | .planckEinstein nt => (nt.map fun p => p.1 * Real.log (1 - Real.exp (-p.2 * (Tr / T)))).sum
  | .planckEinsteinFunctionT nv => (nv.map fun p => p.1 * Real.log (1 - Real.exp (-p.2 / T))).sum
  | .planckEinsteinGeneralized l =>
      (l.map fun p => p.1 * Real.log (p.2.1 + p.2.2.1 * Real.exp (p.2.2.2 * (Tr / T)))).sum
  | .power nt => (nt.map fun p => p.1 * (Tr / T) ^ p.2).sum
  | .cp0PolyT ct T0 => fromCp0 (fun s => (ct.map fun p => p.1 * s ^ p.2).sum) T0 T
  | .cp0Constant c T0 => fromCp0 (fun _ => c) T0 T

end Teqp.Spec
