import Verif.Model.Json
import Mathlib.Analysis.SpecialFunctions.Log.Basic
import Mathlib.Analysis.SpecialFunctions.Pow.Real
import Mathlib.Analysis.SpecialFunctions.Trigonometric.Deriv

/-! # Ideal-gas Helmholtz energy (`/repo/include/teqp/ideal_eosterms.hpp`) -/

set_option autoImplicit false

namespace Teqp.Model

/-- The variant `IdealHelmholtzTerms` (`ideal_eosterms.hpp` lines 14-238).  The stored gas
constant is not used by any evaluation and is left out. -/
inductive IdealTerm where
  | constant (a : ℝ)
  | lead (a1 a2 : ℝ)
  | logT (a : ℝ)
  | powerT (n t : List ℝ)
  | planckEinstein (n theta : List ℝ)
  | planckEinsteinGen (n c d theta : List ℝ)
  | gergCosh (n theta : List ℝ)
  | gergSinh (n theta : List ℝ)
  | cp0Constant (c T0 : ℝ)
  | cp0PowerT (c t T0 : ℝ)

/-- A loop over `i < n.size()` that reads `y[i]` from an unchecked `valarray`: undefined behaviour when
`y` is shorter. -/
noncomputable def sumLoop2 (n y : List ℝ) (f : ℝ → ℝ → ℝ) : Outcome ℝ :=
  if y.length < n.length then .ub else .ok (List.zipWith f n y).sum

/-- `alphaig` of the terms (`ideal_eosterms.hpp`: Constant 19-23, LogT 40-44, Lead 63-67, PowerT 79-85,
PlanckEinstein 98-104, PlanckEinsteinGeneralized 123-129, Cosh 144-152, Sinh 167-175, Cp0Constant
194-199, Cp0PowerT 218-223).  The last divides by `t` and by `t + 1`. -/
noncomputable def IdealTerm.alphaig : IdealTerm → ℝ → ℝ → Outcome ℝ
  | .constant a, _, _ => .ok a
  | .logT a, T, _ => .ok (a * Real.log T)
  | .lead a1 a2, T, rho => .ok (Real.log rho + a1 + a2 / T)
  | .powerT n t, T, _ => sumLoop2 n t fun n t => n * T ^ t
  | .planckEinstein n theta, T, _ => sumLoop2 n theta fun n th => n * Real.log (1 - Real.exp (-th / T))
  | .planckEinsteinGen n c d theta, T, _ =>
      if c.length < n.length ∨ d.length < n.length ∨ theta.length < n.length then .ub
      else .ok (List.zipWith (fun p q : ℝ × ℝ => p.1 * Real.log (p.2 + q.1 * Real.exp (q.2 / T)))
        (n.zip c) (d.zip theta)).sum
  | .gergCosh n theta, T, _ => sumLoop2 n theta fun n th => n * Real.log |Real.cosh (th / T)|
  | .gergSinh n theta, T, _ => sumLoop2 n theta fun n th => n * Real.log |Real.sinh (th / T)|
  | .cp0Constant c T0, T, _ => .ok (c * ((T - T0) / T - Real.log (T / T0)))
  | .cp0PowerT c t T0, T, _ =>
      if t = 0 ∨ t + 1 = 0 then .nonFinite
      else .ok (c * (T ^ t * (1 / (t + 1) - 1 / t) - T0 ^ (t + 1) / (T * (t + 1)) + T0 ^ t / t))

/-- One entry of `terms` in the constructor of `PureIdealHelmholtz` (`ideal_eosterms.hpp` lines
244-289). -/
noncomputable def parseIdealTerm (o : JObj) : Outcome IdealTerm :=
  (o.at "type").bind fun ty =>
  match ty with
  | .str "Constant" => (o.num "a").bind fun a => .ok (.constant a)
  | .str "Lead" => (o.num "a_1").bind fun a1 => (o.num "a_2").bind fun a2 => .ok (.lead a1 a2)
  | .str "LogT" => (o.num "a").bind fun a => .ok (.logT a)
  | .str "PowerT" => (o.arr "n").bind fun n => (o.arr "t").bind fun t => .ok (.powerT n t)
  | .str "PlanckEinstein" =>
      (o.arr "n").bind fun n => (o.arr "theta").bind fun th => .ok (.planckEinstein n th)
  | .str "PlanckEinsteinGeneralized" =>
      (o.arr "n").bind fun n => (o.arr "c").bind fun c => (o.arr "d").bind fun d =>
      (o.arr "theta").bind fun th => .ok (.planckEinsteinGen n c d th)
  | .str "GERG2004Cosh" =>
      (o.arr "n").bind fun n => (o.arr "theta").bind fun th => .ok (.gergCosh n th)
  | .str "GERG2004Sinh" =>
      (o.arr "n").bind fun n => (o.arr "theta").bind fun th => .ok (.gergSinh n th)
  | .str "Cp0Constant" =>
      (o.num "c").bind fun c => (o.num "T_0").bind fun T0 => .ok (.cp0Constant c T0)
  | .str "Cp0PowerT" =>
      (o.num "c").bind fun c => (o.num "t").bind fun t => (o.num "T_0").bind fun T0 =>
      .ok (.cp0PowerT c t T0)
  | .str _ => .throws .invalidArgument
  | _ => .throws .jsonError

/-- The loop over `terms` in the constructor of `PureIdealHelmholtz` (`ideal_eosterms.hpp` lines
244-289). -/
noncomputable def parseIdealTerms : List JObj → Outcome (List IdealTerm)
  | [] => .ok []
  | o :: os => (parseIdealTerm o).bind fun t => (parseIdealTerms os).bind fun ts => .ok (t :: ts)

/-- `PureIdealHelmholtz::alphaig` (`ideal_eosterms.hpp` lines 291-298). -/
noncomputable def pureAlphaig : List IdealTerm → ℝ → ℝ → Outcome ℝ
  | [], _, _ => .ok 0
  | t :: ts, T, rho => (t.alphaig T rho).bind fun a => (pureAlphaig ts T rho).bind fun b => .ok (a + b)

/-- The loop of `IdealHelmholtz::alphaig` (`ideal_eosterms.hpp` lines 331-339): a component with mole
fraction zero is skipped, its contribution is not even evaluated. -/
noncomputable def idealLoop : List (List IdealTerm) → List ℝ → ℝ → ℝ → Outcome ℝ
  | p :: ps, x :: xs, T, rho =>
    if x ≠ 0 then
      (pureAlphaig p T rho).bind fun a => (idealLoop ps xs T rho).bind fun b =>
        .ok (x * (a + Real.log x) + b)
    else idealLoop ps xs T rho
  | _, _, _, _ => .ok 0

/-- `IdealHelmholtz::alphaig` (`ideal_eosterms.hpp` lines 325-342). -/
noncomputable def idealAlphaig (pures : List (List IdealTerm)) (T rho : ℝ) (x : List ℝ) : Outcome ℝ :=
  if x.length ≠ pures.length then .throws .invalidArgument else idealLoop pures x T rho

/-! ## Conversion from the CoolProp format -/

/-- `CoolProp2teqp_alphaig_term_reformatter` (`ideal_eosterms.hpp` lines 359-475).  The
Aly-Lee branch indexes a `valarray` without checking its size; fewer than five constants is marked as
undefined behaviour although a cut-off coefficient may hide the last access. -/
noncomputable def convertIdealTerm (o : JObj) (Tri rhori R : ℝ) : Outcome (List JObj) :=
  (o.at "type").bind fun ty =>
  match ty with
  | .str "IdealGasHelmholtzLead" =>
      (o.num "a1").bind fun a1 => (o.num "a2").bind fun a2 =>
      .ok [[("type", .str "Lead"), ("a_1", .num (a1 - Real.log rhori)), ("a_2", .num (a2 * Tri)),
        ("R", .num R)]]
  | .str "IdealGasHelmholtzEnthalpyEntropyOffset" =>
      (o.num "a1").bind fun a1 => (o.num "a2").bind fun a2 =>
      .ok [[("type", .str "PowerT"), ("n", .arr [a1, a2 * Tri]), ("t", .arr [0, -1]), ("R", .num R)]]
  | .str "IdealGasHelmholtzLogTau" =>
      (o.num "a").bind fun a =>
      .ok [[("type", .str "Constant"), ("a", .num (a * Real.log Tri)), ("R", .num R)],
        [("type", .str "LogT"), ("a", .num (-a)), ("R", .num R)]]
  | .str "IdealGasHelmholtzPlanckEinstein" =>
      (o.arr "n").bind fun n => (o.arr "t").bind fun t =>
      .ok [[("type", .str "PlanckEinstein"), ("n", .arr n), ("theta", .arr (t.map (· * Tri))),
        ("R", .num R)]]
  | .str "IdealGasHelmholtzPlanckEinsteinFunctionT" =>
      (o.arr "n").bind fun n => (o.arr "v").bind fun v =>
      .ok [[("type", .str "PlanckEinstein"), ("n", .arr n), ("theta", .arr v), ("R", .num R)]]
  | .str "IdealGasHelmholtzPlanckEinsteinGeneralized" =>
      (o.arr "n").bind fun n => (o.arr "c").bind fun c => (o.arr "d").bind fun d =>
      (o.arr "t").bind fun t =>
      .ok [[("type", .str "PlanckEinsteinGeneralized"), ("n", .arr n), ("c", .arr c), ("d", .arr d),
        ("theta", .arr (t.map (· * Tri))), ("R", .num R)]]
  | .str "IdealGasHelmholtzPower" =>
      (o.arr "n").bind fun n => (o.arr "t").bind fun t =>
      if t.length < n.length then .ub
      else .ok [[("type", .str "PowerT"), ("n", .arr (List.zipWith (fun n t => n * Tri ^ t) n t)),
        ("t", .arr ((t.take n.length).map (· * (-1)) ++ t.drop n.length)), ("R", .num R)]]
  | .str "IdealGasHelmholtzCP0PolyT" =>
      (o.arr "t").bind fun t => (o.arr "c").bind fun c => (o.num "T0").bind fun T0 =>
      if c.length < t.length then .ub
      else .ok (List.zipWith (fun t c =>
        if t = 0 then [("type", .str "Cp0Constant"), ("c", .num c), ("T_0", .num T0), ("R", .num R)]
        else [("type", .str "Cp0PowerT"), ("c", .num c), ("t", .num t), ("T_0", .num T0),
          ("R", .num R)]) t c)
  | .str "IdealGasHelmholtzCP0Constant" =>
      (o.num "T0").bind fun T0 => (o.at "cp_over_R").bind fun c =>
      .ok [[("type", .str "Cp0Constant"), ("c", c), ("T_0", .num T0), ("R", .num R)]]
  | .str "IdealGasHelmholtzCP0AlyLee" =>
      (o.arr "c").bind fun k => (o.num "T0").bind fun T0 =>
      match k with
      | k0 :: k1 :: k2 :: k3 :: k4 :: _ =>
        let first : List JObj :=
          if |k0| > 1e-14 then
            [[("type", .str "Cp0Constant"), ("c", .num k0), ("T_0", .num T0), ("R", .num R)]]
          else []
        let terms : List (ℝ × ℝ × ℝ × ℝ) :=
          (if |k1| > 1e-14 then [(k1, 1, -1, -2 * k2)] else []) ++
          (if |k3| > 1e-14 then [(-k3, 1, 1, -2 * k4)] else [])
        .ok (first ++ [[("type", .str "PlanckEinsteinGeneralized"), ("n", .arr (terms.map (·.1))),
          ("c", .arr (terms.map (·.2.1))), ("d", .arr (terms.map (·.2.2.1))),
          ("theta", .arr (terms.map (·.2.2.2))), ("R", .num R)]])
      | _ => .ub
  | .str _ => .throws .invalidArgument
  | _ => .throws .jsonError

/-- The loop of `convert_CoolProp_idealgas` (`ideal_eosterms.hpp` lines 510-522). -/
noncomputable def convertIdealTerms : List JObj → ℝ → ℝ → ℝ → Outcome (List JObj)
  | [], _, _, _ => .ok []
  | o :: os, Tri, rhori, R => (convertIdealTerm o Tri rhori R).bind fun l =>
      (convertIdealTerms os Tri rhori R).bind fun ls => .ok (l ++ ls)

end Teqp.Model
