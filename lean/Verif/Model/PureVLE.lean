import Verif.Model.Lambda
import Mathlib.Analysis.SpecialFunctions.Log.Basic

/-! # Pure-fluid saturation and critical points

Models `/repo/include/teqp/algorithms/VLE_pure.hpp` and `/repo/include/teqp/algorithms/critical_pure.hpp`.  A pure
fluid is its residual Helmholtz energy `α T ρ` and gas constant `R`.  The linear solve
(`colPivHouseholderQr().solve`) is a parameter; it returns `none` where an entry of its result is not finite, and numbers that
are not finite spread to both unknowns.  The derivatives of `α` are taken to be finite where they are evaluated. -/

set_option autoImplicit false

namespace Teqp.Model

/-- A pair, as `Eigen::Array<double, 2, 1>`. -/
structure V2 where
  x : ℝ
  y : ℝ

/-- A `2 × 2` array. -/
structure M2 where
  a00 : ℝ
  a01 : ℝ
  a10 : ℝ
  a11 : ℝ

/-- `IsothermPureVLEResiduals::call`, the part of one phase (`VLE_pure.hpp` lines 67-79): `p/(RT)`, its derivative, the
reduced chemical potential and its derivative.  `R0_over_Rr` is `R / R` (lines 36-43). -/
noncomputable def vlePhase (α : ℝ → ℝ → ℝ) (R T rho : ℝ) : (ℝ × ℝ) × (ℝ × ℝ) :=
  let q := R / R
  let A0 := Agenxy α 0 0 T rho
  let A1 := Agenxy α 0 1 T rho
  let A2 := Agenxy α 0 2 T rho
  ((rho * (q + A1), q + 2 * A1 + A2),
   (A1 + A0 + q * Real.log rho, (2 * A1 + A2) / rho + q / rho))

/-- The residual of `IsothermPureVLEResiduals::call` (`VLE_pure.hpp` lines 81, 85). -/
noncomputable def vleResid (α : ℝ → ℝ → ℝ) (R T : ℝ) (r : V2) : V2 :=
  ⟨(vlePhase α R T r.x).1.1 - (vlePhase α R T r.y).1.1, (vlePhase α R T r.x).2.1 - (vlePhase α R T r.y).2.1⟩

/-- Its Jacobian (`VLE_pure.hpp` lines 82-83, 86-87). -/
noncomputable def vleJac (α : ℝ → ℝ → ℝ) (R T : ℝ) (r : V2) : M2 :=
  ⟨(vlePhase α R T r.x).1.2, -(vlePhase α R T r.y).1.2, (vlePhase α R T r.x).2.2, -(vlePhase α R T r.y).2.2⟩

/-- Residual and Jacobian as `call` leaves them (`VLE_pure.hpp` lines 59-94): the logarithm of a density that is not positive is
not finite, nor is `R0_over_Rr` for a vanishing gas constant. -/
noncomputable def vleSys (α : ℝ → ℝ → ℝ) (R T : ℝ) (r : V2) : Option (V2 × M2) :=
  if R = 0 ∨ r.x ≤ 0 ∨ r.y ≤ 0 then none else some (vleResid α R T r, vleJac α R T r)

/-- The loop of `do_pure_VLE_T` (`VLE_pure.hpp` lines 106-136): Newton steps with the two stopping tests.  `solve J b` is
the linear solve, `eps` the machine epsilon.  A residual that is not finite, or a step that is not finite while the residual
is not below the threshold, passes neither test now or later. -/
noncomputable def vleLoop (sys : V2 → Option (V2 × M2)) (solve : M2 → V2 → Option V2) (eps : ℝ) : ℕ → V2 → Outcome V2
  | 0, r => .ok r
  | k + 1, r =>
    match sys r with
    | none => .nonFinite
    | some (r0, J) =>
      match solve J ⟨-r0.x, -r0.y⟩ with
      | none => if |r0.x| < eps ∧ |r0.y| < eps then .ok r else .nonFinite
      | some v =>
        let rnew : V2 := ⟨r.x + v.x, r.y + v.y⟩
        if |rnew.x - r.x| < eps ∧ |rnew.y - r.y| < eps then .ok r
        else if |r0.x| < eps ∧ |r0.y| < eps then .ok r
        else vleLoop sys solve eps k rnew

/-- `pure_VLE_T` (`VLE_pure.hpp` lines 138-143); a non-positive `maxiter` makes no step. -/
noncomputable def pureVLE (α : ℝ → ℝ → ℝ) (R : ℝ) (solve : M2 → V2 → Option V2) (eps T : ℝ) (maxiter : ℤ) (r : V2) : Outcome V2 :=
  vleLoop (vleSys α R T) solve eps maxiter.toNat r

/-- The formula of `dpsatdT_pure` (`VLE_pure.hpp` lines 165-168). -/
noncomputable def dpsatdT (α : ℝ → ℝ → ℝ) (R T rhoL rhoV : ℝ) : ℝ :=
  let hrV := Agenxy α 0 1 T rhoV + Agenxy α 1 0 T rhoV
  let hrL := Agenxy α 0 1 T rhoL + Agenxy α 1 0 T rhoL
  R * (hrV - hrL) / (1 / rhoV - 1 / rhoL)

/-- `dpsatdT_pure` (`VLE_pure.hpp` lines 158-170).  A single vanishing density makes the divisor infinite and the quotient zero; two
of them, or two equal densities, make it undefined. -/
noncomputable def dpsatdTPure (α : ℝ → ℝ → ℝ) (R T rhoL rhoV : ℝ) : Outcome ℝ :=
  if rhoL = rhoV then .nonFinite
  else if rhoL = 0 ∨ rhoV = 0 then .ok 0
  else .ok (dpsatdT α R T rhoL rhoV)

/-- The formula of `get_drhodT` in `pure_trace_VLE` (`VLE_pure.hpp` lines 219-223). -/
noncomputable def drhodTsat (α : ℝ → ℝ → ℝ) (R dps T rho : ℝ) : ℝ :=
  let dpdrho := R * T * (1 + 2 * Agenxy α 0 1 T rho + Agenxy α 0 2 T rho)
  let dpdT := R * rho * (1 + Agenxy α 0 1 T rho - Agenxy α 1 1 T rho)
  (-dpdT) / dpdrho + dps / dpdrho

/-- `get_drhodT`; `none` where it divides by zero. -/
noncomputable def drhodTOpt (α : ℝ → ℝ → ℝ) (R dps T rho : ℝ) : Option ℝ :=
  if R * T * (1 + 2 * Agenxy α 0 1 T rho + Agenxy α 0 2 T rho) = 0 then none else some (drhodTsat α R dps T rho)

/-- `Eigen::ArrayXd::LinSpaced(n, low, high)`: the last entry is `high` exactly. -/
noncomputable def linSpaced (n : ℕ) (low high : ℝ) : List ℝ :=
  (List.range n).map fun i => if i + 1 = n then high else low + i * ((high - low) / (n - 1))

/-! ## Critical points -/

/-- The mole fractions used by `get_pure_critical_conditions_Jacobian` (`critical_pure.hpp` lines 25-38). -/
def critMoleFracs (index length : Option ℕ) : Outcome (List ℝ) :=
  match index with
  | none => .ok [1]
  | some i =>
    match length with
    | none => .throws .stdBadOptionalAccess
    | some n => if i < n then .ok ((List.range n).map fun k => if k = i then 1 else 0) else .throws .invalidArgument

/-- One optional flag with a smallest allowed value (`critical_pure.hpp` lines 134-143). -/
def critFlag (low : ℤ) : Option ℤ → Outcome (Option ℕ)
  | some i => if i < low then .throws .invalidArgument else .ok (some i.toNat)
  | none => .ok none

/-- The checks of the flags of `solve_pure_critical` (`critical_pure.hpp` lines 130-144). -/
def critFlags (index length : Option ℤ) : Outcome (Option ℕ × Option ℕ) :=
  (critFlag 0 index).bind fun i => (critFlag 2 length).bind fun n => .ok (i, n)

/-- The residuals of `get_pure_critical_conditions_Jacobian` (`critical_pure.hpp` lines 43-46). -/
noncomputable def critResid (α : ℝ → ℝ → ℝ) (R : ℝ) (x : V2) : V2 :=
  let A n := Agenxy α 0 n x.x x.y
  ⟨R * x.x * (1 + 2 * A 1 + A 2), R * x.x / x.y * (2 * A 1 + 4 * A 2 + A 3)⟩

/-- Its Jacobian with respect to `T`, `rho` (`critical_pure.hpp` lines 63-76). -/
noncomputable def critJac (α : ℝ → ℝ → ℝ) (R : ℝ) (x : V2) : M2 :=
  let T := x.x
  let rho := x.y
  let A n := Agenxy α 0 n T rho
  let Ar11 := Agenxy α 1 1 T rho
  let Ar12 := Agenxy α 1 2 T rho
  let Ar13 := Agenxy α 1 3 T rho
  let d2pdrho2 := R * T / rho * (2 * A 1 + 4 * A 2 + A 3)
  let d3pdrho3 := R * T / (rho * rho) * (6 * A 2 + 6 * A 3 + A 4)
  let d_dpdrho_dT := R * (-(Ar12 + 2 * Ar11) + A 2 + 2 * A 1 + 1)
  let d_d2pdrho2_dT := R / rho * (-(Ar13 + 4 * Ar12 + 2 * Ar11) + A 3 + 4 * A 2 + 2 * A 1)
  ⟨d_dpdrho_dT, d2pdrho2, d_d2pdrho2_dT, d3pdrho3⟩

/-- Residuals and Jacobian of `get_pure_critical_conditions_Jacobian` (`critical_pure.hpp` lines 41-78): not finite at zero density or
temperature. -/
noncomputable def pureCritSys (α : ℝ → ℝ → ℝ) (R : ℝ) (x : V2) : Option (V2 × M2) :=
  if x.x = 0 ∨ x.y = 0 then none else some (critResid α R x, critJac α R x)

/-- The loop of `solve_pure_critical` (`critical_pure.hpp` lines 150-154). -/
noncomputable def critLoop (sys : V2 → Option (V2 × M2)) (solve : M2 → V2 → Option V2) : ℕ → V2 → Outcome V2
  | 0, x => .ok x
  | k + 1, x =>
    match sys x with
    | none => .nonFinite
    | some (r, J) =>
      match solve J ⟨-r.x, -r.y⟩ with
      | none => .nonFinite
      | some v => critLoop sys solve k ⟨x.x + v.x, x.y + v.y⟩

/-- `solve_pure_critical` (`critical_pure.hpp` lines 125-156).  `fluid z` is the fluid seen with mole fractions `z`.  With
`maxsteps ≤ 0` no check of the index is reached. -/
noncomputable def solvePureCritical (fluid : List ℝ → (ℝ → ℝ → ℝ) × ℝ) (solve : M2 → V2 → Option V2) (maxsteps : ℤ)
    (index length : Option ℤ) (x : V2) : Outcome V2 :=
  (critFlags index length).bind fun f =>
  if maxsteps ≤ 0 then .ok x
  else (critMoleFracs f.1 f.2).bind fun z =>
    critLoop (pureCritSys (fluid z).1 (fluid z).2) solve maxsteps.toNat x

/-- The two derivatives used by `get_Brho_critical_extrap` (`critical_pure.hpp` lines 204-207). -/
noncomputable def critD3 (α : ℝ → ℝ → ℝ) (R Tc rhoc : ℝ) : ℝ :=
  R * Tc / (rhoc * rhoc) * (6 * Agenxy α 0 2 Tc rhoc + 6 * Agenxy α 0 3 Tc rhoc + Agenxy α 0 4 Tc rhoc)

/-- `critical_pure.hpp` line 207. -/
noncomputable def critD2T (α : ℝ → ℝ → ℝ) (R Tc rhoc : ℝ) : ℝ :=
  R * (1 + 2 * Agenxy α 0 1 Tc rhoc + Agenxy α 0 2 Tc rhoc - 2 * Agenxy α 1 1 Tc rhoc - Agenxy α 1 2 Tc rhoc)

/-- `get_Brho_critical_extrap` (`critical_pure.hpp` lines 194-210); a negative radicand is not a number. -/
noncomputable def critBrho (α : ℝ → ℝ → ℝ) (R Tc rhoc : ℝ) : Outcome ℝ :=
  if critD3 α R Tc rhoc = 0 then .nonFinite
  else if 6 * critD2T α R Tc rhoc * Tc / critD3 α R Tc rhoc < 0 then .nonFinite
  else .ok (Real.sqrt (6 * critD2T α R Tc rhoc * Tc / critD3 α R Tc rhoc))

/-- `extrapolate_from_critical` (`critical_pure.hpp` lines 212-223). -/
noncomputable def extrapolateFromCritical (α : ℝ → ℝ → ℝ) (R Tc rhoc T : ℝ) : Outcome V2 :=
  (critBrho α R Tc rhoc).bind fun B =>
  if 1 - T / Tc ≤ 0 then .nonFinite
  else
    let drhohat := (T - Tc) * (B / Tc)
    .ok ⟨-drhohat / Real.sqrt (1 - T / Tc) + rhoc, drhohat / Real.sqrt (1 - T / Tc) + rhoc⟩

/-! ## Tracing a saturation curve -/

/-- The loop of `pure_trace_VLE` (`VLE_pure.hpp` lines 210-239).  `polish T r` is `pure_VLE_T`, `none` where it is not finite;
`slopes T p` the two saturation slopes at the polished densities; `dT` the temperature step, `none` where the division on line
208 is by zero.  The liquid density is checked for being finite (line 233); a vapour density that is not finite makes the
liquid density of the next pass not finite. -/
noncomputable def traceLoop (polish : ℝ → V2 → Option V2) (slopes : ℝ → V2 → Option ℝ × Option ℝ) (withDeriv : Bool) (dT : Option ℝ) :
    List ℝ → V2 → Outcome V2
  | [], r => .ok r
  | T :: Ts, r =>
    match polish T r with
    | none => .throws .iterationFailure
    | some p =>
      match withDeriv, dT, slopes T p with
      | false, _, _ => if p.x = p.y then .throws .iterationFailure else traceLoop polish slopes withDeriv dT Ts p
      | true, some d, (some vx, some vy) =>
        if p.x + d * vx = p.y + d * vy then .throws .iterationFailure
        else traceLoop polish slopes withDeriv dT Ts ⟨p.x + d * vx, p.y + d * vy⟩
      | true, some _, (some _, none) => if Ts = [] then .nonFinite else .throws .iterationFailure
      | true, _, _ => .throws .iterationFailure

/-- `pure_trace_VLE` from the density estimate `r` at the near-critical temperature on (`VLE_pure.hpp` lines 199-241), `none` if it
is not finite: densities that are not finite compare unequal, and the first pass of the loop refuses them (line 233).  A
negative `Nstep` is outside the contract of `LinSpaced`. -/
noncomputable def pureTrace (polish : ℝ → V2 → Option V2) (slopes : ℝ → V2 → Option ℝ × Option ℝ) (withDeriv : Bool) (Nstep : ℤ)
    (Tclose T : ℝ) (r : Option V2) : Outcome V2 :=
  match r.bind (polish Tclose) with
  | none => if Nstep < 0 then .ub else if Nstep = 0 then .nonFinite else .throws .iterationFailure
  | some p =>
    if p.x = p.y then .throws .iterationFailure
    else if Nstep < 0 then .ub
    else
      let dT := if Nstep = 1 then none else some (-(Tclose - T) / (Nstep - 1))
      traceLoop polish slopes withDeriv dT (linSpaced Nstep.toNat Tclose T) p

/-- The `pure_spec` part of the argument of `pure_trace_VLE`: `alternative_length`, `alternative_pure_index` and
`maxsteps`. -/
structure PureSpec where
  length : Option ℤ := none
  index : Option ℤ := none
  maxsteps : ℤ := 10

/-- The argument of `pure_trace_VLE` (`VLE_pure.hpp` lines 186-207), with every required key present. -/
structure TraceSpec where
  pure : Option PureSpec := none
  Tcguess : ℝ
  rhocguess : ℝ
  Tred : ℝ
  NVLE : ℤ := 10
  Nstep : ℤ
  withDeriv : Bool

/-- The mole fractions of `pure_trace_VLE` (`VLE_pure.hpp` lines 187-192): the write to the array is not checked. -/
def traceMoleFracs : Option PureSpec → Outcome (List ℝ)
  | none => .ok [1]
  | some s =>
    match s.length with
    | none => .throws .jsonError
    | some n =>
      if n < 0 then .ub
      else match s.index with
      | none => .throws .jsonError
      | some i => if 0 ≤ i ∧ i < n then .ok ((List.range n.toNat).map fun k => if (k : ℤ) = i then 1 else 0) else .ub

/-- The saturation slopes of both phases (`VLE_pure.hpp` lines 218-225). -/
noncomputable def satSlopes (α : ℝ → ℝ → ℝ) (R T : ℝ) (r : V2) : Option ℝ × Option ℝ :=
  match dpsatdTPure α R T r.x r.y with
  | .ok d => (drhodTOpt α R d T r.x, drhodTOpt α R d T r.y)
  | _ => (none, none)

/-- The finite result of a calculation. -/
def finiteOf {β : Type} : Outcome β → Option β
  | .ok a => some a
  | _ => none

/-- `pure_trace_VLE` (`VLE_pure.hpp` lines 184-241).  A critical point that is not finite makes the near-critical estimate not
finite. -/
noncomputable def pureTraceVLE (fluid : List ℝ → (ℝ → ℝ → ℝ) × ℝ) (solve : M2 → V2 → Option V2) (eps T : ℝ) (s : TraceSpec) :
    Outcome V2 :=
  (traceMoleFracs s.pure).bind fun z =>
  let ps := s.pure.getD {}
  let α := (fluid z).1
  let R := (fluid z).2
  let polish := fun T r => finiteOf (pureVLE α R solve eps T s.NVLE r)
  match solvePureCritical fluid solve ps.maxsteps ps.index ps.length ⟨s.Tcguess, s.rhocguess⟩ with
  | .nonFinite => pureTrace polish (satSlopes α R) s.withDeriv s.Nstep 0 T none
  | .ok c =>
    pureTrace polish (satSlopes α R) s.withDeriv s.Nstep (s.Tred * c.x) T
      (finiteOf (extrapolateFromCritical α R c.x c.y (s.Tred * c.x)))
  | .throws e => .throws e
  | .ub => .ub

end Teqp.Model
