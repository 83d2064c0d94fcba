import Verif.Model.Ancillary
import Verif.Model.PureVLE
import Verif.Model.JsonInt

/-! # Building ancillaries from a model

Models `/repo/include/teqp/algorithms/ancillary_builder.hpp`.  The critical point solver, the extrapolation from the
critical point, the saturation solver and the least-squares solver (`colPivHouseholderQr().solve`) are parameters.  The
printing done by the verification is not modelled. -/

set_option autoImplicit false

namespace Teqp.Model
open scoped Classical

/-- What the builder asks of the model: `solve_pure_critical` (already applied to the guess), `extrapolate_from_critical`,
`pure_VLE_T(..., 10)`, the residual Helmholtz energy for `z = [1]`, the gas constant, and the least-squares solver. -/
structure AncEnv where
  α : ℝ → ℝ → ℝ
  R : ℝ
  crit : Outcome (ℝ × ℝ)
  extrap : ℝ → ℝ → ℝ → Outcome (ℝ × ℝ)
  vle : ℝ → ℝ → ℝ → Outcome (ℝ × ℝ)
  lsq : List (List ℝ) → List ℝ → List ℝ

/-- The flags (`ancillary_builder.hpp` lines 16-21) with their defaults. -/
structure AncFlags where
  verify : Bool := true
  Npts : ℤ := 1000
  thetaNear : ℝ := 0.01

/-- `flags.value(key, default)` of the JSON library: only objects have named values, a value of the wrong type throws. -/
def flagValue {β : Type} (conv : JTree → Outcome β) (dflt : β) (j : JTree) (k : String) : Outcome β :=
  match j with
  | .obj fs => match fs.lookup k with
    | some v => conv v
    | none => .ok dflt
  | _ => .throws .jsonError

/-- Lines 16-21. -/
noncomputable def AncFlags.ofJson (flags : Option JTree) : Outcome AncFlags :=
  (flagValue JTree.toBool true (flags.getD (.obj [])) "verify").bind fun v =>
    (flagValue JTree.toInt 1000 (flags.getD (.obj [])) "Npts").bind fun n =>
      (flagValue JTree.toDouble 0.01 (flags.getD (.obj [])) "Theta_nearcrit").bind fun t => .ok ⟨v, n, t⟩

/-- One stored point (lines 58-61). -/
structure AncPt where
  theta : ℝ
  rhoL : ℝ
  rhoV : ℝ
  pL : ℝ

/-- `getdrhodTs` (lines 34-44); a zero divisor gives something that is not finite. -/
noncomputable def ancSlopes (α : ℝ → ℝ → ℝ) (R T rhoL rhoV : ℝ) : Outcome (ℝ × ℝ) :=
  if rhoL = 0 ∨ rhoV = 0 ∨ rhoL = rhoV ∨ R * T * (1 + 2 * Agenxy α 0 1 T rhoL + Agenxy α 0 2 T rhoL) = 0
      ∨ R * T * (1 + 2 * Agenxy α 0 1 T rhoV + Agenxy α 0 2 T rhoV) = 0 then .nonFinite
  else .ok (drhodTsat α R (dpsatdT α R T rhoL rhoV) T rhoL, drhodTsat α R (dpsatdT α R T rhoL rhoV) T rhoV)

/-- The loop of lines 47-62, `k` rounds left, `i` the counter, starting from the densities left by the previous round. -/
noncomputable def ancLoop (e : AncEnv) (Tc Tclosec dT : ℝ) : ℕ → ℕ → ℝ → ℝ → Outcome (List AncPt)
  | 0, _, _, _ => .ok []
  | k + 1, i, rhoL, rhoV =>
    let T := Tclosec - dT * i
    (e.vle T rhoL rhoV).bind fun r =>
      (ancSlopes e.α e.R T r.1 r.2).bind fun s =>
        let rL := r.1 + s.1 * dT
        let rV := r.2 + s.2 * dT
        let T' := T + dT
        (ancLoop e Tc Tclosec dT k (i + 1) rL rV).bind fun rest =>
          .ok (⟨(Tc - T') / Tc, rL, rV, rL * e.R * T' * (1 + Agenxy e.α 0 1 T' rL)⟩ :: rest)

/-- The exponents, `LinSpaced(10, 0, 4.5)` (line 70). -/
noncomputable def ancExponents : List ℝ := [0, 0.5, 1, 1.5, 2, 2.5, 3, 3.5, 4, 4.5]

/-- The matrix of line 75; a negative distance from the critical temperature has no power with a fractional exponent. -/
noncomputable def ancMatrix (pts : List AncPt) : List (List ℝ) := pts.map fun p => ancExponents.map fun t => p.theta ^ t

/-- The ancillary document of lines 92-126. -/
noncomputable def ancDocument (Tc rhoc pc Tmin : ℝ) (cL cV cp : List ℝ) : JTree :=
  let one (type : String) (n : List ℝ) (rv : ℝ) (tau : Bool) : JTree := .obj [("T_r", .num Tc), ("Tmax", .num Tc), ("Tmin", .num Tmin),
    ("type", .str type), ("description", .str "I'm a description"), ("n", .arr (n.map .num)), ("t", .arr (ancExponents.map .num)),
    ("reducing_value", .num rv), ("using_tau_r", .bool tau)]
  .obj [("rhoL", one "rhoLnoexp" cL rhoc false), ("rhoV", one "type" cV rhoc true), ("pS", one "type" cp pc true)]

/-- The right-hand sides of lines 79-82. -/
noncomputable def ancRhs (rhoc pc : ℝ) (pts : List AncPt) : List ℝ × List ℝ × List ℝ :=
  (pts.map fun p => p.rhoL / rhoc - 1, pts.map fun p => Real.log (p.rhoV / rhoc) * (1 - p.theta),
    pts.map fun p => Real.log (p.pL / pc) * (1 - p.theta))

/-- The fit of lines 63-86 and the ancillaries of lines 92-127.  Logarithms of numbers that are not positive and powers
of negative numbers make the coefficients not finite. -/
noncomputable def ancFit (e : AncEnv) (Tc rhoc pc Tmin : ℝ) (pts : List AncPt) : Outcome MultiAncillaries :=
  if rhoc = 0 ∨ pc = 0 ∨ ∃ p ∈ pts, p.theta < 0 ∨ p.rhoV / rhoc ≤ 0 ∨ p.pL / pc ≤ 0 then .nonFinite
  else
    let b := ancRhs rhoc pc pts
    MultiAncillaries.make (ancDocument Tc rhoc pc Tmin (e.lsq (ancMatrix pts) b.1) (e.lsq (ancMatrix pts) b.2.1)
      (e.lsq (ancMatrix pts) b.2.2))

/-- The verification of lines 129-144: it evaluates the density ancillaries at every stored temperature, which is refused
above the critical temperature; `N` stored points of the temperatures `Tclosec - dT i + dT`. -/
noncomputable def ancVerifyRefuses (Tc Tclosec dT : ℝ) (N : ℕ) : Prop :=
  ∃ i, i < N ∧ (1 - (Tc - (Tclosec - dT * i + dT)) / Tc) * Tc > Tc

/-- `build_ancillaries` (lines 14-148). -/
noncomputable def ancBuild (e : AncEnv) (Tmin : ℝ) (flags : Option JTree) : Outcome MultiAncillaries :=
  (AncFlags.ofJson flags).bind fun f =>
    e.crit.bind fun c =>
      let Tc := c.1
      let rhoc := c.2
      let Tclosec := (1 - f.thetaNear) * Tc
      (e.extrap Tc rhoc Tclosec).bind fun g =>
        let pc := rhoc * e.R * Tc * (1 + Agenxy e.α 0 1 Tc rhoc)
        if f.Npts < 1 then .ub
        else if f.Npts = 1 then .nonFinite
        else
          let dT := (Tc - Tmin) / (f.Npts - 1)
          match ancLoop e Tc Tclosec dT f.Npts.toNat 0 g.1 g.2 with
          | .throws x => .throws x
          | .ub => .ub
          | .nonFinite => if f.verify ∧ ancVerifyRefuses Tc Tclosec dT f.Npts.toNat then .throws .invalidArgument else .nonFinite
          | .ok pts =>
            if f.verify ∧ ancVerifyRefuses Tc Tclosec dT f.Npts.toNat then .throws .invalidArgument
            else ancFit e Tc rhoc pc Tmin pts

end Teqp.Model
