import Verif.Model.CritTrace
import Verif.Model.Newton

/-! # Polishing of critical points

`/repo/include/teqp/algorithms/critical_tracing.hpp`, to which all line numbers refer.  The root finder is that of `Model/Newton.lean`, with its simplifications; an error of
the eigenvalue routine is an argument error like that of the root finder and is a residual that is not finite here. -/

set_option autoImplicit false

namespace Teqp.Model
open scoped Classical

/-- The pair `derivs.tot[2], derivs.tot[3]`, lines 338-340, 362-365 and 381-382. -/
noncomputable def polishResid (m : EOS (Fin 2)) (eig : EigSolver) (T : ℝ) (ρ : Fin 2 → ℝ) : Option (NVec 2) :=
  match critConditions m eig T ρ with
  | .ok c => some ![c.1, c.2]
  | _ => none

/-- What the root finder returns, entry by entry; `none` is an entry that is not finite. -/
def entries {n : ℕ} (x : Option (NVec n)) (i : Fin n) : Option ℝ := x.map fun y => y i

/-- The test of `critical_polish_fixedmolefrac`, lines 347-351. -/
noncomputable def fixedzEnd (z0 : ℝ) (x : Fin 2 → Option ℝ) : Outcome (Option ℝ × (Fin 2 → Option ℝ)) :=
  if x 0 = none ∨ x 1 = none then .throws .stdInvalidArgument
  else .ok (x 0, ![(x 1).map (· * z0), (x 1).map (· * (1 - z0))])

/-- `critical_polish_fixedmolefrac`, lines 333-352. -/
noncomputable def polishFixedZ (m : EOS (Fin 2)) (eig : EigSolver) (solve : Matrix (Fin 2) (Fin 2) ℝ → NVec 2 → Option (NVec 2)) (T : ℝ) (ρ : Fin 2 → ℝ) (z0 : ℝ) :
    Outcome (Option ℝ × (Fin 2 → Option ℝ)) :=
  (newtonRaphson (fun x => polishResid m eig (x 0) ![z0 * x 1, (1 - z0) * x 1]) solve ![T, ρ 0 + ρ 1] 1e-10).bind fun r =>
  fixedzEnd z0 (entries r.x)

/-- The test of `critical_polish_fixedrho`, lines 370-374: of the temperature given, not of the one found. -/
noncomputable def fixedrhoEnd (T : Option ℝ) (x : Fin 3 → Option ℝ) : Outcome (Option ℝ × (Fin 2 → Option ℝ)) :=
  if T = none ∨ x 1 = none ∨ x 2 = none then .throws .stdInvalidArgument
  else .ok (x 0, ![x 1, x 2])

/-- The residuals of `critical_polish_fixedrho`, lines 355-363. -/
noncomputable def fixedrhoResid (m : EOS (Fin 2)) (eig : EigSolver) (ρ : Fin 2 → ℝ) (i : Fin 2) (x : NVec 3) : Option (NVec 3) :=
  (polishResid m eig (x 0) ![x 1, x 2]).map fun r => ![r 0, r 1, ![x 1, x 2] i - ρ i]

/-- `critical_polish_fixedrho`, lines 353-375. -/
noncomputable def polishFixedRho (m : EOS (Fin 2)) (eig : EigSolver) (solve : Matrix (Fin 3) (Fin 3) ℝ → NVec 3 → Option (NVec 3)) (T : ℝ) (ρ : Fin 2 → ℝ) (i : Fin 2) :
    Outcome (Option ℝ × (Fin 2 → Option ℝ)) :=
  (newtonRaphson (fixedrhoResid m eig ρ i) solve ![T, ρ 0, ρ 1] 1e-10).bind fun r =>
  fixedrhoEnd (some T) (entries r.x)

/-- The test of `critical_polish_fixedT`, lines 386-389: of the second concentration only. -/
noncomputable def fixedTEnd (T : Option ℝ) (x : Fin 2 → Option ℝ) : Outcome (Fin 2 → Option ℝ) :=
  if T = none ∨ x 1 = none then .throws .stdInvalidArgument else .ok x

/-- `critical_polish_fixedT`, lines 376-390. -/
noncomputable def polishFixedT (m : EOS (Fin 2)) (eig : EigSolver) (solve : Matrix (Fin 2) (Fin 2) ℝ → NVec 2 → Option (NVec 2)) (T : ℝ) (ρ : Fin 2 → ℝ) :
    Outcome (Fin 2 → Option ℝ) :=
  (newtonRaphson (polishResid m eig T) solve ρ 1e-10).bind fun r => fixedTEnd (some T) (entries r.x)

/-- The four polishers in the order tried, lines 595-616. -/
noncomputable def critPolishers (m : EOS (Fin 2)) (eig : EigSolver) (solve2 : Matrix (Fin 2) (Fin 2) ℝ → NVec 2 → Option (NVec 2))
    (solve3 : Matrix (Fin 3) (Fin 3) ℝ → NVec 3 → Option (NVec 3)) : List (ℝ → (Fin 2 → ℝ) → Outcome (Option ℝ × (Fin 2 → Option ℝ))) :=
  [fun T ρ => polishFixedZ m eig solve2 T ρ (ρ 0 / (ρ 0 + ρ 1)),
   fun T ρ => (polishFixedT m eig solve2 T ρ).bind fun r => .ok (some T, r),
   fun T ρ => polishFixedRho m eig solve3 T ρ 0,
   fun T ρ => polishFixedRho m eig solve3 T ρ 1]

/-- `a > b` of numbers of which one may not be a number. -/
def gtF (a : Option ℝ) (b : ℝ) : Prop := ∃ v, a = some v ∧ v > b

/-- The tests of the tracer, lines 623-628, when a number polished is not a number: comparisons with it are false. -/
def polishAcceptsF (opt : CritOpts) (x : Fin 3 → ℝ) (r : Option ℝ × (Fin 2 → Option ℝ)) : Prop :=
  ¬gtF (r.1.map fun t => |x 0 - t|) (opt.reltolT * x 0) ∧ ¬∃ i, gtF ((r.2 i).map fun t => |crho x i - t|) (opt.reltolRho * crho x i)

end Teqp.Model
