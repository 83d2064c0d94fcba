import Verif.Model.TraceVLE

/-! # Critical curves of binary mixtures

Models `/repo/include/teqp/algorithms/critical_tracing.hpp`.  The self-adjoint eigensolver, the linear solve, the
ODE stepper and the polishers are parameters. -/

set_option autoImplicit false

open Classical

namespace Teqp.Model

/-- `sorted_eigen` (`critical_tracing.hpp` lines 34-37): eigenvalues and eigenvectors (as columns). -/
abbrev EigSolver := (n : ℕ) → Matrix (Fin n) (Fin n) ℝ → (Fin n → ℝ) × Matrix (Fin n) (Fin n) ℝ

/-- `EigenData` (`/repo/include/teqp/algorithms/critical_tracing_types.hpp` lines 27-30); `v0` and `v1` are the first two
columns. -/
structure EigenData (n : ℕ) where
  values : List ℝ
  cols : Matrix (Fin (n + 2)) (Fin (n + 2)) ℝ

namespace EigenData
variable {n : ℕ}

/-- `ed.v0` (`critical_tracing.hpp` line 114). -/
def v0 (e : EigenData n) : Fin (n + 2) → ℝ := fun i => e.cols i 0

/-- `ed.v1` (`critical_tracing.hpp` line 115). -/
def v1 (e : EigenData n) : Fin (n + 2) → ℝ := fun i => e.cols i 1

end EigenData

/-- The Hessian of `Psi` with ideal-gas terms only for the components present (`critical_tracing.hpp` lines 47-58). -/
noncomputable def critHess {ι : Type} [Fintype ι] [DecidableEq ι] (m : EOS ι) (T : ℝ) (ρ : ι → ℝ) : Matrix ι ι ℝ :=
  Matrix.of fun i j => hessPsir m T ρ i j + if i = j ∧ ρ i ≠ 0 then m.R (molefrac ρ) * T / ρ i else 0

/-- `rhovec.minCoeff(&ind)` (`critical_tracing.hpp` lines 68-69). -/
noncomputable def minIndex {n : ℕ} (ρ : Fin (n + 2) → ℝ) : Fin (n + 2) := ((List.finRange (n + 2)).argmin ρ).getD 0

/-- Sign of the eigenvectors in the normal case (`critical_tracing.hpp` lines 67-72): all are reversed when the column
numbered like the smallest concentration has a negative entry. -/
noncomputable def orient {n : ℕ} (ρ : Fin (n + 2) → ℝ) (U : Matrix (Fin (n + 2)) (Fin (n + 2)) ℝ) :
    Matrix (Fin (n + 2)) (Fin (n + 2)) ℝ :=
  Matrix.of fun i j => if ∃ r, U r (minIndex ρ) < 0 then U i j * -1 else U i j

/-- The padded eigenvectors when component `k` is absent (`critical_tracing.hpp` lines 91-106).  The loop over rows runs
to `N - nonzero_count = 1`. -/
noncomputable def padded {n : ℕ} (k : Fin (n + 2)) (U : Matrix (Fin (n + 1)) (Fin (n + 1)) ℝ) :
    Matrix (Fin (n + 2)) (Fin (n + 2)) ℝ := Matrix.of fun r c =>
  if c = 0 then k.insertNth (α := fun _ => ℝ) 0 (fun j => U j 0) r
  else if c = Fin.last (n + 1) ∧ r = k then 1 else 0

/-- Reversal of the first eigenvector to follow `alignment_v0` (`critical_tracing.hpp` lines 110-112). -/
noncomputable def alignFirst {n : ℕ} (align : Option (Fin (n + 2) → ℝ)) (U : Matrix (Fin (n + 2)) (Fin (n + 2)) ℝ) :
    Matrix (Fin (n + 2)) (Fin (n + 2)) ℝ :=
  match align with
  | none => U
  | some a => Matrix.of fun i j => if j = 0 ∧ ∑ r, U r 0 * a r < 0 then U i j * -1 else U i j

/-- The number of absent components (`critical_tracing.hpp` lines 44, 60-61). -/
noncomputable def zeroCount {n : ℕ} (ρ : Fin n → ℝ) : ℕ := (Finset.univ.filter fun i => ρ i = 0).card

/-- `eigen_problem` (`critical_tracing.hpp` lines 39-117) for two or more components.  An `alignment_v0` of length zero is
`none`. -/
noncomputable def eigenProblem {n : ℕ} (m : EOS (Fin (n + 2))) (eig : EigSolver) (T : ℝ) (ρ : Fin (n + 2) → ℝ)
    (align : Option (Fin (n + 2) → ℝ)) : Outcome (EigenData n) :=
  let H := critHess m T ρ
  if zeroCount ρ = 0 then
    let r := eig (n + 2) H
    .ok ⟨List.ofFn r.1, alignFirst align (orient ρ r.2)⟩
  else if zeroCount ρ = 1 then
    match (List.finRange (n + 2)).find? (fun i => decide (ρ i = 0)) with
    | none => .ub
    | some k =>
      let r := eig (n + 1) (H.submatrix k.succAbove k.succAbove)
      .ok ⟨List.ofFn r.1, alignFirst align (padded k r.2)⟩
  else .throws .stdInvalidArgument

/-- The ideal-gas entries 2, 3 and 4 of `get_derivs` (`critical_tracing.hpp` lines 136-146); entries 0 and 1 are the
placeholder -1. -/
noncomputable def psi0Deriv {n : ℕ} (R T : ℝ) (ρ v : Fin (n + 2) → ℝ) : ℕ → ℝ
  | 2 => ∑ i, if ρ i ≠ 0 then R * T * v i ^ 2 / ρ i else 0
  | 3 => ∑ i, if ρ i ≠ 0 then -R * T * v i ^ 3 / ρ i ^ 2 else 0
  | 4 => ∑ i, if ρ i ≠ 0 then 2 * R * T * v i ^ 4 / ρ i ^ 3 else 0
  | _ => -1

/-- `psi1.tot` for a given direction (`critical_tracing.hpp` lines 149, 188-191). -/
noncomputable def psiTot {n : ℕ} (m : EOS (Fin (n + 2))) (T : ℝ) (ρ v : Fin (n + 2) → ℝ) (k : ℕ) : ℝ :=
  psi0Deriv (m.R (molefrac ρ)) T ρ v k + PsirSigmaDeriv m T ρ v k

/-- `get_derivs` (`critical_tracing.hpp` lines 128-194). -/
noncomputable def getDerivs {n : ℕ} (m : EOS (Fin (n + 2))) (eig : EigSolver) (T : ℝ) (ρ : Fin (n + 2) → ℝ)
    (align : Option (Fin (n + 2) → ℝ)) : Outcome ((ℕ → ℝ) × EigenData n) :=
  (eigenProblem m eig T ρ align).bind fun e => .ok (psiTot m T ρ e.v0, e)

/-- `get_criticality_conditions` (`critical_tracing.hpp` lines 281-284). -/
noncomputable def critConditions {n : ℕ} (m : EOS (Fin (n + 2))) (eig : EigSolver) (T : ℝ) (ρ : Fin (n + 2) → ℝ) :
    Outcome (ℝ × ℝ) :=
  (getDerivs m eig T ρ none).bind fun d => .ok (d.1 2, d.1 3)

/-- The derivatives along the second eigenvector by finite differences (`critical_tracing.hpp` lines 216-253). -/
noncomputable def sigma2Deriv (m : EOS (Fin 2)) (eig : EigSolver) (T : ℝ) (ρ : Fin 2 → ℝ) (derivs : ℕ → ℝ)
    (e : EigenData 0) : Outcome (ℕ → ℝ) :=
  let h := 2e-5 * (ρ 0 + ρ 1)
  let at' (s : ℝ) := getDerivs m eig T (fun i => ρ i + s * e.v1 i) (some e.v0)
  let pos (s : ℝ) : Prop := ∀ i, ρ i + s * e.v1 i > 0
  if pos (-h) ∧ pos h then
    (at' h).bind fun p => (at' (-h)).bind fun q => .ok fun k => (p.1 k - q.1 k) / (2 * h)
  else if pos h then
    (at' h).bind fun p => (at' (2 * h)).bind fun q => .ok fun k => (-3 * derivs k + 4 * p.1 k - q.1 k) / (2 * h)
  else if pos (-h) then
    (at' (-h)).bind fun p => (at' (-(2 * h))).bind fun q =>
      .ok fun k => (-3 * derivs k + 4 * p.1 k - q.1 k) / (-2 * h)
  else .throws .stdInvalidArgument

/-- `get_drhovec_dT_crit` (`critical_tracing.hpp` lines 204-279).  `solve` is the QR solve. -/
noncomputable def drhodTcrit (m : EOS (Fin 2)) (eig : EigSolver) (solve : Solver 2) (T : ℝ) (ρ : Fin 2 → ℝ) :
    Outcome (Fin 2 → ℝ) :=
  (getDerivs m eig T ρ none).bind fun d =>
  let dT : ℝ := 1e-7
  (getDerivs m eig (T + dT) ρ (some d.2.v0)).bind fun p =>
  (getDerivs m eig (T - dT) ρ (some d.2.v0)).bind fun q =>
  (sigma2Deriv m eig T ρ d.1 d.2).bind fun s =>
    let derivT (k : ℕ) := (p.1 k - q.1 k) / (2 * dT)
    let b : Matrix (Fin 2) (Fin 2) ℝ := !![d.1 3, d.1 4; s 2, s 3]
    .ok (solve (d.2.cols * b).transpose ![-derivT 2, -derivT 3])

/-- `get_dp_dT_crit` (`critical_tracing.hpp` lines 747-751). -/
noncomputable def dpdTcrit (m : EOS (Fin 2)) (eig : EigSolver) (solve : Solver 2) (T : ℝ) (ρ : Fin 2 → ℝ) : Outcome ℝ :=
  (drhodTcrit m eig solve T ρ).bind fun d => .ok (dpdT m T ρ + ∑ i, dpdrhovec m T ρ i * d i)

/-- `xprime` of `trace_critical_arclength_binary` for a given `drho/dT` (`critical_tracing.hpp` lines 423-437). -/
noncomputable def critRhs (c : ℝ) (d : Fin 2 → ℝ) (last : Option (Fin 2 → ℝ)) : Fin 3 → ℝ :=
  let dTdt := 1 / Real.sqrt (d 0 * d 0 + d 1 * d 1)
  let X : Fin 3 → ℝ := ![c * dTdt, c * (d 0 * dTdt), c * (d 1 * dTdt)]
  match last with
  | none => X
  | some l => if X 1 * l 0 + X 2 * l 1 < 0 then fun i => X i * -1 else X

/-- The concentrations of the state `[T, rho0, rho1]` (`critical_tracing.hpp` line 418). -/
def crho (x : Fin 3 → ℝ) : Fin 2 → ℝ := ![x 1, x 2]

/-- `xprime` as a function of the state (`critical_tracing.hpp` lines 414-438).  A zero derivative has no direction: line
424 divides by its norm. -/
noncomputable def critXprime (m : EOS (Fin 2)) (eig : EigSolver) (solve : Solver 2) (termNeg : Bool) (c : ℝ)
    (last : Option (Fin 2 → ℝ)) (x : Fin 3 → ℝ) : Outcome (Fin 3 → ℝ) :=
  if termNeg ∧ ∃ i, crho x i < 0 then .throws .stdInvalidArgument
  else (drhodTcrit m eig solve (x 0) (crho x)).bind fun d =>
    if d 0 = 0 ∧ d 1 = 0 then .nonFinite else .ok (critRhs c d last)

/-- `EigenVectorPath` (`critical_tracing.hpp` lines 291-311).  Three of the four terms of `dir` use the first vector. -/
noncomputable def eigenVectorPath {n : ℕ} (m : EOS (Fin (n + 2))) (eig : EigSolver) (T : ℝ) (ρ u : Fin (n + 2) → ℝ)
    (dρ : ℝ) : Outcome (Fin (n + 2) → ℝ) :=
  (eigenProblem m eig T (fun i => ρ i + dρ * u i) (some u)).bind fun e1 =>
  (eigenProblem m eig T (fun i => ρ i + dρ * e1.v0 i) (some u)).bind fun e2 =>
  (eigenProblem m eig T (fun i => ρ i + 2 * dρ * e2.v0 i) (some u)).bind fun e3 =>
    .ok fun i => ρ i + 2 * dρ * (u i / 6 + u i / 3 + u i / 3 + e3.v0 i / 6)

/-- `is_locally_stable` (`critical_tracing.hpp` lines 316-331). -/
noncomputable def isLocallyStable {n : ℕ} (m : EOS (Fin (n + 2))) (eig : EigSolver) (T : ℝ) (ρ : Fin (n + 2) → ℝ)
    (rel : ℝ) : Outcome Prop :=
  (eigenProblem m eig T ρ none).bind fun e =>
  let dρ := rel * ∑ i, ρ i
  (eigenVectorPath m eig T ρ e.v0 dρ).bind fun rp =>
  (eigenProblem m eig T rp (some e.v0)).bind fun ep =>
  (eigenVectorPath m eig T ρ e.v0 (-dρ)).bind fun rm =>
  (eigenProblem m eig T rm (some e.v0)).bind fun em =>
    match e.values.head?, ep.values.head?, em.values.head? with
    | some l, some p, some q => .ok (¬(p < l ∨ q < l))
    | _, _, _ => .ub

/-- `TCABOptions` (`/repo/include/teqp/algorithms/critical_tracing_types.hpp` lines 5-25) without the tolerances of the
stepper, the stability flag and the verbosity. -/
structure CritOpts where
  initDt : ℝ
  maxDt : ℝ
  Ttol : ℝ
  initC : ℝ
  smallTCount : ℤ
  integrationOrder : ℤ
  maxStepCount : ℤ
  skipDircheck : ℤ
  polish : Bool
  reltolT : ℝ
  reltolRho : ℝ
  termNeg : Bool
  polishExceptionOnFail : Bool
  pureEndpoint : Bool

/-- The parts of the trace that are parameters here: the right-hand side for a given `c` and previous direction, the
adaptive stepper, the four polishers in the order tried, the conditions evaluated when a point is stored, and the solver
of the pure critical point for a given component. -/
structure CritSys where
  xprime : ℝ → Option (Fin 2 → ℝ) → (Fin 3 → ℝ) → Outcome (Fin 3 → ℝ)
  adaptive : ((Fin 3 → ℝ) → Outcome (Fin 3 → ℝ)) → (Fin 3 → ℝ) → ℝ → ℝ → StepRes 3
  polishers : List (ℝ → (Fin 2 → ℝ) → Outcome (ℝ × (Fin 2 → ℝ)))
  conditions : (Fin 3 → ℝ) → Outcome (ℝ × ℝ)
  pureCritical : Fin 2 → ℝ → ℝ → Outcome (ℝ × ℝ)

/-- The variables of the trace.  Of a stored point the state and its derivative are kept, newest first. -/
structure CritState where
  x : Fin 3 → ℝ
  t : ℝ
  dt : ℝ
  last : Option (Fin 2 → ℝ)
  counter : ℤ
  points : List ((Fin 3 → ℝ) × (Fin 3 → ℝ))

/-- `store_point` (`critical_tracing.hpp` lines 473-502). -/
noncomputable def storeCrit (sys : CritSys) (c : ℝ) (s : CritState) : Outcome CritState :=
  (sys.conditions s.x).bind fun _ => (sys.xprime c s.last s.x).bind fun d =>
    .ok { s with points := (s.x, d) :: s.points }

/-- The composition test (`critical_tracing.hpp` lines 587-593, 680-687). -/
def outsideZ (x : Fin 3 → ℝ) : Prop := x 1 / (x 1 + x 2) < 0 ∨ x 1 / (x 1 + x 2) > 1

/-- Acceptance of a polished state (`critical_tracing.hpp` lines 623-628). -/
def polishAccepts (opt : CritOpts) (x : Fin 3 → ℝ) (r : ℝ × (Fin 2 → ℝ)) : Prop :=
  ¬|x 0 - r.1| > opt.reltolT * x 0 ∧ ¬∃ i, |crho x i - r.2 i| > opt.reltolRho * crho x i

/-- The loop over the polishers (`critical_tracing.hpp` lines 619-646): `none` when none is accepted. -/
noncomputable def tryPolish (opt : CritOpts) (x : Fin 3 → ℝ) :
    List (ℝ → (Fin 2 → ℝ) → Outcome (ℝ × (Fin 2 → ℝ))) → Outcome (Option (Fin 3 → ℝ))
  | [] => .ok none
  | f :: fs => match f (x 0) (crho x) with
    | .ok r => if polishAccepts opt x r then .ok (some ![r.1, r.2 0, r.2 1]) else tryPolish opt x fs
    | .throws _ => tryPolish opt x fs
    | .ub => .ub
    | .nonFinite => .nonFinite

/-- The step of the chosen order (`critical_tracing.hpp` lines 544-585). -/
noncomputable def critStep (sys : CritSys) (opt : CritOpts) (c : ℝ) (s : CritState) : Outcome (StepRes 3) :=
  if opt.integrationOrder = 5 then
    .ok (match sys.adaptive (sys.xprime c s.last) s.x s.t s.dt with
      | .accepted x t dt => .accepted x t (min dt opt.maxDt)
      | r => r)
  else if opt.integrationOrder = 1 then
    match sys.xprime c s.last s.x with
    | .ok d => .ok (.accepted (fun i => s.x i + s.dt * d i) (s.t + s.dt) s.dt)
    | .throws _ => .ok .threw
    | .ub => .ub
    | .nonFinite => .nonFinite
  else .throws .stdInvalidArgument

/-- What follows an accepted step (`critical_tracing.hpp` lines 587-697): the new state and whether to go on.  `s` is the
state after the step, `x0` and `d0` the state and derivative before it. -/
noncomputable def critFinish (sys : CritSys) (opt : CritOpts) (c : ℝ) (iter : ℤ) (x0 d0 : Fin 3 → ℝ) (s : CritState) :
    Outcome (CritState × Bool) :=
  if outsideZ s.x then .ok (s, false)
  else
    (if opt.polish then tryPolish opt s.x sys.polishers else .ok (some s.x)).bind fun r =>
    match r with
    | none => if opt.polishExceptionOnFail then .throws .iterationFailure else .ok (s, false)
    | some x =>
      let s1 : CritState :=
        { s with
          x := x
          last := if iter ≥ opt.skipDircheck then some ![d0 1, d0 2] else s.last
          counter := if |x 0 - x0 0| < opt.Ttol then s.counter + 1 else 0 }
      if outsideZ x then .ok (s1, false)
      else (storeCrit sys c s1).bind fun s2 => .ok (s2, decide (¬s2.counter > opt.smallTCount))

/-- The loop (`critical_tracing.hpp` lines 535-698).  `gas` bounds the passes, because rejected steps are repeated without
limit; `none` is a loop still running.  `left` counts the steps still allowed. -/
noncomputable def traceCritLoop (sys : CritSys) (opt : CritOpts) (c : ℝ) :
    ℕ → ℕ → ℤ → Bool → CritState → Option (Outcome CritState)
  | 0, _, _, _, _ => none
  | _ + 1, 0, _, _, s => some (.ok s)
  | gas + 1, left + 1, iter, first, s =>
    match (sys.xprime c s.last s.x).bind fun d0 =>
        (if first then storeCrit sys c s else .ok s).bind fun s1 =>
        (critStep sys opt c s1).bind fun r => .ok (d0, s1, r) with
    | .ok (_, s1, .threw) => some (.ok s1)
    | .ok (_, s1, .rejected dt) => traceCritLoop sys opt c gas (left + 1) iter false { s1 with dt := dt }
    | .ok (d0, s1, .accepted x t dt) =>
      match critFinish sys opt c iter s1.x d0 { s1 with x := x, t := t, dt := dt } with
      | .ok (s2, true) => traceCritLoop sys opt c gas left (iter + 1) false s2
      | .ok (s2, false) => some (.ok s2)
      | .throws e => some (.throws e)
      | .ub => some .ub
      | .nonFinite => some .nonFinite
    | .throws e => some (.throws e)
    | .ub => some .ub
    | .nonFinite => some .nonFinite

/-- The endpoint polish (`critical_tracing.hpp` lines 701-735). -/
noncomputable def endpointPolish (sys : CritSys) (c : ℝ) (s : CritState) : Outcome CritState :=
  (sys.xprime c s.last s.x).bind fun d =>
    let ρ := crho s.x
    let dρ : Fin 2 → ℝ := ![d 1, d 2]
    if ∃ i, (ρ i + dρ i * s.dt) * ρ i > 0 then
      let ip : Fin 2 := if ρ 0 ≥ ρ 1 then 0 else 1
      if dρ ip = 0 then .nonFinite
      else
        let h := -ρ ip / dρ ip
        (sys.pureCritical ip (s.x 0 + d 0 * h) ((ρ 0 + dρ 0 * h) + (ρ 1 + dρ 1 * h))).bind fun r =>
          storeCrit sys c { s with x := if ip = 0 then ![r.1, r.2, 0] else ![r.1, 0, r.2] }
    else .ok s

/-- `trace_critical_arclength_binary` (`critical_tracing.hpp` lines 391-738) without the file output: the stored points,
oldest first. -/
noncomputable def traceCrit (sys : CritSys) (opt : CritOpts) (gas : ℕ) (T0 : ℝ) (ρ0 : Fin 2 → ℝ) :
    Option (Outcome (List ((Fin 3 → ℝ) × (Fin 3 → ℝ)))) :=
  let x0 : Fin 3 → ℝ := ![T0, ρ0 0, ρ0 1]
  match sys.xprime opt.initC none x0 with
  | .ok d =>
    let c := if ∃ i, ρ0 i + ![d 1, d 2] i * opt.initDt < 0 then -opt.initC else opt.initC
    (traceCritLoop sys opt c gas opt.maxStepCount.toNat 0 true ⟨x0, 0, opt.initDt, none, 0, []⟩).map fun r =>
      r.bind fun s => (if opt.pureEndpoint then endpointPolish sys c s else .ok s).bind fun s' => .ok s'.points.reverse
  | .throws e => some (.throws e)
  | .ub => some .ub
  | .nonFinite => some .nonFinite

/-- The routine for a model (`critical_tracing.hpp` lines 391-738). -/
noncomputable def critSys (m : EOS (Fin 2)) (eig : EigSolver) (solve : Solver 2) (opt : CritOpts)
    (adaptive : ((Fin 3 → ℝ) → Outcome (Fin 3 → ℝ)) → (Fin 3 → ℝ) → ℝ → ℝ → StepRes 3)
    (polishers : List (ℝ → (Fin 2 → ℝ) → Outcome (ℝ × (Fin 2 → ℝ))))
    (pureCritical : Fin 2 → ℝ → ℝ → Outcome (ℝ × ℝ)) : CritSys where
  xprime := critXprime m eig solve opt.termNeg
  adaptive := adaptive
  polishers := polishers
  conditions x := critConditions m eig (x 0) (crho x)
  pureCritical := pureCritical

end Teqp.Model
