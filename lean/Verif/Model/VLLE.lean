import Verif.Model.MixVLE

/-! # Three-phase equilibrium of binary mixtures

Models `/repo/include/teqp/algorithms/VLLE.hpp`.  Automatic differentiation is replaced by the derivative.  The linear
solves (`colPivHouseholderQr().solve`) and the stepper of Boost.Odeint are parameters.  The phases are numbered 0 (vapor),
1 (first liquid) and 2 (second liquid), as they are stored in the vector `x`. -/

set_option autoImplicit false

open Classical

namespace Teqp.Model

/-- `VLLE_return_code` (`/repo/include/teqp/algorithms/VLLE_types.hpp` line 6). -/
inductive VLLECode
  | unset | xtolSatisfied | functolSatisfied | maxiterMet
  deriving DecidableEq

/-- The concentrations of the three phases. -/
abbrev Phases := Fin 3 → Fin 2 → ℝ

/-- The equations: chemical potentials of phase `k` and `k + 1`, pressures of phase `k` and `k + 1`
(`VLLE.hpp` lines 69-74). -/
abbrev VlleEq := (Fin 2 × Fin 2) ⊕ Fin 2

/-- The unknowns: a phase and a component (`VLLE.hpp` lines 36-42). -/
abbrev VlleVar := Fin 3 × Fin 2

/-- The gas constant of a phase times the temperature (`VLLE.hpp` line 57). -/
noncomputable def phaseRT (m : EOS (Fin 2)) (T : ℝ) (ρ : Fin 2 → ℝ) : ℝ := m.R (molefrac ρ) * T

/-- Residual plus density-dependent ideal part of a chemical potential (`VLLE.hpp` lines 70-71). -/
noncomputable def phaseMu (m : EOS (Fin 2)) (T : ℝ) (ρ : Fin 2 → ℝ) (i : Fin 2) : ℝ :=
  gradPsir m T ρ i + phaseRT m T ρ * Real.log (ρ i)

/-- The pressure of a phase (`VLLE.hpp` lines 62-64). -/
noncomputable def phaseP (m : EOS (Fin 2)) (T : ℝ) (ρ : Fin 2 → ℝ) : ℝ := solverP m (phaseRT m T ρ) T ρ

/-- The residual of `mix_VLLE_T` (`VLLE.hpp` lines 69-74). -/
noncomputable def vlleResid (m : EOS (Fin 2)) (T : ℝ) (ph : Phases) : VlleEq → ℝ
  | .inl (k, i) => phaseMu m T (ph k.castSucc) i - phaseMu m T (ph k.succ) i
  | .inr k => phaseP m T (ph k.castSucc) - phaseP m T (ph k.succ)

/-- The Jacobian of `mix_VLLE_T` (`VLLE.hpp` lines 52-54, 65-67, 76-87). -/
noncomputable def vlleJac (m : EOS (Fin 2)) (T : ℝ) (ph : Phases) : VlleEq → VlleVar → ℝ
  | .inl (k, i), (q, j) =>
    if q = k.castSucc then hessPsi m T (ph q) i j else if q = k.succ then -hessPsi m T (ph q) i j else 0
  | .inr k, (q, j) =>
    if q = k.castSucc then solverDp m (phaseRT m T (ph q)) T (ph q) j
    else if q = k.succ then -solverDp m (phaseRT m T (ph q)) T (ph q) j else 0

/-- The three stopping tests (`VLLE.hpp` lines 93-111, 223-241).  The step is compared with its sign. -/
noncomputable def vlleTests {κ κ' : Type} (tol : VLETol) (x dx : κ → ℝ) (r : κ' → ℝ) : Option VLLECode :=
  if ∀ i, dx i < tol.axtol + tol.relxtol * |x i| then some .xtolSatisfied
  else if ∀ i, |r i| < tol.atol + tol.reltol * |r i| then some .functolSatisfied
  else if ∀ i, |x i - dx i| < dblMin then some .xtolSatisfied
  else none

/-- The phases as the vector `x` (`VLLE.hpp` lines 36-42). -/
def phVec (ph : Phases) : VlleVar → ℝ := fun q => ph q.1 q.2

/-- A step added to the phases (`VLLE.hpp` line 91). -/
def phAdd (ph : Phases) (dx : VlleVar → ℝ) : Phases := fun k i => ph k i + dx (k, i)

/-- The loop of `mix_VLLE_T` (`VLLE.hpp` lines 46-115) for any residual, Jacobian and linear solve.  A concentration that
is not positive, or a step that is not finite, fills the vectors with NaN; then no test can succeed and the code ends with
`maxiter_met` and values that are not finite. -/
noncomputable def vlleLoop (resid : Phases → VlleEq → ℝ) (jac : Phases → VlleEq → VlleVar → ℝ)
    (solve : (VlleEq → VlleVar → ℝ) → (VlleEq → ℝ) → Option (VlleVar → ℝ)) (tol : VLETol) :
    ℕ → Phases → Outcome (VLLECode × Phases)
  | 0, ph => .ok (.unset, ph)
  | n + 1, ph =>
    if ∀ k i, 0 < ph k i then
      match solve (jac ph) (fun e => -resid ph e) with
      | none => .nonFinite
      | some dx =>
        match vlleTests tol (phVec (phAdd ph dx)) dx (resid ph) with
        | some c => .ok (c, phAdd ph dx)
        | none => if n = 0 then .ok (.maxiterMet, phAdd ph dx) else vlleLoop resid jac solve tol n (phAdd ph dx)
    else .nonFinite

/-- `mix_VLLE_T` (`VLLE.hpp` lines 30-118) for two components. -/
noncomputable def mixVLLET (m : EOS (Fin 2)) (solve : (VlleEq → VlleVar → ℝ) → (VlleEq → ℝ) → Option (VlleVar → ℝ))
    (T : ℝ) (ph : Phases) (tol : VLETol) (maxiter : ℤ) : Outcome (VLLECode × Phases) :=
  vlleLoop (vlleResid m T) (vlleJac m T) solve tol maxiter.toNat ph

/-- What `mix_VLLE_T` does with `N` components in every vector (`VLLE.hpp` lines 32-34, 73-74): of the `3N` residuals the
code assigns those numbered below `2N + 2`.  One component writes past the end, three or more leave residuals that were
never assigned. -/
noncomputable def mixVLLETSize (N : ℕ) (maxiter : ℤ) : Outcome Unit :=
  if maxiter ≤ 0 ∨ 2 * N + 2 = 3 * N then .ok () else .ub

/-! ## Pressure specified -/

/-- Equations of `mix_VLLE_p`: those of `mix_VLLE_T` and the specified pressure (`VLLE.hpp` lines 184-191). -/
abbrev VllePEq := VlleEq ⊕ Unit

/-- Unknowns of `mix_VLLE_p`: concentrations and the temperature (`VLLE.hpp` lines 140-147). -/
abbrev VllePVar := VlleVar ⊕ Unit

/-- The residual of `mix_VLLE_p` (`VLLE.hpp` lines 184-191). -/
noncomputable def vllePResid (m : EOS (Fin 2)) (p T : ℝ) (ph : Phases) : VllePEq → ℝ
  | .inl e => vlleResid m T ph e
  | .inr _ => phaseP m T (ph 0) - p

/-- Temperature derivative of a chemical potential (`VLLE.hpp` lines 177-182). -/
noncomputable def phaseMuT (m : EOS (Fin 2)) (T : ℝ) (ρ : Fin 2 → ℝ) (i : Fin 2) : ℝ :=
  d2PsirdTdrhoi m T ρ i + m.R (molefrac ρ) * Real.log (ρ i)

/-- The Jacobian of `mix_VLLE_p` (`VLLE.hpp` lines 194-215). -/
noncomputable def vllePJac (m : EOS (Fin 2)) (T : ℝ) (ph : Phases) : VllePEq → VllePVar → ℝ
  | .inl e, .inl v => vlleJac m T ph e v
  | .inl (.inl (k, i)), .inr _ => phaseMuT m T (ph k.castSucc) i - phaseMuT m T (ph k.succ) i
  | .inl (.inr k), .inr _ => dpdT m T (ph k.castSucc) - dpdT m T (ph k.succ)
  | .inr _, .inl (q, j) => if q = 0 then solverDp m (phaseRT m T (ph 0)) T (ph 0) j else 0
  | .inr _, .inr _ => dpdT m T (ph 0)

/-- The state of `mix_VLLE_p` as the vector `x` (`VLLE.hpp` lines 140-143). -/
def phVecT (T : ℝ) (ph : Phases) : VllePVar → ℝ
  | .inl q => ph q.1 q.2
  | .inr _ => T

/-- The loop of `mix_VLLE_p` (`VLLE.hpp` lines 152-245); the variable `T` is -1 until the first pass. -/
noncomputable def vllePLoop (resid : ℝ → Phases → VllePEq → ℝ) (jac : ℝ → Phases → VllePEq → VllePVar → ℝ)
    (solve : (VllePEq → VllePVar → ℝ) → (VllePEq → ℝ) → Option (VllePVar → ℝ)) (tol : VLETol) :
    ℕ → ℝ → Phases → Outcome (VLLECode × ℝ × Phases)
  | 0, _, ph => .ok (.unset, -1, ph)
  | n + 1, T, ph =>
    if ∀ k i, 0 < ph k i then
      match solve (jac T ph) (fun e => -resid T ph e) with
      | none => .nonFinite
      | some dx =>
        let T' := T + dx (.inr ())
        let ph' := phAdd ph fun q => dx (.inl q)
        match vlleTests tol (phVecT T' ph') dx (resid T ph) with
        | some c => .ok (c, T', ph')
        | none => if n = 0 then .ok (.maxiterMet, T', ph') else vllePLoop resid jac solve tol n T' ph'
    else .nonFinite

/-- `mix_VLLE_p` (`VLLE.hpp` lines 134-249) for two components. -/
noncomputable def mixVLLEp (m : EOS (Fin 2))
    (solve : (VllePEq → VllePVar → ℝ) → (VllePEq → ℝ) → Option (VllePVar → ℝ)) (p Tinit : ℝ) (ph : Phases)
    (tol : VLETol) (maxiter : ℤ) : Outcome (VLLECode × ℝ × Phases) :=
  vllePLoop (vllePResid m p) (vllePJac m) solve tol maxiter.toNat Tinit ph

/-! ## Intersections of polylines -/

/-- `SelfIntersectionSolution` (`VLLE_types.hpp` lines 8-16). -/
structure Crossing where
  j : ℕ
  k : ℕ
  s : ℝ
  t : ℝ
  x : ℝ
  y : ℝ

/-- A point of a polyline. -/
abbrev Pt := ℝ × ℝ

/-- One pair of segments (`VLLE.hpp` lines 259-270, 281-292): `p0 + s (p1 - p0) = q0 + t (q1 - q0)`. -/
noncomputable def crossSegments (solve : Solver 2) (j k : ℕ) (p0 p1 q0 q1 : Pt) : Option Crossing :=
  let A : Matrix (Fin 2) (Fin 2) ℝ := !![p1.1 - p0.1, q0.1 - q1.1; p1.2 - p0.2, q0.2 - q1.2]
  let w := solve A ![q0.1 - p0.1, q0.2 - p0.2]
  if (0 < w 0 ∧ w 0 < 1) ∧ 0 < w 1 ∧ w 1 < 1 then
    some ⟨j, k, w 0, w 1, p0.1 + w 0 * (p1.1 - p0.1), p0.2 + w 0 * (p1.2 - p0.2)⟩
  else none

/-- The segments of a polyline with the index of their first point. -/
def segments (l : List Pt) : List (ℕ × Pt × Pt) := (l.zip l.tail).mapIdx fun i s => (i, s)

/-- `get_self_intersections` (`VLLE.hpp` lines 254-274).  With no point `x.size() - 1` wraps around and the first access is
out of bounds. -/
noncomputable def selfIntersections (solve : Solver 2) (l : List Pt) : Outcome (List Crossing) :=
  if l = [] then .ub
  else .ok ((segments l).flatMap fun a => (segments l).filterMap fun b =>
    if a.1 < b.1 then crossSegments solve a.1 b.1 a.2.1 a.2.2 b.2.1 b.2.2 else none)

/-- `get_cross_intersections` (`VLLE.hpp` lines 276-296).  The second polyline is read only when the first has a segment. -/
noncomputable def crossIntersections (solve : Solver 2) (l l' : List Pt) : Outcome (List Crossing) :=
  if l = [] ∨ (l' = [] ∧ 2 ≤ l.length) then .ub
  else .ok ((segments l).flatMap fun a => (segments l').filterMap fun b =>
    crossSegments solve a.1 b.1 a.2.1 a.2.2 b.2.1 b.2.2)

/-! ## The finder -/

/-- A point of a traced isotherm or isobar: the entries of the JSON object that are read (`VLLE.hpp` lines 321-326). -/
structure VlePoint where
  T : ℝ
  pL : ℝ
  rhoL : Fin 2 → ℝ
  rhoV : Fin 2 → ℝ

/-- `avg_values` (`VLLE.hpp` lines 309-314). -/
def avgValues (v1 v2 : Fin 2 → ℝ) (w : ℝ) : Fin 2 → ℝ := fun i => v1 i * w + v2 i * (1 - w)

/-- The guess made from a crossing (`VLLE.hpp` lines 331-333, 404-406): phase 0 is the vapor and phase 1 the liquid of the
first branch, phase 2 the liquid of the second. -/
def vlleGuess (tr tr' : List VlePoint) (c : Crossing) : Option Phases :=
  match tr[c.j]?, tr[c.j + 1]?, tr'[c.k]?, tr'[c.k + 1]? with
  | some a, some a', some b, some b' =>
    some ![avgValues a.rhoV a'.rhoV c.s, avgValues a.rhoL a'.rhoL c.s, avgValues b.rhoL b'.rhoL c.t]
  | _, _, _, _ => none

/-- One reported solution. -/
structure VlleSolution where
  approximate : Phases
  polished : Phases
  code : VLLECode

/-- `|100 (ΣrhoL1/ΣrhoL2 - 1)| > rho_trivial_threshold` (`VLLE.hpp` lines 370-373, 443-446).  A zero denominator gives
infinity, which is kept, or NaN, which is not. -/
def nontrivial (thr : ℝ) (ph : Phases) : Prop :=
  if ph 2 0 + ph 2 1 = 0 then ph 1 0 + ph 1 1 ≠ 0
  else |100 * ((ph 1 0 + ph 1 1) / (ph 2 0 + ph 2 1) - 1)| > thr

/-- One crossing (`VLLE.hpp` lines 367-382, 440-455).  Exceptions are swallowed; values that are not finite fail the test
of the threshold. -/
noncomputable def processCrossing (polish : Crossing → Phases → Outcome (VLLECode × Phases)) (thr : ℝ)
    (tr tr' : List VlePoint) (c : Crossing) : Outcome (Option VlleSolution) :=
  match vlleGuess tr tr' c with
  | none => .ub
  | some g =>
    match polish c g with
    | .ok (code, ph) => .ok (if nontrivial thr ph then some ⟨g, ph, code⟩ else none)
    | .throws _ => .ok none
    | .ub => .ub
    | .nonFinite => .ok none

/-- All crossings in order. -/
noncomputable def processAll (polish : Crossing → Phases → Outcome (VLLECode × Phases)) (thr : ℝ)
    (tr tr' : List VlePoint) : List Crossing → Outcome (List VlleSolution)
  | [] => .ok []
  | c :: cs => (processCrossing polish thr tr tr' c).bind fun r =>
    (processAll polish thr tr tr' cs).bind fun l => .ok (r.toList ++ l)

/-- The polyline of a trace: vapor mole fraction against pressure (isotherms) or temperature (isobars)
(`VLLE.hpp` lines 305-306, 321-326, 389-400). -/
noncomputable def polyline (isotherm : Bool) (tr : List VlePoint) : List Pt :=
  tr.map fun e => (e.rhoV 0 / (e.rhoV 0 + e.rhoV 1), if isotherm then e.pL else e.T)

/-- `find_VLLE_gen_binary` (`VLLE.hpp` lines 300-461) on well-formed traces: `polish` is `mix_VLLE_T` at the temperature of
the first point or `mix_VLLE_p` at its pressure. -/
noncomputable def findVLLE (solve : Solver 2) (polish : VlePoint → Crossing → Phases → Outcome (VLLECode × Phases))
    (isotherm : Bool) (thr : ℝ) (traces : List (List VlePoint)) : Outcome (List VlleSolution) :=
  match traces with
  | [] => .throws .invalidArgument
  | [tr] => (selfIntersections solve (polyline isotherm tr)).bind fun cs =>
    match tr with
    | [] => .ub
    | e :: _ => processAll (polish e) thr tr tr cs
  | [tr, tr'] => (crossIntersections solve (polyline isotherm tr) (polyline isotherm tr')).bind fun cs =>
    match tr with
    | [] => .ub
    | e :: _ => processAll (polish e) thr tr tr' cs
  | _ => .throws .invalidArgument

/-! ## The three-phase curve -/

/-- `get_drhovecdT_VLLE_binary` (`VLLE.hpp` lines 481-514).  A concentration that is not positive has no finite
logarithm. -/
noncomputable def drhodTVLLE (m : EOS (Fin 2)) (solve : Solver 2) (T : ℝ) (ph : Phases) : Outcome Phases :=
  if ∀ k i, 0 < ph k i then
    let H (k : Fin 3) := psiHess m T (ph k)
    let Δμ (k : Fin 3) (i : Fin 2) := phaseMuT m T (ph k) i - phaseMuT m T (ph 0) i
    let row (k : Fin 3) := mv (H 0) fun i => ph k i - ph 0 i
    let rhs (k : Fin 3) := ∑ i, Δμ k i * ph k i - (dpdT m T (ph k) - dpdT m T (ph 0))
    let dV := solve (Matrix.of ![row 1, row 2]) ![rhs 1, rhs 2]
    .ok ![dV, solve (H 1) fun i => mv (H 0) dV i - Δμ 1 i, solve (H 2) fun i => mv (H 0) dV i - Δμ 2 i]
  else .nonFinite

/-- `VLLETracerOptions` (`VLLE_types.hpp` lines 23-36) without the stepper's tolerances and the verbosity. -/
structure VlleTraceOpts where
  maxStepCount : ℤ
  initdT : ℝ
  maxdT : ℝ
  polish : Bool
  terminateComposition : Bool
  terminateCompositionTol : ℝ
  TLimit : ℝ
  maxStepRetries : ℤ

/-- Result of `controlled_stepper.try_step` (`VLLE.hpp` lines 557-576). -/
inductive VlleStep
  | threw
  | rejected (dT : ℝ)
  | accepted (ph : Phases) (T dT : ℝ)

/-- What the tracer calls: the stepper, the polisher at a temperature, and the criticality conditions with the vapor
pressure, of which only finiteness matters for the course of the trace (`VLLE.hpp` lines 585-603). -/
structure VlleSys where
  step : Phases → ℝ → ℝ → VlleStep
  polisher : ℝ → Phases → Outcome (VLLECode × Phases)
  conditions : ℝ → Phases → Outcome Unit

/-- Mole fraction of the first component. -/
noncomputable def frac0 (ρ : Fin 2 → ℝ) : ℝ := ρ 0 / (ρ 0 + ρ 1)

/-- The composition test (`VLLE.hpp` lines 622-628). -/
def compositionsMeet (tol : ℝ) (ph : Phases) : Prop :=
  |frac0 (ph 1) - frac0 (ph 2)| < tol ∨ |frac0 (ph 1) - frac0 (ph 0)| < tol ∨ |frac0 (ph 2) - frac0 (ph 0)| < tol

/-- The temperature limit (`VLLE.hpp` lines 604-615). -/
def beyondLimit (opt : VlleTraceOpts) (T : ℝ) : Prop :=
  (opt.initdT > 0 ∧ T > opt.TLimit) ∨ (opt.initdT < 0 ∧ T < opt.TLimit)

/-- The loop of `trace_VLLE_binary` (`VLLE.hpp` lines 553-648).  `gas` bounds the passes, since rejected steps do not count;
`none` is a loop still running.  `retry_count` is set to zero at the start of every pass, so the test of line 629 compares
zero with the limit. -/
noncomputable def vlleTraceLoop (sys : VlleSys) (opt : VlleTraceOpts) :
    ℕ → ℕ → Phases → ℝ → ℝ → List (ℝ × Phases) → Option (Outcome (List (ℝ × Phases)))
  | 0, _, _, _, _, _ => none
  | _ + 1, 0, _, _, _, acc => some (.ok acc)
  | gas + 1, left + 1, ph, T, dT, acc =>
    match sys.step ph T dT with
    | .threw => some (.ok acc)
    | .rejected dT' => vlleTraceLoop sys opt gas (left + 1) ph T dT' acc
    | .accepted ph1 T1 dT1 =>
      match (if opt.polish then (sys.polisher T1 ph1).bind fun r => .ok r.2 else .ok ph1).bind fun ph2 =>
          (sys.conditions T1 ph2).bind fun _ => .ok ph2 with
      | .ok ph2 =>
        if beyondLimit opt T1 ∨ (opt.terminateComposition = true ∧ compositionsMeet opt.terminateCompositionTol ph2) ∨
            0 > opt.maxStepRetries then some (.ok acc)
        else vlleTraceLoop sys opt gas left ph2 T1 (min dT1 opt.maxdT) (acc ++ [(T1, ph2)])
      | .throws e => some (.throws e)
      | .ub => some .ub
      | .nonFinite => some (.ok acc)

/-- `trace_VLLE_binary` (`VLLE.hpp` lines 519-650). -/
noncomputable def traceVLLE (sys : VlleSys) (opt : VlleTraceOpts) (gas : ℕ) (Tinit : ℝ) (ph : Phases) :
    Option (Outcome (List (ℝ × Phases))) :=
  vlleTraceLoop sys opt gas opt.maxStepCount.toNat ph Tinit opt.initdT []

end Teqp.Model
