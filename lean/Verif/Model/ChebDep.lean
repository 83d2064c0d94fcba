import Verif.Model.EosTerms
import Verif.Model.Superanc

/-! # Departure functions from documents, with the Chebyshev type

`/repo/include/teqp/models/multifluid.hpp` lines 227-471 (`build_departure_function`) and
`/repo/include/teqp/models/multifluid_eosterms.hpp` lines 254-319. -/

set_option autoImplicit false

namespace Teqp.Model

/-- `alphar`, `multifluid_eosterms.hpp` lines 313-318. -/
noncomputable def ChebDep.alphar (e : ChebDep) (tau delta : ℝ) : Outcome ℝ :=
  cheb2DAlphar e.rows e.cols e.a e.taumin e.taumax e.deltamin e.deltamax tau delta

/-- A departure function: the terms of `buildDeparture` or a Chebyshev expansion. -/
inductive DepFun where
  | terms (ts : List ResTerm)
  | cheb (e : ChebDep)

/-- `DepartureTerms::alphar`, `multifluid_eosterms.hpp` lines 438-456. -/
noncomputable def DepFun.alphar : DepFun → ℝ → ℝ → Outcome ℝ
  | .terms ts, tau, delta => .ok (containerAlphar ts tau delta)
  | .cheb e, tau, delta => e.alphar tau delta

/-- `build_departure_function` with all its types, `multifluid.hpp` lines 445-470. -/
noncomputable def buildDepFun (o : JObj) (Npower : ℤ) : Outcome DepFun :=
  o.type.bind fun ty =>
  if ty = "Chebyshev2D" then (buildCheb o).bind fun e => .ok (.cheb e)
  else (buildDeparture o Npower).bind fun ts => .ok (.terms ts)

end Teqp.Model
