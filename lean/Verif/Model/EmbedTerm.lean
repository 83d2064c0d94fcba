import Verif.Model.MultiFluid
import Verif.Model.AdvPR
import Verif.Model.PCSAFT
import Verif.Model.MixDoc

/-! # Cubic and PC-SAFT equations as terms of a multi-fluid document

`/repo/include/teqp/models/multifluid_eosterms.hpp` lines 364-423. -/

set_option autoImplicit false

namespace Teqp.Model

/-- The constructor of `GenericCubicTerm`, `multifluid_eosterms.hpp` lines 372-388; members are initialised in the order of their
declaration (lines 369-370).  Division by a critical pressure of zero is not singled out. -/
noncomputable def cubicTermOf (j : JTree) : Outcome CubicTermC :=
  (numAt "Tcrit / K" j).bind fun Tc =>
  (numAt "pcrit / Pa" j).bind fun pc =>
  (numAt "R / J/mol/K" j).bind fun R =>
  (numAt "Delta1" j).bind fun D1 =>
  (numAt "Delta2" j).bind fun D2 =>
  (numAt "Tred / K" j).bind fun Tred =>
  (numAt "rhored / mol/m^3" j).bind fun rhored =>
  (numAt "OmegaA" j).bind fun OA =>
  (numAt "OmegaB" j).bind fun OB =>
  ((j.at "alpha").bind (buildAlphasJson [Tc])).bind fun al =>
  match al with
  | [f] => .ok ⟨R, D1, D2, Tred, rhored, OA * (R * Tc) ^ 2 / pc, OB * R * Tc / pc, f⟩
  | _ => .throws .invalidArgument

/-- The branch for this type in `get_EOS_terms`, `/repo/include/teqp/models/multifluid.hpp` lines 751-753: the term is added to the container. -/
noncomputable def cubicReader (j : JTree) : Outcome (List ResTerm) := (cubicTermOf j).bind fun e => .ok [.cubic e]

/-- The constructor of `PCSAFTGrossSadowski2001Term`, `multifluid_eosterms.hpp` lines 410-414 and `pcsaftpure.hpp` line 23. -/
noncomputable def pcTermOf (j : JTree) : Outcome PCTerm :=
  (numAt "Tred / K" j).bind fun Tred =>
  (numAt "rhored / mol/m^3" j).bind fun rhored =>
  (numAt "m" j).bind fun m =>
  (numAt "sigma / A" j).bind fun sigma =>
  (numAt "epsilon_over_k" j).bind fun eps =>
  .ok ⟨Tred, rhored, m, sigma, eps⟩

/-- The branch for this type in `get_EOS_terms`, `/repo/include/teqp/models/multifluid.hpp` lines 754-756. -/
noncomputable def pcReader (NA : ℝ) (j : JTree) : Outcome (List ResTerm) := (pcTermOf j).bind fun e => .ok [.pcsaft NA e]

/-- `term.at(key)` converted to `int` (`multifluid.hpp` lines 355-356): numbers lose their fraction, and true and false are one and zero. -/
noncomputable def intAt (k : String) (j : JTree) : Outcome ℤ :=
  (j.at k).bind fun v => match v with
  | .num x => .ok (castInt x)
  | .bool b => .ok (if b then 1 else 0)
  | _ => .throws .jsonError

/-- The branch for the Chebyshev type in `build_departure_function`, `multifluid.hpp` lines 353-367 and 459-461. -/
noncomputable def chebReader (j : JTree) : Outcome (List ResTerm) :=
  (chebOf (intAt "Ntau" j) (intAt "Ndelta" j) ((j.at "a").bind JTree.toRow) (numAt "taumin" j) (numAt "taumax" j) (numAt "deltamin" j)
    (numAt "deltamax" j)).bind ChebDep.terms

/-- All the readers of terms whose documents are not flat arrays. -/
noncomputable def termReaders (NA : ℝ) : SpecialTerms := ⟨cubicReader, pcReader NA, chebReader⟩

end Teqp.Model
