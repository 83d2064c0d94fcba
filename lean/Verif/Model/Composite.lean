import Verif.Model.TwoCenter
import Verif.Model.Factory
import Mathlib.Algebra.BigOperators.Group.List.Basic

/-! # Gas constants, models made of parts, and documents of multi-fluid models

`/repo/include/teqp/models/multifluid_gas_constant.hpp`, `/repo/include/teqp/models/saft/genericsaft.hpp`, `/repo/include/teqp/models/multifluid_association.hpp` and
`multifluidfactory` of `/repo/include/teqp/models/multifluid.hpp`. -/

set_option autoImplicit false

namespace Teqp.Model

/-! ## Gas constants -/

/-- `get_R_gas`, `/repo/include/teqp/constants.hpp` lines 22-26. -/
noncomputable def codataR : ℝ := 6.02214076e23 * 1.380649e-23

/-- `GasConstantCalculator`, `multifluid_gas_constant.hpp` line 35. -/
inductive GasR where
  | weighted (Rvals : List ℝ)
  | codata

/-- `get_R`, lines 16-24 and 30-32: the loop runs over the mole fractions and indexes the gas constants without a check. -/
noncomputable def GasR.get : GasR → List ℝ → Outcome ℝ
  | .weighted Rvals, x => if Rvals.length < x.length then .ub else .ok (List.zipWith (· * ·) x Rvals).sum
  | .codata, _ => .ok codataR

/-- `get_Rvals` for one fluid, `multifluid.hpp` lines 893-899.  The index works on a copy that is not const: an empty array is filled with null, which has no entries. -/
def fluidR (j : JTree) : Outcome ℝ :=
  (j.at "EOS").bind fun e =>
  match e with
  | .arr (a :: _) => (a.at "gas_constant").bind JTree.toDouble
  | _ => .throws .jsonError

/-- Lines 904 and 916-920: only the value `CODATA` of the flag is looked at.  `flags` may be null. -/
noncomputable def gasROf (pures : List JTree) (flags : JTree) : Outcome GasR :=
  (mapOutcome fluidR pures).bind fun Rs =>
  if flags.contains "Rmodel" then
    (flags.at "Rmodel").bind fun v =>
      match v with
      | .str s => if s = "CODATA" then .ok .codata else .ok (.weighted Rs)
      | _ => .ok (.weighted Rs)
  else .ok (.weighted Rs)

/-! ## Models made of parts -/

/-- What the library needs of a model: the residual Helmholtz energy and the gas constant. -/
structure Part where
  alphar : ℝ → ℝ → List ℝ → Outcome ℝ
  R : List ℝ → Outcome ℝ

/-- The pressure, `rho R T (1 + rho ∂α/∂rho)`, of a part whose values at `T` and `x` are given by a function of density. -/
noncomputable def Part.pressure (R T rho : ℝ) (f : ℝ → ℝ) : ℝ := rho * R * T * (1 + rho * deriv f rho)

/-- The kinds of the nonpolar part, `genericsaft.hpp` lines 22-37. -/
inductive NonpolarKind where
  | pcsaft
  | saftvrmie
  | softsaft
  | twoCenter
  deriving DecidableEq

/-- The names, lines 22-36. -/
def NonpolarKind.ofName (s : String) : Outcome NonpolarKind :=
  if s = "PCSAFT" ∨ s = "PC-SAFT" then .ok .pcsaft
  else if s = "SAFTVRMie" ∨ s = "SAFT-VR-Mie" then .ok .saftvrmie
  else if s = "Johnson+Johnson" ∨ s = "softSAFT" then .ok .softsaft
  else if s = "2CLJF" ∨ s = "2CLJ" then .ok .twoCenter
  else .throws .stdInvalidArgument

/-- The part for two centres: `build_two_center_model`, no moment; its gas constant is one (`2center_ljf.hpp` lines 347-350). -/
noncomputable def twoCenterPart (t : TwoCenterModel) : Part := ⟨fun T rho _ => t.alphar T rho, fun _ => .ok 1⟩

/-- `make_nonpolar`, lines 20-38.  The constructors of the three chain models are parameters. -/
noncomputable def makeNonpolar (build : NonpolarKind → JTree → Outcome Part) (j : JTree) : Outcome Part :=
  ((j.at "kind").bind JTree.toStr).bind fun s =>
  (NonpolarKind.ofName s).bind fun k =>
  (j.at "model").bind fun m =>
  match k with
  | .twoCenter => ((m.at "author").bind JTree.toStr).bind fun a => ((m.at "L^*").bind JTree.toDouble).bind fun L => (twoCenterBuild a L).bind fun t => .ok (twoCenterPart t)
  | k => build k m

/-- `make_association`, lines 39-47. -/
def makeAssociation (build : JTree → Outcome Part) (j : JTree) : Outcome Part :=
  ((j.at "kind").bind JTree.toStr).bind fun s =>
  if s = "canonical" ∨ s = "Dufal" then (j.at "model").bind build else .throws .stdInvalidArgument

/-- Sum of two values; a value that is not finite stays so. -/
noncomputable def addOut (a b : Outcome ℝ) : Outcome ℝ := a.bind fun u => b.bind fun v => .ok (u + v)

/-- `GenericSAFT::alphar` and `R`, lines 56-73: the gas constant is always that of CODATA. -/
noncomputable def genericPart (nonpolar : Part) (assoc : Option Part) : Part where
  alphar := fun T rho x => match assoc with
    | none => nonpolar.alphar T rho x
    | some a => addOut (nonpolar.alphar T rho x) (a.alphar T rho x)
  R := fun _ => .ok codataR

/-- The constructor, lines 50-54. -/
noncomputable def genericMake (build : NonpolarKind → JTree → Outcome Part) (buildAssoc : JTree → Outcome Part) (j : JTree) : Outcome Part :=
  (j.at "nonpolar").bind fun n =>
  (makeNonpolar build n).bind fun np =>
  if j.contains "association" then (j.at "association").bind fun a => (makeAssociation buildAssoc a).bind fun as => .ok (genericPart np (some as))
  else .ok (genericPart np none)

/-- `MultifluidPlusAssociation`, `multifluid_association.hpp` lines 21-33. -/
noncomputable def multifluidAssocPart (multifluid assoc : Part) : Part where
  alphar := fun T rho x => addOut (multifluid.alphar T rho x) (assoc.alphar T rho x)
  R := fun _ => .ok codataR

/-! ## Documents of multi-fluid models -/

/-- `load_departure`, `multifluid.hpp` lines 1064-1088. -/
def loadDeparture (fs : String → PathInfo) (parse : String → Option JTree) (j : JTree) : Outcome JTree :=
  match j with
  | .arr (_ :: _) => .ok j
  | .str s =>
    if s.startsWith "PATH::" then loadJsonFile fs parse (s.drop 6).toString
    else match jsonTreeLoad fs parse none (.str s) with
      | .ok v => .ok v
      | _ => match parse s with
        | some v => .ok v
        | none => .throws .invalidArgument
  | _ => .throws .invalidArgument

/-- The default files below a root, lines 1060 and 1096. -/
def defaultBIP (root : String) : String := root ++ "/dev/mixtures/mixture_binary_pairs.json"
def defaultDeparture (root : String) : String := root ++ "/dev/mixtures/mixture_departure_functions.json"

/-- The two collections of `multifluidfactory`, lines 1050-1099; the branch for `HMX.BNC` (lines 1042-1049) reads REFPROP files and is not modelled. -/
def multifluidCollections (fs : String → PathInfo) (parse : String → Option JTree) (spec : JTree) : Outcome (JTree × JTree) :=
  (if spec.contains "root" then (spec.at "root").bind JTree.toStr else .ok "").bind fun root =>
  (spec.at "components").bind fun comps =>
  if 1 < comps.size then
    (spec.at "BIP").bind fun b =>
    (jsonTreeLoad fs parse (some (defaultBIP root)) b).bind fun B =>
    if spec.contains "departure" then
      (spec.at "departure").bind fun d =>
      (if root = "" then loadDeparture fs parse d else jsonTreeLoad fs parse (some (defaultDeparture root)) d).bind fun D => .ok (B, D)
    else .ok (B, .arr [])
  else .ok (.arr [], .arr [])

end Teqp.Model
