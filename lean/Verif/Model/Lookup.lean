import Verif.Model.Components
import Verif.Model.CPA

/-! # Looking up departure functions and fluids by name (`/repo/include/teqp/models/multifluid.hpp`) -/

set_option autoImplicit false

namespace Teqp.Model

/-- `value == name` for a JSON value and a string: only the same text compares equal. -/
def JTree.isText (s : String) : JTree → Bool
  | .str t => t == s
  | _ => false

/-- The first pass of `get_departure_json` (`multifluid.hpp` lines 211-215): every entry met must have a name. -/
def depNamePass (name : String) : List JTree → Outcome (Option JTree)
  | [] => .ok none
  | el :: els => (el.at "Name").bind fun n => if n.isText name then .ok (some el) else depNamePass name els

/-- The second pass of `get_departure_json` (`multifluid.hpp` lines 217-223): every entry met must have aliases. -/
def depAliasPass (name : String) : List JTree → Outcome (Option JTree)
  | [] => .ok none
  | el :: els => (el.at "aliases").bind fun a => if a.items.any (JTree.isText name) then .ok (some el) else depAliasPass name els

/-- `get_departure_json` (`multifluid.hpp` lines 206-225).  The text written at line 209 is not used. -/
def getDepartureJson (fs : FS JTree) (name path : String) : Outcome JTree :=
  (loadFile fs (if fs.isFile path then path else path ++ "/dev/mixtures/mixture_departure_functions.json")).bind fun j =>
  (depNamePass name j.items).bind fun r =>
  match r with
  | some el => .ok el
  | none => (depAliasPass name j.items).bind fun r =>
    match r with
    | some el => .ok el
    | none => .throws .stdInvalidArgument

/-- One component of `collect_component_json` (`multifluid.hpp` lines 776-791): the first candidate that is a file. -/
def collectComponent (fs : FS JTree) (root c : String) : Outcome JTree :=
  if fs.isFile c then loadFile fs c
  else if fs.isFile (root ++ "/dev/fluids/" ++ c ++ ".json") then loadFile fs (root ++ "/dev/fluids/" ++ c ++ ".json")
  else .throws .stdInvalidArgument

/-- `collect_component_json` (`multifluid.hpp` lines 773-794). -/
def collectComponents (fs : FS JTree) (root : String) (cs : List String) : Outcome (List JTree) :=
  mapOutcome (collectComponent fs root) cs

end Teqp.Model
