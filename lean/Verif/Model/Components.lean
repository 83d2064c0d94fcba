import Verif.Model.MultiFluid

/-! # Resolving component names and choosing identifiers (`/repo/include/teqp/models/multifluid.hpp`)

The file system and the JSON parser are parameters. -/

set_option autoImplicit false

namespace Teqp.Model

/-! ## Identifiers -/

/-- The identifiers of a fluid (`INFO` of its document). -/
structure FluidInfo where
  name : String
  cas : String
  refprop : String
  hash : Option String := none
  aliases : List String := []

/-- `collect_identifiers` (`multifluid.hpp` lines 796-817); the result is sorted by key, as in a `std::map`. -/
def collectIdentifiers (l : List FluidInfo) : List (String × List String) :=
  [("CAS", l.map (·.cas)), ("Name", l.map (·.name)), ("REFPROP", l.map (·.refprop))] ++
    (if (l.filterMap (·.hash)).length = l.length then [("hash", l.filterMap (·.hash))] else [])

/-- The inner loop of `select_identifier` (`multifluid.hpp` lines 829-832). -/
noncomputable def tryRow (col : List BIPEntry) (flags : BIPFlags) (a : String) : List String → Outcome Unit
  | [] => .ok ()
  | b :: rest => (getBIPdep col a b flags).bind fun _ => tryRow col flags a rest

/-- The loops over pairs of `select_identifier` (`multifluid.hpp` lines 828-833). -/
noncomputable def tryPairs (col : List BIPEntry) (flags : BIPFlags) : List String → Outcome Unit
  | [] => .ok ()
  | a :: rest => (tryRow col flags a rest).bind fun _ => tryPairs col flags rest

/-- `select_identifier` (`multifluid.hpp` lines 820-847): any exception moves on to the next key. -/
noncomputable def selectIdentifier (col : List BIPEntry) (flags : BIPFlags) : List (String × List String) → Outcome String
  | [] => .throws .stdInvalidArgument
  | (key, ids) :: rest =>
    match tryPairs col flags ids with
    | .ok _ => .ok key
    | .ub => .ub
    | _ => selectIdentifier col flags rest

/-! ## The alias map -/

/-- The keys that a fluid adds to the alias map (`multifluid.hpp` lines 857-883), in order: its name, CAS
number, REFPROP name and aliases, less the skipped ones. -/
def aliasKeys (f : FluidInfo) : List String :=
  [f.name, f.cas] ++ (if f.refprop = f.name ∨ f.refprop = "N/A" then [] else [f.refprop]) ++
    f.aliases.filter fun a => a ≠ f.refprop ∧ a ≠ f.name

/-- A `std::map<std::string, std::string>` as the list of its entries. -/
abbrev AliasMap := List (String × String)

/-- The value of a key. -/
def AliasMap.get? (m : AliasMap) (k : String) : Option String := (m.find? (·.1 = k)).map (·.2)

/-- Adding keys one by one; a key that is present is refused (`multifluid.hpp` lines 867-872, 877-882). -/
def addKeys (path : String) : List String → AliasMap → Outcome AliasMap
  | [], m => .ok m
  | k :: ks, m =>
    match m.get? k with
    | some _ => .throws .stdInvalidArgument
    | none => addKeys path ks (m ++ [(k, path)])

/-- The loop over files of `build_alias_map` (`multifluid.hpp` lines 852-885). -/
def addFiles : List (String × FluidInfo) → AliasMap → Outcome AliasMap
  | [], m => .ok m
  | (path, f) :: rest, m => (addKeys path (aliasKeys f) m).bind fun m' => addFiles rest m'

/-- `build_alias_map` (`multifluid.hpp` lines 850-887) for the files of the folder. -/
def buildAliasMap (files : List (String × FluidInfo)) : Outcome AliasMap := addFiles files []

/-! ## Loading components -/

/-- What the code sees of its surroundings: which paths are regular files, the document in a file (`none` when
it is not valid JSON), the parser, the reader of `FLD` files, and the folder of fluids below a root (`none`
when it cannot be read). -/
structure FS (J : Type) where
  isFile : String → Bool
  read : String → Option J
  parse : String → Option J
  fld : String → Outcome J
  folder : String → Option (List (String × FluidInfo))

/-- An entry of the list of components. -/
inductive Comp (J : Type) where
  | str (s : String)
  | doc (j : J)
  | empty
  | other

variable {J : Type}

/-- `load_a_JSON_file` (`json_tools.hpp` lines 17-31). -/
def loadFile (fs : FS J) (path : String) : Outcome J :=
  if fs.isFile path then
    match fs.read path with
    | some j => .ok j
    | none => .throws .stdInvalidArgument
  else .throws .stdInvalidArgument

/-- Loading the default path (`json_tools.hpp` lines 95-100). -/
def loadDefault (fs : FS J) : Option String → Outcome J
  | some p => loadFile fs p
  | none => .throws .invalidArgument

/-- `multilevel_JSON_load` (`json_tools.hpp` lines 82-125). -/
def multilevelLoad (fs : FS J) (default : Option String) : Comp J → Outcome J
  | .empty => loadDefault fs default
  | .doc j => .ok j
  | .other => .throws .invalidArgument
  | .str s =>
    if s = "" then loadDefault fs default
    else if fs.isFile s then loadFile fs s
    else match fs.parse s with
      | some j => .ok j
      | none => .throws .jsonError

/-- `build_alias_map(root)`: listing a folder that cannot be read throws. -/
def aliasMapOf (fs : FS J) (root : String) : Outcome AliasMap :=
  match fs.folder root with
  | some files => buildAliasMap files
  | none => .throws .stdRuntimeError

/-- `optaliasmap.value()[comp]` and the second load (`multifluid.hpp` line 990).  A missing key is inserted with
an empty value.  A component that is not a string cannot be converted to a key. -/
def aliasLoad (fs : FS J) (root : Option String) (st : Option AliasMap) (c : Comp J) : Outcome (J × Option AliasMap) :=
  match st with
  | none => .throws .stdBadOptionalAccess
  | some m =>
    match c with
    | .str s =>
      match m.get? s with
      | some path => (multilevelLoad fs root (.str path)).bind fun j => .ok (j, some m)
      | none => (multilevelLoad fs root (.str "")).bind fun j => .ok (j, some (m ++ [(s, "")]))
    | _ => .throws .jsonError

/-- Building the alias map for the first component that needs it (`multifluid.hpp` lines 977-984): only here is
it checked that the component is in the map. -/
def buildForComp (fs : FS J) (root : String) (c : Comp J) : Outcome AliasMap :=
  (aliasMapOf fs root).bind fun m =>
  match c with
  | .str s =>
    match m.get? s with
    | some _ => .ok m
    | none => .throws .invalidArgument
  | _ => .throws .jsonError

/-- The `catch` branch of `get_or_aliasmap` (`multifluid.hpp` lines 975-991).  The exception of line 988 is made
but not thrown; making its message needs a string. -/
def aliasBranch (fs : FS J) (root : Option String) (st : Option AliasMap) (c : Comp J) : Outcome (J × Option AliasMap) :=
  match st, root with
  | none, some r => (buildForComp fs r c).bind fun m => aliasLoad fs root (some m) c
  | st, root =>
    match c with
    | .str _ => aliasLoad fs root st c
    | _ => .throws .jsonError

/-- `get_or_aliasmap` (`multifluid.hpp` lines 971-992) with the state of `optaliasmap`. -/
def getOrAlias (fs : FS J) (root : Option String) (st : Option AliasMap) (c : Comp J) : Outcome (J × Option AliasMap) :=
  match multilevelLoad fs root c with
  | .ok j => .ok (j, st)
  | .ub => .ub
  | _ => aliasBranch fs root st c

/-- One component (`multifluid.hpp` lines 993-1011). -/
def loadComp (fs : FS J) (root : Option String) (st : Option AliasMap) (c : Comp J) : Outcome (J × Option AliasMap) :=
  match c with
  | .str s =>
    if s.startsWith "PATH::" then (loadFile fs (s.drop 6).toString).bind fun j => .ok (j, st)
    else if s.startsWith "FLDPATH::" then (fs.fld (s.drop 9).toString).bind fun j => .ok (j, st)
    else if s.startsWith "FLD::" then (fs.fld (s.drop 5).toString).bind fun j => .ok (j, st)
    else getOrAlias fs root st c
  | _ => getOrAlias fs root st c

/-- The loop of `make_pure_components_JSON` (`multifluid.hpp` lines 963-1014). -/
def loadComps (fs : FS J) (root : Option String) : Option AliasMap → List (Comp J) → Outcome (List J)
  | _, [] => .ok []
  | st, c :: cs => (loadComp fs root st c).bind fun r => (loadComps fs root r.2 cs).bind fun js => .ok (r.1 :: js)

/-- `make_pure_components_JSON` (`multifluid.hpp` lines 963-1014) for an array. -/
def makePure (fs : FS J) (root : Option String) (cs : List (Comp J)) : Outcome (List J) := loadComps fs root none cs

end Teqp.Model
