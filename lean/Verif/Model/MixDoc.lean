import Verif.Model.Composite
import Verif.Model.Lookup

/-! # Multi-fluid mixtures from documents

`_build_multifluid_model` of `/repo/include/teqp/models/multifluid.hpp` (lines 891-938) and the functions it calls, on the
JSON documents themselves: `Model/Reducing`, `Model/EosTerms`, `Model/Components` and `Model/MultiFluid` start from data
that have already been read. -/

set_option autoImplicit false

namespace Teqp.Model

/-- `j[0]` for a constant document: past the end of an array is undefined behaviour, anything but an array throws. -/
def JTree.firstConst : JTree → Outcome JTree
  | .arr (a :: _) => .ok a
  | .arr [] => .ub
  | _ => .throws .jsonError

/-- `j.empty()`: null, and arrays and objects without elements. -/
def JTree.isEmpty : JTree → Bool
  | .null => true
  | .arr xs => xs.isEmpty
  | .obj fs => fs.isEmpty
  | _ => false

/-! ## Pure fluids -/

/-- The reducing state of a fluid, `get_Tcvc` (`multifluid_reducing.hpp` lines 136-149): the look-ups of line 140 are
made in a constant document. -/
noncomputable def pureState (j : JTree) : Outcome (ℝ × ℝ) :=
  ((((j.atConst "EOS").bind JTree.firstConst).bind fun e => e.atConst "STATES").bind fun s => s.atConst "reducing").bind fun red =>
  (numAt "T" red).bind fun T =>
  (numAt "rhomolar" red).bind fun rho =>
  if rho = 0 then .nonFinite else .ok (T, 1 / rho)

/-- A field of a term as the arrays, numbers and strings of `Model/Json`; a value that is empty counts as missing, and
what has another type is a string, so that it is neither number nor array. -/
noncomputable def flatField : String × JTree → List (String × JVal)
  | (k, .num x) => [(k, .num x)]
  | (k, .str s) => [(k, .str s)]
  | (k, .arr xs) => match JTree.toRow (.arr xs) with
    | .ok r => [(k, .arr r)]
    | _ => [(k, .str "")]
  | (k, .bool _) => [(k, .str "")]
  | (k, .null) => []
  | (k, .obj []) => []
  | (k, .obj _) => [(k, .str "")]

/-- The fields of a term. -/
noncomputable def JTree.flat : JTree → JObj
  | .obj fs => fs.flatMap flatField
  | _ => []

/-- The terms whose documents are not flat: the generic cubic, the PC-SAFT term (`multifluid_eosterms.hpp` lines 363-422)
and the Chebyshev departure function (`Model/ChebDep`). -/
structure SpecialTerms where
  cubic : JTree → Outcome (List ResTerm)
  pcsaft : JTree → Outcome (List ResTerm)
  cheb : JTree → Outcome (List ResTerm)

/-- All types of line 525 of `multifluid.hpp`. -/
def pureTypes : List String := allowedTypes ++ ["ResidualHelmholtzGenericCubic", "ResidualHelmholtzPCSAFTGrossSadowski2001"]

/-- `term["type"]` of a document that is not constant (`multifluid.hpp` line 532): a missing key gives null, which is not a
string. -/
def termType (t : JTree) : Outcome String := (t.at "type").bind JTree.toStr

/-- The loop of `multifluid.hpp` lines 531-537. -/
def checkTermTypes : List JTree → Outcome Unit
  | [] => .ok ()
  | t :: ts => (termType t).bind fun ty => if ty ∈ pureTypes then checkTermTypes ts else .throws .stdInvalidArgument

/-- One term, `multifluid.hpp` lines 729-759. -/
noncomputable def pureTerm (sp : SpecialTerms) (t : JTree) : Outcome (List ResTerm) :=
  (termType t).bind fun ty =>
  if ty = "ResidualHelmholtzGenericCubic" then sp.cubic t
  else if ty = "ResidualHelmholtzPCSAFTGrossSadowski2001" then sp.pcsaft t
  else buildTerm t.flat

/-- `get_EOS_terms`, `multifluid.hpp` lines 516-762; the look-ups of line 518 are made in a constant document. -/
noncomputable def pureTerms (sp : SpecialTerms) (j : JTree) : Outcome (List ResTerm) :=
  (((j.atConst "EOS").bind JTree.firstConst).bind fun e => e.atConst "alphar").bind fun alphar =>
  if alphar.isEmpty then .throws .invalidArgument
  else (checkTermTypes alphar.items).bind fun _ =>
    (mapOutcome (pureTerm sp) alphar.items).bind fun ts => .ok ts.flatten

/-- The identifiers of one fluid, `collect_identifiers` (`multifluid.hpp` lines 799-806).  The aliases are not read here. -/
def pureInfo (j : JTree) : Outcome FluidInfo :=
  (j.at "INFO").bind fun info =>
  ((info.at "NAME").bind JTree.toStr).bind fun name =>
  ((info.at "CAS").bind JTree.toStr).bind fun cas =>
  ((info.at "REFPROP_NAME").bind JTree.toStr).bind fun refprop =>
  if info.contains "HASH" then ((info.at "HASH").bind JTree.toStr).bind fun h => .ok { name := name, cas := cas, refprop := refprop, hash := some h }
  else .ok { name := name, cas := cas, refprop := refprop }

/-! ## Pairs -/

/-- The entry for an estimated pair (`multifluid_reducing.hpp` lines 20-22 and 74-76). -/
def lorentzBerthelotDoc : JTree :=
  .obj [("betaT", .num 1), ("gammaT", .num 1), ("betaV", .num 1), ("gammaV", .num 1), ("F", .num 0)]

/-- The estimation scheme (`multifluid_reducing.hpp` lines 18-28 and 71-81). -/
def estimateDoc (flags : JTree) : Outcome (JTree × Bool) :=
  ((flags.at "estimate").bind JTree.toStr).bind fun s =>
  if s = "Lorentz-Berthelot" then .ok (lorentzBerthelotDoc, false) else .throws .stdInvalidArgument

/-- A string field of an entry. -/
def strAt (k : String) (el : JTree) : Outcome String := (el.at k).bind JTree.toStr

/-- The pass over the hashes (`multifluid_reducing.hpp` lines 36-46). -/
def hashPassDoc (a b : String) : List JTree → Outcome (Option (JTree × Bool))
  | [] => .ok none
  | el :: els =>
    if el.contains "hash1" then
      (strAt "hash1" el).bind fun h1 => (strAt "hash2" el).bind fun h2 =>
      match orderedMatch a b h1.toUpper h2.toUpper with
      | some s => .ok (some (el, s))
      | none => hashPassDoc a b els
    else hashPassDoc a b els

/-- The pass over the names (`multifluid_reducing.hpp` lines 48-57). -/
def namePassDoc (a b : String) : List JTree → Outcome (Option (JTree × Bool))
  | [] => .ok none
  | el :: els =>
    (strAt "Name1" el).bind fun n1 => (strAt "Name2" el).bind fun n2 =>
    match orderedMatch a b n1.toUpper n2.toUpper with
    | some s => .ok (some (el, s))
    | none => namePassDoc a b els

/-- The pass over the CAS numbers (`multifluid_reducing.hpp` lines 59-68). -/
def casPassDoc (a b : String) : List JTree → Outcome (Option (JTree × Bool))
  | [] => .ok none
  | el :: els =>
    (strAt "CAS1" el).bind fun n1 => (strAt "CAS2" el).bind fun n2 =>
    match orderedMatch a b n1 n2 with
    | some s => .ok (some (el, s))
    | none => casPassDoc a b els

/-- The checks of `multifluid_reducing.hpp` lines 10-15: an array, and its first entry an object. -/
def pairEntries : JTree → Outcome (List JTree)
  | .arr [] => .ok []
  | .arr (.obj o :: els) => .ok (.obj o :: els)
  | _ => .throws .invalidArgument

/-- `get_BIPdep` (`multifluid_reducing.hpp` lines 9-85). -/
def getBIPdepDoc (col flags : JTree) (id0 id1 : String) : Outcome (JTree × Bool) :=
  (pairEntries col).bind fun els =>
  if flags.contains "force-estimate" then estimateDoc flags
  else
    (hashPassDoc id0.toUpper id1.toUpper els).bind fun r0 =>
    match r0 with
    | some r => .ok r
    | none =>
      (namePassDoc id0.toUpper id1.toUpper els).bind fun r1 =>
      match r1 with
      | some r => .ok r
      | none =>
        (casPassDoc id0 id1 els).bind fun r2 =>
        match r2 with
        | some r => .ok r
        | none => if flags.contains "estimate" then estimateDoc flags else .throws .stdInvalidArgument

/-- `get_binary_interaction_double` (`multifluid_reducing.hpp` lines 88-111). -/
noncomputable def getBinaryInteractionDoc (col flags : JTree) (id0 id1 : String) (Tc0 Tc1 vc0 vc1 : ℝ) : Outcome BIP :=
  (getBIPdepDoc col flags id0 id1).bind fun r =>
  if r.1.contains "betaT" && r.1.contains "gammaT" && r.1.contains "betaV" && r.1.contains "gammaV" then
    (numAt "betaT" r.1).bind fun bT => (numAt "gammaT" r.1).bind fun gT =>
    (numAt "betaV" r.1).bind fun bV => (numAt "gammaV" r.1).bind fun gV =>
    bipOfEntry { betaT := some bT, gammaT := some gT, betaV := some bV, gammaV := some gV } r.2 Tc0 Tc1 vc0 vc1
  else if r.1.contains "xi" && r.1.contains "zeta" then
    (numAt "xi" r.1).bind fun xi => (numAt "zeta" r.1).bind fun zeta =>
    bipOfEntry { xi := some xi, zeta := some zeta } r.2 Tc0 Tc1 vc0 vc1
  else .throws .stdInvalidArgument

/-- The weight of a pair (`multifluid_reducing.hpp` lines 158-167). -/
def pairFDoc (col flags : JTree) (id0 id1 : String) : Outcome ℝ :=
  (getBIPdepDoc col flags id0 id1).bind fun r => if r.1.isEmpty then .ok 0 else numAt "F" r.1

/-- The departure function of a name (`multifluid.hpp` lines 480-485); the documents are constant. -/
def findDeparture (name : String) : List JTree → Outcome JTree
  | [] => .throws .stdInvalidArgument
  | el :: els => (el.atConst "Name").bind fun n => if n.isText name then .ok el else findDeparture name els

/-- `term["Npower"]` of a constant document as `int` (`multifluid.hpp` lines 386 and 417): numbers lose their fraction, and
true and false are one and zero. -/
noncomputable def npowerOf (j : JTree) : Outcome ℤ :=
  (j.atConst "Npower").bind fun v => match v with
  | .num x => .ok (castInt x)
  | .bool b => .ok (if b then 1 else 0)
  | _ => .throws .jsonError

/-- `toeig(term["l"])` if there is an `l` (`multifluid.hpp` lines 393-395 and 424-426). -/
def exponentsRead (j : JTree) : Outcome Unit :=
  if j.contains "l" then ((j.at "l").bind JTree.toRow).bind fun _ => .ok () else .ok ()

/-- `build_departure_function`, `multifluid.hpp` lines 227-471.  `Npower` is read by three of the types only.  The type of
the exception for an array that is not one may differ. -/
noncomputable def departureTerms (sp : SpecialTerms) (j : JTree) : Outcome (List ResTerm) :=
  (termType j).bind fun ty =>
  if ty = "Chebyshev2D" then sp.cheb j
  else if ty = "GERG-2004" ∨ ty = "GERG-2008" ∨ ty = "Gaussian+Exponential" then
    (allSameLength j.flat gaussKeys).bind fun same =>
    if same = false then .throws .stdInvalidArgument
    else (npowerOf j).bind fun N => (buildDeparture j.flat N).bind fun ts => (exponentsRead j).bind fun _ => .ok ts
  else buildDeparture j.flat 0

/-- The departure function of a pair (`multifluid.hpp` lines 493-508). -/
noncomputable def pairDepDoc (sp : SpecialTerms) (deps col flags : JTree) (id0 id1 : String) : Outcome (List ResTerm) :=
  (getBIPdepDoc col flags id0 id1).bind fun r =>
  (if r.1.contains "function" then strAt "function" r.1 else .ok "").bind fun name =>
  if name = "" then .ok [.null]
  else if deps.isEmpty then .throws .invalidArgument
  else (findDeparture name deps.items).bind fun d => departureTerms sp d

/-! ## The mixture -/

/-- The loops over pairs of `select_identifier` (`multifluid.hpp` lines 828-833). -/
def tryRowDoc (col flags : JTree) (a : String) : List String → Outcome Unit
  | [] => .ok ()
  | b :: rest => (getBIPdepDoc col flags a b).bind fun _ => tryRowDoc col flags a rest

/-- The outer loop. -/
def tryPairsDoc (col flags : JTree) : List String → Outcome Unit
  | [] => .ok ()
  | a :: rest => (tryRowDoc col flags a rest).bind fun _ => tryPairsDoc col flags rest

/-- `identifierset[select_identifier(...)]` (`multifluid.hpp` lines 820-847 and 909). -/
def chooseIds (col flags : JTree) : List (String × List String) → Outcome (List String)
  | [] => .throws .stdInvalidArgument
  | (_, ids) :: rest =>
    match tryPairsDoc col flags ids with
    | .ok _ => .ok ids
    | .ub => .ub
    | _ => chooseIds col flags rest

/-- A double loop over the pairs `i < j` of the parameters of the reducing functions (`multifluid_reducing.hpp` lines
122-130). -/
noncomputable def bipLoopDoc (f : ℕ → ℕ → Outcome BIP) : List (ℕ × ℕ) → (ℕ → ℕ → BIP) → Outcome (ℕ → ℕ → BIP)
  | [], M => .ok M
  | (i, j) :: ps, M => (f i j).bind fun p =>
    if p.betaT = 0 ∨ p.betaV = 0 then .nonFinite
    else bipLoopDoc f ps fun a b => if a = i ∧ b = j then p else if a = j ∧ b = i then p.flip else M a b

/-- The data of the fluids in the order in which the code reads them. -/
structure MixData where
  ids : List String
  states : List (ℝ × ℝ)
  terms : List (List ResTerm)

/-- The entries number `i`. -/
def MixData.id (d : MixData) (i : ℕ) : String := d.ids.getD i ""
def MixData.Tc (d : MixData) (i : ℕ) : ℝ := (d.states.getD i (0, 0)).1
def MixData.vc (d : MixData) (i : ℕ) : ℝ := (d.states.getD i (0, 0)).2

/-- `_build_multifluid_model` (`multifluid.hpp` lines 891-938): the model and its gas constants.  The metadata of the model
(lines 923-926, 936) are left out. -/
noncomputable def buildMixDoc {n : ℕ} (sp : SpecialTerms) (pures : Fin n → JTree) (col deps flags : JTree) : Outcome (MultiFluid n × GasR) :=
  (mapOutcome pureState (List.ofFn pures)).bind fun states =>
  (mapOutcome (pureTerms sp) (List.ofFn pures)).bind fun terms =>
  (mapOutcome fluidR (List.ofFn pures)).bind fun _ =>
  (mapOutcome pureInfo (List.ofFn pures)).bind fun infos =>
  (chooseIds col flags (collectIdentifiers infos)).bind fun ids =>
  let d : MixData := ⟨ids, states, terms⟩
  (symLoop (fun i j => pairFDoc col flags (d.id i) (d.id j)) (upperPairs n) fun _ _ => 0).bind fun F =>
  (symLoop (fun i j => pairDepDoc sp deps col flags (d.id i) (d.id j)) (upperPairs n) fun _ _ => []).bind fun D =>
  (bipLoopDoc (fun i j => getBinaryInteractionDoc col flags (d.id i) (d.id j) (d.Tc i) (d.Tc j) (d.vc i) (d.vc j))
    (upperPairs n) fun _ _ => ⟨0, 0, 0, 0⟩).bind fun M =>
  (gasROf (List.ofFn pures) flags).bind fun R =>
  .ok ({ Tr := (RedFn.ofBIP n M d.Tc d.vc).Tr
         rhor := (RedFn.ofBIP n M d.Tc d.vc).rhor
         eos := fun i => d.terms.getD i []
         F := fun i j => F i j
         func := fun i j => D i j
         Rvals := match R with
           | .weighted Rs => some fun i => Rs.getD i 0
           | .codata => none }, R)

/-! ## The two interfaces -/

/-- A component of a document as it is looked at by `multilevel_JSON_load` (`json_tools.hpp` lines 94-124). -/
def compOf : JTree → Comp JTree
  | .str s => .str s
  | .null => .empty
  | .arr [] => .empty
  | .arr xs => .doc (.arr xs)
  | .obj o => .doc (.obj o)
  | _ => .other

/-- The surroundings of the code: the file system, the parser, the reader of `FLD` files, the folder of fluids and the
reader of REFPROP mixture files with their components (`multifluid.hpp` lines 1042-1048). -/
structure World where
  path : String → PathInfo
  parse : String → Option JTree
  fld : String → Outcome JTree
  folder : String → Option (List (String × FluidInfo))
  hmx : JTree → Outcome (List JTree × JTree × JTree)

/-- The file system in the form of `Model/Components`. -/
def World.files (w : World) : FS JTree where
  isFile p := match w.path p with
    | .unreadable => true
    | .content _ => true
    | _ => false
  read p := match w.path p with
    | .content t => w.parse t
    | _ => none
  parse := w.parse
  fld := w.fld
  folder := w.folder

/-- `make_pure_components_JSON` (`multifluid.hpp` lines 963-1014) for any document. -/
def World.fluids (w : World) (root : String) : JTree → Outcome (List JTree)
  | .arr cs => makePure w.files (some root) (cs.map compOf)
  | _ => .throws .stdInvalidArgument

/-- A built model together with its number of fluids. -/
noncomputable def buildMixList (sp : SpecialTerms) (pures : List JTree) (col deps flags : JTree) : Outcome ((n : ℕ) × (MultiFluid n × GasR)) :=
  (buildMixDoc sp (fun i : Fin pures.length => pures.get i) col deps flags).bind fun m => .ok ⟨pures.length, m⟩

/-- `multifluidfactory` (`multifluid.hpp` lines 1039-1101). -/
noncomputable def multifluidFactory (w : World) (sp : SpecialTerms) (spec : JTree) : Outcome ((n : ℕ) × (MultiFluid n × GasR)) :=
  (if spec.contains "flags" then spec.at "flags" else .ok .null).bind fun flags =>
  if spec.contains "HMX.BNC" then
    (w.hmx spec).bind fun r => buildMixList sp r.1 r.2.1 r.2.2 flags
  else
    (multifluidCollections w.path w.parse spec).bind fun c =>
    (if spec.contains "root" then (spec.at "root").bind JTree.toStr else .ok "").bind fun root =>
    ((spec.at "components").bind (w.fluids root)).bind fun pures =>
    buildMixList sp pures c.1 c.2 flags

/-- `build_multifluid_model` (`multifluid.hpp` lines 1016-1028). -/
noncomputable def buildMultifluidModel (w : World) (sp : SpecialTerms) (components : List String) (root bip : String) (flags : JTree) (departure : String) :
    Outcome ((n : ℕ) × (MultiFluid n × GasR)) :=
  (if 1 < components.length then
    (jsonTreeLoad w.path w.parse (some (defaultBIP root)) (.str bip)).bind fun B =>
    (jsonTreeLoad w.path w.parse (some (defaultDeparture root)) (.str departure)).bind fun D => .ok (B, D)
  else .ok (.arr [], .arr [])).bind fun c =>
  (w.fluids root (.arr (components.map .str))).bind fun pures =>
  buildMixList sp pures c.1 c.2 flags

/-- `build_multifluid_JSONstr` (`multifluid.hpp` lines 941-953). -/
noncomputable def buildMultifluidStr (w : World) (sp : SpecialTerms) (components : List String) (bip departure : String) (flags : JTree) :
    Outcome ((n : ℕ) × (MultiFluid n × GasR)) :=
  let parse (s : String) : Outcome JTree := match w.parse s with
    | some j => .ok j
    | none => .throws .jsonError
  (parse bip).bind fun B => (parse departure).bind fun D =>
  (mapOutcome parse components).bind fun pures => buildMixList sp pures B D flags

end Teqp.Model
