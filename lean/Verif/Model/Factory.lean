import Verif.Model.Json
import Mathlib.Logic.Function.Basic

/-! # JSON documents, the model factory and containers

`/repo/include/teqp/json_tools.hpp`, `/repo/interface/CPP/teqp_impl_factory.cpp` and
`/repo/include/teqp/containers.hpp`. -/

set_option autoImplicit false

namespace Teqp.Model

/-- A JSON document (`nlohmann::json`); numbers are real numbers. -/
inductive JTree where
  | null
  | bool (b : Bool)
  | num (x : ℝ)
  | str (s : String)
  | arr (xs : List JTree)
  | obj (fs : List (String × JTree))

/-- `j.at(key)`: throws for anything but an object and for a missing key. -/
def JTree.at (j : JTree) (k : String) : Outcome JTree :=
  match j with
  | .obj fs => match fs.lookup k with
    | some v => .ok v
    | none => .throws .jsonError
  | _ => .throws .jsonError

/-- `j.contains(key)`. -/
def JTree.contains (j : JTree) (k : String) : Bool :=
  match j with
  | .obj fs => (fs.lookup k).isSome
  | _ => false

/-- Conversion to `std::string`. -/
def JTree.toStr : JTree → Outcome String
  | .str s => .ok s
  | _ => .throws .jsonError

/-- Conversion to `bool`: only JSON booleans. -/
def JTree.toBool : JTree → Outcome Bool
  | .bool b => .ok b
  | _ => .throws .jsonError

/-- Conversion to `double`: only JSON numbers. -/
def JTree.toDouble : JTree → Outcome ℝ
  | .num x => .ok x
  | _ => .throws .jsonError

/-- Converts the elements of an array one after the other. -/
def mapOutcome {α β : Type} (f : α → Outcome β) : List α → Outcome (List β)
  | [] => .ok []
  | a :: as => (f a).bind fun b => (mapOutcome f as).bind fun bs => .ok (b :: bs)

/-- Conversion to `std::valarray<double>`. -/
def JTree.toRow : JTree → Outcome (List ℝ)
  | .arr xs => mapOutcome JTree.toDouble xs
  | _ => .throws .jsonError

/-- Conversion to `std::valarray<std::valarray<double>>`. -/
def JTree.toRows : JTree → Outcome (List (List ℝ))
  | .arr xs => mapOutcome JTree.toRow xs
  | _ => .throws .jsonError

/-- A square matrix `Eigen::ArrayXXd`: its size and its elements. -/
structure SqMat where
  n : Nat
  val : Nat → Nat → ℝ

/-- The inner loop of `build_square_matrix`, `/repo/include/teqp/json_tools.hpp` lines 63-65: copies a row
into row `i` from column `k` on. -/
def copyRow (i : Nat) : Nat → List ℝ → (Nat → Nat → ℝ) → (Nat → Nat → ℝ)
  | _, [], v => v
  | k, x :: xs, v => copyRow i (k + 1) xs (Function.update v i (Function.update (v i) k x))

/-- The outer loop, `/repo/include/teqp/json_tools.hpp` lines 58-66, for a matrix with `n` rows. -/
def copyRows (n : Nat) : Nat → List (List ℝ) → (Nat → Nat → ℝ) → Outcome (Nat → Nat → ℝ)
  | _, [], v => .ok v
  | i, row :: rows, v =>
    if row.length ≠ n then .throws .stdInvalidArgument
    else copyRows n (i + 1) rows (copyRow i 0 row v)

/-- A `catch (const nlohmann::json::exception&)` that throws `InvalidArgument` instead. -/
def catchJson {α : Type} : Outcome α → Outcome α
  | .throws .jsonError => .throws .invalidArgument
  | o => o

/-- `build_square_matrix`, `/repo/include/teqp/json_tools.hpp` lines 45-73. -/
def buildSquareMatrix (j : JTree) : Outcome SqMat :=
  match j with
  | .null => .ok ⟨0, fun _ _ => 0⟩
  | .arr [] => .ok ⟨0, fun _ _ => 0⟩
  | _ => catchJson (j.toRows.bind fun m =>
      (copyRows m.length 0 m (fun _ _ => 0)).bind fun v => .ok ⟨m.length, v⟩)

/-! ## Files -/

/-- What the file system says about a path: asking may throw (for instance when the name is too long), the
path may not be a regular file, the file may not open, or it has some content. -/
inductive PathInfo where
  | raises
  | noFile
  | unreadable
  | content (text : String)

/-- `load_a_JSON_file`, `/repo/include/teqp/json_tools.hpp` lines 18-32.  A `filesystem_error` of
`is_regular_file` is a `std::runtime_error`. -/
def loadJsonFile (fs : String → PathInfo) (parse : String → Option JTree) (path : String) : Outcome JTree :=
  match fs path with
  | .raises => .throws .stdRuntimeError
  | .noFile => .throws .stdInvalidArgument
  | .unreadable => .throws .stdInvalidArgument
  | .content t => match parse t with
    | some j => .ok j
    | none => .throws .stdInvalidArgument

/-- `multilevel_JSON_load`, `/repo/include/teqp/json_tools.hpp` lines 82-125. -/
def jsonTreeLoad (fs : String → PathInfo) (parse : String → Option JTree) (dflt : Option String) (j : JTree) :
    Outcome JTree :=
  let fallback : Outcome JTree := match dflt with
    | some p => loadJsonFile fs parse p
    | none => .throws .invalidArgument
  match j with
  | .null => fallback
  | .arr [] => fallback
  | .obj _ => .ok j
  | .arr (_ :: _) => .ok j
  | .str s =>
    if s = "" then fallback
    else
      let parsed : Outcome JTree := match parse s with
        | some v => .ok v
        | none => .throws .jsonError
      match fs s with
      | .raises => parsed
      | .noFile => parsed
      | .unreadable => loadJsonFile fs parse s
      | .content _ => loadJsonFile fs parse s
  | _ => .throws .invalidArgument

/-- `all_same_length`, `/repo/include/teqp/json_tools.hpp` lines 39-43; `size()` of a JSON value is the
number of elements of an array or object, 0 for null and 1 for anything else. -/
def JTree.size : JTree → Nat
  | .null => 0
  | .arr xs => xs.length
  | .obj fs => fs.length
  | _ => 1

/-- The lengths of the named fields; the set has one element iff they are all the same. -/
def jsonSameLength (j : JTree) (ks : List String) : Outcome Bool :=
  (mapOutcome (fun k => (j.at k).bind fun v => .ok v.size) ks).bind fun ls =>
    .ok (ls.eraseDups.length == 1)

/-! ## The factory -/

/-- The built-in kinds, `/repo/interface/CPP/teqp_impl_factory.cpp` lines 52-99. -/
def builtinKinds : List String :=
  ["vdW1", "vdW", "PR", "SRK", "cubic", "QCPRAasen", "advancedPRaEres", "RKPRCismondi2005", "SAFT-VR-Mie",
   "PCSAFT", "PCSAFTPureGrossSadowski2001", "SoftSAFT", "genericSAFT", "GERG2004resid", "GERG2008resid",
   "GERG2004idealgas", "GERG2008idealgas", "LKP", "multifluid", "multifluid-ECS-HuberEly1994",
   "multifluid-association", "multifluid-activity", "AmmoniaWaterTillnerRoth", "LJ126_TholJPCRD2016",
   "LJ126_KolafaNezbeda1994", "LJ126_Johnson1993", "SW_EspindolaHeredia2009", "EXP6_Kataoka1992",
   "Mie_Pohl2023", "Mie_Chaparro2023", "2CLJF", "2CLJF-Dipole", "2CLJF-Quadrupole", "CPA",
   "IdealHelmholtz"]

/-- A factory function. -/
abbrev MakeFn (M : Type) := JTree → Outcome M

/-- `pointer_factory`. -/
abbrev Registry (M : Type) := String → Option (MakeFn M)

/-- `add_model_pointer_factory_function`, `/repo/interface/CPP/teqp_impl_factory.cpp` lines 137-144. -/
def addFactory {M : Type} (r : Registry M) (key : String) (f : MakeFn M) : Outcome (Registry M) :=
  match r key with
  | none => .ok (Function.update r key (some f))
  | some _ => .throws .invalidArgument

/-- `build_model_ptr`, `/repo/interface/CPP/teqp_impl_factory.cpp` lines 101-127.  `schema kind` is the
validator for the schema of that kind, if `model_schema_library` has one. -/
def buildModelPtr {M : Type} (r : Registry M) (schema : String → Option (JTree → Bool)) (json : JTree)
    (validate : Bool) : Outcome M :=
  (json.at "kind").bind fun k => k.toStr.bind fun kind =>
  (json.at "model").bind fun spec =>
  match r kind with
  | none => .throws .stdInvalidArgument
  | some make =>
    (if json.contains "validate" then (json.at "validate").bind JTree.toBool else .ok validate).bind
      fun doValidation =>
    if doValidation then
      match schema kind with
      | some valid => if valid spec then make spec else .throws .jsonValidation
      | none => make spec
    else make spec

/-- A session: a user tries to register functions one after the other; a refused registration leaves
the table as it is. -/
def registerAll {M : Type} (r : Registry M) : List (String × MakeFn M) → Registry M
  | [] => r
  | (k, f) :: l => match addFactory r k f with
    | .ok r' => registerAll r' l
    | _ => registerAll r l

/-! ## Containers -/

/-- `ModelContainer`, `/repo/include/teqp/containers.hpp` lines 8-16; `last_id` is a 64-bit word. -/
structure Container (M : Type) where
  lastId : BitVec 64
  coll : BitVec 64 → Option M

/-- A new container. -/
def Container.new (M : Type) : Container M := ⟨0, fun _ => none⟩

/-- `add_model`, `/repo/include/teqp/containers.hpp` lines 20-29: increments `last_id`, then `emplace`, which
keeps an element that is already there. -/
def Container.add {M : Type} (c : Container M) (m : M) : Container M × BitVec 64 :=
  let uid := c.lastId + 1
  (⟨uid, match c.coll uid with
    | some _ => c.coll
    | none => Function.update c.coll uid (some m)⟩, uid)

/-- `get_model`, `/repo/include/teqp/containers.hpp` lines 31-33. -/
def Container.get {M : Type} (c : Container M) (id : BitVec 64) : Outcome M :=
  match c.coll id with
  | some m => .ok m
  | none => .throws .stdOutOfRange

/-- `caller`, `/repo/include/teqp/containers.hpp` lines 35-38. -/
def Container.caller {M R : Type} (c : Container M) (id : BitVec 64) (f : M → Outcome R) : Outcome R :=
  (c.get id).bind f

/-- `get_ref<T>`, `/repo/include/teqp/containers.hpp` line 17, for models that are a value of one of several
types: `std::get<T>` throws when the model has another type. -/
def Container.getRef {K : Type} [DecidableEq K] {A : K → Type} (c : Container ((k : K) × A k)) (id : BitVec 64)
    (T : K) : Outcome (A T) :=
  (c.get id).bind fun m =>
    if h : m.1 = T then .ok (h ▸ m.2) else .throws .stdBadVariantAccess

/-- Adds models one after the other; returns the container and the identifiers in order. -/
def Container.addAll {M : Type} (c : Container M) : List M → Container M × List (BitVec 64)
  | [] => (c, [])
  | m :: ms =>
    let r := c.add m
    let r' := Container.addAll r.1 ms
    (r'.1, r.2 :: r'.2)

end Teqp.Model
