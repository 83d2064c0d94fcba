import Verif.Basic

/-! # Holding models behind the abstract interface

Models the holders and the typed access of `/repo/include/teqp/cpp/deriv_adapter.hpp` and its use in
`/repo/interface/pybind11_wrapper.cpp`.  Concrete model classes are elements of a type `τ` of class names, models are values
of a type `V`, and objects living outside the adapters are cells of a store.  `dynamic_cast` to an adapter class succeeds
exactly for an object of that class (no adapter class is derived from another). -/

set_option autoImplicit false

namespace Teqp.Model

/-- Objects outside the adapters: the class and the value of each live object; `none` after its destruction. -/
def ObjStore (τ V : Type) := Nat → Option (τ × V)

/-- The adapter class template arguments (`deriv_adapter.hpp` lines 20-41, 97): which holder, and whether the model class
it was instantiated with is `const`-qualified. -/
inductive HolderKind where
  | owner (const : Bool)
  | viewer (const : Bool)
  deriving DecidableEq, Repr

/-- What the holder contains: its own copy of the model, or a reference. -/
inductive Content (V : Type) where
  | copy (v : V)
  | ref (loc : Nat)

/-- An object of a `DerivativeAdapter<...>` class. -/
structure Adapter (τ V : Type) where
  kind : HolderKind
  cls : τ
  content : Content V

variable {τ V : Type} [DecidableEq τ]

/-- `make_owned` through `own` (`deriv_adapter.hpp` lines 222-230): the argument is a `const` reference, so
`Owner o(std::move(tp))` deduces `Owner<const T>`, and the model is copied (line 28). -/
def makeOwned (cls : τ) (v : V) : Adapter τ V := ⟨.owner true, cls, .copy v⟩

/-- `make_cview` through `view` (lines 218-221, 232-235): `ConstViewer cv{tp}` deduces `ConstViewer<const T>`. -/
def makeCview (cls : τ) (loc : Nat) : Adapter τ V := ⟨.viewer true, cls, .ref loc⟩

/-- Reading the held model; a reference to an object that no longer exists is undefined. -/
def Adapter.read (σ : ObjStore τ V) (a : Adapter τ V) : Outcome V :=
  match a.content with
  | .copy v => .ok v
  | .ref loc => match σ loc with
    | some p => .ok p.2
    | none => .ub

/-- `get_model_cref<T>` (lines 242-259). -/
def getModelCref (σ : ObjStore τ V) (T : τ) (am : Option (Adapter τ V)) : Outcome V :=
  match am with
  | none => .throws .invalidArgument
  | some a =>
    if a.kind = .viewer true ∧ a.cls = T then a.read σ
    else if a.kind = .owner true ∧ a.cls = T then a.read σ
    else .throws .invalidArgument

/-- `get_model_ref<T>` (lines 266-279) for a class `T` without `const`: the adapter whose model may be changed. -/
def getModelRef (T : τ) (am : Option (Adapter τ V)) : Outcome (Adapter τ V) :=
  match am with
  | none => .throws .invalidArgument
  | some a => if a.kind = .owner false ∧ a.cls = T then .ok a else .throws .invalidArgument

/-- The Python method `set_meta` (`pybind11_wrapper.cpp` lines 117 and 213, through `get_mutable_typed`, lines 68-76): the
model with its metadata replaced. -/
def pySetMeta (setMeta : V → String → V) (T : τ) (a : Adapter τ V) (s : String) : Outcome (Adapter τ V) :=
  (getModelRef T (some a)).bind fun a => match a.content with
    | .copy v => .ok { a with content := .copy (setMeta v s) }
    | .ref _ => .ok a

/-- `json::operator[](size_type)` on an array that may be changed (nlohmann/json, not in /repo): an index past the end grows
the array to `idx + 1` elements in 64-bit arithmetic.  Growing to `2^64 = 0` elements and then reading is undefined; a size
above `max_size` raises `std::length_error`, represented here by `stdOutOfRange`; a missing element that could be created is
null, and reading a key of it raises a JSON error. -/
def jsonArrayIndex (n : Nat) (idx : Nat) : Outcome Nat :=
  if idx < n then .ok idx
  else if (idx + 1) % 2 ^ 64 = 0 then .ub
  else if idx + 1 ≥ 2 ^ 59 then .throws .stdOutOfRange
  else .throws .jsonError

/-- The choice of the fluid in the Python method `build_ancillaries` (`pybind11_wrapper.cpp` lines 262-275) for a model of
`N` fluids.  `redfunc.Tc` is an Eigen array (`multifluid_reducing.hpp` line 336), whose `size()` is signed, so the comparison
of line 270 is one of signed numbers; the index is converted to an unsigned number only in line 273.  Returned: the fluid
whose `ANCILLARIES` are read. -/
def pyAncillaryIndex (N : Nat) (i : Option Int) : Outcome Nat :=
  if i.isNone ∧ N ≠ 1 then .throws .invalidArgument
  else
    let k := i.getD 0
    if k > (N : Int) - 1 then .throws .invalidArgument else jsonArrayIndex N (k % 2 ^ 64).toNat

end Teqp.Model
