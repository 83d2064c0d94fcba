import Verif.Basic
import Mathlib.Logic.Function.Basic

/-! # The C interface

`/repo/interface/C/teqpc.cpp`: the handle table, the calls that build, free and query models, and the
handler that turns exceptions into return codes and messages in a caller-provided buffer.

Simplifications: characters are bytes, `long long` and `unsigned long long` are both 64-bit words (the
conversion between them keeps the bits), and the JSON parser, `make_model` and the property evaluations
are parameters that return a value or throw. -/

set_option autoImplicit false

namespace Teqp.Model

/-- Text in memory. -/
abbrev Bytes := List UInt8

/-- How a C++ exception is seen by the handlers: `teqpcException` with its code
(`/repo/include/teqp/exceptions.hpp` lines 7-15), any other class derived from `std::exception`, or
anything else that can be thrown. -/
inductive ExcKind where
  | teqpc (code : Int)
  | std
  | foreign
  deriving DecidableEq, Repr

/-- An exception in flight with the text of its `what()` (or `msg`). -/
structure Exc where
  kind : ExcKind
  msg : Bytes
  deriving DecidableEq, Repr

/-- A computation that returns or throws. -/
abbrev Thrown (α : Type) := Except Exc α

/-- Text of a C++ string literal. -/
def lit (s : String) : Bytes := s.toList.map (fun c => UInt8.ofNat c.toNat)

/-- `static_cast<std::size_t>(n)` for a signed `n` (`/repo/interface/C/teqpc.cpp` lines 48, 53). -/
def sizeT (n : Int) : Nat := (n % (2 ^ 64 : Int)).toNat

/-- The part of a string that C string functions see. -/
def cstr (s : Bytes) : Bytes := s.takeWhile (· ≠ 0)

/-- `strcpy(buf, s.c_str())`: writing past the end of the buffer is undefined behaviour. -/
def strcpyTo (buf s : Bytes) : Outcome Bytes :=
  let w := cstr s ++ [0]
  if w.length ≤ buf.length then .ok (w ++ buf.drop w.length) else .ub

/-- `/repo/interface/C/teqpc.cpp` line 52. -/
def tooLongMsg : Bytes := lit "Error message too long for buffer"

/-- `write_error`, `/repo/interface/C/teqpc.cpp` lines 47-60. -/
def writeError (buf : Bytes) (len : Int) (msg : Bytes) : Outcome Bytes :=
  if msg.length < sizeT len then strcpyTo buf msg
  else if tooLongMsg.length < sizeT len then strcpyTo buf tooLongMsg
  else if len > 1 then strcpyTo buf (lit "?")
  else .ok buf

/-- What the C caller sees when the call ends: a return code and the buffer, or a C++ exception that
leaves the C function. -/
inductive CRet where
  | returned (code : Int) (buf : Bytes)
  | escaped (e : Exc)
  deriving DecidableEq, Repr

/-- `what()` of an exception object copied into a `std::exception` (libstdc++ text). -/
def slicedWhat : Bytes := lit "std::exception"

/-- `exception_handler`, `/repo/interface/C/teqpc.cpp` lines 45-73.  The second handler catches
`std::exception` by value, so the object is sliced and the text is that of the base class. -/
def excHandler (e : Exc) (buf : Bytes) (len : Int) : Outcome CRet :=
  match e.kind with
  | .teqpc code => (writeError buf len e.msg).bind fun b => .ok (.returned code b)
  | .std => (writeError buf len slicedWhat).bind fun b => .ok (.returned 9999 b)
  | .foreign => .ok (.escaped e)

/-- A handle: the 64 bits of a `long long`. -/
abbrev Handle := BitVec 64

/-- The library behind the interface: JSON parser, factory and evaluations. -/
structure CEnv (J M Q V : Type) where
  /-- `nlohmann::json::parse` -/
  parse : Bytes → Thrown J
  /-- `cppinterface::make_model` -/
  make : J → Thrown M
  /-- a getter of `AbstractModel` with all its arguments -/
  eval : M → Q → Thrown V

/-- The globals `next_index` and `library`, `/repo/interface/C/teqpc.cpp` lines 39-43. -/
structure CLib (M : Type) where
  next : Handle
  lib : Handle → Option M

/-- The globals at start-up. -/
def CLib.init (M : Type) : CLib M := ⟨0, fun _ => none⟩

/-- `library.emplace`: keeps an element that is already there. -/
def emplaceLib {M : Type} (l : Handle → Option M) (h : Handle) (m : M) : Handle → Option M :=
  match l h with
  | some _ => l
  | none => fun k => if k = h then some m else l k

/-- `library.erase`. -/
def eraseLib {M : Type} (l : Handle → Option M) (h : Handle) : Handle → Option M :=
  fun k => if k = h then none else l k

/-- A call of the C interface with the caller's message buffer and its declared length. -/
inductive CCall (Q : Type) where
  | build (json : Bytes) (buf : Bytes) (len : Int)
  | free (h : Handle) (buf : Bytes) (len : Int)
  | query (h : Handle) (q : Q) (buf : Bytes) (len : Int)

/-- What the caller gets: how the call ended, and the values written to `*uuid` and `*val`. -/
structure CReply (V : Type) where
  ret : CRet
  uuid : Option Handle
  val : Option V
  deriving DecidableEq, Repr

section
variable {J M Q V : Type}

/-- The inner handler of `build_model`, `/repo/interface/C/teqpc.cpp` lines 83-85. -/
def wrapLoad (e : Exc) : Exc :=
  match e.kind with
  | .foreign => e
  | _ => ⟨.teqpc 30, lit "Unable to load with error:" ++ cstr e.msg⟩

/-- `build_model`, `/repo/interface/C/teqpc.cpp` lines 75-92. -/
def cBuild (env : CEnv J M Q V) (s : CLib M) (json buf : Bytes) (len : Int) :
    Outcome (CLib M × CReply V) :=
  match env.parse json with
  | .error e => (excHandler e buf len).bind fun r => .ok (s, ⟨r, none, none⟩)
  | .ok j =>
    let uid := s.next
    let s1 : CLib M := { s with next := s.next + 1 }
    match env.make j with
    | .error e => (excHandler (wrapLoad e) buf len).bind fun r => .ok (s1, ⟨r, none, none⟩)
    | .ok m => .ok ({ s1 with lib := emplaceLib s1.lib uid m }, ⟨.returned 0 buf, some uid, none⟩)

/-- `free_model`, `/repo/interface/C/teqpc.cpp` lines 94-103. -/
def cFree (s : CLib M) (h : Handle) (buf : Bytes) : Outcome (CLib M × CReply V) :=
  .ok ({ s with lib := eraseLib s.lib h }, ⟨.returned 0 buf, none, none⟩)

/-- `library.at(uuid)` of a missing key throws `std::out_of_range`. -/
def atExc : Exc := ⟨.std, lit "_Map_base::at"⟩

/-- The getters `get_Arxy`, `get_ATrhoXi`, …, `/repo/interface/C/teqpc.cpp` lines 105-218: the value is
assigned only after the evaluation has returned. -/
def cQuery (env : CEnv J M Q V) (s : CLib M) (h : Handle) (q : Q) (buf : Bytes) (len : Int) :
    Outcome (CLib M × CReply V) :=
  let res : Thrown V := match s.lib h with
    | none => .error atExc
    | some m => env.eval m q
  match res with
  | .ok v => .ok (s, ⟨.returned 0 buf, none, some v⟩)
  | .error e => (excHandler e buf len).bind fun r => .ok (s, ⟨r, none, none⟩)

/-- One call. -/
def cStep (env : CEnv J M Q V) (s : CLib M) : CCall Q → Outcome (CLib M × CReply V)
  | .build j buf len => cBuild env s j buf len
  | .free h buf _ => cFree s h buf
  | .query h q buf len => cQuery env s h q buf len

/-- A history of calls; the trace lists calls with their replies, newest first. -/
def cRun (env : CEnv J M Q V) : CLib M → List (CCall Q × CReply V) → List (CCall Q) →
    Outcome (CLib M × List (CCall Q × CReply V))
  | s, tr, [] => .ok (s, tr)
  | s, tr, c :: cs => (cStep env s c).bind fun r => cRun env r.1 ((c, r.2) :: tr) cs

end

/-! ## Concurrent calls

Each call is a few events: `build_model` draws its number from the atomic counter, builds the model, and
then accesses the map; `free_model` and the getters only access the map.  An access has a begin and an
end.  Two overlapping accesses of which one writes are a data race, that is, undefined behaviour (the
map has no lock, `/repo/interface/C/teqpc.cpp` line 43). -/

/-- The calls, without message buffers. -/
inductive TCall (J Q : Type) where
  | build (j : J)
  | free (h : Handle)
  | query (h : Handle) (q : Q)

/-- Results of calls. -/
inductive TRes (V : Type) where
  | built (h : Handle)
  | failed
  | freed
  | value (v : V)
  deriving DecidableEq, Repr

/-- Events of call number `c`. -/
inductive TEv where
  | fetch (c : Nat)
  | enter (c : Nat)
  | leave (c : Nat)
  deriving DecidableEq, Repr

/-- State of the process: globals, number drawn by each call, results so far, accesses to the map in
progress with a flag for writers, and the calls that have ended. -/
structure TState (M V : Type) where
  glob : CLib M
  uid : Nat → Option Handle
  res : Nat → Option (TRes V)
  acc : List (Nat × Bool)
  fin : List Nat

/-- Start of the process. -/
def TState.init (M V : Type) : TState M V := ⟨CLib.init M, fun _ => none, fun _ => none, [], []⟩

section
variable {J M Q V : Type}

/-- Result of a getter (`/repo/interface/C/teqpc.cpp` lines 105-218). -/
def tQuery (env : CEnv J M Q V) (l : Handle → Option M) (h : Handle) (q : Q) : TRes V :=
  match l h with
  | none => .failed
  | some m => match env.eval m q with
    | .ok v => .value v
    | .error _ => .failed

/-- Whether starting an access, writing the map if `w`, races with the accesses in progress; `emplace` and `erase` write the map,
`at` does not. -/
def races (acc : List (Nat × Bool)) (w : Bool) : Bool :=
  acc.any fun a => a.2 || w

/-- One event.  `none`: the event is not possible in this state (it is not part of any execution). -/
def tStep (env : CEnv J M Q V) (calls : Nat → TCall J Q) (s : TState M V) : TEv →
    Option (Outcome (TState M V))
  | .fetch c => match calls c with
    | .build _ => match s.uid c with
      | some _ => none
      | none => some (.ok { s with
          glob := { s.glob with next := s.glob.next + 1 }
          uid := Function.update s.uid c (some s.glob.next) })
    | _ => none
  | .enter c => match s.res c with
    | some _ => none
    | none => match calls c with
      | .build j => match s.uid c with
        | none => none
        | some u => match env.make j with
          | .error _ => some (.ok { s with res := Function.update s.res c (some .failed) })
          | .ok m => if races s.acc true then some .ub else some (.ok { s with
              glob := { s.glob with lib := emplaceLib s.glob.lib u m }
              res := Function.update s.res c (some (.built u))
              acc := (c, true) :: s.acc })
      | .free h => if races s.acc true then some .ub else some (.ok { s with
          glob := { s.glob with lib := eraseLib s.glob.lib h }
          res := Function.update s.res c (some .freed)
          acc := (c, true) :: s.acc })
      | .query h q => if races s.acc false then some .ub else some (.ok { s with
          res := Function.update s.res c (some (tQuery env s.glob.lib h q))
          acc := (c, false) :: s.acc })
  | .leave c => match s.res c with
    | none => none
    | some _ => if c ∈ s.fin then none else some (.ok { s with
        acc := s.acc.filter (fun a => a.1 ≠ c)
        fin := c :: s.fin })

/-- A schedule of events. -/
def tRun (env : CEnv J M Q V) (calls : Nat → TCall J Q) : TState M V → List TEv →
    Option (Outcome (TState M V))
  | s, [] => some (.ok s)
  | s, e :: es => match tStep env calls s e with
    | none => none
    | some (.ok s1) => tRun env calls s1 es
    | some (.throws x) => some (.throws x)
    | some .ub => some .ub
    | some .nonFinite => some .nonFinite

end

end Teqp.Model
