import Verif.Model.CApi

/-! # What a handle table should do

An abstract table: numbers are issued in order and each number refers to the model built under it until
it is freed. -/

set_option autoImplicit false

namespace Teqp.Spec
open Teqp.Model

variable {J M Q V : Type}

/-- The model that a caller should get under handle `h` after the given calls and replies (newest
first): the model of the last successful build that returned `h`, unless `h` was freed since. -/
def currentModel (env : CEnv J M Q V) (h : Handle) : List (CCall Q × CReply V) → Option M
  | [] => none
  | (.build json _ _, r) :: tr =>
    if r.uuid = some h then
      match env.parse json with
      | .ok j => (env.make j).toOption
      | .error _ => none
    else currentModel env h tr
  | (.free k _ _, _) :: tr => if k = h then none else currentModel env h tr
  | (.query _ _ _ _, _) :: tr => currentModel env h tr

/-- Handles returned to the callers so far. -/
def issued (tr : List (CCall Q × CReply V)) : List Handle := tr.filterMap (fun p => p.2.uuid)

/-- Number of builds in a history. -/
def buildCount (cs : List (CCall Q)) : Nat :=
  cs.countP fun c => match c with
    | .build _ _ _ => true
    | _ => false

/-- The declared buffer length is the true one. -/
def HonestBuf : CCall Q → Prop
  | .build _ buf len => len = buf.length ∧ buf.length < 2 ^ 31
  | .free _ buf len => len = buf.length ∧ buf.length < 2 ^ 31
  | .query _ _ buf len => len = buf.length ∧ buf.length < 2 ^ 31

/-- The abstract table for sequential calls. -/
structure AbsLib (M : Type) where
  count : Nat
  get : Nat → Option M

/-- The sequential meaning of a call. -/
def absStep (env : CEnv J M Q V) (a : AbsLib M) : TCall J Q → AbsLib M × TRes V
  | .build j => match env.make j with
    | .ok m => (⟨a.count + 1, Function.update a.get a.count (some m)⟩, .built (BitVec.ofNat 64 a.count))
    | .error _ => (⟨a.count + 1, a.get⟩, .failed)
  | .free h => (⟨a.count, Function.update a.get h.toNat none⟩, .freed)
  | .query h q => match a.get h.toNat with
    | none => (a, .failed)
    | some m => match env.eval m q with
      | .ok v => (a, .value v)
      | .error _ => (a, .failed)

/-- The results of calls made one after the other in the given order. -/
def absRun (env : CEnv J M Q V) (calls : Nat → TCall J Q) :
    AbsLib M → (Nat → Option (TRes V)) → List Nat → AbsLib M × (Nat → Option (TRes V))
  | a, res, [] => (a, res)
  | a, res, c :: cs =>
    let r := absStep env a (calls c)
    absRun env calls r.1 (Function.update res c (some r.2)) cs

/-- The empty table. -/
def AbsLib.empty (M : Type) : AbsLib M := ⟨0, fun _ => none⟩

end Teqp.Spec
