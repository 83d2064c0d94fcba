import Verif.Model.Holder
import Verif.Lemmas.Outcome
import Mathlib.Tactic

/-! # C131: models behind the abstract interface -/

set_option autoImplicit false

namespace Teqp.Props
open Teqp.Model

variable {τ V : Type} [DecidableEq τ]

/-- C131. Typed read access: for a model put behind the interface as its own copy or as a view, asking for the class it
has returns the model, asking for any other class raises `InvalidArgument`, and so does a null pointer.  An owned model is
the value at the time of the call whatever happens to the original afterwards; a view follows the original and must not be
used after it is gone. -/
theorem holder_cref (σ : ObjStore τ V) (T C : τ) (v : V) (loc : Nat) :
    (getModelCref σ T (some (makeOwned C v)) = if C = T then .ok v else .throws .invalidArgument) ∧
    (∀ w, σ loc = some (C, w) → getModelCref σ T (some (makeCview C loc)) = if C = T then .ok w else .throws .invalidArgument) ∧
    (σ loc = none → getModelCref σ C (some (makeCview C loc)) = .ub) ∧
    getModelCref σ T (none : Option (Adapter τ V)) = .throws .invalidArgument := by
  refine ⟨?_, ?_, ?_, rfl⟩
  · by_cases h : C = T <;> simp [getModelCref, makeOwned, Adapter.read, h]
  · intro w hw
    by_cases h : C = T <;> simp [getModelCref, makeCview, Adapter.read, h, hw]
  · intro h
    simp [getModelCref, makeCview, Adapter.read, h]

/-- C131. Mutable access is documented as available for owned models, but is refused for every model that can be made with
`make_owned` or `make_cview`, whatever class is asked for. -/
theorem holder_ref_never (T C : τ) (v : V) (loc : Nat) :
    getModelRef T (some (makeOwned C v)) = .throws .invalidArgument ∧
    getModelRef T (some (makeCview C loc : Adapter τ V)) = .throws .invalidArgument ∧
    getModelRef T (none : Option (Adapter τ V)) = .throws .invalidArgument :=
  ⟨rfl, rfl, rfl⟩

/-- C131. What holds of mutable access: it succeeds exactly for an adapter whose holder owns a model of the class asked
for that is not `const`. -/
theorem holder_ref_partial (T : τ) (a b : Adapter τ V) :
    getModelRef T (some a) = .ok b ↔ a = b ∧ a.kind = .owner false ∧ a.cls = T := by
  unfold getModelRef
  simp only
  split_ifs with h
  · simp [h]
  · constructor
    · intro h'; simp at h'
    · rintro ⟨_, h'⟩; exact absurd h' h

example : ∃ a : Adapter String Nat, getModelRef "vdW" (some a) = .ok a :=
  ⟨⟨.owner false, "vdW", .copy 3⟩, (holder_ref_partial _ _ _).2 ⟨rfl, rfl, rfl⟩⟩

/-- C131. So the Python method `set_meta` fails on every model. -/
theorem holder_set_meta_fails (setMeta : V → String → V) (T : τ) (v : V) (s : String) :
    pySetMeta setMeta T (makeOwned T v) s = .throws .invalidArgument := rfl

example : getModelCref (fun _ => none) "vdW" (some (makeOwned "vdW" 3)) = .ok 3 ∧
    pySetMeta (fun v _ => v + 1) "vdW" (makeOwned "vdW" 3) "{}" = .throws .invalidArgument := ⟨rfl, rfl⟩

/-- C132. The fluid chosen for Python ancillaries: an index `0 ≤ i < N` gives that fluid, `i ≥ N` is refused with
`InvalidArgument`, and without an index only a pure fluid is accepted. -/
theorem holder_ancillary_index_partial (N : Nat) (h2 : N < 2 ^ 31) (i : Int) (hi : 0 ≤ i) :
    (i < N → pyAncillaryIndex N (some i) = .ok i.toNat) ∧
    (N ≤ i → pyAncillaryIndex N (some i) = .throws .invalidArgument) ∧
    pyAncillaryIndex N none = if N = 1 then .ok 0 else .throws .invalidArgument := by
  refine ⟨fun h => ?_, fun h => ?_, ?_⟩
  · unfold pyAncillaryIndex
    have e : i % 2 ^ 64 = i := Int.emod_eq_of_lt hi (by omega)
    simp only [Option.isNone_some, Bool.false_eq_true, false_and, if_false, Option.getD_some, e]
    rw [if_neg (by omega), jsonArrayIndex, if_pos (by omega)]
  · unfold pyAncillaryIndex
    simp only [Option.isNone_some, Bool.false_eq_true, false_and, if_false, Option.getD_some]
    rw [if_pos (by omega)]
  · unfold pyAncillaryIndex
    by_cases h : N = 1
    · subst h; rfl
    · simp [h]

/-- C132. Negative indices are not refused: `-1` has undefined behaviour for every model, and a smaller one asks for an
array that cannot be allocated. -/
theorem holder_ancillary_negative (N : Nat) (h2 : N < 2 ^ 31) (i : Int) (h1 : -2 ^ 31 ≤ i) (h0 : i < 0) :
    pyAncillaryIndex N (some i) = if i = -1 then .ub else .throws .stdOutOfRange := by
  have e : (i % 2 ^ 64).toNat = 2 ^ 64 - i.natAbs := by omega
  unfold pyAncillaryIndex
  simp only [Option.isNone_some, Bool.false_eq_true, false_and, if_false, Option.getD_some, e]
  rw [if_neg (by omega), jsonArrayIndex, if_neg (by omega)]
  by_cases h : i = -1
  · subst h; rfl
  · rw [if_neg h, if_neg (by omega), if_pos (by omega)]

example : pyAncillaryIndex 2 (some (-1)) = .ub ∧ pyAncillaryIndex 2 (some 1) = .ok 1 ∧
    pyAncillaryIndex 2 (some 2) = .throws .invalidArgument := by decide +kernel

end Teqp.Props
