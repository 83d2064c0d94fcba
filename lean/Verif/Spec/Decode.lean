import Verif.Basic

/-! # What it means to read a value of a document

Stated without reference to the reading functions: `enc` writes a value as a document. -/

set_option autoImplicit false

namespace Teqp.Spec

/-- `dec` reads exactly the documents that `enc` writes, gives back what was written, and raises a JSON error on every other
document. -/
structure Decoder {A J : Type} (enc : A → J) (dec : J → Outcome A) : Prop where
  back : ∀ a, dec (enc a) = .ok a
  refuse : ∀ j, (∀ a, j ≠ enc a) → dec j = .throws .jsonError

/-- The document an optional member of an object stands for: the member if it is there, otherwise the default. -/
def Optional {A J : Type} (enc : A → J) (dflt : A) (m : Option J) (a : A) : Prop :=
  (m = none ∧ a = dflt) ∨ m = some (enc a)

end Teqp.Spec
