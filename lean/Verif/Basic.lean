/-!
# Shared outcome types of the teqp model

`Err` lists the C++ exception classes that the modelled code throws; `Outcome` adds a separate
constructor for undefined behaviour.
-/

set_option autoImplicit false

namespace Teqp

/-- The exception classes thrown by modelled code.  `invalidArgument`, `iterationFailure`,
`invalidValue`, `notImplemented`, `jsonValidation` are the `teqp::*` classes of
`/repo/include/teqp/exceptions.hpp` lines 27-66; the `std*` constructors are the standard library
exceptions the code throws directly or through containers (`at`, `optional::value`).
Messages are not modelled here (the C interface model carries them separately). -/
inductive Err where
  | invalidArgument
  | iterationFailure
  | invalidValue
  | notImplemented
  | jsonValidation
  | stdInvalidArgument
  | stdOutOfRange
  | stdBadOptionalAccess
  | stdBadVariantAccess
  | stdRuntimeError
  | jsonError
  deriving DecidableEq, Repr

/-- The numeric code carried by the `teqp` exception classes
(`/repo/include/teqp/exceptions.hpp` lines 27-66); standard exceptions carry none. -/
def Err.code : Err → Option Nat
  | .invalidArgument => some 1
  | .iterationFailure => some 100
  | .invalidValue => some 101
  | .notImplemented => some 200
  | .jsonValidation => some 300
  | _ => none

/-- Result of running a C++ function: a value, a thrown exception, undefined behaviour
(out-of-bounds access, signed overflow, `std::terminate` through a bare `throw;`), or a floating-point
value that is not finite (division by zero).  The models are over real numbers, so the last case is a
separate constructor, used where the code divides by something that can be exactly zero. -/
inductive Outcome (α : Type) where
  | ok (a : α)
  | throws (e : Err)
  | ub
  | nonFinite
  deriving DecidableEq, Repr

namespace Outcome
variable {α β : Type}

/-- Sequencing: an exception or undefined behaviour ends the computation; a non-finite intermediate
makes the result non-finite. -/
def bind (x : Outcome α) (f : α → Outcome β) : Outcome β :=
  match x with
  | .ok a => f a
  | .throws e => .throws e
  | .ub => .ub
  | .nonFinite => .nonFinite

instance : Monad Outcome where
  pure := .ok
  bind := bind

@[simp] theorem bind_ok (a : α) (f : α → Outcome β) : (Outcome.ok a).bind f = f a := rfl
@[simp] theorem bind_throws (e : Err) (f : α → Outcome β) :
    (Outcome.throws e : Outcome α).bind f = .throws e := rfl
@[simp] theorem bind_ub (f : α → Outcome β) : (Outcome.ub : Outcome α).bind f = .ub := rfl
@[simp] theorem bind_nonFinite (f : α → Outcome β) :
    (Outcome.nonFinite : Outcome α).bind f = .nonFinite := rfl

/-- The computation threw some exception. -/
def isThrow : Outcome α → Bool
  | .throws _ => true
  | _ => false

end Outcome
end Teqp
