import Verif.Props.GERGMix

/-! # The names of the components of the GERG models: C104 -/

set_option autoImplicit false

namespace Teqp.Spec
open Model

/-- The components of GERG-2004 under the names used by the library. -/
def gergPublished04 : List (String × GFluid) :=
  [("methane", .methane), ("nitrogen", .nitrogen), ("carbondioxide", .carbonDioxide), ("ethane", .ethane), ("propane", .propane), ("n-butane", .nButane),
    ("isobutane", .isobutane), ("n-pentane", .nPentane), ("isopentane", .isopentane), ("n-hexane", .nHexane), ("n-heptane", .nHeptane), ("n-octane", .nOctane),
    ("hydrogen", .hydrogen), ("oxygen", .oxygen), ("carbonmonoxide", .carbonMonoxide), ("water", .water), ("helium", .helium), ("argon", .argon)]

/-- GERG-2008 adds three components. -/
def gergPublished : GVer → List (String × GFluid)
  | .v2004 => gergPublished04
  | .v2008 => gergPublished04 ++ [("hydrogensulfide", .hydrogenSulfide), ("n-nonane", .nNonane), ("n-decane", .nDecane)]

end Teqp.Spec

namespace Teqp.Props
open Model Spec

theorem gerg_published_iff (v : GVer) (s : String) (f : GFluid) : (s, f) ∈ gergPublished v ↔ f.name = s ∧ f ∈ gergComponents v := by
  constructor
  · intro h
    have key : ∀ v ∈ [GVer.v2004, .v2008], ∀ p ∈ gergPublished v, p.2.name = p.1 ∧ p.2 ∈ gergComponents v := by decide +kernel
    exact key v (by cases v <;> simp) (s, f) h
  · rintro ⟨rfl, h⟩
    have key : ∀ v ∈ [GVer.v2004, .v2008], ∀ f ∈ gergComponents v, (f.name, f) ∈ gergPublished v := by decide +kernel
    exact key v (by cases v <;> simp) f h

/-- C104. A pure fluid is built exactly for the names of the components of the version, from the data of that component; every other name is refused. -/
theorem gerg_single_names (v : GVer) (s : String) :
    (∀ f, (s, f) ∈ gergPublished v → gergBuild v (fun _ : Fin 1 => s) = .ok (gergMixOf v fun _ => f)) ∧
    ((∀ f, (s, f) ∉ gergPublished v) → gergBuild v (fun _ : Fin 1 => s) = .throws .stdInvalidArgument) := by
  constructor
  · intro f hf
    exact gerg_build_ok v _ _ ⟨fun _ => (gerg_published_iff v s f).mp hf, fun a b _ => Subsingleton.elim a b⟩
  · intro h
    refine gerg_build_refused v _ fun fl hfl => h (fl 0) ?_
    exact (gerg_published_iff v s (fl 0)).mpr (hfl.1 0)

example : gergBuild .v2008 (fun _ : Fin 1 => "n-heptane") = .ok (gergMixOf .v2008 fun _ => .nHeptane) :=
  (gerg_single_names _ _).1 _ (by decide)

example : gergBuild .v2004 (fun _ : Fin 1 => "n-decane") = .throws .stdInvalidArgument :=
  (gerg_single_names _ _).2 fun f => by cases f <;> decide +kernel

end Teqp.Props
