import Verif.Spec.Decode
import Verif.Model.Assoc
import Verif.Model.AncBuild
import Verif.Model.Cosmo
import Verif.Model.Holder
import Verif.Model.Components
import Verif.Model.Ideal
import Verif.Lemmas.Outcome
import Mathlib.Tactic

/-! # C164: reading values of documents -/

set_option autoImplicit false

namespace Teqp.Props
open Teqp.Spec Teqp.Model

/-! ## General facts -/

theorem decoder_only {A J : Type} {enc : A → J} {dec : J → Outcome A} (h : Decoder enc dec) {j : J} {a : A} (ha : dec j = .ok a) :
    j = enc a := by
  by_contra hne
  by_cases hall : ∀ b, j ≠ enc b
  · rw [h.refuse j hall] at ha; cases ha
  · push Not at hall
    obtain ⟨b, rfl⟩ := hall
    rw [h.back b, Outcome.ok.injEq] at ha
    exact hne (by rw [ha])

/-- A reader never does anything but return or raise a JSON error. -/
theorem decoder_total {A J : Type} {enc : A → J} {dec : J → Outcome A} (h : Decoder enc dec) (j : J) :
    (∃ a, dec j = .ok a ∧ j = enc a) ∨ dec j = .throws .jsonError := by
  by_cases hall : ∀ b, j ≠ enc b
  · exact Or.inr (h.refuse j hall)
  · push Not at hall
    obtain ⟨b, rfl⟩ := hall
    exact Or.inl ⟨b, h.back b, rfl⟩

/-- Reading the elements one after the other. -/
theorem mapOutcome_decoder {A J : Type} {enc : A → J} {dec : J → Outcome A} (h : Decoder enc dec) :
    Decoder (fun l : List A => l.map enc) (mapOutcome dec) := by
  constructor
  · intro l
    induction l with
    | nil => rfl
    | cons a l ih => rw [List.map_cons, mapOutcome, h.back, Outcome.bind_ok, ih, Outcome.bind_ok]
  · intro l
    induction l with
    | nil => exact fun hn => absurd rfl (hn [])
    | cons j l ih =>
      intro hn
      rw [mapOutcome]
      rcases decoder_total h j with ⟨a, ha, rfl⟩ | hj
      · rw [ha, Outcome.bind_ok, ih fun as has => hn (a :: as) (by rw [has]; rfl)]
        rfl
      · rw [hj]; rfl

/-- An array is read by reading its elements. -/
theorem array_decoder {A : Type} {enc : A → JTree} {dec : JTree → Outcome A} (h : Decoder enc dec) {f : JTree → Outcome (List A)}
    (hf : ∀ xs, f (.arr xs) = mapOutcome dec xs) (hn : ∀ j, (∀ xs, j ≠ .arr xs) → f j = .throws .jsonError) :
    Decoder (fun l : List A => .arr (l.map enc)) f := by
  constructor
  · intro l
    rw [hf]
    exact (mapOutcome_decoder h).back l
  · intro j hj
    by_cases ha : ∀ xs, j ≠ .arr xs
    · exact hn j ha
    · push Not at ha
      obtain ⟨xs, rfl⟩ := ha
      rw [hf]
      exact (mapOutcome_decoder h).refuse xs fun l hl => hj l (by rw [hl])

/-! ## Scalars, arrays and maps -/

/-- **Scalars**: numbers, truth values and texts are read from documents of that kind and from no other; in particular `true` is not
a number and `1` is not a truth value. -/
theorem json_scalars : Decoder JTree.num JTree.toDouble ∧ Decoder JTree.bool JTree.toBool ∧ Decoder JTree.str JTree.toStr ∧
    Decoder JVal.num JVal.toNum ∧ Decoder JVal.arr JVal.toArr := by
  refine ⟨⟨fun _ => rfl, fun j h => ?_⟩, ⟨fun _ => rfl, fun j h => ?_⟩, ⟨fun _ => rfl, fun j h => ?_⟩, ⟨fun _ => rfl, fun j h => ?_⟩,
    ⟨fun _ => rfl, fun j h => ?_⟩⟩ <;> cases j <;> first | rfl | exact absurd rfl (h _)

/-- **Arrays**: an array of numbers, of arrays of numbers, of truth values, of texts is read element by element, and one element of
another kind refuses the whole. -/
theorem json_arrays : Decoder (fun l : List ℝ => JTree.arr (l.map .num)) JTree.toRow ∧
    Decoder (fun l : List (List ℝ) => JTree.arr (l.map fun r => .arr (r.map .num))) JTree.toRows ∧
    Decoder (fun l : List Bool => JTree.arr (l.map .bool)) JTree.toBools ∧
    Decoder (fun l : List String => JTree.arr (l.map .str)) JTree.toStrs := by
  have hrow : Decoder (fun l : List ℝ => JTree.arr (l.map .num)) JTree.toRow :=
    array_decoder json_scalars.1 (fun _ => rfl) fun j h => by cases j <;> first | rfl | exact absurd rfl (h _)
  exact ⟨hrow, array_decoder hrow (fun _ => rfl) fun j h => by cases j <;> first | rfl | exact absurd rfl (h _),
    array_decoder json_scalars.2.1 (fun _ => rfl) fun j h => by cases j <;> first | rfl | exact absurd rfl (h _),
    array_decoder json_scalars.2.2.1 (fun _ => rfl) fun j h => by cases j <;> first | rfl | exact absurd rfl (h _)⟩

/-- **Maps**: the table of the partners is read from an object whose members are arrays of texts. -/
theorem json_map : Decoder (fun l : List (String × List String) => JTree.obj (l.map fun p => (p.1, .arr (p.2.map .str)))) JTree.toStrsMap := by
  have hp : Decoder (fun p : String × List String => (p.1, JTree.arr (p.2.map .str)))
      (fun p : String × JTree => (JTree.toStrs p.2).bind fun l => .ok (p.1, l)) := by
    constructor
    · rintro ⟨s, l⟩
      simp only
      rw [json_arrays.2.2.2.back l, Outcome.bind_ok]
    · rintro ⟨s, j⟩ h
      rw [json_arrays.2.2.2.refuse j fun l hl => h (s, l) (by rw [hl])]
      rfl
  constructor
  · intro l
    exact (mapOutcome_decoder hp).back l
  · intro j h
    cases j with
    | obj fs => exact (mapOutcome_decoder hp).refuse fs fun l hl => h l (by rw [hl])
    | _ => rfl

/-- **Integers**: a number loses its fraction, and — unlike for the other numbers — `true` and `false` are read as one and zero.
Everything else is refused. -/
theorem json_int : (∀ k : ℤ, JTree.toInt (.num k) = .ok k) ∧
    (∀ (x : ℝ) (k : ℤ), 0 ≤ x → (k : ℝ) ≤ x → x < k + 1 → JTree.toInt (.num x) = .ok k) ∧
    (∀ x : ℝ, JTree.toInt (.num (-x)) = ((JTree.toInt (.num x)).bind fun k => .ok (-k))) ∧
    JTree.toInt (.bool true) = .ok 1 ∧ JTree.toInt (.bool false) = .ok 0 ∧
    ∀ j, (∀ x, j ≠ .num x) → (∀ b, j ≠ .bool b) → JTree.toInt j = .throws .jsonError := by
  refine ⟨fun k => by simp [JTree.toInt], fun x k h0 h1 h2 => ?_, fun x => ?_, rfl, rfl, fun j h1 h2 => ?_⟩
  · rw [JTree.toInt, if_pos h0, Int.floor_eq_iff.mpr ⟨h1, h2⟩]
  · simp only [JTree.toInt, Outcome.bind_ok, Outcome.ok.injEq]
    rcases lt_trichotomy x 0 with h | rfl | h
    · rw [if_pos (by linarith), if_neg (by linarith), Int.floor_neg]
    · simp
    · rw [if_neg (by linarith), if_pos h.le, Int.ceil_neg]
  · cases j <;> first | rfl | exact absurd rfl (h1 _) | exact absurd rfl (h2 _)

example : JTree.toRow (.arr [.num 1.5, .num (-2)]) = .ok [1.5, -2] := json_arrays.1.back [1.5, -2]
example : JTree.toRow (.arr [.num 1.5, .bool true]) = .throws .jsonError :=
  json_arrays.1.refuse _ fun l h => by
    match l, h with
    | [], h => cases h
    | [_], h => cases h
    | _ :: _ :: _, h => cases h
example : JTree.toInt (.num (-2.5)) = .ok (-2) := by
  rw [json_int.2.2.1, json_int.2.1 2.5 2 (by norm_num) (by norm_num) (by norm_num)]; rfl
example : JTree.toStrsMap (.obj [("e", .arr [.str "H"]), ("H", .arr [.str "e"])]) = .ok [("e", ["H"]), ("H", ["e"])] :=
  json_map.back [("e", ["H"]), ("H", ["e"])]

/-! ## Members of objects -/

/-- **Required members**: `j.at(key)` followed by a conversion succeeds exactly for objects with that member in the right form, and
raises a JSON error for everything else: a document that is no object, a missing key, a member of another kind. -/
theorem json_required {A : Type} {enc : A → JTree} {dec : JTree → Outcome A} (h : Decoder enc dec) (j : JTree) (k : String) :
    (∀ a, (j.at k).bind dec = .ok a ↔ ∃ fs, j = .obj fs ∧ fs.lookup k = some (enc a)) ∧
    ((∀ a fs, j = .obj fs → fs.lookup k ≠ some (enc a)) → (j.at k).bind dec = .throws .jsonError) := by
  cases j with
  | obj fs =>
    cases hk : fs.lookup k with
    | none => simp [JTree.at, hk]
    | some v =>
      simp only [JTree.at, hk, Outcome.bind_ok, JTree.obj.injEq, exists_eq_left', Option.some.injEq]
      refine ⟨fun a => ⟨fun ha => decoder_only h ha, fun ha => by rw [ha, h.back]⟩, fun hn => h.refuse v fun a ha => hn a fs rfl ?_⟩
      rw [hk, ha]
  | _ => simp [JTree.at]

/-- The same for the objects with numeric members. -/
theorem json_required_flat {A : Type} {enc : A → JVal} {dec : JVal → Outcome A} (h : Decoder enc dec) (o : JObj) (k : String) :
    (∀ a, (o.at k).bind dec = .ok a ↔ o.lookup k = some (enc a)) ∧
    ((∀ a, o.lookup k ≠ some (enc a)) → (o.at k).bind dec = .throws .jsonError) := by
  cases hk : o.lookup k with
  | none => simp [JObj.at, hk]
  | some v =>
    simp only [JObj.at, hk, Outcome.bind_ok, Option.some.injEq]
    exact ⟨fun a => ⟨fun ha => decoder_only h ha, fun ha => by rw [ha, h.back]⟩, fun hn => h.refuse v fun a ha => hn a (by rw [ha])⟩

/-- **Optional members**: `j.value(key, default)` gives the default only when the key is missing from an object; a member of another
kind is not replaced by the default, and a document that is no object is refused.  Both transcriptions of the call. -/
theorem json_optional {A : Type} {enc : A → JTree} {dec : JTree → Outcome A} (h : Decoder enc dec) (dflt : A) (k : String) :
    (∀ fs a, flagValue dec dflt (.obj fs) k = .ok a ↔ Optional enc dflt (fs.lookup k) a) ∧
    (∀ fs a, valueOr (.obj fs) k dec dflt = .ok a ↔ Optional enc dflt (fs.lookup k) a) ∧
    (∀ fs, (∀ a, ¬ Optional enc dflt (fs.lookup k) a) →
      flagValue dec dflt (.obj fs) k = .throws .jsonError ∧ valueOr (.obj fs) k dec dflt = .throws .jsonError) ∧
    (∀ j, (∀ fs, j ≠ .obj fs) → flagValue dec dflt j k = .throws .jsonError ∧ valueOr j k dec dflt = .throws .jsonError) := by
  have hval : ∀ fs, valueOr (.obj fs) k dec dflt = flagValue dec dflt (.obj fs) k := by
    intro fs
    cases hk : fs.lookup k <;> simp [valueOr, flagValue, JTree.contains, JTree.at, hk]
  have h1 : ∀ fs a, flagValue dec dflt (.obj fs) k = .ok a ↔ Optional enc dflt (fs.lookup k) a := by
    intro fs a
    cases hk : fs.lookup k with
    | none =>
      simp only [flagValue, hk, Optional, Outcome.ok.injEq]
      exact ⟨fun e => Or.inl ⟨trivial, e.symm⟩, fun e => e.elim (fun e => e.2.symm) fun e => by cases e⟩
    | some v =>
      simp only [flagValue, hk, Optional, Option.some.injEq]
      exact ⟨fun e => Or.inr (decoder_only h e), fun e => e.elim (fun e => by cases e.1) fun e => by rw [e, h.back]⟩
  have h2 : ∀ fs, (∀ a, ¬ Optional enc dflt (fs.lookup k) a) → flagValue dec dflt (.obj fs) k = .throws .jsonError := by
    intro fs hn
    cases hk : fs.lookup k with
    | none => exact absurd (Or.inl ⟨hk, rfl⟩) (hn dflt)
    | some v =>
      simp only [flagValue, hk]
      exact h.refuse v fun a ha => hn a (Or.inr (by rw [hk, ha]))
  refine ⟨h1, fun fs a => by rw [hval]; exact h1 fs a, fun fs hn => ⟨h2 fs hn, by rw [hval]; exact h2 fs hn⟩, fun j hj => ?_⟩
  cases j with
  | obj fs => exact absurd rfl (hj fs)
  | _ => exact ⟨rfl, rfl⟩

/-- `if (j.contains(key)) j.at(key).get_to(x)` is different: a document that is no object keeps the default. -/
theorem json_get_to (dflt : ℝ) (k : String) :
    (∀ fs a, optDouble (.obj fs) k dflt = .ok a ↔ Optional JTree.num dflt (fs.lookup k) a) ∧
    (∀ fs, (∀ a, ¬ Optional JTree.num dflt (fs.lookup k) a) → optDouble (.obj fs) k dflt = .throws .jsonError) ∧
    (∀ j, (∀ fs, j ≠ .obj fs) → optDouble j k dflt = .ok dflt) := by
  have hflag : ∀ fs, optDouble (.obj fs) k dflt = flagValue JTree.toDouble dflt (.obj fs) k := by
    intro fs
    cases hk : fs.lookup k <;> simp [optDouble, flagValue, JTree.contains, JTree.at, hk]
  obtain ⟨h1, -, h3, -⟩ := json_optional json_scalars.1 dflt k
  refine ⟨fun fs a => by rw [hflag]; exact h1 fs a, fun fs hn => by rw [hflag]; exact (h3 fs hn).1, fun j hj => ?_⟩
  cases j with
  | obj fs => exact absurd rfl (hj fs)
  | _ => rfl

/-- **Sites**: the sites of the molecules are an array of arrays of texts. -/
theorem json_sites (j : JTree) :
    (∀ s, moleculeSites j = .ok s ↔ ∃ fs, j = .obj fs ∧ fs.lookup "molecule_sites" = some (.arr (s.map fun l => .arr (l.map .str)))) ∧
    ((∀ (s : List (List String)) fs, j = .obj fs → fs.lookup "molecule_sites" ≠ some (.arr (s.map fun l => .arr (l.map .str)))) →
      moleculeSites j = .throws .jsonError) :=
  json_required (enc := fun l : List (List String) => JTree.arr (l.map fun l => .arr (l.map .str)))
    (dec := fun v => match v with
      | .arr xs => mapOutcome JTree.toStrs xs
      | _ => .throws .jsonError)
    (array_decoder json_arrays.2.2.2 (fun _ => rfl) fun j h => by cases j <;> first | rfl | exact absurd rfl (h _)) j "molecule_sites"

example : moleculeSites (.obj [("molecule_sites", .arr [.arr [.str "e", .str "H"], .arr []])]) = .ok [["e", "H"], []] :=
  ((json_sites _).1 _).mpr ⟨_, rfl, rfl⟩
example : moleculeSites (.obj [("molecule_sites", .arr [.str "e"])]) = .throws .jsonError := by
  refine (json_sites _).2 fun s fs h hl => ?_
  cases h
  match s, hl with
  | [], hl => simp [List.lookup] at hl
  | _ :: _, hl => simp [List.lookup] at hl
example : flagValue JTree.toDouble 0.01 (.obj [("Theta_nearcrit", .null)]) "Theta_nearcrit" = .throws .jsonError :=
  ((json_optional json_scalars.1 0.01 "Theta_nearcrit").2.2.1 _ fun a h => by
    rcases h with ⟨h, -⟩ | h <;> simp [List.lookup] at h).1
example : optDouble (.arr []) "alpha" 0.5 = .ok 0.5 := (json_get_to 0.5 "alpha").2.2 _ fun fs h => by cases h

/-! ## Elsewhere -/

/-- The kind of an ideal-gas term must be a text: a missing `type` and one of another kind raise JSON errors, an unknown text another
exception. -/
theorem ideal_type_read (o : JObj) :
    ((∀ s, o.lookup "type" ≠ some (.str s)) → parseIdealTerm o = .throws .jsonError) ∧
    (∀ s, o.lookup "type" = some (.str s) → s ∉ ["Constant", "Lead", "LogT", "PowerT", "PlanckEinstein", "PlanckEinsteinGeneralized",
      "GERG2004Cosh", "GERG2004Sinh", "Cp0Constant", "Cp0PowerT"] → parseIdealTerm o = .throws .invalidArgument) := by
  constructor
  · intro h
    rw [parseIdealTerm]
    cases hk : o.lookup "type" with
    | none => simp [JObj.at, hk]
    | some v =>
      cases v with
      | str s => exact absurd hk (h s)
      | _ => simp [JObj.at, hk]
  · intro s hs hn
    rw [parseIdealTerm]
    simp only [JObj.at, hs, Outcome.bind_ok]
    split <;> simp_all

example : parseIdealTerm [("type", .num 1)] = .throws .jsonError :=
  (ideal_type_read _).1 fun s h => by simp [List.lookup] at h
example : parseIdealTerm [("type", .str "lead"), ("a_1", .num 1), ("a_2", .num 2)] = .throws .invalidArgument :=
  (ideal_type_read _).2 "lead" rfl (by decide)

/-- A component that is no text and is found in no other way ends in a JSON error or in the error of the alias table. -/
theorem alias_needs_text {J : Type} (fs : FS J) (root : Option String) (st : Option AliasMap) (c : Comp J) (hc : ∀ s, c ≠ .str s) :
    (root = none ∨ st ≠ none → aliasBranch fs root st c = .throws .jsonError) ∧
    (∀ r m, aliasMapOf fs r = .ok m → aliasBranch fs (some r) none c = .throws .jsonError) := by
  constructor
  · intro h
    cases st <;> cases root <;> cases c <;> simp_all [aliasBranch]
  · intro r m hm
    cases c <;> simp_all [aliasBranch, buildForComp, Outcome.bind]

example {J : Type} (fs : FS J) : aliasBranch fs none none (.other : Comp J) = .throws .jsonError :=
  (alias_needs_text fs none none .other (by intro s h; cases h)).1 (Or.inl rfl)

/-- An index past the end of an array, unless it is enormous, makes a null element whose members do not exist. -/
theorem array_past_end (n idx : ℕ) (h : n ≤ idx) (hs : idx + 1 < 2 ^ 59) : jsonArrayIndex n idx = .throws .jsonError := by
  rw [jsonArrayIndex, if_neg (by omega), if_neg, if_neg (by omega)]
  rw [Nat.mod_eq_of_lt (by omega)]
  omega

example : jsonArrayIndex 2 2 = .throws .jsonError := array_past_end 2 2 le_rfl (by norm_num)

end Teqp.Props
