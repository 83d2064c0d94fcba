import Verif.Model.Schema
import Verif.Lemmas.Outcome
import Verif.Props.Factory

/-! # What a valid document contains -/

set_option autoImplicit false

namespace Teqp.Lemmas
open Teqp.Model Teqp.Props

theorem mem_of_lookup {α : Type} {k : String} {v : α} : ∀ {fs : List (String × α)}, fs.lookup k = some v → (k, v) ∈ fs
  | [], h => by simp at h
  | (k', w) :: fs, h => by
    by_cases hk : k = k'
    · subst hk
      simp at h
      simp [h]
    · rw [List.lookup_cons, beq_eq_false_iff_ne.mpr hk] at h
      exact List.mem_cons_of_mem _ (mem_of_lookup h)

theorem lookup_of_mem {α : Type} {k : String} {v : α} : ∀ {fs : List (String × α)}, (fs.map Prod.fst).Nodup → (k, v) ∈ fs → fs.lookup k = some v
  | [], _, h => by simp at h
  | (k', w) :: fs, hn, h => by
    rw [List.map_cons, List.nodup_cons] at hn
    rcases List.mem_cons.mp h with h | h
    · cases h
      simp
    · have hk : k ≠ k' := fun e => hn.1 (by rw [← e]; exact List.mem_map.mpr ⟨_, h, rfl⟩)
      rw [List.lookup_cons, beq_eq_false_iff_ne.mpr hk]
      exact lookup_of_mem hn.2 h

theorem sObject_obj {props : List (String × JSchema)} {req : List String} {j : JTree} (h : sObject props req j = true) :
    ∃ fs, j = .obj fs ∧ (∀ k v, fs.lookup k = some v → ∃ s, props.lookup k = some s ∧ s v = true) ∧ ∀ k ∈ req, (fs.lookup k).isSome := by
  cases j with
  | obj fs =>
    simp only [sObject, Bool.and_eq_true, List.all_eq_true] at h
    refine ⟨fs, rfl, fun k v hv => ?_, h.2⟩
    have := h.1 _ (mem_of_lookup hv)
    simp only at this
    split at this
    · rename_i s hs
      exact ⟨s, hs, this⟩
    · cases this
  | _ => simp [sObject] at h

theorem sObject_required {props : List (String × JSchema)} {req : List String} {j : JTree} (h : sObject props req j = true) {k : String}
    (hk : k ∈ req) {s : JSchema} (hs : props.lookup k = some s) : ∃ v, j.at k = .ok v ∧ j.contains k = true ∧ s v = true := by
  obtain ⟨fs, rfl, hv, hr⟩ := sObject_obj h
  obtain ⟨v, e⟩ := Option.isSome_iff_exists.mp (hr k hk)
  obtain ⟨s', hs', hsv⟩ := hv k v e
  rw [hs] at hs'
  cases hs'
  exact ⟨v, by simp [JTree.at, e], by simp [JTree.contains, e], hsv⟩

theorem sObject_optional {props : List (String × JSchema)} {req : List String} {j : JTree} (h : sObject props req j = true) (k : String)
    {s : JSchema} (hs : props.lookup k = some s) :
    j.contains k = false ∨ ∃ v, j.at k = .ok v ∧ j.contains k = true ∧ s v = true := by
  obtain ⟨fs, rfl, hv, -⟩ := sObject_obj h
  cases e : fs.lookup k with
  | none => exact Or.inl (by simp [JTree.contains, e])
  | some v =>
    obtain ⟨s', hs', hsv⟩ := hv k v e
    rw [hs] at hs'
    cases hs'
    exact Or.inr ⟨v, by simp [JTree.at, e], by simp [JTree.contains, e], hsv⟩

theorem sObject_unknown {props : List (String × JSchema)} {req : List String} {j : JTree} (h : sObject props req j = true) {k : String}
    (hs : props.lookup k = none) : j.contains k = false := by
  obtain ⟨fs, rfl, hv, -⟩ := sObject_obj h
  cases e : fs.lookup k with
  | none => simp [JTree.contains, e]
  | some v =>
    obtain ⟨s', hs', -⟩ := hv k v e
    rw [hs] at hs'
    cases hs'

/-- An object is valid when the entries that may occur are and those that must occur do. -/
theorem sObject_intro {props : List (String × JSchema)} {req : List String} {fs : List (String × JTree)}
    (hp : ∀ p ∈ fs, ∃ s, props.lookup p.1 = some s ∧ s p.2 = true) (hr : ∀ k ∈ req, (fs.lookup k).isSome) :
    sObject props req (.obj fs) = true := by
  simp only [sObject, Bool.and_eq_true, List.all_eq_true]
  refine ⟨fun p hm => ?_, hr⟩
  obtain ⟨s, e, hs⟩ := hp p hm
  simp [e, hs]

theorem sNumber_num {v : JTree} (h : sNumber v = true) : ∃ x, v = .num x := by
  cases v <;> simp [sNumber] at h ⊢

theorem sString_str {v : JTree} (h : sString v = true) : ∃ x, v = .str x := by
  cases v <;> simp [sString] at h ⊢

theorem sEnum_str {vs : List String} {v : JTree} (h : sEnum vs v = true) : ∃ x ∈ vs, v = .str x := by
  cases v with
  | str s => exact ⟨s, by simpa [sEnum] using h, rfl⟩
  | _ => simp [sEnum] at h

theorem sArray_arr {s : JSchema} {v : JTree} (h : sArray s v = true) : ∃ xs, v = .arr xs ∧ ∀ x ∈ xs, s x = true := by
  cases v with
  | arr xs => exact ⟨xs, rfl, by simpa [sArray] using h⟩
  | _ => simp [sArray] at h

theorem sTuple_arr {n : ℕ} {s : JSchema} {v : JTree} (h : sTuple n s v = true) : sArray s v = true ∧ v.size = n := by
  cases v with
  | arr xs => simpa [sTuple, sArray, JTree.size] using h
  | _ => simp [sTuple] at h

theorem sOrNull_cases {s : JSchema} {v : JTree} (h : sOrNull s v = true) : s v = true ∨ v = .null := by
  simp only [sOrNull, sAnyOf, List.any_cons, List.any_nil, Bool.or_false, Bool.or_eq_true] at h
  rcases h with h | h
  · exact Or.inl h
  · cases v <;> simp [sNull] at h ⊢

theorem sNumbers_row {v : JTree} (h : sArray sNumber v = true) : ∃ l : List ℝ, v = .arr (l.map .num) ∧ v.toRow = .ok l := by
  obtain ⟨xs, rfl, hx⟩ := sArray_arr h
  have key : ∃ l : List ℝ, xs = l.map .num := by
    clear h
    induction xs with
    | nil => exact ⟨[], rfl⟩
    | cons a xs ih =>
      obtain ⟨x, rfl⟩ := sNumber_num (hx a (by simp))
      obtain ⟨l, rfl⟩ := ih fun x hm => hx x (by simp [hm])
      exact ⟨x :: l, rfl⟩
  obtain ⟨l, rfl⟩ := key
  exact ⟨l, rfl, (toRow_ok _ _).mpr rfl⟩

theorem sNumbers_of_row {v : JTree} {l : List ℝ} (h : v.toRow = .ok l) : sArray sNumber v = true := by
  rw [(toRow_ok _ _).mp h]
  simp [sArray, sNumber]

theorem sMatrix_rows {v : JTree} (h : sMatrix v = true) : ∃ m, v.toRows = .ok m := by
  obtain ⟨xs, rfl, hx⟩ := sArray_arr h
  have key : ∃ m : List (List ℝ), xs = m.map fun r => .arr (r.map .num) := by
    clear h
    induction xs with
    | nil => exact ⟨[], rfl⟩
    | cons a xs ih =>
      obtain ⟨x, rfl, -⟩ := sNumbers_row (hx a (by simp))
      obtain ⟨l, rfl⟩ := ih fun x hm => hx x (by simp [hm])
      exact ⟨x :: l, rfl⟩
  obtain ⟨m, rfl⟩ := key
  exact ⟨m, (toRows_ok _ _).mpr rfl⟩

theorem sMatrix_of_rows {v : JTree} {m : List (List ℝ)} (h : v.toRows = .ok m) : sMatrix v = true := by
  rw [(toRows_ok _ _).mp h]
  simp [sMatrix, sArray, sNumber]

theorem sStrings_strs {v : JTree} (h : sArray sString v = true) : ∃ l, v.toStrs = .ok l := by
  obtain ⟨xs, rfl, hx⟩ := sArray_arr h
  clear h
  change ∃ l, mapOutcome JTree.toStr xs = .ok l
  induction xs with
  | nil => exact ⟨[], rfl⟩
  | cons a xs ih =>
    obtain ⟨x, rfl⟩ := sString_str (hx a (by simp))
    obtain ⟨l, e⟩ := ih fun x hm => hx x (by simp [hm])
    exact ⟨x :: l, by simp [mapOutcome, JTree.toStr, e]⟩

theorem numAt_valid {props : List (String × JSchema)} {req : List String} {j : JTree} (h : sObject props req j = true) {k : String}
    (hk : k ∈ req) (hs : props.lookup k = some sNumber) : ∃ x, numAt k j = .ok x := by
  obtain ⟨v, e, -, hv⟩ := sObject_required h hk hs
  obtain ⟨x, rfl⟩ := sNumber_num hv
  exact ⟨x, by simp [numAt, e, JTree.toDouble]⟩

theorem strAt_valid {props : List (String × JSchema)} {req : List String} {j : JTree} (h : sObject props req j = true) {k : String}
    (hk : k ∈ req) (hs : props.lookup k = some sString) : ∃ x, (j.at k).bind JTree.toStr = .ok x := by
  obtain ⟨v, e, -, hv⟩ := sObject_required h hk hs
  obtain ⟨x, rfl⟩ := sString_str hv
  exact ⟨x, by simp [e, JTree.toStr]⟩

theorem rowAt_valid {props : List (String × JSchema)} {req : List String} {j : JTree} (h : sObject props req j = true) {k : String}
    (hk : k ∈ req) (hs : props.lookup k = some (sArray sNumber)) : ∃ x, rowAt j k = .ok x := by
  obtain ⟨v, e, -, hv⟩ := sObject_required h hk hs
  obtain ⟨x, -, hx⟩ := sNumbers_row hv
  exact ⟨x, by simp [rowAt, e, hx]⟩

end Teqp.Lemmas
