import Verif.Lemmas.Schema

/-! # C155, C156: what validation of a document against its schema guarantees -/

set_option autoImplicit false

namespace Teqp.Props
open Teqp.Model Teqp.Lemmas

/-! ## Specification -/

/-- What a user passes to `build_model_ptr`. -/
def modelDoc (kind : String) (spec : JTree) : JTree := .obj [("kind", .str kind), ("model", spec)]

/-- The table of the factory makes a kind with the function `f`, whatever then wraps the model. -/
def Makes {M α : Type} (r : Registry M) (kind : String) (f : JTree → Outcome α) : Prop :=
  ∃ wrap : α → M, r kind = some fun j => (f j).bind fun m => .ok (wrap m)

/-- No key occurs twice in an object. -/
def UniqueKeys (j : JTree) : Prop := ∀ fs, j = .obj fs → (fs.map Prod.fst).Nodup

/-- An object has no other keys. -/
def OnlyKeys (j : JTree) (ks : List String) : Prop := ∀ fs, j = .obj fs → ∀ p ∈ fs, p.1 ∈ ks

/-- The user gets a model or is told in the terms of the library what is wrong; no exception of the JSON library escapes and nothing is read
outside an array. -/
def Answered {M : Type} (o : Outcome M) : Prop :=
  (∃ m, o = .ok m) ∨ o = .throws .jsonValidation ∨ o = .throws .invalidArgument ∨ o = .throws .stdInvalidArgument

theorem Answered.ok {M : Type} (m : M) : Answered (.ok m) := Or.inl ⟨m, rfl⟩
theorem Answered.bind {α M : Type} {o : Outcome α} {f : α → Outcome M} (h : Answered o) (hf : ∀ a, o = .ok a → Answered (f a)) :
    Answered (o.bind f) := by
  rcases h with ⟨a, rfl⟩ | rfl | rfl | rfl
  · exact hf a rfl
  · exact Or.inr (Or.inl rfl)
  · exact Or.inr (Or.inr (Or.inl rfl))
  · exact Or.inr (Or.inr (Or.inr rfl))

theorem Answered.of_ok {M : Type} {o : Outcome M} (h : ∃ m, o = .ok m) : Answered o := Or.inl h

theorem Answered.mapM {α β : Type} {f : α → Outcome β} {l : List α} (h : ∀ a ∈ l, Answered (f a)) : Answered (mapOutcome f l) := by
  induction l with
  | nil => exact Answered.ok _
  | cons a l ih =>
    exact (h a (by simp)).bind fun b _ => (ih fun a ha => h a (by simp [ha])).bind fun bs _ => Answered.ok _

/-! ## The call with validation -/

section
variable {M α : Type} {r : Registry M} {kind : String} {f : JTree → Outcome α} {s : JSchema}

theorem validated_eq (wrap : α → M) (hw : r kind = some fun j => (f j).bind fun m => .ok (wrap m)) (spec : JTree) :
    buildModelPtr r modelSchema (modelDoc kind spec) true =
      match modelSchema kind with
      | some s => if s spec then (f spec).bind fun m => .ok (wrap m) else .throws .jsonValidation
      | none => (f spec).bind fun m => .ok (wrap m) := by
  have h1 : (modelDoc kind spec).at "kind" = .ok (.str kind) := rfl
  have h2 : (modelDoc kind spec).at "model" = .ok spec := rfl
  have h3 : (modelDoc kind spec).contains "validate" = false := rfl
  simp only [buildModelPtr, h1, h2, h3, JTree.toStr, Outcome.bind_ok, hw]
  rfl

/-- A document that its schema does not admit is refused. -/
theorem validated_refused (hr : Makes r kind f) (hs : modelSchema kind = some s) {spec : JTree} (h : s spec = false) :
    buildModelPtr r modelSchema (modelDoc kind spec) true = .throws .jsonValidation := by
  obtain ⟨wrap, hw⟩ := hr
  rw [validated_eq wrap hw, hs]
  simp [h]

/-- For a document that its schema admits the factory decides, and so it does for a kind without schema. -/
theorem validated_admitted (hr : Makes r kind f) {spec : JTree} (h : ∀ s, modelSchema kind = some s → s spec = true) :
    ∃ wrap : α → M, buildModelPtr r modelSchema (modelDoc kind spec) true = (f spec).bind fun m => .ok (wrap m) := by
  obtain ⟨wrap, hw⟩ := hr
  refine ⟨wrap, ?_⟩
  rw [validated_eq wrap hw]
  split
  · rename_i s hs
    rw [h s hs]
    rfl
  · rfl

/-- From a factory that answers for the admitted documents to the call with validation. -/
theorem validated_answers (hr : Makes r kind f) (hs : modelSchema kind = some s) (spec : JTree) (h : s spec = true → Answered (f spec)) :
    Answered (buildModelPtr r modelSchema (modelDoc kind spec) true) := by
  by_cases hv : s spec = true
  · obtain ⟨wrap, e⟩ := validated_admitted hr (spec := spec) (fun s' hs' => by rw [hs] at hs'; cases hs'; exact hv)
    rw [e]
    exact (h hv).bind fun m _ => Answered.ok _
  · rw [validated_refused hr hs (by simpa using hv)]
    exact Or.inr (Or.inl rfl)

/-- And to a model. -/
theorem validated_builds (hr : Makes r kind f) (hs : modelSchema kind = some s) {spec : JTree} (hv : s spec = true)
    (h : ∃ m, f spec = .ok m) : ∃ m, buildModelPtr r modelSchema (modelDoc kind spec) true = .ok m := by
  obtain ⟨wrap, e⟩ := validated_admitted hr (spec := spec) (fun s' hs' => by rw [hs] at hs'; cases hs'; exact hv)
  obtain ⟨m, hm⟩ := h
  exact ⟨wrap m, by rw [e, hm]; rfl⟩

/-- And to the same failure. -/
theorem validated_fails (hr : Makes r kind f) (hs : modelSchema kind = some s) {spec : JTree} (hv : s spec = true) {e : Err}
    (h : f spec = .throws e) : buildModelPtr r modelSchema (modelDoc kind spec) true = .throws e := by
  obtain ⟨wrap, e'⟩ := validated_admitted hr (spec := spec) (fun s' hs' => by rw [hs] at hs'; cases hs'; exact hv)
  rw [e', h]
  rfl

theorem validated_ub (hr : Makes r kind f) (hs : modelSchema kind = some s) {spec : JTree} (hv : s spec = true) (h : f spec = .ub) :
    buildModelPtr r modelSchema (modelDoc kind spec) true = .ub := by
  obtain ⟨wrap, e'⟩ := validated_admitted hr (spec := spec) (fun s' hs' => by rw [hs] at hs'; cases hs'; exact hv)
  rw [e', h]
  rfl
end

/-! ## Kinds with numbers and arrays only -/

theorem at_obj {k : String} {j v : JTree} (h : j.at k = .ok v) : ∃ fs, j = .obj fs ∧ fs.lookup k = some v := by
  cases j with
  | obj gs =>
    refine ⟨gs, rfl, ?_⟩
    simp only [JTree.at] at h
    split at h
    · rename_i w e
      cases h
      exact e
    · cases h
  | _ => simp [JTree.at] at h

theorem lookup_isSome_of_mem {α : Type} {k : String} : ∀ {ps : List (String × α)}, k ∈ ps.map Prod.fst → (ps.lookup k).isSome
  | [], h => by simp at h
  | (k', w) :: fs, h => by
    by_cases hk : k = k'
    · subst hk
      simp
    · rw [List.lookup_cons, beq_eq_false_iff_ne.mpr hk]
      refine lookup_isSome_of_mem ?_
      simpa [hk] using h

/-- When an object without repeated keys is valid. -/
theorem sObject_exact {props : List (String × JSchema)} {req : List String} {j : JTree} (hu : UniqueKeys j) :
    sObject props req j = true ↔ (∃ fs, j = .obj fs) ∧ OnlyKeys j (props.map Prod.fst) ∧ (∀ k ∈ req, ∃ v, j.at k = .ok v) ∧
      ∀ k v s, j.at k = .ok v → props.lookup k = some s → s v = true := by
  constructor
  · intro h
    obtain ⟨fs, rfl, hv, hr⟩ := sObject_obj h
    refine ⟨⟨fs, rfl⟩, ?_, fun k hk => ?_, fun k v s e hs => ?_⟩
    · rintro _ ⟨⟩ p hp
      obtain ⟨s, hs, -⟩ := hv _ _ (lookup_of_mem (hu fs rfl) (show (p.1, p.2) ∈ fs from hp))
      exact List.mem_map.mpr ⟨_, mem_of_lookup hs, rfl⟩
    · obtain ⟨v, e⟩ := Option.isSome_iff_exists.mp (hr k hk)
      exact ⟨v, by simp only [JTree.at, e]⟩
    · obtain ⟨_, h1, e⟩ := at_obj e
      cases h1
      obtain ⟨s', hs', h⟩ := hv k v e
      rw [hs] at hs'
      cases hs'
      exact h
  · rintro ⟨⟨fs, rfl⟩, ho, hr, hv⟩
    refine sObject_intro (fun p hp => ?_) fun k hk => ?_
    · obtain ⟨s, hs⟩ := Option.isSome_iff_exists.mp (lookup_isSome_of_mem (ho fs rfl p hp))
      refine ⟨s, hs, hv p.1 p.2 s ?_ hs⟩
      simp only [JTree.at, lookup_of_mem (hu fs rfl) (show (p.1, p.2) ∈ fs from hp)]
    · obtain ⟨v, e⟩ := hr k hk
      obtain ⟨_, h1, e⟩ := at_obj e
      cases h1
      rw [e]
      rfl

/-- The keys that a table of properties has, as a finite case distinction. -/
theorem lookup_props {α : Type} {k : String} {s : α} {props : List (String × α)} (h : props.lookup k = some s) : (k, s) ∈ props := mem_of_lookup h

theorem numAt_schema_iff {k : String} {j : JTree} : (∃ x, numAt k j = .ok x) ↔ ∃ v, j.at k = .ok v ∧ sNumber v = true := by
  constructor
  · rintro ⟨x, h⟩
    obtain ⟨v, e, hv⟩ := Outcome.bind_eq_ok.mp h
    refine ⟨v, e, ?_⟩
    cases v <;> simp [JTree.toDouble] at hv ⊢
    rfl
  · rintro ⟨v, e, hv⟩
    obtain ⟨x, rfl⟩ := sNumber_num hv
    exact ⟨x, by simp [numAt, e, JTree.toDouble]⟩

theorem rowAt_iff {k : String} {j : JTree} : (∃ x, rowAt j k = .ok x) ↔ ∃ v, j.at k = .ok v ∧ sArray sNumber v = true := by
  constructor
  · rintro ⟨x, h⟩
    obtain ⟨v, e, hv⟩ := Outcome.bind_eq_ok.mp h
    exact ⟨v, e, sNumbers_of_row hv⟩
  · rintro ⟨v, e, hv⟩
    obtain ⟨x, -, hx⟩ := sNumbers_row hv
    exact ⟨x, by simp [rowAt, e, hx]⟩

/-- **The schema of `vdW1` admits exactly the documents without foreign keys that the factory turns into a model.** -/
theorem vdW1_schema_exact (j : JTree) (hu : UniqueKeys j) :
    schemaVdW1 j = true ↔ OnlyKeys j ["a", "b"] ∧ ∃ m, vdW1Factory j = .ok m := by
  constructor
  · intro h
    obtain ⟨x, hx⟩ := numAt_valid h (k := "a") (by simp) (by simp)
    obtain ⟨y, hy⟩ := numAt_valid h (k := "b") (by simp) rfl
    exact ⟨((sObject_exact hu).mp h).2.1, (x, y), by simp [vdW1Factory, hx, hy]⟩
  · rintro ⟨ho, m, hm⟩
    obtain ⟨x, hx, hm⟩ := Outcome.bind_eq_ok.mp hm
    obtain ⟨y, hy, -⟩ := Outcome.bind_eq_ok.mp hm
    obtain ⟨u, eu, hu'⟩ := numAt_schema_iff.mp ⟨x, hx⟩
    obtain ⟨w, ew, hw'⟩ := numAt_schema_iff.mp ⟨y, hy⟩
    obtain ⟨fs, hfs, -⟩ := at_obj eu
    refine (sObject_exact hu).mpr ⟨⟨fs, hfs⟩, ho, by simp [eu, ew], fun k v s e hs => ?_⟩
    have := lookup_props hs
    simp only [List.mem_cons, Prod.mk.injEq, List.not_mem_nil, or_false] at this
    rcases this with ⟨rfl, rfl⟩ | ⟨rfl, rfl⟩
    · rw [eu] at e; cases e; exact hu'
    · rw [ew] at e; cases e; exact hw'

example : schemaVdW1 (.obj [("a", .num 1), ("b", .num 2)]) = true ∧ schemaVdW1 (.obj [("a", .num 1), ("b", .str "x")]) = false ∧
    schemaVdW1 (.obj [("a", .num 1), ("b", .num 2), ("c", .num 2)]) = false := by
  refine ⟨?_, ?_, ?_⟩ <;> rfl

/-- **The same for the kinds with a single number**, `SW_EspindolaHeredia2009`, `EXP6_Kataoka1992` and `Mie_Pohl2023`. -/
theorem one_schema_exact (key : String) (j : JTree) (hu : UniqueKeys j) :
    schemaOne key j = true ↔ OnlyKeys j [key] ∧ ∃ m, oneFactory key j = .ok m := by
  constructor
  · intro h
    exact ⟨((sObject_exact hu).mp h).2.1, numAt_valid h (k := key) (by simp) (by simp)⟩
  · rintro ⟨ho, m, hm⟩
    obtain ⟨u, eu, hu'⟩ := numAt_schema_iff.mp ⟨m, hm⟩
    obtain ⟨fs, hfs, -⟩ := at_obj eu
    refine (sObject_exact hu).mpr ⟨⟨fs, hfs⟩, ho, by simp [eu], fun k v s e hs => ?_⟩
    have := lookup_props hs
    simp only [List.mem_cons, Prod.mk.injEq, List.not_mem_nil, or_false] at this
    obtain ⟨rfl, rfl⟩ := this
    rw [eu] at e; cases e; exact hu'

example : schemaOne "lambda" (.obj [("lambda", .num 1.5)]) = true ∧ schemaOne "lambda" (.obj [("lambda", .arr [])]) = false := ⟨rfl, rfl⟩

theorem rowAt_json (j : JTree) (k : String) : (∃ l, rowAt j k = .ok l) ∨ rowAt j k = .throws .jsonError := by
  unfold rowAt
  cases e : j.at k with
  | ok v => exact toRow_json v
  | throws x =>
    right
    cases j <;> simp only [JTree.at] at e
    case obj fs => split at e <;> cases e; rfl
    all_goals cases e; rfl
  | ub => cases j <;> simp only [JTree.at] at e <;> first | cases e | (split at e <;> cases e)
  | nonFinite => cases j <;> simp only [JTree.at] at e <;> first | cases e | (split at e <;> cases e)

/-- **The schema of `vdW` admits exactly the documents without foreign keys that the factory can read**; arrays of different lengths pass it and
are refused by the model. -/
theorem vdW_schema_exact (j : JTree) (hu : UniqueKeys j) :
    schemaVdW j = true ↔ OnlyKeys j ["Tcrit / K", "pcrit / Pa"] ∧ ((∃ m, vdWFactory j = .ok m) ∨ vdWFactory j = .throws .invalidArgument) := by
  constructor
  · intro h
    obtain ⟨x, hx⟩ := rowAt_valid h (k := "Tcrit / K") (by simp) (by simp)
    obtain ⟨y, hy⟩ := rowAt_valid h (k := "pcrit / Pa") (by simp) rfl
    refine ⟨((sObject_exact hu).mp h).2.1, ?_⟩
    simp only [vdWFactory, hx, hy, Outcome.bind_ok, vdWCtor]
    split
    · exact Or.inr rfl
    · exact Or.inl ⟨_, rfl⟩
  · rintro ⟨ho, hm⟩
    have hx : ∃ x, rowAt j "Tcrit / K" = .ok x := by
      rcases rowAt_json j "Tcrit / K" with h | h
      · exact h
      · simp [vdWFactory, h] at hm
    have hy : ∃ x, rowAt j "pcrit / Pa" = .ok x := by
      rcases rowAt_json j "pcrit / Pa" with h | h
      · exact h
      · obtain ⟨x, hx⟩ := hx
        simp [vdWFactory, h, hx] at hm
    obtain ⟨u, eu, hu'⟩ := rowAt_iff.mp hx
    obtain ⟨w, ew, hw'⟩ := rowAt_iff.mp hy
    obtain ⟨fs, hfs, -⟩ := at_obj eu
    refine (sObject_exact hu).mpr ⟨⟨fs, hfs⟩, ho, by simp [eu, ew], fun k v s e hs => ?_⟩
    have := lookup_props hs
    simp only [List.mem_cons, Prod.mk.injEq, List.not_mem_nil, or_false] at this
    rcases this with ⟨rfl, rfl⟩ | ⟨rfl, rfl⟩
    · rw [eu] at e; cases e; exact hu'
    · rw [ew] at e; cases e; exact hw'

example : schemaVdW (.obj [("Tcrit / K", .arr [.num 150, .num 190]), ("pcrit / Pa", .arr [.num 5e6])]) = true ∧
    vdWFactory (.obj [("Tcrit / K", .arr [.num 150, .num 190]), ("pcrit / Pa", .arr [.num 5e6])]) = .throws .invalidArgument := ⟨rfl, rfl⟩

theorem toStr_valid {j : JTree} {vs : List String} {k : String} {v : JTree} (e : j.at k = .ok v) (h : sEnum vs v = true) :
    ∃ s ∈ vs, (j.at k).bind JTree.toStr = .ok s := by
  obtain ⟨s, hs, rfl⟩ := sEnum_str h
  exact ⟨s, hs, by rw [e]; rfl⟩

theorem twoCenter_reads (kind key : String) (hk : (kind = "2CLJF-Dipole" ∧ key = "(mu^*)^2") ∨ (kind = "2CLJF-Quadrupole" ∧ key = "(Q^*)^2")) (j : JTree) :
    (∃ m, twoCenterFactory kind j = .ok m) ↔ (∃ v, j.at "author" = .ok v ∧ sEnum ["2CLJF_Mecke", "2CLJF_Lisal"] v = true) ∧
      (∃ L, numAt "L^*" j = .ok L) ∧ ∃ q, numAt key j = .ok q := by
  constructor
  · rintro ⟨m, hm⟩
    obtain ⟨name, hn, hm⟩ := Outcome.bind_eq_ok.mp hm
    obtain ⟨L, hL, hm⟩ := Outcome.bind_eq_ok.mp hm
    obtain ⟨v, ev, hv⟩ := Outcome.bind_eq_ok.mp hn
    cases v <;> simp [JTree.toStr] at hv
    subst hv
    have key2 : ∀ n : String, ∀ g : TwoCenter → Outcome TwoCenterModel, (TwoCenter.ofName n).bind g = .ok m → sEnum ["2CLJF_Mecke", "2CLJF_Lisal"] (.str n) = true := by
      intro n g hg
      unfold TwoCenter.ofName at hg
      split_ifs at hg with h1 h2
      · subst h1; rfl
      · subst h2; rfl
      · cases hg
    rcases hk with ⟨rfl, rfl⟩ | ⟨rfl, rfl⟩
    · rw [if_neg (by decide), if_pos rfl] at hm
      obtain ⟨q, hq, hm⟩ := Outcome.bind_eq_ok.mp hm
      exact ⟨⟨_, ev, key2 _ _ hm⟩, ⟨L, hL⟩, q, hq⟩
    · rw [if_neg (by decide), if_neg (by decide)] at hm
      obtain ⟨q, hq, hm⟩ := Outcome.bind_eq_ok.mp hm
      exact ⟨⟨_, ev, key2 _ _ hm⟩, ⟨L, hL⟩, q, hq⟩
  · rintro ⟨⟨v, ev, hv⟩, ⟨L, hL⟩, q, hq⟩
    obtain ⟨s, hs, e⟩ := toStr_valid ev hv
    have h1 : ∃ w, TwoCenter.ofName s = .ok w := by
      simp only [List.mem_cons, List.not_mem_nil, or_false] at hs
      rcases hs with rfl | rfl
      · exact ⟨.mecke, rfl⟩
      · exact ⟨.lisal, rfl⟩
    obtain ⟨w, hw⟩ := h1
    unfold numAt at hL hq
    rcases hk with ⟨rfl, rfl⟩ | ⟨rfl, rfl⟩
    · refine ⟨⟨w, .dipole, L, q⟩, ?_⟩
      simp only [twoCenterFactory, e, hL, hq, Outcome.bind_ok, twoCenterDipole, hw]
      rfl
    · refine ⟨⟨w, .quadrupole, L, q⟩, ?_⟩
      simp only [twoCenterFactory, e, hL, hq, Outcome.bind_ok, twoCenterQuadrupole, hw]
      rfl

/-- **The schemas of the two-center fluids with a dipole or quadrupole are exact.** -/
theorem twoCenter_schema_exact (kind key : String) (hk : (kind = "2CLJF-Dipole" ∧ key = "(mu^*)^2") ∨ (kind = "2CLJF-Quadrupole" ∧ key = "(Q^*)^2"))
    (j : JTree) (hu : UniqueKeys j) :
    schemaTwoCenter key j = true ↔ OnlyKeys j ["author", "L^*", key] ∧ ∃ m, twoCenterFactory kind j = .ok m := by
  rw [twoCenter_reads kind key hk]
  have hne : key ≠ "author" ∧ key ≠ "L^*" := by rcases hk with ⟨-, rfl⟩ | ⟨-, rfl⟩ <;> decide
  constructor
  · intro h
    refine ⟨((sObject_exact hu).mp h).2.1, ?_, ?_, ?_⟩
    · obtain ⟨v, e, -, hv⟩ := sObject_required h (k := "author") (by simp) rfl
      exact ⟨v, e, hv⟩
    · exact numAt_valid h (k := "L^*") (by simp) rfl
    · refine numAt_valid h (k := key) (by simp) ?_
      rw [List.lookup_cons, beq_eq_false_iff_ne.mpr hne.1]
      simp only
      rw [List.lookup_cons, beq_eq_false_iff_ne.mpr hne.2]
      simp
  · rintro ⟨ho, ⟨v, ev, hv⟩, hL, hq⟩
    obtain ⟨u, eu, hu'⟩ := numAt_schema_iff.mp hL
    obtain ⟨w, ew, hw'⟩ := numAt_schema_iff.mp hq
    obtain ⟨fs, hfs, -⟩ := at_obj eu
    refine (sObject_exact hu).mpr ⟨⟨fs, hfs⟩, ho, by simp [eu, ew, ev], fun k v' s e hs => ?_⟩
    have := lookup_props hs
    simp only [List.mem_cons, Prod.mk.injEq, List.not_mem_nil, or_false] at this
    rcases this with ⟨rfl, rfl⟩ | ⟨rfl, rfl⟩ | ⟨rfl, rfl⟩
    · rw [ev] at e; cases e; exact hv
    · rw [eu] at e; cases e; exact hu'
    · rw [ew] at e; cases e; exact hw'

example : schemaTwoCenter "(mu^*)^2" (.obj [("author", .str "2CLJF_Lisal"), ("L^*", .num 0.5), ("(mu^*)^2", .num 3)]) = true ∧
    schemaTwoCenter "(mu^*)^2" (.obj [("author", .str "Lisal"), ("L^*", .num 0.5), ("(mu^*)^2", .num 3)]) = false := ⟨rfl, rfl⟩

/-! ## Cubic equations of state -/

/-- The arrays of pressures and acentric factors are at least as long as that of temperatures. -/
def LongEnough (j : JTree) : Prop :=
  ∀ Tc pc w, rowAt j "Tcrit / K" = .ok Tc → rowAt j "pcrit / Pa" = .ok pc → rowAt j "acentric" = .ok w → Tc.length ≤ pc.length ∧ Tc.length ≤ w.length

theorem catchJson_answered {α : Type} {o : Outcome α} (h : Answered o ∨ o = .throws .jsonError) : Answered (catchJson o) := by
  rcases h with (⟨a, rfl⟩ | rfl | rfl | rfl) | rfl
  · exact Answered.ok a
  · exact Or.inr (Or.inl rfl)
  · exact Or.inr (Or.inr (Or.inl rfl))
  · exact Or.inr (Or.inr (Or.inr rfl))
  · exact Or.inr (Or.inr (Or.inl rfl))

theorem copyRows_answered (n : ℕ) (m : List (List ℝ)) : ∀ (i : ℕ) (v : ℕ → ℕ → ℝ), Answered (copyRows n i m v) := by
  induction m with
  | nil => exact fun i v => Answered.ok _
  | cons r m ih =>
    intro i v
    rw [copyRows]
    split_ifs
    · exact Or.inr (Or.inr (Or.inr rfl))
    · exact ih _ _

theorem buildSquareMatrix_answered (j : JTree) : Answered (buildSquareMatrix j) := by
  have key : Answered (catchJson (j.toRows.bind fun m => (copyRows m.length 0 m (fun _ _ => 0)).bind fun v => .ok (⟨m.length, v⟩ : SqMat))) := by
    refine catchJson_answered ?_
    rcases toRows_json j with ⟨m, e⟩ | e
    · left
      rw [e]
      exact (copyRows_answered _ _ _ _).bind fun v _ => Answered.ok _
    · right
      rw [e]
      rfl
  unfold buildSquareMatrix
  split
  · exact Answered.ok _
  · exact Answered.ok _
  · exact key

theorem optEntry_answered {α : Type} {j : JTree} {k : String} {conv : JTree → Outcome α} (h : ∀ v, j.at k = .ok v → Answered (conv v)) :
    Answered (optEntry j k conv) := by
  unfold optEntry
  split_ifs with hc
  · cases j with
    | obj fs =>
      simp only [JTree.contains] at hc
      obtain ⟨v, e⟩ := Option.isSome_iff_exists.mp hc
      have e' : (JTree.obj fs).at k = .ok v := by simp only [JTree.at, e]
      rw [e']
      exact (h v e').bind fun a _ => Answered.ok _
    | _ => simp [JTree.contains] at hc
  · exact Answered.ok _

theorem checkKmat_answered (k : Mat) (n : ℕ) : Answered (checkKmat k n) := by
  unfold checkKmat
  split_ifs
  · exact Or.inr (Or.inr (Or.inl rfl))
  · exact Answered.ok _
  · exact Or.inr (Or.inr (Or.inl rfl))
  · exact Answered.ok _

theorem cubicCtor_answered (d1 d2 oA oB : ℝ) (Tc pc : List ℝ) (al : List AlphaFn) (k : Mat) (R : ℝ) (h : Tc.length ≤ pc.length) :
    Answered (cubicCtor d1 d2 oA oB Tc pc al k R) := by
  unfold cubicCtor
  rw [if_neg (by omega)]
  exact (checkKmat_answered _ _).bind fun _ _ => Answered.ok _

theorem canonicalFactory_answered (pr : Bool) (j : JTree) (hT : ∃ x, rowAt j "Tcrit / K" = .ok x) (hp : ∃ x, rowAt j "pcrit / Pa" = .ok x)
    (hw : ∃ x, rowAt j "acentric" = .ok x) (hl : LongEnough j) : Answered (canonicalFactory pr j) := by
  obtain ⟨Tc, hT⟩ := hT
  obtain ⟨pc, hp⟩ := hp
  obtain ⟨w, hw⟩ := hw
  obtain ⟨h1, h2⟩ := hl Tc pc w hT hp hw
  unfold canonicalFactory
  rw [hT, hp, hw]
  refine (optEntry_answered fun v _ => buildSquareMatrix_answered v).bind fun k _ => ?_
  cases pr
  · change Answered (canonicalSRK_RT _ _ _ _ _)
    unfold canonicalSRK_RT
    rw [if_neg (by omega)]
    exact cubicCtor_answered _ _ _ _ _ _ _ _ _ h1
  · change Answered (canonicalPR_RT _ _ _ _ _)
    unfold canonicalPR_RT
    rw [if_neg (by omega)]
    exact cubicCtor_answered _ _ _ _ _ _ _ _ _ h1

theorem schemaPR_rows {j : JTree} (h : schemaPR j = true) :
    (∃ x, rowAt j "Tcrit / K" = .ok x) ∧ (∃ x, rowAt j "pcrit / Pa" = .ok x) ∧ ∃ x, rowAt j "acentric" = .ok x :=
  ⟨rowAt_valid h (k := "Tcrit / K") (by simp) rfl, rowAt_valid h (k := "pcrit / Pa") (by simp) rfl, rowAt_valid h (k := "acentric") (by simp) rfl⟩

/-- **No document that the factory of `PR` understands and that has no foreign keys is refused by its schema.** -/
theorem PR_schema_complete (j : JTree) (hu : UniqueKeys j) (ho : OnlyKeys j ["Tcrit / K", "pcrit / Pa", "acentric", "kmat"]) {m : CubicRT}
    (hm : canonicalFactory true j = .ok m) : schemaPR j = true := by
  obtain ⟨Tc, hT, hm⟩ := Outcome.bind_eq_ok.mp hm
  obtain ⟨pc, hp, hm⟩ := Outcome.bind_eq_ok.mp hm
  obtain ⟨w, hw, hm⟩ := Outcome.bind_eq_ok.mp hm
  obtain ⟨k, hk, -⟩ := Outcome.bind_eq_ok.mp hm
  obtain ⟨u1, e1, h1⟩ := rowAt_iff.mp ⟨Tc, hT⟩
  obtain ⟨u2, e2, h2⟩ := rowAt_iff.mp ⟨pc, hp⟩
  obtain ⟨u3, e3, h3⟩ := rowAt_iff.mp ⟨w, hw⟩
  obtain ⟨fs, hfs, -⟩ := at_obj e1
  refine (sObject_exact hu).mpr ⟨⟨fs, hfs⟩, ho, by simp [e1, e2, e3], fun key v s e hs => ?_⟩
  have := lookup_props hs
  simp only [List.mem_cons, Prod.mk.injEq, List.not_mem_nil, or_false] at this
  rcases this with ⟨rfl, rfl⟩ | ⟨rfl, rfl⟩ | ⟨rfl, rfl⟩ | ⟨rfl, rfl⟩
  · rw [e1] at e; cases e; exact h1
  · rw [e2] at e; cases e; exact h2
  · rw [e3] at e; cases e; exact h3
  · unfold optEntry at hk
    obtain ⟨fs', hj, hl⟩ := at_obj e
    have hc : j.contains "kmat" = true := by rw [hj]; simp only [JTree.contains, hl]; rfl
    rw [if_pos hc, e] at hk
    obtain ⟨M, hM, -⟩ := Outcome.bind_eq_ok.mp hk
    rw [Outcome.bind_ok] at hM
    cases v with
    | null => rfl
    | arr xs =>
      cases xs with
      | nil => rfl
      | cons a xs =>
        simp only [buildSquareMatrix] at hM
        rcases toRows_json (.arr (a :: xs)) with ⟨m, e⟩ | e
        · have := sMatrix_of_rows e
          simp [sOrNull, sAnyOf, this]
        · rw [e] at hM
          simp [catchJson] at hM
    | _ => simp [buildSquareMatrix, JTree.toRows, catchJson] at hM

example : ∃ m, canonicalFactory true (.obj [("Tcrit / K", .arr [.num 150]), ("pcrit / Pa", .arr [.num 5e6]), ("acentric", .arr [.num 0]),
    ("kmat", .null)]) = .ok m := ⟨_, by
  simp only [canonicalFactory, rowAt, JTree.at, List.lookup_cons]
  rfl⟩

end Teqp.Props
