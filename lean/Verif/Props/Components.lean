import Verif.Model.Components
import Verif.Lemmas.Outcome
import Verif.Props.Reducing

/-! # C30, C31: identifiers and component names -/

set_option autoImplicit false

namespace Teqp.Props
open Teqp Teqp.Model Teqp.Outcome

/-! ## C30 -/

theorem optAt_clean {α : Type} (x : Option α) : Clean (optAt x) := by
  cases x
  · exact Clean.throws _
  · exact Clean.ok _

theorem hashPass_clean (a b : String) (l : List BIPEntry) : Clean (hashPass a b l) := by
  induction l with
  | nil => exact Clean.ok _
  | cons el els ih =>
    unfold hashPass
    split
    · exact ih
    · refine (optAt_clean _).bind fun h1 _ => (optAt_clean _).bind fun h2 _ => ?_
      split
      · exact Clean.ok _
      · exact ih

theorem namePass_clean (a b : String) (l : List BIPEntry) : Clean (namePass a b l) := by
  induction l with
  | nil => exact Clean.ok _
  | cons el els ih =>
    unfold namePass
    refine (optAt_clean _).bind fun h1 _ => (optAt_clean _).bind fun h2 _ => ?_
    split
    · exact Clean.ok _
    · exact ih

theorem casPass_clean (a b : String) (l : List BIPEntry) : Clean (casPass a b l) := by
  induction l with
  | nil => exact Clean.ok _
  | cons el els ih =>
    unfold casPass
    refine (optAt_clean _).bind fun h1 _ => (optAt_clean _).bind fun h2 _ => ?_
    split
    · exact Clean.ok _
    · exact ih

theorem estimate_clean (s : Option String) : Clean (estimateBIP s) := by
  unfold estimateBIP
  split
  · exact Clean.throws _
  · exact Clean.ok _
  · exact Clean.throws _

theorem getBIPdep_clean (col : List BIPEntry) (a b : String) (flags : BIPFlags) : Clean (getBIPdep col a b flags) := by
  unfold getBIPdep
  split
  · exact estimate_clean _
  · refine (hashPass_clean _ _ _).bind fun r _ => ?_
    cases r with
    | some r => exact Clean.ok _
    | none =>
      refine (namePass_clean _ _ _).bind fun r _ => ?_
      cases r with
      | some r => exact Clean.ok _
      | none =>
        refine (casPass_clean _ _ _).bind fun r _ => ?_
        cases r with
        | some r => exact Clean.ok _
        | none =>
          simp only
          split
          · exact estimate_clean _
          · exact Clean.throws _

/-- All pairs of a list of identifiers are found in the collection. -/
def Resolvable (col : List BIPEntry) (flags : BIPFlags) (ids : List String) : Prop :=
  ids.Pairwise fun a b => ∃ r, getBIPdep col a b flags = .ok r

theorem tryRow_spec (col : List BIPEntry) (flags : BIPFlags) (a : String) (l : List String) :
    Clean (tryRow col flags a l) ∧
    ((∃ u, tryRow col flags a l = .ok u) ↔ ∀ b ∈ l, ∃ r, getBIPdep col a b flags = .ok r) := by
  induction l with
  | nil => exact ⟨Clean.ok _, by simp [tryRow]⟩
  | cons b rest ih =>
    unfold tryRow
    refine ⟨(getBIPdep_clean _ _ _ _).bind fun _ _ => ih.1, ?_⟩
    simp only [bind_eq_ok, List.mem_cons, forall_eq_or_imp, ← ih.2]
    constructor
    · rintro ⟨u, r, h1, h2⟩; exact ⟨⟨r, h1⟩, u, h2⟩
    · rintro ⟨⟨r, h1⟩, u, h2⟩; exact ⟨u, r, h1, h2⟩

theorem tryPairs_spec (col : List BIPEntry) (flags : BIPFlags) (l : List String) :
    Clean (tryPairs col flags l) ∧ ((∃ u, tryPairs col flags l = .ok u) ↔ Resolvable col flags l) := by
  induction l with
  | nil => exact ⟨Clean.ok _, by simp [tryPairs, Resolvable]⟩
  | cons a rest ih =>
    unfold tryPairs
    refine ⟨(tryRow_spec _ _ _ _).1.bind fun _ _ => ih.1, ?_⟩
    unfold Resolvable at ih ⊢
    simp only [bind_eq_ok, List.pairwise_cons, ← ih.2, ← (tryRow_spec _ _ _ _).2]
    constructor
    · rintro ⟨u, r, h1, h2⟩; exact ⟨⟨r, h1⟩, u, h2⟩
    · rintro ⟨⟨r, h1⟩, u, h2⟩; exact ⟨u, r, h1, h2⟩

/-- C30. The chosen identifier is the first one of the list for which all pairs are found; if there is none the
model is refused. -/
theorem select_identifier_first (col : List BIPEntry) (flags : BIPFlags) (set : List (String × List String)) :
    (∃ pre key ids post, set = pre ++ (key, ids) :: post ∧ (∀ p ∈ pre, ¬ Resolvable col flags p.2) ∧
      Resolvable col flags ids ∧ selectIdentifier col flags set = .ok key) ∨
    ((∀ p ∈ set, ¬ Resolvable col flags p.2) ∧ selectIdentifier col flags set = .throws .stdInvalidArgument) := by
  induction set with
  | nil => exact Or.inr ⟨by simp, rfl⟩
  | cons p rest ih =>
    obtain ⟨key, ids⟩ := p
    obtain ⟨hc, hr⟩ := tryPairs_spec col flags ids
    rcases hc with ⟨u, hu⟩ | ⟨e, he⟩
    · left
      refine ⟨[], key, ids, rest, rfl, by simp, hr.mp ⟨u, hu⟩, ?_⟩
      rw [selectIdentifier, hu]
    · have hn : ¬ Resolvable col flags ids := fun h => by
        obtain ⟨u, hu⟩ := hr.mpr h
        rw [hu] at he; cases he
      have hs : selectIdentifier col flags ((key, ids) :: rest) = selectIdentifier col flags rest := by
        rw [selectIdentifier, he]
      rw [hs]
      rcases ih with ⟨pre, k, i, post, h1, h2, h3, h4⟩ | ⟨h1, h2⟩
      · left
        refine ⟨(key, ids) :: pre, k, i, post, by rw [h1]; rfl, ?_, h3, h4⟩
        intro q hq
        rcases List.mem_cons.mp hq with rfl | hq
        · exact hn
        · exact h2 q hq
      · right
        refine ⟨?_, h2⟩
        intro q hq
        rcases List.mem_cons.mp hq with rfl | hq
        · exact hn
        · exact h1 q hq

/-- C30 for a list of fluids: CAS numbers are preferred, then names, then REFPROP names, then hashes. -/
theorem identifier_choice (col : List BIPEntry) (flags : BIPFlags) (l : List FluidInfo) :
    let R := Resolvable col flags
    let res := selectIdentifier col flags (collectIdentifiers l)
    (R (l.map (·.cas)) → res = .ok "CAS") ∧
    (¬ R (l.map (·.cas)) → R (l.map (·.name)) → res = .ok "Name") ∧
    (¬ R (l.map (·.cas)) → ¬ R (l.map (·.name)) → R (l.map (·.refprop)) → res = .ok "REFPROP") ∧
    (¬ R (l.map (·.cas)) → ¬ R (l.map (·.name)) → ¬ R (l.map (·.refprop)) →
      (∀ hs, l.map (·.hash) = hs.map some → (R hs → res = .ok "hash") ∧ (¬ R hs → res = .throws .stdInvalidArgument)) ∧
      ((∃ f ∈ l, f.hash = none) → res = .throws .stdInvalidArgument)) := by
  intro R res
  have hstep : ∀ (key : String) (ids : List String) (rest : List (String × List String)),
      (R ids → selectIdentifier col flags ((key, ids) :: rest) = .ok key) ∧
      (¬ R ids → selectIdentifier col flags ((key, ids) :: rest) = selectIdentifier col flags rest) := by
    intro key ids rest
    obtain ⟨hc, hr⟩ := tryPairs_spec col flags ids
    rcases hc with ⟨u, hu⟩ | ⟨e, he⟩
    · exact ⟨fun _ => by rw [selectIdentifier, hu], fun h => absurd (hr.mp ⟨u, hu⟩) h⟩
    · refine ⟨fun h => ?_, fun _ => by rw [selectIdentifier, he]⟩
      obtain ⟨u, hu⟩ := hr.mpr h
      rw [hu] at he; cases he
  have hres : res = selectIdentifier col flags (("CAS", l.map (·.cas)) :: ("Name", l.map (·.name)) ::
    ("REFPROP", l.map (·.refprop)) ::
      (if (l.filterMap (·.hash)).length = l.length then [("hash", l.filterMap (·.hash))] else [])) := rfl
  refine ⟨fun h => ?_, fun h1 h => ?_, fun h1 h2 h => ?_, fun h1 h2 h3 => ⟨fun hs hhs => ?_, ?_⟩⟩
  · rw [hres]; exact (hstep _ _ _).1 h
  · rw [hres, (hstep _ _ _).2 h1]; exact (hstep _ _ _).1 h
  · rw [hres, (hstep _ _ _).2 h1, (hstep _ _ _).2 h2]; exact (hstep _ _ _).1 h
  · have he : l.filterMap (·.hash) = hs := by
      have : l.filterMap (·.hash) = (l.map (·.hash)).filterMap id := by rw [List.filterMap_map]; rfl
      rw [this, hhs, List.filterMap_map]
      exact List.filterMap_some
    have hlen : hs.length = l.length := by
      have := congrArg List.length hhs
      simpa using this.symm
    rw [hres, (hstep _ _ _).2 h1, (hstep _ _ _).2 h2, (hstep _ _ _).2 h3, he, if_pos hlen]
    exact ⟨fun h => (hstep _ _ _).1 h, fun h => (hstep _ _ _).2 h⟩
  · rintro ⟨f, hf, hn⟩
    have hlt : (l.filterMap (·.hash)).length ≠ l.length := by
      intro he
      have := List.filterMap_length_eq_length.mp he f hf
      rw [hn] at this
      cases this
    rw [hres, (hstep _ _ _).2 h1, (hstep _ _ _).2 h2, (hstep _ _ _).2 h3, if_neg hlt]
    rfl

theorem up_1 : "1".toUpper = "1" := by decide +kernel
theorem up_2 : "2".toUpper = "2" := by decide +kernel

theorem sample_unresolved : getBIPdep [sampleBIP] "1" "2" {} = .throws .stdInvalidArgument := by
  unfold getBIPdep
  simp only [Bool.false_eq_true, if_false, up_1, up_2]
  unfold hashPass namePass casPass
  simp [sampleBIP, optAt, up_m, orderedMatch, hashPass, namePass, casPass]

/-- CAS numbers that are not in the collection: the names are used. -/
example : selectIdentifier [sampleBIP] {} (collectIdentifiers [⟨"e", "1", "x", none, []⟩, ⟨"M", "2", "y", none, []⟩]) =
    .ok "Name" := by
  refine (identifier_choice [sampleBIP] {} _).2.1 ?_ ?_
  · intro h
    obtain ⟨r, hr⟩ := (List.pairwise_cons.mp h).1 "2" (by simp)
    have : getBIPdep [sampleBIP] "1" "2" {} = .ok r := hr
    rw [sample_unresolved] at this
    cases this
  · refine List.pairwise_cons.mpr ⟨?_, by simp⟩
    intro b hb
    have : b = "M" := by simpa using hb
    subst this
    exact ⟨_, sample_lookup⟩

/-! ## C31: the alias map -/

theorem get?_append (m : AliasMap) (k : String) (q : String × String) :
    AliasMap.get? (m ++ [q]) k = match AliasMap.get? m k with
      | some v => some v
      | none => if q.1 = k then some q.2 else none := by
  unfold AliasMap.get?
  rw [List.find?_append]
  cases h : m.find? (fun x => decide (x.1 = k)) with
  | some v => simp
  | none => by_cases hq : q.1 = k <;> simp [hq]

theorem addKeys_ok (path : String) (ks : List String) (m m' : AliasMap) (h : addKeys path ks m = .ok m') :
    ∀ k v, m'.get? k = some v ↔ m.get? k = some v ∨ (k ∈ ks ∧ v = path) := by
  induction ks generalizing m with
  | nil => cases h; simp
  | cons a ks ih =>
    rw [addKeys] at h
    cases ha : m.get? a with
    | some v => rw [ha] at h; cases h
    | none =>
      rw [ha] at h
      intro k v
      rw [ih _ h k v, get?_append]
      by_cases hk : a = k
      · subst hk
        rw [ha]
        simp only [if_true, Option.some.injEq, List.mem_cons, true_or, true_and, reduceCtorEq, false_or]
        constructor
        · rintro (h | h)
          · exact h.symm
          · exact h.2
        · intro h; exact Or.inl h.symm
      · have hk' : ¬ k = a := fun e => hk e.symm
        cases hm : m.get? k <;> simp [hk, hk']

/-- The names that a fluid answers to: its name, CAS number, REFPROP name (`N/A` is none) and aliases. -/
def AnswersTo (f : FluidInfo) (k : String) : Prop :=
  k = f.name ∨ k = f.cas ∨ (k = f.refprop ∧ k ≠ "N/A") ∨ (k ∈ f.aliases ∧ k ≠ f.refprop)

instance (f : FluidInfo) (k : String) : Decidable (AnswersTo f k) := by unfold AnswersTo; infer_instance

theorem mem_aliasKeys (f : FluidInfo) (k : String) : k ∈ aliasKeys f ↔ AnswersTo f k := by
  unfold aliasKeys AnswersTo
  by_cases h : f.refprop = f.name ∨ f.refprop = "N/A"
  · rw [if_pos h]
    simp only [List.append_nil, List.mem_append, List.mem_cons, List.not_mem_nil, or_false, List.mem_filter,
      decide_eq_true_eq]
    constructor
    · rintro ((h1 | h1) | ⟨h1, h2, h3⟩)
      · exact Or.inl h1
      · exact Or.inr (Or.inl h1)
      · exact Or.inr (Or.inr (Or.inr ⟨h1, h2⟩))
    · rintro (h1 | h1 | ⟨h1, h2⟩ | ⟨h1, h2⟩)
      · exact Or.inl (Or.inl h1)
      · exact Or.inl (Or.inr h1)
      · rcases h with h | h
        · exact Or.inl (Or.inl (h1.trans h))
        · exact absurd (h1.trans h) h2
      · by_cases h3 : k = f.name
        · exact Or.inl (Or.inl h3)
        · exact Or.inr ⟨h1, h2, h3⟩
  · rw [if_neg h]
    push Not at h
    simp only [List.mem_append, List.mem_cons, List.not_mem_nil, or_false, List.mem_filter, decide_eq_true_eq]
    constructor
    · rintro (((h1 | h1) | h1) | ⟨h1, h2, h3⟩)
      · exact Or.inl h1
      · exact Or.inr (Or.inl h1)
      · exact Or.inr (Or.inr (Or.inl ⟨h1, by rw [h1]; exact h.2⟩))
      · exact Or.inr (Or.inr (Or.inr ⟨h1, h2⟩))
    · rintro (h1 | h1 | ⟨h1, h2⟩ | ⟨h1, h2⟩)
      · exact Or.inl (Or.inl (Or.inl h1))
      · exact Or.inl (Or.inl (Or.inr h1))
      · exact Or.inl (Or.inr h1)
      · by_cases h3 : k = f.name
        · exact Or.inl (Or.inl (Or.inl h3))
        · exact Or.inr ⟨h1, h2, h3⟩

/-- Every name that a file of the folder answers to leads to that file, and every name in the map comes
from a file. -/
theorem alias_map_spec (files : List (String × FluidInfo)) (m : AliasMap) (h : buildAliasMap files = .ok m)
    (k path : String) : m.get? k = some path ↔ ∃ f, (path, f) ∈ files ∧ AnswersTo f k := by
  simp only [← mem_aliasKeys]
  have gen : ∀ (l : List (String × FluidInfo)) (a b : AliasMap), addFiles l a = .ok b →
      (b.get? k = some path ↔ a.get? k = some path ∨ ∃ f, (path, f) ∈ l ∧ k ∈ aliasKeys f) := by
    intro l
    induction l with
    | nil => intro a b h; cases h; simp
    | cons p rest ih =>
      intro a b h
      obtain ⟨q, f⟩ := p
      rw [addFiles, bind_eq_ok] at h
      obtain ⟨c, hc, hb⟩ := h
      rw [ih c b hb, addKeys_ok _ _ _ _ hc]
      simp only [List.mem_cons, Prod.mk.injEq]
      constructor
      · rintro ((h | ⟨h1, h2⟩) | ⟨g, h1, h2⟩)
        · exact Or.inl h
        · exact Or.inr ⟨f, Or.inl ⟨h2, rfl⟩, h1⟩
        · exact Or.inr ⟨g, Or.inr h1, h2⟩
      · rintro (h | ⟨g, ⟨h1, h2⟩ | h1, h3⟩)
        · exact Or.inl (Or.inl h)
        · subst h1 h2; exact Or.inl (Or.inr ⟨h3, rfl⟩)
        · exact Or.inr ⟨g, h1, h3⟩
  have := gen files [] m h
  simpa [AliasMap.get?] using this

/-- C31. The alias map is refused when two names coincide, be it in two files or in one. -/
theorem alias_map_iff (files : List (String × FluidInfo)) :
    (∃ m, buildAliasMap files = .ok m) ↔ (files.flatMap fun p => aliasKeys p.2).Nodup := by
  have keys : ∀ (path : String) (ks : List String) (a : AliasMap),
      (∃ b, addKeys path ks a = .ok b ∧ b.map (·.1) = a.map (·.1) ++ ks) ∨ (∃ k ∈ ks, (addKeys path ks a) = .throws .stdInvalidArgument) := by
    intro path ks
    induction ks with
    | nil => intro a; left; exact ⟨a, rfl, by simp⟩
    | cons k ks ih =>
      intro a
      rw [addKeys]
      cases hk : a.get? k with
      | some v => right; exact ⟨k, by simp, rfl⟩
      | none =>
        rcases ih (a ++ [(k, path)]) with ⟨b, h1, h2⟩ | ⟨k', h1, h2⟩
        · left; exact ⟨b, h1, by rw [h2]; simp⟩
        · right; exact ⟨k', by simp [h1], h2⟩
  have hmem : ∀ (a : AliasMap) (k : String), a.get? k = none ↔ k ∉ a.map (·.1) := by
    intro a k
    unfold AliasMap.get?
    simp only [Option.map_eq_none_iff, List.find?_eq_none, decide_eq_true_eq, List.mem_map, not_exists, not_and]
  have kiff : ∀ (path : String) (ks : List String) (a : AliasMap), (a.map (·.1)).Nodup →
      ((∃ b, addKeys path ks a = .ok b) ↔ (a.map (·.1) ++ ks).Nodup) := by
    intro path ks
    induction ks with
    | nil => intro a ha; simp [addKeys, ha]
    | cons k ks ih =>
      intro a ha
      rw [addKeys]
      cases hk : a.get? k with
      | some v =>
        have : k ∈ a.map (·.1) := by
          by_contra hn
          rw [(hmem a k).mpr hn] at hk; cases hk
        simp only [reduceCtorEq, exists_false, false_iff]
        intro hnd
        exact (List.nodup_append.mp hnd).2.2 k this k (by simp) rfl
      | none =>
        have hn := (hmem a k).mp hk
        have h1 : ((a ++ [(k, path)]).map (·.1)).Nodup := by
          rw [List.map_append, List.nodup_append]
          refine ⟨ha, by simp, ?_⟩
          intro x hx y hy
          simp only [List.map_cons, List.map_nil, List.mem_singleton] at hy
          subst hy
          exact fun e => hn (e ▸ hx)
        rw [ih _ h1]
        simp
  have gen : ∀ (l : List (String × FluidInfo)) (a : AliasMap), (a.map (·.1)).Nodup →
      ((∃ b, addFiles l a = .ok b) ↔ (a.map (·.1) ++ l.flatMap fun p => aliasKeys p.2).Nodup) := by
    intro l
    induction l with
    | nil => intro a ha; simp [addFiles, ha]
    | cons p rest ih =>
      intro a ha
      obtain ⟨path, f⟩ := p
      rw [addFiles]
      rcases keys path (aliasKeys f) a with ⟨b, hb, hbk⟩ | ⟨k, hk, ht⟩
      · have hnd : (b.map (·.1)).Nodup := by rw [hbk]; exact (kiff path _ a ha).mp ⟨b, hb⟩
        rw [hb, bind_ok, ih b hnd, hbk]
        simp
      · rw [ht]
        simp only [bind_throws, reduceCtorEq, exists_false, List.flatMap_cons, false_iff]
        intro hnd
        have : (a.map (·.1) ++ aliasKeys f).Nodup := by
          rw [← List.append_assoc] at hnd
          exact (List.nodup_append.mp hnd).1
        obtain ⟨b, hb⟩ := (kiff path _ a ha).mpr this
        rw [hb] at ht; cases ht
  have := gen files [] (by simp)
  simpa [buildAliasMap] using this

/-- Two files of the example folder. -/
def sampleFolder : List (String × FluidInfo) :=
  [("/w", ⟨"Water", "7732", "WATER", none, ["H2O"]⟩), ("/e", ⟨"Ethane", "74", "N/A", none, ["R170"]⟩)]

theorem sampleFolder_ok : ∃ m, buildAliasMap sampleFolder = .ok m := (alias_map_iff _).mpr (by decide)

example : ∃ m, buildAliasMap sampleFolder = .ok m ∧ m.get? "R170" = some "/e" := by
  obtain ⟨m, hm⟩ := sampleFolder_ok
  exact ⟨m, hm, (alias_map_spec _ m hm _ _).mpr ⟨⟨"Ethane", "74", "N/A", none, ["R170"]⟩, by simp [sampleFolder], by decide⟩⟩

/-- An alias that repeats another file's name is refused. -/
example : ¬ ∃ m, buildAliasMap [("/w", ⟨"W", "1", "X", none, []⟩), ("/e", ⟨"E", "2", "N/A", none, ["W"]⟩)] = .ok m := by
  rw [alias_map_iff]; decide

/-! ## C31: loading components -/

variable {J : Type}

/-- A string that is a path to a JSON file or a JSON document. -/
def Document (fs : FS J) (s : String) (j : J) : Prop :=
  s ≠ "" ∧ ((fs.isFile s = true ∧ fs.read s = some j) ∨ (fs.isFile s = false ∧ fs.parse s = some j))

/-- What a component of the list stands for, whatever the other components are. -/
def Resolves (fs : FS J) (r : String) (c : Comp J) (j : J) : Prop :=
  match c with
  | .doc d => j = d
  | .str s =>
    if s.startsWith "PATH::" then fs.isFile (s.drop 6).toString = true ∧ fs.read (s.drop 6).toString = some j
    else if s.startsWith "FLDPATH::" then fs.fld (s.drop 9).toString = .ok j
    else if s.startsWith "FLD::" then fs.fld (s.drop 5).toString = .ok j
    else Document fs s j ∨ ((∀ d, ¬ Document fs s d) ∧ ∃ files m path f, fs.folder r = some files ∧
      buildAliasMap files = .ok m ∧ (path, f) ∈ files ∧ AnswersTo f s ∧ Document fs path j)
  | _ => False

theorem loadFile_iff (fs : FS J) (p : String) (j : J) : loadFile fs p = .ok j ↔ fs.isFile p = true ∧ fs.read p = some j := by
  unfold loadFile
  cases h : fs.isFile p
  · simp
  · cases h2 : fs.read p <;> simp

theorem loadFile_clean (fs : FS J) (p : String) : Clean (loadFile fs p) := by
  unfold loadFile
  split
  · split
    · exact Clean.ok _
    · exact Clean.throws _
  · exact Clean.throws _

theorem multilevel_clean (fs : FS J) (d : Option String) (c : Comp J) : Clean (multilevelLoad fs d c) := by
  have hd : Clean (loadDefault fs d) := by
    cases d
    · exact Clean.throws _
    · exact loadFile_clean _ _
  unfold multilevelLoad
  cases c with
  | empty => exact hd
  | doc j => exact Clean.ok _
  | other => exact Clean.throws _
  | str s =>
    simp only
    split
    · exact hd
    · split
      · exact loadFile_clean _ _
      · split
        · exact Clean.ok _
        · exact Clean.throws _

theorem multilevel_str (fs : FS J) (r : String) (hr : fs.isFile r = false) (s : String) (j : J) :
    multilevelLoad fs (some r) (.str s) = .ok j ↔ Document fs s j := by
  unfold multilevelLoad Document
  by_cases hs : s = ""
  · simp [hs, loadDefault, loadFile, hr]
  · cases hf : fs.isFile s
    · cases hp : fs.parse s <;> simp [hs, hf, hp]
    · simp [hs, loadFile_iff, hf]

/-- The state of the alias map while components are loaded. -/
def GoodState (fs : FS J) (r : String) (st : Option AliasMap) : Prop := ∀ m, st = some m → aliasMapOf fs r = .ok m

theorem aliasMapOf_iff (fs : FS J) (r : String) (m : AliasMap) :
    aliasMapOf fs r = .ok m ↔ ∃ files, fs.folder r = some files ∧ buildAliasMap files = .ok m := by
  unfold aliasMapOf
  cases h : fs.folder r <;> simp

theorem aliasLoad_iff (fs : FS J) (r : String) (hr : fs.isFile r = false) (m : AliasMap) (s : String)
    (x : J × Option AliasMap) :
    aliasLoad fs (some r) (some m) (.str s) = .ok x ↔
      x.2 = some m ∧ ∃ path, m.get? s = some path ∧ Document fs path x.1 := by
  unfold aliasLoad
  simp only
  cases hm : m.get? s with
  | some p =>
    simp only [bind_eq_ok, multilevel_str fs r hr, Option.some.injEq, exists_eq_left']
    constructor
    · rintro ⟨j, h1, h2⟩
      cases h2
      exact ⟨rfl, h1⟩
    · rintro ⟨h1, h2⟩
      exact ⟨x.1, h2, by rw [← h1]⟩
  | none =>
    simp only [bind_eq_ok, multilevel_str fs r hr, reduceCtorEq, false_and, exists_false, and_false, iff_false]
    rintro ⟨j, h, _⟩
    exact h.1 rfl

theorem loadComp_iff (fs : FS J) (r : String) (hr : fs.isFile r = false) (st : Option AliasMap)
    (hst : GoodState fs r st) (c : Comp J) (j : J) :
    (∃ st', loadComp fs (some r) st c = .ok (j, st')) ↔ Resolves fs r c j := by
  have hempty : ∀ c : Comp J, (c = .empty ∨ c = .other) → ¬ ∃ st', getOrAlias fs (some r) st c = .ok (j, st') := by
    intro c hc
    rintro ⟨st', h⟩
    have hm : ∃ e, multilevelLoad fs (some r) c = .throws e := by
      rcases hc with rfl | rfl
      · exact ⟨_, by simp [multilevelLoad, loadDefault, loadFile, hr]; rfl⟩
      · exact ⟨_, rfl⟩
    obtain ⟨e, he⟩ := hm
    rw [getOrAlias, he] at h
    simp only at h
    cases st with
    | none =>
      rcases hc with rfl | rfl <;> simp [aliasBranch, buildForComp, bind_eq_ok] at h
    | some m => rcases hc with rfl | rfl <;> simp [aliasBranch] at h
  have hstr : ∀ s : String, (∃ st', getOrAlias fs (some r) st (.str s) = .ok (j, st')) ↔
      (Document fs s j ∨ ((∀ d, ¬ Document fs s d) ∧ ∃ files m path f, fs.folder r = some files ∧
        buildAliasMap files = .ok m ∧ (path, f) ∈ files ∧ AnswersTo f s ∧ Document fs path j)) := by
    intro s
    rcases multilevel_clean fs (some r) (.str s) with ⟨d, hd⟩ | ⟨e, he⟩
    · rw [getOrAlias, hd]
      have hD := (multilevel_str fs r hr s d).mp hd
      simp only [Outcome.ok.injEq, Prod.mk.injEq, exists_and_left, exists_eq', and_true]
      constructor
      · rintro rfl; exact Or.inl hD
      · rintro (h | ⟨h, _⟩)
        · have := (multilevel_str fs r hr s j).mpr h
          rw [hd] at this
          simpa using this
        · exact absurd hD (h d)
    · have hno : ∀ d, ¬ Document fs s d := fun d h => by
        have := (multilevel_str fs r hr s d).mpr h
        rw [he] at this; cases this
      rw [getOrAlias, he]
      simp only [hno, not_false_eq_true, implies_true, true_and, false_or]
      cases st with
      | some m =>
        have hm := hst m rfl
        obtain ⟨files, hf, hb⟩ := (aliasMapOf_iff fs r m).mp hm
        have : aliasBranch fs (some r) (some m) (.str s) = aliasLoad fs (some r) (some m) (.str s) := rfl
        rw [this]
        simp only [aliasLoad_iff fs r hr]
        constructor
        · rintro ⟨st', _, path, h1, h2⟩
          obtain ⟨f, h3, h4⟩ := (alias_map_spec files m hb s path).mp h1
          exact ⟨files, m, path, f, hf, hb, h3, h4, h2⟩
        · rintro ⟨files', m', path, f, h1, h2, h3, h4, h5⟩
          rw [hf] at h1
          cases h1
          rw [hb] at h2
          cases h2
          exact ⟨some m, rfl, path, (alias_map_spec files m hb s path).mpr ⟨f, h3, h4⟩, h5⟩
      | none =>
        have : aliasBranch fs (some r) none (.str s) =
          (buildForComp fs r (.str s)).bind fun m => aliasLoad fs (some r) (some m) (.str s) := rfl
        rw [this]
        simp only [bind_eq_ok, aliasLoad_iff fs r hr, buildForComp]
        constructor
        · rintro ⟨st', m, ⟨m', h0, h1⟩, _, path, h2, h3⟩
          obtain ⟨files, hf, hb⟩ := (aliasMapOf_iff fs r m').mp h0
          have hmm : m' = m := by
            cases hg : m'.get? s with
            | none => rw [hg] at h1; cases h1
            | some v => rw [hg] at h1; simpa using h1
          subst hmm
          obtain ⟨f, h4, h5⟩ := (alias_map_spec files m' hb s path).mp h2
          exact ⟨files, m', path, f, hf, hb, h4, h5, h3⟩
        · rintro ⟨files, m, path, f, h1, h2, h3, h4, h5⟩
          have hg := (alias_map_spec files m h2 s path).mpr ⟨f, h3, h4⟩
          refine ⟨some m, m, ⟨m, (aliasMapOf_iff fs r m).mpr ⟨files, h1, h2⟩, ?_⟩, rfl, path, hg, h5⟩
          rw [hg]
  cases c with
  | empty => exact ⟨fun h => absurd h (hempty _ (Or.inl rfl)), fun h => h.elim⟩
  | other => exact ⟨fun h => absurd h (hempty _ (Or.inr rfl)), fun h => h.elim⟩
  | doc d =>
    simp only [loadComp, getOrAlias, multilevelLoad, Resolves, Outcome.ok.injEq, Prod.mk.injEq, exists_and_left,
      exists_eq', and_true]
    exact eq_comm
  | str s =>
    unfold loadComp Resolves
    simp only
    split
    · simp [bind_eq_ok, loadFile_iff]
    · split
      · simp [bind_eq_ok]
      · split
        · simp [bind_eq_ok]
        · exact hstr s

theorem loadComp_state (fs : FS J) (r : String) (hr : fs.isFile r = false) (st : Option AliasMap)
    (hst : GoodState fs r st) (c : Comp J) (x : J × Option AliasMap) (h : loadComp fs (some r) st c = .ok x) :
    GoodState fs r x.2 := by
  have hg : ∀ c : Comp J, getOrAlias fs (some r) st c = .ok x → GoodState fs r x.2 := by
    intro c h
    rcases multilevel_clean fs (some r) c with ⟨d, hd⟩ | ⟨e, he⟩
    · rw [getOrAlias, hd] at h
      cases h
      exact hst
    · rw [getOrAlias, he] at h
      simp only at h
      cases c with
      | str s =>
        cases st with
        | some m =>
          have h' : aliasLoad fs (some r) (some m) (.str s) = .ok x := h
          rw [aliasLoad_iff fs r hr] at h'
          rw [h'.1]
          intro m' hm'
          cases hm'
          exact hst m rfl
        | none =>
          have h' : ((buildForComp fs r (.str s)).bind fun m => aliasLoad fs (some r) (some m) (.str s)) = .ok x := h
          rw [bind_eq_ok] at h'
          obtain ⟨m, hm, h'⟩ := h'
          rw [aliasLoad_iff fs r hr] at h'
          rw [h'.1]
          intro m' hm'
          cases hm'
          rw [buildForComp, bind_eq_ok] at hm
          obtain ⟨m2, h2, h3⟩ := hm
          simp only at h3
          cases hv : m2.get? s with
          | none => rw [hv] at h3; cases h3
          | some v => rw [hv] at h3; cases h3; exact h2
      | doc d => cases he
      | empty => cases st <;> simp [aliasBranch, buildForComp, bind_eq_ok] at h
      | other => cases st <;> simp [aliasBranch, buildForComp, bind_eq_ok] at h
  cases c with
  | str s =>
    unfold loadComp at h
    simp only at h
    split at h
    · rw [bind_eq_ok] at h; obtain ⟨_, _, h⟩ := h; cases h; exact hst
    · split at h
      · rw [bind_eq_ok] at h; obtain ⟨_, _, h⟩ := h; cases h; exact hst
      · split at h
        · rw [bind_eq_ok] at h; obtain ⟨_, _, h⟩ := h; cases h; exact hst
        · exact hg _ h
  | doc d => exact hg (.doc d) h
  | empty => exact hg .empty h
  | other => exact hg .other h

theorem forall₂_middle {α β : Type} {R : α → β → Prop} {pre post : List α} {a : α} {js : List β}
    (h : List.Forall₂ R (pre ++ a :: post) js) : ∃ j, R a j := by
  induction pre generalizing js with
  | nil => cases h with | cons h _ => exact ⟨_, h⟩
  | cons b pre ih => cases h with | cons _ h => exact ih h

/-- C31. Components are loaded exactly when each of them resolves on its own: the answer for a name does not depend
on its position nor on the names before it. -/
theorem components_resolve (fs : FS J) (r : String) (hr : fs.isFile r = false) (cs : List (Comp J)) (js : List J) :
    makePure fs (some r) cs = .ok js ↔ List.Forall₂ (Resolves fs r) cs js := by
  have gen : ∀ (cs : List (Comp J)) (js : List J) (st : Option AliasMap), GoodState fs r st →
      (loadComps fs (some r) st cs = .ok js ↔ List.Forall₂ (Resolves fs r) cs js) := by
    intro cs
    induction cs with
    | nil =>
      intro js st _
      cases js <;> simp [loadComps]
    | cons c cs ih =>
      intro js st hst
      rw [loadComps, bind_eq_ok]
      constructor
      · rintro ⟨x, hx, h⟩
        rw [bind_eq_ok] at h
        obtain ⟨ds, hds, h⟩ := h
        cases h
        have hst' := loadComp_state fs r hr st hst c x hx
        exact List.Forall₂.cons ((loadComp_iff fs r hr st hst c x.1).mp ⟨x.2, hx⟩) ((ih ds x.2 hst').mp hds)
      · intro h
        cases h with
        | cons h1 h2 =>
          obtain ⟨st', hst'⟩ := (loadComp_iff fs r hr st hst c _).mpr h1
          refine ⟨_, hst', ?_⟩
          rw [bind_eq_ok]
          exact ⟨_, (ih _ st' (loadComp_state fs r hr st hst c _ hst')).mpr h2, rfl⟩
  exact gen cs js none fun m hm => by cases hm

/-- C31. A name that is neither a path, nor a document, nor an alias is refused wherever it stands. -/
theorem unknown_name_refused (fs : FS J) (r : String) (hr : fs.isFile r = false) (pre post : List (Comp J)) (s : String)
    (hp : s.startsWith "PATH::" = false) (hp2 : s.startsWith "FLDPATH::" = false) (hp3 : s.startsWith "FLD::" = false)
    (hf : fs.isFile s = false) (hj : fs.parse s = none)
    (ha : ∀ files, fs.folder r = some files → ∀ p ∈ files, ¬ AnswersTo p.2 s) :
    ∀ js, makePure fs (some r) (pre ++ .str s :: post) ≠ .ok js := by
  intro js h
  rw [components_resolve fs r hr] at h
  obtain ⟨j, h2⟩ := forall₂_middle h
  simp only [Resolves, hp, hp2, hp3, Bool.false_eq_true, if_false] at h2
  rcases h2 with h2 | ⟨_, files, m, path, f, h3, h4, h5, h6, h7⟩
  · rcases h2.2 with ⟨h, _⟩ | ⟨_, h⟩
    · rw [hf] at h; cases h
    · rw [hj] at h; cases h
  · exact ha files h3 _ h5 h6

/-- A file system with the example folder. -/
def sampleFS : FS ℕ where
  isFile p := p = "/w" ∨ p = "/e"
  read p := if p = "/w" then some 1 else if p = "/e" then some 2 else none
  parse _ := none
  fld _ := .throws .stdInvalidArgument
  folder r := if r = "/root" then some sampleFolder else none

example : ∀ js, makePure sampleFS (some "/root") [.str "H2O", .str "Unobtainium", .str "R170"] ≠ .ok js :=
  unknown_name_refused sampleFS "/root" rfl [.str "H2O"] [.str "R170"] "Unobtainium" (by decide +kernel) (by decide +kernel)
    (by decide +kernel) rfl rfl (by
      intro files hf p hp
      have : files = sampleFolder := by
        simpa [sampleFS] using hf.symm
      subst this
      revert p
      decide)

/-- Without a root, a name that is not a document raises `bad_optional_access`: the exception that was meant is made
but not thrown. -/
theorem no_root_error (fs : FS J) (s : String)
    (hp : s.startsWith "PATH::" = false) (hp2 : s.startsWith "FLDPATH::" = false) (hp3 : s.startsWith "FLD::" = false)
    (hf : fs.isFile s = false) (hj : fs.parse s = none) (post : List (Comp J)) :
    makePure fs none (.str s :: post) = .throws .stdBadOptionalAccess := by
  have : multilevelLoad fs none (.str s) = .throws .jsonError ∨ multilevelLoad fs none (.str s) = .throws .invalidArgument := by
    unfold multilevelLoad
    by_cases hs : s = ""
    · right; simp [hs, loadDefault]
    · left; simp [hs, hf, hj]
  have hl : loadComp fs none none (.str s) = .throws .stdBadOptionalAccess := by
    unfold loadComp
    simp only [hp, hp2, hp3, Bool.false_eq_true, if_false]
    rcases this with h | h <;> rw [getOrAlias, h] <;> rfl
  rw [makePure, loadComps, hl]
  rfl

example : makePure sampleFS none [.str "Unobtainium"] = .throws .stdBadOptionalAccess :=
  no_root_error sampleFS "Unobtainium" (by decide +kernel) (by decide +kernel) (by decide +kernel) rfl rfl []

/-- The kind of error depends on the position: an unknown name met after the alias map was built is not
reported by name, but as the root not being a file. -/
theorem unknown_name_error_kind (fs : FS J) (r : String) (hr : fs.isFile r = false) (m : AliasMap) (s : String)
    (hp : s.startsWith "PATH::" = false) (hp2 : s.startsWith "FLDPATH::" = false) (hp3 : s.startsWith "FLD::" = false)
    (hf : fs.isFile s = false) (hj : fs.parse s = none) (hne : s ≠ "")
    (hm : aliasMapOf fs r = .ok m) (hs : m.get? s = none) :
    loadComp fs (some r) none (.str s) = .throws .invalidArgument ∧
    loadComp fs (some r) (some m) (.str s) = .throws .stdInvalidArgument := by
  have h1 : multilevelLoad fs (some r) (.str s) = .throws .jsonError := by
    simp [multilevelLoad, hne, hf, hj]
  have h2 : multilevelLoad fs (some r) (.str "") = .throws .stdInvalidArgument := by
    simp [multilevelLoad, loadDefault, loadFile, hr]
  unfold loadComp
  simp only [hp, hp2, hp3, Bool.false_eq_true, if_false, getOrAlias, h1]
  constructor
  · change (buildForComp fs r (.str s)).bind _ = _
    rw [buildForComp, hm, bind_ok]
    simp only [hs]
    rfl
  · change aliasLoad fs (some r) (some m) (.str s) = _
    unfold aliasLoad
    simp only [hs, h2]
    rfl

example : ∃ m, loadComp sampleFS (some "/root") none (.str "Unobtainium") = .throws .invalidArgument ∧
    loadComp sampleFS (some "/root") (some m) (.str "Unobtainium") = .throws .stdInvalidArgument := by
  obtain ⟨m, hm⟩ := sampleFolder_ok
  refine ⟨m, unknown_name_error_kind sampleFS "/root" rfl m "Unobtainium" (by decide +kernel) (by decide +kernel)
    (by decide +kernel) rfl rfl (by decide) ((aliasMapOf_iff _ _ _).mpr ⟨sampleFolder, by simp [sampleFS], hm⟩) ?_⟩
  cases h : m.get? "Unobtainium" with
  | none => rfl
  | some p =>
    obtain ⟨f, h1, h2⟩ := (alias_map_spec _ m hm _ _).mp h
    exact absurd h2 (by
      have : ∀ q ∈ sampleFolder, ¬ AnswersTo q.2 "Unobtainium" := by decide
      exact this _ h1)

example : makePure sampleFS (some "/root") [.str "H2O", .doc 7, .str "R170"] = .ok [1, 7, 2] := by
  rw [components_resolve sampleFS "/root" rfl]
  obtain ⟨m, hm⟩ := sampleFolder_ok
  have key : ∀ s path f j, s.startsWith "PATH::" = false → s.startsWith "FLDPATH::" = false → s.startsWith "FLD::" = false →
      sampleFS.isFile s = false → (path, f) ∈ sampleFolder → AnswersTo f s → Document sampleFS path j →
      Resolves sampleFS "/root" (.str s) j := by
    intro s path f j h1 h2 h3 h4 h5 h6 h7
    simp only [Resolves, h1, h2, h3, Bool.false_eq_true, if_false]
    refine Or.inr ⟨?_, sampleFolder, m, path, f, by simp [sampleFS], hm, h5, h6, h7⟩
    rintro d ⟨_, ⟨h, _⟩ | ⟨_, h⟩⟩
    · rw [h4] at h; cases h
    · cases h
  refine .cons ?_ (.cons rfl (.cons ?_ .nil))
  · exact key "H2O" "/w" ⟨"Water", "7732", "WATER", none, ["H2O"]⟩ 1 (by decide +kernel) (by decide +kernel) (by decide +kernel) rfl
      (by simp [sampleFolder]) (by decide) ⟨by decide, Or.inl ⟨rfl, rfl⟩⟩
  · exact key "R170" "/e" ⟨"Ethane", "74", "N/A", none, ["R170"]⟩ 2 (by decide +kernel) (by decide +kernel) (by decide +kernel) rfl
      (by simp [sampleFolder]) (by decide) ⟨by decide, Or.inl ⟨rfl, rfl⟩⟩

theorem addFiles_clean (l : List (String × FluidInfo)) (m : AliasMap) : Clean (addFiles l m) := by
  have hk : ∀ (p : String) (ks : List String) (m : AliasMap), Clean (addKeys p ks m) := by
    intro p ks
    induction ks with
    | nil => exact fun m => Clean.ok m
    | cons k ks ih =>
      intro m
      rw [addKeys]
      split
      · exact Clean.throws _
      · exact ih _
  induction l generalizing m with
  | nil => exact Clean.ok m
  | cons a l ih => exact (hk _ _ _).bind fun m' _ => ih m'

/-- Whatever the list of components holds, names or not, loading it ends with documents or an exception. -/
theorem components_clean (fs : FS J) (hfld : ∀ p, Clean (fs.fld p)) (root : Option String) (cs : List (Comp J)) :
    Clean (makePure fs root cs) := by
  have hload : ∀ st (c : Comp J), Clean (aliasLoad fs root st c) := by
    intro st c
    unfold aliasLoad
    split
    · exact Clean.throws _
    · split
      · split
        · exact (multilevel_clean _ _ _).bind fun _ _ => Clean.ok _
        · exact (multilevel_clean _ _ _).bind fun _ _ => Clean.ok _
      · exact Clean.throws _
  have hbuild : ∀ r (c : Comp J), Clean (buildForComp fs r c) := by
    intro r c
    refine Clean.bind ?_ fun m _ => ?_
    · unfold aliasMapOf
      split
      · exact addFiles_clean _ _
      · exact Clean.throws _
    · split
      · split
        · exact Clean.ok _
        · exact Clean.throws _
      · exact Clean.throws _
  have halias : ∀ st (c : Comp J), Clean (getOrAlias fs root st c) := by
    intro st c
    unfold getOrAlias
    split
    · exact Clean.ok _
    · rename_i h
      have := multilevel_clean fs root c
      rw [h] at this
      exact absurd this (by simp [Clean])
    · unfold aliasBranch
      split
      · exact (hbuild _ _).bind fun m _ => hload _ _
      · split
        · exact hload _ _
        · exact Clean.throws _
  have hcomp : ∀ st (c : Comp J), Clean (loadComp fs root st c) := by
    intro st c
    unfold loadComp
    split
    · split
      · exact (loadFile_clean _ _).bind fun _ _ => Clean.ok _
      · split
        · exact (hfld _).bind fun _ _ => Clean.ok _
        · split
          · exact (hfld _).bind fun _ _ => Clean.ok _
          · exact halias _ _
    · exact halias _ _
  unfold makePure
  generalize (none : Option AliasMap) = st
  induction cs generalizing st with
  | nil => exact Clean.ok _
  | cons c cs ih => exact (hcomp _ _).bind fun r _ => (ih _).bind fun _ _ => Clean.ok _

/-- An entry that is neither a name nor a document is refused. -/
theorem components_other_refused (fs : FS J) (root : Option String) (st : Option AliasMap) (hr : root = none ∨ st.isSome) :
    loadComp fs root st .other = .throws .jsonError := by
  unfold loadComp
  simp only [getOrAlias, multilevelLoad, aliasBranch]
  rcases hr with rfl | h
  · split
    · rename_i h
      cases h
    · rfl
  · obtain ⟨m, rfl⟩ := Option.isSome_iff_exists.mp h
    rfl

example : makePure sampleFS none [.doc 7, .other] = .throws .jsonError := by
  unfold makePure
  rw [loadComps, show loadComp sampleFS none none (.doc 7) = .ok (7, none) from rfl, bind_ok]
  simp only [loadComps]
  rw [components_other_refused _ _ _ (Or.inl rfl)]
  rfl

end Teqp.Props
