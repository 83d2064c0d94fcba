import Verif.Lemmas.MixDoc
import Verif.Props.MultiFluid
import Verif.Props.Components

/-! # C158: multi-fluid mixtures from documents -/

set_option autoImplicit false

namespace Teqp.Props
open Teqp Teqp.Model Teqp.Lemmas.MixDoc

/-! ## What documents say -/

/-- The document `t` is an object with the fields of `e`: those that are present have the right type. -/
structure EntryIs (t : JTree) (e : BIPEntry) : Prop where
  obj : ∃ o, t = .obj o ∧ o.lookup "hash1" = e.hash1.map .str ∧ o.lookup "hash2" = e.hash2.map .str ∧
    o.lookup "Name1" = e.name1.map .str ∧ o.lookup "Name2" = e.name2.map .str ∧
    o.lookup "CAS1" = e.cas1.map .str ∧ o.lookup "CAS2" = e.cas2.map .str ∧
    o.lookup "betaT" = e.betaT.map .num ∧ o.lookup "gammaT" = e.gammaT.map .num ∧
    o.lookup "betaV" = e.betaV.map .num ∧ o.lookup "gammaV" = e.gammaV.map .num ∧
    o.lookup "xi" = e.xi.map .num ∧ o.lookup "zeta" = e.zeta.map .num ∧
    o.lookup "F" = e.F.map .num ∧ o.lookup "function" = e.function.map .str ∧ o ≠ []

/-- The document of the flags: a scheme that is present is a string. -/
structure FlagsAre (j : JTree) (f : BIPFlags) : Prop where
  force : j.contains "force-estimate" = f.forceEstimate
  scheme : strAt "estimate" j = optAt f.estimate
  given : j.contains "estimate" = f.estimate.isSome

/-- The entry `e` of the departure collection has the document `t`. -/
structure DepIs (sp : SpecialTerms) (t : JTree) (e : DepEntry) : Prop where
  name : t.at "Name" = .ok (.str e.name)
  terms : departureTerms sp t = buildDeparture e.doc e.Npower

/-! ## Looking up pairs -/

/-- An entry found in the documents and the one found in the data. -/
def Found (r : JTree × Bool) (s : BIPEntry × Bool) : Prop := EntryIs r.1 s.1 ∧ r.2 = s.2

/-- The same for a pass that may find nothing. -/
def Found? : Option (JTree × Bool) → Option (BIPEntry × Bool) → Prop
  | none, none => True
  | some r, some s => Found r s
  | _, _ => False

theorem hashPassDoc_match (a b : String) (els : List JTree) (col : List BIPEntry) (h : List.Forall₂ EntryIs els col) :
    Match Found? (hashPassDoc a b els) (hashPass a b col) := by
  induction h with
  | nil => trivial
  | @cons t e els col he _ ih =>
    obtain ⟨o, rfl, h1, h2, _⟩ := he.obj
    rw [hashPassDoc, hashPass, contains_eq_str h1, strAt_eq h1, strAt_eq h2]
    cases hh : e.hash1 with
    | none => simpa using ih
    | some s1 =>
      simp only [Option.isSome_some, if_true, Option.isNone_some, Bool.false_eq_true, if_false]
      refine Match.bind (Match.refl _) ?_
      rintro x _ rfl
      refine Match.bind (Match.refl _) ?_
      rintro y _ rfl
      cases orderedMatch a b x.toUpper y.toUpper with
      | none => exact ih
      | some s => exact ⟨he, rfl⟩

theorem namePassDoc_match (a b : String) (els : List JTree) (col : List BIPEntry) (h : List.Forall₂ EntryIs els col) :
    Match Found? (namePassDoc a b els) (namePass a b col) := by
  induction h with
  | nil => trivial
  | @cons t e els col he _ ih =>
    obtain ⟨o, rfl, _, _, h1, h2, _⟩ := he.obj
    rw [namePassDoc, namePass, strAt_eq h1, strAt_eq h2]
    refine Match.bind (Match.refl _) ?_
    rintro x _ rfl
    refine Match.bind (Match.refl _) ?_
    rintro y _ rfl
    cases orderedMatch a b x.toUpper y.toUpper with
    | none => exact ih
    | some s => exact ⟨he, rfl⟩

theorem casPassDoc_match (a b : String) (els : List JTree) (col : List BIPEntry) (h : List.Forall₂ EntryIs els col) :
    Match Found? (casPassDoc a b els) (casPass a b col) := by
  induction h with
  | nil => trivial
  | @cons t e els col he _ ih =>
    obtain ⟨o, rfl, _, _, _, _, h1, h2, _⟩ := he.obj
    rw [casPassDoc, casPass, strAt_eq h1, strAt_eq h2]
    refine Match.bind (Match.refl _) ?_
    rintro x _ rfl
    refine Match.bind (Match.refl _) ?_
    rintro y _ rfl
    cases orderedMatch a b x y with
    | none => exact ih
    | some s => exact ⟨he, rfl⟩

theorem lorentzBerthelot_is : EntryIs lorentzBerthelotDoc lorentzBerthelot :=
  ⟨_, rfl, rfl, rfl, rfl, rfl, rfl, rfl, rfl, rfl, rfl, rfl, rfl, rfl, rfl, rfl, by simp⟩

theorem estimateDoc_match (j : JTree) (f : BIPFlags) (h : FlagsAre j f) : Match Found (estimateDoc j) (estimateBIP f.estimate) := by
  unfold estimateDoc
  have hs := h.scheme
  unfold strAt at hs
  rw [hs]
  cases f.estimate with
  | none => rfl
  | some s =>
    simp only [optAt, Outcome.bind_ok]
    by_cases hL : s = "Lorentz-Berthelot"
    · subst hL
      rw [if_pos rfl]
      exact ⟨lorentzBerthelot_is, rfl⟩
    · rw [if_neg hL]
      unfold estimateBIP
      split
      · rename_i h; cases h
      · rename_i h; exact absurd (Option.some.inj h) hL
      · rfl

theorem pairEntries_of (els : List JTree) (col : List BIPEntry) (h : List.Forall₂ EntryIs els col) : pairEntries (.arr els) = .ok els := by
  cases h with
  | nil => rfl
  | cons he _ => obtain ⟨o, rfl, _⟩ := he.obj; rfl

/-- The look-up in the documents finds the document of the entry that the look-up in the data finds, and fails in the
same way. -/
theorem getBIPdepDoc_match (els : List JTree) (col : List BIPEntry) (j : JTree) (f : BIPFlags) (a b : String)
    (h : List.Forall₂ EntryIs els col) (hf : FlagsAre j f) :
    Match Found (getBIPdepDoc (.arr els) j a b) (getBIPdep col a b f) := by
  unfold getBIPdepDoc getBIPdep
  rw [pairEntries_of els col h, Outcome.bind_ok, hf.force]
  cases f.forceEstimate with
  | true => exact estimateDoc_match j f hf
  | false =>
    simp only [Bool.false_eq_true, if_false]
    refine Match.bind (hashPassDoc_match _ _ els col h) fun r0 s0 h0 => ?_
    cases r0 <;> cases s0 <;> first | exact h0.elim | skip
    · refine Match.bind (namePassDoc_match _ _ els col h) fun r1 s1 h1 => ?_
      cases r1 <;> cases s1 <;> first | exact h1.elim | skip
      · refine Match.bind (casPassDoc_match _ _ els col h) fun r2 s2 h2 => ?_
        cases r2 <;> cases s2 <;> first | exact h2.elim | skip
        · simp only [hf.given]
          cases he : f.estimate with
          | none => rfl
          | some s =>
            have := estimateDoc_match j f hf
            rw [he] at this
            simpa using this
        · exact h2
      · exact h1
    · exact h0

/-- The weight of a pair. -/
theorem pairFDoc_eq (els : List JTree) (col : List BIPEntry) (j : JTree) (f : BIPFlags) (ids : ℕ → String) (i k : ℕ)
    (h : List.Forall₂ EntryIs els col) (hf : FlagsAre j f) :
    pairFDoc (.arr els) j (ids i) (ids k) = pairF col ids f i k := by
  refine Match.eq (Match.bind (getBIPdepDoc_match els col j f _ _ h hf) ?_)
  rintro ⟨t, s⟩ ⟨e, s'⟩ ⟨he, _⟩
  obtain ⟨o, rfl, _, _, _, _, _, _, _, _, _, _, _, _, hF, _, hne⟩ := he.obj
  have : (JTree.obj o).isEmpty = false := by cases o with | nil => exact absurd rfl hne | cons _ _ => rfl
  simp only [this, Bool.false_eq_true, if_false]
  rw [numAt_eq hF]
  exact Match.refl _

/-- The parameters of a pair. -/
theorem getBinaryInteractionDoc_eq (els : List JTree) (col : List BIPEntry) (j : JTree) (f : BIPFlags) (a b : String) (Ta Tb va vb : ℝ)
    (h : List.Forall₂ EntryIs els col) (hf : FlagsAre j f) :
    getBinaryInteractionDoc (.arr els) j a b Ta Tb va vb = getBinaryInteraction col a b f Ta Tb va vb := by
  refine Match.eq (Match.bind (getBIPdepDoc_match els col j f _ _ h hf) ?_)
  rintro ⟨t, s⟩ ⟨e, s'⟩ ⟨he, rfl⟩
  obtain ⟨o, rfl, _, _, _, _, _, _, h1, h2, h3, h4, h5, h6, _⟩ := he.obj
  refine Match.of_eq ?_
  simp only [contains_eq_num h1, contains_eq_num h2, contains_eq_num h3, contains_eq_num h4, contains_eq_num h5, contains_eq_num h6,
    numAt_eq h1, numAt_eq h2, numAt_eq h3, numAt_eq h4, numAt_eq h5, numAt_eq h6]
  unfold bipOfEntry
  cases e.betaT <;> cases e.gammaT <;> cases e.betaV <;> cases e.gammaV <;> cases e.xi <;> cases e.zeta <;> simp [optAt]

theorem findDeparture_match (sp : SpecialTerms) (name : String) (ds : List JTree) (deps : List DepEntry) (h : List.Forall₂ (DepIs sp) ds deps) :
    ((findDeparture name ds).bind fun d => departureTerms sp d) = depByName deps name := by
  unfold depByName
  induction h with
  | nil => rfl
  | @cons t e ds deps he _ ih =>
    rw [findDeparture]
    have hc : t.atConst "Name" = .ok (.str e.name) := by
      have := he.name
      cases t <;> simp only [JTree.at] at this <;> first | cases this | skip
      rename_i o
      cases hl : o.lookup "Name" with
      | none => rw [hl] at this; cases this
      | some v => rw [hl] at this; simp only [JTree.atConst, hl]; exact this
    rw [hc, Outcome.bind_ok]
    simp only [JTree.isText, beq_iff_eq]
    by_cases hn : e.name = name
    · rw [if_pos hn, Outcome.bind_ok, he.terms]
      simp [hn]
    · rw [if_neg hn, ih]
      simp [hn]

/-- The departure function of a pair. -/
theorem pairDepDoc_eq (sp : SpecialTerms) (ds els : List JTree) (deps : List DepEntry) (col : List BIPEntry) (j : JTree) (f : BIPFlags) (ids : ℕ → String) (i k : ℕ)
    (hd : List.Forall₂ (DepIs sp) ds deps) (h : List.Forall₂ EntryIs els col) (hf : FlagsAre j f) :
    pairDepDoc sp (.arr ds) (.arr els) j (ids i) (ids k) = pairDep deps col ids f i k := by
  refine Match.eq (Match.bind (getBIPdepDoc_match els col j f _ _ h hf) ?_)
  rintro ⟨t, s⟩ ⟨e, s'⟩ ⟨he, _⟩
  obtain ⟨o, rfl, _, _, _, _, _, _, _, _, _, _, _, _, _, hF, _⟩ := he.obj
  refine Match.of_eq ?_
  simp only [contains_eq_str hF, strAt_eq hF]
  cases e.function with
  | none => simp
  | some name =>
    simp only [Option.isSome_some, if_true, optAt, Outcome.bind_ok]
    by_cases hn : name = ""
    · simp [hn]
    · simp only [hn, if_false]
      cases hd with
      | nil => simp [JTree.isEmpty]
      | cons h1 h2 =>
        have := findDeparture_match sp name _ _ (List.Forall₂.cons h1 h2)
        simpa [JTree.isEmpty, JTree.items] using this

/-! ## Choosing the identifiers -/

theorem tryRowDoc_match (els : List JTree) (col : List BIPEntry) (j : JTree) (f : BIPFlags) (a : String) (l : List String)
    (h : List.Forall₂ EntryIs els col) (hf : FlagsAre j f) : tryRowDoc (.arr els) j a l = tryRow col f a l := by
  induction l with
  | nil => rfl
  | cons b rest ih =>
    refine Match.eq (Match.bind (getBIPdepDoc_match els col j f _ _ h hf) fun _ _ _ => ?_)
    exact Match.of_eq ih

theorem tryPairsDoc_match (els : List JTree) (col : List BIPEntry) (j : JTree) (f : BIPFlags) (l : List String)
    (h : List.Forall₂ EntryIs els col) (hf : FlagsAre j f) : tryPairsDoc (.arr els) j l = tryPairs col f l := by
  induction l with
  | nil => rfl
  | cons b rest ih => rw [tryPairsDoc, tryPairs, tryRowDoc_match els col j f b rest h hf, ih]

/-- The identifiers of the first key for which all pairs are found. -/
noncomputable def idsOf (col : List BIPEntry) (f : BIPFlags) : List (String × List String) → Outcome (List String)
  | [] => .throws .stdInvalidArgument
  | (_, ids) :: rest => match tryPairs col f ids with
    | .ok _ => .ok ids
    | _ => idsOf col f rest

theorem chooseIds_eq (els : List JTree) (col : List BIPEntry) (j : JTree) (f : BIPFlags) (set : List (String × List String))
    (h : List.Forall₂ EntryIs els col) (hf : FlagsAre j f) : chooseIds (.arr els) j set = idsOf col f set := by
  induction set with
  | nil => rfl
  | cons p rest ih =>
    obtain ⟨key, ids⟩ := p
    rw [chooseIds, idsOf, tryPairsDoc_match els col j f ids h hf, ih]
    rcases (tryPairs_spec col f ids).1 with ⟨u, hu⟩ | ⟨e, he⟩
    · rw [hu]
    · rw [he]

end Teqp.Props
