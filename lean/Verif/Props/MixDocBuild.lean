import Verif.Props.MixDoc
import Verif.Props.ExtInput
import Verif.Model.Schema
import Mathlib.Data.List.FinRange

/-! # C158: building a mixture from documents -/

set_option autoImplicit false

namespace Teqp.Props
open Teqp Teqp.Model Teqp.Lemmas.MixDoc

/-! ## Documents of pure fluids -/

/-- The document `t` says the terms `ts`: a flat object of one of the allowed types, or a cubic or a PC-SAFT equation. -/
inductive TermIs (sp : SpecialTerms) : JTree → List ResTerm → Prop
  | flat (o : JObj) (ty : String) (ts : List ResTerm) (h1 : o.type = .ok ty) (h2 : ty ∈ allowedTypes) (h3 : buildTerm o = .ok ts) : TermIs sp o.toTree ts
  | cubic (t : JTree) (ts : List ResTerm) (h1 : t.at "type" = .ok (.str "ResidualHelmholtzGenericCubic")) (h2 : sp.cubic t = .ok ts) : TermIs sp t ts
  | pcsaft (t : JTree) (ts : List ResTerm) (h1 : t.at "type" = .ok (.str "ResidualHelmholtzPCSAFTGrossSadowski2001")) (h2 : sp.pcsaft t = .ok ts) :
      TermIs sp t ts

/-- The document `t` of a fluid says: identifiers `info`; in its first equation of state the reducing state, the gas
constant and the terms of `p`. -/
structure FluidIs (sp : SpecialTerms) (t : JTree) (info : FluidInfo) (p : PureData) : Prop where
  info : ∃ i, t.at "INFO" = .ok i ∧ i.at "NAME" = .ok (.str info.name) ∧ i.at "CAS" = .ok (.str info.cas) ∧
    i.at "REFPROP_NAME" = .ok (.str info.refprop) ∧ (∀ h, info.hash = some h → i.at "HASH" = .ok (.str h)) ∧
    (info.hash = none → i.contains "HASH" = false)
  eos : ∃ e rest s r rho docs, t.at "EOS" = .ok (.arr (e :: rest)) ∧ e.at "STATES" = .ok s ∧ s.at "reducing" = .ok r ∧
    r.at "T" = .ok (.num p.Tc) ∧ r.at "rhomolar" = .ok (.num rho) ∧ rho ≠ 0 ∧ p.vc = 1 / rho ∧
    e.at "gas_constant" = .ok (.num p.R) ∧ e.at "alphar" = .ok (.arr docs) ∧ docs ≠ [] ∧
    ∃ tss, List.Forall₂ (TermIs sp) docs tss ∧ p.terms = tss.flatten

theorem atConst_of {j v : JTree} {k : String} (h : j.at k = .ok v) : j.atConst k = .ok v := by
  cases j <;> simp only [JTree.at] at h <;> first | cases h | skip
  rename_i o
  cases hl : o.lookup k with
  | none => rw [hl] at h; cases h
  | some v => rw [hl] at h; simp only [JTree.atConst, hl]; exact h

theorem contains_of {j v : JTree} {k : String} (h : j.at k = .ok v) : j.contains k = true := by
  cases j <;> simp only [JTree.at] at h <;> first | cases h | skip
  rename_i o
  cases hl : o.lookup k with
  | none => rw [hl] at h; cases h
  | some v => simp [JTree.contains, hl]

theorem pureState_of {sp : SpecialTerms} {t : JTree} {info : FluidInfo} {p : PureData} (h : FluidIs sp t info p) : pureState t = .ok (p.Tc, p.vc) := by
  obtain ⟨e, rest, s, r, rho, docs, h1, h2, h3, h4, h5, h6, h7, _⟩ := h.eos
  simp only [pureState, atConst_of h1, Outcome.bind_ok, JTree.firstConst, atConst_of h2, atConst_of h3, numAt, h4, h5, JTree.toDouble]
  rw [if_neg h6, h7]

theorem fluidR_of {sp : SpecialTerms} {t : JTree} {info : FluidInfo} {p : PureData} (h : FluidIs sp t info p) : fluidR t = .ok p.R := by
  obtain ⟨e, rest, s, r, rho, docs, h1, _, _, _, _, _, _, h8, _⟩ := h.eos
  simp only [fluidR, h1, Outcome.bind_ok, h8, JTree.toDouble]

/-- The same fluid without its aliases, which are not read. -/
theorem pureInfo_of {sp : SpecialTerms} {t : JTree} {info : FluidInfo} {p : PureData} (h : FluidIs sp t info p) : pureInfo t = .ok { info with aliases := [] } := by
  obtain ⟨i, h1, h2, h3, h4, h5, h6⟩ := h.info
  simp only [pureInfo, h1, Outcome.bind_ok, h2, h3, h4, JTree.toStr]
  cases hh : info.hash with
  | none => rw [if_neg (by simp [h6 hh])]
  | some s => rw [if_pos (contains_of (h5 s hh)), h5 s hh]; rfl

theorem flatField_toTree (p : String × JVal) : flatField (p.1, p.2.toTree) = [p] := by
  obtain ⟨k, v⟩ := p
  cases v with
  | num x => rfl
  | str s => rfl
  | arr xs =>
    have : JTree.toRow (.arr (xs.map JTree.num)) = .ok xs := by
      have := mapOutcome_ok_of JTree.toDouble JTree.num id (fun _ => rfl) xs
      simpa [JTree.toRow] using this
    simp only [JVal.toTree, flatField, this]

theorem flat_toTree (o : JObj) : o.toTree.flat = o := by
  unfold JObj.toTree JTree.flat
  induction o with
  | nil => rfl
  | cons p o ih =>
    simp only [List.map_cons, List.flatMap_cons, flatField_toTree] at ih ⊢
    rw [ih]; rfl

theorem lookup_mapTree (o : JObj) (k : String) : (o.map fun p => (p.1, p.2.toTree)).lookup k = (o.lookup k).map JVal.toTree := by
  induction o with
  | nil => rfl
  | cons p o ih =>
    obtain ⟨k', v⟩ := p
    simp only [List.map_cons, List.lookup_cons, ih]
    cases k == k' <;> rfl

theorem termType_toTree (o : JObj) : termType o.toTree = o.type := by
  unfold termType JObj.type JTree.at JObj.at JObj.toTree
  simp only [lookup_mapTree]
  cases o.lookup "type" with
  | none => rfl
  | some v => cases v <;> rfl

theorem TermIs.type {sp : SpecialTerms} {t : JTree} {ts : List ResTerm} (h : TermIs sp t ts) : ∃ ty, termType t = .ok ty ∧ ty ∈ pureTypes := by
  cases h with
  | flat o ty _ h1 h2 h3 => exact ⟨ty, by rw [termType_toTree, h1], by simp [pureTypes, h2]⟩
  | cubic _ _ h1 h2 => exact ⟨_, by rw [termType, h1]; rfl, by simp [pureTypes]⟩
  | pcsaft _ _ h1 h2 => exact ⟨_, by rw [termType, h1]; rfl, by simp [pureTypes]⟩

theorem checkTermTypes_of {sp : SpecialTerms} {docs : List JTree} {tss : List (List ResTerm)} (h : List.Forall₂ (TermIs sp) docs tss) :
    checkTermTypes docs = .ok () := by
  induction h with
  | nil => rfl
  | cons h _ ih =>
    obtain ⟨ty, h1, h2⟩ := h.type
    rw [checkTermTypes, h1, Outcome.bind_ok, if_pos h2, ih]

theorem pureTerm_of {sp : SpecialTerms} {t : JTree} {ts : List ResTerm} (h : TermIs sp t ts) : pureTerm sp t = .ok ts := by
  unfold pureTerm
  cases h with
  | flat o ty _ h1 h2 h3 =>
    rw [termType_toTree, h1, Outcome.bind_ok, flat_toTree, h3]
    split_ifs with ha hb
    · subst ha; simp [allowedTypes] at h2
    · subst hb; simp [allowedTypes] at h2
    · rfl
  | cubic _ _ h1 h2 =>
    rw [termType, h1]
    simpa [JTree.toStr] using h2
  | pcsaft _ _ h1 h2 =>
    rw [termType, h1]
    simpa [JTree.toStr] using h2

theorem pureTerms_list {sp : SpecialTerms} {docs : List JTree} {tss : List (List ResTerm)} (h : List.Forall₂ (TermIs sp) docs tss) :
    mapOutcome (pureTerm sp) docs = .ok tss := by
  induction h with
  | nil => rfl
  | cons h _ ih => simp only [mapOutcome, pureTerm_of h, ih, Outcome.bind_ok]

theorem pureTerms_of {sp : SpecialTerms} {t : JTree} {info : FluidInfo} {p : PureData} (h : FluidIs sp t info p) : pureTerms sp t = .ok p.terms := by
  obtain ⟨e, rest, s, r, rho, docs, h1, _, _, _, _, _, _, _, h9, hne, tss, h10, h11⟩ := h.eos
  simp only [pureTerms, atConst_of h1, Outcome.bind_ok, JTree.firstConst, atConst_of h9]
  have he : (JTree.arr docs).isEmpty = false := by
    cases docs with
    | nil => exact absurd rfl hne
    | cons _ _ => rfl
  rw [if_neg (by simp [he])]
  change (checkTermTypes docs).bind _ = _
  rw [checkTermTypes_of h10, Outcome.bind_ok]
  change (mapOutcome (pureTerm sp) docs).bind _ = _
  rw [pureTerms_list h10, Outcome.bind_ok, h11]

/-- Flat documents that the reader of terms accepts. -/
theorem terms_flat (sp : SpecialTerms) (docs : List JObj) (ts : List ResTerm) (h : getEOSTerms docs = .ok ts) :
    docs.map JObj.toTree ≠ [] ∧ ∃ tss, List.Forall₂ (TermIs sp) (docs.map JObj.toTree) tss ∧ ts = tss.flatten := by
  unfold getEOSTerms at h
  have hne : docs ≠ [] := fun h' => by rw [if_pos h'] at h; cases h
  rw [if_neg hne, Outcome.bind_eq_ok] at h
  obtain ⟨_, h1, h2⟩ := h
  refine ⟨by simpa using hne, ?_⟩
  clear hne
  induction docs generalizing ts with
  | nil => cases h2; exact ⟨[], .nil, rfl⟩
  | cons o os ih =>
    rw [checkTypes, Outcome.bind_eq_ok] at h1
    obtain ⟨ty, h3, h4⟩ := h1
    rw [buildTerms, Outcome.bind_eq_ok] at h2
    obtain ⟨t1, h5, h6⟩ := h2
    rw [Outcome.bind_eq_ok] at h6
    obtain ⟨t2, h6, h7⟩ := h6
    by_cases hm : ty ∈ allowedTypes
    · rw [if_pos hm] at h4
      obtain ⟨tss, h8, h9⟩ := ih t2 h4 h6
      refine ⟨t1 :: tss, .cons (.flat o ty t1 h3 hm h5) h8, ?_⟩
      rw [List.flatten_cons, ← h9]
      simpa using h7.symm
    · rw [if_neg hm] at h4; cases h4

/-! ## The mixture -/

theorem mapOutcome_ofFn {α β : Type} {n : ℕ} (f : α → Outcome β) (p : Fin n → α) (q : Fin n → β) (h : ∀ i, f (p i) = .ok (q i)) :
    mapOutcome f (List.ofFn p) = .ok (List.ofFn q) := by
  rw [List.ofFn_eq_map, List.ofFn_eq_map]
  exact mapOutcome_ok_of f p q h _

theorem getD_listOfFn {α : Type} {n : ℕ} (q : Fin n → α) (d : α) (i : ℕ) : (List.ofFn q).getD i d = if h : i < n then q ⟨i, h⟩ else d := by
  by_cases h : i < n
  · rw [dif_pos h, List.getD_eq_getElem _ _ (by simpa using h)]
    simp
  · rw [dif_neg h, List.getD_eq_default _ _ (by simpa using h)]

/-- The flag for the gas constant. -/
def asksCodata (flags : JTree) : Bool := match flags.at "Rmodel" with
  | .ok (.str s) => s == "CODATA"
  | _ => false

theorem gasROf_of (ps : List JTree) (Rs : List ℝ) (flags : JTree) (h : mapOutcome fluidR ps = .ok Rs) :
    gasROf ps flags = .ok (if asksCodata flags then .codata else .weighted Rs) := by
  unfold gasROf asksCodata
  rw [h, Outcome.bind_ok]
  by_cases hc : flags.contains "Rmodel" = true
  · rw [if_pos hc]
    cases flags <;> simp only [JTree.contains] at hc <;> first | cases hc | skip
    rename_i o
    cases hl : o.lookup "Rmodel" with
    | none => rw [hl] at hc; cases hc
    | some v =>
      simp only [JTree.at, hl, Outcome.bind_ok]
      cases v <;> simp
      split_ifs <;> rfl
  · rw [if_neg hc]
    cases flags <;> simp only [JTree.contains] at hc <;> try rfl
    rename_i o
    cases hl : o.lookup "Rmodel" with
    | none => simp [JTree.at, hl]
    | some v => rw [hl] at hc; simp at hc

/-- C158. Documents whose fields have the right types give the mixture of the data in them, with the identifiers of the
first kind for which all pairs are found; failures are the same as well. -/
theorem mixture_of_documents {n : ℕ} (sp : SpecialTerms) (pures : Fin n → JTree) (els ds : List JTree) (j : JTree)
    (infos : Fin n → FluidInfo) (data : Fin n → PureData) (col : List BIPEntry) (deps : List DepEntry) (f : BIPFlags)
    (hp : ∀ i, FluidIs sp (pures i) (infos i) (data i)) (hc : List.Forall₂ EntryIs els col) (hd : List.Forall₂ (DepIs sp) ds deps) (hf : FlagsAre j f) :
    (∀ e, idsOf col f (collectIdentifiers (List.ofFn infos)) = .throws e → buildMixDoc sp pures (.arr els) (.arr ds) j = .throws e) ∧
    ∀ id : Fin n → String, idsOf col f (collectIdentifiers (List.ofFn infos)) = .ok (List.ofFn id) →
      buildMixDoc sp pures (.arr els) (.arr ds) j =
        (buildMixture (fun i => { data i with id := id i }) col deps f (asksCodata j)).bind fun m =>
          .ok (m, if asksCodata j then .codata else .weighted (List.ofFn fun i => (data i).R)) := by
  have h1 := mapOutcome_ofFn pureState pures _ fun i => pureState_of (hp i)
  have h2 := mapOutcome_ofFn (pureTerms sp) pures _ fun i => pureTerms_of (hp i)
  have h3 := mapOutcome_ofFn fluidR pures _ fun i => fluidR_of (hp i)
  have h4 := mapOutcome_ofFn pureInfo pures _ fun i => pureInfo_of (hp i)
  have hcoll : collectIdentifiers (List.ofFn fun i => { infos i with aliases := [] }) = collectIdentifiers (List.ofFn infos) := by
    unfold collectIdentifiers
    simp only [List.ofFn_eq_map, List.map_map, List.length_map, List.filterMap_map]
    rfl
  constructor
  · intro e he
    unfold buildMixDoc
    rw [h1, Outcome.bind_ok, h2, Outcome.bind_ok, h3, Outcome.bind_ok, h4, Outcome.bind_ok, hcoll, chooseIds_eq els col j f _ hc hf, he]
    rfl
  · intro id hid
    unfold buildMixDoc
    rw [h1, Outcome.bind_ok, h2, Outcome.bind_ok, h3, Outcome.bind_ok, h4, Outcome.bind_ok, hcoll, chooseIds_eq els col j f _ hc hf, hid,
      Outcome.bind_ok, gasROf_of _ _ j h3]
    obtain ⟨P, hP⟩ : ∃ P : Fin n → PureData, P = fun i => { data i with id := id i } := ⟨_, rfl⟩
    obtain ⟨d, hdd⟩ : ∃ d : MixData, d = ⟨List.ofFn id, List.ofFn fun i => ((data i).Tc, (data i).vc), List.ofFn fun i => (data i).terms⟩ := ⟨_, rfl⟩
    have eid : d.id = fun i => (getPure P i).id := by
      subst hdd hP; funext i; simp only [MixData.id, getD_listOfFn, getPure]; split_ifs <;> rfl
    have eT : d.Tc = fun i => (getPure P i).Tc := by
      subst hdd hP; funext i; simp only [MixData.Tc, getD_listOfFn, getPure]; split_ifs <;> rfl
    have ev : d.vc = fun i => (getPure P i).vc := by
      subst hdd hP; funext i; simp only [MixData.vc, getD_listOfFn, getPure]; split_ifs <;> rfl
    have et : (fun i : Fin n => d.terms.getD i []) = fun i => (P i).terms := by
      subst hdd hP; funext i; simp [getD_listOfFn]
    have eR : (fun i : Fin n => (List.ofFn fun i => (data i).R).getD i 0) = fun i => (P i).R := by
      subst hP; funext i; simp [getD_listOfFn]
    rw [← hP, ← hdd]
    have eF := symLoop_congr (fun i k => pairFDoc (.arr els) j (d.id i) (d.id k)) (pairF col d.id f) (upperPairs n)
      (fun p _ => pairFDoc_eq els col j f _ p.1 p.2 hc hf) fun _ _ => 0
    have eD := symLoop_congr (fun i k => pairDepDoc sp (.arr ds) (.arr els) j (d.id i) (d.id k)) (pairDep deps col d.id f) (upperPairs n)
      (fun p _ => pairDepDoc_eq sp ds els deps col j f _ p.1 p.2 hd hc hf) fun _ _ => []
    have eM := bipLoopDoc_eq (fun i k => getBinaryInteractionDoc (.arr els) j (d.id i) (d.id k) (d.Tc i) (d.Tc k) (d.vc i) (d.vc k))
      col d.id f d.Tc d.vc (upperPairs n)
      (fun p _ => getBinaryInteractionDoc_eq els col j f _ _ _ _ _ _ hc hf) fun _ _ => ⟨0, 0, 0, 0⟩
    unfold buildMixture getFMatrix getDepMatrix getBIPMatrices
    simp only [eF, eD, eM, ← eid, ← eT, ← ev]
    cases symLoop (pairF col d.id f) (upperPairs n) fun _ _ => 0 <;> try rfl
    rename_i F
    simp only [Outcome.bind_ok]
    cases symLoop (pairDep deps col d.id f) (upperPairs n) fun _ _ => [] <;> try rfl
    rename_i D
    simp only [Outcome.bind_ok]
    cases bipLoop col d.id f d.Tc d.vc (upperPairs n) (fun _ _ => ⟨0, 0, 0, 0⟩) <;> try rfl
    rename_i M
    simp only [Outcome.bind_ok, Outcome.ok.injEq, Prod.mk.injEq, and_true]
    unfold assemble
    congr 1
    cases asksCodata j
    · simp only [Bool.false_eq_true, if_false, Option.some.injEq]
      exact eR
    · rfl

/-! ## Which identifiers -/

theorem idsOf_clean (col : List BIPEntry) (f : BIPFlags) (set : List (String × List String)) :
    idsOf col f set = .throws .stdInvalidArgument ∨ ∃ p ∈ set, idsOf col f set = .ok p.2 ∧ Resolvable col f p.2 := by
  induction set with
  | nil => exact .inl rfl
  | cons p rest ih =>
    obtain ⟨key, ids⟩ := p
    unfold idsOf
    cases h : tryPairs col f ids with
    | ok u => exact .inr ⟨(key, ids), by simp, rfl, (tryPairs_spec col f ids).2.mp ⟨u, h⟩⟩
    | _ =>
      rcases ih with h' | ⟨q, hq, h1, h2⟩
      · exact .inl h'
      · exact .inr ⟨q, by simp [hq], h1, h2⟩

theorem filterMap_ofFn_length {n : ℕ} (infos : Fin n → FluidInfo)
    (h : ((List.ofFn infos).filterMap (·.hash)).length = (List.ofFn infos).length) :
    ∃ hs : Fin n → String, (∀ i, (infos i).hash = some (hs i)) ∧ (List.ofFn infos).filterMap (·.hash) = List.ofFn hs := by
  have hall : ∀ l : List FluidInfo, (l.filterMap (·.hash)).length = l.length → ∀ a ∈ l, ∃ s, a.hash = some s := by
    intro l
    induction l with
    | nil => simp
    | cons a l ih =>
      intro hl
      cases ha : a.hash with
      | none =>
        rw [List.filterMap_cons_none (f := fun x : FluidInfo => x.hash) ha] at hl
        have := List.length_filterMap_le (·.hash) l
        simp only [List.length_cons] at hl
        omega
      | some s =>
        rw [List.filterMap_cons_some (f := fun x : FluidInfo => x.hash) ha] at hl
        intro b hb
        rcases List.mem_cons.mp hb with rfl | hb
        · exact ⟨s, ha⟩
        · exact ih (by simpa using hl) b hb
  choose hs hhs using fun i : Fin n => hall _ h (infos i) (List.mem_ofFn.mpr ⟨i, rfl⟩)
  refine ⟨hs, hhs, ?_⟩
  rw [List.ofFn_eq_map, List.ofFn_eq_map, List.filterMap_map]
  have : ((fun x : FluidInfo => x.hash) ∘ infos) = fun i => some (hs i) := by funext i; exact hhs i
  rw [this]
  exact congrFun List.filterMap_eq_map' _

/-- Fluids no two of which share an identifier. -/
structure NoneShared {n : ℕ} (infos : Fin n → FluidInfo) : Prop where
  cas : ∀ i k, i ≠ k → (infos i).cas.toUpper ≠ (infos k).cas.toUpper
  name : ∀ i k, i ≠ k → (infos i).name.toUpper ≠ (infos k).name.toUpper
  refprop : ∀ i k, i ≠ k → (infos i).refprop.toUpper ≠ (infos k).refprop.toUpper
  hash : ∀ i k, i ≠ k → ∀ a b, (infos i).hash = some a → (infos k).hash = some b → a.toUpper ≠ b.toUpper

/-- One kind of identifier. -/
inductive Kind where
  | cas | name | refprop | hash

/-- `id` is the identifier of this kind of the fluid. -/
def Kind.Is (k : Kind) (f : FluidInfo) (id : String) : Prop := match k with
  | .cas => f.cas = id
  | .name => f.name = id
  | .refprop => f.refprop = id
  | .hash => f.hash = some id

theorem collected {n : ℕ} (infos : Fin n → FluidInfo) (p : String × List String) (h : p ∈ collectIdentifiers (List.ofFn infos)) :
    ∃ (k : Kind) (id : Fin n → String), p.2 = List.ofFn id ∧ ∀ i, k.Is (infos i) (id i) := by
  unfold collectIdentifiers at h
  simp only [List.cons_append, List.nil_append, List.mem_cons] at h
  rcases h with rfl | rfl | rfl | h
  · exact ⟨.cas, fun i => (infos i).cas, by simp [List.ofFn_eq_map], fun _ => rfl⟩
  · exact ⟨.name, fun i => (infos i).name, by simp [List.ofFn_eq_map], fun _ => rfl⟩
  · exact ⟨.refprop, fun i => (infos i).refprop, by simp [List.ofFn_eq_map], fun _ => rfl⟩
  · split_ifs at h with hl
    · simp only [List.mem_singleton] at h
      subst h
      obtain ⟨hs, h1, h2⟩ := filterMap_ofFn_length infos hl
      exact ⟨.hash, hs, h2, h1⟩
    · cases h

theorem NoneShared.distinct {n : ℕ} {infos : Fin n → FluidInfo} (h : NoneShared infos) (k : Kind) (id : Fin n → String) (data : Fin n → PureData)
    (hk : ∀ i, k.Is (infos i) (id i)) : Distinct fun i => { data i with id := id i } := by
  intro a b hab
  change (id a).toUpper ≠ (id b).toUpper
  have ha := hk a
  have hb := hk b
  cases k with
  | cas => rw [← ha, ← hb]; exact h.cas a b hab
  | name => rw [← ha, ← hb]; exact h.name a b hab
  | refprop => rw [← ha, ← hb]; exact h.refprop a b hab
  | hash => exact h.hash a b hab _ _ ha hb

/-- C158. The mixture is refused for want of pairs, or is that of one kind of identifier, all pairs of which are in the
collection. -/
theorem documents_outcome_partial {n : ℕ} (sp : SpecialTerms) (pures : Fin n → JTree) (els ds : List JTree) (j : JTree)
    (infos : Fin n → FluidInfo) (data : Fin n → PureData) (col : List BIPEntry) (deps : List DepEntry) (f : BIPFlags)
    (hp : ∀ i, FluidIs sp (pures i) (infos i) (data i)) (hc : List.Forall₂ EntryIs els col) (hd : List.Forall₂ (DepIs sp) ds deps) (hf : FlagsAre j f) :
    buildMixDoc sp pures (.arr els) (.arr ds) j = .throws .stdInvalidArgument ∨
    ∃ (k : Kind) (id : Fin n → String), (∀ i, k.Is (infos i) (id i)) ∧ Resolvable col f (List.ofFn id) ∧
      buildMixDoc sp pures (.arr els) (.arr ds) j =
        (buildMixture (fun i => { data i with id := id i }) col deps f (asksCodata j)).bind fun m =>
          .ok (m, if asksCodata j then .codata else .weighted (List.ofFn fun i => (data i).R)) := by
  obtain ⟨h1, h2⟩ := mixture_of_documents sp pures els ds j infos data col deps f hp hc hd hf
  rcases idsOf_clean col f (collectIdentifiers (List.ofFn infos)) with h | ⟨p, hp', h, hr⟩
  · exact .inl (h1 _ h)
  · obtain ⟨k, id, e, hk⟩ := collected infos p hp'
    rw [e] at h hr
    exact .inr ⟨k, id, hk, hr, h2 id h⟩

/-- C158. In a mixture that was built from documents, the pure limit is the fluid of the document. -/
theorem documents_pure {n : ℕ} (sp : SpecialTerms) (pures : Fin n → JTree) (els ds : List JTree) (j : JTree)
    (infos : Fin n → FluidInfo) (data : Fin n → PureData) (col : List BIPEntry) (deps : List DepEntry) (f : BIPFlags)
    (hp : ∀ i, FluidIs sp (pures i) (infos i) (data i)) (hc : List.Forall₂ EntryIs els col) (hd : List.Forall₂ (DepIs sp) ds deps) (hf : FlagsAre j f)
    (hs : NoneShared infos) (m : MultiFluid n) (g : GasR) (hb : buildMixDoc sp pures (.arr els) (.arr ds) j = .ok (m, g)) (k : Fin n) (T rho Rco : ℝ) :
    m.alphar T rho (Pi.single k 1) = containerAlphar (data k).terms ((data k).Tc / T) (rho * (data k).vc) ∧
    m.R Rco (Pi.single k 1) = if asksCodata j then Rco else (data k).R := by
  rcases documents_outcome_partial sp pures els ds j infos data col deps f hp hc hd hf with h | ⟨kd, id, hk, _, h⟩
  · rw [h] at hb; cases hb
  · rw [h, Outcome.bind_eq_ok] at hb
    obtain ⟨m', h1, h2⟩ := hb
    simp only [Outcome.ok.injEq, Prod.mk.injEq] at h2
    rw [← h2.1]
    exact mixture_pure _ col deps f _ m' (hs.distinct kd id data hk) h1 k T rho Rco

/-- C158. A single fluid needs no binary data: whatever documents are given for them, the mixture is the fluid. -/
theorem documents_single (sp : SpecialTerms) (pures : Fin 1 → JTree) (col deps j : JTree) (info : FluidInfo) (data : PureData)
    (hp : FluidIs sp (pures 0) info data) :
    ∃ m g, buildMixDoc sp pures col deps j = .ok (m, g) ∧
      (∀ T rho Rco, m.alphar T rho ![1] = containerAlphar data.terms (data.Tc / T) (rho * data.vc) ∧
        m.R Rco ![1] = if asksCodata j then Rco else data.R) := by
  have e1 : List.ofFn pures = [pures 0] := by simp
  have key : buildMixDoc sp pures col deps j = buildMixDoc sp pures (.arr []) (.arr []) (if asksCodata j then .obj [("Rmodel", .str "CODATA")] else .null) := by
    have hR := mapOutcome_ofFn fluidR pures (fun _ => data.R) fun i => by rw [Subsingleton.elim i 0]; exact fluidR_of hp
    unfold buildMixDoc
    rw [e1]
    simp only [mapOutcome, pureState_of hp, pureTerms_of hp, fluidR_of hp, pureInfo_of hp, Outcome.bind_ok]
    rw [show upperPairs 1 = [] by decide]
    simp only [collectIdentifiers, List.map_cons, List.map_nil, List.cons_append, chooseIds, tryPairsDoc, tryRowDoc, Outcome.bind_ok, symLoop, bipLoopDoc]
    rw [e1] at hR
    rw [gasROf_of _ _ _ hR, gasROf_of _ _ _ hR]
    cases asksCodata j <;> rfl
  rw [key]
  have hf : FlagsAre (if asksCodata j then .obj [("Rmodel", .str "CODATA")] else .null) {} := by
    cases asksCodata j
    · exact ⟨rfl, rfl, rfl⟩
    · exact ⟨rfl, rfl, rfl⟩
  have hcod : asksCodata (if asksCodata j then .obj [("Rmodel", .str "CODATA")] else .null) = asksCodata j := by
    cases asksCodata j <;> rfl
  have hpp : ∀ i : Fin 1, FluidIs sp (pures i) info data := fun i => by rw [Subsingleton.elim i 0]; exact hp
  have hrefine := (mixture_of_documents sp pures [] [] _ (fun _ => info) (fun _ => data) [] [] {} hpp .nil .nil hf).2 (fun _ => info.cas) (by
    simp [collectIdentifiers, idsOf, tryPairs, tryRow])
  obtain ⟨m, hm⟩ := build_ok (n := 1) (fun _ => { data with id := info.cas }) [] [] {} (asksCodata j) fun i k hik => by omega
  rw [hrefine, hcod, hm]
  refine ⟨m, _, rfl, fun T rho Rco => ?_⟩
  have := mixture_pure _ [] [] {} _ m (fun i k hik => absurd (Subsingleton.elim i k) hik) hm 0 T rho Rco
  have e : (Pi.single 0 1 : Fin 1 → ℝ) = ![1] := by ext i; fin_cases i; rfl
  rw [e] at this
  exact this

/-! ## The order of the documents -/

theorem hashPass_mem (a b : String) (l : List BIPEntry) (r : BIPEntry × Bool) (h : hashPass a b l = .ok (some r)) : r.1 ∈ l := by
  induction l with
  | nil => cases h
  | cons el els ih =>
    rw [hashPass] at h
    split_ifs at h with h0
    · exact List.mem_cons_of_mem _ (ih h)
    · rw [Outcome.bind_eq_ok] at h
      obtain ⟨h1, _, h⟩ := h
      rw [Outcome.bind_eq_ok] at h
      obtain ⟨h2, _, h⟩ := h
      split at h
      · cases h; simp
      · exact List.mem_cons_of_mem _ (ih h)

theorem namePass_mem (a b : String) (l : List BIPEntry) (r : BIPEntry × Bool) (h : namePass a b l = .ok (some r)) : r.1 ∈ l := by
  induction l with
  | nil => cases h
  | cons el els ih =>
    rw [namePass, Outcome.bind_eq_ok] at h
    obtain ⟨h1, _, h⟩ := h
    rw [Outcome.bind_eq_ok] at h
    obtain ⟨h2, _, h⟩ := h
    split at h
    · cases h; simp
    · exact List.mem_cons_of_mem _ (ih h)

theorem casPass_mem (a b : String) (l : List BIPEntry) (r : BIPEntry × Bool) (h : casPass a b l = .ok (some r)) : r.1 ∈ l := by
  induction l with
  | nil => cases h
  | cons el els ih =>
    rw [casPass, Outcome.bind_eq_ok] at h
    obtain ⟨h1, _, h⟩ := h
    rw [Outcome.bind_eq_ok] at h
    obtain ⟨h2, _, h⟩ := h
    split at h
    · cases h; simp
    · exact List.mem_cons_of_mem _ (ih h)

theorem estimateBIP_lb (s : Option String) (r : BIPEntry × Bool) (h : estimateBIP s = .ok r) : r.1 = lorentzBerthelot := by
  unfold estimateBIP at h
  split at h <;> cases h
  rfl

/-- What is found is in the collection or estimated. -/
theorem getBIPdep_mem (col : List BIPEntry) (a b : String) (f : BIPFlags) (r : BIPEntry × Bool) (h : getBIPdep col a b f = .ok r) :
    r.1 ∈ col ∨ r.1 = lorentzBerthelot := by
  unfold getBIPdep at h
  by_cases h0 : f.forceEstimate = true
  · rw [if_pos h0] at h
    exact .inr (estimateBIP_lb _ r h)
  · rw [if_neg h0, Outcome.bind_eq_ok] at h
    obtain ⟨r0, e0, h⟩ := h
    cases r0 with
    | some r0 => cases h; exact .inl (hashPass_mem _ _ _ _ e0)
    | none =>
    simp only [Outcome.bind_eq_ok] at h
    obtain ⟨r1, e1, h⟩ := h
    cases r1 with
    | some r1 => cases h; exact .inl (namePass_mem _ _ _ _ e1)
    | none =>
    simp only [Outcome.bind_eq_ok] at h
    obtain ⟨r2, e2, h⟩ := h
    cases r2 with
    | some r2 => cases h; exact .inl (casPass_mem _ _ _ _ e2)
    | none =>
      simp only at h
      split_ifs at h
      exact .inr (estimateBIP_lb _ r h)

/-- The parameters `beta` of a collection that are given are positive. -/
def PositiveBetas (col : List BIPEntry) : Prop := ∀ e ∈ col, (∀ x, e.betaT = some x → 0 < x) ∧ ∀ x, e.betaV = some x → 0 < x

theorem positive_found (col : List BIPEntry) (h : PositiveBetas col) (a b : String) (f : BIPFlags) (Ta Tb va vb : ℝ) (p : BIP)
    (hp : getBinaryInteraction col a b f Ta Tb va vb = .ok p) : 0 < p.betaT ∧ 0 < p.betaV := by
  unfold getBinaryInteraction at hp
  rw [Outcome.bind_eq_ok] at hp
  obtain ⟨r, h1, h2⟩ := hp
  have hr : (∀ x, r.1.betaT = some x → 0 < x) ∧ ∀ x, r.1.betaV = some x → 0 < x := by
    rcases getBIPdep_mem col a b f r h1 with h' | h'
    · exact h _ h'
    · rw [h']
      constructor <;> (intro x hx; cases hx; norm_num)
  unfold bipOfEntry at h2
  split at h2
  · rename_i bT gT bV gV e1 e2 e3 e4
    have p1 := hr.1 _ e1
    have p2 := hr.2 _ e3
    split_ifs at h2 <;> cases h2
    · exact ⟨by positivity, by positivity⟩
    · exact ⟨p1, p2⟩
  · split at h2 <;> cases h2
    exact ⟨one_pos, one_pos⟩

/-- Both lists of identifiers of the same kind, or neither. -/
theorem collected_perm {n : ℕ} (infos : Fin n → FluidInfo) (σ : Equiv.Perm (Fin n)) :
    List.Forall₂ (fun p q : String × List String => ∃ (k : Kind) (id : Fin n → String), (∀ i, k.Is (infos i) (id i)) ∧
      p.2 = List.ofFn id ∧ q.2 = List.ofFn fun i => id (σ i))
      (collectIdentifiers (List.ofFn infos)) (collectIdentifiers (List.ofFn fun i => infos (σ i))) := by
  unfold collectIdentifiers
  refine List.Forall₂.cons ⟨.cas, fun i => (infos i).cas, fun _ => rfl, by simp [List.ofFn_eq_map], by simp [List.ofFn_eq_map]⟩ ?_
  refine List.Forall₂.cons ⟨.name, fun i => (infos i).name, fun _ => rfl, by simp [List.ofFn_eq_map], by simp [List.ofFn_eq_map]⟩ ?_
  refine List.Forall₂.cons ⟨.refprop, fun i => (infos i).refprop, fun _ => rfl, by simp [List.ofFn_eq_map], by simp [List.ofFn_eq_map]⟩ ?_
  have hperm : (List.ofFn fun i => infos (σ i)).Perm (List.ofFn infos) := Equiv.Perm.ofFn_comp_perm σ infos
  have hlen : ((List.ofFn fun i => infos (σ i)).filterMap (·.hash)).length = ((List.ofFn infos).filterMap (·.hash)).length :=
    (hperm.filterMap _).length_eq
  by_cases h : ((List.ofFn infos).filterMap (·.hash)).length = (List.ofFn infos).length
  · have h' : ((List.ofFn fun i => infos (σ i)).filterMap (·.hash)).length = (List.ofFn fun i => infos (σ i)).length := by
      rw [hlen, h, List.length_ofFn, List.length_ofFn]
    change List.Forall₂ _ (if _ then _ else _) (if _ then _ else _)
    rw [if_pos h, if_pos h']
    obtain ⟨hs, h1, h2⟩ := filterMap_ofFn_length infos h
    obtain ⟨hs', h1', h2'⟩ := filterMap_ofFn_length _ h'
    refine List.Forall₂.cons ⟨.hash, hs, h1, h2, ?_⟩ .nil
    rw [h2']
    change List.ofFn hs' = List.ofFn _
    congr 1
    funext i
    have := h1' i
    rw [h1] at this
    exact (Option.some.inj this).symm
  · have h' : ¬ ((List.ofFn fun i => infos (σ i)).filterMap (·.hash)).length = (List.ofFn fun i => infos (σ i)).length := by
      rw [hlen, List.length_ofFn]
      rwa [List.length_ofFn] at h
    change List.Forall₂ _ (if _ then _ else _) (if _ then _ else _)
    rw [if_neg h, if_neg h']
    exact .nil

theorem resolvable_perm {n : ℕ} (col : List BIPEntry) (f : BIPFlags) (id : Fin n → String) (σ : Equiv.Perm (Fin n))
    (hd : ∀ i k, i ≠ k → (id i).toUpper ≠ (id k).toUpper) (h : Resolvable col f (List.ofFn id)) :
    Resolvable col f (List.ofFn fun i => id (σ i)) := by
  unfold Resolvable at h ⊢
  rw [List.pairwise_ofFn] at h ⊢
  intro i k hik
  have hne : σ i ≠ σ k := fun e => (ne_of_lt hik) (σ.injective e)
  rcases lt_or_gt_of_ne hne with h' | h'
  · exact h h'
  · obtain ⟨⟨el, s⟩, hr⟩ := h h'
    obtain ⟨s', hr', _⟩ := (getBIPdep_order col _ _ f (hd _ _ (Ne.symm hne))).1 el s hr
    exact ⟨_, hr'⟩

theorem idsOf_skip (col : List BIPEntry) (f : BIPFlags) (key : String) (ids : List String) (rest : List (String × List String))
    (h : ¬ ∃ u, tryPairs col f ids = .ok u) : idsOf col f ((key, ids) :: rest) = idsOf col f rest := by
  rw [idsOf]
  cases ht : tryPairs col f ids with
  | ok u => exact absurd ⟨u, ht⟩ h
  | _ => rfl

theorem idsOf_perm {n : ℕ} (col : List BIPEntry) (f : BIPFlags) (infos : Fin n → FluidInfo) (σ : Equiv.Perm (Fin n)) (hs : NoneShared infos)
    (set set' : List (String × List String))
    (h : List.Forall₂ (fun p q : String × List String => ∃ (k : Kind) (id : Fin n → String), (∀ i, k.Is (infos i) (id i)) ∧
      p.2 = List.ofFn id ∧ q.2 = List.ofFn fun i => id (σ i)) set set') :
    (idsOf col f set = .throws .stdInvalidArgument ∧ idsOf col f set' = .throws .stdInvalidArgument) ∨
    ∃ (k : Kind) (id : Fin n → String), (∀ i, k.Is (infos i) (id i)) ∧ idsOf col f set = .ok (List.ofFn id) ∧
      idsOf col f set' = .ok (List.ofFn fun i => id (σ i)) := by
  induction h with
  | nil => exact .inl ⟨rfl, rfl⟩
  | @cons p q _ _ hpq _ ih =>
    obtain ⟨k, id, hk, e1, e2⟩ := hpq
    obtain ⟨key, ids⟩ := p
    obtain ⟨key', ids'⟩ := q
    simp only at e1 e2
    subst e1 e2
    have hd := hs.distinct k id (fun _ => ⟨"", 0, 0, 0, []⟩) hk
    have hd1 : ∀ i k, i ≠ k → (id i).toUpper ≠ (id k).toUpper := fun i k h => hd i k h
    have hiff : Resolvable col f (List.ofFn id) ↔ Resolvable col f (List.ofFn fun i => id (σ i)) := by
      refine ⟨resolvable_perm col f id σ hd1, fun h => ?_⟩
      have := resolvable_perm col f (fun i => id (σ i)) σ⁻¹ (fun i k hik => hd1 _ _ fun e => hik (σ.injective e)) h
      simpa using this
    rw [← (tryPairs_spec col f _).2, ← (tryPairs_spec col f _).2] at hiff
    by_cases h1 : ∃ u, tryPairs col f (List.ofFn id) = .ok u
    · obtain ⟨u', hu'⟩ := hiff.mp h1
      obtain ⟨u, hu⟩ := h1
      rw [idsOf, idsOf]
      rw [hu, hu']
      exact .inr ⟨k, id, hk, rfl, rfl⟩
    · have h2 := fun h => h1 (hiff.mpr h)
      rw [idsOf_skip col f _ _ _ h1, idsOf_skip col f _ _ _ h2]
      exact ih

/-- C158. Listing the documents of the fluids in another order gives the same mixture. -/
theorem documents_relabel {n : ℕ} (sp : SpecialTerms) (pures : Fin n → JTree) (els ds : List JTree) (j : JTree)
    (infos : Fin n → FluidInfo) (data : Fin n → PureData) (col : List BIPEntry) (deps : List DepEntry) (f : BIPFlags)
    (hp : ∀ i, FluidIs sp (pures i) (infos i) (data i)) (hc : List.Forall₂ EntryIs els col) (hd : List.Forall₂ (DepIs sp) ds deps) (hf : FlagsAre j f)
    (hs : NoneShared infos) (hpos : PositiveBetas col) (m : MultiFluid n) (g : GasR)
    (hb : buildMixDoc sp pures (.arr els) (.arr ds) j = .ok (m, g)) (σ : Equiv.Perm (Fin n)) :
    ∃ m' g', buildMixDoc sp (fun i => pures (σ i)) (.arr els) (.arr ds) j = .ok (m', g') ∧
      ∀ (T rho : ℝ) (z : Fin n → ℝ), (∀ i, 0 ≤ z i) → m'.alphar T rho (fun i => z (σ i)) = m.alphar T rho z := by
  obtain ⟨h1, h2⟩ := mixture_of_documents sp pures els ds j infos data col deps f hp hc hd hf
  obtain ⟨_, h2'⟩ := mixture_of_documents sp (fun i => pures (σ i)) els ds j (fun i => infos (σ i)) (fun i => data (σ i)) col deps f (fun i => hp (σ i)) hc hd hf
  rcases idsOf_perm col f infos σ hs _ _ (collected_perm infos σ) with ⟨h, _⟩ | ⟨k, id, hk, h, h'⟩
  · rw [h1 _ h] at hb; cases hb
  · rw [h2 id h, Outcome.bind_eq_ok] at hb
    obtain ⟨m0, h3, h4⟩ := hb
    simp only [Outcome.ok.injEq, Prod.mk.injEq] at h4
    obtain ⟨m', h5, h6⟩ := mixture_relabel _ col deps f _ m0 (hs.distinct k id data hk)
      (fun _ _ p _ hp => positive_found col hpos _ _ f _ _ _ _ p hp) h3 σ
    refine ⟨m', if asksCodata j then .codata else .weighted (List.ofFn fun i => (data (σ i)).R), ?_, ?_⟩
    · rw [h2' _ h', h5]; rfl
    · rw [← h4.1]; exact h6

/-! ## An example -/

/-- A Gaussian term of one entry. -/
noncomputable def oneGaussDoc (n : ℝ) : JObj :=
  [("type", .str "ResidualHelmholtzGaussian"), ("n", .arr [n]), ("t", .arr [1]), ("d", .arr [1]), ("eta", .arr [1]), ("beta", .arr [2]),
    ("gamma", .arr [1]), ("epsilon", .arr [1])]

/-- The document of a fluid. -/
noncomputable def sampleFluid (name cas : String) (Tc rho R n : ℝ) : JTree :=
  .obj [("INFO", .obj [("NAME", .str name), ("CAS", .str cas), ("REFPROP_NAME", .str name)]),
    ("EOS", .arr [.obj [("STATES", .obj [("reducing", .obj [("T", .num Tc), ("rhomolar", .num rho)])]), ("gas_constant", .num R),
      ("alphar", .arr [(oneGaussDoc n).toTree])]])]

theorem oneGaussDoc_built (n : ℝ) : ∃ ts, getEOSTerms [oneGaussDoc n] = .ok ts := ⟨_, rfl⟩

/-- Its terms. -/
noncomputable def gaussTerms (n : ℝ) : List ResTerm := Classical.choose (oneGaussDoc_built n)

theorem sampleFluid_is (sp : SpecialTerms) (name cas : String) (Tc rho R n : ℝ) (id : String) (h : rho ≠ 0) :
    FluidIs sp (sampleFluid name cas Tc rho R n) { name := name, cas := cas, refprop := name } ⟨id, Tc, 1 / rho, R, gaussTerms n⟩ where
  info := ⟨_, rfl, rfl, rfl, rfl, (fun _ h => by cases h), fun _ => rfl⟩
  eos := ⟨_, [], _, _, rho, [(oneGaussDoc n).toTree], rfl, rfl, rfl, rfl, rfl, h, rfl, rfl, rfl, terms_flat sp _ _ (Classical.choose_spec (oneGaussDoc_built n))⟩

/-- The document of the entry `sampleBIP`. -/
noncomputable def sampleBIPDoc : JTree :=
  .obj [("Name1", .str "E"), ("Name2", .str "m"), ("CAS1", .str "74-84-0"), ("CAS2", .str "74-82-8"), ("betaT", .num 2), ("gammaT", .num 3),
    ("betaV", .num 4), ("gammaV", .num 5), ("F", .num 0)]

theorem sampleBIPDoc_is : EntryIs sampleBIPDoc sampleBIP := ⟨_, rfl, rfl, rfl, rfl, rfl, rfl, rfl, rfl, rfl, rfl, rfl, rfl, rfl, rfl, rfl, by simp⟩

/-- The two fluids. -/
noncomputable def sampleFluids : Fin 2 → JTree := ![sampleFluid "e" "1" 305 10 8.3 1, sampleFluid "M" "2" 190 5 8.4 2]

noncomputable def sampleInfos : Fin 2 → FluidInfo := ![{ name := "e", cas := "1", refprop := "e" }, { name := "M", cas := "2", refprop := "M" }]

noncomputable def sampleData : Fin 2 → PureData := ![⟨"e", 305, 1 / 10, 8.3, gaussTerms 1⟩, ⟨"M", 190, 1 / 5, 8.4, gaussTerms 2⟩]

theorem sampleFluids_are (sp : SpecialTerms) (i : Fin 2) : FluidIs sp (sampleFluids i) (sampleInfos i) (sampleData i) := by
  fin_cases i
  · exact sampleFluid_is sp "e" "1" 305 10 8.3 1 "e" (by norm_num)
  · exact sampleFluid_is sp "M" "2" 190 5 8.4 2 "M" (by norm_num)

theorem sampleInfos_shared : NoneShared sampleInfos := by
  refine ⟨?_, ?_, ?_, ?_⟩ <;> intro i k hik <;> fin_cases i <;> fin_cases k <;> first
    | exact absurd rfl hik
    | (change "1".toUpper ≠ "2".toUpper; rw [up_1, up_2]; decide)
    | (change "2".toUpper ≠ "1".toUpper; rw [up_1, up_2]; decide)
    | (change "e".toUpper ≠ "M".toUpper; rw [up_e, up_M]; decide)
    | (change "M".toUpper ≠ "e".toUpper; rw [up_e, up_M]; decide)
    | (intro a b ha; cases ha)

theorem sample_ids : idsOf [sampleBIP] {} (collectIdentifiers (List.ofFn sampleInfos)) = .ok (List.ofFn ![("e" : String), "M"]) := by
  have e : collectIdentifiers (List.ofFn sampleInfos) = [("CAS", ["1", "2"]), ("Name", ["e", "M"]), ("REFPROP", ["e", "M"])] := rfl
  rw [e, idsOf_skip, idsOf]
  · simp [tryPairs, tryRow, sample_lookup]
  · simp [tryPairs, tryRow, sample_unresolved, Outcome.bind]

theorem sample_documents (sp : SpecialTerms) (ds : List JTree) (deps : List DepEntry) (hd : List.Forall₂ (DepIs sp) ds deps) :
    ∃ m, buildMixDoc sp sampleFluids (.arr [sampleBIPDoc]) (.arr ds) .null = .ok (m, .weighted [8.3, 8.4]) := by
  have h := (mixture_of_documents sp sampleFluids [sampleBIPDoc] ds .null sampleInfos sampleData [sampleBIP] deps {} (sampleFluids_are sp)
    (.cons sampleBIPDoc_is .nil) hd ⟨rfl, rfl, rfl⟩).2 _ sample_ids
  obtain ⟨m, hm⟩ := build_ok (fun i => { sampleData i with id := ![("e" : String), "M"] i }) [sampleBIP] deps {} false fun i k hik => by
    have hi : i = 0 := by omega
    have hk : k = 1 := by omega
    subst hi hk
    refine ⟨0, [.null], ⟨2, 3, 4, 5⟩, ⟨sampleBIP, false, sample_lookup, rfl, rfl⟩, ?_, ?_⟩
    · change (getBIPdep [sampleBIP] "e" "M" {}).bind _ = _
      rw [sample_lookup]; rfl
    · exact ⟨by norm_num, by norm_num⟩
  refine ⟨m, ?_⟩
  rw [h]
  change (buildMixture _ _ _ _ false).bind _ = _
  rw [hm]
  rfl

/-- The pure limits of the example, with either order of the fluids. -/
example (sp : SpecialTerms) : ∃ m, buildMixDoc sp sampleFluids (.arr [sampleBIPDoc]) (.arr []) .null = .ok (m, .weighted [8.3, 8.4]) ∧
    m.alphar 95 7 (Pi.single 1 1) = containerAlphar (gaussTerms 2) (190 / 95) (7 * (1 / 5)) ∧ m.R 8 (Pi.single 1 1) = 8.4 := by
  obtain ⟨m, hm⟩ := sample_documents sp [] [] .nil
  have h := documents_pure sp sampleFluids [sampleBIPDoc] [] .null sampleInfos sampleData [sampleBIP] [] {} (sampleFluids_are sp)
    (.cons sampleBIPDoc_is .nil) .nil ⟨rfl, rfl, rfl⟩ sampleInfos_shared m _ hm 1 95 7 8
  exact ⟨m, hm, h.1, h.2⟩

example (sp : SpecialTerms) : ∃ m m' g, buildMixDoc sp sampleFluids (.arr [sampleBIPDoc]) (.arr []) .null = .ok (m, .weighted [8.3, 8.4]) ∧
    buildMixDoc sp (fun i => sampleFluids (Equiv.swap 0 1 i)) (.arr [sampleBIPDoc]) (.arr []) .null = .ok (m', g) ∧
    m'.alphar 95 7 ![0.75, 0.25] = m.alphar 95 7 ![0.25, 0.75] := by
  obtain ⟨m, hm⟩ := sample_documents sp [] [] .nil
  obtain ⟨m', g, hm', hv⟩ := documents_relabel sp sampleFluids [sampleBIPDoc] [] .null sampleInfos sampleData [sampleBIP] [] {} (sampleFluids_are sp)
    (.cons sampleBIPDoc_is .nil) .nil ⟨rfl, rfl, rfl⟩ sampleInfos_shared (by
      intro e he
      have : e = sampleBIP := by simpa using he
      subst this
      constructor <;> (intro x hx; cases hx; norm_num)) m _ hm (Equiv.swap 0 1)
  refine ⟨m, m', g, hm, hm', ?_⟩
  have := hv 95 7 ![0.25, 0.75] (by intro i; fin_cases i <;> simp <;> norm_num)
  rw [← this]
  congr 1
  ext i
  fin_cases i <;> simp

/-- A single fluid with a collection that is not even an array. -/
example (sp : SpecialTerms) : ∃ m g, buildMixDoc sp ![sampleFluid "e" "1" 305 10 8.3 1] (.num 3) (.str "x") .null = .ok (m, g) ∧
    m.alphar 61 2 ![1] = containerAlphar (gaussTerms 1) (305 / 61) (2 * (1 / 10)) := by
  obtain ⟨m, g, h, hv⟩ := documents_single sp ![sampleFluid "e" "1" 305 10 8.3 1] (.num 3) (.str "x") .null _ _ (sampleFluid_is sp "e" "1" 305 10 8.3 1 "e" (by norm_num))
  exact ⟨m, g, h, (hv 61 2 8).1⟩

/-! ## Departure functions -/

theorem combined_guard (gerg : Bool) (o : JObj) (N : ℤ) :
    ((allSameLength o gaussKeys).bind fun same => if same = false then .throws .stdInvalidArgument
      else (buildCombined gerg o N).bind fun ts => .ok ts) = buildCombined gerg o N := by
  have e : ((buildCombined gerg o N).bind fun ts => .ok ts) = buildCombined gerg o N := by
    cases buildCombined gerg o N <;> rfl
  rw [e]
  cases h : allSameLength o gaussKeys with
  | ok same =>
    rw [Outcome.bind_ok]
    cases same
    · rw [if_pos rfl]
      unfold buildCombined
      rw [h, Outcome.bind_ok, if_pos rfl]
    · rw [if_neg (by simp)]
  | throws e => unfold buildCombined; rw [h]; rfl
  | ub => unfold buildCombined; rw [h]; rfl
  | nonFinite => unfold buildCombined; rw [h]; rfl

/-- The document of a departure function with the arrays, numbers and strings of `o`: `Npower` is a number where it is
read, and the exponents, if there are any, are an array. -/
theorem departure_flat (sp : SpecialTerms) (o : JObj) (name : String) (x : ℝ) (hn : o.lookup "Name" = some (.str name))
    (hc : o.type ≠ .ok "Chebyshev2D") (hN : o.lookup "Npower" = some (.num x)) (hl : o.lookup "l" = none ∨ ∃ r, o.lookup "l" = some (.arr r)) :
    DepIs sp o.toTree ⟨name, o, castInt x⟩ := by
  have hat : ∀ k, o.toTree.at k = match o.lookup k with | some v => .ok v.toTree | none => .throws .jsonError := by
    intro k
    unfold JObj.toTree JTree.at
    simp only [lookup_mapTree]
    cases o.lookup k <;> rfl
  refine ⟨by rw [hat, hn]; rfl, ?_⟩
  have hexp : exponentsRead o.toTree = .ok () := by
    unfold exponentsRead
    rcases hl with h | ⟨r, h⟩
    · rw [if_neg]
      unfold JTree.contains JObj.toTree
      simp [lookup_mapTree, h]
    · split_ifs
      · rw [hat, h]
        have : JTree.toRow (.arr (r.map JTree.num)) = .ok r := by
          have := mapOutcome_ok_of JTree.toDouble JTree.num id (fun _ => rfl) r
          simpa [JTree.toRow] using this
        change (JTree.toRow (.arr (r.map JTree.num))).bind _ = _
        rw [this]; rfl
      · rfl
  have hNp : npowerOf o.toTree = .ok (castInt x) := by
    unfold npowerOf
    rw [atConst_of (by rw [hat, hN] : o.toTree.at "Npower" = .ok (JVal.num x).toTree)]
    rfl
  unfold departureTerms
  simp only [termType_toTree, flat_toTree, hNp, hexp, Outcome.bind_ok]
  unfold buildDeparture
  cases ht : o.type with
  | ok ty =>
    simp only [Outcome.bind_ok]
    have hty : ty ≠ "Chebyshev2D" := fun h => hc (by rw [ht, h])
    rw [if_neg hty]
    by_cases h1 : ty = "GERG-2004" ∨ ty = "GERG-2008"
    · rw [if_pos (by tauto)]
      have e1 : ty ≠ "Exponential" := by rcases h1 with rfl | rfl <;> decide
      have e2 : ty ≠ "DoubleExponential" := by rcases h1 with rfl | rfl <;> decide
      simp only [if_neg e1, if_neg e2, if_pos h1]
      exact combined_guard true o _
    · by_cases h2 : ty = "Gaussian+Exponential"
      · rw [if_pos (by tauto)]
        have e1 : ty ≠ "Exponential" := by rw [h2]; decide
        have e2 : ty ≠ "DoubleExponential" := by rw [h2]; decide
        simp only [if_neg e1, if_neg e2, if_neg h1, if_pos h2]
        exact combined_guard false o _
      · rw [if_neg (by tauto)]
        simp only [if_neg h1, if_neg h2]
  | throws e => rfl
  | ub => rfl
  | nonFinite => rfl

/-- A departure function of one power term and one Gaussian term. -/
noncomputable def depDoc : JObj :=
  [("Name", .str "KW0"), ("type", .str "GERG-2008"), ("Npower", .num 1), ("n", .arr [1, 2]), ("t", .arr [1, 1]), ("d", .arr [1, 2]),
    ("eta", .arr [0, 1]), ("beta", .arr [0, 1]), ("gamma", .arr [0, 0.5]), ("epsilon", .arr [0, 0.5])]

theorem depDoc_is (sp : SpecialTerms) : DepIs sp depDoc.toTree ⟨"KW0", depDoc, castInt 1⟩ :=
  departure_flat sp depDoc "KW0" 1 rfl (by rw [show depDoc.type = .ok "GERG-2008" from rfl]; simp) rfl (.inl rfl)

/-- The example with a collection of departure functions, and refusals are the same. -/
example (sp : SpecialTerms) : ∃ m, buildMixDoc sp sampleFluids (.arr [sampleBIPDoc]) (.arr [depDoc.toTree]) .null = .ok (m, .weighted [8.3, 8.4]) :=
  sample_documents sp _ _ (.cons (depDoc_is sp) .nil)

example (sp : SpecialTerms) : buildMixDoc sp sampleFluids (.arr []) (.arr [depDoc.toTree]) .null = .throws .stdInvalidArgument := by
  refine (mixture_of_documents sp sampleFluids [] _ .null sampleInfos sampleData [] _ {} (sampleFluids_are sp) .nil (.cons (depDoc_is sp) .nil) ⟨rfl, rfl, rfl⟩).1 _ ?_
  have e : collectIdentifiers (List.ofFn sampleInfos) = [("CAS", ["1", "2"]), ("Name", ["e", "M"]), ("REFPROP", ["e", "M"])] := rfl
  have hne : ∀ a b, getBIPdep [] a b {} = .throws .stdInvalidArgument := fun _ _ => rfl
  rw [e, idsOf_skip, idsOf_skip, idsOf_skip] <;> simp [tryPairs, tryRow, hne, Outcome.bind, idsOf]

/-! ## What is neither built nor refused -/

/-- What the first equation of state of a fluid needs. -/
theorem bind_first_ub {α β : Type} (x : Outcome α) (g : α → Outcome β) (h : x = .ub) : x.bind g = .ub := by rw [h]; rfl

/-- C158 fails for fluids without an equation of state: the first fluid of a mixture has no field `EOS`, or its list is
empty, or there are no states, or no reducing state among them. -/
theorem fluid_without_eos {n : ℕ} (sp : SpecialTerms) (pures : Fin (n + 1) → JTree) (col deps flags : JTree) (fs : List (String × JTree))
    (h0 : pures 0 = .obj fs)
    (h : fs.lookup "EOS" = none ∨ fs.lookup "EOS" = some (.arr []) ∨
      ∃ e rest, fs.lookup "EOS" = some (.arr (.obj e :: rest)) ∧ (e.lookup "STATES" = none ∨
        ∃ s, e.lookup "STATES" = some (.obj s) ∧ s.lookup "reducing" = none)) :
    buildMixDoc sp pures col deps flags = .ub := by
  have hs : pureState (pures 0) = .ub := by
    rw [h0]
    unfold pureState
    rcases h with h | h | ⟨e, rest, h, h' | ⟨s, h', h''⟩⟩
    · simp [JTree.atConst, h, Outcome.bind]
    · simp [JTree.atConst, h, Outcome.bind, JTree.firstConst]
    · simp [JTree.atConst, h, h', Outcome.bind, JTree.firstConst]
    · simp [JTree.atConst, h, h', h'', Outcome.bind, JTree.firstConst]
  unfold buildMixDoc
  rw [List.ofFn_succ, mapOutcome, hs]
  rfl

example (sp : SpecialTerms) : buildMixDoc sp ![.obj [("INFO", .obj [])], sampleFluid "e" "1" 305 10 8.3 1] (.arr []) (.arr []) .null = .ub :=
  fluid_without_eos sp _ _ _ _ [("INFO", .obj [])] rfl (.inl rfl)

/-- C158 fails for a reducing density of zero. -/
theorem fluid_zero_density {n : ℕ} (sp : SpecialTerms) (pures : Fin (n + 1) → JTree) (col deps flags : JTree) (name cas : String) (Tc R x : ℝ)
    (h0 : pures 0 = sampleFluid name cas Tc 0 R x) : buildMixDoc sp pures col deps flags = .nonFinite := by
  have hs : pureState (pures 0) = .nonFinite := by
    rw [h0]
    simp [pureState, sampleFluid, JTree.atConst, JTree.firstConst, numAt, JTree.at, JTree.toDouble, Outcome.bind, List.lookup]
  unfold buildMixDoc
  rw [List.ofFn_succ, mapOutcome, hs]
  rfl

example (sp : SpecialTerms) : buildMixDoc sp ![sampleFluid "e" "1" 305 0 8.3 1] (.arr []) (.arr []) .null = .nonFinite :=
  fluid_zero_density sp _ _ _ _ _ _ _ _ _ rfl

/-- C158 fails for a departure function of the combined kinds without `Npower`, whatever else it says. -/
theorem departure_without_npower (sp : SpecialTerms) (fs : List (String × JTree)) (ty : String)
    (h : ty = "GERG-2004" ∨ ty = "GERG-2008" ∨ ty = "Gaussian+Exponential") (ht : fs.lookup "type" = some (.str ty))
    (hl : allSameLength (JTree.obj fs).flat gaussKeys = .ok true) (hN : fs.lookup "Npower" = none) :
    departureTerms sp (.obj fs) = .ub := by
  unfold departureTerms
  have e : termType (.obj fs) = .ok ty := by simp [termType, JTree.at, ht, JTree.toStr]
  have hc : ty ≠ "Chebyshev2D" := by rcases h with rfl | rfl | rfl <;> decide
  rw [e, Outcome.bind_ok, if_neg hc, if_pos h, hl, Outcome.bind_ok, if_neg (by simp)]
  simp [npowerOf, JTree.atConst, hN, Outcome.bind]

example (sp : SpecialTerms) : departureTerms sp (JObj.toTree [("type", .str "GERG-2008"), ("n", .arr [1, 2]), ("t", .arr [1, 1]), ("d", .arr [1, 2]),
    ("eta", .arr [0, 1]), ("beta", .arr [0, 1]), ("gamma", .arr [0, 0.5]), ("epsilon", .arr [0, 0.5])]) = .ub := by
  refine departure_without_npower sp _ "GERG-2008" (by simp) rfl ?_ rfl
  change allSameLength (JTree.flat (JObj.toTree _)) gaussKeys = _
  rw [flat_toTree]
  rfl

/-- C158 holds of everything after the first look-ups for documents of single fluids: without terms, or with terms of an
unknown type, the fluid is refused. -/
theorem fluid_without_terms (sp : SpecialTerms) (t : JTree) (e : List (String × JTree)) (rest : List JTree) (h : t.at "EOS" = .ok (.arr (.obj e :: rest))) :
    (e.lookup "alphar" = some (.arr []) → pureTerms sp t = .throws .invalidArgument) ∧
    (e.lookup "alphar" = none → pureTerms sp t = .ub) ∧
    (∀ ts ty x us, e.lookup "alphar" = some (.arr (ts ++ x :: us)) → (∀ y ∈ ts, ∃ s, y.at "type" = .ok (.str s) ∧ s ∈ pureTypes) → x.at "type" = .ok (.str ty) →
      ty ∉ pureTypes → pureTerms sp t = .throws .stdInvalidArgument) := by
  have hE : ((t.atConst "EOS").bind JTree.firstConst) = .ok (.obj e) := by rw [atConst_of h]; rfl
  refine ⟨fun ha => ?_, fun ha => ?_, fun ts ty x us ha hts hx hty => ?_⟩
  · rw [pureTerms, hE, Outcome.bind_ok]
    simp [JTree.atConst, ha, JTree.isEmpty]
  · rw [pureTerms, hE, Outcome.bind_ok]
    simp [JTree.atConst, ha, Outcome.bind]
  · have hcheck : ∀ ts : List JTree, (∀ y ∈ ts, ∃ s, y.at "type" = .ok (.str s) ∧ s ∈ pureTypes) → checkTermTypes (ts ++ x :: us) = .throws .stdInvalidArgument := by
      intro ts hts
      induction ts with
      | nil => simp [checkTermTypes, termType, hx, JTree.toStr, hty]
      | cons y ts ih =>
        obtain ⟨s, h1, h2⟩ := hts y (by simp)
        simp only [List.cons_append, checkTermTypes, termType, h1, Outcome.bind_ok, JTree.toStr, if_pos h2]
        exact ih fun z hz => hts z (by simp [hz])
    have hne : (JTree.arr (ts ++ x :: us)).isEmpty = false := by cases ts <;> rfl
    rw [pureTerms, hE, Outcome.bind_ok]
    simp only [JTree.atConst, ha, Outcome.bind_ok, hne, Bool.false_eq_true, if_false, JTree.items, hcheck ts hts]
    rfl

example (sp : SpecialTerms) : pureTerms sp (.obj [("EOS", .arr [.obj [("alphar", .arr [(oneGaussDoc 1).toTree, .obj [("type", .str "Gauss")]])]])]) =
    .throws .stdInvalidArgument :=
  (fluid_without_terms sp _ _ [] rfl).2.2 [(oneGaussDoc 1).toTree] "Gauss" _ [] rfl
    (by intro y hy
        have : y = (oneGaussDoc 1).toTree := by simpa using hy
        subst this
        exact ⟨"ResidualHelmholtzGaussian", rfl, by decide⟩) rfl (by decide)

/-! ## Collections that are none -/

/-- C158. A collection of pairs that is not an array, or whose first entry is not an object, is refused for any mixture of
two or more fluids, even where the parameters would be estimated. -/
theorem collection_refused {n : ℕ} (sp : SpecialTerms) (pures : Fin (n + 2) → JTree) (infos : Fin (n + 2) → FluidInfo) (data : Fin (n + 2) → PureData)
    (col deps flags : JTree) (hp : ∀ i, FluidIs sp (pures i) (infos i) (data i)) (h1 : col ≠ .arr []) (h2 : ∀ o els, col ≠ .arr (.obj o :: els)) :
    buildMixDoc sp pures col deps flags = .throws .stdInvalidArgument := by
  have hpair : pairEntries col = .throws .invalidArgument := by
    unfold pairEntries
    split
    · exact absurd rfl h1
    · exact absurd rfl (h2 _ _)
    · rfl
  have htry : ∀ a b l, tryPairsDoc col flags (a :: b :: l) = .throws .invalidArgument := by
    intro a b l
    simp [tryPairsDoc, tryRowDoc, getBIPdepDoc, hpair, Outcome.bind]
  have hall : ∀ set : List (String × List String), (∀ p ∈ set, ∃ a b l, p.2 = a :: b :: l) → chooseIds col flags set = .throws .stdInvalidArgument := by
    intro set hset
    induction set with
    | nil => rfl
    | cons p rest ih =>
      obtain ⟨k, ids⟩ := p
      obtain ⟨a, b, l, e⟩ := hset (k, ids) (by simp)
      simp only at e
      subst e
      rw [chooseIds, htry]
      exact ih fun q hq => hset q (by simp [hq])
  unfold buildMixDoc
  rw [mapOutcome_ofFn pureState pures _ fun i => pureState_of (hp i), Outcome.bind_ok,
    mapOutcome_ofFn (pureTerms sp) pures _ fun i => pureTerms_of (hp i), Outcome.bind_ok,
    mapOutcome_ofFn fluidR pures _ fun i => fluidR_of (hp i), Outcome.bind_ok,
    mapOutcome_ofFn pureInfo pures _ fun i => pureInfo_of (hp i), Outcome.bind_ok]
  rw [hall]
  · rfl
  · intro p hpm
    obtain ⟨_, id, e, _⟩ := collected _ p hpm
    rw [e, List.ofFn_succ, List.ofFn_succ]
    exact ⟨_, _, _, rfl⟩

/-- Estimated parameters with an object for the collection. -/
example (sp : SpecialTerms) : buildMixDoc sp sampleFluids (.obj []) (.arr [])
    (.obj [("force-estimate", .bool true), ("estimate", .str "Lorentz-Berthelot")]) = .throws .stdInvalidArgument :=
  collection_refused sp sampleFluids sampleInfos sampleData _ _ _ (sampleFluids_are sp) (by simp) (by simp)

end Teqp.Props
