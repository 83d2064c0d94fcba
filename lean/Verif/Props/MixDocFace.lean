import Verif.Props.MixDocBuild

/-! # C159: the ways to ask for a multi-fluid mixture -/

set_option autoImplicit false

namespace Teqp.Props
open Teqp Teqp.Model

/-- The document `spec` asks for the mixture of `components` below `root`. -/
structure AsksFor (spec : JTree) (components : List JTree) (root : String) (flags : JTree) : Prop where
  components : spec.at "components" = .ok (.arr components)
  root : spec.at "root" = .ok (.str root) ∨ (root = "" ∧ spec.contains "root" = false)
  flags : spec.at "flags" = .ok flags ∨ (flags = .null ∧ spec.contains "flags" = false)
  noHMX : spec.contains "HMX.BNC" = false

theorem root_read {spec : JTree} {cs : List JTree} {root : String} {flags : JTree} (h : AsksFor spec cs root flags) :
    (if spec.contains "root" then (spec.at "root").bind JTree.toStr else .ok "") = .ok root := by
  rcases h.root with h' | ⟨rfl, h'⟩
  · rw [if_pos (contains_of h'), h']; rfl
  · rw [if_neg (by simp [h'])]

theorem flags_read {spec : JTree} {cs : List JTree} {root : String} {flags : JTree} (h : AsksFor spec cs root flags) :
    (if spec.contains "flags" then spec.at "flags" else .ok .null) = .ok flags := by
  rcases h.flags with h' | ⟨rfl, h'⟩
  · rw [if_pos (contains_of h'), h']
  · rw [if_neg (by simp [h'])]

/-- C159. Below a root that is given, the document and the arguments of `build_multifluid_model` mean the same: the same
mixture, or the same failure. -/
theorem factory_eq_model (w : World) (sp : SpecialTerms) (spec : JTree) (components : List String) (root bip departure : String) (flags : JTree)
    (h : AsksFor spec (components.map .str) root flags) (hr : root ≠ "") (hb : spec.at "BIP" = .ok (.str bip)) (hd : spec.at "departure" = .ok (.str departure)) :
    multifluidFactory w sp spec = buildMultifluidModel w sp components root bip flags departure := by
  unfold multifluidFactory buildMultifluidModel multifluidCollections
  rw [flags_read h, Outcome.bind_ok, if_neg (by simp [h.noHMX]), root_read h]
  simp only [h.components, hb, hd, Outcome.bind_ok, contains_of hd, if_true, if_neg hr, JTree.size, List.length_map]

/-- C159. Without a root the mixture of `build_multifluid_model` is that of the document, provided that the departure
functions are given, and not as a path. -/
theorem factory_of_model_partial (w : World) (sp : SpecialTerms) (spec : JTree) (components : List String) (bip departure : String) (flags : JTree)
    (h : AsksFor spec (components.map .str) "" flags) (hb : spec.at "BIP" = .ok (.str bip)) (hd : spec.at "departure" = .ok (.str departure))
    (hne : departure ≠ "") (hp : departure.startsWith "PATH::" = false) (m : (n : ℕ) × (MultiFluid n × GasR))
    (hm : buildMultifluidModel w sp components "" bip flags departure = .ok m) : multifluidFactory w sp spec = .ok m := by
  rw [← hm]
  unfold multifluidFactory
  unfold buildMultifluidModel at hm ⊢
  unfold multifluidCollections
  rw [flags_read h, Outcome.bind_ok, if_neg (by simp [h.noHMX]), root_read h]
  simp only [h.components, hb, hd, Outcome.bind_ok, contains_of hd, if_true, JTree.size, List.length_map]
  by_cases h1 : 1 < components.length
  · simp only [if_pos h1] at hm ⊢
    cases hB : jsonTreeLoad w.path w.parse (some (defaultBIP "")) (.str bip) with
    | ok B =>
      rw [hB, Outcome.bind_ok] at hm
      simp only [Outcome.bind_ok]
      have e : ∀ d, jsonTreeLoad w.path w.parse d (.str departure) = jsonTreeLoad w.path w.parse none (.str departure) := by
        intro d
        simp only [jsonTreeLoad, if_neg hne]
      rw [e] at hm ⊢
      cases hD : jsonTreeLoad w.path w.parse none (.str departure) with
      | ok D =>
        simp only [loadDeparture, hp, Bool.false_eq_true, if_false, hD]
      | throws _ => rw [hD] at hm; cases hm
      | ub => rw [hD] at hm; cases hm
      | nonFinite => rw [hD] at hm; cases hm
    | throws _ => rw [hB] at hm; cases hm
    | ub => rw [hB] at hm; cases hm
    | nonFinite => rw [hB] at hm; cases hm
  · simp only [if_neg h1]

/-- C159 fails without a root and without departure functions: `build_multifluid_model` takes those of the default file,
the document is refused. -/
theorem empty_departure_differs (w : World) (sp : SpecialTerms) (spec : JTree) (a b : String) (bip : String) (flags B : JTree)
    (h : AsksFor spec [.str a, .str b] "" flags) (hb : spec.at "BIP" = .ok (.str bip)) (hd : spec.at "departure" = .ok (.str ""))
    (hB : jsonTreeLoad w.path w.parse (some (defaultBIP "")) (.str bip) = .ok B) (hw : w.parse "" = none) :
    multifluidFactory w sp spec = .throws .invalidArgument ∧
    buildMultifluidModel w sp [a, b] "" bip flags "" =
      (loadJsonFile w.path w.parse (defaultDeparture "")).bind fun D =>
        (w.fluids "" (.arr [.str a, .str b])).bind fun pures => buildMixList sp pures B D flags := by
  constructor
  · unfold multifluidFactory multifluidCollections
    rw [flags_read h, Outcome.bind_ok, if_neg (by simp [h.noHMX]), root_read h]
    simp only [h.components, hb, hd, Outcome.bind_ok, contains_of hd, if_true, JTree.size, hB]
    simp [loadDeparture, jsonTreeLoad, hw, Outcome.bind]
  · unfold buildMultifluidModel
    simp only [List.length_cons, List.length_nil, Nat.reduceAdd, Nat.one_lt_ofNat, if_true, hB, Outcome.bind_ok]
    have e : jsonTreeLoad w.path w.parse (some (defaultDeparture "")) (.str "") = loadJsonFile w.path w.parse (defaultDeparture "") := by
      simp [jsonTreeLoad]
    rw [e]
    cases loadJsonFile w.path w.parse (defaultDeparture "") <;> rfl

theorem loadComps_inline (fs : FS JTree) (root : Option String) (st : Option AliasMap) (docs : List (List (String × JTree))) :
    loadComps fs root st (docs.map fun o => compOf (.obj o)) = .ok (docs.map .obj) := by
  induction docs with
  | nil => rfl
  | cons o docs ih =>
    simp only [List.map_cons, loadComps, compOf, loadComp, getOrAlias, multilevelLoad, Outcome.bind_ok] at ih ⊢
    rw [ih]
    rfl

theorem fluids_inline (w : World) (root : String) (docs : List (List (String × JTree))) :
    w.fluids root (.arr (docs.map .obj)) = .ok (docs.map .obj) := by
  unfold World.fluids makePure
  simp only [List.map_map]
  exact loadComps_inline w.files (some root) none docs

theorem map_objects (g : String → Outcome JTree) (texts : List String) (docs : List (List (String × JTree)))
    (ht : List.Forall₂ (fun s o => g s = .ok (.obj o)) texts docs) : mapOutcome g texts = .ok (docs.map .obj) := by
  induction ht with
  | nil => rfl
  | cons h _ ih => simp only [mapOutcome, h, Outcome.bind_ok, ih, List.map_cons]

/-- C159. Documents that are already there: the factory with the documents of the fluids and of the collections in it does
what `build_multifluid_JSONstr` does with their texts. -/
theorem factory_eq_texts (w : World) (sp : SpecialTerms) (spec : JTree) (texts : List String) (docs : List (List (String × JTree))) (root bip departure : String)
    (flags : JTree) (b0 d0 : JTree) (bs ds : List JTree) (h : AsksFor spec (docs.map .obj) root flags) (hn : 1 < docs.length)
    (hb : spec.at "BIP" = .ok (.arr (b0 :: bs))) (hd : spec.at "departure" = .ok (.arr (d0 :: ds)))
    (ht : List.Forall₂ (fun s o => w.parse s = some (.obj o)) texts docs) (hbt : w.parse bip = some (.arr (b0 :: bs)))
    (hdt : w.parse departure = some (.arr (d0 :: ds))) :
    multifluidFactory w sp spec = buildMultifluidStr w sp texts bip departure flags := by
  unfold multifluidFactory buildMultifluidStr multifluidCollections
  rw [flags_read h, Outcome.bind_ok, if_neg (by simp [h.noHMX]), root_read h]
  simp only [h.components, hb, hd, Outcome.bind_ok, contains_of hd, if_true, JTree.size, List.length_map, if_pos hn, jsonTreeLoad, loadDeparture, ite_self,
    hbt, hdt, fluids_inline]
  rw [map_objects _ texts docs (ht.imp fun s o h => by simp only [h]), Outcome.bind_ok]

/-- Two fluids, their texts and the texts of the collections. -/
noncomputable def sampleWorld : World where
  path _ := .noFile
  parse s := if s = "fluid e" then some (sampleFluids 0) else if s = "fluid M" then some (sampleFluids 1)
    else if s = "pairs" then some (.arr [sampleBIPDoc]) else if s = "departures" then some (.arr [depDoc.toTree]) else none
  fld _ := .throws .invalidArgument
  folder _ := none
  hmx _ := .throws .invalidArgument

/-- The document that asks for them. -/
noncomputable def sampleSpec (root departure : String) : JTree :=
  .obj [("components", .arr [.str "fluid e", .str "fluid M"]), ("root", .str root), ("BIP", .str "pairs"), ("departure", .str departure)]

theorem sampleSpec_asks (root departure : String) : AsksFor (sampleSpec root departure) (["fluid e", "fluid M"].map .str) root .null :=
  ⟨rfl, .inl rfl, .inr ⟨rfl, rfl⟩, rfl⟩

theorem sample_model (sp : SpecialTerms) (root : String) : ∃ m, buildMultifluidModel sampleWorld sp ["fluid e", "fluid M"] root "pairs" .null "departures" = .ok m := by
  obtain ⟨m, hm⟩ := sample_documents sp [depDoc.toTree] _ (.cons (depDoc_is sp) .nil)
  refine ⟨⟨2, m, .weighted [8.3, 8.4]⟩, ?_⟩
  have hb : jsonTreeLoad sampleWorld.path sampleWorld.parse (some (defaultBIP root)) (.str "pairs") = .ok (.arr [sampleBIPDoc]) := by
    simp [jsonTreeLoad, sampleWorld]
  have hd : jsonTreeLoad sampleWorld.path sampleWorld.parse (some (defaultDeparture root)) (.str "departures") = .ok (.arr [depDoc.toTree]) := by
    simp [jsonTreeLoad, sampleWorld]
  have hf : sampleWorld.fluids root (.arr (["fluid e", "fluid M"].map .str)) = .ok [sampleFluids 0, sampleFluids 1] := by
    have p1 : ("fluid e".startsWith "PATH::") = false := by decide +kernel
    have p2 : ("fluid e".startsWith "FLDPATH::") = false := by decide +kernel
    have p3 : ("fluid e".startsWith "FLD::") = false := by decide +kernel
    have q1 : ("fluid M".startsWith "PATH::") = false := by decide +kernel
    have q2 : ("fluid M".startsWith "FLDPATH::") = false := by decide +kernel
    have q3 : ("fluid M".startsWith "FLD::") = false := by decide +kernel
    simp [World.fluids, makePure, loadComps, loadComp, compOf, getOrAlias, multilevelLoad, p1, p2, p3, q1, q2, q3, World.files, sampleWorld]
  unfold buildMultifluidModel
  simp only [List.length_cons, List.length_nil, Nat.reduceAdd, Nat.one_lt_ofNat, if_true, hb, hd, Outcome.bind_ok]
  rw [hf, Outcome.bind_ok]
  unfold buildMixList
  have e : (fun i : Fin [sampleFluids 0, sampleFluids 1].length => [sampleFluids 0, sampleFluids 1].get i) = sampleFluids := by
    funext i
    fin_cases i <;> rfl
  change (buildMixDoc sp (fun i : Fin 2 => [sampleFluids 0, sampleFluids 1].get i) _ _ _).bind _ = _
  have e' : (fun i : Fin 2 => [sampleFluids 0, sampleFluids 1].get i) = sampleFluids := e
  rw [e', hm]
  rfl

example (sp : SpecialTerms) : ∃ m, multifluidFactory sampleWorld sp (sampleSpec "/data" "departures") = .ok m := by
  obtain ⟨m, hm⟩ := sample_model sp "/data"
  exact ⟨m, by rw [factory_eq_model sampleWorld sp _ ["fluid e", "fluid M"] "/data" "pairs" "departures" .null (sampleSpec_asks _ _) (by decide) rfl rfl, hm]⟩

example (sp : SpecialTerms) : ∃ m, multifluidFactory sampleWorld sp (sampleSpec "" "departures") = .ok m := by
  obtain ⟨m, hm⟩ := sample_model sp ""
  exact ⟨m, factory_of_model_partial sampleWorld sp _ ["fluid e", "fluid M"] "pairs" "departures" .null (sampleSpec_asks _ _) rfl rfl (by decide) (by decide +kernel) m hm⟩

/-- The documents in the place of the texts. -/
example (sp : SpecialTerms) (d1 d2 : List (String × JTree)) (h1 : sampleFluids 0 = .obj d1) (h2 : sampleFluids 1 = .obj d2) :
    multifluidFactory sampleWorld sp (.obj [("components", .arr [.obj d1, .obj d2]), ("BIP", .arr [sampleBIPDoc]), ("departure", .arr [depDoc.toTree])]) =
      buildMultifluidStr sampleWorld sp ["fluid e", "fluid M"] "pairs" "departures" .null :=
  factory_eq_texts sampleWorld sp _ ["fluid e", "fluid M"] [d1, d2] "" "pairs" "departures" .null sampleBIPDoc depDoc.toTree [] []
    ⟨rfl, .inr ⟨rfl, rfl⟩, .inr ⟨rfl, rfl⟩, rfl⟩ (by simp) rfl rfl
    (.cons (by simp [sampleWorld, h1]) (.cons (by simp [sampleWorld, h2]) .nil)) (by simp [sampleWorld]) (by simp [sampleWorld])

example (sp : SpecialTerms) : multifluidFactory sampleWorld sp (sampleSpec "" "") = .throws .invalidArgument :=
  (empty_departure_differs sampleWorld sp _ "fluid e" "fluid M" "pairs" .null (.arr [sampleBIPDoc]) (sampleSpec_asks _ _) rfl rfl
    (by simp [jsonTreeLoad, sampleWorld]) (by simp [sampleWorld])).1

end Teqp.Props
