import Verif.Model.Lookup
import Verif.Props.AssocSites
import Verif.Props.Factory
import Verif.Lemmas.Outcome

/-! # C138: looking up departure functions and fluids by name -/

set_option autoImplicit false

namespace Teqp.Props
open Teqp.Model Teqp

/-- An entry of a collection of departure functions as seen by a reader: name, aliases, and the document. -/
structure DepDoc where
  name : String
  aliases : List String
  doc : JTree

/-- The document says so. -/
def DepDoc.Reads (e : DepDoc) : Prop :=
  e.doc.at "Name" = .ok (.str e.name) ∧ e.doc.at "aliases" = .ok (.arr (e.aliases.map .str))

/-- The entry that a name denotes: the first of that name, otherwise the first with that alias. -/
def denotes (l : List DepDoc) (s : String) : Option DepDoc :=
  match l.find? (fun e => e.name = s) with
  | some e => some e
  | none => l.find? (fun e => s ∈ e.aliases)

theorem depNamePass_eq (l : List DepDoc) (h : ∀ e ∈ l, e.Reads) (s : String) :
    depNamePass s (l.map DepDoc.doc) = .ok ((l.find? (fun e => e.name = s)).map DepDoc.doc) := by
  induction l with
  | nil => rfl
  | cons e l ih =>
    have he := (h e List.mem_cons_self).1
    rw [List.map_cons, depNamePass, he, Outcome.bind_ok]
    by_cases hs : e.name = s
    · simp [JTree.isText, hs]
    · rw [List.find?_cons_of_neg (by simpa using hs)]
      simp only [JTree.isText, beq_iff_eq, hs, if_false]
      exact ih fun e' he' => h e' (List.mem_cons_of_mem _ he')

theorem depAliasPass_eq (l : List DepDoc) (h : ∀ e ∈ l, e.Reads) (s : String) :
    depAliasPass s (l.map DepDoc.doc) = .ok ((l.find? (fun e => s ∈ e.aliases)).map DepDoc.doc) := by
  induction l with
  | nil => rfl
  | cons e l ih =>
    have he := (h e List.mem_cons_self).2
    rw [List.map_cons, depAliasPass, he, Outcome.bind_ok]
    have hany : (JTree.items (.arr (e.aliases.map .str))).any (JTree.isText s) = decide (s ∈ e.aliases) := by
      rw [Bool.eq_iff_iff]
      simp [JTree.items, JTree.isText, List.any_map]
    rw [hany]
    by_cases hs : s ∈ e.aliases
    · simp [hs]
    · rw [List.find?_cons_of_neg (by simpa using hs)]
      simp only [hs, decide_false, Bool.false_eq_true, if_false]
      exact ih fun e' he' => h e' (List.mem_cons_of_mem _ he')

/-- C138.  With a readable collection of complete entries, the document returned for a name is that of the entry the name
denotes; a name before any alias, the first entry before the later ones; an unknown name is refused. -/
theorem departure_lookup (fs : FS JTree) (path : String) (l : List DepDoc) (h : ∀ e ∈ l, e.Reads) (s : String)
    (hl : loadFile fs (if fs.isFile path then path else path ++ "/dev/mixtures/mixture_departure_functions.json") =
      .ok (.arr (l.map DepDoc.doc))) :
    (∀ e, denotes l s = some e → getDepartureJson fs s path = .ok e.doc) ∧
    (denotes l s = none → getDepartureJson fs s path = .throws .stdInvalidArgument) := by
  unfold getDepartureJson denotes
  rw [hl, Outcome.bind_ok]
  simp only [JTree.items]
  rw [depNamePass_eq l h s, Outcome.bind_ok]
  cases hn : l.find? (fun e => e.name = s) with
  | some e => simp
  | none =>
    simp only [Option.map_none]
    rw [depAliasPass_eq l h s, Outcome.bind_ok]
    cases ha : l.find? (fun e => s ∈ e.aliases) with
    | some e => simp
    | none => simp

/-- C138.  What is returned always carries the name, or has it among its aliases; no completeness is assumed. -/
theorem departure_lookup_sound (fs : FS JTree) (path s : String) (el : JTree) (h : getDepartureJson fs s path = .ok el) :
    el.at "Name" = .ok (.str s) ∨ ∃ a, el.at "aliases" = .ok a ∧ JTree.str s ∈ a.items := by
  have htext : ∀ v : JTree, v.isText s = true → v = .str s := fun v hv => by
    cases v <;> simp_all [JTree.isText]
  unfold getDepartureJson at h
  obtain ⟨j, -, h⟩ := Outcome.bind_eq_ok.mp h
  obtain ⟨r, hr, h⟩ := Outcome.bind_eq_ok.mp h
  cases r with
  | some e =>
    have : e = el := Outcome.ok.inj h
    subst this
    left
    generalize j.items = l at hr
    induction l with
    | nil => exact absurd (Outcome.ok.inj hr) (by simp)
    | cons a l ih =>
      rw [depNamePass] at hr
      obtain ⟨n, hn, hr⟩ := Outcome.bind_eq_ok.mp hr
      split at hr
      · rename_i ht
        have : a = e := by simpa using Outcome.ok.inj hr
        rw [← this, hn, htext n ht]
      · exact ih hr
  | none =>
    obtain ⟨r, hr2, h⟩ := Outcome.bind_eq_ok.mp h
    cases r with
    | none => cases h
    | some e =>
      have : e = el := Outcome.ok.inj h
      subst this
      right
      generalize j.items = l at hr2
      induction l with
      | nil => exact absurd (Outcome.ok.inj hr2) (by simp)
      | cons a l ih =>
        rw [depAliasPass] at hr2
        obtain ⟨n, hn, hr2⟩ := Outcome.bind_eq_ok.mp hr2
        split at hr2
        · rename_i ht
          obtain ⟨v, hv, hvt⟩ := List.any_eq_true.mp ht
          have : a = e := by simpa using Outcome.ok.inj hr2
          exact ⟨n, this ▸ hn, htext v hvt ▸ hv⟩
        · exact ih hr2

/-- C138.  An entry without aliases is harmless while names are found, and makes every unknown name an error of the JSON
library instead of the refusal with the name. -/
theorem departure_without_aliases (fs : FS JTree) (path s t : String) (el : JTree) (rest : List JTree)
    (hl : loadFile fs (if fs.isFile path then path else path ++ "/dev/mixtures/mixture_departure_functions.json") =
      .ok (.arr (el :: rest)))
    (hname : el.at "Name" = .ok (.str s)) (ha : el.at "aliases" = .throws .jsonError)
    (hrest : ∀ e ∈ rest, ∃ n, e.at "Name" = .ok (.str n) ∧ n ≠ t) (hst : s ≠ t) :
    getDepartureJson fs s path = .ok el ∧ getDepartureJson fs t path = .throws .jsonError := by
  have hpass : ∀ l : List JTree, (∀ e ∈ l, ∃ n, e.at "Name" = .ok (.str n) ∧ n ≠ t) → depNamePass t l = .ok none := by
    intro l
    induction l with
    | nil => intro _; rfl
    | cons e l ih =>
      intro h
      obtain ⟨n, hn, hne⟩ := h e List.mem_cons_self
      rw [depNamePass, hn, Outcome.bind_ok]
      simp only [JTree.isText, beq_iff_eq, hne, if_false]
      exact ih fun e' he' => h e' (List.mem_cons_of_mem _ he')
  constructor
  · unfold getDepartureJson
    rw [hl, Outcome.bind_ok]
    simp [JTree.items, depNamePass, hname, JTree.isText, Outcome.bind_ok]
  · unfold getDepartureJson
    rw [hl, Outcome.bind_ok]
    simp only [JTree.items]
    rw [hpass (el :: rest) fun e he => by
      rcases List.mem_cons.mp he with rfl | he
      · exact ⟨s, hname, hst⟩
      · exact hrest e he, Outcome.bind_ok]
    simp only []
    rw [depAliasPass, ha]
    rfl

/-- C138.  A list of components is loaded in order, one document each, from the file of that path or else from the
folder of fluids; if one of them is found in neither place, there is no result. -/
theorem collect_components (fs : FS JTree) (root : String) (cs : List String) :
    (∀ out, collectComponents fs root cs = .ok out → out.length = cs.length ∧
      ∀ (i : ℕ) (c : String), cs[i]? = some c → ∃ p d, out[i]? = some d ∧ fs.isFile p = true ∧ fs.read p = some d ∧
        p = (if fs.isFile c then c else root ++ "/dev/fluids/" ++ c ++ ".json")) ∧
    ((∃ c ∈ cs, fs.isFile c = false ∧ fs.isFile (root ++ "/dev/fluids/" ++ c ++ ".json") = false) →
      collectComponents fs root cs = .throws .stdInvalidArgument) := by
  constructor
  · intro out h
    obtain ⟨h1, h2⟩ := mapOutcome_get _ _ _ h
    refine ⟨h1, fun i c hc => ?_⟩
    obtain ⟨d, hd, hcd⟩ := h2 i c hc
    refine ⟨_, d, hd, ?_, ?_, rfl⟩
    all_goals
      unfold collectComponent loadFile at hcd
      by_cases hf : fs.isFile c = true
      · rw [if_pos hf] at hcd ⊢
        rw [if_pos hf] at hcd
        first
          | exact hf
          | (cases hr : fs.read c with
             | none => rw [hr] at hcd; cases hcd
             | some d' => rw [hr] at hcd; rw [Outcome.ok.inj hcd])
      · rw [if_neg hf] at hcd ⊢
        by_cases hg : fs.isFile (root ++ "/dev/fluids/" ++ c ++ ".json") = true
        · rw [if_pos hg, if_pos hg] at hcd
          first
            | exact hg
            | (cases hr : fs.read (root ++ "/dev/fluids/" ++ c ++ ".json") with
               | none => rw [hr] at hcd; cases hcd
               | some d' => rw [hr] at hcd; rw [Outcome.ok.inj hcd])
        · rw [if_neg hg] at hcd; cases hcd
  · rintro ⟨c, hc, h1, h2⟩
    unfold collectComponents
    have hall : ∀ c', (∃ d, collectComponent fs root c' = .ok d) ∨ collectComponent fs root c' = .throws .stdInvalidArgument := by
      intro c'
      unfold collectComponent loadFile
      split_ifs
      · cases fs.read c' with
        | none => exact Or.inr rfl
        | some d => exact Or.inl ⟨d, rfl⟩
      · cases fs.read (root ++ "/dev/fluids/" ++ c' ++ ".json") with
        | none => exact Or.inr rfl
        | some d => exact Or.inl ⟨d, rfl⟩
      · exact Or.inr rfl
    have hbad : collectComponent fs root c = .throws .stdInvalidArgument := by
      unfold collectComponent
      rw [if_neg (by simp [h1]), if_neg (by simp [h2])]
    induction cs with
    | nil => simp at hc
    | cons a cs ih =>
      rw [mapOutcome]
      rcases hall a with ⟨d, hd⟩ | hd
      · rw [hd, Outcome.bind_ok]
        rcases List.mem_cons.mp hc with rfl | hc
        · rw [hbad] at hd; cases hd
        · rw [ih hc]; rfl
      · rw [hd]; rfl

/-! ## A concrete collection -/

/-- Two entries; the first has the name of the second among its aliases. -/
def depDemo : List DepDoc :=
  [⟨"KWT", ["generalized", "XR"], .obj [("Name", .str "KWT"), ("aliases", .arr [.str "generalized", .str "XR"])]⟩,
   ⟨"XR", ["old"], .obj [("Name", .str "XR"), ("aliases", .arr [.str "old"])]⟩]

/-- A file system with one collection and one fluid. -/
def fsDemo : FS JTree where
  isFile p := p = "dep.json" || p = "/data/dev/fluids/Argon.json"
  read p := if p = "dep.json" then some (.arr (depDemo.map DepDoc.doc)) else some (.str p)
  parse _ := none
  fld _ := .throws .stdInvalidArgument
  folder _ := none

theorem depDemo_reads : ∀ e ∈ depDemo, e.Reads := by
  intro e he
  simp only [depDemo, List.mem_cons, List.not_mem_nil, or_false] at he
  rcases he with rfl | rfl <;> exact ⟨rfl, rfl⟩

theorem depDemo_loads : loadFile fsDemo (if fsDemo.isFile "dep.json" then "dep.json" else
    "dep.json" ++ "/dev/mixtures/mixture_departure_functions.json") = .ok (.arr (depDemo.map DepDoc.doc)) := by
  rfl

/-- The name `XR` denotes the second entry although it is an alias of the first; `generalized` denotes the first. -/
example : getDepartureJson fsDemo "XR" "dep.json" = .ok (.obj [("Name", .str "XR"), ("aliases", .arr [.str "old"])]) ∧
    (∃ d, getDepartureJson fsDemo "generalized" "dep.json" = .ok d ∧ d.at "Name" = .ok (.str "KWT")) ∧
    getDepartureJson fsDemo "xr" "dep.json" = .throws .stdInvalidArgument := by
  have h := fun s => departure_lookup fsDemo "dep.json" depDemo depDemo_reads s depDemo_loads
  refine ⟨(h "XR").1 ⟨"XR", ["old"], .obj [("Name", .str "XR"), ("aliases", .arr [.str "old"])]⟩ ?_,
    ⟨_, (h "generalized").1 ⟨"KWT", ["generalized", "XR"],
      .obj [("Name", .str "KWT"), ("aliases", .arr [.str "generalized", .str "XR"])]⟩ ?_, rfl⟩, (h "xr").2 ?_⟩
  · simp [denotes, depDemo]
  · simp [denotes, depDemo]
  · simp [denotes, depDemo]

/-- The hypotheses of the entry without aliases are met. -/
example (fs : FS JTree) (h1 : fs.isFile "d" = true) (h2 : fs.read "d" = some (.arr [.obj [("Name", .str "A")]])) :
    getDepartureJson fs "A" "d" = .ok (.obj [("Name", .str "A")]) ∧ getDepartureJson fs "B" "d" = .throws .jsonError :=
  departure_without_aliases fs "d" "A" "B" _ [] (by rw [if_pos h1]; unfold loadFile; rw [if_pos h1, h2]) (by simp [JTree.at])
    rfl (by simp) (by decide)

example : collectComponents fsDemo "/data" ["Argon", "dep.json"] =
    .ok [.str "/data/dev/fluids/Argon.json", .arr (depDemo.map DepDoc.doc)] ∧
    collectComponents fsDemo "/data" ["Argon", "Neon"] = .throws .stdInvalidArgument := by
  refine ⟨?_, (collect_components fsDemo "/data" ["Argon", "Neon"]).2 ⟨"Neon", by simp, ?_, ?_⟩⟩
  · simp [collectComponents, mapOutcome, collectComponent, loadFile, fsDemo, Outcome.bind_ok]
  · decide +kernel
  · decide +kernel

end Teqp.Props
