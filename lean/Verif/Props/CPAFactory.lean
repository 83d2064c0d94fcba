import Verif.Props.CPA
import Verif.Lemmas.Outcome

/-! # C60: options of CPA and association models -/

set_option autoImplicit false

namespace Teqp.Props
open Teqp.Model Teqp.Spec Teqp.Lemmas

/-- The radial distribution function that a CPA model evaluates with. -/
def usedDist (m : CPAEOS) : Option RadialDist :=
  match m.assoc with
  | .old a => some a.dist
  | .new a => a.data.radialDist

theorem copyMask_dist (j : JTree) (o o' : AssocOptions) (h : copyMask j o = .ok o') : o'.radialDist = o.radialDist := by
  unfold copyMask at h
  split at h
  · split at h
    · obtain ⟨m, -, hm⟩ := Outcome.bind_eq_ok.mp h
      cases hm
      rfl
    · cases h; rfl
  · cases h; rfl

theorem assocOpts_dist (j : JTree) (o : AssocOptions) (h : assocOptsFromJson j = .ok o) : o.radialDist = some .CS := by
  unfold assocOptsFromJson at h
  obtain ⟨_, -, h⟩ := Outcome.bind_eq_ok.mp h
  obtain ⟨_, -, h⟩ := Outcome.bind_eq_ok.mp h
  obtain ⟨_, -, h⟩ := Outcome.bind_eq_ok.mp h
  obtain ⟨_, -, h⟩ := Outcome.bind_eq_ok.mp h
  cases h
  rfl

theorem assocMake_dist (d : CanonicalData) (mols : List (List String)) (o : AssocOptions) (a : AssocModel)
    (h : AssocModel.make d mols o = .ok a) : a.data = d ∧ a.opts = o := by
  unfold AssocModel.make at h
  obtain ⟨_, -, h⟩ := Outcome.bind_eq_ok.mp h
  obtain ⟨_, -, h⟩ := Outcome.bind_eq_ok.mp h
  cases h
  exact ⟨rfl, rfl⟩

/-- The options of the new branch: the requested function survives only when there are no options. -/
theorem cpaOptions_dist (j : JTree) (o : AssocOptions) (h : cpaOptions j = .ok o) :
    ∃ d, requestedDist j = .ok d ∧ o.radialDist = if j.contains "options" then some .CS else some d := by
  unfold cpaOptions at h
  obtain ⟨d, hd, h⟩ := Outcome.bind_eq_ok.mp h
  obtain ⟨o1, h1, h⟩ := Outcome.bind_eq_ok.mp h
  refine ⟨d, hd, ?_⟩
  rw [copyMask_dist j o1 o h]
  by_cases hc : j.contains "options" = true
  · rw [if_pos hc] at h1 ⊢
    obtain ⟨jo, -, h1⟩ := Outcome.bind_eq_ok.mp h1
    exact assocOpts_dist jo o1 h1
  · rw [if_neg hc] at h1 ⊢
    cases h1
    rfl

/-- Which radial distribution function a successfully built CPA model uses: the requested one for a pure fluid
described by its scheme, or without options; otherwise Carnahan-Starling, whatever was requested. -/
theorem cpa_dist (j : JTree) (m : CPAEOS) (h : cpaFactory j = .ok m) :
    ∃ d, requestedDist j = .ok d ∧
      usedDist m = (match m.assoc with
        | .old _ => some d
        | .new _ => if j.contains "options" then some .CS else some d) := by
  unfold cpaFactory at h
  obtain ⟨cubic, -, h⟩ := Outcome.bind_eq_ok.mp h
  obtain ⟨pures, -, h⟩ := Outcome.bind_eq_ok.mp h
  obtain ⟨old, -, h⟩ := Outcome.bind_eq_ok.mp h
  split at h
  · obtain ⟨a, ha, h⟩ := Outcome.bind_eq_ok.mp h
    cases h
    unfold cpaBuildOld at ha
    obtain ⟨d, hd, ha⟩ := Outcome.bind_eq_ok.mp ha
    obtain ⟨_, -, ha⟩ := Outcome.bind_eq_ok.mp ha
    obtain ⟨_, -, ha⟩ := Outcome.bind_eq_ok.mp ha
    obtain ⟨_, -, ha⟩ := Outcome.bind_eq_ok.mp ha
    obtain ⟨_, -, ha⟩ := Outcome.bind_eq_ok.mp ha
    obtain ⟨_, -, ha⟩ := Outcome.bind_eq_ok.mp ha
    unfold CPAAssoc.make at ha
    obtain ⟨_, -, ha⟩ := Outcome.bind_eq_ok.mp ha
    cases ha
    exact ⟨d, hd, rfl⟩
  · obtain ⟨a, ha, h⟩ := Outcome.bind_eq_ok.mp h
    cases h
    unfold cpaBuildNew at ha
    obtain ⟨o, ho, ha⟩ := Outcome.bind_eq_ok.mp ha
    obtain ⟨_, -, ha⟩ := Outcome.bind_eq_ok.mp ha
    obtain ⟨_, -, ha⟩ := Outcome.bind_eq_ok.mp ha
    obtain ⟨_, -, ha⟩ := Outcome.bind_eq_ok.mp ha
    obtain ⟨_, -, ha⟩ := Outcome.bind_eq_ok.mp ha
    obtain ⟨_, -, ha⟩ := Outcome.bind_eq_ok.mp ha
    obtain ⟨d, hd, he⟩ := cpaOptions_dist j o ho
    refine ⟨d, hd, ?_⟩
    have := (assocMake_dist _ _ _ _ ha).1
    simp only [usedDist, this]
    exact he

/-- The part of the claim that holds: without options the requested function is used. -/
theorem cpa_dist_partial (j : JTree) (m : CPAEOS) (h : cpaFactory j = .ok m) (ho : j.contains "options" = false) :
    ∃ d, requestedDist j = .ok d ∧ usedDist m = some d := by
  obtain ⟨d, hd, hu⟩ := cpa_dist j m h
  refine ⟨d, hd, ?_⟩
  rw [hu, ho]
  cases m.assoc <;> rfl

/-! ## A concrete document -/

/-- A pure fluid with one site A and one site B; the function KG is requested.  The options, if any, are given. -/
noncomputable def cpaDoc (opts : List (String × JTree)) : JTree :=
  .obj ([("cubic", .str "SRK"), ("R_gas / J/mol/K", .num 8.3), ("radial_dist", .str "KG"),
    ("pures", .arr [.obj [("a0i / Pa m^6/mol^2", .num 1), ("bi / m^3/mol", .num 4e-5), ("c1", .num 1), ("Tc / K", .num 500),
      ("epsABi / J/mol", .num 20000), ("betaABi", .num 0.01), ("sites", .arr [.str "A", .str "B"])]])] ++ opts)

/-- The mapper of the document. -/
theorem cpaDoc_sites : makeMapper [["A", "B"]] = .ok [⟨0, "A", 1⟩, ⟨0, "B", 1⟩] := by decide +kernel

theorem cpaDoc_make (d : CanonicalData) (o : AssocOptions) (hm : o.mask = [])
    (hp : o.partners = [("A", ["B"]), ("B", ["A"])]) : ∃ a, AssocModel.make d [["A", "B"]] o = .ok a := by
  unfold AssocModel.make
  rw [cpaDoc_sites, Outcome.bind_ok]
  have hl : List.lookup "B" [("A", ["B"]), ("B", ["A"])] = some ["A"] := by decide +kernel
  refine ⟨⟨o, 1, [⟨0, "A", 1⟩, ⟨0, "B", 1⟩], [[0, 1], [1, 0]], d⟩, ?_⟩
  simp [makeD, mapOutcome, getDIJ, hm, hp, hl]

theorem cpaDoc_partners : (uniqueSites ["A", "B"]).map (fun s => (s, (uniqueSites ["A", "B"]).filter fun s2 => s != s2)) =
    [("A", ["B"]), ("B", ["A"])] := by decide +kernel

theorem lookup_cons_ne {k k' : String} {v : JTree} {fs : List (String × JTree)} (h : k ≠ k') :
    List.lookup k ((k', v) :: fs) = List.lookup k fs := by
  rw [List.lookup_cons]
  have : (k == k') = false := by simpa using h
  rw [this]

theorem lookup_cons_eq {k : String} {v : JTree} {fs : List (String × JTree)} :
    List.lookup k ((k, v) :: fs) = some v := by simp [List.lookup_cons]

/-- The document is accepted with and without options; with an options block that says nothing at all, the
requested function is replaced. -/
theorem cpa_dist_ignored :
    (∃ m, cpaFactory (cpaDoc []) = .ok m ∧ usedDist m = some .KG) ∧
    (∃ m, cpaFactory (cpaDoc [("options", .obj [])]) = .ok m ∧ usedDist m = some .CS ∧
      requestedDist (cpaDoc [("options", .obj [])]) = .ok .KG) := by
  have hreq : ∀ opts, requestedDist (cpaDoc opts) = .ok .KG := fun opts => by
    simp [requestedDist, cpaDoc, JTree.at, JTree.toStr, getRadialDist, lookup_cons_ne, lookup_cons_eq]
  have build : ∀ opts, (opts = [] ∨ opts = [("options", JTree.obj [])]) → ∃ m a, cpaFactory (cpaDoc opts) = .ok m ∧ m.assoc = .new a := by
    intro opts hopts
    obtain ⟨o, ho, hom⟩ : ∃ o, cpaOptions (cpaDoc opts) = .ok o ∧ o.mask = [] := by
      unfold cpaOptions
      rw [hreq, Outcome.bind_ok]
      rcases hopts with rfl | rfl
      · refine ⟨{ radialDist := some .KG }, ?_, rfl⟩
        simp [cpaDoc, JTree.contains, copyMask, JTree.at, lookup_cons_ne]
      · refine ⟨{ radialDist := some .CS }, ?_, rfl⟩
        simp [cpaDoc, JTree.contains, copyMask, JTree.at, lookup_cons_ne, lookup_cons_eq, assocOptsFromJson, optDouble, optInt]
    have hpart : getPartners (uniqueSites ["A", "B"]) (cpaDoc opts) = .ok [("A", ["B"]), ("B", ["A"])] := by
      unfold getPartners
      rcases hopts with rfl | rfl
      · simp only [cpaDoc_partners]
        simp [cpaDoc, JTree.at, lookup_cons_ne]
      · simp only [cpaDoc_partners]
        simp [cpaDoc, JTree.at, lookup_cons_ne, lookup_cons_eq, JTree.contains]
    obtain ⟨a, ha⟩ := cpaDoc_make ⟨[4e-5], [0.01], [20000], o.radialDist⟩ { o with partners := [("A", ["B"]), ("B", ["A"])] } hom rfl
    have hnew : cpaBuildNew (cpaDoc opts) [.obj [("a0i / Pa m^6/mol^2", .num 1), ("bi / m^3/mol", .num 4e-5), ("c1", .num 1),
        ("Tc / K", .num 500), ("epsABi / J/mol", .num 20000), ("betaABi", .num 0.01),
        ("sites", .arr [.str "A", .str "B"])]] = .ok a := by
      unfold cpaBuildNew
      rw [ho, Outcome.bind_ok]
      simp only [mapOutcome, numAt, JTree.at, lookup_cons_ne, lookup_cons_eq, JTree.toDouble, Outcome.bind_ok, ne_eq,
        String.reduceEq, not_false_eq_true, JTree.toStrs, JTree.toStr, List.flatten_cons, List.flatten_nil, List.append_nil, hpart]
      exact ha
    have hk : ∀ k, (cpaDoc opts).contains "kmat" = k → k = false := by
      rintro k rfl
      rcases hopts with rfl | rfl <;> simp [cpaDoc, JTree.contains, lookup_cons_ne]
    have hcub : ∃ c, cpaBuildCubic (cpaDoc opts) = .ok c := by
      unfold cpaBuildCubic
      have hkm : ∀ N, cpaKmat (cpaDoc opts) N = .ok (List.replicate N (List.replicate N 0)) := fun N => by
        unfold cpaKmat
        rw [hk _ rfl, if_neg (by simp)]
      simp only [hkm]
      simp [cpaDoc, JTree.atConst, JTree.items, mapOutcome, numAt, JTree.at, lookup_cons_ne, lookup_cons_eq, JTree.toDouble,
        JTree.toStr, getCubicFlag, CPACubic.make]
    obtain ⟨c, hc⟩ := hcub
    refine ⟨⟨c, .new a⟩, a, ?_, rfl⟩
    unfold cpaFactory
    rw [hc, Outcome.bind_ok]
    have hp : (cpaDoc opts).atConst "pures" = .ok (.arr [.obj [("a0i / Pa m^6/mol^2", .num 1), ("bi / m^3/mol", .num 4e-5),
        ("c1", .num 1), ("Tc / K", .num 500), ("epsABi / J/mol", .num 20000), ("betaABi", .num 0.01),
        ("sites", .arr [.str "A", .str "B"])]]) := by
      simp [cpaDoc, JTree.atConst, lookup_cons_ne, lookup_cons_eq]
    rw [hp, Outcome.bind_ok]
    have hold : cpaOldStyle (.arr [.obj [("a0i / Pa m^6/mol^2", .num 1), ("bi / m^3/mol", .num 4e-5),
        ("c1", .num 1), ("Tc / K", .num 500), ("epsABi / J/mol", .num 20000), ("betaABi", .num 0.01),
        ("sites", .arr [.str "A", .str "B"])]]) = .ok false := by
      simp [cpaOldStyle, JTree.items, JTree.contains, lookup_cons_ne]
    rw [hold, Outcome.bind_ok]
    simp only [Bool.false_eq_true, if_false, JTree.items]
    rw [hnew, Outcome.bind_ok]
  constructor
  · obtain ⟨m, a, hm, ha⟩ := build [] (Or.inl rfl)
    refine ⟨m, hm, ?_⟩
    obtain ⟨d, hd, hu⟩ := cpa_dist _ m hm
    rw [hreq] at hd
    cases hd
    rw [hu, ha]
    simp [cpaDoc, JTree.contains, lookup_cons_ne]
  · obtain ⟨m, a, hm, ha⟩ := build [("options", .obj [])] (Or.inr rfl)
    refine ⟨m, hm, ?_, hreq _⟩
    obtain ⟨d, hd, hu⟩ := cpa_dist _ m hm
    rw [hu, ha]
    simp [cpaDoc, JTree.contains, lookup_cons_ne, lookup_cons_eq]

/-! ## Interaction matrices and scheme names -/

/-- An interaction matrix of the wrong shape is refused; a missing one means zeros of the right shape. -/
theorem cpaKmat_spec (j : JTree) (N : ℕ) :
    (∀ k, cpaKmat j N = .ok k → k.length = N ∧ ∀ r ∈ k, r.length = N) ∧
    (∀ k, j.contains "kmat" = true → (j.at "kmat").bind JTree.toRows = .ok k →
      (k.length ≠ N ∨ ∃ r ∈ k, r.length ≠ N) → cpaKmat j N = .throws .invalidArgument) := by
  constructor
  · intro k h
    unfold cpaKmat at h
    split at h
    · obtain ⟨k', -, h⟩ := Outcome.bind_eq_ok.mp h
      split at h
      · cases h
      · rename_i hn
        push Not at hn
        cases h
        exact hn
    · cases h
      simp
  · intro k hc hk hbad
    unfold cpaKmat
    rw [if_pos hc, hk, Outcome.bind_ok, if_pos hbad]

/-- The names of schemes and of cubics that are accepted. -/
theorem cpa_names (s : String) :
    ((∃ c, getAssocClass s = .ok c) ↔ s ∈ ["1A", "2B", "3B", "4C"]) ∧
    ((∃ c, getCubicFlag s = .ok c) ↔ s ∈ ["PR", "SRK"]) ∧
    (∀ c, getAssocClass s = .ok c → ∃ N, cpaSites c = .ok N) ∧
    (∀ f a0 b c1 Tc R k, getCubicFlag s = .ok f → ∃ c, CPACubic.make f a0 b c1 Tc R k = .ok c) := by
  refine ⟨?_, ?_, ?_, ?_⟩
  · unfold getAssocClass
    by_cases h1 : s = "1A"
    · simp [h1]
    by_cases h2 : s = "2B"
    · simp [h2]
    by_cases h3 : s = "3B"
    · simp [h3]
    by_cases h4 : s = "4C"
    · simp [h4]
    simp [h1, h2, h3, h4]
  · unfold getCubicFlag
    by_cases h1 : s = "PR"
    · simp [h1]
    by_cases h2 : s = "SRK"
    · simp [h2]
    simp [h1, h2]
  · intro c h
    unfold getAssocClass at h
    split_ifs at h <;> cases h <;> exact ⟨_, rfl⟩
  · intro f a0 b c1 Tc R k h
    unfold getCubicFlag at h
    split_ifs at h <;> cases h <;> exact ⟨_, rfl⟩

/-! ## Missing entries -/

/-- A document in which one of the top-level entries that are read with `operator[]` is missing is not rejected with an exception:
the element of a constant document that is not there is accessed.  (For `pures`; the two others are read later.) -/
theorem cpa_missing_pures (fs : List (String × JTree)) (h : fs.lookup "pures" = none) : cpaFactory (.obj fs) = .ub := by
  unfold cpaFactory cpaBuildCubic JTree.atConst
  simp [h, Outcome.bind]

/-- For instance a document that spells the key differently. -/
example : cpaFactory (.obj [("cubic", .str "SRK"), ("pure", .arr [])]) = .ub := by
  refine cpa_missing_pures _ ?_
  decide

/-- Conversely a model is returned only if the three entries are there and the name of the cubic is known. -/
theorem cpa_missing_partial {j : JTree} {m : CPAEOS} (h : cpaFactory j = .ok m) :
    (∃ ps, j.atConst "pures" = .ok ps) ∧
    (∃ s f, (j.atConst "cubic").bind JTree.toStr = .ok s ∧ getCubicFlag s = .ok f) ∧
    (∃ R, (j.atConst "R_gas / J/mol/K").bind JTree.toDouble = .ok R) ∧ j.contains "pures" = true := by
  unfold cpaFactory at h
  obtain ⟨c, hc, -⟩ := Outcome.bind_eq_ok.mp h
  unfold cpaBuildCubic at hc
  obtain ⟨ps, hps, hc⟩ := Outcome.bind_eq_ok.mp hc
  obtain ⟨k, -, hc⟩ := Outcome.bind_eq_ok.mp hc
  obtain ⟨a0, -, hc⟩ := Outcome.bind_eq_ok.mp hc
  obtain ⟨b, -, hc⟩ := Outcome.bind_eq_ok.mp hc
  obtain ⟨c1, -, hc⟩ := Outcome.bind_eq_ok.mp hc
  obtain ⟨Tc, -, hc⟩ := Outcome.bind_eq_ok.mp hc
  obtain ⟨f, hf, hc⟩ := Outcome.bind_eq_ok.mp hc
  obtain ⟨R, hR, -⟩ := Outcome.bind_eq_ok.mp hc
  obtain ⟨s, hs, hf⟩ := Outcome.bind_eq_ok.mp hf
  refine ⟨⟨ps, hps⟩, ⟨s, f, hs, hf⟩, ⟨R, hR⟩, ?_⟩
  cases j with
  | obj fs =>
    unfold JTree.atConst at hps
    simp only [JTree.contains]
    cases hl : fs.lookup "pures" with
    | none => simp [hl] at hps
    | some v => simp
  | _ => exact absurd hps (by simp [JTree.atConst])

/-- The name by which a document asks for a radial distribution function. -/
def distName : RadialDist → String
  | .CS => "CS"
  | .KG => "KG"

/-- The radial distribution function is the one whose name the document gives; any other text is refused with
`std::invalid_argument` and a missing or other entry is an error of the JSON library. -/
theorem cpa_dist_names (j : JTree) :
    (∀ d, requestedDist j = .ok d ↔ j.at "radial_dist" = .ok (.str (distName d))) ∧
    (∀ s, j.at "radial_dist" = .ok (.str s) → s ≠ "CS" → s ≠ "KG" → requestedDist j = .throws .stdInvalidArgument) ∧
    (∀ v, j.at "radial_dist" = .ok v → (∀ s, v ≠ .str s) → requestedDist j = .throws .jsonError) := by
  refine ⟨fun d => ⟨fun h => ?_, fun h => ?_⟩, fun s h h1 h2 => ?_, fun v h hv => ?_⟩
  · unfold requestedDist at h
    obtain ⟨s, hs, h⟩ := Outcome.bind_eq_ok.mp h
    obtain ⟨v, hv, hs⟩ := Outcome.bind_eq_ok.mp hs
    rw [hv]
    cases v with
    | str s' =>
      have : s' = s := Outcome.ok.inj hs
      subst this
      unfold getRadialDist at h
      split_ifs at h with h1 h2
      · rw [← Outcome.ok.inj h, h1]; rfl
      · rw [← Outcome.ok.inj h, h2]; rfl
    | _ => exact absurd hs (by simp [JTree.toStr])
  · unfold requestedDist
    rw [h, Outcome.bind_ok]
    cases d <;> simp [JTree.toStr, Outcome.bind_ok, distName, getRadialDist]
  · unfold requestedDist
    rw [h, Outcome.bind_ok]
    simp [JTree.toStr, Outcome.bind_ok, getRadialDist, h1, h2]
  · unfold requestedDist
    rw [h, Outcome.bind_ok]
    cases v with
    | str s' => exact absurd rfl (hv s')
    | _ => rfl

example : requestedDist (.obj [("radial_dist", .str "KG")]) = .ok .KG :=
  ((cpa_dist_names _).1 .KG).2 (by simp [JTree.at, distName])

example : requestedDist (.obj [("radial_dist", .str "cs")]) = .throws .stdInvalidArgument :=
  (cpa_dist_names _).2.1 "cs" (by simp [JTree.at]) (by decide) (by decide)

/-- A number of a document, or its default when the key is missing. -/
def ReadsNum (jo : JTree) (k : String) (dflt v : ℝ) : Prop :=
  (jo.contains k = false ∧ v = dflt) ∨ jo.at k = .ok (.num v)

/-- An integer of a document, or its default when the key is missing: a number without its fraction, or a boolean. -/
def ReadsInt (jo : JTree) (k : String) (dflt v : ℤ) : Prop :=
  (jo.contains k = false ∧ v = dflt) ∨
    (∃ x, jo.at k = .ok (.num x) ∧ (0 ≤ x → (v : ℝ) ≤ x ∧ x < v + 1) ∧ (x < 0 → x ≤ v ∧ (v : ℝ) - 1 < x)) ∨
    ∃ b, jo.at k = .ok (.bool b) ∧ v = if b then 1 else 0

/-- A mask of a document, empty when the key is missing. -/
def ReadsMask (jo : JTree) (m : List Bool) : Prop :=
  (jo.contains "self_association_mask" = false ∧ m = []) ∨
    jo.at "self_association_mask" = .ok (.arr (m.map .bool))

theorem optDouble_reads {jo : JTree} {k : String} {d v : ℝ} (h : optDouble jo k d = .ok v) : ReadsNum jo k d v := by
  unfold optDouble at h
  by_cases hc : jo.contains k = true
  · rw [if_pos hc] at h
    obtain ⟨w, hw, h⟩ := Outcome.bind_eq_ok.mp h
    right
    cases w with
    | num x => rw [hw]; simp only [JTree.toDouble, Outcome.ok.injEq] at h; rw [h]
    | _ => simp [JTree.toDouble] at h
  · rw [if_neg hc] at h
    exact Or.inl ⟨by simpa using hc, (Outcome.ok.inj h).symm⟩

theorem optInt_reads {jo : JTree} {k : String} {d v : ℤ} (h : optInt jo k d = .ok v) : ReadsInt jo k d v := by
  unfold optInt at h
  by_cases hc : jo.contains k = true
  · rw [if_pos hc] at h
    obtain ⟨w, hw, h⟩ := Outcome.bind_eq_ok.mp h
    right
    cases w with
    | num x =>
      simp only [JTree.toInt, Outcome.ok.injEq] at h
      refine Or.inl ⟨x, hw, fun h0 => ?_, fun h0 => ?_⟩
      · rw [← h, if_pos h0]
        exact ⟨Int.floor_le x, Int.lt_floor_add_one x⟩
      · rw [← h, if_neg (not_le.mpr h0)]
        exact ⟨Int.le_ceil x, by linarith [Int.ceil_lt_add_one x]⟩
    | bool b =>
      simp only [JTree.toInt, Outcome.ok.injEq] at h
      exact Or.inr ⟨b, hw, h.symm⟩
    | _ => simp [JTree.toInt] at h
  · rw [if_neg hc] at h
    exact Or.inl ⟨by simpa using hc, (Outcome.ok.inj h).symm⟩

theorem toBools_reads {w : JTree} {m : List Bool} (h : w.toBools = .ok m) : w = .arr (m.map .bool) := by
  cases w with
  | arr xs =>
    simp only [JTree.toBools] at h
    congr 1
    induction xs generalizing m with
    | nil => cases h; rfl
    | cons x xs ih =>
      rw [mapOutcome] at h
      obtain ⟨b, hb, h⟩ := Outcome.bind_eq_ok.mp h
      obtain ⟨bs, hbs, h⟩ := Outcome.bind_eq_ok.mp h
      cases h
      cases x with
      | bool b' => simp only [JTree.toBool, Outcome.ok.injEq] at hb; rw [List.map_cons, ← ih hbs, hb]
      | _ => simp [JTree.toBool] at hb
  | _ => simp [JTree.toBools] at h

theorem copyMask_reads {j jo : JTree} {o o' : AssocOptions} (hj : j.at "options" = .ok jo) (hm : o.mask = [])
    (h : copyMask j o = .ok o') : ReadsMask jo o'.mask ∧ o' = { o with mask := o'.mask } := by
  unfold copyMask at h
  rw [hj] at h
  simp only [] at h
  by_cases hc : jo.contains "self_association_mask" = true
  · rw [if_pos hc] at h
    obtain ⟨m, hmm, h⟩ := Outcome.bind_eq_ok.mp h
    obtain ⟨w, hw, hmm⟩ := Outcome.bind_eq_ok.mp hmm
    cases h
    exact ⟨Or.inr (by rw [hw, toBools_reads hmm]), rfl⟩
  · rw [if_neg hc] at h
    cases h
    exact ⟨Or.inl ⟨by simpa using hc, hm⟩, rfl⟩

/-- Every option of an association model arrives in its own place, with its default when it is not given; the same for
the options of a CPA model. -/
theorem assoc_options_read (j jo : JTree) (hj : j.at "options" = .ok jo) (o : AssocOptions)
    (h : getAssocOptions j = .ok o ∨ cpaOptions j = .ok o) :
    ReadsNum jo "alpha" (1 / 2) o.alpha ∧ ReadsNum jo "rtol" 1e-12 o.rtol ∧ ReadsNum jo "atol" 1e-12 o.atol ∧
    ReadsInt jo "max_iters" 100 o.maxIters ∧ ReadsMask jo o.mask := by
  have hc : j.contains "options" = true := by
    cases j with
    | obj fs =>
      simp only [JTree.at] at hj
      simp only [JTree.contains]
      cases hl : fs.lookup "options" with
      | none => simp [hl] at hj
      | some v => simp
    | _ => simp [JTree.at] at hj
  obtain ⟨o1, h1, h⟩ : ∃ o1, assocOptsFromJson jo = .ok o1 ∧ copyMask j o1 = .ok o := by
    rcases h with h | h
    · unfold getAssocOptions at h
      rw [if_pos hc, hj, Outcome.bind_ok] at h
      exact Outcome.bind_eq_ok.mp h
    · unfold cpaOptions at h
      obtain ⟨d, -, h⟩ := Outcome.bind_eq_ok.mp h
      rw [if_pos hc, hj, Outcome.bind_ok] at h
      exact Outcome.bind_eq_ok.mp h
  unfold assocOptsFromJson at h1
  obtain ⟨α, hα, h1⟩ := Outcome.bind_eq_ok.mp h1
  obtain ⟨rt, hrt, h1⟩ := Outcome.bind_eq_ok.mp h1
  obtain ⟨at', hat, h1⟩ := Outcome.bind_eq_ok.mp h1
  obtain ⟨mi, hmi, h1⟩ := Outcome.bind_eq_ok.mp h1
  cases h1
  obtain ⟨hm, he⟩ := copyMask_reads hj rfl h
  have e1 : o.alpha = α := by rw [he]
  have e2 : o.rtol = rt := by rw [he]
  have e3 : o.atol = at' := by rw [he]
  have e4 : o.maxIters = mi := by rw [he]
  exact ⟨e1 ▸ optDouble_reads hα, e2 ▸ optDouble_reads hrt, e3 ▸ optDouble_reads hat, e4 ▸ optInt_reads hmi, hm⟩

/-- A document that gives two of the options. -/
example : ∃ o, getAssocOptions (.obj [("options", .obj [("atol", .num 1e-9), ("self_association_mask", .arr [.bool true])])])
    = .ok o ∧ o.atol = 1e-9 ∧ o.rtol = 1e-12 ∧ o.mask = [true] := by
  refine ⟨_, by
    simp [getAssocOptions, JTree.contains, JTree.at, lookup_cons_ne, lookup_cons_eq, assocOptsFromJson, optDouble, optInt, copyMask,
      JTree.toDouble, JTree.toBools, JTree.toBool, mapOutcome, Outcome.bind_ok]; rfl, rfl, rfl, rfl⟩

/-- A mask that is not a list of truth values is an error of the JSON library. -/
theorem assoc_mask_typed (j jo w : JTree) (hj : j.at "options" = .ok jo) (o1 : AssocOptions)
    (h1 : assocOptsFromJson jo = .ok o1) (hw : jo.at "self_association_mask" = .ok w)
    (hb : ∀ m : List Bool, w ≠ .arr (m.map .bool)) : getAssocOptions j = .throws .jsonError := by
  have hcont : ∀ (t v : JTree) (k : String), t.at k = .ok v → t.contains k = true := by
    intro t v k h
    cases t with
    | obj fs =>
      simp only [JTree.at] at h
      simp only [JTree.contains]
      cases hl : fs.lookup k with
      | none => simp [hl] at h
      | some v => simp
    | _ => simp [JTree.at] at h
  have hlist : ∀ xs : List JTree, (∀ m : List Bool, xs ≠ m.map .bool) → mapOutcome JTree.toBool xs = .throws .jsonError := by
    intro xs
    induction xs with
    | nil => intro h; exact absurd rfl (h [])
    | cons x xs ih =>
      intro h
      rw [mapOutcome]
      cases x with
      | bool b =>
        have : mapOutcome JTree.toBool xs = .throws .jsonError := ih fun m hm => h (b :: m) (by rw [hm, List.map_cons])
        rw [this]
        rfl
      | _ => rfl
  have hbools : w.toBools = .throws .jsonError := by
    cases w with
    | arr xs => exact hlist xs fun m hm => hb m (by rw [hm])
    | _ => rfl
  unfold getAssocOptions
  rw [if_pos (hcont j jo _ hj), hj, Outcome.bind_ok, h1, Outcome.bind_ok]
  unfold copyMask
  rw [hj]
  simp only []
  rw [if_pos (hcont jo w _ hw), hw, Outcome.bind_ok, hbools]
  rfl

example : getAssocOptions (.obj [("options", .obj [("self_association_mask", .arr [.bool true, .num 1])])]) =
    .throws .jsonError :=
  assoc_mask_typed _ (.obj [("self_association_mask", .arr [.bool true, .num 1])]) (.arr [.bool true, .num 1])
    (by simp [JTree.at]) { radialDist := some .CS }
    (by simp [assocOptsFromJson, optDouble, optInt, JTree.contains, lookup_cons_ne])
    (by simp [JTree.at]) (by intro m hm; match m with
      | [] => simp at hm
      | [a] => simp at hm
      | a :: b :: l => simp at hm)

end Teqp.Props
