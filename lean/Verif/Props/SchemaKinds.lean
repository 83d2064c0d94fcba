import Verif.Props.Schema

/-! # C155: the kinds whose documents have a structure -/

set_option autoImplicit false

namespace Teqp.Props
open Teqp.Model Teqp.Lemmas

theorem answered_if {M : Type} {c : Prop} [Decidable c] {a b : Outcome M} (ha : c → Answered a) (hb : ¬c → Answered b) :
    Answered (if c then a else b) := by
  split_ifs with h
  · exact ha h
  · exact hb h

theorem answered_arg {M : Type} : Answered (.throws .invalidArgument : Outcome M) := Or.inr (Or.inr (Or.inl rfl))
theorem answered_std {M : Type} : Answered (.throws .stdInvalidArgument : Outcome M) := Or.inr (Or.inr (Or.inr rfl))

/-! ## `cubic` -/

theorem buildAlphaJson_answered {Tci : ℝ} {j : JTree} (h : schemaAlpha j = true) : Answered (buildAlphaJson Tci j) := by
  obtain ⟨v, e, -, hv⟩ := sObject_required h (k := "type") (by simp) rfl
  obtain ⟨c, ec, -, hc⟩ := sObject_required h (k := "c") (by simp) rfl
  obtain ⟨hc, hn⟩ := sTuple_arr hc
  obtain ⟨l, rfl, hl⟩ := sNumbers_row hc
  have hn : l.length = 3 := by simpa [JTree.size] using hn
  obtain ⟨x, y, z, rfl⟩ : ∃ x y z, l = [x, y, z] := by
    match l, hn with
    | [x, y, z], _ => exact ⟨x, y, z, rfl⟩
  obtain ⟨s, hs, rfl⟩ := sEnum_str hv
  simp only [List.mem_cons, List.not_mem_nil, or_false] at hs
  unfold buildAlphaJson
  rw [e, ec]
  simp only [Outcome.bind_ok, hl]
  rcases hs with rfl | rfl
  · exact Answered.ok _
  · exact Answered.ok _

theorem mem_zip_right {α β : Type} {a : α} {b : β} {l : List α} {m : List β} (h : (a, b) ∈ l.zip m) : b ∈ m := (List.of_mem_zip h).2

theorem genCubic_answered {j : JTree} (h : schemaCubic j = true) (hl : LongEnough j) : Answered (genCubic j) := by
  obtain ⟨Tc, hT⟩ := rowAt_valid h (k := "Tcrit / K") (by simp) rfl
  obtain ⟨pc, hp⟩ := rowAt_valid h (k := "pcrit / Pa") (by simp) rfl
  obtain ⟨w, hw⟩ := rowAt_valid h (k := "acentric") (by simp) rfl
  obtain ⟨h1, h2⟩ := hl Tc pc w hT hp hw
  obtain ⟨t, et, -, ht⟩ := sObject_required h (k := "type") (by simp) rfl
  obtain ⟨s, hs, rfl⟩ := sEnum_str ht
  have hR : j.contains "R / J/mol/K" = false := sObject_unknown h rfl
  have hal : ∀ mOf, Answered (genAlphas j Tc w mOf) := by
    intro mOf
    unfold genAlphas
    rcases sObject_optional h "alpha" rfl with ha | ⟨v, e, ha, hv⟩
    · rw [if_neg (by simp [ha]), if_neg (by omega)]
      exact Answered.ok _
    · rw [if_pos ha, e]
      obtain ⟨xs, rfl, hx⟩ := sArray_arr hv
      change Answered (buildAlphasJson Tc (.arr xs))
      unfold buildAlphasJson
      refine answered_if (fun _ => answered_arg) fun _ => Answered.mapM ?_
      rintro ⟨a, b⟩ hab
      exact buildAlphaJson_answered (hx b (mem_zip_right hab))
  unfold rowAt at hT hp hw
  unfold genCubic
  rw [hT, hp, hw]
  refine (optEntry_answered fun v _ => buildSquareMatrix_answered v).bind fun k _ => ?_
  unfold optEntry
  rw [if_neg (by simp [hR]), et]
  simp only [Outcome.bind_ok]
  simp only [List.mem_cons, List.not_mem_nil, or_false] at hs
  rcases hs with rfl | rfl
  · rw [if_pos rfl]
    exact (hal _).bind fun al _ => cubicCtor_answered _ _ _ _ _ _ _ _ _ h1
  · rw [if_neg (by decide), if_pos rfl]
    exact (hal _).bind fun al _ => cubicCtor_answered _ _ _ _ _ _ _ _ _ h1

/-! ## `CPA` -/

theorem mapOutcome_numAt {key : String} {ps : List JTree} (h : ∀ p ∈ ps, ∃ x, numAt key p = .ok x) : ∃ l, mapOutcome (numAt key) ps = .ok l := by
  induction ps with
  | nil => exact ⟨[], rfl⟩
  | cons a ps ih =>
    obtain ⟨x, hx⟩ := h a (by simp)
    obtain ⟨l, hl⟩ := ih fun p hp => h p (by simp [hp])
    exact ⟨x :: l, by simp [mapOutcome, hx, hl]⟩

theorem atConst_of_at_ok {j v : JTree} {k : String} (h : j.at k = .ok v) : j.atConst k = .ok v := by
  obtain ⟨fs, rfl, e⟩ := at_obj h
  simp only [JTree.atConst, e]

/-- What a valid document of the kind `CPA` contains. -/
theorem schemaCPA_reads {j : JTree} (h : schemaCPA j = true) :
    ∃ ps, j.at "pures" = .ok (.arr ps) ∧ (∀ p ∈ ps, schemaCPAPure p = true) ∧ (∃ c, cpaBuildCubic j = .ok c) ∧
      (∃ d, requestedDist j = .ok d) ∧ (∃ R, (j.atConst "R_gas / J/mol/K").bind JTree.toDouble = .ok R) := by
  obtain ⟨v, e, -, hv⟩ := sObject_required h (k := "pures") (by simp) rfl
  obtain ⟨ps, rfl, hps⟩ := sArray_arr hv
  obtain ⟨R, hR⟩ := numAt_valid h (k := "R_gas / J/mol/K") (by simp) rfl
  have hR' : (j.atConst "R_gas / J/mol/K").bind JTree.toDouble = .ok R := by
    obtain ⟨w, ew, hw⟩ := Outcome.bind_eq_ok.mp hR
    rw [atConst_of_at_ok ew]
    exact hw
  obtain ⟨c, ec, -, hc⟩ := sObject_required h (k := "cubic") (by simp) rfl
  obtain ⟨cs, hcs, rfl⟩ := sEnum_str hc
  obtain ⟨d, ed, -, hd⟩ := sObject_required h (k := "radial_dist") (by simp) rfl
  obtain ⟨ds, hds, rfl⟩ := sEnum_str hd
  simp only [List.mem_cons, List.not_mem_nil, or_false] at hcs hds
  refine ⟨ps, e, hps, ?_, ?_, R, hR'⟩
  · obtain ⟨a0, h1⟩ := mapOutcome_numAt (key := "a0i / Pa m^6/mol^2") fun p hp => numAt_valid (hps p hp) (by simp) rfl
    obtain ⟨b, h2⟩ := mapOutcome_numAt (key := "bi / m^3/mol") fun p hp => numAt_valid (hps p hp) (by simp) rfl
    obtain ⟨c1, h3⟩ := mapOutcome_numAt (key := "c1") fun p hp => numAt_valid (hps p hp) (by simp) rfl
    obtain ⟨Tc, h4⟩ := mapOutcome_numAt (key := "Tc / K") fun p hp => numAt_valid (hps p hp) (by simp) rfl
    have hk : j.contains "kmat" = false := sObject_unknown h rfl
    unfold cpaBuildCubic cpaKmat
    rw [atConst_of_at_ok e, atConst_of_at_ok ec, hR']
    simp only [Outcome.bind_ok, hk, Bool.false_eq_true, if_false, JTree.items, h1, h2, h3, h4, JTree.toStr]
    rcases hcs with rfl | rfl
    · exact ⟨_, rfl⟩
    · exact ⟨_, rfl⟩
  · unfold requestedDist
    rw [ed]
    rcases hds with rfl | rfl
    · exact ⟨_, rfl⟩
    · exact ⟨_, rfl⟩

theorem getAssocClass_answered (s : String) : Answered (getAssocClass s) := by
  unfold getAssocClass
  split_ifs <;> first | exact Answered.ok _ | exact answered_std

theorem cpaSites_answered (c : AssocClass) : Answered (cpaSites c) := by
  cases c <;> first | exact Answered.ok _ | exact answered_std

/-- A valid document with one component is answered. -/
theorem cpaFactory_pure {j p : JTree} (h : schemaCPA j = true) (hp : j.at "pures" = .ok (.arr [p])) : Answered (cpaFactory j) := by
  obtain ⟨ps, e, hps, ⟨c, hc⟩, ⟨d, hd⟩, R, hR⟩ := schemaCPA_reads h
  rw [hp] at e
  cases e
  have hv := hps p (by simp)
  obtain ⟨s, es, hcl, hs⟩ := sObject_required hv (k := "class") (by simp) rfl
  obtain ⟨cl, rfl⟩ := sString_str hs
  obtain ⟨eps, h1⟩ := mapOutcome_numAt (key := "epsABi / J/mol") fun p hp => numAt_valid (hps p hp) (by simp) rfl
  obtain ⟨beta, h2⟩ := mapOutcome_numAt (key := "betaABi") fun p hp => numAt_valid (hps p hp) (by simp) rfl
  obtain ⟨b, h3⟩ := mapOutcome_numAt (key := "bi / m^3/mol") fun p hp => numAt_valid (hps p hp) (by simp) rfl
  unfold cpaFactory
  rw [hc, atConst_of_at_ok hp]
  simp only [Outcome.bind_ok, cpaOldStyle, JTree.items, List.length_cons, List.length_nil, Nat.zero_add, if_true, hcl]
  refine Answered.bind ?_ fun a _ => Answered.ok _
  unfold cpaBuildOld
  rw [hd]
  simp only [Outcome.bind_ok, h1, h2, h3, hR]
  refine Answered.bind (Answered.mapM ?_) fun cls _ => ?_
  · intro a ha
    simp only [List.mem_cons, List.not_mem_nil, or_false] at ha
    subst ha
    rw [es]
    exact getAssocClass_answered cl
  · unfold CPAAssoc.make
    exact (Answered.mapM fun c _ => cpaSites_answered c).bind fun _ _ => Answered.ok _

/-- A valid document with several components makes the factory fail with an exception of the JSON library, because it requires the association
sites that the schema forbids. -/
theorem cpaFactory_mixture {j p q : JTree} {ps : List JTree} (h : schemaCPA j = true) (hp : j.at "pures" = .ok (.arr (p :: q :: ps))) :
    cpaFactory j = .throws .jsonError := by
  obtain ⟨ps', e, hps, ⟨c, hc⟩, ⟨d, hd⟩, R, hR⟩ := schemaCPA_reads h
  rw [hp] at e
  cases e
  obtain ⟨eps, h1⟩ := mapOutcome_numAt (key := "epsABi / J/mol") fun p hp => numAt_valid (hps p hp) (by simp) rfl
  obtain ⟨beta, h2⟩ := mapOutcome_numAt (key := "betaABi") fun p hp => numAt_valid (hps p hp) (by simp) rfl
  obtain ⟨b, h3⟩ := mapOutcome_numAt (key := "bi / m^3/mol") fun p hp => numAt_valid (hps p hp) (by simp) rfl
  have hs : p.contains "sites" = false := sObject_unknown (hps p (by simp)) rfl
  have hs' : p.at "sites" = .throws .jsonError := by
    cases p with
    | obj fs =>
      simp only [JTree.contains] at hs
      cases e : fs.lookup "sites" with
      | none => simp only [JTree.at, e]
      | some v => rw [e] at hs; cases hs
    | _ => rfl
  have ho : j.contains "options" = false := sObject_unknown h rfl
  have ho' : ∀ v, j.at "options" ≠ .ok v := by
    intro v hv
    obtain ⟨fs, rfl, e⟩ := at_obj hv
    simp only [JTree.contains, e] at ho
    cases ho
  unfold cpaFactory
  rw [hc, atConst_of_at_ok hp]
  have hm : ∀ o, copyMask j o = .ok o := by
    intro o
    unfold copyMask
    split
    · rename_i jo e
      exact absurd e (ho' jo)
    · rfl
  have hold : cpaOldStyle (.arr (p :: q :: ps)) = .ok false := by
    unfold cpaOldStyle
    rw [if_neg (by simp [JTree.items])]
  have hsites : mapOutcome (fun p => (p.at "sites").bind JTree.toStrs) (p :: q :: ps) = .throws .jsonError := by
    simp [mapOutcome, hs']
  have hnew : cpaBuildNew j (p :: q :: ps) = .throws .jsonError := by
    unfold cpaBuildNew cpaOptions
    rw [hd]
    simp only [Outcome.bind_ok, ho, Bool.false_eq_true, if_false, hm]
    rw [h1, h2, h3, hsites]
    rfl
  simp only [Outcome.bind_ok, hold, Bool.false_eq_true, if_false, JTree.items]
  rw [hnew]
  rfl

/-! ## `PCSAFT` -/

theorem pcKmat_answered (j : JTree) : Answered (pcKmat j) := by
  unfold pcKmat
  split
  · exact (buildSquareMatrix_answered _).bind fun _ _ => Answered.ok _
  · exact Answered.ok _

theorem pcKmatFits_answered (k : Option SqMat) (n : ℕ) : Answered (pcKmatFits k n) := by
  unfold pcKmatFits
  split
  · exact answered_if (fun _ => answered_arg) fun _ => Answered.ok _
  · exact Answered.ok _

theorem pcMake_answered (cs : List SAFTCoeffs) (a b : Fin 3 → Fin 7 → ℝ) (k : SqMat) : Answered (PCMixture.make cs a b k) := by
  unfold PCMixture.make pcCheckKmat
  exact (answered_if (fun _ => Answered.ok _) fun _ => answered_if (fun _ => answered_arg) fun _ => Answered.ok _).bind fun _ _ => Answered.ok _

theorem pcLibrary_answered (s : String) : Answered (pcLibrary s) := by
  unfold pcLibrary
  split_ifs <;> first | exact Answered.ok _ | exact answered_std

/-- The entries are not null. -/
def NoNulls (j : JTree) : Prop := ∀ k, j.at k ≠ .ok .null

theorem numAt_present {props : List (String × JSchema)} {req : List String} {j : JTree} (h : sObject props req j = true) (hn : NoNulls j) {k : String}
    (hs : props.lookup k = some (sOrNull sNumber)) (hc : j.contains k = true) : ∃ x, numAt k j = .ok x := by
  rcases sObject_optional h k hs with h0 | ⟨v, e, -, hv⟩
  · rw [h0] at hc; cases hc
  · rcases sOrNull_cases hv with hv | rfl
    · exact numAt_schema_iff.mpr ⟨v, e, hv⟩
    · exact absurd e (hn k)

theorem pcCoeffs_valid {j : JTree} (h : schemaPCCoeff j = true) (hn : NoNulls j) : ∃ c, pcCoeffs j = .ok c := by
  obtain ⟨name, h1⟩ := strAt_valid h (k := "name") (by simp) rfl
  obtain ⟨m, h2⟩ := numAt_valid h (k := "m") (by simp) rfl
  obtain ⟨sg, h3⟩ := numAt_valid h (k := "sigma_Angstrom") (by simp) rfl
  obtain ⟨ep, h4⟩ := numAt_valid h (k := "epsilon_over_k") (by simp) rfl
  obtain ⟨bib, h5⟩ := strAt_valid h (k := "BibTeXKey") (by simp) rfl
  have key : ∀ k1 k2 : String, List.lookup k1 [("name", sString), ("m", sNumber), ("sigma_Angstrom", sNumber), ("epsilon_over_k", sNumber), ("BibTeXKey", sString),
    ("(mu^*)^2", sOrNull sNumber), ("nmu", sOrNull sNumber), ("(Q^*)^2", sOrNull sNumber), ("nQ", sOrNull sNumber)] = some (sOrNull sNumber) → 
    List.lookup k2 [("name", sString), ("m", sNumber), ("sigma_Angstrom", sNumber), ("epsilon_over_k", sNumber), ("BibTeXKey", sString),
    ("(mu^*)^2", sOrNull sNumber), ("nmu", sOrNull sNumber), ("(Q^*)^2", sOrNull sNumber), ("nQ", sOrNull sNumber)] = some (sOrNull sNumber) →
    ∃ d : ℝ × ℝ, (if j.contains k1 = true ∧ j.contains k2 = true then (numAt k1 j).bind fun mu => (numAt k2 j).bind fun n => .ok (mu, n)
      else (.ok (0, 0) : Outcome (ℝ × ℝ))) = .ok d := by
    intro k1 k2 e1 e2
    split_ifs with hc
    · obtain ⟨x, hx⟩ := numAt_present h hn e1 hc.1
      obtain ⟨y, hy⟩ := numAt_present h hn e2 hc.2
      exact ⟨(x, y), by simp [hx, hy]⟩
    · exact ⟨_, rfl⟩
  obtain ⟨d, hd⟩ := key "(mu^*)^2" "nmu" rfl rfl
  obtain ⟨q, hq⟩ := key "(Q^*)^2" "nQ" rfl rfl
  unfold pcCoeffs
  change numAt "m" j = _ at h2
  unfold numAt at h2 h3 h4
  rw [h1, h2, h3, h4, h5]
  simp only [Outcome.bind_ok]
  rw [hd, hq]
  exact ⟨_, rfl⟩

theorem pcTables_answered {j : JTree} {props : List (String × JSchema)} {req : List String} (h : sObject props req j = true)
    (hs : props.lookup "ab" = some schemaAB) (hn : j.at "ab" ≠ .ok .null) : Answered (pcTables j) := by
  unfold pcTables
  rcases sObject_optional h "ab" hs with h0 | ⟨v, e, hc, hv⟩
  · rw [if_neg (by simp [h0])]
    exact Answered.ok _
  · rw [if_pos hc, e]
    rcases sOrNull_cases hv with hv | rfl
    · obtain ⟨s, -, rfl⟩ := sEnum_str hv
      simp only [Outcome.bind_ok, JTree.toStr]
      split_ifs <;> first | exact Answered.ok _ | exact answered_arg
    · exact absurd e hn

/-- The schema of PC-SAFT allows exactly the names of coefficient tables that the factory knows, and null, which the factory refuses. -/
theorem schema_tables_iff (v : JTree) :
    schemaAB v = true ↔ (∃ t, pcTables (.obj [("ab", v)]) = .ok t) ∨ v = .null := by
  have hat : (JTree.obj [("ab", v)]).at "ab" = .ok v := by simp [JTree.at]
  have hc : (JTree.obj [("ab", v)]).contains "ab" = true := by simp [JTree.contains]
  unfold pcTables
  rw [if_pos hc, hat, Outcome.bind_ok]
  cases v with
  | null => simp [schemaAB, sOrNull, sAnyOf, sNull]
  | str s =>
    simp only [JTree.toStr, Outcome.bind_ok, schemaAB, sOrNull, sAnyOf, List.any_cons, List.any_nil, sEnum, sNull]
    by_cases h1 : s = "Liang-IECR-2012"
    · subst h1; simp
    · by_cases h2 : s = "Liang-IECR-2014"
      · subst h2; simp
      · simp [h1, h2]
  | _ => simp [schemaAB, sOrNull, sAnyOf, sEnum, sNull, JTree.toStr, Outcome.bind]

example : schemaAB (.str "Liang-IECR-2014") = true ∧ schemaAB (.str "Liang-IECR-2015") = false :=
  ⟨(schema_tables_iff _).2 (.inl ⟨(liang14A, liang14B), by simp [pcTables, JTree.at, JTree.contains, JTree.toStr]⟩),
    by simpa using (schema_tables_iff (.str "Liang-IECR-2015")).not.2 (by simp [pcTables, JTree.at, JTree.contains, JTree.toStr])⟩

/-- A valid document is answered unless it says null where the factory expects a string or a number. -/
theorem pcFactory_answered {j : JTree} (h : schemaPCSAFT j = true) (hn : j.at "ab" ≠ .ok .null)
    (hc : ∀ cs, j.at "coeffs" = .ok (.arr cs) → ∀ c ∈ cs, NoNulls c) : Answered (pcFactory j) := by
  simp only [schemaPCSAFT, sAnyOf, List.any_cons, List.any_nil, Bool.or_false, Bool.or_eq_true] at h
  unfold pcFactory
  refine (pcKmat_answered j).bind fun k _ => ?_
  rcases h with h | h
  · refine (pcTables_answered h rfl hn).bind fun ab _ => ?_
    obtain ⟨v, e, hcn, hv⟩ := sObject_required h (k := "names") (by simp) rfl
    rw [if_pos hcn, e]
    obtain ⟨l, hl⟩ := sStrings_strs hv
    simp only [Outcome.bind_ok, hl]
    refine (pcKmatFits_answered _ _).bind fun _ _ => ?_
    exact (Answered.mapM fun s _ => pcLibrary_answered s).bind fun cs _ => pcMake_answered _ _ _ _
  · refine (pcTables_answered h rfl hn).bind fun ab _ => ?_
    have hnames : j.contains "names" = false := sObject_unknown h rfl
    obtain ⟨v, e, hcn, hv⟩ := sObject_required h (k := "coeffs") (by simp) rfl
    rw [if_neg (by simp [hnames]), if_pos hcn, e]
    simp only [Outcome.bind_ok]
    refine Answered.bind (Answered.mapM ?_) fun cs _ => (pcKmatFits_answered _ _).bind fun _ _ => pcMake_answered _ _ _ _
    rcases sOrNull_cases hv with hv | rfl
    · obtain ⟨xs, rfl, hx⟩ := sArray_arr hv
      intro c hcm
      exact Answered.of_ok (pcCoeffs_valid (hx c hcm) (hc xs e c hcm))
    · intro c hcm
      simp [JTree.items] at hcm

/-! ## `multifluid-ECS-HuberEly1994` -/

/-- A valid document is answered if building the reference fluid is. -/
theorem huberEly_answered (build : String → Outcome (ℝ → ℝ → List ℝ → Outcome ℝ)) (hb : ∀ s, Answered (build s)) {j : JTree} (h : schemaECS j = true) :
    Answered (HuberEly.make build j) := by
  obtain ⟨r, er, -, hr⟩ := sObject_required h (k := "reference_fluid") (by simp) rfl
  obtain ⟨fl, ef, -, hf⟩ := sObject_required h (k := "fluid") (by simp) rfl
  obtain ⟨name, h1⟩ := strAt_valid hr (k := "name") (by simp) rfl
  obtain ⟨x2, h2⟩ := numAt_valid hr (k := "acentric") (by simp) rfl
  obtain ⟨x3, h3⟩ := numAt_valid hr (k := "Z_crit") (by simp) rfl
  obtain ⟨x4, h4⟩ := numAt_valid hr (k := "T_crit / K") (by simp) rfl
  obtain ⟨x5, h5⟩ := numAt_valid hr (k := "rhomolar_crit / mol/m^3") (by simp) rfl
  obtain ⟨y2, g2⟩ := numAt_valid hf (k := "acentric") (by simp) rfl
  obtain ⟨y3, g3⟩ := numAt_valid hf (k := "Z_crit") (by simp) rfl
  obtain ⟨y4, g4⟩ := numAt_valid hf (k := "T_crit / K") (by simp) rfl
  obtain ⟨y5, g5⟩ := numAt_valid hf (k := "rhomolar_crit / mol/m^3") (by simp) rfl
  obtain ⟨v, ev, -, hv⟩ := sObject_required hf (k := "f_T_coeffs") (by simp) rfl
  obtain ⟨w, ew, -, hw⟩ := sObject_required hf (k := "h_T_coeffs") (by simp) rfl
  obtain ⟨lv, -, hlv⟩ := sNumbers_row (sTuple_arr hv).1
  obtain ⟨lw, -, hlw⟩ := sNumbers_row (sTuple_arr hw).1
  unfold numAt at h2 h3 h4 h5 g2 g3 g4 g5
  unfold HuberEly.make
  rw [er]
  simp only [Outcome.bind_ok]
  rw [h1]
  simp only [Outcome.bind_ok]
  refine (hb name).bind fun ref _ => ?_
  rw [h2, h3, h4, h5, ef]
  simp only [Outcome.bind_ok]
  rw [g2, g3, g4, g5, ev, ew]
  simp only [Outcome.bind_ok, hlv, hlw]
  exact Answered.ok _

/-! ## `SAFT-VR-Mie` -/

theorem svrLibrary_answered (s : String) : Answered (svrLibrary s) := by
  unfold svrLibrary
  split_ifs <;> first | exact Answered.ok _ | exact answered_std

theorem pcKmat_pos {j : JTree} {k : SqMat} (h : pcKmat j = .ok (some k)) : k.n ≠ 0 := by
  unfold pcKmat at h
  split at h
  · rename_i r rs e
    obtain ⟨k', hk, hs⟩ := Outcome.bind_eq_ok.mp h
    cases hs
    unfold buildSquareMatrix at hk
    simp only at hk
    rcases toRows_json (.arr (r :: rs)) with ⟨m, em⟩ | em
    · rw [em] at hk
      have hm := (toRows_ok _ _).mp em
      have hl : m.length ≠ 0 := by
        rintro h0
        have := List.length_eq_zero_iff.mp h0
        subst this
        cases hm
      simp only [Outcome.bind_ok] at hk
      rcases copyRows_answered m.length m 0 (fun _ _ => 0) with ⟨v, ev⟩ | ev | ev | ev <;> rw [ev] at hk <;> simp [catchJson] at hk
      rw [← hk]
      exact hl
    · rw [em] at hk
      simp [catchJson] at hk
  · cases h

theorem svrChain_answered (cs : List SVRCoeffs) {k : Option SqMat} (hk : ∀ m, k = some m → m.n ≠ 0) (fl : Option JTree) : Answered (svrChain cs k fl) := by
  unfold svrChain
  refine Answered.bind ?_ fun _ _ => Answered.bind ?_ fun lb _ => ?_
  · split
    · exact answered_if (fun _ => answered_arg) fun _ => Answered.ok _
    · exact Answered.ok _
  · split
    · exact Answered.ok _
    · exact Answered.ok _
    · exact answered_std
  · split
    · refine answered_if (fun hh => absurd hh.1 (hk _ rfl)) fun _ => Answered.ok _
    · exact Answered.ok _

theorem gvMake_answered (a : GVArrays) (h1 : a.nmu.length = a.mustar2.length) (h2 : a.nQ.length = a.Qstar2.length) : Answered (GVMulti.make a) := by
  unfold GVMulti.make
  rw [if_neg (by simp [h1])]
  refine Answered.bind ?_ fun di _ => ?_
  · refine answered_if (fun _ => Answered.bind ?_ fun _ _ => Answered.ok _) fun _ => Answered.ok _
    unfold dipMake
    split_ifs <;> first | exact Answered.ok _ | exact answered_arg
  · rw [if_neg (by simp [h2])]
    refine Answered.bind ?_ fun qu _ => Answered.bind ?_ fun _ _ => Answered.ok _
    · refine answered_if (fun _ => Answered.bind ?_ fun _ _ => Answered.ok _) fun _ => Answered.ok _
      unfold quadMake
      split_ifs <;> first | exact Answered.ok _ | exact answered_arg
    · refine answered_if (fun _ => Answered.bind ?_ fun _ _ => Answered.ok _) fun _ => Answered.ok _
      unfold diquadMake
      split_ifs <;> first | exact Answered.ok _ | exact answered_arg

theorem svrOfCoeffs_answered (cs : List SVRCoeffs) {k : Option SqMat} (hk : ∀ m, k = some m → m.n ≠ 0) (fl : Option JTree) :
    Answered (SVRMixture.ofCoeffs cs k fl) := by
  unfold SVRMixture.ofCoeffs
  refine (svrChain_answered cs hk fl).bind fun t _ => Answered.bind ?_ fun _ _ => Answered.ok _
  unfold svrBuildPolar
  refine answered_if (fun _ => Answered.ok _) fun _ => Answered.bind (gvMake_answered _ ?_ ?_) fun _ _ => Answered.ok _ <;>
    simp [svrPolarArrays]

theorem svrPolarOf_answered (kind : String) (ms : List SVRMoments) : Answered (svrPolarOf kind ms) := by
  unfold svrPolarOf
  refine answered_if (fun _ => Answered.bind (gvMake_answered _ ?_ ?_) fun _ _ => Answered.ok _) fun _ =>
    answered_if (fun _ => Answered.ok _) fun _ => answered_if (fun _ => Answered.ok _) fun _ => answered_arg <;>
    simp [svrGVArrays]

/-- What an entry of `coeffs` contains, whichever unit the diameter has. -/
theorem svrCoeff_reads {key : String} (hk : key = "sigma_Angstrom" ∨ key = "sigma_m") {j : JTree} (h : schemaSVRCoeff key j = true) (hn : NoNulls j) :
    (∃ c, (svrCoeffs j).bind (svrLegacy j) = .ok c) ∧ ∃ m, svrMoments j = .ok m := by
  have hkey : ∀ k, k ≠ key → k ∉ ["name", "m", "epsilon_over_k", "BibTeXKey", "lambda_r", "lambda_a", "mu_Cm", "mu_D", "Q_Cm2", "Q_DA", "nmu", "nQ"] →
      j.contains k = false := by
    intro k h1 h2
    refine sObject_unknown h ?_
    simp only [List.mem_cons, List.not_mem_nil, or_false, not_or] at h2
    obtain ⟨a1, a2, a3, a4, a5, a6, a7, a8, a9, a10, a11, a12⟩ := h2
    simp [List.lookup_cons, beq_eq_false_iff_ne.mpr, h1, a1, a2, a3, a4, a5, a6, a7, a8, a9, a10, a11, a12]
  obtain ⟨name, h1⟩ := strAt_valid h (k := "name") (by simp) (by simp [List.lookup_cons])
  obtain ⟨m, h2⟩ := numAt_valid h (k := "m") (by simp) (by simp [List.lookup_cons])
  obtain ⟨ep, h4⟩ := numAt_valid h (k := "epsilon_over_k") (by simp) (by simp [List.lookup_cons])
  obtain ⟨bib, h5⟩ := strAt_valid h (k := "BibTeXKey") (by simp) (by simp [List.lookup_cons])
  obtain ⟨lr, h6⟩ := numAt_valid h (k := "lambda_r") (by simp) (by simp [List.lookup_cons])
  obtain ⟨la, h7⟩ := numAt_valid h (k := "lambda_a") (by simp) (by simp [List.lookup_cons])
  have hsig : ∃ s, svrSigma j = .ok s := by
    unfold svrSigma
    rcases hk with rfl | rfl
    · obtain ⟨s, hs⟩ := numAt_valid h (k := "sigma_Angstrom") (by simp) rfl
      rw [if_neg (by rw [hkey "sigma_m" (by decide) (by decide)]; simp), hs]
      exact ⟨_, rfl⟩
    · obtain ⟨s, hs⟩ := numAt_valid h (k := "sigma_m") (by simp) rfl
      obtain ⟨v, ev, hc, -⟩ := sObject_required h (k := "sigma_m") (by simp) rfl
      rw [if_pos hc, hs]
      exact ⟨_, rfl⟩
  obtain ⟨sg, h3⟩ := hsig
  have hmu : j.contains "(mu^*)^2" = false := hkey _ (by rcases hk with rfl | rfl <;> decide) (by decide)
  have hQ : j.contains "(Q^*)^2" = false := hkey _ (by rcases hk with rfl | rfl <;> decide) (by decide)
  have opt : ∀ k, k ∈ ["mu_Cm", "mu_D", "Q_Cm2", "Q_DA", "nmu", "nQ"] → j.contains k = true → ∃ x, numAt k j = .ok x := by
    intro k hm hc
    refine numAt_present h hn ?_ hc
    simp only [List.mem_cons, List.not_mem_nil, or_false] at hm
    rcases hm with rfl | rfl | rfl | rfl | rfl | rfl <;> rfl
  constructor
  · unfold svrCoeffs
    rw [h1, h2, h3, h4, h5, h6, h7]
    simp only [Outcome.bind_ok, svrLegacy, hmu, hQ, Bool.false_eq_true, false_and, if_false]
    exact ⟨_, rfl⟩
  · have hd : ∃ x, svrDipole j m ep sg = .ok x := by
      unfold svrDipole
      rw [if_neg (by simp [hmu])]
      split_ifs with c1 c2
      · exact opt _ (by simp) c1
      · obtain ⟨x, hx⟩ := opt _ (by simp) c2
        rw [hx]
        exact ⟨_, rfl⟩
      · exact ⟨_, rfl⟩
    have hq : ∃ x, svrQuadrupole j m ep sg = .ok x := by
      unfold svrQuadrupole
      rw [if_neg (by simp [hQ])]
      split_ifs with c1 c2
      · exact opt _ (by simp) c1
      · obtain ⟨x, hx⟩ := opt _ (by simp) c2
        rw [hx]
        exact ⟨_, rfl⟩
      · exact ⟨_, rfl⟩
    obtain ⟨d, hd⟩ := hd
    obtain ⟨q, hq⟩ := hq
    have hnmu : ∃ x, (if j.contains "nmu" = true then numAt "nmu" j else .ok 0) = .ok x := by
      split_ifs with c
      · exact opt _ (by simp) c
      · exact ⟨_, rfl⟩
    have hnQ : ∃ x, (if j.contains "nQ" = true then numAt "nQ" j else .ok 0) = .ok x := by
      split_ifs with c
      · exact opt _ (by simp) c
      · exact ⟨_, rfl⟩
    obtain ⟨a, ha⟩ := hnmu
    obtain ⟨b, hb⟩ := hnQ
    unfold svrMoments
    rw [h2, h3, h4]
    simp only [Outcome.bind_ok]
    rw [hd, hq]
    simp only [Outcome.bind_ok]
    rw [ha, hb]
    exact ⟨_, rfl⟩

/-- A valid document is answered unless it says null where the factory expects a string or a number. -/
theorem svrFactory_answered {j : JTree} (h : schemaSVR j = true) (hn : j.at "polar_model" ≠ .ok .null)
    (hc : ∀ cs, j.at "coeffs" = .ok (.arr cs) → ∀ c ∈ cs, NoNulls c) : Answered (svrFactory j) := by
  simp only [schemaSVR, sAnyOf, List.any_cons, List.any_nil, Bool.or_false, Bool.or_eq_true] at h
  unfold svrFactory
  refine (pcKmat_answered j).bind fun k hk => ?_
  have hpos : ∀ m, k = some m → m.n ≠ 0 := fun m e => pcKmat_pos (by rw [hk, e])
  rcases h with h | h
  · obtain ⟨v, e, hcn, hv⟩ := sObject_required h (k := "names") (by simp) rfl
    rw [if_pos hcn, e]
    obtain ⟨l, hl⟩ := sStrings_strs hv
    simp only [Outcome.bind_ok, hl]
    refine (pcKmatFits_answered _ _).bind fun _ _ => ?_
    exact (Answered.mapM fun s _ => svrLibrary_answered s).bind fun cs _ => svrOfCoeffs_answered _ hpos _
  · have hnames : j.contains "names" = false := sObject_unknown h rfl
    obtain ⟨v, e, hcn, hv⟩ := sObject_required h (k := "coeffs") (by simp) rfl
    obtain ⟨xs, rfl, hx⟩ := sArray_arr hv
    have hx' : ∀ c ∈ xs, (∃ m, (svrCoeffs c).bind (svrLegacy c) = .ok m) ∧ ∃ m, svrMoments c = .ok m := by
      intro c hcm
      have := hx c hcm
      simp only [sAnyOf, List.any_cons, List.any_nil, Bool.or_false, Bool.or_eq_true] at this
      rcases this with h1 | h1
      · exact svrCoeff_reads (Or.inl rfl) h1 (hc xs e c hcm)
      · exact svrCoeff_reads (Or.inr rfl) h1 (hc xs e c hcm)
    rw [if_neg (by simp [hnames]), if_pos hcn, e]
    simp only [Outcome.bind_ok, JTree.items]
    refine Answered.bind (Answered.mapM fun c hcm => Answered.of_ok (hx' c hcm).1) fun cs _ => (pcKmatFits_answered _ _).bind fun _ _ => ?_
    refine answered_if (fun _ => (svrChain_answered cs hpos none).bind fun _ _ => Answered.ok _) fun _ => ?_
    refine Answered.bind ?_ fun kind _ => Answered.bind (Answered.mapM fun c hcm => Answered.of_ok (hx' c hcm).2) fun ms _ =>
      (svrChain_answered cs hpos _).bind fun _ _ => (svrPolarOf_answered _ _).bind fun _ _ => Answered.ok _
    rcases sObject_optional h "polar_model" rfl with h0 | ⟨w, ew, h0, hw⟩
    · rw [if_neg (by simp [h0])]
      exact Answered.ok _
    · rw [if_pos h0, ew]
      rcases sOrNull_cases hw with hw | rfl
      · obtain ⟨s, rfl⟩ := sString_str hw
        exact Answered.ok _
      · exact absurd ew hn

end Teqp.Props
