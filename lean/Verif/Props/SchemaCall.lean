import Verif.Props.SchemaKinds
import Mathlib.Tactic.FinCases

/-! # C155-C157: calls with validation, and where schemas and factories disagree -/

set_option autoImplicit false

namespace Teqp.Props
open Teqp.Model Teqp.Lemmas

/-! ## The ideal gas -/

/-- The entries `c`, `t` and `T_0` of a term about the heat capacity are not arrays. -/
def Cp0Numbers (j : JTree) : Prop :=
  ∀ k xs, k ∈ ["c", "t", "T_0"] → (j.at "type" = .ok (.str "Cp0Constant") ∨ j.at "type" = .ok (.str "Cp0PowerT")) → j.at k ≠ .ok (.arr xs)

theorem numAt_cp0 {props : List (String × JSchema)} {req : List String} {j : JTree} (h : sObject props req j = true) {k : String}
    (hk : k ∈ req) (hs : props.lookup k = some sNumberOrArray) (hn : ∀ xs, j.at k ≠ .ok (.arr xs)) : ∃ x, numAt k j = .ok x := by
  obtain ⟨v, e, -, hv⟩ := sObject_required h hk hs
  simp only [sNumberOrArray, sAnyOf, List.any_cons, List.any_nil, Bool.or_false, Bool.or_eq_true] at hv
  rcases hv with hv | hv
  · exact numAt_schema_iff.mpr ⟨v, e, hv⟩
  · obtain ⟨xs, rfl, -⟩ := sArray_arr hv
    exact absurd e (hn xs)

theorem schemaTerm_type {name : String} {fields : List (String × JSchema)} {j : JTree} (h : schemaTerm name fields j = true) :
    (∃ fs, j = .obj fs) ∧ j.at "type" = .ok (.str name) := by
  obtain ⟨v, e, -, hv⟩ := sObject_required h (k := "type") (by simp) rfl
  obtain ⟨s, hs, rfl⟩ := sEnum_str hv
  simp only [List.mem_cons, List.not_mem_nil, or_false] at hs
  subst hs
  obtain ⟨fs, hj, -⟩ := at_obj e
  exact ⟨⟨fs, hj⟩, e⟩

theorem schemaTerms_cases {j : JTree} (h : schemaTerms j = true) :
    schemaTerm "Constant" [("a", sNumber)] j = true ∨ schemaTerm "Lead" [("a_1", sNumber), ("a_2", sNumber)] j = true ∨
    schemaTerm "LogT" [("a", sNumber)] j = true ∨ schemaTerm "PowerT" [("n", sArray sNumber), ("t", sArray sNumber)] j = true ∨
    schemaTerm "PlanckEinstein" [("n", sArray sNumber), ("theta", sArray sNumber)] j = true ∨
    schemaTerm "PlanckEinsteinGeneralized" [("n", sArray sNumber), ("c", sArray sNumber), ("d", sArray sNumber), ("theta", sArray sNumber)] j = true ∨
    schemaTerm "GERG2004Cosh" [("n", sArray sNumber), ("theta", sArray sNumber)] j = true ∨
    schemaTerm "GERG2004Sinh" [("n", sArray sNumber), ("theta", sArray sNumber)] j = true ∨
    schemaTerm "Cp0Constant" [("c", sNumberOrArray), ("T_0", sNumberOrArray)] j = true ∨
    schemaTerm "Cp0PowerT" [("c", sNumberOrArray), ("t", sNumberOrArray), ("T_0", sNumberOrArray)] j = true := by
  simpa only [schemaTerms, sAnyOf, List.any_cons, List.any_nil, Bool.or_false, Bool.or_eq_true] using h

/-- A valid term is understood unless a heat capacity is given with arrays. -/
theorem idealTerm_valid {j : JTree} (h : schemaTerms j = true) (hn : Cp0Numbers j) : ∃ t, idealTermTree j = .ok t := by
  rcases schemaTerms_cases h with h | h | h | h | h | h | h | h | h | h <;> obtain ⟨⟨fs, rfl⟩, e⟩ := schemaTerm_type h <;>
    simp only [idealTermTree, e, Outcome.bind_ok]
  · obtain ⟨a, ha⟩ := numAt_valid h (k := "a") (by simp) rfl
    exact ⟨_, by rw [ha]; rfl⟩
  · obtain ⟨a, ha⟩ := numAt_valid h (k := "a_1") (by simp) rfl
    obtain ⟨b, hb⟩ := numAt_valid h (k := "a_2") (by simp) rfl
    exact ⟨_, by rw [ha, hb]; rfl⟩
  · obtain ⟨a, ha⟩ := numAt_valid h (k := "a") (by simp) rfl
    exact ⟨_, by rw [ha]; rfl⟩
  · obtain ⟨a, ha⟩ := rowAt_valid h (k := "n") (by simp) rfl
    obtain ⟨b, hb⟩ := rowAt_valid h (k := "t") (by simp) rfl
    exact ⟨_, by rw [ha, hb]; rfl⟩
  · obtain ⟨a, ha⟩ := rowAt_valid h (k := "n") (by simp) rfl
    obtain ⟨b, hb⟩ := rowAt_valid h (k := "theta") (by simp) rfl
    exact ⟨_, by rw [ha, hb]; rfl⟩
  · obtain ⟨a, ha⟩ := rowAt_valid h (k := "n") (by simp) rfl
    obtain ⟨b, hb⟩ := rowAt_valid h (k := "theta") (by simp) rfl
    obtain ⟨c, hc⟩ := rowAt_valid h (k := "c") (by simp) rfl
    obtain ⟨d, hd⟩ := rowAt_valid h (k := "d") (by simp) rfl
    exact ⟨_, by rw [ha, hb, hc, hd]; rfl⟩
  · obtain ⟨a, ha⟩ := rowAt_valid h (k := "n") (by simp) rfl
    obtain ⟨b, hb⟩ := rowAt_valid h (k := "theta") (by simp) rfl
    exact ⟨_, by rw [ha, hb]; rfl⟩
  · obtain ⟨a, ha⟩ := rowAt_valid h (k := "n") (by simp) rfl
    obtain ⟨b, hb⟩ := rowAt_valid h (k := "theta") (by simp) rfl
    exact ⟨_, by rw [ha, hb]; rfl⟩
  · obtain ⟨a, ha⟩ := numAt_cp0 h (k := "c") (by simp) rfl fun xs => hn "c" xs (by simp) (Or.inl e)
    obtain ⟨b, hb⟩ := numAt_cp0 h (k := "T_0") (by simp) rfl fun xs => hn "T_0" xs (by simp) (Or.inl e)
    exact ⟨_, by rw [ha, hb]; rfl⟩
  · obtain ⟨a, ha⟩ := numAt_cp0 h (k := "c") (by simp) rfl fun xs => hn "c" xs (by simp) (Or.inr e)
    obtain ⟨c, hc⟩ := numAt_cp0 h (k := "t") (by simp) rfl fun xs => hn "t" xs (by simp) (Or.inr e)
    obtain ⟨b, hb⟩ := numAt_cp0 h (k := "T_0") (by simp) rfl fun xs => hn "T_0" xs (by simp) (Or.inr e)
    exact ⟨_, by rw [ha, hb, hc]; rfl⟩

theorem mapOutcome_exists {α β : Type} {f : α → Outcome β} {l : List α} (h : ∀ a ∈ l, ∃ b, f a = .ok b) : ∃ bs, mapOutcome f l = .ok bs := by
  induction l with
  | nil => exact ⟨[], rfl⟩
  | cons a l ih =>
    obtain ⟨b, hb⟩ := h a (by simp)
    obtain ⟨bs, hbs⟩ := ih fun a ha => h a (by simp [ha])
    exact ⟨b :: bs, by simp [mapOutcome, hb, hbs]⟩

/-- A valid document of the ideal gas gives a model unless a heat capacity is given with arrays. -/
theorem ideal_valid {j : JTree} (h : schemaIdeal j = true)
    (hn : ∀ ps p ts t, j = .arr ps → p ∈ ps → p.at "terms" = .ok (.arr ts) → t ∈ ts → Cp0Numbers t) : ∃ m, idealFactory j = .ok m := by
  obtain ⟨ps, rfl, hps⟩ := sArray_arr h
  refine mapOutcome_exists fun p hp => ?_
  have hv := hps p hp
  obtain ⟨R, hR⟩ := numAt_valid hv (k := "R") (by simp) rfl
  obtain ⟨v, e, -, hts⟩ := sObject_required hv (k := "terms") (by simp) rfl
  obtain ⟨ts, rfl, ht⟩ := sArray_arr hts
  obtain ⟨fs, rfl, -⟩ := at_obj e
  obtain ⟨l, hl⟩ := mapOutcome_exists fun t htm => idealTerm_valid (ht t htm) (hn ps _ ts t rfl hp e htm)
  refine ⟨l, ?_⟩
  simp only [idealPureTree, hR, e, Outcome.bind_ok, JTree.items, hl]

/-! ## C155: calls -/

section
variable {M : Type} (r : Registry M) (spec : JTree)

/-- **For the kinds whose document has numbers or arrays at the top level only, every call with validation is answered**, whatever the document. -/
theorem validated_flat_answered :
    (Makes r "vdW1" vdW1Factory → Answered (buildModelPtr r modelSchema (modelDoc "vdW1" spec) true)) ∧
    (Makes r "vdW" vdWFactory → Answered (buildModelPtr r modelSchema (modelDoc "vdW" spec) true)) ∧
    (Makes r "SW_EspindolaHeredia2009" (oneFactory "lambda") → Answered (buildModelPtr r modelSchema (modelDoc "SW_EspindolaHeredia2009" spec) true)) ∧
    (Makes r "EXP6_Kataoka1992" (oneFactory "alpha") → Answered (buildModelPtr r modelSchema (modelDoc "EXP6_Kataoka1992" spec) true)) ∧
    (Makes r "Mie_Pohl2023" (oneFactory "lambda_r") → Answered (buildModelPtr r modelSchema (modelDoc "Mie_Pohl2023" spec) true)) ∧
    (Makes r "2CLJF-Dipole" (twoCenterFactory "2CLJF-Dipole") → Answered (buildModelPtr r modelSchema (modelDoc "2CLJF-Dipole" spec) true)) ∧
    (Makes r "2CLJF-Quadrupole" (twoCenterFactory "2CLJF-Quadrupole") →
      Answered (buildModelPtr r modelSchema (modelDoc "2CLJF-Quadrupole" spec) true)) := by
  refine ⟨fun hr => validated_answers hr (s := schemaVdW1) rfl spec fun h => ?_, fun hr => validated_answers hr (s := schemaVdW) rfl spec fun h => ?_,
    fun hr => validated_answers hr (s := schemaOne "lambda") rfl spec fun h => Answered.of_ok (numAt_valid h (k := "lambda") (by simp) rfl),
    fun hr => validated_answers hr (s := schemaOne "alpha") rfl spec fun h => Answered.of_ok (numAt_valid h (k := "alpha") (by simp) rfl),
    fun hr => validated_answers hr (s := schemaOne "lambda_r") rfl spec fun h => Answered.of_ok (numAt_valid h (k := "lambda_r") (by simp) rfl),
    fun hr => validated_answers hr (s := schemaTwoCenter "(mu^*)^2") rfl spec fun h => Answered.of_ok ((twoCenter_reads _ _ (Or.inl ⟨rfl, rfl⟩) _).mpr ?_),
    fun hr => validated_answers hr (s := schemaTwoCenter "(Q^*)^2") rfl spec fun h => Answered.of_ok ((twoCenter_reads _ _ (Or.inr ⟨rfl, rfl⟩) _).mpr ?_)⟩
  · obtain ⟨x, hx⟩ := numAt_valid h (k := "a") (by simp) rfl
    obtain ⟨y, hy⟩ := numAt_valid h (k := "b") (by simp) rfl
    unfold vdW1Factory
    rw [hx, hy]
    exact Answered.ok _
  · obtain ⟨x, hx⟩ := rowAt_valid h (k := "Tcrit / K") (by simp) rfl
    obtain ⟨y, hy⟩ := rowAt_valid h (k := "pcrit / Pa") (by simp) rfl
    unfold vdWFactory
    rw [hx, hy]
    simp only [Outcome.bind_ok, vdWCtor]
    split
    · exact answered_arg
    · exact Answered.ok _
  · obtain ⟨v, e, -, hv⟩ := sObject_required h (k := "author") (by simp) rfl
    exact ⟨⟨v, e, hv⟩, numAt_valid h (k := "L^*") (by simp) rfl, numAt_valid h (k := "(mu^*)^2") (by simp) rfl⟩
  · obtain ⟨v, e, -, hv⟩ := sObject_required h (k := "author") (by simp) rfl
    exact ⟨⟨v, e, hv⟩, numAt_valid h (k := "L^*") (by simp) rfl, numAt_valid h (k := "(Q^*)^2") (by simp) rfl⟩

/-- **The cubic equations of state: every call is answered whose pressures and acentric factors are at least as many as the temperatures.**  Partial:
with shorter arrays the document passes validation and the factory reads beyond their ends (`validated_short_fails`). -/
theorem validated_cubic_partial (hl : LongEnough spec) :
    (Makes r "PR" (canonicalFactory true) → Answered (buildModelPtr r modelSchema (modelDoc "PR" spec) true)) ∧
    (Makes r "cubic" genCubic → Answered (buildModelPtr r modelSchema (modelDoc "cubic" spec) true)) := by
  refine ⟨fun hr => validated_answers hr (s := schemaPR) rfl spec fun h => ?_,
    fun hr => validated_answers hr (s := schemaCubic) rfl spec fun h => genCubic_answered h hl⟩
  obtain ⟨h1, h2, h3⟩ := schemaPR_rows h
  exact canonicalFactory_answered true spec h1 h2 h3 hl

/-- **PC-SAFT and SAFT-VR-Mie: every call is answered whose document has no null where the factory expects something.**  Partial: the schemas admit
null (`validated_null_fails`). -/
theorem validated_saft_partial (hc : ∀ cs, spec.at "coeffs" = .ok (.arr cs) → ∀ c ∈ cs, NoNulls c) :
    (spec.at "ab" ≠ .ok .null → Makes r "PCSAFT" pcFactory → Answered (buildModelPtr r modelSchema (modelDoc "PCSAFT" spec) true)) ∧
    (spec.at "polar_model" ≠ .ok .null → Makes r "SAFT-VR-Mie" svrFactory → Answered (buildModelPtr r modelSchema (modelDoc "SAFT-VR-Mie" spec) true)) :=
  ⟨fun hn hr => validated_answers hr (s := schemaPCSAFT) rfl spec fun h => pcFactory_answered h hn hc,
    fun hn hr => validated_answers hr (s := schemaSVR) rfl spec fun h => svrFactory_answered h hn hc⟩

/-- **The corresponding-states model of Huber and Ely: every call is answered** if the reference fluid is. -/
theorem validated_ecs_answered (build : String → Outcome (ℝ → ℝ → List ℝ → Outcome ℝ)) (hb : ∀ s, Answered (build s))
    (hr : Makes r "multifluid-ECS-HuberEly1994" (HuberEly.make build)) :
    Answered (buildModelPtr r modelSchema (modelDoc "multifluid-ECS-HuberEly1994" spec) true) :=
  validated_answers hr (s := schemaECS) rfl spec fun h => huberEly_answered build hb h

/-- **The ideal gas: every call is answered whose heat capacities are numbers.**  Partial: the schema admits arrays
(`validated_cp0_fails`). -/
theorem validated_ideal_partial (hr : Makes r "IdealHelmholtz" idealFactory)
    (hn : ∀ ps p ts t, spec = .arr ps → p ∈ ps → p.at "terms" = .ok (.arr ts) → t ∈ ts → Cp0Numbers t) :
    Answered (buildModelPtr r modelSchema (modelDoc "IdealHelmholtz" spec) true) :=
  validated_answers hr (s := schemaIdeal) rfl spec fun h => Answered.of_ok (ideal_valid h hn)

/-- **CPA: every call with one component is answered.**  Partial: see `validated_CPA_mixture`. -/
theorem validated_CPA_partial (hr : Makes r "CPA" cpaFactory) (p : JTree) (hp : spec.at "pures" = .ok (.arr [p])) :
    Answered (buildModelPtr r modelSchema (modelDoc "CPA" spec) true) :=
  validated_answers hr (s := schemaCPA) rfl spec fun h => cpaFactory_pure h hp

/-- **With validation no CPA mixture can be built**: a document with at least two components is refused by the schema or fails in the factory. -/
theorem validated_CPA_mixture (hr : Makes r "CPA" cpaFactory) (p q : JTree) (ps : List JTree) (hp : spec.at "pures" = .ok (.arr (p :: q :: ps))) :
    buildModelPtr r modelSchema (modelDoc "CPA" spec) true = .throws .jsonValidation ∨
    buildModelPtr r modelSchema (modelDoc "CPA" spec) true = .throws .jsonError := by
  by_cases h : schemaCPA spec = true
  · exact Or.inr (validated_fails hr (s := schemaCPA) rfl h (cpaFactory_mixture h hp))
  · exact Or.inl (validated_refused hr (s := schemaCPA) rfl (by simpa using h))
end

/-- A registry for the examples. -/
def onlyRegistry {α : Type} (kind : String) (f : JTree → Outcome α) : Registry α := fun k => if k = kind then some f else none

theorem onlyRegistry_makes {α : Type} (kind : String) (f : JTree → Outcome α) : Makes (onlyRegistry kind f) kind f := by
  refine ⟨id, ?_⟩
  simp only [onlyRegistry, if_true]
  congr
  funext j
  cases f j <;> rfl

example : ∃ m, buildModelPtr (onlyRegistry "vdW1" vdW1Factory) modelSchema (modelDoc "vdW1" (.obj [("a", .num 1), ("b", .num 2)])) true = .ok m :=
  validated_builds (onlyRegistry_makes _ _) (s := schemaVdW1) rfl rfl ⟨_, rfl⟩

example : LongEnough (.obj [("Tcrit / K", .arr [.num 150]), ("pcrit / Pa", .arr [.num 5e6]), ("acentric", .arr [.num 0])]) := by
  intro Tc pc w h1 h2 h3
  cases h1; cases h2; cases h3
  exact ⟨le_refl _, le_refl _⟩

example : schemaPCSAFT (.obj [("names", .arr [.str "Methane"]), ("ab", .str "Liang-IECR-2012")]) = true ∧
    schemaSVR (.obj [("names", .arr [.str "Methane"])]) = true := ⟨rfl, rfl⟩

/-! ## C155: documents that pass validation and are not answered -/

/-- **Arrays of different lengths pass the schemas of `PR` and `cubic`, and the factory reads beyond the end of the shorter one.** -/
theorem validated_short_fails {M : Type} (r : Registry M) :
    (Makes r "PR" (canonicalFactory true) → ∃ spec, buildModelPtr r modelSchema (modelDoc "PR" spec) true = .ub) ∧
    (Makes r "cubic" genCubic → ∃ spec, buildModelPtr r modelSchema (modelDoc "cubic" spec) true = .ub) := by
  refine ⟨fun hr => ⟨.obj [("Tcrit / K", .arr [.num 150, .num 190]), ("pcrit / Pa", .arr [.num 5e6, .num 5e6]), ("acentric", .arr [.num 0])],
    validated_ub hr (s := schemaPR) rfl rfl ?_⟩,
    fun hr => ⟨.obj [("type", .str "PR"), ("Tcrit / K", .arr [.num 150, .num 190]), ("pcrit / Pa", .arr [.num 5e6]), ("acentric", .arr [.num 0, .num 0])],
    validated_ub hr (s := schemaCubic) rfl rfl ?_⟩⟩
  · rfl
  · rfl

/-- A coefficient set of PC-SAFT with a given entry. -/
def pcEntry (fs : List (String × JTree)) : JTree :=
  .obj ([("name", .str "Water"), ("m", .num 1), ("sigma_Angstrom", .num 3), ("epsilon_over_k", .num 300), ("BibTeXKey", .str "x")] ++ fs)

/-- A coefficient set of SAFT-VR-Mie with a given entry. -/
def svrEntry (fs : List (String × JTree)) : JTree :=
  .obj ([("name", .str "Water"), ("m", .num 1), ("sigma_m", .num 3e-10), ("epsilon_over_k", .num 300), ("BibTeXKey", .str "x"), ("lambda_r", .num 12),
    ("lambda_a", .num 6)] ++ fs)

/-- **A null passes the schemas of PC-SAFT and SAFT-VR-Mie and makes the factory fail with an exception of the JSON library**, for the choice of the
constants, for a moment and for the polar model. -/
theorem validated_null_fails {M : Type} (r : Registry M) :
    (Makes r "PCSAFT" pcFactory →
      buildModelPtr r modelSchema (modelDoc "PCSAFT" (.obj [("names", .arr [.str "Methane"]), ("ab", .null)])) true = .throws .jsonError ∧
      buildModelPtr r modelSchema (modelDoc "PCSAFT" (.obj [("coeffs", .arr [pcEntry [("(mu^*)^2", .null), ("nmu", .null)]])])) true = .throws .jsonError) ∧
    (Makes r "SAFT-VR-Mie" svrFactory →
      buildModelPtr r modelSchema (modelDoc "SAFT-VR-Mie" (.obj [("coeffs", .arr [svrEntry [("mu_D", .num 1.8)]]), ("polar_model", .null)])) true =
        .throws .jsonError ∧
      buildModelPtr r modelSchema (modelDoc "SAFT-VR-Mie" (.obj [("coeffs", .arr [svrEntry [("mu_D", .null)]])])) true = .throws .jsonError) := by
  refine ⟨fun hr => ⟨validated_fails hr (s := schemaPCSAFT) rfl rfl ?_, validated_fails hr (s := schemaPCSAFT) rfl rfl ?_⟩,
    fun hr => ⟨validated_fails hr (s := schemaSVR) rfl rfl ?_, validated_fails hr (s := schemaSVR) rfl rfl ?_⟩⟩
  all_goals rfl

/-- **The schema of the ideal gas admits arrays for the heat capacity, the terms do not take them.** -/
theorem validated_cp0_fails {M : Type} (r : Registry M) (hr : Makes r "IdealHelmholtz" idealFactory) :
    buildModelPtr r modelSchema (modelDoc "IdealHelmholtz" (.arr [.obj [("R", .num 8.3), ("terms", .arr [.obj [("type", .str "Cp0Constant"),
      ("R", .num 8.3), ("c", .arr [.num 4]), ("T_0", .num 300)]])]])) true = .throws .jsonError :=
  validated_fails hr (s := schemaIdeal) rfl rfl rfl

/-! ## C156: documents that the factory understands and validation refuses -/

/-- Which of the built-in kinds have a schema. -/
theorem schema_kinds : builtinKinds.filter (fun k => (modelSchema k).isSome) =
    ["vdW1", "vdW", "PR", "cubic", "SAFT-VR-Mie", "PCSAFT", "multifluid-ECS-HuberEly1994", "SW_EspindolaHeredia2009", "EXP6_Kataoka1992",
     "Mie_Pohl2023", "2CLJF-Dipole", "2CLJF-Quadrupole", "CPA", "IdealHelmholtz"] := by
  decide +kernel

/-- **For a kind without schema validation changes nothing.** -/
theorem validated_without_schema {M α : Type} (r : Registry M) (kind : String) (f : JTree → Outcome α) (hr : Makes r kind f)
    (hs : modelSchema kind = none) (spec : JTree) :
    buildModelPtr r modelSchema (modelDoc kind spec) true = buildModelPtr r modelSchema (modelDoc kind spec) false := by
  obtain ⟨wrap, hw⟩ := hr
  rw [validated_eq wrap hw, hs]
  have h1 : (modelDoc kind spec).at "kind" = .ok (.str kind) := rfl
  have h2 : (modelDoc kind spec).at "model" = .ok spec := rfl
  have h3 : (modelDoc kind spec).contains "validate" = false := rfl
  simp only [buildModelPtr, h1, h2, h3, JTree.toStr, Outcome.bind_ok, hw]
  rfl

example : modelSchema "SRK" = none := rfl

/-- A document of a fluid for the canonical cubic equations with a misspelt key for the interaction parameters. -/
def misspelt : JTree :=
  .obj [("Tcrit / K", .arr [.num 150]), ("pcrit / Pa", .arr [.num 5e6]), ("acentric", .arr [.num 0]), ("kij", .arr [.arr [.num 0]])]

/-- **The misspelt key is refused for `PR` and ignored for `SRK`.** -/
theorem validated_misspelt {M : Type} (r : Registry M) (h1 : Makes r "PR" (canonicalFactory true)) (h2 : Makes r "SRK" (canonicalFactory false)) :
    buildModelPtr r modelSchema (modelDoc "PR" misspelt) true = .throws .jsonValidation ∧
    ∃ m, buildModelPtr r modelSchema (modelDoc "SRK" misspelt) true = .ok m := by
  refine ⟨validated_refused h1 (s := schemaPR) rfl rfl, ?_⟩
  obtain ⟨wrap, e⟩ := validated_admitted h2 (spec := misspelt) (fun s hs => by cases hs)
  rw [e]
  have hm : ∃ m, canonicalFactory false misspelt = .ok m := ⟨_, rfl⟩
  obtain ⟨m, hm⟩ := hm
  exact ⟨wrap m, by rw [hm]; rfl⟩

/-- A document of one fluid for the generalised cubic, with further entries. -/
def cubicDoc (fs : List (String × JTree)) : JTree :=
  .obj ([("type", .str "PR"), ("Tcrit / K", .arr [.num 150]), ("pcrit / Pa", .arr [.num 5e6]), ("acentric", .arr [.num 0.1])] ++ fs)

/-- **The generalised cubic: the factory understands alpha functions of type `PR78` and the entry of the gas constant, validation refuses both.** -/
theorem validated_cubic_refuses {M : Type} (r : Registry M) (hr : Makes r "cubic" genCubic) :
    ∀ spec ∈ [cubicDoc [("alpha", .arr [.obj [("type", .str "PR78"), ("acentric", .num 0.1)]])], cubicDoc [("R / J/mol/K", .num 8.3)]],
      (∃ m, genCubic spec = .ok m) ∧ buildModelPtr r modelSchema (modelDoc "cubic" spec) true = .throws .jsonValidation := by
  intro spec hs
  simp only [List.mem_cons, List.not_mem_nil, or_false] at hs
  rcases hs with rfl | rfl
  · exact ⟨⟨_, rfl⟩, validated_refused hr (s := schemaCubic) rfl rfl⟩
  · exact ⟨⟨_, rfl⟩, validated_refused hr (s := schemaCubic) rfl rfl⟩

/-- **SAFT-VR-Mie: the factory understands the reduced moments, validation refuses them.** -/
theorem validated_svr_refuses {M : Type} (r : Registry M) (hr : Makes r "SAFT-VR-Mie" svrFactory) :
    let spec : JTree := .obj [("coeffs", .arr [svrEntry [("(mu^*)^2", .num 2), ("nmu", .num 1)]]), ("polar_model", .str "GubbinsTwu+Luckas")]
    (∃ m, svrFactory spec = .ok m) ∧ buildModelPtr r modelSchema (modelDoc "SAFT-VR-Mie" spec) true = .throws .jsonValidation := by
  exact ⟨⟨_, rfl⟩, validated_refused hr (s := schemaSVR) rfl rfl⟩

/-- **The ideal gas: a term needs no gas constant of its own, validation requires it.** -/
theorem validated_ideal_refuses {M : Type} (r : Registry M) (hr : Makes r "IdealHelmholtz" idealFactory) :
    let spec : JTree := .arr [.obj [("R", .num 8.3), ("terms", .arr [.obj [("type", .str "LogT"), ("a", .num 2.5)]])]]
    idealFactory spec = .ok [[.logT 2.5]] ∧ buildModelPtr r modelSchema (modelDoc "IdealHelmholtz" spec) true = .throws .jsonValidation :=
  ⟨rfl, validated_refused hr (s := schemaIdeal) rfl rfl⟩

/-- A mixture of two associating fluids in the form that the factory of CPA requires. -/
def cpaMixtureDoc : JTree :=
  let p : JTree := .obj [("a0i / Pa m^6/mol^2", .num 0.1), ("bi / m^3/mol", .num 1e-5), ("c1", .num 0.7), ("Tc / K", .num 600),
    ("epsABi / J/mol", .num 1e4), ("betaABi", .num 0.05), ("sites", .arr [.str "e", .str "H"])]
  .obj [("cubic", .str "SRK"), ("pures", .arr [p, p]), ("radial_dist", .str "CS"), ("R_gas / J/mol/K", .num 8.3)]

/-- **A mixture that the factory of CPA builds is refused by validation.** -/
theorem validated_CPA_refuses {M : Type} (r : Registry M) (hr : Makes r "CPA" cpaFactory) :
    (∃ m, cpaFactory cpaMixtureDoc = .ok m) ∧ buildModelPtr r modelSchema (modelDoc "CPA" cpaMixtureDoc) true = .throws .jsonValidation := by
  exact ⟨⟨_, rfl⟩, validated_refused hr (s := schemaCPA) rfl rfl⟩

/-! ## C157: converted documents -/

theorem lookup_toTree (o : JObj) (k : String) : (o.map fun p => (p.1, p.2.toTree)).lookup k = (o.lookup k).map JVal.toTree := by
  induction o with
  | nil => rfl
  | cons p o ih =>
    obtain ⟨k', v⟩ := p
    simp only [List.map_cons, List.lookup_cons]
    cases k == k'
    · exact ih
    · rfl

theorem at_toTree (o : JObj) (k : String) : o.toTree.at k = (o.at k).bind fun v => .ok v.toTree := by
  simp only [JObj.toTree, JTree.at, JObj.at, lookup_toTree]
  cases o.lookup k <;> rfl

theorem numAt_toTree (o : JObj) (k : String) : numAt k o.toTree = o.num k := by
  simp only [numAt, JObj.num, at_toTree]
  cases o.at k with
  | ok v => cases v <;> rfl
  | _ => rfl

theorem rowAt_toTree (o : JObj) (k : String) : rowAt o.toTree k = o.arr k := by
  simp only [rowAt, JObj.arr, at_toTree]
  cases o.at k with
  | ok v =>
    cases v with
    | arr xs => exact (toRow_ok _ _).mpr rfl
    | _ => rfl
  | _ => rfl

/-- The constructor of the ideal gas reads a flat document as the model of the terms does. -/
theorem idealTermTree_flat (o : JObj) : idealTermTree o.toTree = parseIdealTerm o := by
  have h : o.toTree = .obj (o.map fun p => (p.1, p.2.toTree)) := rfl
  unfold parseIdealTerm
  rw [h]
  unfold idealTermTree
  simp only
  rw [← h, at_toTree]
  cases e : o.at "type" with
  | ok v =>
    simp only [Outcome.bind_ok]
    cases v with
    | str s =>
      simp only [JVal.toTree, numAt_toTree, rowAt_toTree]
      split <;> simp_all
    | num x => rfl
    | arr x => rfl
  | _ => rfl

/-- The heat capacity of a constant term is not a string. -/
def CpNumeric (o : JObj) : Prop := ∀ s, o.at "cp_over_R" ≠ .ok (.str s)

theorem mem_zipWith_form {α β γ : Type} {f : α → β → γ} {c : γ} : ∀ {l : List α} {m : List β}, c ∈ List.zipWith f l m → ∃ a b, c = f a b
  | [], _, h => by simp at h
  | _ :: _, [], h => by simp at h
  | a :: l, b :: m, h => by
    rcases List.mem_cons.mp h with h | h
    · exact ⟨a, b, h⟩
    · exact mem_zipWith_form h

theorem sNumbers_map (l : List ℝ) : sArray sNumber (JVal.arr l).toTree = true := by
  simp [JVal.toTree, sArray, sNumber]

theorem schemaTerms_of {i : ℕ} {s : JSchema} {j : JTree} {ss : List JSchema} (hs : ss[i]? = some s) (h : s j = true) : sAnyOf ss j = true := by
  simp only [sAnyOf, List.any_eq_true]
  exact ⟨s, List.mem_of_getElem? hs, h⟩

theorem term_cp0Constant {c : JVal} (hc : ∀ s, c ≠ .str s) (T0 R : ℝ) :
    schemaTerms (JObj.toTree [("type", .str "Cp0Constant"), ("c", c), ("T_0", .num T0), ("R", .num R)]) = true := by
  refine schemaTerms_of (i := 8) rfl ?_
  cases c with
  | num x => rfl
  | arr l =>
    have : sNumberOrArray (JVal.arr l).toTree = true := by
      simp [sNumberOrArray, sAnyOf, sNumbers_map]
    refine sObject_intro (fun p hp => ?_) (by intro k hk; fin_cases hk <;> rfl)
    simp only [List.map_cons, List.map_nil, List.mem_cons, List.not_mem_nil, or_false] at hp
    rcases hp with rfl | rfl | rfl | rfl
    · exact ⟨_, rfl, rfl⟩
    · exact ⟨_, rfl, this⟩
    · exact ⟨_, rfl, rfl⟩
    · exact ⟨_, rfl, rfl⟩
  | str s => exact absurd rfl (hc s)

theorem term_cp0PowerT (c t T0 R : ℝ) :
    schemaTerms (JObj.toTree [("type", .str "Cp0PowerT"), ("c", .num c), ("t", .num t), ("T_0", .num T0), ("R", .num R)]) = true :=
  schemaTerms_of (i := 9) rfl rfl

theorem term_planckGen (n c d th : List ℝ) (R : ℝ) :
    schemaTerms (JObj.toTree [("type", .str "PlanckEinsteinGeneralized"), ("n", .arr n), ("c", .arr c), ("d", .arr d), ("theta", .arr th), ("R", .num R)]) = true := by
  refine schemaTerms_of (i := 5) rfl (sObject_intro (fun p hp => ?_) (by intro k hk; fin_cases hk <;> rfl))
  simp only [List.map_cons, List.map_nil, List.mem_cons, List.not_mem_nil, or_false] at hp
  rcases hp with rfl | rfl | rfl | rfl | rfl | rfl
  · exact ⟨_, rfl, rfl⟩
  · exact ⟨_, rfl, sNumbers_map _⟩
  · exact ⟨_, rfl, sNumbers_map _⟩
  · exact ⟨_, rfl, sNumbers_map _⟩
  · exact ⟨_, rfl, sNumbers_map _⟩
  · exact ⟨_, rfl, rfl⟩

theorem term_planck (n th : List ℝ) (R : ℝ) :
    schemaTerms (JObj.toTree [("type", .str "PlanckEinstein"), ("n", .arr n), ("theta", .arr th), ("R", .num R)]) = true := by
  refine schemaTerms_of (i := 4) rfl (sObject_intro (fun p hp => ?_) (by intro k hk; fin_cases hk <;> rfl))
  simp only [List.map_cons, List.map_nil, List.mem_cons, List.not_mem_nil, or_false] at hp
  rcases hp with rfl | rfl | rfl | rfl
  · exact ⟨_, rfl, rfl⟩
  · exact ⟨_, rfl, sNumbers_map _⟩
  · exact ⟨_, rfl, sNumbers_map _⟩
  · exact ⟨_, rfl, rfl⟩

theorem term_powerT (n t : List ℝ) (R : ℝ) :
    schemaTerms (JObj.toTree [("type", .str "PowerT"), ("n", .arr n), ("t", .arr t), ("R", .num R)]) = true := by
  refine schemaTerms_of (i := 3) rfl (sObject_intro (fun p hp => ?_) (by intro k hk; fin_cases hk <;> rfl))
  simp only [List.map_cons, List.map_nil, List.mem_cons, List.not_mem_nil, or_false] at hp
  rcases hp with rfl | rfl | rfl | rfl
  · exact ⟨_, rfl, rfl⟩
  · exact ⟨_, rfl, sNumbers_map _⟩
  · exact ⟨_, rfl, sNumbers_map _⟩
  · exact ⟨_, rfl, rfl⟩

/-- **Every converted term is admitted by the schema.** -/
theorem converted_term_valid {o : JObj} {Tri rhori R : ℝ} {l : List JObj} (h : convertIdealTerm o Tri rhori R = .ok l) (hc : CpNumeric o) :
    ∀ t ∈ l, schemaTerms t.toTree = true := by
  unfold convertIdealTerm at h
  obtain ⟨ty, hty, h⟩ := Outcome.bind_eq_ok.mp h
  simp only at h
  split at h
  · obtain ⟨a1, -, h⟩ := Outcome.bind_eq_ok.mp h
    obtain ⟨a2, -, h⟩ := Outcome.bind_eq_ok.mp h
    cases h
    intro t ht
    rw [List.mem_singleton] at ht
    subst ht
    exact schemaTerms_of (i := 1) rfl rfl
  · obtain ⟨a1, -, h⟩ := Outcome.bind_eq_ok.mp h
    obtain ⟨a2, -, h⟩ := Outcome.bind_eq_ok.mp h
    cases h
    intro t ht
    rw [List.mem_singleton] at ht
    subst ht
    exact term_powerT _ _ _
  · obtain ⟨a, -, h⟩ := Outcome.bind_eq_ok.mp h
    cases h
    intro t ht
    simp only [List.mem_cons, List.not_mem_nil, or_false] at ht
    rcases ht with rfl | rfl
    · exact schemaTerms_of (i := 0) rfl rfl
    · exact schemaTerms_of (i := 2) rfl rfl
  · obtain ⟨n, -, h⟩ := Outcome.bind_eq_ok.mp h
    obtain ⟨t', -, h⟩ := Outcome.bind_eq_ok.mp h
    cases h
    intro t ht
    rw [List.mem_singleton] at ht
    subst ht
    exact term_planck _ _ _
  · obtain ⟨n, -, h⟩ := Outcome.bind_eq_ok.mp h
    obtain ⟨t', -, h⟩ := Outcome.bind_eq_ok.mp h
    cases h
    intro t ht
    rw [List.mem_singleton] at ht
    subst ht
    exact term_planck _ _ _
  · obtain ⟨n, -, h⟩ := Outcome.bind_eq_ok.mp h
    obtain ⟨c, -, h⟩ := Outcome.bind_eq_ok.mp h
    obtain ⟨d, -, h⟩ := Outcome.bind_eq_ok.mp h
    obtain ⟨t', -, h⟩ := Outcome.bind_eq_ok.mp h
    cases h
    intro t ht
    rw [List.mem_singleton] at ht
    subst ht
    exact term_planckGen _ _ _ _ _
  · obtain ⟨n, -, h⟩ := Outcome.bind_eq_ok.mp h
    obtain ⟨t', -, h⟩ := Outcome.bind_eq_ok.mp h
    split_ifs at h
    cases h
    intro t ht
    rw [List.mem_singleton] at ht
    subst ht
    exact term_powerT _ _ _
  · obtain ⟨t', -, h⟩ := Outcome.bind_eq_ok.mp h
    obtain ⟨c, -, h⟩ := Outcome.bind_eq_ok.mp h
    obtain ⟨T0, -, h⟩ := Outcome.bind_eq_ok.mp h
    split_ifs at h
    cases h
    intro t ht
    obtain ⟨a, b, rfl⟩ := mem_zipWith_form ht
    split_ifs
    · exact term_cp0Constant (by simp) _ _
    · exact term_cp0PowerT _ _ _ _
  · obtain ⟨T0, -, h⟩ := Outcome.bind_eq_ok.mp h
    obtain ⟨c, hcc, h⟩ := Outcome.bind_eq_ok.mp h
    cases h
    intro t ht
    rw [List.mem_singleton] at ht
    subst ht
    exact term_cp0Constant (fun s e => hc s (by rw [hcc, e])) _ _
  · obtain ⟨k, -, h⟩ := Outcome.bind_eq_ok.mp h
    obtain ⟨T0, -, h⟩ := Outcome.bind_eq_ok.mp h
    split at h
    · cases h
      intro t ht
      rw [List.mem_append, List.mem_singleton] at ht
      rcases ht with ht | rfl
      · split_ifs at ht
        · rw [List.mem_singleton] at ht
          subst ht
          exact term_cp0Constant (by simp) _ _
        · simp at ht
      · exact term_planckGen _ _ _ _ _
    · cases h
  · cases h
  · cases h

theorem converted_terms_valid {os : List JObj} {Tri rhori R : ℝ} : ∀ {l : List JObj}, convertIdealTerms os Tri rhori R = .ok l →
    (∀ o ∈ os, CpNumeric o) → ∀ t ∈ l, schemaTerms t.toTree = true := by
  induction os with
  | nil =>
    intro l h _ t ht
    cases h
    simp at ht
  | cons o os ih =>
    intro l h hc t ht
    rw [convertIdealTerms] at h
    obtain ⟨l1, h1, h⟩ := Outcome.bind_eq_ok.mp h
    obtain ⟨l2, h2, h⟩ := Outcome.bind_eq_ok.mp h
    cases h
    rw [List.mem_append] at ht
    rcases ht with ht | ht
    · exact converted_term_valid h1 (hc o (by simp)) t ht
    · exact ih h2 (fun o ho => hc o (by simp [ho])) t ht

theorem idealTerms_flat (ts : List JObj) : mapOutcome idealTermTree (ts.map JObj.toTree) = parseIdealTerms ts := by
  induction ts with
  | nil => rfl
  | cons o ts ih => simp only [List.map_cons, mapOutcome, parseIdealTerms, idealTermTree_flat, ih]

/-- **What `convert_CoolProp_idealgas` returns passes validation, and with it the call builds the terms that the converted document describes.** -/
theorem converted_document_accepted {M : Type} (r : Registry M) (wrap : List (List IdealTerm) → M)
    (hr : r "IdealHelmholtz" = some fun j => (idealFactory j).bind fun m => .ok (wrap m)) (os : List JObj) (Tri rhori R : ℝ) (d : JTree)
    (hd : convertIdealDocument os Tri rhori R = .ok d) (hc : ∀ o ∈ os, CpNumeric o) :
    schemaIdealPure d = true ∧
    buildModelPtr r modelSchema (modelDoc "IdealHelmholtz" (.arr [d])) true =
      ((convertIdealTerms os Tri rhori R).bind parseIdealTerms).bind fun ts => .ok (wrap [ts]) := by
  obtain ⟨ts, hts, h⟩ := Outcome.bind_eq_ok.mp hd
  cases h
  have hv : schemaIdealPure (.obj [("terms", .arr (ts.map JObj.toTree)), ("R", .num R)]) = true := by
    refine sObject_intro (fun p hp => ?_) (by intro k hk; fin_cases hk <;> rfl)
    simp only [List.mem_cons, List.not_mem_nil, or_false] at hp
    rcases hp with rfl | rfl
    · refine ⟨_, rfl, ?_⟩
      simp only [sArray, List.all_map, List.all_eq_true]
      exact fun t ht => converted_terms_valid hts hc t ht
    · exact ⟨_, rfl, rfl⟩
  refine ⟨hv, ?_⟩
  rw [validated_eq wrap hr]
  have hs : modelSchema "IdealHelmholtz" = some schemaIdeal := rfl
  rw [hs]
  have hv' : schemaIdeal (.arr [.obj [("terms", .arr (ts.map JObj.toTree)), ("R", .num R)]]) = true := by
    simp [schemaIdeal, sArray, hv]
  simp only [hv', if_true]
  have hf : idealPureTree (.obj [("terms", .arr (ts.map JObj.toTree)), ("R", .num R)]) = parseIdealTerms ts := by
    rw [← idealTerms_flat]
    rfl
  rw [hts]
  simp only [idealFactory, mapOutcome, hf, Outcome.bind_ok]
  cases parseIdealTerms ts <;> rfl

example : ∃ d, convertIdealDocument [[("type", .str "IdealGasHelmholtzLogTau"), ("a", .num 2.5)]] 150 1e4 8.3 = .ok d := ⟨_, rfl⟩

/-- **The condition on the heat capacity is needed**: a string is copied into the converted document, which validation then refuses. -/
theorem converted_string_refused : ∃ d, convertIdealDocument [[("type", .str "IdealGasHelmholtzCP0Constant"), ("T0", .num 300), ("cp_over_R", .str "4")]]
    150 1e4 8.3 = .ok d ∧ schemaIdealPure d = false := ⟨_, rfl, rfl⟩

end Teqp.Props
