import Verif.Model.Dufal
import Verif.Props.CPAFactory
import Verif.Props.AssocAlphar
import Verif.Props.AssocSites
import Verif.Props.Factory
import Verif.Props.MutantDoc
import Verif.Lemmas.Reducing

/-! # C60, C139, C140: the association factory and the Dufal rule -/

set_option autoImplicit false

namespace Teqp.Props
open Teqp.Model Teqp.Spec Teqp.Lemmas
open Finset

/-! ## Reading -/

/-- A non-empty list of numbers under a key. -/
def ReadsRow (j : JTree) (k : String) (l : List ℝ) : Prop := l ≠ [] ∧ j.at k = .ok (.arr (l.map .num))

theorem toEig_ok {j : JTree} {k : String} {l : List ℝ} : toEig j k = .ok l ↔ ReadsRow j k l := by
  unfold toEig ReadsRow
  constructor
  · intro h
    obtain ⟨l', h1, h2⟩ := Outcome.bind_eq_ok.mp h
    obtain ⟨v, hv, h1⟩ := Outcome.bind_eq_ok.mp h1
    split at h2
    · cases h2
    · rename_i hne
      cases h2
      exact ⟨hne, by rw [hv, (toRow_ok _ _).mp h1]⟩
  · rintro ⟨hne, h⟩
    rw [h, Outcome.bind_ok, (toRow_ok _ _).mpr rfl, Outcome.bind_ok, if_neg hne]

/-- An empty array is addressed at an element it does not have. -/
theorem toEig_empty {j : JTree} {k : String} (h : j.at k = .ok (.arr [])) : toEig j k = .ub := by
  unfold toEig
  rw [h]
  rfl

theorem toStrs_ok {v : JTree} {l : List String} : v.toStrs = .ok l ↔ v = .arr (l.map .str) := by
  have hstr : ∀ (w : JTree) (s : String), w.toStr = .ok s ↔ w = .str s := by
    intro w s
    cases w <;> simp [JTree.toStr]
  cases v with
  | arr xs =>
    rw [JTree.toStrs, mapOutcome_ok]
    simp only [hstr, JTree.arr.injEq]
    constructor
    · intro h
      induction h with
      | nil => rfl
      | cons h1 _ ih => rw [h1, ih, List.map_cons]
    · rintro rfl
      induction l with
      | nil => exact List.Forall₂.nil
      | cons a l ih => exact List.Forall₂.cons rfl ih
  | _ => simp [JTree.toStrs]

/-- The document form of a list of molecules with their sites. -/
def sitesJson (mols : List (List String)) : JTree := .arr (mols.map fun m => .arr (m.map .str))

theorem moleculeSites_ok {j : JTree} {mols : List (List String)} :
    moleculeSites j = .ok mols ↔ j.at "molecule_sites" = .ok (sitesJson mols) := by
  unfold moleculeSites sitesJson
  constructor
  · intro h0
    obtain ⟨v, hv, h⟩ := Outcome.bind_eq_ok.mp h0
    rw [hv]
    cases v with
    | arr xs =>
      simp only [mapOutcome_ok, toStrs_ok] at h
      congr 2
      clear hv h0
      induction h with
      | nil => rfl
      | cons h1 _ ih => rw [h1, ih, List.map_cons]
    | _ => cases h
  · intro h
    rw [h, Outcome.bind_ok]
    simp only [mapOutcome_ok, toStrs_ok]
    clear h
    induction mols with
    | nil => exact List.Forall₂.nil
    | cons a l ih => exact List.Forall₂.cons rfl ih

theorem siteTypes_of {j : JTree} {mols : List (List String)} (h : j.at "molecule_sites" = .ok (sitesJson mols)) :
    siteTypes j = .ok (uniqueSites mols.flatten) := by
  have e : ((sitesJson mols).visited.flatMap JTree.visited) = mols.flatten.map .str := by
    unfold sitesJson
    clear h
    simp only [JTree.visited]
    induction mols with
    | nil => rfl
    | cons m l ih => rw [List.map_cons, List.flatMap_cons, ih, List.flatten_cons, List.map_append]; rfl
  have hm : ∀ l : List String, mapOutcome JTree.toStr (l.map .str) = .ok l := by
    intro l
    induction l with
    | nil => rfl
    | cons a l ih => rw [List.map_cons, mapOutcome, ih]; rfl
  unfold siteTypes
  rw [h, Outcome.bind_ok, e, hm, Outcome.bind_ok]

/-- A site that is not a name is an error of the JSON library, whatever else the document holds. -/
theorem assoc_sites_typed (asserts : Bool) (R : ℝ) {j v w : JTree} (h : j.at "molecule_sites" = .ok v)
    (hw : w ∈ v.visited.flatMap JTree.visited) (hs : ∀ s, w ≠ .str s) : assocFactory asserts R j = .throws .jsonError := by
  have hstr : ∀ w : JTree, (∃ s, w.toStr = .ok s) ∨ w.toStr = .throws .jsonError := by
    intro w
    cases w <;> simp [JTree.toStr]
  have : mapOutcome JTree.toStr (v.visited.flatMap JTree.visited) = .throws .jsonError := by
    rcases mapOutcome_json JTree.toStr hstr (v.visited.flatMap JTree.visited) with ⟨bs, hb⟩ | hb
    · exfalso
      rw [mapOutcome_ok] at hb
      have : ∀ w ∈ v.visited.flatMap JTree.visited, ∃ s, w = .str s := by
        generalize v.visited.flatMap JTree.visited = l at hb
        intro w hw
        induction hb with
        | nil => cases hw
        | @cons a b l bs h1 _ ih =>
          rcases List.mem_cons.mp hw with rfl | hw
          · refine ⟨b, ?_⟩
            cases w <;> simp_all [JTree.toStr]
          · exact ih hw
      obtain ⟨s, hs'⟩ := this w hw
      exact hs s hs'
    · exact hb
  unfold assocFactory siteTypes
  rw [h, Outcome.bind_ok, this]
  rfl

example : assocFactory false 8 (.obj [("molecule_sites", .arr [.arr [.str "e", .num 2]])]) = .throws .jsonError :=
  assoc_sites_typed false 8 (v := .arr [.arr [.str "e", .num 2]]) (w := .num 2) rfl (by simp [JTree.visited]) (by simp)

/-- A missing or unknown rule is refused. -/
theorem assoc_rule_refused (asserts : Bool) (R : ℝ) {j : JTree} {mols : List (List String)}
    (h : j.at "molecule_sites" = .ok (sitesJson mols))
    (hr : j.contains "Delta_rule" = false ∨
      ∃ s, j.contains "Delta_rule" = true ∧ j.at "Delta_rule" = .ok (.str s) ∧ s ≠ "CR1" ∧ s ≠ "Dufal") :
    assocFactory asserts R j = .throws .stdInvalidArgument := by
  unfold assocFactory
  rw [siteTypes_of h, Outcome.bind_ok]
  rcases hr with hr | ⟨s, hc, hs, h1, h2⟩
  · rw [hr]
    rfl
  · rw [if_pos hc, hs]
    simp only [Outcome.bind_ok, JTree.toStr, if_neg h1, if_neg h2]

/-- A model built by the CR1 rule holds the numbers of its own keys, the sites of its molecules and the partner table. -/
theorem cr1_factory_reads {asserts : Bool} {R : ℝ} {j : JTree} {a : AssocModel} (h : assocFactory asserts R j = .ok (.inl a)) :
    ∃ mols o, j.at "Delta_rule" = .ok (.str "CR1") ∧ j.at "molecule_sites" = .ok (sitesJson mols) ∧
      ReadsRow j "b / m^3/mol" a.data.b ∧ ReadsRow j "beta" a.data.beta ∧ ReadsRow j "epsilon / J/mol" a.data.epsilon ∧
      getAssocOptions j = .ok o ∧ a.data.radialDist = o.radialDist ∧
      getPartners (uniqueSites mols.flatten) j = .ok a.opts.partners ∧
      a.opts = { o with partners := a.opts.partners } ∧ a.ncomp = mols.length ∧
      ∀ s, s ∈ a.sites ↔ ∃ mol, mols[s.comp]? = some mol ∧ s.name ∈ mol ∧ s.count = mol.count s.name := by
  unfold assocFactory at h
  obtain ⟨types, ht, h⟩ := Outcome.bind_eq_ok.mp h
  split at h
  swap
  · cases h
  obtain ⟨rule, hrule, h⟩ := Outcome.bind_eq_ok.mp h
  obtain ⟨v, hv, hrule⟩ := Outcome.bind_eq_ok.mp hrule
  split at h
  swap
  · split at h
    · obtain ⟨_, -, h⟩ := Outcome.bind_eq_ok.mp h
      cases h
    · cases h
  rename_i hcr
  obtain ⟨a', h, he⟩ := Outcome.bind_eq_ok.mp h
  cases he
  unfold cr1Factory at h
  obtain ⟨b, hb, h⟩ := Outcome.bind_eq_ok.mp h
  obtain ⟨beta, hbeta, h⟩ := Outcome.bind_eq_ok.mp h
  obtain ⟨eps, heps, h⟩ := Outcome.bind_eq_ok.mp h
  obtain ⟨o, ho, h⟩ := Outcome.bind_eq_ok.mp h
  obtain ⟨ps, hps, h⟩ := Outcome.bind_eq_ok.mp h
  obtain ⟨mols, hmols, h⟩ := Outcome.bind_eq_ok.mp h
  unfold AssocModel.make at h
  obtain ⟨sites, hsites, h⟩ := Outcome.bind_eq_ok.mp h
  obtain ⟨D, hD, h⟩ := Outcome.bind_eq_ok.mp h
  cases h
  have hm := moleculeSites_ok.mp hmols
  have : types = uniqueSites mols.flatten := by
    have := siteTypes_of hm
    rw [ht] at this
    exact Outcome.ok.inj this
  subst this
  refine ⟨mols, o, ?_, hm, toEig_ok.mp hb, toEig_ok.mp hbeta, toEig_ok.mp heps, ho, rfl, hps, rfl, rfl,
    (makeMapper_spec _ _ hsites).1⟩
  rw [hv, toStr_ok' hrule, hcr]

/-- `Association::factory` never reads a requested function: with options it is Carnahan-Starling, without
options it is indeterminate. -/
theorem assocFactory_dist {asserts : Bool} {R : ℝ} {j : JTree} {a : AssocModel} (h : assocFactory asserts R j = .ok (.inl a)) :
    a.data.radialDist = if j.contains "options" then some .CS else none := by
  obtain ⟨mols, o, -, -, -, -, -, ho, hd, -⟩ := cr1_factory_reads h
  rw [hd]
  unfold getAssocOptions at ho
  by_cases hc : j.contains "options" = true
  · rw [if_pos hc] at ho ⊢
    obtain ⟨o1, h1, ho⟩ := Outcome.bind_eq_ok.mp ho
    obtain ⟨jo, -, h1⟩ := Outcome.bind_eq_ok.mp h1
    rw [copyMask_dist j o1 o ho, assocOpts_dist jo o1 h1]
  · rw [if_neg hc] at ho ⊢
    cases ho
    rfl

/-- A model of this factory that was built without options has undefined behaviour as soon as it is evaluated with a
composition of the right size. -/
theorem assocFactory_no_options_ub {asserts : Bool} {R : ℝ} {j : JTree} {a : AssocModel}
    (h : assocFactory asserts R j = .ok (.inl a))
    (ho : j.contains "options" = false) (R' NA T rho : ℝ) (x : List ℝ) (hx : x.length = a.ncomp) :
    a.alphar R' NA T rho x = .ub := by
  have hd := assocFactory_dist h
  rw [ho] at hd
  have hg : getDelta R' NA T rho x a.data a.sites = .ub := by
    unfold getDelta
    rw [hd]
    simp
  unfold AssocModel.alphar AssocModel.fractions
  rw [if_neg (by simp [hx]), if_neg (by simp), hg]
  rfl

/-- A document for the CR1 rule without options. -/
def cr1Doc : JTree := .obj [("molecule_sites", sitesJson [["H"]]), ("Delta_rule", .str "CR1"), ("b / m^3/mol", .arr [.num 1]),
  ("beta", .arr [.num 2]), ("epsilon / J/mol", .arr [.num 3])]

theorem uniqueSites_single (s : String) : uniqueSites [s] = [s] := by simp [uniqueSites]

theorem cr1Doc_built : ∃ a, assocFactory false 8 cr1Doc = .ok (.inl a) ∧ a.data.epsilon = [3] ∧ a.ncomp = 1 ∧
    a.sites = [⟨0, "H", 1⟩] := by
  have hs : cr1Doc.at "molecule_sites" = .ok (sitesJson [["H"]]) := rfl
  have hb : toEig cr1Doc "b / m^3/mol" = .ok [1] := toEig_ok.mpr ⟨by simp, by simp [cr1Doc, JTree.at, lookup_cons_ne]⟩
  have hbeta : toEig cr1Doc "beta" = .ok [2] := toEig_ok.mpr ⟨by simp, by simp [cr1Doc, JTree.at, lookup_cons_ne]⟩
  have he : toEig cr1Doc "epsilon / J/mol" = .ok [3] := toEig_ok.mpr ⟨by simp, by simp [cr1Doc, JTree.at, lookup_cons_ne]⟩
  have ho : getAssocOptions cr1Doc = .ok {} := by
    simp [getAssocOptions, cr1Doc, JTree.contains, lookup_cons_ne]
  have hp : getPartners (uniqueSites ["H"]) cr1Doc = .ok [("H", [])] := by
    simp [getPartners, cr1Doc, JTree.at, lookup_cons_ne, uniqueSites_single]
  unfold assocFactory
  rw [siteTypes_of hs, Outcome.bind_ok, if_pos (by simp [cr1Doc, JTree.contains, lookup_cons_ne])]
  have hr : (cr1Doc.at "Delta_rule").bind JTree.toStr = .ok "CR1" := by
    simp [cr1Doc, JTree.at, lookup_cons_ne, JTree.toStr, Outcome.bind_ok]
  rw [hr, Outcome.bind_ok, if_pos rfl]
  unfold cr1Factory
  rw [hb, Outcome.bind_ok, hbeta, Outcome.bind_ok, he, Outcome.bind_ok, ho, Outcome.bind_ok]
  simp only [List.flatten_cons, List.flatten_nil, List.append_nil]
  rw [hp, Outcome.bind_ok, moleculeSites_ok.mpr hs, Outcome.bind_ok]
  simp [AssocModel.make, makeMapper, mapSites, uniqueSites_single, makeD, mapOutcome, getDIJ, Outcome.bind_ok]

example (NA T rho : ℝ) : ∃ a, assocFactory false 8 cr1Doc = .ok (.inl a) ∧ a.alphar 8 NA T rho [1] = .ub := by
  obtain ⟨a, h, -, hn, -⟩ := cr1Doc_built
  exact ⟨a, h, assocFactory_no_options_ub h (by simp [cr1Doc, JTree.contains, lookup_cons_ne]) _ _ _ _ _ (by simp [hn])⟩

/-- The dispersion energies of the Dufal rule: in J/mol, else in kelvins times the gas constant. -/
def ReadsEps (R : ℝ) (j : JTree) (l : List ℝ) : Prop :=
  (j.contains "epsilon / J/mol" = true ∧ ReadsRow j "epsilon / J/mol" l) ∨
  (j.contains "epsilon / J/mol" = false ∧ ∃ l', ReadsRow j "epsilon/kB / K" l' ∧ l = l'.map fun e => e * R)

theorem dufalEpsJson_reads {R : ℝ} {j : JTree} {l : List ℝ} (h : dufalEpsJson R j = .ok l) : ReadsEps R j l := by
  unfold dufalEpsJson at h
  split at h
  · rename_i hc
    exact Or.inl ⟨hc, toEig_ok.mp h⟩
  · rename_i hc
    split at h
    · obtain ⟨l', h1, h2⟩ := Outcome.bind_eq_ok.mp h
      cases h2
      exact Or.inr ⟨by simpa using hc, l', toEig_ok.mp h1, rfl⟩
    · cases h

/-- A document with neither key is refused, after its diameters were read. -/
theorem dufal_eps_missing (asserts : Bool) (R : ℝ) {j : JTree} {mols : List (List String)} {sigma : List ℝ}
    (h : j.at "molecule_sites" = .ok (sitesJson mols)) (hc : j.contains "Delta_rule" = true)
    (hr : j.at "Delta_rule" = .ok (.str "Dufal")) (hs : ReadsRow j "sigma / m" sigma)
    (h1 : j.contains "epsilon / J/mol" = false) (h2 : j.contains "epsilon/kB / K" = false) :
    assocFactory asserts R j = .throws .invalidArgument := by
  unfold assocFactory
  rw [siteTypes_of h, Outcome.bind_ok, if_pos hc, hr]
  simp only [Outcome.bind_ok, JTree.toStr]
  rw [if_neg (by decide), if_pos trivial]
  unfold dufalFactory dufalEpsJson
  rw [toEig_ok.mpr hs, Outcome.bind_ok, h1, h2]
  rfl

example : assocFactory false 8 (.obj [("molecule_sites", sitesJson [["H"]]), ("Delta_rule", .str "Dufal"),
    ("sigma / m", .arr [.num 1])]) = .throws .invalidArgument :=
  dufal_eps_missing false 8 (mols := [["H"]]) (sigma := [1]) rfl (by simp [JTree.contains, lookup_cons_ne])
    (by simp [JTree.at, lookup_cons_ne]) ⟨by simp, by simp [JTree.at, lookup_cons_ne]⟩
    (by simp [JTree.contains, lookup_cons_ne]) (by simp [JTree.contains, lookup_cons_ne])

/-- A model built by the Dufal rule: what its document holds, the arrays are long enough, and with assertions it has one component. -/
theorem dufal_factory_reads {asserts : Bool} {R : ℝ} {j : JTree} {a : DufalModel} (h : assocFactory asserts R j = .ok (.inr a)) :
    ∃ mols o d v, j.at "Delta_rule" = .ok (.str "Dufal") ∧ j.at "molecule_sites" = .ok (sitesJson mols) ∧
      ReadsRow j "sigma / m" d.raw.sigma ∧ ReadsEps R j d.raw.eps ∧ ReadsRow j "lambda_r" d.raw.lam ∧
      (j.at "kmat" = .ok v ∧ buildSquareMatrix v = .ok d.raw.kmat) ∧
      ReadsRow j "epsilon_HB / J/mol" d.raw.epsHB ∧ ReadsRow j "K_HB / m^3" d.raw.KHB ∧
      dufalMix asserts R d.raw = .ok d ∧ a.data = d.copy.copy ∧
      getAssocOptions j = .ok o ∧ getPartners (uniqueSites mols.flatten) j = .ok a.opts.partners ∧
      a.opts = { o with partners := a.opts.partners } ∧ a.ncomp = mols.length ∧
      ∀ s, s ∈ a.sites ↔ ∃ mol, mols[s.comp]? = some mol ∧ s.name ∈ mol ∧ s.count = mol.count s.name := by
  unfold assocFactory at h
  obtain ⟨types, ht, h⟩ := Outcome.bind_eq_ok.mp h
  split at h
  swap
  · cases h
  obtain ⟨rule, hrule, h⟩ := Outcome.bind_eq_ok.mp h
  obtain ⟨v, hv, hrule⟩ := Outcome.bind_eq_ok.mp hrule
  split at h
  · obtain ⟨_, -, h⟩ := Outcome.bind_eq_ok.mp h
    cases h
  split at h
  swap
  · cases h
  rename_i hcr
  obtain ⟨a', h, he⟩ := Outcome.bind_eq_ok.mp h
  cases he
  unfold dufalFactory at h
  obtain ⟨sigma, hsigma, h⟩ := Outcome.bind_eq_ok.mp h
  obtain ⟨eps, heps, h⟩ := Outcome.bind_eq_ok.mp h
  obtain ⟨lam, hlam, h⟩ := Outcome.bind_eq_ok.mp h
  obtain ⟨kmat, hk, h⟩ := Outcome.bind_eq_ok.mp h
  obtain ⟨kv, hkv, hk⟩ := Outcome.bind_eq_ok.mp hk
  obtain ⟨hb, hhb, h⟩ := Outcome.bind_eq_ok.mp h
  obtain ⟨K, hK, h⟩ := Outcome.bind_eq_ok.mp h
  obtain ⟨d, hd, h⟩ := Outcome.bind_eq_ok.mp h
  obtain ⟨o, ho, h⟩ := Outcome.bind_eq_ok.mp h
  obtain ⟨ps, hps, h⟩ := Outcome.bind_eq_ok.mp h
  obtain ⟨mols, hmols, h⟩ := Outcome.bind_eq_ok.mp h
  unfold DufalModel.make at h
  obtain ⟨sites, hsites, h⟩ := Outcome.bind_eq_ok.mp h
  obtain ⟨D, hD, h⟩ := Outcome.bind_eq_ok.mp h
  cases h
  have hm := moleculeSites_ok.mp hmols
  have : types = uniqueSites mols.flatten := by
    have := siteTypes_of hm
    rw [ht] at this
    exact Outcome.ok.inj this
  subst this
  have hraw : d.raw = ⟨sigma, eps, lam, kmat, hb, K⟩ := by
    unfold dufalMix at hd
    simp only at hd
    split at hd
    · cases hd
    · split at hd
      · cases hd
      · cases hd
        rfl
  refine ⟨mols, o, d, kv, ?_, hm, ?_, ?_, ?_, ⟨hkv, ?_⟩, ?_, ?_, ?_, rfl, ho, hps, rfl, rfl, (makeMapper_spec _ _ hsites).1⟩
  · rw [hv, toStr_ok' hrule, hcr]
  · rw [hraw]; exact toEig_ok.mp hsigma
  · rw [hraw]; exact dufalEpsJson_reads heps
  · rw [hraw]; exact toEig_ok.mp hlam
  · rw [hraw]; exact hk
  · rw [hraw]; exact toEig_ok.mp hhb
  · rw [hraw]; exact toEig_ok.mp hK
  · rw [hraw]; exact hd

/-! ## The tables -/

/-- Seven tables of eleven rows and eleven columns, with nothing outside the triangle that the loops visit. -/
theorem dufal_tables : dufalB.length = 7 ∧ (∀ t ∈ dufalB, t.length = 11 ∧ ∀ r ∈ t, r.length = 11) ∧
    ∀ k < 7, ∀ i < 11, ∀ j < 11, 10 < i + j → dufalCoeff k i j = 0 := by
  decide +kernel

/-- The loops over half of each table lose nothing: the integral is the polynomial with all coefficients of the tables. -/
theorem dufalI_full (Tstar rhostar lam : ℝ) :
    dufalI Tstar rhostar lam =
      ∑ i ∈ range 11, ∑ j ∈ range 11, ∑ k ∈ range 7, (dufalCoeff k i j : ℝ) * lam ^ k * rhostar ^ i * Tstar ^ j := by
  unfold dufalI
  refine sum_congr rfl fun i hi => ?_
  have hi' := mem_range.mp hi
  have hsub : range (11 - i) ⊆ range 11 := range_subset_range.mpr (by omega)
  rw [sum_subset hsub]
  · refine sum_congr rfl fun j _ => ?_
    rw [sum_mul, sum_mul]
  · intro j hj hj'
    rw [mem_range] at hj hj'
    rw [sum_eq_zero, zero_mul, zero_mul]
    intro k hk
    rw [dufal_tables.2.2 k (mem_range.mp hk) i hi' j hj (by omega), Rat.cast_zero, zero_mul]

/-! ## Memory -/

/-- What an element holds. -/
def cellValue : Option ℝ → Outcome ℝ
  | none => .nonFinite
  | some v => .ok v

/-- The array as it was filled gives every element back. -/
theorem coeff_fill {N i j : ℕ} (f : ℕ → ℕ → Option ℝ) (hi : i < N) (hj : j < N) :
    (EigCol.fill N f).coeff i j = cellValue (f i j) := by
  unfold EigCol.fill EigCol.coeff
  have h : i + j * N < N * N := by nlinarith
  simp only
  rw [List.getElem?_map, List.getElem?_range h]
  have hm : (i + j * N) % N = i := by rw [Nat.add_mul_mod_self_right, Nat.mod_eq_of_lt hi]
  have hd : (i + j * N) / N = j := by rw [Nat.add_mul_div_right _ _ (by omega), Nat.div_eq_of_lt hi, zero_add]
  rw [Option.map_some, hm, hd]
  cases f i j <;> rfl

/-- A copy of it only gives the first column back; every other column is read out of bounds. -/
theorem coeff_copy {N i j : ℕ} (f : ℕ → ℕ → Option ℝ) :
    (i < N → (EigCol.fill N f).copy.copy.coeff i 0 = cellValue (f i 0)) ∧
    (0 < j → (EigCol.fill N f).copy.copy.coeff i j = .ub) := by
  constructor
  · intro hi
    have h := coeff_fill f hi (by omega : 0 < N)
    rw [← h]
    unfold EigCol.copy EigCol.fill EigCol.coeff
    simp only [List.take_take, min_self]
    rw [List.getElem?_take_of_lt (by omega)]
  · intro hj
    unfold EigCol.copy EigCol.fill EigCol.coeff
    simp only [List.take_take, min_self]
    rw [List.getElem?_eq_none]
    rw [List.length_take]
    exact (min_le_left _ _).trans (by nlinarith)

theorem dufalMix_ok {asserts : Bool} {R : ℝ} {r : DufalRaw} {d : DufalData} (h : dufalMix asserts R r = .ok d) :
    (asserts = true → r.sigma.length = 1) ∧
    d = ⟨r, .fill r.sigma.length (dufalSigma3 r), .fill r.sigma.length (dufalEps R r), .fill r.sigma.length (dufalLam r),
      .fill r.sigma.length (dufalHB R r), .fill r.sigma.length (dufalK r)⟩ := by
  unfold dufalMix at h
  simp only at h
  split at h
  · cases h
  · rename_i h1
    split at h
    · cases h
    · cases h
      exact ⟨fun ha => not_not.mp fun hn => h1 ⟨ha, hn⟩, rfl⟩

/-! ## Combining rules -/

/-- Parameters in the physical range. -/
structure DufalPhysical (r : DufalRaw) : Prop where
  sigma : ∀ i < r.sigma.length, 0 < r.sigma.getD i 0
  eps : ∀ i < r.sigma.length, 0 < r.eps.getD i 0
  lam : ∀ i < r.sigma.length, 3 ≤ r.lam.getD i 0
  hb : ∀ i < r.sigma.length, 0 ≤ r.epsHB.getD i 0

theorem rootOpt_sq {x : ℝ} (hx : 0 ≤ x) : rootOpt (x * x) = some x := by
  unfold rootOpt
  rw [if_neg (not_lt.mpr (mul_nonneg hx hx)), Real.sqrt_mul_self hx]

/-- The combined parameters of a component with itself are its own parameters. -/
theorem dufal_self {R : ℝ} {r : DufalRaw} (hp : DufalPhysical r) {i : ℕ} (hi : i < r.sigma.length) :
    dufalSigma3 r i i = some (r.sigma.getD i 0 ^ 3) ∧
    dufalEps R r i i = some ((1 - r.kmat.val i i) * (r.eps.getD i 0 / R)) ∧ dufalLam r i i = some (r.lam.getD i 0) ∧
    dufalHB R r i i = some (r.epsHB.getD i 0 / R) ∧ dufalK r i i = some (r.KHB.getD i 0) := by
  have hs := hp.sigma i hi
  have he := hp.eps i hi
  have hl := hp.lam i hi
  have hh := hp.hb i hi
  have e1 : (r.sigma.getD i 0 + r.sigma.getD i 0) / 2 = r.sigma.getD i 0 := by ring
  refine ⟨?_, ?_, ?_, ?_, ?_⟩
  · rw [dufalSigma3, e1]
  · unfold dufalEps
    rw [rootOpt_sq he.le, show (r.sigma.getD i 0 * r.sigma.getD i 0) ^ 3 = r.sigma.getD i 0 ^ 3 * r.sigma.getD i 0 ^ 3 by ring,
      rootOpt_sq (by positivity)]
    simp only [Option.bind_some, e1]
    rw [if_neg (by positivity)]
    congr 1
    field_simp
  · unfold dufalLam
    rw [rootOpt_sq (by linarith)]
    simp
  · unfold dufalHB
    rw [rootOpt_sq hh]
    rfl
  · unfold dufalK
    rw [show (cbrt (r.KHB.getD i 0) + cbrt (r.KHB.getD i 0)) / 2 = cbrt (r.KHB.getD i 0) by ring, Lemmas.Red.cbrt_cube]

/-- The combining rules do not depend on the order of the components. -/
theorem dufal_symmetric (R : ℝ) (r : DufalRaw) (i j : ℕ) (hk : r.kmat.val i j = r.kmat.val j i) :
    dufalSigma3 r i j = dufalSigma3 r j i ∧ dufalEps R r i j = dufalEps R r j i ∧ dufalLam r i j = dufalLam r j i ∧
    dufalHB R r i j = dufalHB R r j i ∧ dufalK r i j = dufalK r j i := by
  refine ⟨?_, ?_, ?_, ?_, ?_⟩
  · unfold dufalSigma3; rw [add_comm]
  · unfold dufalEps
    rw [mul_comm (r.sigma.getD i 0), mul_comm (r.eps.getD i 0), add_comm (r.sigma.getD i 0), hk]
  · unfold dufalLam; rw [mul_comm]
  · unfold dufalHB; rw [mul_comm]
  · unfold dufalK; rw [add_comm]

/-! ## Strengths -/

/-- **C139** for pure fluids: every pair of sites of a physical pure fluid has the strength
`(exp(eps_HB / RT) - 1) K_HB I(T / T_eps, rho N_A sigma^3, lambda_r)`, with or without assertions.  The full property asks this of
mixtures too: that is refuted by `dufal_mixture_out_of_bounds` and `dufal_mixture_assertion`. -/
theorem dufal_delta_partial {asserts : Bool} {R : ℝ} {r : DufalRaw} {d : DufalData} (h : dufalMix asserts R r = .ok d)
    (h1 : r.sigma.length = 1) (hp : DufalPhysical r) (hR : 0 < R) (hk : r.kmat.val 0 0 ≠ 1) (NA rho : ℝ) {T : ℝ} (hT : T ≠ 0)
    (sites : List AssocSite) (hs : ∀ s ∈ sites, s.comp = 0) :
    ∃ Δ, dufalDelta NA T rho [1] d.copy.copy sites = .ok Δ ∧
      Δ 0 0 = (Real.exp (r.epsHB.getD 0 0 / R / T) - 1) * r.KHB.getD 0 0 *
        dufalI (T / ((1 - r.kmat.val 0 0) * (r.eps.getD 0 0 / R))) (rho * NA * r.sigma.getD 0 0 ^ 3) (r.lam.getD 0 0) := by
  obtain ⟨-, hd⟩ := dufalMix_ok h
  rw [h1] at hd
  have h0 : 0 < r.sigma.length := by omega
  obtain ⟨-, c2, c3, c4, c5⟩ := dufal_self (R := R) hp h0
  have hpair : ∀ rhostar, dufalPair d.copy.copy T rhostar 0 0 =
      .ok ((Real.exp (r.epsHB.getD 0 0 / R / T) - 1) * r.KHB.getD 0 0 *
        dufalI (T / ((1 - r.kmat.val 0 0) * (r.eps.getD 0 0 / R))) rhostar (r.lam.getD 0 0)) := by
    intro rhostar
    unfold dufalPair
    rw [hd]
    simp only [DufalData.copy]
    rw [(coeff_copy (j := 0) (dufalEps R r)).1 (by norm_num), (coeff_copy (j := 0) (dufalLam r)).1 (by norm_num),
      (coeff_copy (j := 0) (dufalHB R r)).1 (by norm_num), (coeff_copy (j := 0) (dufalK r)).1 (by norm_num), c2, c3, c4, c5]
    simp only [cellValue, Outcome.bind_ok]
    rw [if_neg]
    rintro (h | h)
    · have := hp.eps 0 h0
      have hne : r.eps.getD 0 0 / R ≠ 0 := by positivity
      rcases mul_eq_zero.mp h with h | h
      · exact hk (by linarith)
      · exact hne h
    · exact hT h
  have hraw : d.copy.copy.raw = r := by rw [hd]; rfl
  have hrs : dufalRhostar NA rho [1] r.sigma = rho * NA * r.sigma.getD 0 0 ^ 3 := by
    unfold dufalRhostar
    simp
  have key := hpair (rho * NA * r.sigma.getD 0 0 ^ 3)
  refine ⟨fun i j => match dufalPair d.copy.copy T (rho * NA * r.sigma.getD 0 0 ^ 3) i j with | .ok v => v | _ => 0, ?_, ?_⟩
  · unfold dufalDelta
    rw [hraw, if_neg (by simp [h1])]
    simp only [hrs]
    have n1 : ∀ o : Outcome ℝ, (∀ v, o ≠ .ok v) → ¬ ∃ I ∈ sites, ∃ J ∈ sites,
        dufalPair d.copy.copy T (rho * NA * r.sigma.getD 0 0 ^ 3) I.comp J.comp = o := by
      rintro o ho ⟨I, hI, J, hJ, he⟩
      rw [hs I hI, hs J hJ, key] at he
      exact ho _ he.symm
    rw [if_neg (n1 _ (by simp)), if_neg (n1 _ (by simp))]
    rfl
  · simp only [key]

/-- A physical pure fluid with a non-negative integral associates: its contribution is a number that is not positive. -/
theorem dufal_pure_nonpos {asserts : Bool} {R : ℝ} {r : DufalRaw} {d : DufalData} (h : dufalMix asserts R r = .ok d)
    (h1 : r.sigma.length = 1) (hp : DufalPhysical r) (hR : 0 < R) (hk : r.kmat.val 0 0 ≠ 1) {NA rho T : ℝ} (hT : 0 < T)
    (hNA : 0 ≤ NA) (hrho : 0 ≤ rho) (hK : 0 ≤ r.KHB.getD 0 0)
    (hI : 0 ≤ dufalI (T / ((1 - r.kmat.val 0 0) * (r.eps.getD 0 0 / R))) (rho * NA * r.sigma.getD 0 0 ^ 3) (r.lam.getD 0 0))
    {a : DufalModel} (ha : a.data = d.copy.copy) (hn : a.ncomp = 1) (hs : ∀ s ∈ a.sites, s.comp = 0)
    (h0 : 0 ≤ a.opts.alpha) (h01 : a.opts.alpha ≤ 1) : ∃ v, a.alphar NA T rho [1] = .ok v ∧ v ≤ 0 := by
  obtain ⟨Δ, hΔ, hΔ0⟩ := dufal_delta_partial h h1 hp hR hk NA rho hT.ne' a.sites hs
  have hpos : 0 ≤ Δ 0 0 := by
    rw [hΔ0]
    have : 0 ≤ r.epsHB.getD 0 0 / R / T := div_nonneg (div_nonneg (hp.hb 0 (by omega)) hR.le) hT.le
    have := Real.one_le_exp this
    exact mul_nonneg (mul_nonneg (by linarith) hK) hI
  unfold DufalModel.alphar DufalModel.fractions
  rw [if_neg (by simp [hn]), ha, hΔ, Outcome.bind_ok, Outcome.bind_ok]
  have hphys := assocSolve_physical (n := a.sites.length) a.opts h0 h01 ([1] : List ℝ).length rho NA
    (fun I J => Δ (a.sites.get I).comp (a.sites.get J).comp) a.Dmat (fun I => (a.sites.get I).count)
    (fun I => ([1] : List ℝ).getD (a.sites.get I).comp 0) (fun _ => 1) hrho hNA
    (fun I J => by rw [hs _ (List.get_mem _ _), hs _ (List.get_mem _ _)]; exact hpos)
    (fun I => by rw [hs _ (List.get_mem _ _)]; simp) (fun _ => ⟨one_pos, le_rfl⟩)
  rw [if_neg (by
    push Not
    exact fun I => (hphys I).1)]
  refine ⟨_, rfl, ?_⟩
  exact assocSum_nonpos [1] (by simp) _ _ _ hphys

/-- Without assertions, a model with a site on any component but the first reads out of bounds in every evaluation, at every
temperature, density and composition of the right size. -/
theorem dufal_mixture_out_of_bounds {asserts : Bool} {R : ℝ} {j : JTree} {a : DufalModel}
    (h : assocFactory asserts R j = .ok (.inr a)) (s : AssocSite) (hs : s ∈ a.sites) (hc : 0 < s.comp) (NA T rho : ℝ) (x : List ℝ)
    (hx : x.length = a.ncomp) : a.alphar NA T rho x = .ub := by
  obtain ⟨mols, o, d, v, -, -, -, -, -, -, -, -, hmix, hd, -⟩ := dufal_factory_reads h
  obtain ⟨-, hd'⟩ := dufalMix_ok hmix
  have hp : ∀ rhostar i, dufalPair a.data T rhostar i s.comp = .ub := by
    intro rhostar i
    unfold dufalPair
    rw [hd, hd']
    simp only [DufalData.copy]
    rw [(coeff_copy (dufalEps R d.raw)).2 hc]
    rfl
  have hΔ : dufalDelta NA T rho x a.data a.sites = .ub := by
    unfold dufalDelta
    split
    · rfl
    · simp only
      rw [if_pos ⟨s, hs, s, hs, hp _ _⟩]
  unfold DufalModel.alphar DufalModel.fractions
  rw [if_neg (by simp [hx]), hΔ]
  rfl

/-- With assertions a document for more than one component stops the program when the model is built. -/
theorem dufal_mixture_assertion {R : ℝ} {r : DufalRaw} (h : r.sigma.length ≠ 1) : dufalMix true R r = .ub := by
  unfold dufalMix
  simp only
  rw [if_pos ⟨trivial, h⟩]

/-- Before the copy all elements were right: the defect is the type of the members, not the combining rules. -/
theorem dufal_mixing_before_copy {R : ℝ} {r : DufalRaw} {d : DufalData} (h : dufalMix false R r = .ok d) {i j : ℕ}
    (hi : i < r.sigma.length) (hj : j < r.sigma.length) :
    d.epsK.coeff i j = cellValue (dufalEps R r i j) ∧ d.lamR.coeff i j = cellValue (dufalLam r i j) ∧
    d.epsHBK.coeff i j = cellValue (dufalHB R r i j) ∧ d.K.coeff i j = cellValue (dufalK r i j) := by
  obtain ⟨-, rfl⟩ := dufalMix_ok h
  exact ⟨coeff_fill _ hi hj, coeff_fill _ hi hj, coeff_fill _ hi hj, coeff_fill _ hi hj⟩

/-! ## The ammonia and water mixture of the documentation -/

/-- The parameters of `/repo/doc/source/models/Check_Dufal_water.ipynb`. -/
noncomputable def ammoniaWater : JTree := .obj [("sigma / m", .arr [.num 3.3309e-10, .num 3.0555e-10]),
  ("epsilon / J/mol", .arr [.num (323.70 * 8.31446261815324), .num 3475.445374388054]),
  ("lambda_r", .arr [.num 36.832, .num 35.823]),
  ("epsilon_HB / J/mol", .arr [.num (1105.0 * 8.31446261815324), .num 13303.140189045183]),
  ("K_HB / m^3", .arr [.num 560.73e-30, .num 496.66e-30]), ("kmat", .arr [.arr [.num 0, .num 0], .arr [.num 0, .num 0]]),
  ("Delta_rule", .str "Dufal"), ("molecule_sites", sitesJson [["e", "H", "H", "H"], ["e", "e", "H", "H"]])]

theorem ammoniaWater_sites : mapSites 0 [["e", "H", "H", "H"], ["e", "e", "H", "H"]] =
    [⟨0, "H", 3⟩, ⟨0, "e", 1⟩, ⟨1, "H", 2⟩, ⟨1, "e", 2⟩] := by
  decide +kernel

theorem ammoniaWater_types : uniqueSites ["e", "H", "H", "H", "e", "e", "H", "H"] = ["H", "e"] := by decide +kernel

/-- It is built without complaint in a build without assertions. -/
theorem ammoniaWater_built (R : ℝ) : ∃ a, assocFactory false R ammoniaWater = .ok (.inr a) ∧ a.ncomp = 2 ∧
    ⟨1, "e", 2⟩ ∈ a.sites := by
  have hs : ammoniaWater.at "molecule_sites" = .ok (sitesJson [["e", "H", "H", "H"], ["e", "e", "H", "H"]]) := by
    simp [ammoniaWater, JTree.at, lookup_cons_ne]
  have row : ∀ (k : String) (l : List ℝ), l ≠ [] → ammoniaWater.at k = .ok (.arr (l.map .num)) → toEig ammoniaWater k = .ok l :=
    fun k l h1 h2 => toEig_ok.mpr ⟨h1, h2⟩
  have h1 := row "sigma / m" [3.3309e-10, 3.0555e-10] (by simp) (by simp [ammoniaWater, JTree.at, lookup_cons_ne])
  have h2 := row "epsilon / J/mol" [323.70 * 8.31446261815324, 3475.445374388054] (by simp)
    (by simp [ammoniaWater, JTree.at, lookup_cons_ne])
  have h3 := row "lambda_r" [36.832, 35.823] (by simp) (by simp [ammoniaWater, JTree.at, lookup_cons_ne])
  have h4 := row "epsilon_HB / J/mol" [1105.0 * 8.31446261815324, 13303.140189045183] (by simp)
    (by simp [ammoniaWater, JTree.at, lookup_cons_ne])
  have h5 := row "K_HB / m^3" [560.73e-30, 496.66e-30] (by simp) (by simp [ammoniaWater, JTree.at, lookup_cons_ne])
  have hk : ammoniaWater.at "kmat" = .ok (.arr [.arr [.num 0, .num 0], .arr [.num 0, .num 0]]) := by
    simp [ammoniaWater, JTree.at, lookup_cons_ne]
  obtain ⟨km, hkm, hkn, -⟩ := buildSquareMatrix_faithful (.arr [.arr [.num 0, .num 0], .arr [.num 0, .num 0]]) 2 (fun _ _ => 0)
    ⟨_, rfl, rfl, by
      intro i hi
      interval_cases i
      · exact ⟨_, rfl, rfl, by intro k hk; interval_cases k <;> rfl⟩
      · exact ⟨_, rfl, rfl, by intro k hk; interval_cases k <;> rfl⟩⟩
  have ho : getAssocOptions ammoniaWater = .ok {} := by
    simp [getAssocOptions, ammoniaWater, JTree.contains, lookup_cons_ne]
  have hp : getPartners (uniqueSites ["e", "H", "H", "H", "e", "e", "H", "H"]) ammoniaWater = .ok [("H", ["e"]), ("e", ["H"])] := by
    rw [ammoniaWater_types]
    simp [getPartners, ammoniaWater, JTree.at, lookup_cons_ne]
  unfold assocFactory
  rw [siteTypes_of hs, Outcome.bind_ok, if_pos (by simp [ammoniaWater, JTree.contains, lookup_cons_ne])]
  have hr : (ammoniaWater.at "Delta_rule").bind JTree.toStr = .ok "Dufal" := by
    simp [ammoniaWater, JTree.at, lookup_cons_ne, JTree.toStr, Outcome.bind_ok]
  rw [hr, Outcome.bind_ok, if_neg (by decide), if_pos rfl]
  unfold dufalFactory dufalEpsJson
  rw [h1, Outcome.bind_ok, if_pos (by simp [ammoniaWater, JTree.contains, lookup_cons_ne]), h2, Outcome.bind_ok, h3, Outcome.bind_ok,
    hk, Outcome.bind_ok, hkm, Outcome.bind_ok, h4, Outcome.bind_ok, h5, Outcome.bind_ok]
  simp only [dufalMix, List.length_cons, List.length_nil, hkn]
  norm_num
  rw [ho, Outcome.bind_ok]
  simp only [List.flatten_cons, List.flatten_nil, List.append_nil, List.cons_append, List.nil_append]
  rw [hp, Outcome.bind_ok, moleculeSites_ok.mpr hs, Outcome.bind_ok]
  unfold DufalModel.make makeMapper
  rw [ammoniaWater_sites]
  have l1 : List.lookup "H" [("H", ["e"]), ("e", ["H"])] = some ["e"] := by decide
  have l2 : List.lookup "e" [("H", ["e"]), ("e", ["H"])] = some ["H"] := by decide
  simp [makeD, mapOutcome, getDIJ, Outcome.bind_ok, l1, l2]

example (NA T rho x : ℝ) : ∃ a, assocFactory false 8 ammoniaWater = .ok (.inr a) ∧ a.alphar NA T rho [x, 1 - x] = .ub := by
  obtain ⟨a, h, hn, hs⟩ := ammoniaWater_built 8
  exact ⟨a, h, dufal_mixture_out_of_bounds h _ hs (by norm_num) _ _ _ _ (by simp [hn])⟩

/-- The water of the same notebook, as a pure fluid: physical parameters, hence the strength of `dufal_delta_partial`. -/
noncomputable def dufalWater : DufalRaw := ⟨[3.0555e-10], [3475.445374388054], [35.823], ⟨1, fun _ _ => 0⟩, [13303.140189045183], [496.66e-30]⟩

theorem dufalWater_physical : DufalPhysical dufalWater := by
  constructor <;>
  · intro i hi
    have : i = 0 := by simpa [dufalWater] using hi
    subst this
    norm_num [dufalWater]

example (NA rho : ℝ) : ∃ d Δ, dufalMix true 8.31446261815324 dufalWater = .ok d ∧
    dufalDelta NA 298.15 rho [1] d.copy.copy [⟨0, "H", 2⟩, ⟨0, "e", 2⟩] = .ok Δ := by
  have h : ∃ d, dufalMix true 8.31446261815324 dufalWater = .ok d := by
    simp [dufalMix, dufalWater]
  obtain ⟨d, h⟩ := h
  obtain ⟨Δ, hΔ, -⟩ := dufal_delta_partial h rfl dufalWater_physical (by norm_num) (by norm_num [dufalWater]) NA rho
    (by norm_num : (298.15 : ℝ) ≠ 0) [⟨0, "H", 2⟩, ⟨0, "e", 2⟩] (by simp)
  exact ⟨d, Δ, h, hΔ⟩

theorem dufalI_rat (t q l : ℚ) : dufalI t q l =
    ((∑ i ∈ range 11, ∑ j ∈ range (11 - i), (∑ k ∈ range 7, dufalCoeff k i j * l ^ k) * q ^ i * t ^ j : ℚ) : ℝ) := by
  unfold dufalI
  push_cast
  rfl

/-- The integral for liquid water at 298.15 K is positive. -/
theorem dufalWater_integral : 0 < dufalI (298.15 / 418) (55000 * 6.02214076e23 * 3.0555e-10 ^ 3) 35.823 := by
  have h := dufalI_rat (298.15 / 418) (55000 * 6.02214076e23 * 3.0555e-10 ^ 3) 35.823
  have : (0 : ℚ) < ∑ i ∈ range 11, ∑ j ∈ range (11 - i), (∑ k ∈ range 7, dufalCoeff k i j * 35.823 ^ k) *
      (55000 * 6.02214076e23 * 3.0555e-10 ^ 3) ^ i * (298.15 / 418) ^ j := by decide +kernel
  have h' := h ▸ Rat.cast_pos (K := ℝ).mpr this
  push_cast at h'
  exact h'

/-- Liquid water of that notebook associates. -/
example : ∃ a : DufalModel, ∃ v, a.alphar 6.02214076e23 298.15 55000 [1] = .ok v ∧ v ≤ 0 ∧ a.sites.length = 2 := by
  let r : DufalRaw := ⟨[3.0555e-10], [418 * 8.31446261815324], [35.823], ⟨1, fun _ _ => 0⟩, [13303.140189045183], [496.66e-30]⟩
  have hp : DufalPhysical r := by
    constructor <;>
    · intro i hi
      have : i = 0 := by simpa [r] using hi
      subst this
      norm_num [r]
  have h : ∃ d, dufalMix true 8.31446261815324 r = .ok d := by
    simp [dufalMix, r]
  obtain ⟨d, h⟩ := h
  have hI : (298.15 : ℝ) / ((1 - r.kmat.val 0 0) * (r.eps.getD 0 0 / 8.31446261815324)) = 298.15 / 418 := by
    norm_num [r]
  obtain ⟨v, hv, hv0⟩ := dufal_pure_nonpos (NA := 6.02214076e23) (rho := 55000) (T := 298.15) h rfl hp (by norm_num)
    (by norm_num [r]) (by norm_num) (by norm_num) (by norm_num) (by norm_num [r]) (by rw [hI]; exact dufalWater_integral.le)
    (a := ⟨{}, 1, [⟨0, "H", 2⟩, ⟨0, "e", 2⟩], [[0, 2], [2, 0]], d.copy.copy⟩) rfl rfl (by simp) (by norm_num) (by norm_num)
  exact ⟨_, v, hv, hv0, rfl⟩

end Teqp.Props
