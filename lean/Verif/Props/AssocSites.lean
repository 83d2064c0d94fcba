import Verif.Props.AssocAlphar
import Mathlib.Data.List.Dedup
import Mathlib.Data.List.Count
import Mathlib.Data.List.Nodup

/-! # C58: which sites interact -/

set_option autoImplicit false

namespace Teqp.Spec
open Teqp.Model

/-- Two sites may interact: they are on different components or self-association is enabled for their
component, and the partner table (if there is one) lists the second as a partner of the first. -/
def MayInteract (mask : List Bool) (partners : List (String × List String)) (I J : AssocSite) : Prop :=
  (mask = [] ∨ I.comp ≠ J.comp ∨ mask[I.comp]? = some true) ∧
  (partners = [] ∨ ∃ l, partners.lookup I.name = some l ∧ J.name ∈ l)

end Teqp.Spec

namespace Teqp.Props
open Teqp.Model Teqp.Spec Teqp.Lemmas Finset

theorem mem_uniqueSites (mol : List String) (s : String) : s ∈ uniqueSites mol ↔ s ∈ mol := by
  unfold uniqueSites
  rw [(List.perm_insertionSort _ _).mem_iff, List.mem_dedup]

theorem uniqueSites_nodup (mol : List String) : (uniqueSites mol).Nodup := by
  unfold uniqueSites
  exact (List.perm_insertionSort _ _).nodup_iff.mpr (List.nodup_dedup mol)

theorem mem_mapSites (mols : List (List String)) : ∀ (i : ℕ) (s : AssocSite),
    s ∈ mapSites i mols ↔ ∃ k mol, mols[k]? = some mol ∧ s.comp = i + k ∧ s.name ∈ mol ∧ s.count = mol.count s.name := by
  induction mols with
  | nil => intro i s; simp [mapSites]
  | cons mol mols ih =>
    intro i s
    rw [mapSites, List.mem_append, List.mem_map, ih]
    constructor
    · rintro (⟨name, hn, rfl⟩ | ⟨k, m, h1, h2, h3⟩)
      · exact ⟨0, mol, rfl, rfl, (mem_uniqueSites _ _).mp hn, rfl⟩
      · exact ⟨k + 1, m, h1, by omega, h3⟩
    · rintro ⟨k, m, h1, h2, h3, h4⟩
      cases k with
      | zero =>
        simp only [List.getElem?_cons_zero, Option.some.injEq] at h1
        subst h1
        left
        refine ⟨s.name, (mem_uniqueSites _ _).mpr h3, ?_⟩
        cases s
        simp only at h2 h4
        simp [h2, h4]
      | succ k => exact Or.inr ⟨k, m, h1, by omega, h3, h4⟩

theorem mapSites_comp_ge (mols : List (List String)) (i : ℕ) (s : AssocSite) (h : s ∈ mapSites i mols) : i ≤ s.comp := by
  obtain ⟨k, -, -, h2, -⟩ := (mem_mapSites mols i s).mp h
  omega

theorem mapSites_nodup (mols : List (List String)) : ∀ i : ℕ, ((mapSites i mols).map fun s => (s.comp, s.name)).Nodup := by
  induction mols with
  | nil => intro i; simp [mapSites]
  | cons mol mols ih =>
    intro i
    rw [mapSites, List.map_append, List.nodup_append]
    refine ⟨?_, ih (i + 1), ?_⟩
    · rw [List.map_map]
      exact (uniqueSites_nodup mol).map fun a b h => by simpa using h
    · intro p hp q hq
      simp only [List.mem_map, exists_exists_and_eq_and] at hp hq
      obtain ⟨a, -, rfl⟩ := hp
      obtain ⟨b, hb, rfl⟩ := hq
      have := mapSites_comp_ge mols (i + 1) b hb
      intro he
      simp only [Prod.mk.injEq] at he
      omega

/-- The mapper has exactly one entry for each component and each kind of site on it, with its multiplicity;
it works for up to 1000 kinds. -/
theorem makeMapper_spec (mols : List (List String)) (sites : List AssocSite) (h : makeMapper mols = .ok sites) :
    (∀ s, s ∈ sites ↔ ∃ mol, mols[s.comp]? = some mol ∧ s.name ∈ mol ∧ s.count = mol.count s.name) ∧
    (sites.map fun s => (s.comp, s.name)).Nodup ∧ sites.length ≤ 1000 := by
  unfold makeMapper at h
  split at h
  · cases h
  · rename_i hl
    cases h
    refine ⟨fun s => ?_, mapSites_nodup mols 0, not_lt.mp hl⟩
    rw [mem_mapSites]
    constructor
    · rintro ⟨k, m, h1, h2, h3⟩
      have : s.comp = k := by omega
      rw [this]
      exact ⟨m, h1, h3⟩
    · rintro ⟨m, h1, h3⟩
      exact ⟨s.comp, m, h1, by omega, h3⟩

/-- More kinds of sites overflow the arrays: 1001 components with one site each. -/
theorem makeMapper_overflow : makeMapper (List.replicate 1001 ["A"]) = .ub := by
  have h : ∀ k i, (mapSites i (List.replicate k ["A"])).length = k := by
    intro k
    induction k with
    | zero => intro i; rfl
    | succ k ih =>
      intro i
      rw [List.replicate_succ, mapSites, List.length_append, ih, List.length_map]
      have : (uniqueSites ["A"]).length = 1 := by
        unfold uniqueSites
        rw [List.length_insertionSort]
        rfl
      omega
  unfold makeMapper
  rw [h]
  simp

example : makeMapper [["e", "H", "e", "H"], ["e"]] =
    .ok [⟨0, "H", 2⟩, ⟨0, "e", 2⟩, ⟨1, "e", 1⟩] := by
  unfold makeMapper
  have e1 : uniqueSites ["e", "H", "e", "H"] = ["H", "e"] := by decide +kernel
  have e2 : uniqueSites ["e"] = ["e"] := by decide +kernel
  have : mapSites 0 [["e", "H", "e", "H"], ["e"]] = [⟨0, "H", 2⟩, ⟨0, "e", 2⟩, ⟨1, "e", 1⟩] := by
    simp only [mapSites, e1, e2]
    decide +kernel
  rw [this]
  rfl

/-! ## The interaction matrix -/

theorem mapOutcome_get {α β : Type} (f : α → Outcome β) (l : List α) (r : List β) (h : mapOutcome f l = .ok r) :
    r.length = l.length ∧ ∀ (i : ℕ) (a : α), l[i]? = some a → ∃ b, r[i]? = some b ∧ f a = .ok b := by
  induction l generalizing r with
  | nil => cases h; simp
  | cons a l ih =>
    rw [mapOutcome] at h
    obtain ⟨b, hb, h⟩ := Outcome.bind_eq_ok.mp h
    obtain ⟨bs, hbs, h⟩ := Outcome.bind_eq_ok.mp h
    cases h
    obtain ⟨h1, h2⟩ := ih bs hbs
    refine ⟨by simp [h1], fun i x hx => ?_⟩
    cases i with
    | zero =>
      simp only [List.getElem?_cons_zero, Option.some.injEq] at hx
      subst hx
      exact ⟨b, rfl, hb⟩
    | succ i => exact h2 i x hx

open Classical in
theorem getDIJ_spec (o : AssocOptions) (I J : AssocSite) (d : ℕ) (hm : o.mask = [] ∨ I.comp < o.mask.length)
    (h : getDIJ o I J = .ok d) : d = if MayInteract o.mask o.partners I J then J.count else 0 := by
  unfold getDIJ at h
  split at h
  · rename_i hmask
    cases h
    rw [if_neg]
    rintro ⟨h1, -⟩
    rcases h1 with h1 | h1 | h1
    · exact hmask.1 h1
    · exact h1 hmask.2.1
    · have := hmask.2.2
      rw [List.getD_eq_getElem?_getD, h1] at this
      simp at this
  · rename_i hmask
    have hfirst : o.mask = [] ∨ I.comp ≠ J.comp ∨ o.mask[I.comp]? = some true := by
      by_contra hcon
      push Not at hcon
      refine hmask ⟨hcon.1, hcon.2.1, ?_⟩
      rcases hm with hm | hm
      · exact absurd hm hcon.1
      · rw [List.getD_eq_getElem?_getD, List.getElem?_eq_getElem hm]
        have := hcon.2.2
        rw [List.getElem?_eq_getElem hm] at this
        simpa using this
    split at h
    · rename_i hp
      cases h
      rw [if_pos ⟨hfirst, Or.inl hp⟩]
    · rename_i hp
      split at h
      · cases h
      · rename_i l hl
        split at h
        · rename_i hj
          cases h
          rw [if_pos ⟨hfirst, Or.inr ⟨l, hl, hj⟩⟩]
        · rename_i hj
          cases h
          rw [if_neg]
          rintro ⟨-, h2 | ⟨l', hl', hj'⟩⟩
          · exact hp h2
          · rw [hl] at hl'
            cases hl'
            exact hj hj'

open Classical in
/-- The matrix `D` has the multiplicity of the second site where the two sites may interact and zero
elsewhere. -/
theorem makeD_spec (o : AssocOptions) (ncomp : ℕ) (sites : List AssocSite) (D : List (List ℕ))
    (hc : ∀ s ∈ sites, s.comp < ncomp) (h : makeD o ncomp sites = .ok D) :
    D.length = sites.length ∧ ∀ (i j : ℕ) (I J : AssocSite), sites[i]? = some I → sites[j]? = some J →
      (D.getD i []).getD j 0 = if MayInteract o.mask o.partners I J then J.count else 0 := by
  unfold makeD at h
  split at h
  · cases h
  · rename_i hmask
    obtain ⟨h1, h2⟩ := mapOutcome_get _ _ _ h
    refine ⟨h1, fun i j I J hI hJ => ?_⟩
    obtain ⟨row, hrow, hr⟩ := h2 i I hI
    obtain ⟨-, h3⟩ := mapOutcome_get _ _ _ hr
    obtain ⟨d, hd, hdj⟩ := h3 j J hJ
    simp only [List.getD_eq_getElem?_getD, hrow, Option.getD_some, hd]
    refine getDIJ_spec o I J d ?_ hdj
    by_cases hm : o.mask = []
    · exact Or.inl hm
    · right
      have hl : o.mask.length = ncomp := by
        by_contra hl
        exact hmask ⟨hm, hl⟩
      rw [hl]
      exact hc I (List.mem_of_getElem? hI)

/-- A mask of the wrong size is refused. -/
theorem makeD_mask_refused (o : AssocOptions) (ncomp : ℕ) (sites : List AssocSite) (h : o.mask ≠ [])
    (hl : o.mask.length ≠ ncomp) : makeD o ncomp sites = .throws .invalidArgument := by
  unfold makeD; rw [if_pos ⟨h, hl⟩]

/-- A partner table that leaves out a kind of site makes the construction fail (with the exception of
`std::map::at`), unless all its interactions are masked. -/
theorem makeD_missing_partner (o : AssocOptions) (ncomp : ℕ) (I : AssocSite) (sites : List AssocSite)
    (hm : o.mask = []) (hp : o.partners ≠ []) (h : o.partners.lookup I.name = none) :
    makeD o ncomp (I :: sites) = .throws .stdOutOfRange := by
  unfold makeD
  rw [if_neg (by simp [hm]), mapOutcome, mapOutcome]
  have : getDIJ o I I = .throws .stdOutOfRange := by
    unfold getDIJ
    rw [if_neg (by simp [hm]), if_neg hp, h]
  rw [this]
  rfl

example : makeD { partners := [("H", ["e"]), ("e", ["H"])], mask := [true, false] } 2
    [⟨0, "H", 2⟩, ⟨0, "e", 2⟩, ⟨1, "H", 1⟩, ⟨1, "e", 1⟩] =
    .ok [[0, 2, 0, 1], [2, 0, 1, 0], [0, 2, 0, 0], [2, 0, 0, 0]] := rfl

/-! ## Sites without partners -/

variable {n : ℕ}

/-- In the iteration a site that has no partners is never bonded, and so contributes nothing. -/
theorem disabled_site_free (o : AssocOptions) (ncomp : ℕ) (rho NA : ℝ) (Delta : Fin n → Fin n → ℝ)
    (D : Fin n → Fin n → ℕ) (count : Fin n → ℕ) (xj : Fin n → ℝ) (I : Fin n) (hD : ∀ J, D I J = 0)
    (he : ¬useExplicit o ncomp (rDDX rho NA Delta D xj)) :
    assocSolve o ncomp rho NA Delta D count xj (fun _ => 1) I = 1 := by
  unfold assocSolve
  simp only
  rw [dif_neg he]
  obtain ⟨k, -, hk, -⟩ := ssLoop_real o.alpha o.rtol o.atol (rDDX rho NA Delta D xj) o.maxIters.toNat (fun _ => 1)
  rw [hk]
  have hK : ∀ J, rDDX rho NA Delta D xj I J = 0 := fun J => by
    unfold rDDX
    rw [hD J]
    change rho * NA * (Delta I J * ((0 : ℕ) : ℝ)) * xj J = 0
    simp
  clear hk
  induction k with
  | zero => rfl
  | succ k ih =>
    rw [Function.iterate_succ_apply']
    have e : ∀ X : Fin n → ℝ, X I = 1 → maG o.alpha (rDDX rho NA Delta D xj) X I = 1 := fun X hX => by
      simp [maG, maF, hK, hX]
    exact e _ ih

/-- If no two sites may interact and the closed form is not used, association contributes nothing. -/
theorem disabled_no_contribution_partial (o : AssocOptions) (x : List ℝ) (rho NA : ℝ) (Delta : Fin n → Fin n → ℝ)
    (D : Fin n → Fin n → ℕ) (comp count : Fin n → ℕ) (xj : Fin n → ℝ) (hD : ∀ I J, D I J = 0)
    (he : o.allowExplicit = false ∨ x.length ≠ 1 ∨ n ≠ 2) :
    assocSum x comp count (assocSolve o x.length rho NA Delta D count xj (fun _ => 1)) = 0 := by
  have : assocSolve o x.length rho NA Delta D count xj (fun _ => 1) = fun _ => 1 := by
    funext I
    refine disabled_site_free o x.length rho NA Delta D count xj I (hD I) ?_
    rintro ⟨h1, h2, h3, -⟩
    rcases he with he | he | he
    · rw [h1] at he; cases he
    · exact he h2
    · exact he h3
  rw [this]
  exact assocSum_ones x comp count

/-- Two masked components with the same kinds of sites. -/
example (rho NA : ℝ) (Delta : Fin 4 → Fin 4 → ℝ) (xj : Fin 4 → ℝ) :
    assocSum [1/2, 1/2] ![0, 0, 1, 1] ![2, 2, 1, 1]
      (assocSolve {} 2 rho NA Delta (fun _ _ => 0) ![2, 2, 1, 1] xj (fun _ => 1)) = 0 :=
  disabled_no_contribution_partial {} [1/2, 1/2] rho NA Delta _ _ _ xj (fun _ _ => rfl) (Or.inr (Or.inl (by simp)))

/-- The claim fails for a pure fluid with two kinds of sites: the closed form ignores the interaction matrix.
Here self-association is disabled by the mask, the matrix is zero, and the contribution is still
negative. -/
theorem masked_pure_associates :
    ∃ (o : AssocOptions) (D : List (List ℕ)),
      makeD o 1 [⟨0, "H", 2⟩, ⟨0, "e", 2⟩] = .ok D ∧ D = [[0, 0], [0, 0]] ∧ o.mask = [false] ∧
      ∀ rho NA d : ℝ, 0 < rho → 0 < NA → 0 < d →
        assocSum [1] (fun _ : Fin 2 => 0) (fun _ => 2)
          (assocSolve o 1 rho NA (fun _ _ => d) (fun i j => (D.getD i []).getD j 0) (fun _ => 2) (fun _ => 1)
            (fun _ => 1)) < 0 := by
  refine ⟨{ partners := [("H", ["e"]), ("e", ["H"])], mask := [false] }, [[0, 0], [0, 0]], rfl, rfl, rfl, ?_⟩
  intro rho NA d hrho hNA hd
  set o : AssocOptions := { partners := [("H", ["e"]), ("e", ["H"])], mask := [false] } with ho
  have hD0 : (fun i j : Fin 2 => (([[0, 0], [0, 0]] : List (List ℕ)).getD i []).getD j 0) = fun _ _ => 0 := by
    funext i j
    fin_cases i <;> fin_cases j <;> rfl
  rw [hD0]
  have hcond : useExplicit o 1 (rDDX rho NA (fun _ _ => d) (fun _ _ => 0) fun _ : Fin 2 => (1 : ℝ)) := by
    refine ⟨rfl, rfl, rfl, fun i => ?_⟩
    unfold rDDX
    change rho * NA * (d * ((0 : ℕ) : ℝ)) * 1 = 0
    simp
  set κ := rho * NA * (2 : ℝ) * d with hκ
  have hκ0 : 0 < κ := by positivity
  obtain ⟨h1, h2, h3⟩ := explicit_massAction κ κ 1 hκ0 hκ0.le
  set XA := explicitX0 κ κ 1 with hXA
  have hsol : assocSolve o 1 rho NA (fun _ _ => d) (fun _ _ => 0) (fun _ => 2) (fun _ => 1) (fun _ => 1) =
      fun i : Fin 2 => if i = 0 then XA else (1 + κ * XA)⁻¹ := by
    unfold assocSolve
    simp only
    rw [dif_pos hcond]
    funext i
    have e1 : rho * NA * ADScalar.ofR ((2 : ℕ) : ℝ) * d = κ := by
      rw [hκ]; rfl
    rw [e1]
    rfl
  rw [hsol]
  have hlt : (1 + κ * XA)⁻¹ < 1 := inv_lt_one_of_one_lt₀ (by
    have : 0 < κ * XA := by positivity
    linarith)
  have hp : 0 < (1 + κ * XA)⁻¹ := inv_pos.mpr (by positivity)
  have hb1 := (site_term_bounds XA h1 h2).2
  have hb2 : Real.log ((1 + κ * XA)⁻¹) - (1 + κ * XA)⁻¹ * (1/2) + 1/2 < 0 := by
    have := Real.log_lt_sub_one_of_pos hp hlt.ne
    linarith
  have e : assocSum [1] (fun _ : Fin 2 => 0) (fun _ => 2) (fun i : Fin 2 => if i = 0 then XA else (1 + κ * XA)⁻¹) =
      (Real.log XA - XA * (1/2) + 1/2) * 2 +
      (Real.log ((1 + κ * XA)⁻¹) - (1 + κ * XA)⁻¹ * (1/2) + 1/2) * 2 := by
    unfold assocSum
    simp only [List.length_singleton, Finset.sum_range_one, if_true, Fin.sum_univ_two, Fin.isValue]
    change (1 : ℝ) * ((Real.log XA - XA * (1/2) + 1/2) * ((2 : ℕ) : ℝ) +
      (Real.log ((1 + κ * XA)⁻¹) - (1 + κ * XA)⁻¹ * (1/2) + 1/2) * ((2 : ℕ) : ℝ)) = _
    push_cast
    ring
  rw [e]
  linarith

end Teqp.Props
