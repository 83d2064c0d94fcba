import Verif.Props.CPAFactory
import Verif.Props.AssocSites
import Verif.Props.PCSAFT

/-! # What the CPA and PC-SAFT factories read (C59, C61, C77) -/

set_option autoImplicit false

namespace Teqp.Props
open Teqp.Model Finset

/-- The name of each scheme and the number of its sites, which is the leading digit of the name. -/
theorem assocClass_table :
    (getAssocClass "1A" = .ok .a1A ∧ cpaSites .a1A = .ok 1) ∧ (getAssocClass "2B" = .ok .a2B ∧ cpaSites .a2B = .ok 2) ∧
    (getAssocClass "3B" = .ok .a3B ∧ cpaSites .a3B = .ok 3) ∧ (getAssocClass "4C" = .ok .a4C ∧ cpaSites .a4C = .ok 4) ∧
    getCubicFlag "PR" = .ok .PR ∧ getCubicFlag "SRK" = .ok .SRK := by
  decide

/-- The entry `key` of component `i` of the document. -/
def pureEntry (j : JTree) (i : ℕ) (key : String) : Option ℝ :=
  match j with
  | .obj fs => match fs.lookup "pures" with
    | some (.arr ps) => match ps[i]? with
      | some (.obj gs) => match gs.lookup key with
        | some (.num v) => some v
        | _ => none
      | _ => none
    | _ => none
  | _ => none

theorem numAt_ok {k : String} {p : JTree} {v : ℝ} (h : numAt k p = .ok v) : ∃ gs, p = .obj gs ∧ gs.lookup k = some (.num v) := by
  unfold numAt at h
  obtain ⟨w, hw, hv⟩ := Outcome.bind_eq_ok.mp h
  cases p with
  | obj gs =>
    refine ⟨gs, rfl, ?_⟩
    simp only [JTree.at] at hw
    cases hl : gs.lookup k with
    | none => simp [hl] at hw
    | some u =>
      rw [hl] at hw
      simp only [Outcome.ok.injEq] at hw
      subst hw
      cases u with
      | num r =>
        simp only [JTree.toDouble, Outcome.ok.injEq] at hv
        rw [hv]
      | _ => simp [JTree.toDouble] at hv
  | _ => simp [JTree.at] at hw

theorem numAt_list {j : JTree} {ps : List JTree} {k : String} {vs : List ℝ}
    (hj : ∃ fs, j = .obj fs ∧ fs.lookup "pures" = some (.arr ps)) (h : mapOutcome (numAt k) ps = .ok vs) :
    vs.length = ps.length ∧ ∀ i < ps.length, pureEntry j i k = vs[i]? ∧ (vs[i]?).isSome := by
  obtain ⟨fs, rfl, hp⟩ := hj
  obtain ⟨hl, hg⟩ := mapOutcome_get _ _ _ h
  refine ⟨hl, fun i hi => ?_⟩
  obtain ⟨b, hb, hf⟩ := hg i ps[i] (List.getElem?_eq_getElem hi)
  obtain ⟨gs, hgs, hlk⟩ := numAt_ok hf
  simp [pureEntry, hp, List.getElem?_eq_getElem hi, hgs, hlk, hb]

/-- The cubic part is built from the entries of the document with the documented names, one per component, and for
every component all of them are numbers. -/
theorem cpaCubic_read {j : JTree} {c : CPACubic} {ps : List JTree} (h : cpaBuildCubic j = .ok c)
    (hp : j.atConst "pures" = .ok (.arr ps)) :
    c.a0.length = ps.length ∧ c.b.length = ps.length ∧ c.c1.length = ps.length ∧ c.Tc.length = ps.length ∧
    (∀ i < ps.length, pureEntry j i "a0i / Pa m^6/mol^2" = c.a0[i]? ∧ pureEntry j i "bi / m^3/mol" = c.b[i]? ∧
      pureEntry j i "c1" = c.c1[i]? ∧ pureEntry j i "Tc / K" = c.Tc[i]?) ∧
    (j.atConst "R_gas / J/mol/K").bind JTree.toDouble = .ok c.R ∧
    ∃ k, c.kmat = some k ∧ k.length = ps.length ∧ ∀ r ∈ k, r.length = ps.length := by
  have hj : ∃ fs, j = .obj fs ∧ fs.lookup "pures" = some (.arr ps) := by
    cases j with
    | obj fs =>
      refine ⟨fs, rfl, ?_⟩
      simp only [JTree.atConst] at hp
      cases hl : fs.lookup "pures" with
      | none => simp [hl] at hp
      | some v => simp only [hl, Outcome.ok.injEq] at hp; rw [hp]
    | _ => simp [JTree.atConst] at hp
  unfold cpaBuildCubic at h
  rw [hp, Outcome.bind_ok] at h
  obtain ⟨k, hk, h⟩ := Outcome.bind_eq_ok.mp h
  obtain ⟨a0, ha0, h⟩ := Outcome.bind_eq_ok.mp h
  obtain ⟨b, hb, h⟩ := Outcome.bind_eq_ok.mp h
  obtain ⟨c1, hc1, h⟩ := Outcome.bind_eq_ok.mp h
  obtain ⟨Tc, hTc, h⟩ := Outcome.bind_eq_ok.mp h
  obtain ⟨flag, -, h⟩ := Outcome.bind_eq_ok.mp h
  obtain ⟨R, hR, h⟩ := Outcome.bind_eq_ok.mp h
  have e : c.a0 = a0 ∧ c.b = b ∧ c.c1 = c1 ∧ c.Tc = Tc ∧ c.R = R ∧ c.kmat = some k := by
    cases flag <;> simp [CPACubic.make] at h <;> subst h <;> exact ⟨rfl, rfl, rfl, rfl, rfl, rfl⟩
  obtain ⟨e1, e2, e3, e4, e5, e6⟩ := e
  rw [e1, e2, e3, e4, e5, e6]
  have h1 := numAt_list hj ha0
  have h2 := numAt_list hj hb
  have h3 := numAt_list hj hc1
  have h4 := numAt_list hj hTc
  refine ⟨h1.1, h2.1, h3.1, h4.1, fun i hi => ⟨(h1.2 i hi).1, (h2.2 i hi).1, (h3.2 i hi).1, (h4.2 i hi).1⟩, hR, k, rfl, ?_⟩
  replace hk : cpaKmat j ps.length = .ok k := hk
  unfold cpaKmat at hk
  by_cases hc : j.contains "kmat"
  · rw [if_pos hc] at hk
    obtain ⟨k', -, hk⟩ := Outcome.bind_eq_ok.mp hk
    split at hk
    · exact absurd hk (by simp)
    · rename_i hbad
      cases hk
      push Not at hbad
      exact hbad
  · rw [if_neg hc] at hk
    cases hk
    refine ⟨by simp, fun r hr => ?_⟩
    rw [List.eq_of_mem_replicate hr]
    simp

/-- The old description of association is used exactly for a single component with an entry `class`. -/
theorem cpa_style {j : JTree} {m : CPAEOS} {ps : List JTree} (h : cpaFactory j = .ok m) (hp : j.atConst "pures" = .ok (.arr ps)) :
    (∃ a, m.assoc = .old a) ↔ ∃ p, ps = [p] ∧ p.contains "class" = true := by
  unfold cpaFactory at h
  obtain ⟨cubic, -, h⟩ := Outcome.bind_eq_ok.mp h
  rw [hp, Outcome.bind_ok] at h
  obtain ⟨old, ho, h⟩ := Outcome.bind_eq_ok.mp h
  have hold : old = true ↔ ∃ p, ps = [p] ∧ p.contains "class" = true := by
    unfold cpaOldStyle at ho
    by_cases h1 : (JTree.arr ps).items.length = 1
    · obtain ⟨p, rfl⟩ := List.length_eq_one_iff.mp (show ps.length = 1 from h1)
      simp [JTree.items] at ho
      simp [← ho]
    · rw [if_neg h1] at ho
      cases ho
      constructor
      · intro h; cases h
      · rintro ⟨p, rfl, -⟩
        exact absurd rfl h1
  rw [← hold]
  cases old with
  | true =>
    rw [if_pos rfl] at h
    obtain ⟨a, -, h⟩ := Outcome.bind_eq_ok.mp h
    cases h
    simp
  | false =>
    rw [if_neg (by simp)] at h
    obtain ⟨a, -, h⟩ := Outcome.bind_eq_ok.mp h
    cases h
    simp

/-- The van der Waals mixing rule for two components. -/
theorem cpa_amix_binary (c : CPACubic) (T x0 x1 k : ℝ) (h0 : 0 ≤ c.ai T 0) (h1 : 0 ≤ c.ai T 1)
    (hk : c.kmat = some [[0, k], [k, 0]]) :
    c.amix T [x0, x1] = x0 ^ 2 * c.ai T 0 + 2 * x0 * x1 * ((1 - k) * Real.sqrt (c.ai T 0 * c.ai T 1)) + x1 ^ 2 * c.ai T 1 ∧
    c.bmix [x0, x1] = x0 * c.b.getD 0 0 + x1 * c.b.getD 1 0 := by
  constructor
  · unfold CPACubic.amix CPACubic.kij
    simp only [hk, List.length_cons, List.length_nil, Finset.sum_range_succ, Finset.sum_range_zero]
    simp
    rw [Real.sqrt_mul_self h0, Real.sqrt_mul_self h1, mul_comm (c.ai T 1) (c.ai T 0)]
    ring
  · unfold CPACubic.bmix
    simp [Finset.sum_range_succ]

example : ∃ c : CPACubic, c.kmat = some [[0, 0.1], [0.1, 0]] ∧ 0 ≤ c.ai 300 0 ∧ 0 ≤ c.ai 300 1 := by
  refine ⟨⟨[0.1, 0.2], [1e-5, 2e-5], [0.7, 0.8], [600, 500], 1, 0, 8.3, some [[0, 0.1], [0.1, 0]]⟩, rfl, ?_, ?_⟩ <;>
    · unfold CPACubic.ai
      simp only [List.getD_cons_zero, List.getD_cons_succ]
      exact mul_nonneg (by norm_num) (mul_self_nonneg _)

/-- When the cubic part returns a number: every division in the formula is by something other than zero, and logarithms
are taken of positive numbers only. -/
theorem cpaCubic_finite {c : CPACubic} {T rho v : ℝ} {x : List ℝ} (h : c.alphar T rho x = .ok v) :
    c.R ≠ 0 ∧ T ≠ 0 ∧ c.bmix x ≠ 0 ∧ c.d1 ≠ c.d2 ∧ 0 < 1 - c.bmix x * rho ∧ c.d2 * c.bmix x * rho + 1 ≠ 0 ∧
    0 < (c.d1 * c.bmix x * rho + 1) / (c.d2 * c.bmix x * rho + 1) ∧
    v = cpaCubicForm c.d1 c.d2 c.R T (c.amix T x) (c.bmix x) rho ∧
    (∀ i < x.length, c.Tc.getD i 0 ≠ 0 ∧ 0 ≤ T / c.Tc.getD i 0) ∧ x.length ≤ c.a0.length ∧ x.length ≤ c.b.length ∧
    x.length ≤ c.c1.length ∧ x.length ≤ c.Tc.length := by
  unfold CPACubic.alphar at h
  split at h
  · exact absurd h (by simp)
  rename_i hub
  split at h
  · exact absurd h (by simp)
  rename_i hnf
  simp only at h
  split at h
  · exact absurd h (by simp)
  rename_i hdiv
  injection h with h
  push Not at hub hnf hdiv
  obtain ⟨a1, a2, a3, a4, a5, a6, a7⟩ := hdiv
  exact ⟨a1, a2, a3, a4, a5, a6, a7, h.symm, fun i hi => ⟨(hnf i hi).1, (hnf i hi).2.1⟩, hub.1, hub.2.1, hub.2.2.1, hub.2.2.2.1⟩

/-- A document whose three parameters are read: the statement above is not empty. -/
example : (CPACubic.mk [0.1] [1e-5] [0.7] [600] 1 0 8.3 none).alphar 300 100 [1] =
    .ok (cpaCubicForm 1 0 8.3 300 ((CPACubic.mk [0.1] [1e-5] [0.7] [600] 1 0 8.3 none).amix 300 [1])
      ((CPACubic.mk [0.1] [1e-5] [0.7] [600] 1 0 8.3 none).bmix [1]) 100) := by
  unfold CPACubic.alphar
  rw [if_neg, if_neg]
  · simp only
    rw [if_neg]
    simp [CPACubic.bmix]
    norm_num
  · simp [CPACubic.ai]
    refine ⟨by norm_num, mul_self_nonneg _⟩
  · simp

/-! ## Partner tables -/

/-- Without a table every kind of site is given all other kinds as partners and not itself. -/
theorem getPartners_default {types : List String} {j : JTree} {ps : List (String × List String)} (h : getPartners types j = .ok ps)
    (hno : ∀ jo, j.at "options" = .ok jo → jo.contains "interaction_partners" = false) :
    ps.map Prod.fst = types ∧ ∀ p ∈ ps, ∀ t, t ∈ p.2 ↔ t ∈ types ∧ t ≠ p.1 := by
  have hd : ps = types.map fun s => (s, types.filter fun s2 => s != s2) := by
    unfold getPartners at h
    simp only at h
    split at h
    · rename_i jo hjo
      rw [hno jo hjo] at h
      simpa using h.symm
    · simpa using h.symm
  subst hd
  refine ⟨by simp [Function.comp_def], ?_⟩
  intro p hp t
  obtain ⟨s, -, rfl⟩ := List.mem_map.mp hp
  simp only [List.mem_filter, bne_iff_ne, ne_eq]
  exact and_congr_right fun _ => ⟨fun h h' => h h'.symm, fun h h' => h h'.symm⟩

/-- A given table is used as it is, and only if it mentions nothing but kinds of sites of the model. -/
theorem getPartners_custom {types : List String} {j jo : JTree} {ps : List (String × List String)} (hjo : j.at "options" = .ok jo)
    (hc : jo.contains "interaction_partners" = true) (hps : (jo.at "interaction_partners").bind JTree.toStrsMap = .ok ps) :
    ((∀ p ∈ ps, p.1 ∈ types ∧ ∀ q ∈ p.2, q ∈ types) → getPartners types j = .ok ps) ∧
    ((∃ p ∈ ps, p.1 ∉ types ∨ ∃ q ∈ p.2, q ∉ types) → getPartners types j = .throws .invalidArgument) := by
  unfold getPartners
  simp only [hjo, hc, hps, Outcome.bind_ok, if_true]
  refine ⟨fun h => if_pos h, fun h => if_neg ?_⟩
  obtain ⟨p, hp, hq⟩ := h
  intro hall
  rcases hq with hq | ⟨q, hq, hqt⟩
  · exact hq (hall p hp).1
  · exact hqt ((hall p hp).2 q hq)

/-! ## The built-in PC-SAFT fluids -/

/-- Every fluid of the library has physical parameters and no polar term, so by `pcMixture_alphar` mixtures of them evaluate to
a number at every density up to the maximal one. -/
theorem pcLibrary_physical {name : String} {c : SAFTCoeffs} (h : pcLibrary name = .ok c) :
    c.name = name ∧ 1 ≤ c.m ∧ c.m < 3 ∧ 3 < c.sigma ∧ c.sigma < 4 ∧ 100 < c.eps ∧ c.eps < 300 ∧
      c.mustar2 = 0 ∧ c.nmu = 0 ∧ c.Qstar2 = 0 ∧ c.nQ = 0 := by
  unfold pcLibrary at h
  split at h
  · cases h
    norm_num
  · split at h
    · cases h
      norm_num
    · split at h
      · cases h
        norm_num
      · exact absurd h (by simp)

end Teqp.Props
