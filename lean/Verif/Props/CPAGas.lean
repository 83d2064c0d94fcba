import Verif.Props.CPARead
import Verif.Props.Dufal

/-! # C141, C142: what the association part of CPA reads, and its gas constant -/

set_option autoImplicit false

namespace Teqp.Props
open Teqp.Model Teqp.Spec Teqp.Lemmas Finset

theorem atConst_pures {j : JTree} {ps : List JTree} (hp : j.atConst "pures" = .ok (.arr ps)) :
    ∃ fs, j = .obj fs ∧ fs.lookup "pures" = some (.arr ps) := by
  cases j with
  | obj fs =>
    refine ⟨fs, rfl, ?_⟩
    simp only [JTree.atConst] at hp
    cases hl : fs.lookup "pures" with
    | none => simp [hl] at hp
    | some v => simp only [hl, Outcome.ok.injEq] at hp; rw [hp]
  | _ => simp [JTree.atConst] at hp

/-- The sites given for component `i` of the document. -/
def pureSites (j : JTree) (i : ℕ) : Option (List String) :=
  match j with
  | .obj fs => match fs.lookup "pures" with
    | some (.arr ps) => match ps[i]? with
      | some (.obj gs) => match gs.lookup "sites" with
        | some (.arr ss) => ss.mapM fun s => match s with
          | .str t => some t
          | _ => none
        | _ => none
      | _ => none
    | _ => none
  | _ => none

theorem mapM_str (l : List String) :
    (l.map JTree.str).mapM (fun s => match s with
          | .str t => some t
          | _ => none) = some l := by
  induction l with
  | nil => rfl
  | cons a l ih => simp [List.mapM_cons, ih]

/-- C141: the association part of a CPA model holds, for each component in the order of the document, the energies,
volumes and covolumes given for it under their documented names; a component described by its scheme has the sites of
that scheme and the gas constant of the document, and components described by their sites have as many molecules as
there are components. -/
theorem cpaAssoc_read {j : JTree} {m : CPAEOS} {ps : List JTree} (h : cpaFactory j = .ok m)
    (hp : j.atConst "pures" = .ok (.arr ps)) :
    match m.assoc with
    | .old a => ps.length = 1 ∧ pureEntry j 0 "epsABi / J/mol" = a.eps[0]? ∧ pureEntry j 0 "betaABi" = a.beta[0]? ∧
        pureEntry j 0 "bi / m^3/mol" = a.b[0]? ∧ a.eps.length = 1 ∧ a.beta.length = 1 ∧ a.b.length = 1 ∧
        (j.atConst "R_gas / J/mol/K").bind JTree.toDouble = .ok a.R ∧ a.R = m.cubic.R ∧ a.b = m.cubic.b ∧
        ∃ p s c n, ps = [p] ∧ p.at "class" = .ok (.str s) ∧ getAssocClass s = .ok c ∧ cpaSites c = .ok n ∧
          a.classes = [c] ∧ a.nSites = [n]
    | .new a => a.data.epsilon.length = ps.length ∧ a.data.beta.length = ps.length ∧ a.data.b.length = ps.length ∧
        a.ncomp = ps.length ∧ a.data.b = m.cubic.b ∧
        (∀ i < ps.length, pureEntry j i "epsABi / J/mol" = a.data.epsilon[i]? ∧ pureEntry j i "betaABi" = a.data.beta[i]? ∧
          pureEntry j i "bi / m^3/mol" = a.data.b[i]?) ∧
        ∃ mols, makeMapper mols = .ok a.sites ∧ mols.length = ps.length ∧ ∀ i < ps.length, pureSites j i = mols[i]? := by
  have hj := atConst_pures hp
  unfold cpaFactory at h
  obtain ⟨cubic, hcub, h⟩ := Outcome.bind_eq_ok.mp h
  obtain ⟨-, hbl, -, -, hcr, hcR, -⟩ := cpaCubic_read hcub hp
  have hb' : ∀ b : List ℝ, mapOutcome (numAt "bi / m^3/mol") ps = .ok b → b = cubic.b := by
    intro b hb
    have h2 := numAt_list hj hb
    apply List.ext_getElem?
    intro i
    by_cases hi : i < ps.length
    · rw [← (h2.2 i hi).1, ← (hcr i hi).2.1]
    · rw [List.getElem?_eq_none (by omega), List.getElem?_eq_none (by omega)]
  rw [hp, Outcome.bind_ok] at h
  obtain ⟨old, ho, h⟩ := Outcome.bind_eq_ok.mp h
  have hitems : (JTree.arr ps).items = ps := rfl
  rw [hitems] at h
  cases old with
  | true =>
    have h1 : ps.length = 1 := by
      unfold cpaOldStyle at ho
      by_contra hne
      rw [if_neg (by simpa [JTree.items] using hne)] at ho
      cases ho
    rw [if_pos rfl] at h
    obtain ⟨a, ha, h⟩ := Outcome.bind_eq_ok.mp h
    cases h
    unfold cpaBuildOld at ha
    obtain ⟨d, -, ha⟩ := Outcome.bind_eq_ok.mp ha
    obtain ⟨eps, heps, ha⟩ := Outcome.bind_eq_ok.mp ha
    obtain ⟨beta, hbeta, ha⟩ := Outcome.bind_eq_ok.mp ha
    obtain ⟨b, hb, ha⟩ := Outcome.bind_eq_ok.mp ha
    obtain ⟨cs, hcs, ha⟩ := Outcome.bind_eq_ok.mp ha
    obtain ⟨R, hR, ha⟩ := Outcome.bind_eq_ok.mp ha
    unfold CPAAssoc.make at ha
    obtain ⟨ns, hns, ha⟩ := Outcome.bind_eq_ok.mp ha
    cases ha
    have e1 := numAt_list hj heps
    have e2 := numAt_list hj hbeta
    have e3 := numAt_list hj hb
    refine ⟨h1, (e1.2 0 (by omega)).1, (e2.2 0 (by omega)).1, (e3.2 0 (by omega)).1, e1.1.trans h1, e2.1.trans h1, e3.1.trans h1, hR, ?_, hb' b hb, ?_⟩
    · have := hcR.symm.trans hR
      exact (Outcome.ok.inj this).symm
    · obtain ⟨p, rfl⟩ := List.length_eq_one_iff.mp h1
      obtain ⟨hl, hg⟩ := mapOutcome_get _ _ _ hcs
      obtain ⟨c, hc, hf⟩ := hg 0 p rfl
      obtain ⟨v, hv, hf⟩ := Outcome.bind_eq_ok.mp hf
      obtain ⟨w, hw, hv⟩ := Outcome.bind_eq_ok.mp hv
      obtain ⟨c', rfl⟩ := List.length_eq_one_iff.mp (hl.trans h1)
      have hcc : c' = c := by simpa using hc
      subst hcc
      obtain ⟨hl2, hg2⟩ := mapOutcome_get _ _ _ hns
      obtain ⟨n, hn, hf2⟩ := hg2 0 c' rfl
      obtain ⟨n', rfl⟩ := List.length_eq_one_iff.mp (hl2.trans rfl)
      have hnn : n' = n := by simpa using hn
      subst hnn
      refine ⟨p, v, c', n', rfl, ?_, hf, hf2, rfl, rfl⟩
      cases w <;> simp [JTree.toStr] at hv
      rw [hw, hv]
  | false =>
    rw [if_neg (by simp)] at h
    obtain ⟨a, ha, h⟩ := Outcome.bind_eq_ok.mp h
    cases h
    unfold cpaBuildNew at ha
    obtain ⟨o, -, ha⟩ := Outcome.bind_eq_ok.mp ha
    obtain ⟨eps, heps, ha⟩ := Outcome.bind_eq_ok.mp ha
    obtain ⟨beta, hbeta, ha⟩ := Outcome.bind_eq_ok.mp ha
    obtain ⟨b, hb, ha⟩ := Outcome.bind_eq_ok.mp ha
    obtain ⟨mols, hmols, ha⟩ := Outcome.bind_eq_ok.mp ha
    obtain ⟨partners, -, ha⟩ := Outcome.bind_eq_ok.mp ha
    unfold AssocModel.make at ha
    obtain ⟨sites, hs, ha⟩ := Outcome.bind_eq_ok.mp ha
    obtain ⟨D, -, ha⟩ := Outcome.bind_eq_ok.mp ha
    cases ha
    have e1 := numAt_list hj heps
    have e2 := numAt_list hj hbeta
    have e3 := numAt_list hj hb
    obtain ⟨hl, hg⟩ := mapOutcome_get _ _ _ hmols
    refine ⟨e1.1, e2.1, e3.1, hl, hb' b hb, fun i hi => ⟨(e1.2 i hi).1, (e2.2 i hi).1, (e3.2 i hi).1⟩, mols, hs, hl, fun i hi => ?_⟩
    obtain ⟨l, hl', hf⟩ := hg i ps[i] (List.getElem?_eq_getElem hi)
    obtain ⟨v, hv, hf⟩ := Outcome.bind_eq_ok.mp hf
    rw [toStrs_ok] at hf
    subst hf
    obtain ⟨fs, rfl, hfs⟩ := hj
    have hpi : ps[i]? = some ps[i] := List.getElem?_eq_getElem hi
    generalize ps[i] = q at hpi hv
    cases q with
    | obj gs =>
      simp only [JTree.at] at hv
      cases hlk : gs.lookup "sites" with
      | none => simp [hlk] at hv
      | some u =>
        simp only [hlk, Outcome.ok.injEq] at hv
        subst hv
        simp only [pureSites, hfs, hpi, hlk]
        rw [mapM_str, hl']
    | _ => simp [JTree.at] at hv

/-- The document of C60 has the sites A and B. -/
example : pureSites (cpaDoc []) 0 = some ["A", "B"] ∧ pureEntry (cpaDoc []) 0 "betaABi" = some 0.01 := by
  simp [pureSites, pureEntry, cpaDoc, lookup_cons_ne]

/-- A table of partners that is not an object, or in which the partners of some kind are not a list of strings, is refused. -/
theorem getPartners_typed {types : List String} {j jo w : JTree} (hjo : j.at "options" = .ok jo)
    (hw : jo.at "interaction_partners" = .ok w) (hc : jo.contains "interaction_partners" = true)
    (hbad : ∀ fs, w = .obj fs → ∃ p ∈ fs, ∀ l : List String, p.2 ≠ .arr (l.map .str)) :
    getPartners types j = .throws .jsonError := by
  have hstr : ∀ xs : List JTree, (∀ l : List String, xs ≠ l.map .str) → mapOutcome JTree.toStr xs = .throws .jsonError := by
    intro xs
    induction xs with
    | nil => intro h; exact absurd rfl (h [])
    | cons x xs ih =>
      intro h
      rw [mapOutcome]
      cases x with
      | str s =>
        rw [JTree.toStr, Outcome.bind_ok, ih]
        · rfl
        · intro l hl
          exact h (s :: l) (by simp [hl])
      | _ => rfl
  have hstrs : ∀ v : JTree, (∀ l : List String, v ≠ .arr (l.map .str)) → v.toStrs = .throws .jsonError := by
    intro v hv
    cases v with
    | arr xs => exact hstr xs fun l hl => hv l (by rw [hl])
    | _ => rfl
  have hmap : w.toStrsMap = .throws .jsonError := by
    cases w with
    | obj fs =>
      obtain ⟨p, hp, hb⟩ := hbad fs rfl
      clear hw hbad
      rw [JTree.toStrsMap]
      induction fs with
      | nil => cases hp
      | cons q fs ih =>
        rw [mapOutcome]
        rcases List.mem_cons.mp hp with rfl | hp
        · rw [hstrs _ hb]; rfl
        · by_cases hq : ∃ l : List String, q.2 = .arr (l.map .str)
          · obtain ⟨l, hl⟩ := hq
            rw [toStrs_ok.mpr hl, Outcome.bind_ok, Outcome.bind_ok, ih hp]
            rfl
          · push Not at hq
            rw [hstrs _ hq]; rfl
    | _ => rfl
  unfold getPartners
  simp only [hjo, hc, if_true, hw, Outcome.bind_ok, hmap]
  rfl

example : getPartners ["A", "B"] (.obj [("options", .obj [("interaction_partners", .obj [("A", .str "B")])])]) = .throws .jsonError := by
  refine getPartners_typed (jo := .obj [("interaction_partners", .obj [("A", .str "B")])]) (w := .obj [("A", .str "B")])
    ?_ ?_ ?_ ?_
  · simp [JTree.at]
  · simp [JTree.at]
  · simp [JTree.contains]
  · rintro fs h
    cases h
    exact ⟨("A", .str "B"), by simp, fun l h => by cases h⟩

/-- A cubic part without interaction parameters mixes as one with parameters that all vanish. -/
theorem cpa_amix_default (c : CPACubic) (T : ℝ) (x : List ℝ) (hk : c.kmat = none) :
    c.amix T x = ∑ i ∈ range x.length, ∑ j ∈ range x.length, x.getD i 0 * x.getD j 0 * Real.sqrt (c.ai T i * c.ai T j) := by
  unfold CPACubic.amix CPACubic.kij
  simp [hk]

example : (CPACubic.mk [4] [1e-5] [0] [600] 1 0 8.3 none).amix 300 [1] = 4 := by
  rw [cpa_amix_default _ _ _ rfl]
  simp [CPACubic.ai]

/-! ## The gas constant -/

/-- The association part of components described by their sites does not depend on the gas constant of the document. -/
theorem cpa_gas_ignored (R R' : JTree) (fs : List (String × JTree)) (ps : List JTree) :
    cpaBuildNew (.obj (("R_gas / J/mol/K", R) :: fs)) ps = cpaBuildNew (.obj (("R_gas / J/mol/K", R') :: fs)) ps := by
  have e : ∀ (k : String) (Q : JTree), k ≠ "R_gas / J/mol/K" →
      (JTree.obj (("R_gas / J/mol/K", Q) :: fs)).at k = (JTree.obj fs).at k := by
    intro k Q hk
    simp only [JTree.at, lookup_cons_ne hk]
  have c : ∀ (k : String) (Q : JTree), k ≠ "R_gas / J/mol/K" →
      (JTree.obj (("R_gas / J/mol/K", Q) :: fs)).contains k = (JTree.obj fs).contains k := by
    intro k Q hk
    simp only [JTree.contains, lookup_cons_ne hk]
  have key : ∀ Q, cpaBuildNew (.obj (("R_gas / J/mol/K", Q) :: fs)) ps = cpaBuildNew (.obj fs) ps := by
    intro Q
    simp only [cpaBuildNew, cpaOptions, requestedDist, copyMask, getPartners, e "options" Q (by decide),
      e "radial_dist" Q (by decide), c "options" Q (by decide)]
  rw [key, key]

/-- The strength, and with it the contribution of a component described by its scheme, determines the gas constant. -/
theorem cpaDelta_inj (d : RadialDist) (eps beta b R R' T rho Δ : ℝ) (h : cpaDelta d eps beta b (R * T) rho = .ok Δ)
    (h' : cpaDelta d eps beta b (R' * T) rho = .ok Δ) (hΔ : 0 < Δ) (he : eps ≠ 0) : R = R' := by
  unfold cpaDelta at h h'
  obtain ⟨g, hg, h⟩ := Outcome.bind_eq_ok.mp h
  obtain ⟨g', hg', h'⟩ := Outcome.bind_eq_ok.mp h'
  have hgg : g = g' := Outcome.ok.inj (hg.symm.trans hg')
  subst hgg
  by_cases h1 : R * T = 0
  · rw [if_pos h1] at h; cases h
  by_cases h2 : R' * T = 0
  · rw [if_pos h2] at h'; cases h'
  rw [if_neg h1] at h
  rw [if_neg h2] at h'
  have e1 := Outcome.ok.inj h
  have e2 := Outcome.ok.inj h'
  have hne : g * b * beta ≠ 0 := by
    intro h0
    have : Δ = (g * b * beta) * (Real.exp (eps / (R * T)) - 1) := by rw [← e1]; ring
    rw [h0, zero_mul] at this
    exact hΔ.ne' this
  have h3 : (g * b * beta) * (Real.exp (eps / (R * T)) - 1) = (g * b * beta) * (Real.exp (eps / (R' * T)) - 1) := by
    have : g * (Real.exp (eps / (R * T)) - 1) * b * beta = g * (Real.exp (eps / (R' * T)) - 1) * b * beta := by rw [e1, e2]
    linarith
  have h4 := mul_left_cancel₀ hne h3
  have h5 : eps / (R * T) = eps / (R' * T) := Real.exp_injective (by linarith)
  have hT : T ≠ 0 := fun h => h1 (by rw [h, mul_zero])
  rw [div_eq_div_iff h1 h2] at h5
  have h6 := mul_left_cancel₀ he h5
  exact (mul_right_cancel₀ hT h6).symm

/-- `log X - X/2` determines `X` in (0, 1]. -/
theorem siteTerm_inj {X Y : ℝ} (hX : 0 < X) (hX1 : X ≤ 1) (hY : 0 < Y) (hY1 : Y ≤ 1)
    (h : Real.log X - X / 2 = Real.log Y - Y / 2) : X = Y := by
  have key : ∀ A B : ℝ, 0 < A → B ≤ 1 → A < B → Real.log A - A / 2 < Real.log B - B / 2 := by
    intro A B hA hB hAB
    have hB0 : 0 < B := hA.trans hAB
    have h1 : Real.log (A / B) < A / B - 1 :=
      Real.log_lt_sub_one_of_pos (div_pos hA hB0) (by rw [Ne, div_eq_one_iff_eq hB0.ne']; exact hAB.ne)
    rw [Real.log_div hA.ne' hB0.ne'] at h1
    have h2 : A / B - 1 ≤ (A - B) / 2 := by
      rw [div_sub_one hB0.ne', div_le_div_iff₀ hB0 two_pos]
      nlinarith
    linarith
  rcases lt_trichotomy X Y with h1 | h1 | h1
  · exact absurd h (key X Y hX hY1 h1).ne
  · exact h1
  · exact absurd h (key Y X hY hX1 h1).ne'

/-- C142, negation: for a fluid with one site A and one site B the two descriptions of the same document give different
contributions whenever the gas constant of the document is not the built-in one, `R0`, because the description by sites
evaluates with `R0` and the description by scheme with the gas constant of the document. -/
theorem cpa_gas_constant_matters (d : RadialDist) (eps beta b R R0 NA T rho Δ Δ0 : ℝ)
    (hΔ : cpaDelta d eps beta b (R * T) rho = .ok Δ) (hΔ0 : cpaDelta d eps beta b (R0 * T) rho = .ok Δ0) (hrho : 0 < rho)
    (hpos : 0 < Δ) (hpos0 : 0 < Δ0) (hNA : 0 < NA) (hbeta : 0 ≤ beta) (he : eps ≠ 0) (hR : R ≠ R0) :
    ∃ a v v0, CPAAssoc.make [.a2B] d [eps] [beta] [b] R = .ok a ∧
      (CPAAssocVariant.old a).alphar R0 NA T rho [1] = .ok v ∧
      (CPAAssocVariant.new (twoKinds 1 1 d eps beta b)).alphar R0 NA T rho [1] = .ok v0 ∧ v ≠ v0 := by
  have hd : (AssocClass.a2B, 1, 1) ∈ [(AssocClass.a2B, 1, 1), (AssocClass.a3B, 2, 1), (AssocClass.a4C, 2, 2)] := by simp
  have side : ∀ (Q Γ : ℝ), cpaDelta d eps beta b (Q * T) rho = .ok Γ → 0 < Γ → ∃ a, CPAAssoc.make [.a2B] d [eps] [beta] [b] Q = .ok a ∧
      ∃ X, 0 < X ∧ X ≤ 1 ∧ X * (1 + rho * Γ * X) = 1 ∧ a.alphar T rho [1] = .ok (2 * (Real.log X - X / 2) + 1) := by
    intro Q Γ hΓ hp
    obtain ⟨a, ha, X, hm, hv, -⟩ := cpa_alphar .a2B 2 rfl d eps beta b Q T rho Γ hΓ (mul_pos hrho hp)
    obtain ⟨Z, -, hZ1, hZm, hZu⟩ := cpa_massAction .a2B 2 rfl d eps beta b (Q * T) rho Γ hΓ (mul_pos hrho hp)
    have hX1 : ∀ i, X i ≤ 1 := by
      rw [hZu X hm]; exact hZ1
    have e0 := hm.2 0
    have e1 := hm.2 1
    simp [schemeBonds, Fin.sum_univ_two] at e0 e1
    have h01 : X 1 = X 0 := by linarith
    refine ⟨a, ha, X 0, hm.1 0, hX1 0, ?_, ?_⟩
    · rw [h01] at e0
      linarith
    · rw [hv, Fin.sum_univ_two, h01]
      congr 1
      ring
  obtain ⟨a, ha, X, hX0, hX1, hXe, hv⟩ := side R Δ hΔ hpos
  obtain ⟨a0, ha0, Y, hY0, hY1, hYe, hv0⟩ := side R0 Δ0 hΔ0 hpos0
  obtain ⟨a1, v1, ha1, hv1, hw⟩ := cpa_descriptions_agree .a2B 1 1 hd d eps beta b R0 NA T rho Δ0 hΔ0 hrho hpos0 hNA hbeta
  have : a1 = a0 := Outcome.ok.inj (ha1.symm.trans ha0)
  subst this
  have hv1' := Outcome.ok.inj (hv1.symm.trans hv0)
  refine ⟨a, _, v1, ha, hv, hw, fun hvv => ?_⟩
  rw [hv1'] at hvv
  have hXY : X = Y := siteTerm_inj hX0 hX1 hY0 hY1 (by linarith)
  subst hXY
  have hΔΔ : Δ = Δ0 := by
    have h1 : rho * X * X * (Δ - Δ0) = 0 := by linarith
    rcases mul_eq_zero.mp h1 with h | h
    · exact absurd h (by positivity)
    · linarith
  subst hΔΔ
  exact hR (cpaDelta_inj d eps beta b R R0 T rho Δ hΔ hΔ0 hpos he)

/-- C142, the part that holds: when the gas constant of the document is the built-in one, both descriptions evaluate with
the gas constant of the cubic part and agree. -/
theorem cpa_gas_constant_partial (c : AssocClass) (n0 n1 : ℕ)
    (hc : (c, n0, n1) ∈ [(AssocClass.a2B, 1, 1), (AssocClass.a3B, 2, 1), (AssocClass.a4C, 2, 2)]) (d : RadialDist)
    (eps beta b R0 NA T rho Δ : ℝ) (hΔ : cpaDelta d eps beta b (R0 * T) rho = .ok Δ) (hrho : 0 < rho) (hpos : 0 < Δ)
    (hNA : 0 < NA) (hbeta : 0 ≤ beta) :
    ∃ a v, CPAAssoc.make [c] d [eps] [beta] [b] R0 = .ok a ∧ (CPAAssocVariant.old a).alphar R0 NA T rho [1] = .ok v ∧
      (CPAAssocVariant.new (twoKinds n0 n1 d eps beta b)).alphar R0 NA T rho [1] = .ok v :=
  cpa_descriptions_agree c n0 n1 hc d eps beta b R0 NA T rho Δ hΔ hrho hpos hNA hbeta

theorem cpaDelta_example (R : ℝ) (hR : 0 < R) : ∃ Δ, cpaDelta .KG 20000 0.01 4e-5 (R * 300) 1000 = .ok Δ ∧ 0 < Δ := by
  have hRT : 0 < R * 300 := by positivity
  unfold cpaDelta
  simp only
  rw [if_neg (by norm_num), Outcome.bind_ok, if_neg hRT.ne']
  refine ⟨_, rfl, ?_⟩
  have : 0 < Real.exp (20000 / (R * 300)) - 1 := by
    rw [sub_pos, Real.one_lt_exp_iff]; positivity
  have h2 : (0 : ℝ) < 1 / (1 - 1.9 * (1000 / 4 * 4e-5)) := by norm_num
  positivity

/-- The value 8.31446 of the older literature and the CODATA value give different contributions. -/
example : ∃ a v v0, CPAAssoc.make [.a2B] .KG [20000] [0.01] [4e-5] 8.31446 = .ok a ∧
    (CPAAssocVariant.old a).alphar 8.31446261815324 6.02214076e23 300 1000 [1] = .ok v ∧
    (CPAAssocVariant.new (twoKinds 1 1 .KG 20000 0.01 4e-5)).alphar 8.31446261815324 6.02214076e23 300 1000 [1] = .ok v0 ∧ v ≠ v0 := by
  obtain ⟨Δ, h1, h2⟩ := cpaDelta_example 8.31446 (by norm_num)
  obtain ⟨Δ0, h3, h4⟩ := cpaDelta_example 8.31446261815324 (by norm_num)
  exact cpa_gas_constant_matters .KG 20000 0.01 4e-5 8.31446 8.31446261815324 6.02214076e23 300 1000 Δ Δ0 h1 h3 (by norm_num)
    h2 h4 (by norm_num) (by norm_num) (by norm_num) (by norm_num)

end Teqp.Props
