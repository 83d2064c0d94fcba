import Verif.Model.MultiFluid
import Verif.Props.Reducing
import Verif.Props.ReducingFn
import Verif.Props.Residual

/-! # C29: multi-fluid mixtures -/

set_option autoImplicit false

namespace Teqp.Props
open Teqp Teqp.Model Teqp.Lemmas.Red Finset

/-! ## The loops over pairs -/

theorem symLoop_spec {α : Type} (f : ℕ → ℕ → Outcome α) (l : List (ℕ × ℕ)) (hl : l.Nodup)
    (hlt : ∀ p ∈ l, p.1 < p.2) (M M' : ℕ → ℕ → α) (h : symLoop f l M = .ok M') :
    (∀ i j, (i, j) ∈ l → f i j = .ok (M' i j) ∧ M' j i = M' i j) ∧
    (∀ i j, (i, j) ∉ l → (j, i) ∉ l → M' i j = M i j) := by
  induction l generalizing M with
  | nil => cases h; simp
  | cons p ps ih =>
    obtain ⟨a, b⟩ := p
    rw [symLoop] at h
    have hab : a < b := hlt (a, b) (by simp)
    rw [List.nodup_cons] at hl
    cases hf : f a b with
    | ok v =>
      rw [hf, Outcome.bind_ok] at h
      obtain ⟨h1, h2⟩ := ih hl.2 (fun p hp => hlt p (List.mem_cons_of_mem _ hp)) _ h
      have hba : (b, a) ∉ ps := fun hm => by
        have := hlt (b, a) (List.mem_cons_of_mem _ hm)
        simp only at this
        omega
      constructor
      · intro i j hm
        rcases List.mem_cons.mp hm with he | hm
        · simp only [Prod.mk.injEq] at he
          obtain ⟨rfl, rfl⟩ := he
          rw [h2 i j hl.1 hba, h2 j i hba hl.1]
          simp [hf]
        · exact h1 i j hm
      · intro i j hn1 hn2
        simp only [List.mem_cons, Prod.mk.injEq, not_or] at hn1 hn2
        rw [h2 i j hn1.2 hn2.2, if_neg]
        rintro (h | h)
        · exact hn1.1 h
        · exact hn2.1 ⟨h.2, h.1⟩
    | throws e => rw [hf] at h; cases h
    | ub => rw [hf] at h; cases h
    | nonFinite => rw [hf] at h; cases h

theorem symLoop_ok {α : Type} (f : ℕ → ℕ → Outcome α) (l : List (ℕ × ℕ)) (M : ℕ → ℕ → α)
    (h : ∀ p ∈ l, ∃ v, f p.1 p.2 = .ok v) : ∃ M', symLoop f l M = .ok M' := by
  induction l generalizing M with
  | nil => exact ⟨M, rfl⟩
  | cons p ps ih =>
    obtain ⟨a, b⟩ := p
    obtain ⟨v, hv⟩ := h (a, b) (by simp)
    rw [symLoop, hv, Outcome.bind_ok]
    exact ih _ fun p hp => h p (List.mem_cons_of_mem _ hp)

theorem bipLoop_ok (col : List BIPEntry) (ids : ℕ → String) (flags : BIPFlags) (Tc vc : ℕ → ℝ)
    (l : List (ℕ × ℕ)) (M : ℕ → ℕ → BIP)
    (h : ∀ p ∈ l, ∃ b, getBinaryInteraction col (ids p.1) (ids p.2) flags (Tc p.1) (Tc p.2) (vc p.1) (vc p.2) = .ok b
      ∧ b.betaT ≠ 0 ∧ b.betaV ≠ 0) : ∃ M', bipLoop col ids flags Tc vc l M = .ok M' := by
  induction l generalizing M with
  | nil => exact ⟨M, rfl⟩
  | cons p ps ih =>
    obtain ⟨i, j⟩ := p
    obtain ⟨b, hb, h1, h2⟩ := h (i, j) (by simp)
    simp only at hb
    rw [bipLoop, hb, Outcome.bind_ok, if_neg (by simp [h1, h2])]
    exact ih _ fun p hp => h p (List.mem_cons_of_mem _ hp)

/-! ## What a built mixture contains -/

/-- The departure function that an entry asks for. -/
noncomputable def depOf (deps : List DepEntry) (el : BIPEntry) : Outcome (List ResTerm) :=
  match el.function with
  | none => .ok [.null]
  | some name =>
    if name = "" then .ok [.null] else if deps = [] then .throws .invalidArgument else depByName deps name

/-- The data of the pair of fluids `a`, `b` in this order: its entry in the collection, weight, departure function and
parameters of the reducing functions. -/
def PairData (col : List BIPEntry) (deps : List DepEntry) (flags : BIPFlags) (a b : PureData) (F : ℝ)
    (D : List ResTerm) (p : BIP) : Prop :=
  (∃ el s, getBIPdep col a.id b.id flags = .ok (el, s) ∧ el.F = some F ∧ depOf deps el = .ok D) ∧
  getBinaryInteraction col a.id b.id flags a.Tc b.Tc a.vc b.vc = .ok p ∧ p.betaT ≠ 0 ∧ p.betaV ≠ 0

theorem pairData_unique (col : List BIPEntry) (deps : List DepEntry) (flags : BIPFlags) (a b : PureData)
    (F F' : ℝ) (D D' : List ResTerm) (p p' : BIP) (h : PairData col deps flags a b F D p)
    (h' : PairData col deps flags a b F' D' p') : F = F' ∧ D = D' ∧ p = p' := by
  obtain ⟨⟨el, s, h1, h2, h3⟩, h4, _⟩ := h
  obtain ⟨⟨el', s', h1', h2', h3'⟩, h4', _⟩ := h'
  rw [h1] at h1'
  simp only [Outcome.ok.injEq, Prod.mk.injEq] at h1'
  obtain ⟨rfl, rfl⟩ := h1'
  rw [h2] at h2'
  rw [h3] at h3'
  rw [h4] at h4'
  simp only [Option.some.injEq] at h2'
  simp only [Outcome.ok.injEq] at h3' h4'
  exact ⟨h2', h3', h4'⟩

/-- The data of a pair in the other order. -/
theorem pairData_symm (col : List BIPEntry) (deps : List DepEntry) (flags : BIPFlags) (a b : PureData)
    (F : ℝ) (D : List ResTerm) (p : BIP) (hab : a.id.toUpper ≠ b.id.toUpper)
    (h : PairData col deps flags a b F D p) : PairData col deps flags b a F D p.flip := by
  obtain ⟨⟨el, s, h1, h2, h3⟩, h4, h5, h6⟩ := h
  obtain ⟨s', h1', _⟩ := (getBIPdep_order col a.id b.id flags hab).1 el s h1
  refine ⟨⟨el, s', h1', h2, h3⟩, pair_order col _ _ flags _ _ _ _ p hab h4 h5 h6, ?_, ?_⟩
  · simp [BIP.flip, h5]
  · simp [BIP.flip, h6]

/-- The model `m` holds, for every pair in either order, the data of that pair; `r` is its reducing function. -/
structure Describes {n : ℕ} (pures : Fin n → PureData) (col : List BIPEntry) (deps : List DepEntry)
    (flags : BIPFlags) (m : MultiFluid n) (r : RedFn n) : Prop where
  Tr : m.Tr = r.Tr
  rhor : m.rhor = r.rhor
  Tc : ∀ i, r.Tc i = (pures i).Tc
  vc : ∀ i, r.vc i = (pures i).vc
  eos : ∀ i, m.eos i = (pures i).terms
  pair : ∀ i j, i ≠ j → PairData col deps flags (pures i) (pures j) (m.F i j) (m.func i j)
    ⟨r.betaT i j, r.gammaT i j, r.betaV i j, r.gammaV i j⟩

/-- Fluids with different names. -/
def Distinct {n : ℕ} (pures : Fin n → PureData) : Prop :=
  ∀ i j, i ≠ j → (pures i).id.toUpper ≠ (pures j).id.toUpper

theorem getPure_fin {n : ℕ} (pures : Fin n → PureData) (i : Fin n) : getPure pures i = pures i := by
  simp [getPure]

theorem pairF_dep (deps : List DepEntry) (col : List BIPEntry) (ids : ℕ → String) (flags : BIPFlags) (i j : ℕ)
    (F : ℝ) (D : List ResTerm) (h1 : pairF col ids flags i j = .ok F) (h2 : pairDep deps col ids flags i j = .ok D) :
    ∃ el s, getBIPdep col (ids i) (ids j) flags = .ok (el, s) ∧ el.F = some F ∧ depOf deps el = .ok D := by
  unfold pairF at h1
  unfold pairDep at h2
  cases hg : getBIPdep col (ids i) (ids j) flags with
  | ok r =>
    rw [hg] at h1 h2
    simp only [Outcome.bind_ok] at h1 h2
    refine ⟨r.1, r.2, rfl, ?_, h2⟩
    unfold optAt at h1
    cases hF : r.1.F with
    | none => rw [hF] at h1; cases h1
    | some x => rw [hF] at h1; simp only [Outcome.ok.injEq] at h1; rw [h1]
  | throws e => rw [hg] at h1; cases h1
  | ub => rw [hg] at h1; cases h1
  | nonFinite => rw [hg] at h1; cases h1

/-- A built mixture holds the data of its pairs. -/
theorem built_describes {n : ℕ} (pures : Fin n → PureData) (col : List BIPEntry) (deps : List DepEntry)
    (flags : BIPFlags) (codata : Bool) (m : MultiFluid n) (hd : Distinct pures)
    (h : buildMixture pures col deps flags codata = .ok m) :
    ∃ r, Describes pures col deps flags m r := by
  unfold buildMixture at h
  cases hF : getFMatrix col n (fun i => (getPure pures i).id) flags with
  | throws e => rw [hF] at h; cases h
  | ub => rw [hF] at h; cases h
  | nonFinite => rw [hF] at h; cases h
  | ok F =>
  cases hD : getDepMatrix deps col n (fun i => (getPure pures i).id) flags with
  | throws e => rw [hF, Outcome.bind_ok, hD] at h; cases h
  | ub => rw [hF, Outcome.bind_ok, hD] at h; cases h
  | nonFinite => rw [hF, Outcome.bind_ok, hD] at h; cases h
  | ok D =>
  cases hM : getBIPMatrices col n (fun i => (getPure pures i).id) flags (fun i => (getPure pures i).Tc)
      (fun i => (getPure pures i).vc) with
  | throws e => rw [hF, Outcome.bind_ok, hD, Outcome.bind_ok, hM] at h; cases h
  | ub => rw [hF, Outcome.bind_ok, hD, Outcome.bind_ok, hM] at h; cases h
  | nonFinite => rw [hF, Outcome.bind_ok, hD, Outcome.bind_ok, hM] at h; cases h
  | ok M =>
  have hm : m = assemble pures F D
      (RedFn.ofBIP n M (fun i => (getPure pures i).Tc) fun i => (getPure pures i).vc) codata := by
    rw [hF, Outcome.bind_ok, hD, Outcome.bind_ok, hM, Outcome.bind_ok] at h
    simp only [Outcome.ok.injEq] at h
    exact h.symm
  have hlt : ∀ p ∈ upperPairs n, p.1 < p.2 := fun p hp => ((upperPairs_mem n p.1 p.2).mp hp).1
  obtain ⟨hF1, _⟩ := symLoop_spec _ _ (upperPairs_nodup n) hlt _ _ hF
  obtain ⟨hD1, _⟩ := symLoop_spec _ _ (upperPairs_nodup n) hlt _ _ hD
  obtain ⟨hM1, _⟩ := bipLoop_spec col _ flags _ _ (upperPairs n) (upperPairs_nodup n) hlt _ M hM
  have hup : ∀ i j : Fin n, i < j → PairData col deps flags (pures i) (pures j) (F i j) (D i j) (M i j) ∧
      F j i = F i j ∧ D j i = D i j ∧ M j i = (M i j).flip := by
    intro i j hij
    have hmem : ((i : ℕ), (j : ℕ)) ∈ upperPairs n := (upperPairs_mem n i j).mpr ⟨hij, j.2⟩
    obtain ⟨p, a, b, c, d, e⟩ := hM1 i j hmem
    have hpf := pairF_dep deps col _ flags i j _ _ (hF1 i j hmem).1 (hD1 i j hmem).1
    simp only [getPure_fin] at a hpf
    rw [d, e]
    exact ⟨⟨hpf, a, b, c⟩, (hF1 i j hmem).2, (hD1 i j hmem).2, rfl⟩
  refine ⟨RedFn.ofBIP n M (fun i => (getPure pures i).Tc) fun i => (getPure pures i).vc, ?_⟩
  subst hm
  refine ⟨rfl, rfl, fun i => by simp [RedFn.ofBIP, getPure], fun i => by simp [RedFn.ofBIP, getPure], fun _ => rfl, ?_⟩
  intro i j hij
  change PairData col deps flags (pures i) (pures j) (F i j) (D i j) (M i j)
  rcases lt_or_gt_of_ne hij with h1 | h1
  · exact (hup i j h1).1
  · obtain ⟨hp, e1, e2, e3⟩ := hup j i h1
    rw [e1, e2, e3]
    exact pairData_symm col deps flags _ _ _ _ _ (hd j i (Ne.symm hij)) hp

/-- If every pair has its data, the mixture is built. -/
theorem build_ok {n : ℕ} (pures : Fin n → PureData) (col : List BIPEntry) (deps : List DepEntry)
    (flags : BIPFlags) (codata : Bool)
    (h : ∀ i j : Fin n, i < j → ∃ F D p, PairData col deps flags (pures i) (pures j) F D p) :
    ∃ m, buildMixture pures col deps flags codata = .ok m := by
  have hF : ∃ F, getFMatrix col n (fun i => (getPure pures i).id) flags = .ok F := by
    refine symLoop_ok _ _ _ fun p hp => ?_
    obtain ⟨hlt, hn⟩ := (upperPairs_mem n p.1 p.2).mp hp
    obtain ⟨F, D, b, ⟨el, s, h1, h2, h3⟩, _⟩ := h ⟨p.1, by omega⟩ ⟨p.2, hn⟩ hlt
    refine ⟨F, ?_⟩
    unfold pairF
    simp only [getPure, dif_pos hn, dif_pos (lt_trans hlt hn), h1, Outcome.bind_ok, h2, optAt]
  have hD : ∃ D, getDepMatrix deps col n (fun i => (getPure pures i).id) flags = .ok D := by
    refine symLoop_ok _ _ _ fun p hp => ?_
    obtain ⟨hlt, hn⟩ := (upperPairs_mem n p.1 p.2).mp hp
    obtain ⟨F, D, b, ⟨el, s, h1, h2, h3⟩, _⟩ := h ⟨p.1, by omega⟩ ⟨p.2, hn⟩ hlt
    refine ⟨D, ?_⟩
    unfold pairDep
    simp only [getPure, dif_pos hn, dif_pos (lt_trans hlt hn), h1, Outcome.bind_ok]
    exact h3
  have hM : ∃ M, getBIPMatrices col n (fun i => (getPure pures i).id) flags (fun i => (getPure pures i).Tc)
      (fun i => (getPure pures i).vc) = .ok M := by
    refine bipLoop_ok _ _ _ _ _ _ _ fun p hp => ?_
    obtain ⟨hlt, hn⟩ := (upperPairs_mem n p.1 p.2).mp hp
    obtain ⟨F, D, b, _, h2⟩ := h ⟨p.1, by omega⟩ ⟨p.2, hn⟩ hlt
    refine ⟨b, ?_⟩
    simpa only [getPure, dif_pos hn, dif_pos (lt_trans hlt hn)] using h2
  obtain ⟨F, hF⟩ := hF
  obtain ⟨D, hD⟩ := hD
  obtain ⟨M, hM⟩ := hM
  unfold buildMixture
  rw [hF, Outcome.bind_ok, hD, Outcome.bind_ok, hM]
  exact ⟨_, rfl⟩

/-! ## Pure limits -/

theorem dep_single {n : ℕ} (m : MultiFluid n) (tau delta : ℝ) (k : Fin n) : m.dep tau delta (Pi.single k 1) = 0 := by
  unfold MultiFluid.dep
  refine sum_eq_zero fun i _ => sum_eq_zero fun j hj => ?_
  have hij : i < j := (mem_filter.mp hj).2
  by_cases hi : i = k
  · have hj' : j ≠ k := fun h => by rw [h, hi] at hij; exact lt_irrefl _ hij
    rw [Pi.single_eq_of_ne hj']; ring
  · rw [Pi.single_eq_of_ne hi]; ring

theorem corr_single {n : ℕ} (m : MultiFluid n) (tau delta : ℝ) (k : Fin n) :
    m.corr tau delta (Pi.single k 1) = containerAlphar (m.eos k) tau delta := by
  unfold MultiFluid.corr
  rw [sum_eq_single k (fun i _ hi => by rw [Pi.single_eq_of_ne hi]; ring) (fun h => absurd (mem_univ k) h),
    Pi.single_eq_same, one_mul]

theorem taudelta_single {n : ℕ} (m : MultiFluid n) (tau delta : ℝ) (k : Fin n) :
    m.alphar_taudelta tau delta (Pi.single k 1) = containerAlphar (m.eos k) tau delta := by
  unfold MultiFluid.alphar_taudelta
  by_cases h : n = 1
  · subst h
    rw [dif_pos rfl, Subsingleton.elim k 0]
    rfl
  · rw [dif_neg h, corr_single, dep_single, add_zero]

/-- C29. The pure limit of a mixture is the pure fluid, with its own reducing state, whatever the binary
parameters and departure functions are. -/
theorem mixture_pure {n : ℕ} (pures : Fin n → PureData) (col : List BIPEntry) (deps : List DepEntry)
    (flags : BIPFlags) (codata : Bool) (m : MultiFluid n) (hd : Distinct pures)
    (h : buildMixture pures col deps flags codata = .ok m) (k : Fin n) (T rho Rco : ℝ) :
    m.alphar T rho (Pi.single k 1) =
      containerAlphar (pures k).terms ((pures k).Tc / T) (rho * (pures k).vc) ∧
    m.R Rco (Pi.single k 1) = if codata then Rco else (pures k).R := by
  obtain ⟨r, hr⟩ := built_describes pures col deps flags codata m hd h
  constructor
  · unfold MultiFluid.alphar
    rw [taudelta_single, hr.Tr, hr.rhor, (reducing_pure r k).1, (reducing_pure r k).2, hr.eos, hr.Tc, hr.vc]
    rw [div_div_eq_mul_div, div_one]
  · have hR : m.Rvals = if codata then none else some fun i => (pures i).R := by
      unfold buildMixture at h
      cases hF : getFMatrix col n (fun i => (getPure pures i).id) flags with
      | throws e => rw [hF] at h; cases h
      | ub => rw [hF] at h; cases h
      | nonFinite => rw [hF] at h; cases h
      | ok F =>
      cases hD : getDepMatrix deps col n (fun i => (getPure pures i).id) flags with
      | throws e => rw [hF, Outcome.bind_ok, hD] at h; cases h
      | ub => rw [hF, Outcome.bind_ok, hD] at h; cases h
      | nonFinite => rw [hF, Outcome.bind_ok, hD] at h; cases h
      | ok D =>
      cases hM : getBIPMatrices col n (fun i => (getPure pures i).id) flags (fun i => (getPure pures i).Tc)
          (fun i => (getPure pures i).vc) with
      | throws e => rw [hF, Outcome.bind_ok, hD, Outcome.bind_ok, hM] at h; cases h
      | ub => rw [hF, Outcome.bind_ok, hD, Outcome.bind_ok, hM] at h; cases h
      | nonFinite => rw [hF, Outcome.bind_ok, hD, Outcome.bind_ok, hM] at h; cases h
      | ok M =>
        rw [hF, Outcome.bind_ok, hD, Outcome.bind_ok, hM, Outcome.bind_ok] at h
        simp only [Outcome.ok.injEq] at h
        rw [← h]
        rfl
    unfold MultiFluid.R
    rw [hR]
    cases codata
    · simp only [Bool.false_eq_true, if_false]
      rw [sum_eq_single k (fun i _ hi => by rw [Pi.single_eq_of_ne hi]; ring) (fun h => absurd (mem_univ k) h),
        Pi.single_eq_same, one_mul]
    · simp

/-- Two fluids of the example collection. -/
noncomputable def samplePures : Fin 2 → PureData
  | 0 => ⟨"e", 305, 0.1, 8.3, [.justPower [⟨1, 0, 1⟩]]⟩
  | 1 => ⟨"M", 190, 0.2, 8.4, [.justPower [⟨2, 0, 1⟩]]⟩

theorem samplePures_distinct : Distinct samplePures := by
  intro i j hij
  fin_cases i <;> fin_cases j
  · exact absurd rfl hij
  · change "e".toUpper ≠ "M".toUpper
    rw [up_e, up_M]; decide
  · change "M".toUpper ≠ "e".toUpper
    rw [up_e, up_M]; decide
  · exact absurd rfl hij

theorem sample_pair (Ta Tb va vb : ℝ) (Ra Rb : ℝ) (ta tb : List ResTerm) :
    PairData [sampleBIP] [] {} ⟨"e", Ta, va, Ra, ta⟩ ⟨"M", Tb, vb, Rb, tb⟩ 0 [.null] ⟨2, 3, 4, 5⟩ := by
  refine ⟨⟨sampleBIP, false, sample_lookup, rfl, rfl⟩, ?_, by norm_num, by norm_num⟩
  unfold getBinaryInteraction
  change (getBIPdep [sampleBIP] "e" "M" {}).bind _ = _
  rw [sample_lookup]
  rfl

theorem sample_built : ∃ m, buildMixture samplePures [sampleBIP] [] {} false = .ok m := by
  refine build_ok _ _ _ _ _ fun i j hij => ?_
  have hi : i = 0 := by omega
  have hj : j = 1 := by omega
  subst hi hj
  exact ⟨_, _, _, sample_pair 305 190 0.1 0.2 8.3 8.4 _ _⟩

example : ∃ m, buildMixture samplePures [sampleBIP] [] {} false = .ok m ∧
    m.alphar 95 7 (Pi.single 1 1) = containerAlphar [.justPower [⟨2, 0, 1⟩]] (190 / 95) (7 * 0.2) := by
  obtain ⟨m, hm⟩ := sample_built
  exact ⟨m, hm, (mixture_pure _ _ _ _ _ m samplePures_distinct hm 1 95 7 8).1⟩

/-- C32. A mutant with GERG-type reducing functions keeps the pure limits of its base model. -/
theorem mutant_pure {n : ℕ} (m : MultiFluid n) (Tc vc : Fin n → ℝ) (p : Fin n → Fin n → MutBIP)
    (hT : m.Tr = (mutantGERG Tc vc p).Tr) (hr : m.rhor = (mutantGERG Tc vc p).rhor) (k : Fin n) (T rho : ℝ) :
    m.mutantAlphar T rho (Pi.single k 1) = containerAlphar (m.eos k) (Tc k / T) (rho * vc k) := by
  unfold MultiFluid.mutantAlphar
  rw [corr_single, dep_single, add_zero, hT, hr, (mutantGERG_pure Tc vc p k).1, (mutantGERG_pure Tc vc p k).2,
    div_div_eq_mul_div, div_one]

/-- A mutant of two fluids. -/
noncomputable def sampleMutant : MultiFluid 2 where
  Tr := (mutantGERG ![100, 200] ![1, 2] fun _ _ => { betaT := 1.1 }).Tr
  rhor := (mutantGERG ![100, 200] ![1, 2] fun _ _ => { betaT := 1.1 }).rhor
  eos _ := [.justPower [⟨1, 0, 1⟩]]
  F _ _ := 1
  func _ _ := [.justPower [⟨5, 0, 1⟩]]
  Rvals := none

example : sampleMutant.mutantAlphar 100 3 (Pi.single 1 1) = containerAlphar [.justPower [⟨1, 0, 1⟩]] (200 / 100) (3 * 2) :=
  mutant_pure sampleMutant ![100, 200] ![1, 2] _ rfl rfl 1 100 3

/-! ## Relabelling -/

theorem redFn_congr {n : ℕ} (r r' : RedFn n) (hT : r.Tc = r'.Tc) (hv : r.vc = r'.vc)
    (h : ∀ i j, i ≠ j → r.betaT i j = r'.betaT i j ∧ r.gammaT i j = r'.gammaT i j ∧ r.betaV i j = r'.betaV i j ∧
      r.gammaV i j = r'.gammaV i j) (z : Fin n → ℝ) : r.Tr z = r'.Tr z ∧ r.rhor z = r'.rhor z := by
  unfold RedFn.Tr RedFn.rhor redY
  constructor
  · rw [hT]
    congr 1
    refine sum_congr rfl fun i _ => sum_congr rfl fun j hj => ?_
    have hij : i ≠ j := ne_of_lt (mem_filter.mp hj).2
    unfold RedFn.YT
    rw [(h i j hij).1, (h i j hij).2.1, hT]
  · rw [hv]
    congr 2
    refine sum_congr rfl fun i _ => sum_congr rfl fun j hj => ?_
    have hij : i ≠ j := ne_of_lt (mem_filter.mp hj).2
    unfold RedFn.Yv
    rw [(h i j hij).2.2.1, (h i j hij).2.2.2, hv]

theorem describes_symm {n : ℕ} (pures : Fin n → PureData) (col : List BIPEntry) (deps : List DepEntry)
    (flags : BIPFlags) (m : MultiFluid n) (r : RedFn n) (hd : Distinct pures)
    (hr : Describes pures col deps flags m r) (i j : Fin n) (hij : i ≠ j) :
    m.F j i = m.F i j ∧ m.func j i = m.func i j ∧ r.betaT j i = 1 / r.betaT i j ∧ r.gammaT j i = r.gammaT i j ∧
    r.betaV j i = 1 / r.betaV i j ∧ r.gammaV j i = r.gammaV i j := by
  have h1 := pairData_symm col deps flags _ _ _ _ _ (hd i j hij) (hr.pair i j hij)
  have h2 := pairData_unique col deps flags _ _ _ _ _ _ _ _ (hr.pair j i hij.symm) h1
  obtain ⟨a, b, c⟩ := h2
  simp only [BIP.flip, BIP.mk.injEq] at c
  exact ⟨a, b, c.1, c.2.1, c.2.2.1, c.2.2.2⟩

/-- C29. Listing the components in another order gives the same mixture: it is built whenever the original
one is, and has the same residual Helmholtz energy. -/
theorem mixture_relabel {n : ℕ} (pures : Fin n → PureData) (col : List BIPEntry) (deps : List DepEntry)
    (flags : BIPFlags) (codata : Bool) (m : MultiFluid n) (hd : Distinct pures)
    (hb : ∀ i j p, i ≠ j → getBinaryInteraction col (pures i).id (pures j).id flags (pures i).Tc (pures j).Tc
      (pures i).vc (pures j).vc = .ok p → 0 < p.betaT ∧ 0 < p.betaV)
    (h : buildMixture pures col deps flags codata = .ok m) (σ : Equiv.Perm (Fin n)) :
    ∃ m', buildMixture (fun i => pures (σ i)) col deps flags codata = .ok m' ∧
      ∀ (T rho : ℝ) (z : Fin n → ℝ), (∀ i, 0 ≤ z i) → m'.alphar T rho (fun i => z (σ i)) = m.alphar T rho z := by
  obtain ⟨r, hr⟩ := built_describes pures col deps flags codata m hd h
  have hd' : Distinct fun i => pures (σ i) := fun i j hij => hd _ _ fun e => hij (σ.injective e)
  obtain ⟨m', hm'⟩ := build_ok (fun i => pures (σ i)) col deps flags codata fun i j hij =>
    ⟨_, _, _, hr.pair (σ i) (σ j) fun e => (ne_of_lt hij) (σ.injective e)⟩
  obtain ⟨r', hr'⟩ := built_describes _ col deps flags codata m' hd' hm'
  refine ⟨m', hm', fun T rho z hz => ?_⟩
  have hpair : ∀ i j, i ≠ j → m'.F i j = m.F (σ i) (σ j) ∧ m'.func i j = m.func (σ i) (σ j) ∧
      r'.betaT i j = r.betaT (σ i) (σ j) ∧ r'.gammaT i j = r.gammaT (σ i) (σ j) ∧
      r'.betaV i j = r.betaV (σ i) (σ j) ∧ r'.gammaV i j = r.gammaV (σ i) (σ j) := by
    intro i j hij
    obtain ⟨a, b, c⟩ := pairData_unique col deps flags _ _ _ _ _ _ _ _ (hr'.pair i j hij)
      (hr.pair (σ i) (σ j) fun e => hij (σ.injective e))
    simp only [BIP.mk.injEq] at c
    exact ⟨a, b, c⟩
  have hreg : Regular r := by
    have hpos := fun i j (hij : i ≠ j) => hb i j _ hij (hr.pair i j hij).2.1
    have hs := describes_symm pures col deps flags m r hd hr
    refine ⟨fun i j hij => (hpos i j hij).1, fun i j hij => (hpos i j hij).2, fun i j hij => (hs i j hij).2.2.1,
      fun i j hij => (hs i j hij).2.2.2.2.1, fun i j => ?_, fun i j => ?_⟩
    · by_cases hij : i = j
      · rw [hij]
      · exact (hs i j hij).2.2.2.1
    · by_cases hij : i = j
      · rw [hij]
      · exact (hs i j hij).2.2.2.2.2
  obtain ⟨hT, hrho⟩ := redFn_congr r' (RedFn.relabel r σ)
    (by funext i; rw [hr'.Tc]; exact (hr.Tc (σ i)).symm) (by funext i; rw [hr'.vc]; exact (hr.vc (σ i)).symm)
    (fun i j hij => (hpair i j hij).2.2) fun i => z (σ i)
  obtain ⟨hT2, hrho2⟩ := reducing_relabel r hreg z hz σ
  unfold MultiFluid.alphar
  rw [hr'.Tr, hr'.rhor, hT, hrho, hT2, hrho2, hr.Tr, hr.rhor]
  unfold MultiFluid.alphar_taudelta
  by_cases hn : n = 1
  · subst hn
    rw [dif_pos rfl, dif_pos rfl, hr'.eos, hr.eos]
    congr 3
    exact Subsingleton.elim _ _
  · rw [dif_neg hn, dif_neg hn]
    congr 1
    · unfold MultiFluid.corr
      rw [← Equiv.sum_comp σ (fun i => z i * containerAlphar (m.eos i) (r.Tr z / T) (rho / r.rhor z))]
      refine sum_congr rfl fun i _ => ?_
      rw [hr'.eos, hr.eos]
    · unfold MultiFluid.dep
      rw [← upper_sum_perm (fun i j => z i * z j * m.F i j * containerAlphar (m.func i j) (r.Tr z / T)
        (rho / r.rhor z)) (fun i j hij => by
          have hs := describes_symm pures col deps flags m r hd hr i j hij
          rw [hs.1, hs.2.1]; ring) σ]
      refine sum_congr rfl fun i _ => sum_congr rfl fun j hj => ?_
      have hij : i ≠ j := ne_of_lt (mem_filter.mp hj).2
      rw [(hpair i j hij).1, (hpair i j hij).2.1]

example : ∃ m m', buildMixture samplePures [sampleBIP] [] {} false = .ok m ∧
    buildMixture (fun i => samplePures (Equiv.swap 0 1 i)) [sampleBIP] [] {} false = .ok m' ∧
    m'.alphar 300 4 (fun i => (![0.25, 0.75] : Fin 2 → ℝ) (Equiv.swap 0 1 i)) = m.alphar 300 4 ![0.25, 0.75] := by
  obtain ⟨m, hm⟩ := sample_built
  obtain ⟨m', hm', hv⟩ := mixture_relabel samplePures _ _ _ _ m samplePures_distinct (by
    intro i j p hij hp
    obtain ⟨r, hr⟩ := built_describes _ _ _ _ _ m samplePures_distinct hm
    have key : ∀ q, PairData [sampleBIP] [] {} (samplePures 0) (samplePures 1) (m.F 0 1) (m.func 0 1) q →
        q = ⟨2, 3, 4, 5⟩ := fun q hq =>
      (pairData_unique _ _ _ _ _ _ _ _ _ _ _ hq (sample_pair 305 190 0.1 0.2 8.3 8.4 _ _)).2.2
    fin_cases i <;> fin_cases j
    · exact absurd rfl hij
    · have h1 := (hr.pair 0 1 (by decide))
      have h2 := key _ h1
      have h3 := h1.2.1
      rw [h2] at h3
      have h4 : Outcome.ok p = Outcome.ok ⟨2, 3, 4, 5⟩ := hp.symm.trans h3
      simp only [Outcome.ok.injEq] at h4
      rw [h4]; norm_num
    · have h1 := hr.pair 0 1 (by decide)
      have h2 := key _ h1
      have h3 := pairData_symm _ _ _ _ _ _ _ _ (samplePures_distinct 0 1 (by decide)) h1
      rw [h2] at h3
      have h4 : Outcome.ok p = Outcome.ok (BIP.flip ⟨2, 3, 4, 5⟩) := hp.symm.trans h3.2.1
      simp only [Outcome.ok.injEq] at h4
      rw [h4]; norm_num [BIP.flip]
    · exact absurd rfl hij) hm (Equiv.swap 0 1)
  exact ⟨m, m', hm, hm', hv 300 4 _ fun i => by fin_cases i <;> norm_num⟩

/-! ## Absent components -/

theorem upper_sum_remove {n : ℕ} (t : Fin (n + 1) → Fin (n + 1) → ℝ) (k : Fin (n + 1))
    (h1 : ∀ j, t k j = 0) (h2 : ∀ i, t i k = 0) :
    ∑ i, ∑ j ∈ univ.filter (i < ·), t i j =
      ∑ i, ∑ j ∈ univ.filter (i < ·), t (k.succAbove i) (k.succAbove j) := by
  simp only [sum_filter]
  rw [Fin.sum_univ_succAbove _ k]
  have hz : (∑ j, if k < j then t k j else 0) = 0 := sum_eq_zero fun j _ => by rw [h1]; simp
  rw [hz, zero_add]
  refine sum_congr rfl fun i _ => ?_
  rw [Fin.sum_univ_succAbove _ k, h2]
  simp only [ite_self, zero_add]
  refine sum_congr rfl fun j _ => ?_
  simp only [Fin.succAbove_lt_succAbove_iff]

theorem redFn_remove {n : ℕ} (r : RedFn (n + 1)) (r' : RedFn n) (k : Fin (n + 1)) (z : Fin (n + 1) → ℝ)
    (hz : z k = 0) (hT : ∀ i, r'.Tc i = r.Tc (k.succAbove i)) (hv : ∀ i, r'.vc i = r.vc (k.succAbove i))
    (h : ∀ i j, i ≠ j → r'.betaT i j = r.betaT (k.succAbove i) (k.succAbove j) ∧
      r'.gammaT i j = r.gammaT (k.succAbove i) (k.succAbove j) ∧
      r'.betaV i j = r.betaV (k.succAbove i) (k.succAbove j) ∧
      r'.gammaV i j = r.gammaV (k.succAbove i) (k.succAbove j)) :
    r'.Tr (fun i => z (k.succAbove i)) = r.Tr z ∧ r'.rhor (fun i => z (k.succAbove i)) = r.rhor z := by
  have hYT : ∀ i j, ∃ g s, r.YT i j = r.betaT i j * g * s := fun i j => by
    unfold RedFn.YT
    by_cases hij : i = j
    · exact ⟨0, 0, by rw [if_pos hij]; ring⟩
    · exact ⟨2 * r.gammaT i j, Real.sqrt (r.Tc i * r.Tc j), by rw [if_neg hij]; ring⟩
  have hYv : ∀ i j, ∃ g s, r.Yv i j = r.betaV i j * g * s := fun i j => by
    unfold RedFn.Yv
    by_cases hij : i = j
    · exact ⟨0, 0, by rw [if_pos hij]; ring⟩
    · exact ⟨2 * 1 / 8 * r.gammaV i j, (cbrt (r.vc i) + cbrt (r.vc j)) ^ 3, by rw [if_neg hij]; ring⟩
  have hne : ∀ i j, i ≠ j → k.succAbove i ≠ k.succAbove j := fun i j hij e => hij (Fin.succAbove_right_injective e)
  unfold RedFn.Tr RedFn.rhor redY
  constructor
  · rw [Fin.sum_univ_succAbove (fun i => z i ^ 2 * r.Tc i) k, hz,
      upper_sum_remove (fun i j => redTerm (z i) (z j) (r.betaT i j) (r.YT i j)) k
        (fun j => by obtain ⟨g, s, e⟩ := hYT k j; rw [e]; exact redTerm_pure _ _ _ _ _ (by rw [hz]; ring))
        (fun i => by obtain ⟨g, s, e⟩ := hYT i k; rw [e]; exact redTerm_pure _ _ _ _ _ (by rw [hz]; ring))]
    simp only [ne_eq, OfNat.ofNat_ne_zero, not_false_eq_true, zero_pow, zero_mul, zero_add, hT]
    congr 1
    refine sum_congr rfl fun i _ => sum_congr rfl fun j hj => ?_
    have hij : i ≠ j := ne_of_lt (mem_filter.mp hj).2
    unfold RedFn.YT
    rw [if_neg hij, if_neg (hne i j hij), (h i j hij).1, (h i j hij).2.1, hT, hT]
  · rw [Fin.sum_univ_succAbove (fun i => z i ^ 2 * r.vc i) k, hz,
      upper_sum_remove (fun i j => redTerm (z i) (z j) (r.betaV i j) (r.Yv i j)) k
        (fun j => by obtain ⟨g, s, e⟩ := hYv k j; rw [e]; exact redTerm_pure _ _ _ _ _ (by rw [hz]; ring))
        (fun i => by obtain ⟨g, s, e⟩ := hYv i k; rw [e]; exact redTerm_pure _ _ _ _ _ (by rw [hz]; ring))]
    simp only [ne_eq, OfNat.ofNat_ne_zero, not_false_eq_true, zero_pow, zero_mul, zero_add, hv]
    congr 2
    refine sum_congr rfl fun i _ => sum_congr rfl fun j hj => ?_
    have hij : i ≠ j := ne_of_lt (mem_filter.mp hj).2
    unfold RedFn.Yv
    rw [if_neg hij, if_neg (hne i j hij), (h i j hij).2.2.1, (h i j hij).2.2.2, hv, hv]

/-- C29. A component of mole fraction zero contributes nothing: the mixture without it is built whenever the
full one is, and has the same residual Helmholtz energy. -/
theorem mixture_absent {n : ℕ} (pures : Fin (n + 1) → PureData) (col : List BIPEntry) (deps : List DepEntry)
    (flags : BIPFlags) (codata : Bool) (m : MultiFluid (n + 1)) (hd : Distinct pures)
    (h : buildMixture pures col deps flags codata = .ok m) (k : Fin (n + 1)) :
    ∃ m', buildMixture (fun i => pures (k.succAbove i)) col deps flags codata = .ok m' ∧
      ∀ (T rho : ℝ) (z : Fin (n + 1) → ℝ), z k = 0 → ∑ i, z i = 1 →
        m'.alphar T rho (fun i => z (k.succAbove i)) = m.alphar T rho z := by
  obtain ⟨r, hr⟩ := built_describes pures col deps flags codata m hd h
  have hne : ∀ i j, i ≠ j → k.succAbove i ≠ k.succAbove j := fun i j hij e => hij (Fin.succAbove_right_injective e)
  have hd' : Distinct fun i => pures (k.succAbove i) := fun i j hij => hd _ _ (hne i j hij)
  obtain ⟨m', hm'⟩ := build_ok (fun i => pures (k.succAbove i)) col deps flags codata fun i j hij =>
    ⟨_, _, _, hr.pair _ _ (hne i j (ne_of_lt hij))⟩
  obtain ⟨r', hr'⟩ := built_describes _ col deps flags codata m' hd' hm'
  refine ⟨m', hm', fun T rho z hz hsum => ?_⟩
  have hpair : ∀ i j, i ≠ j → m'.F i j = m.F (k.succAbove i) (k.succAbove j) ∧
      m'.func i j = m.func (k.succAbove i) (k.succAbove j) ∧
      r'.betaT i j = r.betaT (k.succAbove i) (k.succAbove j) ∧
      r'.gammaT i j = r.gammaT (k.succAbove i) (k.succAbove j) ∧
      r'.betaV i j = r.betaV (k.succAbove i) (k.succAbove j) ∧
      r'.gammaV i j = r.gammaV (k.succAbove i) (k.succAbove j) := by
    intro i j hij
    obtain ⟨a, b, c⟩ := pairData_unique col deps flags _ _ _ _ _ _ _ _ (hr'.pair i j hij) (hr.pair _ _ (hne i j hij))
    simp only [BIP.mk.injEq] at c
    exact ⟨a, b, c⟩
  obtain ⟨hT, hrho⟩ := redFn_remove r r' k z hz (fun i => by rw [hr'.Tc, hr.Tc]) (fun i => by rw [hr'.vc, hr.vc])
    fun i j hij => (hpair i j hij).2.2
  rw [Fin.sum_univ_succAbove _ k, hz, zero_add] at hsum
  unfold MultiFluid.alphar
  rw [hr'.Tr, hr'.rhor, hT, hrho, hr.Tr, hr.rhor]
  generalize r.Tr z / T = tau
  generalize rho / r.rhor z = delta
  have hfull : m.corr tau delta z + m.dep tau delta z =
      m'.corr tau delta (fun i => z (k.succAbove i)) + m'.dep tau delta (fun i => z (k.succAbove i)) := by
    congr 1
    · unfold MultiFluid.corr
      rw [Fin.sum_univ_succAbove _ k, hz, zero_mul, zero_add]
      exact sum_congr rfl fun i _ => by rw [hr'.eos, hr.eos]
    · unfold MultiFluid.dep
      rw [upper_sum_remove _ k (fun j => by rw [hz]; ring) (fun i => by rw [hz]; ring)]
      refine sum_congr rfl fun i _ => sum_congr rfl fun j hj => ?_
      have hij : i ≠ j := ne_of_lt (mem_filter.mp hj).2
      rw [(hpair i j hij).1, (hpair i j hij).2.1]
  unfold MultiFluid.alphar_taudelta
  by_cases hn : n = 1
  · subst hn
    rw [dif_pos rfl, dif_neg (by decide), hfull]
    rw [Fin.sum_univ_one] at hsum
    have hs : (fun i => z (k.succAbove i)) = Pi.single (0 : Fin 1) 1 := by
      funext i
      rw [Subsingleton.elim i 0, hsum, Pi.single_eq_same]
    rw [hs, corr_single, dep_single, add_zero]
    rfl
  · have hn0 : n + 1 ≠ 1 := by
      intro e
      have : n = 0 := by omega
      subst this
      simp at hsum
    rw [dif_neg hn, dif_neg hn0, hfull]

example : ∃ m m', buildMixture samplePures [sampleBIP] [] {} false = .ok m ∧
    buildMixture (fun i => samplePures ((0 : Fin 2).succAbove i)) [sampleBIP] [] {} false = .ok m' ∧
    m'.alphar 300 4 (fun i => (![0, 1] : Fin 2 → ℝ) ((0 : Fin 2).succAbove i)) = m.alphar 300 4 ![0, 1] := by
  obtain ⟨m, hm⟩ := sample_built
  obtain ⟨m', hm', hv⟩ := mixture_absent samplePures _ _ _ _ m samplePures_distinct hm 0
  exact ⟨m, m', hm, hm', hv 300 4 _ rfl (by simp)⟩

/-! ## Wrong numbers of mole fractions -/

/-- C15. A multi-fluid model refuses a wrong number of mole fractions. -/
theorem multifluid_wrong_size {n : ℕ} (m : MultiFluid n) (T rho : ℝ) (z : List ℝ) :
    (z.length ≠ n → m.alpharV T rho z = .throws .invalidArgument) ∧
    (∀ h : z.length = n, m.alpharV T rho z = .ok (m.alphar T rho fun i => z[i])) := by
  constructor
  · intro h; unfold MultiFluid.alpharV; rw [dif_neg h]
  · intro h; unfold MultiFluid.alpharV; rw [dif_pos h]

example : sampleMutant.alpharV 300 1 [0.5, 0.25, 0.25] = .throws .invalidArgument :=
  (multifluid_wrong_size sampleMutant 300 1 _).1 (by simp)

/-- C15 fails for mutants and for the gas constant: too many mole fractions are read out of bounds, and too few
are silently accepted. -/
theorem mutant_wrong_size {n : ℕ} (m : MultiFluid n) (T rho Rco : ℝ) (z : List ℝ) :
    (n < z.length → m.mutantAlpharV T rho z = .ub) ∧
    (z.length < n → ∃ v, m.mutantAlpharV T rho z = .ok v) ∧
    (n < z.length → m.Rvals ≠ none → m.RV Rco z = .ub) := by
  refine ⟨fun h => ?_, fun h => ?_, fun h hR => ?_⟩
  · unfold MultiFluid.mutantAlpharV; rw [if_pos h]
  · unfold MultiFluid.mutantAlpharV; rw [if_neg (by omega)]; exact ⟨_, rfl⟩
  · unfold MultiFluid.RV
    cases hv : m.Rvals with
    | none => exact absurd hv hR
    | some R => simp only; rw [if_pos h]

example : sampleMutant.mutantAlpharV 300 1 [0.5, 0.25, 0.25] = .ub :=
  (mutant_wrong_size sampleMutant 300 1 8 _).1 (by simp)

/-! ## When a mixture is built -/

/-- C29. A mixture is built exactly when every pair has an entry with a weight, a departure function that is
in the collection (or none), and non-zero reducing parameters. -/
theorem mixture_built_iff {n : ℕ} (pures : Fin n → PureData) (col : List BIPEntry) (deps : List DepEntry)
    (flags : BIPFlags) (codata : Bool) (hd : Distinct pures) :
    (∃ m, buildMixture pures col deps flags codata = .ok m) ↔
      ∀ i j : Fin n, i < j → ∃ F D p, PairData col deps flags (pures i) (pures j) F D p := by
  constructor
  · rintro ⟨m, hm⟩ i j hij
    obtain ⟨r, hr⟩ := built_describes pures col deps flags codata m hd hm
    exact ⟨_, _, _, hr.pair i j (ne_of_lt hij)⟩
  · exact build_ok pures col deps flags codata

/-- With no collection and no flags, only single fluids are built. -/
example : ¬ ∃ m, buildMixture samplePures [] [] {} false = .ok m := by
  rw [mixture_built_iff _ _ _ _ _ samplePures_distinct]
  intro h
  obtain ⟨F, D, p, ⟨el, s, h1, _⟩, _⟩ := h 0 1 (by decide)
  have : getBIPdep [] (samplePures 0).id (samplePures 1).id {} = .throws .stdInvalidArgument := rfl
  rw [this] at h1
  cases h1

/-- C29. A departure function is looked up by name: the first entry of that name is used, and a name
that no entry has is refused. -/
theorem departure_by_name (deps : List DepEntry) (name : String) :
    (∀ pre e post, deps = pre ++ e :: post → e.name = name → (∀ p ∈ pre, p.name ≠ name) →
      depByName deps name = buildDeparture e.doc e.Npower) ∧
    ((∀ e ∈ deps, e.name ≠ name) → depByName deps name = .throws .stdInvalidArgument) := by
  constructor
  · intro pre e post h he hpre
    unfold depByName
    have : deps.find? (fun e => decide (e.name = name)) = some e := by
      rw [h, List.find?_append, List.find?_eq_none.mpr (by simpa using hpre)]
      simp [he]
    rw [this]
  · intro h
    unfold depByName
    rw [List.find?_eq_none.mpr (by simpa using h)]

/-- C29. A mixture whose collection names a departure function that is not available is refused. -/
theorem unknown_departure_refused {n : ℕ} (pures : Fin n → PureData) (col : List BIPEntry) (deps : List DepEntry)
    (flags : BIPFlags) (codata : Bool) (hd : Distinct pures) (i j : Fin n) (hij : i < j) (el : BIPEntry) (s : Bool)
    (name : String) (hl : getBIPdep col (pures i).id (pures j).id flags = .ok (el, s)) (hf : el.function = some name)
    (hne : name ≠ "") (h : ∀ e ∈ deps, e.name ≠ name) : ¬ ∃ m, buildMixture pures col deps flags codata = .ok m := by
  rw [mixture_built_iff _ _ _ _ _ hd]
  intro hall
  obtain ⟨F, D, p, ⟨el', s', h1, _, h3⟩, _⟩ := hall i j hij
  rw [hl] at h1
  simp only [Outcome.ok.injEq, Prod.mk.injEq] at h1
  obtain ⟨rfl, rfl⟩ := h1
  unfold depOf at h3
  rw [hf] at h3
  simp only [hne, if_false] at h3
  by_cases hdeps : deps = []
  · rw [if_pos hdeps] at h3; cases h3
  · rw [if_neg hdeps, (departure_by_name deps name).2 h] at h3; cases h3

/-- An entry that asks for a departure function. -/
noncomputable def sampleDepBIP : BIPEntry := { sampleBIP with function := some "KW0" }

example : ¬ ∃ m, buildMixture samplePures [sampleDepBIP] [⟨"KW1", [("type", .str "none")], 0⟩] {} false = .ok m := by
  refine unknown_departure_refused _ _ _ _ _ samplePures_distinct 0 1 (by decide) sampleDepBIP false "KW0"
    (lookup_by_name sampleDepBIP "e" "M" "E" "m" false rfl rfl rfl (by rw [up_e, up_M, up_E, up_m]; decide)) rfl
    (by decide) (by simp)

/-- C24. What `get_BIP` of a mixture returns: the weight of the departure function under either of its two names, the parameters of the reducing function under theirs, and nothing for
components outside the mixture or for other names. -/
theorem multifluid_get_BIP {n : ℕ} (m : MultiFluid n) (r : RedFn n) :
    (∀ i j : Fin n, m.getBIP r i j "F" = .ok (m.F i j) ∧ m.getBIP r i j "Fij" = .ok (m.F i j) ∧ m.getBIP r i j "betaT" = .ok (r.betaT i j) ∧
      m.getBIP r i j "gammaT" = .ok (r.gammaT i j) ∧ m.getBIP r i j "betaV" = .ok (r.betaV i j) ∧ m.getBIP r i j "gammaV" = .ok (r.gammaV i j)) ∧
    ∀ (i j : ℕ) (key : String), n ≤ i ∨ n ≤ j ∨ key ∉ ["F", "Fij", "betaT", "gammaT", "betaV", "gammaV"] → m.getBIP r i j key = .throws .stdInvalidArgument := by
  refine ⟨fun i j => by simp [MultiFluid.getBIP, RedFn.getBIP], fun i j key h => ?_⟩
  have hr : n ≤ i ∨ n ≤ j ∨ key ∉ ["betaT", "gammaT", "betaV", "gammaV"] :=
    h.imp_right (Or.imp_right fun hk hc => hk (List.mem_cons_of_mem _ (List.mem_cons_of_mem _ hc)))
  unfold MultiFluid.getBIP
  split_ifs with h1 h2
  · rcases h with h | h | h
    · omega
    · omega
    · rcases h1 with rfl | rfl <;> simp at h
  · exact getBIP_refused r i j key hr
  · exact getBIP_refused r i j key hr

example (m : MultiFluid 2) (hF : m.F 0 1 = 0.9) : m.getBIP (RedFn.ofBIP 2 (fun _ _ => ⟨1, 2, 3, 4⟩) (fun _ => 300) (fun _ => 1)) 0 1 "Fij" = .ok 0.9 ∧
    m.getBIP (RedFn.ofBIP 2 (fun _ _ => ⟨1, 2, 3, 4⟩) (fun _ => 300) (fun _ => 1)) 0 2 "F" = .throws .stdInvalidArgument :=
  ⟨hF ▸ ((multifluid_get_BIP m _).1 0 1).2.1, (multifluid_get_BIP m _).2 0 2 "F" (.inr (.inl le_rfl))⟩

end Teqp.Props
