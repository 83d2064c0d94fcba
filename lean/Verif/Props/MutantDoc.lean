import Verif.Model.MutantDoc
import Verif.Lemmas.Outcome
import Verif.Props.MultiFluid

/-! # C136: mutants are what their documents say -/

set_option autoImplicit false

namespace Teqp.Spec

open Teqp.Model

/-- The document describes the pair `(i, k)` by an object with an entry for the departure function and one for the
interaction parameters. -/
def PairDoc (j : JTree) (i k : ℕ) (departure bip : JTree) : Prop :=
  ∃ row e, j.at (toString i) = .ok row ∧ row.at (toString k) = .ok e ∧ e.at "departure" = .ok departure ∧
    e.at "BIP" = .ok bip

/-- An object that has the four numbers under the four names. -/
def FourNumbers (b : JTree) (k₁ k₂ k₃ k₄ : String) (x₁ x₂ x₃ x₄ : ℝ) : Prop :=
  b.at k₁ = .ok (.num x₁) ∧ b.at k₂ = .ok (.num x₂) ∧ b.at k₃ = .ok (.num x₃) ∧ b.at k₄ = .ok (.num x₄)

/-- The first pair asks for the invariant reducing function. -/
def AsksInvariant (j : JTree) : Prop := ∃ d b, PairDoc j 0 1 d b ∧ b.at "type" = .ok (.str "invariant")

/-- The first pair asks for something else: another type, or none. -/
def AsksOther (j : JTree) : Prop :=
  ∃ d b, PairDoc j 0 1 d b ∧ (b.contains "type" = false ∨ ∃ s, b.at "type" = .ok (.str s) ∧ s ≠ "invariant")

end Teqp.Spec

namespace Teqp.Props

open Teqp.Model Teqp.Spec

theorem atConst_of_at {j v : JTree} {k : String} (h : j.at k = .ok v) : j.atConst k = .ok v := by
  cases j <;> simp only [JTree.at, JTree.atConst] at h ⊢ <;> try cases h
  rename_i fs
  cases hl : fs.lookup k <;> rw [hl] at h <;> simp_all

theorem at_of_atConst {j v : JTree} {k : String} (h : j.atConst k = .ok v) : j.at k = .ok v := by
  cases j <;> simp only [JTree.at, JTree.atConst] at h ⊢ <;> try cases h
  rename_i fs
  cases hl : fs.lookup k <;> rw [hl] at h <;> simp_all

theorem toDouble_num {j : JTree} {x : ℝ} (h : j.toDouble = .ok x) : j = .num x := by
  cases j <;> simp [JTree.toDouble] at h
  rw [h]

theorem toStr_ok' {j : JTree} {s : String} (h : j.toStr = .ok s) : j = .str s := by
  cases j <;> simp [JTree.toStr] at h
  rw [h]

theorem numAt_iff {j : JTree} {k : String} {x : ℝ} : j.numAt k = .ok x ↔ j.at k = .ok (.num x) := by
  unfold JTree.numAt
  rw [Outcome.bind_eq_ok]
  constructor
  · rintro ⟨a, h1, h2⟩
    rw [h1, toDouble_num h2]
  · exact fun h => ⟨_, h, rfl⟩

theorem contains_of_at {j v : JTree} {k : String} (h : j.at k = .ok v) : j.contains k = true := by
  cases j <;> simp only [JTree.at, JTree.contains] at h ⊢ <;> try cases h
  rename_i fs
  cases hl : fs.lookup k <;> rw [hl] at h <;> simp_all

theorem mutDeparture_iff {dep : JTree → Outcome (List ResTerm)} {j : JTree} {i k : ℕ} {F : ℝ} {t : List ResTerm} :
    mutDeparture dep j i k = .ok (F, t) ↔
      ∃ d b, PairDoc j i k d b ∧ b.at "Fij" = .ok (.num F) ∧ dep d = .ok t := by
  unfold mutDeparture mutEntryC PairDoc
  simp only [Outcome.bind_eq_ok, Outcome.ok.injEq, Prod.mk.injEq, numAt_iff]
  constructor
  · rintro ⟨e, ⟨row, h1, h2⟩, d, h3, b, h4, _, h5, _, h6, rfl, rfl⟩
    exact ⟨d, b, ⟨row, e, at_of_atConst h1, at_of_atConst h2, h3, h4⟩, h5, h6⟩
  · rintro ⟨d, b, ⟨row, e, h1, h2, h3, h4⟩, h5, h6⟩
    exact ⟨e, ⟨row, atConst_of_at h1, atConst_of_at h2⟩, d, h3, b, h4, _, h5, _, h6, rfl, rfl⟩

theorem mutPairGERG_iff {j : JTree} {i k : ℕ} {d b : JTree} {p : MutBIP} (h : PairDoc j i k d b)
    (hp : mutPairGERG j i k = .ok p) :
    FourNumbers b "betaT" "gammaT" "betaV" "gammaV" p.betaT p.gammaT p.betaV p.gammaV := by
  obtain ⟨row, e, h1, h2, _, h4⟩ := h
  unfold mutPairGERG mutBIPDoc at hp
  rw [h1, Outcome.bind_ok, h2, Outcome.bind_ok, h4, Outcome.bind_ok] at hp
  simp only [Outcome.bind_eq_ok, Outcome.ok.injEq, numAt_iff] at hp
  obtain ⟨_, a1, _, a2, _, a3, _, a4, rfl⟩ := hp
  exact ⟨a1, a3, a2, a4⟩

theorem mutPairInv_iff {j : JTree} {i k : ℕ} {d b : JTree} {p : MutBIP} (h : PairDoc j i k d b)
    (hp : mutPairInv j i k = .ok p) :
    FourNumbers b "phiT" "lambdaT" "phiV" "lambdaV" p.phiT p.lambdaT p.phiV p.lambdaV := by
  obtain ⟨row, e, h1, h2, _, h4⟩ := h
  unfold mutPairInv mutBIPDoc at hp
  rw [h1, Outcome.bind_ok, h2, Outcome.bind_ok, h4, Outcome.bind_ok] at hp
  simp only [Outcome.bind_eq_ok, Outcome.ok.injEq, numAt_iff] at hp
  obtain ⟨_, a1, _, a2, _, a3, _, a4, rfl⟩ := hp
  exact ⟨a1, a2, a3, a4⟩

theorem mutType_of {j d b : JTree} (h : PairDoc j 0 1 d b) :
    mutType j = if b.contains "type" then (b.at "type").bind JTree.toStr else .ok "" := by
  obtain ⟨row, e, h1, h2, _, h4⟩ := h
  unfold mutType mutBIPDoc
  rw [h1, Outcome.bind_ok, h2, Outcome.bind_ok, h4, Outcome.bind_ok]

theorem mutType_invariant {j : JTree} (h : AsksInvariant j) : mutType j = .ok "invariant" := by
  obtain ⟨d, b, h, ht⟩ := h
  rw [mutType_of h, if_pos (contains_of_at ht), ht]
  rfl

theorem mutType_other {j : JTree} (h : AsksOther j) : ∃ s, mutType j = .ok s ∧ s ≠ "invariant" := by
  obtain ⟨d, b, h, ht | ⟨s, ht, hs⟩⟩ := h
  · exact ⟨"", by rw [mutType_of h, ht]; simp, by decide⟩
  · exact ⟨s, by rw [mutType_of h, if_pos (contains_of_at ht), ht]; rfl, hs⟩

theorem type_cases {j : JTree} {s d b} (h : PairDoc j 0 1 d b) (hs : mutType j = .ok s) :
    (AsksInvariant j ∧ s = "invariant") ∨ (AsksOther j ∧ s ≠ "invariant") := by
  rw [mutType_of h] at hs
  by_cases hc : b.contains "type" = true
  · rw [if_pos hc, Outcome.bind_eq_ok] at hs
    obtain ⟨v, hv, hs⟩ := hs
    rw [toStr_ok' hs] at hv
    by_cases he : s = "invariant"
    · exact Or.inl ⟨⟨d, b, h, by rw [hv, he]⟩, he⟩
    · exact Or.inr ⟨⟨d, b, h, Or.inr ⟨s, hv, he⟩⟩, he⟩
  · rw [if_neg hc] at hs
    cases hs
    exact Or.inr ⟨⟨d, b, h, Or.inl (by simpa using hc)⟩, by decide⟩

/-- C136. **A mutant is what its document says.** A mutant of two or more components keeps the pure fluids and gas
constants of its base; for every pair `i < k` the document has an entry whose number `Fij` is the weight of the pair
and whose departure function, built, is the one of the pair, in both orders; no component departs from itself; and
the reducing functions are those of the parameters in the entries, of the kind that the first pair asks for. -/
theorem mutant_document {n : ℕ} (hn : 2 ≤ n) (dep : JTree → Outcome (List ResTerm)) (m m' : MultiFluid n)
    (Tc vc : Fin n → ℝ) (j : JTree) (h : mutantBuild dep m Tc vc j = .ok m') :
    m'.eos = m.eos ∧ m'.Rvals = m.Rvals ∧ (∀ i, m'.F i i = 0) ∧
    ∃ (d b : Fin n → Fin n → JTree) (p : Fin n → Fin n → MutBIP),
      (∀ i k : Fin n, i < k → PairDoc j i k (d i k) (b i k) ∧ (b i k).at "Fij" = .ok (.num (m'.F i k)) ∧
        dep (d i k) = .ok (m'.func i k) ∧ m'.F k i = m'.F i k ∧ m'.func k i = m'.func i k) ∧
      ((AsksInvariant j ∧ m'.Tr = (mutantInvariant Tc vc p).Tr ∧ m'.rhor = (mutantInvariant Tc vc p).rhor ∧
        ∀ i k, i < k → FourNumbers (b i k) "phiT" "lambdaT" "phiV" "lambdaV" (p i k).phiT (p i k).lambdaT
          (p i k).phiV (p i k).lambdaV) ∨
      (AsksOther j ∧ m'.Tr = (mutantGERG Tc vc p).Tr ∧ m'.rhor = (mutantGERG Tc vc p).rhor ∧
        ∀ i k, i < k → FourNumbers (b i k) "betaT" "gammaT" "betaV" "gammaV" (p i k).betaT (p i k).gammaT
          (p i k).betaV (p i k).gammaV)) := by
  unfold mutantBuild at h
  simp only [Outcome.bind_eq_ok, Outcome.ok.injEq] at h
  obtain ⟨D, hD, ty, hty, r, hr, rfl⟩ := h
  have hlt : ∀ p ∈ upperPairs n, p.1 < p.2 := fun p hp => ((upperPairs_mem n p.1 p.2).mp hp).1
  obtain ⟨h1, h2⟩ := symLoop_spec _ _ (upperPairs_nodup n) hlt _ _ hD
  have hmem : ∀ i k : Fin n, i < k → ((i : ℕ), (k : ℕ)) ∈ upperPairs n :=
    fun i k hik => (upperPairs_mem n i k).mpr ⟨hik, k.2⟩
  have hpair : ∀ i k : Fin n, ∃ d b, i < k → PairDoc j i k d b ∧ b.at "Fij" = .ok (.num (D i k).1) ∧
      dep d = .ok (D i k).2 := by
    intro i k
    by_cases hik : i < k
    · obtain ⟨d, b, hh⟩ := mutDeparture_iff.mp (h1 _ _ (hmem i k hik)).1
      exact ⟨d, b, fun _ => hh⟩
    · exact ⟨.null, .null, fun hc => absurd hc hik⟩
  choose d b hdb using hpair
  have h01 := (hdb ⟨0, by omega⟩ ⟨1, by omega⟩ (by simp [Fin.lt_def])).1
  refine ⟨rfl, rfl, fun i => ?_, d, b, ?_⟩
  · have := h2 i i (by rw [upperPairs_mem]; omega) (by rw [upperPairs_mem]; omega)
    simp only [this]
  unfold mutReducing at hr
  rcases type_cases h01 hty with ⟨ha, hs⟩ | ⟨ha, hs⟩
  · rw [if_pos hs] at hr
    simp only [Outcome.bind_eq_ok, Outcome.ok.injEq] at hr
    obtain ⟨P, hP, rfl⟩ := hr
    obtain ⟨g1, -⟩ := symLoop_spec _ _ (upperPairs_nodup n) hlt _ _ hP
    refine ⟨fun i k => P i k, fun i k hik => ⟨(hdb i k hik).1, (hdb i k hik).2.1, (hdb i k hik).2.2, ?_, ?_⟩,
      Or.inl ⟨ha, rfl, rfl, fun i k hik => ?_⟩⟩
    · simp only [(h1 _ _ (hmem i k hik)).2]
    · simp only [(h1 _ _ (hmem i k hik)).2]
    · exact mutPairInv_iff (hdb i k hik).1 (g1 _ _ (hmem i k hik)).1
  · rw [if_neg hs] at hr
    simp only [Outcome.bind_eq_ok, Outcome.ok.injEq] at hr
    obtain ⟨P, hP, rfl⟩ := hr
    obtain ⟨g1, -⟩ := symLoop_spec _ _ (upperPairs_nodup n) hlt _ _ hP
    refine ⟨fun i k => P i k, fun i k hik => ⟨(hdb i k hik).1, (hdb i k hik).2.1, (hdb i k hik).2.2, ?_, ?_⟩,
      Or.inr ⟨ha, rfl, rfl, fun i k hik => ?_⟩⟩
    · simp only [(h1 _ _ (hmem i k hik)).2]
    · simp only [(h1 _ _ (hmem i k hik)).2]
    · exact mutPairGERG_iff (hdb i k hik).1 (g1 _ _ (hmem i k hik)).1

theorem mutPair_ok {j : JTree} {i k : ℕ} {d b : JTree} (h : PairDoc j i k d b) {x₁ x₂ x₃ x₄ : ℝ} :
    (FourNumbers b "phiT" "lambdaT" "phiV" "lambdaV" x₁ x₂ x₃ x₄ → ∃ p, mutPairInv j i k = .ok p) ∧
    (FourNumbers b "betaT" "gammaT" "betaV" "gammaV" x₁ x₂ x₃ x₄ → ∃ p, mutPairGERG j i k = .ok p) := by
  obtain ⟨row, e, h1, h2, _, h4⟩ := h
  unfold mutPairInv mutPairGERG mutBIPDoc
  rw [h1, Outcome.bind_ok, h2, Outcome.bind_ok, h4, Outcome.bind_ok]
  constructor
  · rintro ⟨a1, a2, a3, a4⟩
    exact ⟨_, by rw [numAt_iff.mpr a1, Outcome.bind_ok, numAt_iff.mpr a2, Outcome.bind_ok, numAt_iff.mpr a3,
      Outcome.bind_ok, numAt_iff.mpr a4, Outcome.bind_ok]⟩
  · rintro ⟨a1, a2, a3, a4⟩
    exact ⟨_, by rw [Outcome.bind_ok, numAt_iff.mpr a1, Outcome.bind_ok, numAt_iff.mpr a3, Outcome.bind_ok, numAt_iff.mpr a2,
      Outcome.bind_ok, numAt_iff.mpr a4, Outcome.bind_ok]⟩

/-- C136. **Complete documents are accepted**: if every pair `i < k` has its entry with a weight, a departure
function that can be built and the four numbers of the kind that the first pair asks for, there is a mutant. -/
theorem mutant_complete {n : ℕ} (dep : JTree → Outcome (List ResTerm)) (m : MultiFluid n) (Tc vc : Fin n → ℝ)
    (j : JTree) (d b : ℕ → ℕ → JTree)
    (h : ∀ i k, i < k → k < n → PairDoc j i k (d i k) (b i k) ∧ (∃ F, (b i k).at "Fij" = .ok (.num F)) ∧
      ∃ t, dep (d i k) = .ok t)
    (ht : (AsksInvariant j ∧ ∀ i k, i < k → k < n → ∃ x₁ x₂ x₃ x₄, FourNumbers (b i k) "phiT" "lambdaT" "phiV" "lambdaV"
        x₁ x₂ x₃ x₄) ∨
      (AsksOther j ∧ ∀ i k, i < k → k < n → ∃ x₁ x₂ x₃ x₄, FourNumbers (b i k) "betaT" "gammaT" "betaV" "gammaV"
        x₁ x₂ x₃ x₄)) :
    ∃ m', mutantBuild dep m Tc vc j = .ok m' := by
  have hD : ∃ D, symLoop (mutDeparture dep j) (upperPairs n) (fun _ _ => (0, [.null])) = .ok D := by
    refine symLoop_ok _ _ _ fun p hp => ?_
    obtain ⟨hlt, hn⟩ := (upperPairs_mem n p.1 p.2).mp hp
    obtain ⟨hp, ⟨F, hF⟩, t, ht⟩ := h _ _ hlt hn
    exact ⟨(F, t), mutDeparture_iff.mpr ⟨_, _, hp, hF, ht⟩⟩
  obtain ⟨D, hD⟩ := hD
  unfold mutantBuild
  rw [hD, Outcome.bind_ok]
  rcases ht with ⟨ha, hb⟩ | ⟨ha, hb⟩
  · rw [mutType_invariant ha, Outcome.bind_ok, mutReducing, if_pos rfl]
    have hP : ∃ P, symLoop (mutPairInv j) (upperPairs n) (fun _ _ => {}) = .ok P := by
      refine symLoop_ok _ _ _ fun p hp => ?_
      obtain ⟨hlt, hn⟩ := (upperPairs_mem n p.1 p.2).mp hp
      obtain ⟨_, _, _, _, hh⟩ := hb _ _ hlt hn
      exact (mutPair_ok (h _ _ hlt hn).1).1 hh
    obtain ⟨P, hP⟩ := hP
    rw [hP, Outcome.bind_ok, Outcome.bind_ok]
    exact ⟨_, rfl⟩
  · obtain ⟨s, hs, hne⟩ := mutType_other ha
    rw [hs, Outcome.bind_ok, mutReducing, if_neg hne]
    have hP : ∃ P, symLoop (mutPairGERG j) (upperPairs n) (fun _ _ => {}) = .ok P := by
      refine symLoop_ok _ _ _ fun p hp => ?_
      obtain ⟨hlt, hn⟩ := (upperPairs_mem n p.1 p.2).mp hp
      obtain ⟨_, _, _, _, hh⟩ := hb _ _ hlt hn
      exact (mutPair_ok (h _ _ hlt hn).1).2 hh
    obtain ⟨P, hP⟩ := hP
    rw [hP, Outcome.bind_ok, Outcome.bind_ok]
    exact ⟨_, rfl⟩

/-- An entry of a document with betas and gammas. -/
noncomputable def pairGERG (F bT gT bV gV : ℝ) : JTree :=
  .obj [("departure", .obj [("type", .str "none")]), ("BIP", .obj [("Fij", .num F), ("betaT", .num bT), ("gammaT", .num gT),
    ("betaV", .num bV), ("gammaV", .num gV)])]

/-- A document for three components. -/
noncomputable def tripleDoc : JTree :=
  .obj [("0", .obj [("1", pairGERG 0.5 1.1 0.9 1 1), ("2", pairGERG 0 1 1 1 1)]), ("1", .obj [("2", pairGERG 2 1 1.2 1 1)])]

/-- A base model of `n` ideal gases. -/
noncomputable def idealBase (n : ℕ) : MultiFluid n where
  Tr _ := 100
  rhor _ := 1
  eos _ := [.null]
  F _ _ := 0
  func _ _ := [.null]
  Rvals := none

/-- The departure function "none". -/
def noDeparture (d : JTree) : Outcome (List ResTerm) :=
  (d.at "type").bind fun t => t.toStr.bind fun s => if s = "none" then .ok [.null] else .throws .stdInvalidArgument

theorem tripleDoc_ok : ∃ m', mutantBuild noDeparture (idealBase 3) ![100, 200, 300] ![1, 2, 3] tripleDoc = .ok m' := by
  refine mutant_complete noDeparture _ _ _ _ (fun _ _ => .obj [("type", .str "none")])
    (fun i k => if i = 0 ∧ k = 1 then
        .obj [("Fij", .num 0.5), ("betaT", .num 1.1), ("gammaT", .num 0.9), ("betaV", .num 1), ("gammaV", .num 1)]
      else if i = 0 then .obj [("Fij", .num 0), ("betaT", .num 1), ("gammaT", .num 1), ("betaV", .num 1), ("gammaV", .num 1)]
      else .obj [("Fij", .num 2), ("betaT", .num 1), ("gammaT", .num 1.2), ("betaV", .num 1), ("gammaV", .num 1)]) ?_
    (Or.inr ⟨⟨_, _, ⟨_, _, rfl, rfl, rfl, rfl⟩, Or.inl rfl⟩, ?_⟩)
  · intro i k hik hk
    have : (i = 0 ∧ k = 1) ∨ (i = 0 ∧ k = 2) ∨ (i = 1 ∧ k = 2) := by omega
    rcases this with ⟨rfl, rfl⟩ | ⟨rfl, rfl⟩ | ⟨rfl, rfl⟩ <;>
      exact ⟨⟨_, _, rfl, rfl, rfl, rfl⟩, ⟨_, rfl⟩, ⟨_, rfl⟩⟩
  · intro i k hik hk
    have : (i = 0 ∧ k = 1) ∨ (i = 0 ∧ k = 2) ∨ (i = 1 ∧ k = 2) := by omega
    rcases this with ⟨rfl, rfl⟩ | ⟨rfl, rfl⟩ | ⟨rfl, rfl⟩ <;>
      exact ⟨_, _, _, _, rfl, rfl, rfl, rfl⟩

example : ∃ m', mutantBuild noDeparture (idealBase 3) ![100, 200, 300] ![1, 2, 3] tripleDoc = .ok m' ∧
    m'.F 0 1 = 0.5 ∧ m'.F 2 1 = 2 := by
  obtain ⟨m', h⟩ := tripleDoc_ok
  obtain ⟨-, -, -, d, b, p, hp, -⟩ := mutant_document (by norm_num) _ _ _ _ _ _ h
  refine ⟨m', h, ?_, ?_⟩
  · obtain ⟨⟨row, e, h1, h2, h3, h4⟩, h5, -⟩ := hp 0 1 (by decide)
    cases h1; cases h2
    have h4' := Outcome.ok.inj h4
    rw [← h4'] at h5
    have : (.ok (.num 0.5) : Outcome JTree) = .ok (.num (m'.F 0 1)) := h5
    simpa using this.symm
  · obtain ⟨⟨row, e, h1, h2, h3, h4⟩, h5, -, h6, -⟩ := hp 1 2 (by decide)
    cases h1; cases h2
    have h4' := Outcome.ok.inj h4
    rw [← h4'] at h5
    have : (.ok (.num 2) : Outcome JTree) = .ok (.num (m'.F 1 2)) := h5
    rw [h6]
    simpa using this.symm

/-- C136. **Missing pairs are not reported**: if the document lacks the entry of the first component, or the entry of
the first pair in it, building a mutant of two or more components is undefined behaviour, whatever else there is.
A document that is no object is refused. -/
theorem mutant_missing_pair {n : ℕ} (hn : 2 ≤ n) (dep : JTree → Outcome (List ResTerm)) (m : MultiFluid n)
    (Tc vc : Fin n → ℝ) :
    (∀ fs row : List (String × JTree), (fs.lookup "0" = none ∨ (fs.lookup "0" = some (.obj row) ∧ row.lookup "1" = none)) →
      mutantBuild dep m Tc vc (.obj fs) = .ub) ∧
    ∀ xs, mutantBuild dep m Tc vc (.arr xs) = .throws .jsonError := by
  obtain ⟨l, hl⟩ : ∃ l, upperPairs n = (0, 1) :: l := by
    obtain ⟨n, rfl⟩ := Nat.exists_eq_add_of_le hn
    unfold upperPairs
    rw [show 2 + n = (n + 1) + 1 by omega]
    simp [List.range_succ_eq_map, List.filter_cons]
  have hdep : ∀ j, mutEntryC j 0 1 = .ub → mutantBuild dep m Tc vc j = .ub := by
    intro j hj
    unfold mutantBuild
    rw [hl, symLoop, mutDeparture, hj]
    rfl
  refine ⟨fun fs row h => hdep _ ?_, fun xs => ?_⟩
  · unfold mutEntryC JTree.atConst
    rw [show toString (0 : ℕ) = "0" by rfl, show toString (1 : ℕ) = "1" by rfl]
    rcases h with h | ⟨h, h'⟩
    · simp only [h]; rfl
    · simp only [h, Outcome.bind_ok, h']
  · unfold mutantBuild
    rw [hl, symLoop, mutDeparture, mutEntryC]
    rfl

example : mutantBuild noDeparture (idealBase 2) ![100, 200] ![1, 2] (.obj [("0", .obj [("2", pairGERG 0 1 1 1 1)])]) = .ub :=
  (mutant_missing_pair (by norm_num) _ _ _ _).1 _ [("2", pairGERG 0 1 1 1 1)] (Or.inr ⟨rfl, rfl⟩)

/-- C136. **Fewer than two components need a pair as well**: there is no pair to read, but the type of the reducing
function is still looked up in the entry of the first pair, so that a document without it is refused. -/
theorem mutant_one_component {n : ℕ} (hn : n < 2) (dep : JTree → Outcome (List ResTerm)) (m : MultiFluid n)
    (Tc vc : Fin n → ℝ) :
    (∀ fs : List (String × JTree), fs.lookup "0" = none → mutantBuild dep m Tc vc (.obj fs) = .throws .jsonError) ∧
    ∀ j d b, PairDoc j 0 1 d b → b.contains "type" = false →
      ∃ m', mutantBuild dep m Tc vc j = .ok m' ∧ m'.Tr = (mutantGERG Tc vc fun _ _ => {}).Tr := by
  have hl : upperPairs n = [] := by
    rw [List.eq_nil_iff_forall_not_mem]
    rintro ⟨i, k⟩ h
    obtain ⟨h1, h2⟩ := (upperPairs_mem n i k).mp h
    omega
  constructor
  · intro fs h
    unfold mutantBuild
    rw [hl, symLoop, Outcome.bind_ok, mutType, mutBIPDoc, JTree.at, show toString (0 : ℕ) = "0" by rfl, h]
    rfl
  · intro j d b hp ht
    unfold mutantBuild
    rw [hl, symLoop, Outcome.bind_ok, mutType_of hp, ht, if_neg (by simp), Outcome.bind_ok, mutReducing,
      if_neg (by decide), hl, symLoop, Outcome.bind_ok, Outcome.bind_ok]
    exact ⟨_, rfl, rfl⟩

example : mutantBuild noDeparture (idealBase 1) ![100] ![1] (.obj []) = .throws .jsonError :=
  (mutant_one_component (by norm_num) _ _ _ _).1 [] rfl
example : ∃ m', mutantBuild noDeparture (idealBase 1) ![100] ![1] tripleDoc = .ok m' ∧ m'.Tr = (mutantGERG ![100] ![1] fun _ _ => {}).Tr :=
  (mutant_one_component (by norm_num) _ _ _ _).2 tripleDoc _ _ ⟨_, _, rfl, rfl, rfl, rfl⟩ rfl

theorem symLoop_congr {α : Type} (f g : ℕ → ℕ → Outcome α) (l : List (ℕ × ℕ)) (h : ∀ p ∈ l, f p.1 p.2 = g p.1 p.2)
    (M : ℕ → ℕ → α) : symLoop f l M = symLoop g l M := by
  induction l generalizing M with
  | nil => rfl
  | cons p ps ih =>
    obtain ⟨a, b⟩ := p
    rw [symLoop, symLoop, h (a, b) (by simp)]
    congr 1
    funext v
    exact ih (fun p hp => h p (by simp [hp])) _

/-- C136. **Only pairs with the smaller number first are read**: two documents that have entries for the same pairs
`i < k` give the same outcome, whatever they say about a pair in the other order, about a component and itself, or
anywhere else; also about errors in them. -/
theorem mutant_upper {n : ℕ} (hn : 2 ≤ n) (dep : JTree → Outcome (List ResTerm)) (m : MultiFluid n) (Tc vc : Fin n → ℝ)
    (fs fs' : List (String × JTree)) (row row' : ℕ → List (String × JTree))
    (h : ∀ i, i + 1 < n → fs.lookup (toString i) = some (.obj (row i)) ∧ fs'.lookup (toString i) = some (.obj (row' i)))
    (hr : ∀ i k, i < k → k < n → (row i).lookup (toString k) = (row' i).lookup (toString k)) :
    mutantBuild dep m Tc vc (.obj fs) = mutantBuild dep m Tc vc (.obj fs') := by
  have hC : ∀ i k, i < k → k < n → mutEntryC (.obj fs) i k = mutEntryC (.obj fs') i k := by
    intro i k hik hk
    simp only [mutEntryC, JTree.atConst, (h i (by omega)).1, (h i (by omega)).2, Outcome.bind_ok, hr i k hik hk]
  have hB : ∀ i k, i < k → k < n → mutBIPDoc (.obj fs) i k = mutBIPDoc (.obj fs') i k := by
    intro i k hik hk
    simp only [mutBIPDoc, JTree.at, (h i (by omega)).1, (h i (by omega)).2, Outcome.bind_ok, hr i k hik hk]
  have ht : mutType (.obj fs) = mutType (.obj fs') := by
    unfold mutType
    rw [hB 0 1 (by omega) (by omega)]
  have hred : ∀ ty, mutReducing Tc vc (.obj fs) ty = mutReducing Tc vc (.obj fs') ty := by
    intro ty
    unfold mutReducing
    rw [symLoop_congr (mutPairInv (.obj fs)) (mutPairInv (.obj fs')) _ fun p hp => ?_,
      symLoop_congr (mutPairGERG (.obj fs)) (mutPairGERG (.obj fs')) _ fun p hp => ?_]
    · obtain ⟨h1, h2⟩ := (upperPairs_mem n p.1 p.2).mp hp
      unfold mutPairGERG
      rw [hB _ _ h1 h2]
    · obtain ⟨h1, h2⟩ := (upperPairs_mem n p.1 p.2).mp hp
      unfold mutPairInv
      rw [hB _ _ h1 h2]
  unfold mutantBuild
  rw [ht, symLoop_congr (mutDeparture dep (.obj fs)) (mutDeparture dep (.obj fs')) _ fun p hp => ?_]
  · simp only [hred]
  · obtain ⟨h1, h2⟩ := (upperPairs_mem n p.1 p.2).mp hp
    unfold mutDeparture
    rw [hC _ _ h1 h2]

example : mutantBuild noDeparture (idealBase 2) ![100, 200] ![1, 2] (.obj [("0", .obj [("1", pairGERG 0 1 1 1 1)])])
    = mutantBuild noDeparture (idealBase 2) ![100, 200] ![1, 2]
      (.obj [("0", .obj [("0", .null), ("1", pairGERG 0 1 1 1 1)]), ("1", .obj [("0", .str "ignored")])]) :=
  mutant_upper (by norm_num) _ _ _ _ _ _ (fun _ => [("1", pairGERG 0 1 1 1 1)])
    (fun _ => [("0", .null), ("1", pairGERG 0 1 1 1 1)])
    (fun i hi => by obtain rfl : i = 0 := by omega
                    exact ⟨rfl, rfl⟩)
    (fun i k hik hk => by obtain ⟨rfl, rfl⟩ : i = 0 ∧ k = 1 := by omega
                          rfl)

theorem redY_congr {n : ℕ} (z Yc : Fin n → ℝ) (b b' Y Y' : Fin n → Fin n → ℝ) (hb : ∀ i k, i < k → b i k = b' i k)
    (hY : ∀ i k, i < k → Y i k = Y' i k) : redY z Yc b Y = redY z Yc b' Y' := by
  unfold redY
  congr 1
  refine Finset.sum_congr rfl fun i _ => Finset.sum_congr rfl fun k hk => ?_
  rw [Finset.mem_filter] at hk
  rw [hb i k hk.2, hY i k hk.2]

/-- C136. **A mutation that changes nothing**: if the document repeats the parameters of the reducing function of the
base, its weights and its departure functions, the mutant has the residual Helmholtz energy of the base, at all
temperatures, densities and compositions of two or more components. -/
theorem mutant_identity {n : ℕ} (hn : 2 ≤ n) (dep : JTree → Outcome (List ResTerm)) (m m' : MultiFluid n) (r : RedFn n)
    (hT : m.Tr = r.Tr) (hv : m.rhor = r.rhor) (j : JTree) (hj : AsksOther j) (h : mutantBuild dep m r.Tc r.vc j = .ok m')
    (hd : ∀ i k : Fin n, i < k → ∃ d b, PairDoc j i k d b ∧ b.at "Fij" = .ok (.num (m.F i k)) ∧
      dep d = .ok (m.func i k) ∧ FourNumbers b "betaT" "gammaT" "betaV" "gammaV" (r.betaT i k) (r.gammaT i k)
        (r.betaV i k) (r.gammaV i k)) (T ρ : ℝ) (z : Fin n → ℝ) :
    m'.mutantAlphar T ρ z = m.alphar T ρ z := by
  obtain ⟨h1, -, -, d, b, p, hp, hq⟩ := mutant_document hn dep m m' r.Tc r.vc j h
  obtain ⟨ha, -⟩ | ⟨-, h2, h3, h4⟩ := hq
  · obtain ⟨s, hs, hne⟩ := mutType_other hj
    rw [mutType_invariant ha] at hs
    exact absurd (by simpa using hs.symm) hne
  have huniq : ∀ i k : Fin n, i < k → m'.F i k = m.F i k ∧ m'.func i k = m.func i k ∧ (p i k).betaT = r.betaT i k ∧
      (p i k).gammaT = r.gammaT i k ∧ (p i k).betaV = r.betaV i k ∧ (p i k).gammaV = r.gammaV i k := by
    intro i k hik
    obtain ⟨d', b', ⟨row', e', a1, a2, a3, a4⟩, a5, a6, b1, b2, b3, b4⟩ := hd i k hik
    obtain ⟨⟨row, e, c1, c2, c3, c4⟩, c5, c6, -⟩ := hp i k hik
    obtain ⟨d1, d2, d3, d4⟩ := h4 i k hik
    rw [a1] at c1; cases c1
    rw [a2] at c2; cases c2
    rw [a3] at c3; cases c3
    rw [a4] at c4
    simp only [Outcome.ok.injEq] at c4
    rw [← c4] at c5 d1 d2 d3 d4
    rw [a5] at c5
    rw [a6] at c6
    rw [b1] at d1
    rw [b2] at d2
    rw [b3] at d3
    rw [b4] at d4
    simp only [Outcome.ok.injEq, JTree.num.injEq] at c5 c6 d1 d2 d3 d4
    exact ⟨c5.symm, c6.symm, d1.symm, d2.symm, d3.symm, d4.symm⟩
  have eT : m'.Tr z = m.Tr z := by
    rw [h2, hT]
    refine redY_congr _ _ _ _ _ _ (fun i k hik => ?_) fun i k hik => ?_
    · simp only [mutantGERG, if_pos hik, (huniq i k hik).2.2.1]
    · simp only [RedFn.YT, mutantGERG, if_neg (ne_of_lt hik), if_pos hik, (huniq i k hik).2.2.1, (huniq i k hik).2.2.2.1]
  have ev : m'.rhor z = m.rhor z := by
    rw [h3, hv]
    unfold RedFn.rhor
    congr 1
    refine redY_congr _ _ _ _ _ _ (fun i k hik => ?_) fun i k hik => ?_
    · simp only [mutantGERG, if_pos hik, (huniq i k hik).2.2.2.2.1]
    · simp only [RedFn.Yv, mutantGERG, if_neg (ne_of_lt hik), if_pos hik, (huniq i k hik).2.2.2.2.1,
        (huniq i k hik).2.2.2.2.2]
  unfold MultiFluid.mutantAlphar MultiFluid.alphar MultiFluid.alphar_taudelta
  rw [dif_neg (by omega), eT, ev]
  congr 1
  · unfold MultiFluid.corr
    rw [h1]
  · unfold MultiFluid.dep
    refine Finset.sum_congr rfl fun i _ => Finset.sum_congr rfl fun k hk => ?_
    rw [Finset.mem_filter] at hk
    rw [(huniq i k hk.2).1, (huniq i k hk.2).2.1]

/-- The reducing function that belongs to `tripleDoc`. -/
noncomputable def tripleRed : RedFn 3 where
  betaT i k := if i = 0 ∧ k = 1 then 1.1 else 1
  gammaT i k := if i = 0 ∧ k = 1 then 0.9 else if i = 1 ∧ k = 2 then 1.2 else 1
  betaV _ _ := 1
  gammaV _ _ := 1
  Tc := ![100, 200, 300]
  vc := ![1, 2, 3]

/-- A base model with the parameters of `tripleDoc`. -/
noncomputable def tripleBase : MultiFluid 3 where
  Tr := tripleRed.Tr
  rhor := tripleRed.rhor
  eos _ := [.justPower [⟨1, 0, 1⟩]]
  F i k := if i = 0 ∧ k = 1 then 0.5 else if i = 1 ∧ k = 2 then 2 else 0
  func _ _ := [.null]
  Rvals := none

example : ∃ m', mutantBuild noDeparture tripleBase tripleRed.Tc tripleRed.vc tripleDoc = .ok m' ∧
    m'.mutantAlphar 300 0.1 ![0.2, 0.3, 0.5] = tripleBase.alphar 300 0.1 ![0.2, 0.3, 0.5] := by
  have hd : ∀ i k : Fin 3, i < k → ∃ d b, PairDoc tripleDoc i k d b ∧ b.at "Fij" = .ok (.num (tripleBase.F i k)) ∧
      noDeparture d = .ok (tripleBase.func i k) ∧ FourNumbers b "betaT" "gammaT" "betaV" "gammaV" (tripleRed.betaT i k)
        (tripleRed.gammaT i k) (tripleRed.betaV i k) (tripleRed.gammaV i k) := by
    intro i k hik
    have : (i = 0 ∧ k = 1) ∨ (i = 0 ∧ k = 2) ∨ (i = 1 ∧ k = 2) := by
      simp only [Fin.ext_iff, Fin.lt_def] at *; have := i.2; have := k.2; omega
    rcases this with ⟨rfl, rfl⟩ | ⟨rfl, rfl⟩ | ⟨rfl, rfl⟩ <;>
      refine ⟨_, _, ⟨_, _, rfl, rfl, rfl, rfl⟩, ?_, rfl, ?_, ?_, ?_, ?_⟩ <;>
      simp [JTree.at, tripleBase, tripleRed, List.lookup]
  have hj : AsksOther tripleDoc := ⟨_, _, ⟨_, _, rfl, rfl, rfl, rfl⟩, Or.inl rfl⟩
  have hb : ∃ m', mutantBuild noDeparture tripleBase tripleRed.Tc tripleRed.vc tripleDoc = .ok m' := by
    obtain ⟨m₀, h₀⟩ := tripleDoc_ok
    unfold mutantBuild at h₀ ⊢
    simp only [Outcome.bind_eq_ok] at h₀ ⊢
    obtain ⟨D, hD, ty, hty, r, hr, -⟩ := h₀
    exact ⟨_, D, hD, ty, hty, r, hr, rfl⟩
  obtain ⟨m', h⟩ := hb
  exact ⟨m', h, mutant_identity (by norm_num) _ _ _ tripleRed rfl rfl _ hj h hd _ _ _⟩

/-- C136. **Looking up a weight**: both names give the weight of a pair; a number beyond the last component is
refused with an exception under either name, since no reducing function knows such a parameter. -/
theorem mutant_weight {n : ℕ} (F : Fin n → Fin n → ℝ) (r : RedFn n ⊕ InvFn n) (key : String) (hk : key = "F" ∨ key = "Fij")
    (i k : ℕ) :
    (∀ (hi : i < n) (hj : k < n), mutantGetBIP F r i k key = .ok (F ⟨i, hi⟩ ⟨k, hj⟩)) ∧
    (n ≤ i ∨ n ≤ k → mutantGetBIP F r i k key = .throws .stdInvalidArgument) := by
  constructor
  · intro hi hj
    rw [mutantGetBIP, dif_pos ⟨hk, hi, hj⟩]
  · intro h
    rw [mutantGetBIP, dif_neg (by omega)]
    rcases r with r | r
    · rw [redGetBIP, RedFn.getBIP]
      rcases hk with rfl | rfl <;> simp
    · rw [redGetBIP, InvFn.getBIP]
      rcases hk with rfl | rfl <;> simp

example : mutantGetBIP tripleBase.F (.inl tripleRed) 1 2 "Fij" = .ok 2 := by
  rw [(mutant_weight tripleBase.F (.inl tripleRed) "Fij" (by simp) 1 2).1 (by norm_num) (by norm_num)]
  simp [tripleBase]
example : mutantGetBIP tripleBase.F (.inl tripleRed) 1 3 "F" = .throws .stdInvalidArgument :=
  (mutant_weight tripleBase.F (.inl tripleRed) "F" (by simp) 1 3).2 (by norm_num)

/-- C136. **Reading the parameters of a mutant with the other reducing function back**: for a pair in the order of the
document they are those of the document, in the other order `lambda` has the other sign; names of the usual reducing
function, and numbers beyond the last component, are refused. -/
theorem mutant_invariant_read {n : ℕ} (Tc vc : Fin n → ℝ) (p : Fin n → Fin n → MutBIP) (F : Fin n → Fin n → ℝ) (i k : Fin n)
    (hik : i < k) (key : String) :
    (∀ (a b : Fin n), (a = i ∧ b = k) ∨ (a = k ∧ b = i) →
      mutantGetBIP F (.inr (mutantInvariant Tc vc p)) a b "phiT" = .ok (p i k).phiT ∧
      mutantGetBIP F (.inr (mutantInvariant Tc vc p)) a b "phiV" = .ok (p i k).phiV) ∧
    mutantGetBIP F (.inr (mutantInvariant Tc vc p)) i k "lambdaT" = .ok (p i k).lambdaT ∧
    mutantGetBIP F (.inr (mutantInvariant Tc vc p)) i k "lambdaV" = .ok (p i k).lambdaV ∧
    mutantGetBIP F (.inr (mutantInvariant Tc vc p)) k i "lambdaT" = .ok (-(p i k).lambdaT) ∧
    mutantGetBIP F (.inr (mutantInvariant Tc vc p)) k i "lambdaV" = .ok (-(p i k).lambdaV) ∧
    (key ∉ ["F", "Fij", "phiT", "lambdaT", "phiV", "lambdaV"] → ∀ a b : ℕ,
      mutantGetBIP F (.inr (mutantInvariant Tc vc p)) a b key = .throws .stdInvalidArgument) ∧
    (∀ a b : ℕ, n ≤ a ∨ n ≤ b → mutantGetBIP F (.inr (mutantInvariant Tc vc p)) a b key = .throws .stdInvalidArgument) := by
  have hki : ¬k < i := not_lt.mpr hik.le
  refine ⟨?_, ?_, ?_, ?_, ?_, ?_, ?_⟩
  · rintro a b (⟨rfl, rfl⟩ | ⟨rfl, rfl⟩)
    · constructor <;> simp [mutantGetBIP, redGetBIP, InvFn.getBIP, mutantInvariant, hik]
    · constructor <;> simp [mutantGetBIP, redGetBIP, InvFn.getBIP, mutantInvariant, hik, hki]
  · simp [mutantGetBIP, redGetBIP, InvFn.getBIP, mutantInvariant, hik]
  · simp [mutantGetBIP, redGetBIP, InvFn.getBIP, mutantInvariant, hik]
  · simp [mutantGetBIP, redGetBIP, InvFn.getBIP, mutantInvariant, hik, hki]
  · simp [mutantGetBIP, redGetBIP, InvFn.getBIP, mutantInvariant, hik, hki]
  · intro h a b
    simp only [List.mem_cons, List.not_mem_nil, or_false, not_or] at h
    obtain ⟨h1, h2, h3, h4, h5, h6⟩ := h
    rw [mutantGetBIP, dif_neg (by rintro ⟨h | h, -⟩ <;> contradiction)]
    simp [redGetBIP, InvFn.getBIP, h3, h4, h5, h6]
  · intro a b h
    rw [mutantGetBIP, dif_neg (by omega), redGetBIP, InvFn.getBIP]
    have hab : ¬(a < n ∧ b < n) := by omega
    simp only [dif_neg hab]
    split_ifs <;> rfl

example : mutantGetBIP (n := 2) (fun _ _ => 0) (.inr (mutantInvariant (fun _ => 300) (fun _ => 1) fun _ _ => { lambdaT := 2 })) 1 0
    "lambdaT" = .ok (-2) :=
  (mutant_invariant_read (n := 2) (fun _ => 300) (fun _ => 1) (fun _ _ => { lambdaT := 2 }) (fun _ _ => 0) 0 1 (by decide)
    "x").2.2.2.1

end Teqp.Props
