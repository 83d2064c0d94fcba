import Verif.Props.EosBuild

/-! # C28: splitting power terms -/

set_option autoImplicit false

namespace Teqp.Props
open Teqp Teqp.Model Teqp.Spec

/-- The listed value of an entry. -/
noncomputable def PowerEntry.value (e : PowerEntry) (τ δ : ℝ) : ℝ := powerSummand e.n e.t e.d e.l τ δ

theorem toPow_value (e : PowerEntry) (hi : (castInt e.l : ℝ) = e.l) (τ δ : ℝ) :
    expSummand e.toPow.n e.toPow.t e.toPow.d e.toPow.c e.toPow.li τ δ = PowerEntry.value e τ δ := by
  unfold PowerEntry.toPow PowerEntry.value powerSummand
  by_cases h : 0 < e.l
  · simp only [gt_iff_lt, if_pos h, hi]
  · simp only [gt_iff_lt, if_neg h, expSummand, polySummand]
    simp

theorem toPoly_value (e : PowerEntry) (hl : e.l = 0) (τ δ : ℝ) :
    polySummand e.toPoly.n e.toPoly.t e.toPoly.d τ δ = PowerEntry.value e τ δ := by
  simp [PowerEntry.toPoly, PowerEntry.value, powerSummand, hl]

theorem sum_nonneg_zero (l : List ℝ) (h0 : ∀ x ∈ l, 0 ≤ x) (hs : l.sum = 0) : ∀ x ∈ l, x = 0 := by
  induction l with
  | nil => simp
  | cons a l ih =>
    have hl := List.sum_nonneg fun x hx => h0 x (List.mem_cons_of_mem _ hx)
    have ha := h0 a (by simp)
    rw [List.sum_cons] at hs
    have ha' : a = 0 := by linarith
    intro x hx
    rcases List.mem_cons.mp hx with rfl | hx
    · exact ha'
    · exact ih (fun y hy => h0 y (List.mem_cons_of_mem _ hy)) (by linarith) x hx

/-- If no zero is left behind the first `nlZero` entries, these are exactly the zeros. -/
theorem take_zeros (es : List PowerEntry) (hd : ∀ e ∈ es.drop (nlZero es), e.l ≠ 0) :
    ∀ e ∈ es.take (nlZero es), e.l = 0 := by
  classical
  have h1 : ((es.drop (nlZero es)).filter fun e => e.l = 0) = [] := by
    rw [List.filter_eq_nil_iff]
    intro e he
    simpa using hd e he
  have h2 : (es.filter fun e => e.l = 0) = ((es.take (nlZero es)).filter fun e => e.l = 0) := by
    conv_lhs => rw [← List.take_append_drop (nlZero es) es, List.filter_append, h1, List.append_nil]
  have h3 : ((es.take (nlZero es)).filter fun e => e.l = 0).length = nlZero es := by
    rw [← h2]; rfl
  have h4 : (es.take (nlZero es)).length ≤ nlZero es := List.length_take_le _ _
  have h5 := List.length_filter_le (fun e : PowerEntry => decide (e.l = 0)) (es.take (nlZero es))
  have h6 : ((es.take (nlZero es)).filter fun e => e.l = 0).length = (es.take (nlZero es)).length := by omega
  rw [List.length_filter_eq_length_iff] at h6
  intro e he
  simpa using h6 e he

/-- Splitting keeps the sum, if the zeros of `l` come first whenever the split by position is made. -/
theorem splitPower_sum (es : List PowerEntry) (c : Bool) (ts : List ResTerm) (h : splitPower es c = .ok ts)
    (hl : ∀ e ∈ es, 0 ≤ e.l) (hc : c = true → ∀ e ∈ es.drop (nlZero es), e.l ≠ 0) (τ δ : ℝ) (hτ : 0 < τ)
    (hδ : 0 < δ) : containerAlphar ts τ δ = (es.map fun e => PowerEntry.value e τ δ).sum := by
  unfold splitPower at h
  by_cases h1 : ∃ e ∈ es, (castInt e.l : ℝ) ≠ e.l
  · rw [if_pos h1] at h; cases h
  rw [if_neg h1] at h
  have hi : ∀ e ∈ es, (castInt e.l : ℝ) = e.l := by
    intro e he
    by_contra hne
    exact h1 ⟨e, he, hne⟩
  by_cases h2 : (es.map PowerEntry.l).sum = 0
  · rw [if_pos h2] at h
    cases h
    rw [container_one, alphar_pos _ _ _ hτ hδ]
    simp only [ResTerm.doc, List.map_map, Function.comp_def]
    refine sum_map_congr _ _ _ fun e he => ?_
    refine toPoly_value e (sum_nonneg_zero _ ?_ h2 e.l (List.mem_map_of_mem he)) τ δ
    intro x hx
    obtain ⟨e', he', rfl⟩ := List.mem_map.mp hx
    exact hl e' he'
  rw [if_neg h2] at h
  by_cases h3 : (es.map PowerEntry.l).sum > 0 ∧ c = true
  · rw [if_pos h3] at h
    cases h
    have hd := hc h3.2
    have ht := take_zeros es hd
    conv_rhs => rw [← List.take_append_drop (nlZero es) es]
    rw [List.map_append, List.sum_append]
    simp only [containerAlphar, List.map_cons, List.map_nil, List.sum_cons, List.sum_nil, add_zero]
    rw [alphar_pos _ _ _ hτ hδ, alphar_pos _ _ _ hτ hδ]
    simp only [ResTerm.doc, List.map_map, Function.comp_def]
    congr 1
    · exact sum_map_congr _ _ _ fun e he => toPoly_value e (ht e he) τ δ
    · exact sum_map_congr _ _ _ fun e he => toPow_value e
        (hi e (List.mem_of_mem_drop he)) τ δ
  · rw [if_neg h3] at h
    cases h
    rw [container_one, alphar_pos _ _ _ hτ hδ]
    simp only [ResTerm.doc, List.map_map, Function.comp_def]
    exact sum_map_congr _ _ _ fun e he => toPow_value e (hi e he) τ δ

theorem powerEntries_value (N : ℕ) (n t d l : List ℝ) (τ δ : ℝ) :
    ((powerEntries N n t d l).map fun e => PowerEntry.value e τ δ).sum =
      listed N fun i => powerSummand (n.getD i 0) (t.getD i 0) (d.getD i 0) (l.getD i 0) τ δ := by
  simp only [powerEntries, listed, List.map_map, Function.comp_def, PowerEntry.value]

theorem powerEntries_nonneg (N : ℕ) (n t d l : List ℝ) (h : ∀ x ∈ l, 0 ≤ x) :
    ∀ e ∈ powerEntries N n t d l, 0 ≤ e.l := by
  intro e he
  unfold powerEntries at he
  obtain ⟨i, _, rfl⟩ := List.mem_map.mp he
  change 0 ≤ l.getD i 0
  by_cases hi : i < l.length
  · rw [List.getD_eq_getElem _ _ hi]; exact h _ (List.getElem_mem hi)
  · rw [List.getD_eq_default _ _ (not_lt.mp hi)]

theorem powerEntries_l (n t d l : List ℝ) : (powerEntries l.length n t d l).map PowerEntry.l = l := by
  apply List.ext_getElem
  · simp [powerEntries]
  · intro i h1 h2
    simp [powerEntries, List.getElem?_eq_getElem h2]

/-- A non-empty array is read as it stands. -/
theorem arr_lookup (o : JObj) (k : String) (a : List ℝ) (h : o.arr k = .ok a) : o.lookup k = some (.arr a) := by
  unfold JObj.arr JObj.at at h
  cases hl : o.lookup k with
  | none => rw [hl] at h; cases h
  | some v =>
    rw [hl] at h
    cases v with
    | arr xs => simp only [Outcome.bind_ok, JVal.toArr, Outcome.ok.injEq] at h; rw [h]
    | num x => cases h
    | str s => cases h

theorem eigOrZero_arr (o : JObj) (k : String) (a : List ℝ) (h : o.arr k = .ok a) (N : ℕ) :
    eigOrZero o k N = .ok (if a = [] then List.replicate N 0 else a) := by
  unfold eigOrZero JObj.isEmpty
  rw [arr_lookup o k a h]
  cases a with
  | nil => rfl
  | cons x xs => simpa using h

theorem isEmpty_arr (o : JObj) (k : String) (a : List ℝ) (h : o.arr k = .ok a) :
    o.isEmpty k = decide (a = []) := by
  unfold JObj.isEmpty
  rw [arr_lookup o k a h]
  cases a <;> simp

/-- Names of the arrays of a power term. -/
def powerKeys : List String := ["n", "t", "d", "l"]

/-- Zeros first. -/
def ZerosFirst (l : List ℝ) : Prop := l.Pairwise fun a b => b = 0 → a = 0

theorem zerosFirst_drop (es : List PowerEntry) (h : ZerosFirst (es.map PowerEntry.l)) :
    ∀ e ∈ es.drop (nlZero es), e.l ≠ 0 := by
  induction es with
  | nil => simp
  | cons a es ih =>
    simp only [ZerosFirst, List.map_cons, List.pairwise_cons] at h
    by_cases ha : a.l = 0
    · have : nlZero (a :: es) = nlZero es + 1 := by simp [nlZero, ha]
      rw [this, List.drop_succ_cons]
      exact ih h.2
    · have hall : ∀ e ∈ es, e.l ≠ 0 := fun e he h0 => ha (h.1 e.l (List.mem_map_of_mem he) h0)
      have : nlZero (a :: es) = 0 := by
        have hf : (es.filter fun e => e.l = 0) = [] := by
          rw [List.filter_eq_nil_iff]; intro e he; simpa using hall e he
        unfold nlZero
        rw [List.filter_cons_of_neg (by simpa using ha), hf]
        rfl
      rw [this, List.drop_zero]
      intro e he
      rcases List.mem_cons.mp he with rfl | he
      · exact ha
      · exact hall e he

/-- The departure builder on arrays of equal non-zero length. -/
theorem buildPowerDep_eq (o : JObj) (A : String → List ℝ) (h : HasArrays o powerKeys A) (hne : A "n" ≠ [])
    (hlen : ∀ k ∈ powerKeys, (A k).length = (A "n").length) :
    buildPowerDep o =
      (let es := powerEntries (A "n").length (A "n") (A "t") (A "d") (A "l")
      if firstLZero es = true ∧ ∃ e ∈ es.drop (nlZero es), e.l = 0 then .throws .stdInvalidArgument
      else splitPower es (firstLZero es)) := by
  have hn := h "n" (by simp [powerKeys])
  have ht := h "t" (by simp [powerKeys])
  have hd := h "d" (by simp [powerKeys])
  have hll := h "l" (by simp [powerKeys])
  have hN : (A "n").length ≠ 0 := fun e => hne (List.length_eq_zero_iff.mp e)
  have hk : ∀ k ∈ powerKeys, A k ≠ [] := fun k hk e => hN (by rw [← hlen k hk, e]; rfl)
  have ht0 := hk "t" (by simp [powerKeys])
  have hd0 := hk "d" (by simp [powerKeys])
  have hl0 := hk "l" (by simp [powerKeys])
  have hs := allSameLength_eq o A "n" ["t", "d", "l"] h
  have hsz : decide (∀ k' ∈ ["t", "d", "l"], (A k').length = (A "n").length) = true :=
    decide_eq_true fun k hk => hlen k (List.mem_cons_of_mem _ hk)
  rw [hsz] at hs
  unfold buildPowerDep
  rw [arr_lookup o "n" _ hn]
  simp only
  rw [if_neg hN, eigOrZero_arr o "n" _ hn, eigOrZero_arr o "t" _ ht, eigOrZero_arr o "d" _ hd,
    eigOrZero_arr o "l" _ hll, isEmpty_arr o "l" _ hll]
  simp only [Outcome.bind_ok]
  rw [if_neg (by simp [hl0]), hs]
  simp only [Outcome.bind_ok]
  rw [if_neg (by simp), if_neg hne, if_neg ht0, if_neg hd0, if_neg hl0]
  simp only [hl0, decide_false, Bool.not_false, Bool.true_and]

/-- The pure-fluid builder on arrays of equal non-zero length. -/
theorem buildPowerPure_eq (o : JObj) (A : String → List ℝ) (h : HasArrays o powerKeys A) (hne : A "n" ≠ [])
    (hlen : ∀ k ∈ powerKeys, (A k).length = (A "n").length) :
    buildPowerPure o =
      (let es := powerEntries (A "n").length (A "n") (A "t") (A "d") (A "l")
      splitPower es (firstLZero es)) := by
  have hn := h "n" (by simp [powerKeys])
  have ht := h "t" (by simp [powerKeys])
  have hd := h "d" (by simp [powerKeys])
  have hll := h "l" (by simp [powerKeys])
  have hN : (A "n").length ≠ 0 := fun e => hne (List.length_eq_zero_iff.mp e)
  have hk : ∀ k ∈ powerKeys, A k ≠ [] := fun k hk e => hN (by rw [← hlen k hk, e]; rfl)
  have ht0 := hk "t" (by simp [powerKeys])
  have hd0 := hk "d" (by simp [powerKeys])
  have hl0 := hk "l" (by simp [powerKeys])
  unfold buildPowerPure
  rw [arr_lookup o "n" _ hn]
  simp only
  rw [eigOrZero_arr o "n" _ hn, eigOrZero_arr o "t" _ ht, eigOrZero_arr o "d" _ hd, eigOrZero_arr o "l" _ hll]
  simp only [Outcome.bind_ok]
  rw [if_neg hne, if_neg ht0, if_neg hd0, if_neg hl0, if_neg]
  rw [hlen "t" (by simp [powerKeys]), hlen "d" (by simp [powerKeys]), hlen "l" (by simp [powerKeys])]
  simp

/-- C28, C68. A departure function of type `Exponential` with non-negative exponents `l`: arrays of unequal
length are refused; otherwise, whatever the order of the exponents, if it is accepted its value is the sum
of the listed terms. -/
theorem departure_power (o : JObj) (A : String → List ℝ) (h : HasArrays o powerKeys A) (hne : A "n" ≠ [])
    (hl : ∀ x ∈ A "l", 0 ≤ x) (hlen : ∀ k ∈ powerKeys, (A k).length = (A "n").length)
    (ts : List ResTerm) (hts : buildPowerDep o = .ok ts) (τ δ : ℝ) (hτ : 0 < τ) (hδ : 0 < δ) :
    containerAlphar ts τ δ = listed (A "n").length fun i =>
      powerSummand (ent A "n" i) (ent A "t" i) (ent A "d" i) (ent A "l" i) τ δ := by
  rw [buildPowerDep_eq o A h hne hlen] at hts
  simp only at hts
  by_cases hc : firstLZero (powerEntries (A "n").length (A "n") (A "t") (A "d") (A "l")) = true
      ∧ ∃ e ∈ (powerEntries (A "n").length (A "n") (A "t") (A "d") (A "l")).drop
        (nlZero (powerEntries (A "n").length (A "n") (A "t") (A "d") (A "l"))), e.l = 0
  · rw [if_pos hc] at hts; cases hts
  rw [if_neg hc] at hts
  rw [splitPower_sum _ _ ts hts (powerEntries_nonneg _ _ _ _ _ hl) (fun hct e he h0 => hc ⟨hct, e, he, h0⟩) τ δ hτ hδ,
    powerEntries_value]

theorem firstLZero_head (n t d l : List ℝ) :
    firstLZero (powerEntries l.length n t d l) = decide (l.head? = some 0) := by
  have h := powerEntries_l n t d l
  cases he : powerEntries l.length n t d l with
  | nil =>
    rw [he] at h
    rw [← h]
    simp [firstLZero]
  | cons e es =>
    rw [he, List.map_cons] at h
    rw [← h]
    simp [firstLZero]

/-- Non-integer exponents are refused. -/
theorem splitPower_refuses (es : List PowerEntry) (c : Bool) (h : ∃ e ∈ es, ∀ z : ℤ, e.l ≠ z) :
    splitPower es c = .throws .stdInvalidArgument := by
  obtain ⟨e, he, hz⟩ := h
  unfold splitPower
  rw [if_pos ⟨e, he, fun hc => hz _ hc.symm⟩]

/-- With integer exponents the split always succeeds. -/
theorem splitPower_accepts (es : List PowerEntry) (c : Bool) (h : ∀ e ∈ es, ∃ z : ℤ, e.l = z) :
    ∃ ts, splitPower es c = .ok ts := by
  unfold splitPower
  rw [if_neg (by
    rintro ⟨e, he, hne⟩
    obtain ⟨z, hz⟩ := h e he
    rw [hz, castInt_intCast] at hne
    exact hne rfl)]
  split
  · exact ⟨_, rfl⟩
  split
  · exact ⟨_, rfl⟩
  · exact ⟨_, rfl⟩

theorem powerEntries_mem_l (A : String → List ℝ) (N : ℕ) (hN : (A "l").length = N) (x : ℝ) :
    (∃ e ∈ powerEntries N (A "n") (A "t") (A "d") (A "l"), e.l = x) ↔ x ∈ A "l" := by
  subst hN
  conv_rhs => rw [← powerEntries_l (A "n") (A "t") (A "d") (A "l")]
  rw [List.mem_map]

/-- C28, C68. Which departure functions of type `Exponential` are accepted (arrays of equal non-zero length):
exactly those with integer exponents whose zeros, if the first exponent is zero, all come first. -/
theorem departure_power_accepts (o : JObj) (A : String → List ℝ) (h : HasArrays o powerKeys A)
    (hne : A "n" ≠ []) (hlen : ∀ k ∈ powerKeys, (A k).length = (A "n").length) :
    ((∀ x ∈ A "l", ∃ z : ℤ, x = z) → ((A "l").head? = some 0 → ZerosFirst (A "l")) →
      ∃ ts, buildPowerDep o = .ok ts) ∧
    ((∃ x ∈ A "l", ∀ z : ℤ, x ≠ z) → buildPowerDep o = .throws .stdInvalidArgument) := by
  have hl := hlen "l" (by simp [powerKeys])
  rw [buildPowerDep_eq o A h hne hlen]
  simp only
  constructor
  · intro hz hord
    rw [if_neg]
    · apply splitPower_accepts
      intro e he
      exact hz e.l ((powerEntries_mem_l A _ hl e.l).mp ⟨e, he, rfl⟩)
    · rintro ⟨hf, e, he, h0⟩
      rw [← hl, firstLZero_head, decide_eq_true_eq] at hf
      refine zerosFirst_drop _ ?_ e he h0
      rw [← hl, powerEntries_l]
      exact hord hf
  · rintro ⟨x, hx, hz⟩
    split
    · rfl
    · obtain ⟨e, he, hex⟩ := (powerEntries_mem_l A _ hl x).mpr hx
      exact splitPower_refuses _ _ ⟨e, he, fun z => by rw [hex]; exact hz z⟩

/-- A power document with three terms `δ` and exponents `l`. -/
noncomputable def powerDoc (l : List ℝ) : JObj :=
  [("n", .arr [1, 1, 1]), ("t", .arr [0, 0, 0]), ("d", .arr [1, 1, 1]), ("l", .arr l)]

theorem powerDoc_arrays (l : List ℝ) : HasArrays (powerDoc l) powerKeys (arrays (powerDoc l)) := by
  unfold HasArrays powerKeys
  simp only [List.forall_mem_cons, List.not_mem_nil, false_imp_iff, implies_true, and_true]
  exact ⟨rfl, rfl, rfl, rfl⟩

theorem powerDoc_len (a b c : ℝ) : ∀ k ∈ powerKeys,
    (arrays (powerDoc [a, b, c]) k).length = (arrays (powerDoc [a, b, c]) "n").length := by
  unfold powerKeys
  simp only [List.forall_mem_cons, List.not_mem_nil, false_imp_iff, implies_true, and_true, true_and]
  exact ⟨rfl, rfl, rfl⟩

theorem powerDoc_ne (l : List ℝ) : arrays (powerDoc l) "n" ≠ [] := by
  have : arrays (powerDoc l) "n" = [1, 1, 1] := rfl
  rw [this]; simp

/-- The value listed in the document at `τ = δ = 1`. -/
theorem powerDoc_listed (a b c : ℝ) :
    (listed (arrays (powerDoc [a, b, c]) "n").length fun i => powerSummand (ent (arrays (powerDoc [a, b, c])) "n" i)
      (ent (arrays (powerDoc [a, b, c])) "t" i) (ent (arrays (powerDoc [a, b, c])) "d" i)
      (ent (arrays (powerDoc [a, b, c])) "l" i) 1 1) =
    (if 0 < a then Real.exp (-1) else 1) + ((if 0 < b then Real.exp (-1) else 1) +
      (if 0 < c then Real.exp (-1) else 1)) := by
  have e1 : arrays (powerDoc [a, b, c]) "n" = [1, 1, 1] := rfl
  have e2 : arrays (powerDoc [a, b, c]) "t" = [0, 0, 0] := rfl
  have e3 : arrays (powerDoc [a, b, c]) "d" = [1, 1, 1] := rfl
  have e4 : arrays (powerDoc [a, b, c]) "l" = [a, b, c] := rfl
  simp [listed, powerSummand, ent, e1, e2, e3, e4, List.range_succ, expSummand, polySummand]

example : ∃ ts, buildPowerDep (powerDoc [1, 0, 0]) = .ok ts ∧ containerAlphar ts 1 1 = Real.exp (-1) + 2 := by
  obtain ⟨ts, hts⟩ := (departure_power_accepts _ _ (powerDoc_arrays [1, 0, 0]) (powerDoc_ne _)
    (powerDoc_len 1 0 0)).1 (by
      have : arrays (powerDoc [1, 0, 0]) "l" = [1, 0, 0] := rfl
      rw [this]
      intro x hx
      simp only [List.mem_cons, List.not_mem_nil, or_false] at hx
      rcases hx with rfl | rfl | rfl
      · exact ⟨1, by simp⟩
      · exact ⟨0, by simp⟩
      · exact ⟨0, by simp⟩) (by
      have : arrays (powerDoc [1, 0, 0]) "l" = [1, 0, 0] := rfl
      rw [this]; simp)
  refine ⟨ts, hts, ?_⟩
  rw [departure_power _ _ (powerDoc_arrays [1, 0, 0]) (powerDoc_ne _) (by
      have : arrays (powerDoc [1, 0, 0]) "l" = [1, 0, 0] := rfl
      rw [this]
      simp) (powerDoc_len 1 0 0) ts hts 1 1 one_pos one_pos, powerDoc_listed]
  simp
  norm_num

/-- C28, restricted: a pure-fluid power term with non-negative exponents whose zeros come first, or whose
first exponent is not zero.  Other orders are missing, and `pure_power_loses_exponential` shows that they
are wrong. -/
theorem pure_power_partial (o : JObj) (A : String → List ℝ) (h : HasArrays o powerKeys A) (hne : A "n" ≠ [])
    (hl : ∀ x ∈ A "l", 0 ≤ x) (hlen : ∀ k ∈ powerKeys, (A k).length = (A "n").length)
    (hord : (A "l").head? = some 0 → ZerosFirst (A "l"))
    (ts : List ResTerm) (hts : buildPowerPure o = .ok ts) (τ δ : ℝ) (hτ : 0 < τ) (hδ : 0 < δ) :
    containerAlphar ts τ δ = listed (A "n").length fun i =>
      powerSummand (ent A "n" i) (ent A "t" i) (ent A "d" i) (ent A "l" i) τ δ := by
  have hl' := hlen "l" (by simp [powerKeys])
  rw [buildPowerPure_eq o A h hne hlen] at hts
  simp only at hts
  rw [splitPower_sum _ _ ts hts (powerEntries_nonneg _ _ _ _ _ hl) ?_ τ δ hτ hδ, powerEntries_value]
  intro hf
  rw [← hl', firstLZero_head, decide_eq_true_eq] at hf
  refine zerosFirst_drop _ ?_
  rw [← hl', powerEntries_l]
  exact hord hf

/-- C68. A pure-fluid power term with a non-integer exponent is refused; with integer exponents it is
accepted in any order. -/
theorem pure_power_accepts (o : JObj) (A : String → List ℝ) (h : HasArrays o powerKeys A) (hne : A "n" ≠ [])
    (hlen : ∀ k ∈ powerKeys, (A k).length = (A "n").length) :
    ((∀ x ∈ A "l", ∃ z : ℤ, x = z) → ∃ ts, buildPowerPure o = .ok ts) ∧
    ((∃ x ∈ A "l", ∀ z : ℤ, x ≠ z) → buildPowerPure o = .throws .stdInvalidArgument) := by
  have hl := hlen "l" (by simp [powerKeys])
  rw [buildPowerPure_eq o A h hne hlen]
  simp only
  constructor
  · intro hz
    apply splitPower_accepts
    intro e he
    exact hz e.l ((powerEntries_mem_l A _ hl e.l).mp ⟨e, he, rfl⟩)
  · rintro ⟨x, hx, hz⟩
    obtain ⟨e, he, hex⟩ := (powerEntries_mem_l A _ hl x).mpr hx
    exact splitPower_refuses _ _ ⟨e, he, fun z => by rw [hex]; exact hz z⟩

theorem pureDoc_ok (a b c : ℤ) : ∃ ts, buildPowerPure (powerDoc [a, b, c]) = .ok ts := by
  refine (pure_power_accepts _ _ (powerDoc_arrays _) (powerDoc_ne _) (powerDoc_len _ _ _)).1 ?_
  have : arrays (powerDoc [(a : ℝ), b, c]) "l" = [(a : ℝ), b, c] := rfl
  rw [this]
  intro x hx
  simp only [List.mem_cons, List.not_mem_nil, or_false] at hx
  rcases hx with rfl | rfl | rfl
  · exact ⟨a, rfl⟩
  · exact ⟨b, rfl⟩
  · exact ⟨c, rfl⟩

example : ∃ ts, buildPowerPure (powerDoc [0, 1, 2]) = .ok ts ∧
    containerAlphar ts 1 1 = 1 + (Real.exp (-1) + Real.exp (-1)) := by
  obtain ⟨ts, hts⟩ := pureDoc_ok 0 1 2
  have hd : powerDoc [((0 : ℤ) : ℝ), ((1 : ℤ) : ℝ), ((2 : ℤ) : ℝ)] = powerDoc [0, 1, 2] := by norm_num
  rw [hd] at hts
  refine ⟨ts, hts, ?_⟩
  have e : arrays (powerDoc [0, 1, 2]) "l" = [0, 1, 2] := rfl
  rw [pure_power_partial _ _ (powerDoc_arrays [0, 1, 2]) (powerDoc_ne _) (by rw [e]; simp)
    (powerDoc_len 0 1 2) (by rw [e]; simp [ZerosFirst]) ts hts 1 1 one_pos one_pos, powerDoc_listed]
  simp

/-- C28 fails for a pure fluid whose exponents are `l = 0, 1, 0`: the document is accepted, but the
exponential of its second term is lost. -/
theorem pure_power_loses_exponential : ∃ ts, buildPowerPure (powerDoc [0, 1, 0]) = .ok ts ∧
    containerAlphar ts 1 1 = 3 ∧
    containerAlphar ts 1 1 ≠ listed 3 fun i => powerSummand (ent (arrays (powerDoc [0, 1, 0])) "n" i)
      (ent (arrays (powerDoc [0, 1, 0])) "t" i) (ent (arrays (powerDoc [0, 1, 0])) "d" i)
      (ent (arrays (powerDoc [0, 1, 0])) "l" i) 1 1 := by
  have hb := buildPowerPure_eq _ _ (powerDoc_arrays [0, 1, 0]) (powerDoc_ne _) (powerDoc_len 0 1 0)
  have he : powerEntries (arrays (powerDoc [0, 1, 0]) "n").length (arrays (powerDoc [0, 1, 0]) "n")
      (arrays (powerDoc [0, 1, 0]) "t") (arrays (powerDoc [0, 1, 0]) "d") (arrays (powerDoc [0, 1, 0]) "l") =
      [⟨1, 0, 1, 0⟩, ⟨1, 0, 1, 1⟩, ⟨1, 0, 1, 0⟩] := rfl
  rw [he] at hb
  have hc0 : castInt (0 : ℝ) = 0 := by simpa using castInt_intCast 0
  have hc1 : castInt (1 : ℝ) = 1 := by simpa using castInt_intCast 1
  have hsp : splitPower [⟨1, 0, 1, 0⟩, ⟨1, 0, 1, 1⟩, ⟨1, 0, 1, 0⟩] true =
      .ok [.justPower [⟨1, 0, 1⟩, ⟨1, 0, 1⟩], .power [⟨1, 0, 1, 0, 0⟩]] := by
    have hn : nlZero [⟨1, 0, 1, 0⟩, ⟨1, 0, 1, 1⟩, ⟨1, 0, 1, 0⟩] = 2 := by simp [nlZero, List.filter]
    unfold splitPower
    rw [if_neg (by simp [hc0, hc1]), if_neg (by simp), if_pos (by simp), hn]
    simp [PowerEntry.toPoly, PowerEntry.toPow, hc0]
  have hf : firstLZero [⟨1, 0, 1, 0⟩, ⟨1, 0, 1, 1⟩, ⟨1, 0, 1, 0⟩] = true := by simp [firstLZero]
  simp only [hf, hsp] at hb
  have hv : containerAlphar [.justPower [⟨1, 0, 1⟩, ⟨1, 0, 1⟩], .power [⟨1, 0, 1, 0, 0⟩]] 1 1 = 3 := by
    simp only [containerAlphar, List.map_cons, List.map_nil, alphar_pos _ 1 1 one_pos one_pos]
    simp [ResTerm.doc, polySummand, expSummand]
    norm_num
  refine ⟨_, hb, hv, ?_⟩
  rw [hv]
  have hlist := powerDoc_listed 0 1 0
  have hlen : (arrays (powerDoc [0, 1, 0]) "n").length = 3 := rfl
  rw [hlen] at hlist
  rw [hlist]
  have : Real.exp (-1) < 1 := by rw [Real.exp_lt_one_iff]; norm_num
  simp only [lt_irrefl, if_false, zero_lt_one, if_true]
  intro h
  linarith

/-- C28 also fails for negative exponents: `l = 1, -1, 0` sums to zero, so that the exponential of the first
term is lost. -/
theorem pure_power_negative_exponent : ∃ ts, buildPowerPure (powerDoc [1, -1, 0]) = .ok ts ∧
    containerAlphar ts 1 1 = 3 ∧
    containerAlphar ts 1 1 ≠ listed 3 fun i => powerSummand (ent (arrays (powerDoc [1, -1, 0])) "n" i)
      (ent (arrays (powerDoc [1, -1, 0])) "t" i) (ent (arrays (powerDoc [1, -1, 0])) "d" i)
      (ent (arrays (powerDoc [1, -1, 0])) "l" i) 1 1 := by
  have hb := buildPowerPure_eq _ _ (powerDoc_arrays [1, -1, 0]) (powerDoc_ne _) (powerDoc_len 1 (-1) 0)
  have he : powerEntries (arrays (powerDoc [1, -1, 0]) "n").length (arrays (powerDoc [1, -1, 0]) "n")
      (arrays (powerDoc [1, -1, 0]) "t") (arrays (powerDoc [1, -1, 0]) "d") (arrays (powerDoc [1, -1, 0]) "l") =
      [⟨1, 0, 1, 1⟩, ⟨1, 0, 1, -1⟩, ⟨1, 0, 1, 0⟩] := rfl
  rw [he] at hb
  have hc0 : castInt (0 : ℝ) = 0 := by simpa using castInt_intCast 0
  have hc1 : castInt (1 : ℝ) = 1 := by simpa using castInt_intCast 1
  have hcm : castInt (-1 : ℝ) = -1 := by simpa using castInt_intCast (-1)
  have hsp : ∀ c, splitPower [⟨1, 0, 1, 1⟩, ⟨1, 0, 1, -1⟩, ⟨1, 0, 1, 0⟩] c =
      .ok [.justPower [⟨1, 0, 1⟩, ⟨1, 0, 1⟩, ⟨1, 0, 1⟩]] := by
    intro c
    unfold splitPower
    rw [if_neg (by simp [hc0, hc1, hcm]), if_pos (by simp)]
    simp [PowerEntry.toPoly]
  simp only [hsp] at hb
  have hv : containerAlphar [.justPower [⟨1, 0, 1⟩, ⟨1, 0, 1⟩, ⟨1, 0, 1⟩]] 1 1 = 3 := by
    rw [container_one, alphar_pos _ 1 1 one_pos one_pos]
    simp [ResTerm.doc, polySummand]
    norm_num
  refine ⟨_, hb, hv, ?_⟩
  rw [hv]
  have hlist := powerDoc_listed 1 (-1) 0
  have hlen : (arrays (powerDoc [1, -1, 0]) "n").length = 3 := rfl
  rw [hlen] at hlist
  rw [hlist]
  have : Real.exp (-1) < 1 := by rw [Real.exp_lt_one_iff]; norm_num
  rw [if_pos one_pos, if_neg (by norm_num), if_neg (lt_irrefl 0)]
  intro h
  linarith

/-- C68 fails for pure-fluid power terms: arrays of unequal length are not refused but read out of bounds. -/
theorem pure_power_unequal_lengths : buildPowerPure (powerDoc [1, 2]) = .ub := by
  have hn : (powerDoc [1, 2]).arr "n" = .ok [1, 1, 1] := rfl
  have ht : (powerDoc [1, 2]).arr "t" = .ok [0, 0, 0] := rfl
  have hd : (powerDoc [1, 2]).arr "d" = .ok [1, 1, 1] := rfl
  have hl : (powerDoc [1, 2]).arr "l" = .ok [1, 2] := rfl
  unfold buildPowerPure
  simp only
  rw [eigOrZero_arr _ "n" _ hn, eigOrZero_arr _ "t" _ ht, eigOrZero_arr _ "d" _ hd, eigOrZero_arr _ "l" _ hl]
  simp

/-- C68. The same document is refused as a departure function. -/
theorem departure_power_unequal (o : JObj) (A : String → List ℝ) (h : HasArrays o powerKeys A) (hne : A "n" ≠ [])
    (hl0 : A "l" ≠ []) (hlen : ¬∀ k ∈ powerKeys, (A k).length = (A "n").length) :
    buildPowerDep o = .throws .stdInvalidArgument := by
  have hn := h "n" (by simp [powerKeys])
  have ht := h "t" (by simp [powerKeys])
  have hd := h "d" (by simp [powerKeys])
  have hll := h "l" (by simp [powerKeys])
  have hN : (A "n").length ≠ 0 := fun e => hne (List.length_eq_zero_iff.mp e)
  have hs := allSameLength_eq o A "n" ["t", "d", "l"] h
  have hsz : decide (∀ k' ∈ ["t", "d", "l"], (A k').length = (A "n").length) = false := by
    rw [decide_eq_false_iff_not]
    exact fun hk => hlen (List.forall_mem_cons.mpr ⟨rfl, hk⟩)
  rw [hsz] at hs
  unfold buildPowerDep
  rw [arr_lookup o "n" _ hn]
  simp only
  rw [if_neg hN, eigOrZero_arr o "n" _ hn, eigOrZero_arr o "t" _ ht, eigOrZero_arr o "d" _ hd,
    isEmpty_arr o "l" _ hll]
  simp only [Outcome.bind_ok]
  rw [if_neg (by simp [hl0]), hs]
  simp

example : buildPowerDep (powerDoc [1, 2]) = .throws .stdInvalidArgument := by
  refine departure_power_unequal _ _ (powerDoc_arrays [1, 2]) (powerDoc_ne _) (by
    have : arrays (powerDoc [1, 2]) "l" = [1, 2] := rfl
    rw [this]; simp) ?_
  intro hc
  have := hc "l" (by simp [powerKeys])
  have e1 : (arrays (powerDoc [1, 2]) "l").length = 2 := rfl
  have e2 : (arrays (powerDoc [1, 2]) "n").length = 3 := rfl
  rw [e1, e2] at this
  exact absurd this (by decide)

/-! ## Combined departure functions -/

theorem drop_listed (N k : ℕ) (f : ℕ → ℝ) :
    (((List.range N).map f).drop k).sum = ((List.range (N - k)).map fun i => f (k + i)).sum := by
  congr 1
  apply List.ext_getElem
  · simp
  · intro i h1 h2
    simp

/-- C28. Departure functions that combine power and special terms: with integer exponents `l`, the first
`Npower` listed entries count as power terms and the others as GERG-2004 or Gaussian terms; arrays of
unequal length are refused. -/
theorem combined_document (gerg : Bool) (o : JObj) (A : String → List ℝ) (h : HasArrays o gaussKeys A)
    (hl : o.arr "l" = .ok (A "l")) (Np : ℕ) (hN : Np ≤ (A "n").length) (hNl : Np ≤ (A "l").length)
    (hz : ∀ x ∈ A "l", ∃ z : ℕ, x = z) :
    if ∀ k ∈ gaussKeys, (A k).length = (A "n").length then
      ∃ ts, buildCombined gerg o Np = .ok ts ∧ ∀ τ δ, 0 < τ → 0 < δ → containerAlphar ts τ δ =
        listed Np (fun i => powerSummand (ent A "n" i) (ent A "t" i) (ent A "d" i) (ent A "l" i) τ δ) +
        listed ((A "n").length - Np) fun i =>
          (if gerg then gergSummand else gaussSummand) (ent A "n" (Np + i)) (ent A "t" (Np + i)) (ent A "d" (Np + i))
            (ent A "eta" (Np + i)) (ent A "beta" (Np + i)) (ent A "gamma" (Np + i)) (ent A "epsilon" (Np + i)) τ δ
    else buildCombined gerg o Np = .throws .stdInvalidArgument := by
  have hs := allSameLength_eq o A "n" _ h
  have hb : buildCombined gerg o Np = if decide (∀ k' ∈ ["t", "d", "eta", "beta", "gamma", "epsilon"],
      (A k').length = (A "n").length) = false then .throws .stdInvalidArgument
      else .ok [.power ((powerEntries Np (A "n") (A "t") (A "d") (A "l")).map PowerEntry.toPow),
        if gerg then .gerg2004 ((gaussEntries (A "n").length (A "n") (A "t") (A "d") (A "eta") (A "beta") (A "gamma")
          (A "epsilon")).drop Np) else .gaussian ((gaussEntries (A "n").length (A "n") (A "t") (A "d") (A "eta")
          (A "beta") (A "gamma") (A "epsilon")).drop Np)] := by
    unfold buildCombined
    rw [h "n" (by simp [gaussKeys]), h "t" (by simp [gaussKeys]), h "d" (by simp [gaussKeys]),
      h "eta" (by simp [gaussKeys]), h "beta" (by simp [gaussKeys]), h "gamma" (by simp [gaussKeys]),
      h "epsilon" (by simp [gaussKeys])]
    unfold gaussKeys
    rw [hs]
    simp only [Outcome.bind_ok]
    have hnub : ¬((Np : ℤ) < 0 ∨ ((A "n").length : ℤ) < Np) := by omega
    rw [if_neg hnub, Int.toNat_natCast]
    unfold headPower
    rw [arr_lookup o "l" _ hl]
    simp only [JVal.toArr, Outcome.bind_ok]
    have hnl : ¬(A "l").length < Np := by omega
    rw [if_neg hnl]
    split
    · rfl
    · simp only [Outcome.bind_ok]
  rw [hb]
  by_cases hc : ∀ k ∈ gaussKeys, (A k).length = (A "n").length
  · rw [if_pos hc, if_neg (by
      rw [decide_eq_false_iff_not, not_not]
      exact fun k hk => hc k (List.mem_cons_of_mem _ hk))]
    refine ⟨_, rfl, fun τ δ hτ hδ => ?_⟩
    simp only [containerAlphar, List.map_cons, List.map_nil, List.sum_cons, List.sum_nil, add_zero]
    rw [alphar_pos _ _ _ hτ hδ, alphar_pos _ _ _ hτ hδ]
    congr 1
    · rw [← powerEntries_value]
      simp only [ResTerm.doc, List.map_map, Function.comp_def]
      refine sum_map_congr _ _ _ fun e he => toPow_value e ?_ τ δ
      unfold powerEntries at he
      obtain ⟨i, hi, rfl⟩ := List.mem_map.mp he
      have hi' : i < (A "l").length := lt_of_lt_of_le (List.mem_range.mp hi) hNl
      obtain ⟨z, hz'⟩ := hz _ (List.getElem_mem hi')
      change ((castInt ((A "l").getD i 0) : ℤ) : ℝ) = (A "l").getD i 0
      rw [List.getD_eq_getElem _ _ hi', hz', castInt_natCast]
      simp
    · cases gerg
      · simp only [Bool.false_eq_true, if_false, ResTerm.doc, ← List.map_drop, gaussEntries, List.map_map,
          Function.comp_def, listed]
        rw [List.map_drop, drop_listed]
      · simp only [if_true, ResTerm.doc, ← List.map_drop, gaussEntries, List.map_map,
          Function.comp_def, listed]
        rw [List.map_drop, drop_listed]
  · rw [if_neg hc, if_pos]
    rw [decide_eq_false_iff_not]
    intro hk
    exact hc (List.forall_mem_cons.mpr ⟨rfl, hk⟩)

/-- One power term `δ exp(-δ)` and one special term `2δ`. -/
noncomputable def combinedDoc : JObj := [("n", .arr [1, 2]), ("t", .arr [0, 0]), ("d", .arr [1, 1]),
  ("eta", .arr [9, 0]), ("beta", .arr [9, 0]), ("gamma", .arr [9, 0]), ("epsilon", .arr [9, 0]), ("l", .arr [1, 0])]

example (gerg : Bool) : ∃ ts, buildCombined gerg combinedDoc 1 = .ok ts ∧
    containerAlphar ts 1 1 = Real.exp (-1) + 2 := by
  have h : HasArrays combinedDoc gaussKeys (arrays combinedDoc) := by
    unfold HasArrays gaussKeys
    simp only [List.forall_mem_cons, List.not_mem_nil, false_imp_iff, implies_true, and_true]
    exact ⟨rfl, rfl, rfl, rfl, rfl, rfl, rfl⟩
  have e1 : arrays combinedDoc "n" = [1, 2] := rfl
  have e2 : arrays combinedDoc "t" = [0, 0] := rfl
  have e3 : arrays combinedDoc "d" = [1, 1] := rfl
  have e4 : arrays combinedDoc "l" = [1, 0] := rfl
  have e5 : arrays combinedDoc "eta" = [9, 0] := rfl
  have e6 : arrays combinedDoc "beta" = [9, 0] := rfl
  have h' := combined_document gerg combinedDoc _ h rfl 1 (by rw [e1]; simp) (by rw [e4]; simp) (by
    rw [e4]
    intro x hx
    simp only [List.mem_cons, List.not_mem_nil, or_false] at hx
    rcases hx with rfl | rfl
    · exact ⟨1, by simp⟩
    · exact ⟨0, by simp⟩)
  rw [if_pos (by
    unfold gaussKeys
    simp only [List.forall_mem_cons, List.not_mem_nil, false_imp_iff, implies_true, and_true, true_and]
    exact ⟨rfl, rfl, rfl, rfl, rfl, rfl⟩)] at h'
  obtain ⟨ts, hts, hv⟩ := h'
  refine ⟨ts, by simpa using hts, ?_⟩
  rw [hv 1 1 one_pos one_pos]
  cases gerg <;>
    simp [listed, ent, e1, e2, e3, e4, e5, e6, powerSummand, expSummand, gaussSummand, gergSummand]

/-- C68. `Npower` outside of the arrays, or more power terms than exponents, is undefined behaviour. -/
theorem combined_ub (gerg : Bool) (o : JObj) (A : String → List ℝ) (h : HasArrays o gaussKeys A)
    (hlen : ∀ k ∈ gaussKeys, (A k).length = (A "n").length) (Np : ℤ)
    (hbad : Np < 0 ∨ ((A "n").length : ℤ) < Np ∨ (o.arr "l" = .ok (A "l") ∧ ((A "l").length : ℤ) < Np)) :
    buildCombined gerg o Np = .ub := by
  have hs := allSameLength_eq o A "n" _ h
  have hd : decide (∀ k' ∈ ["t", "d", "eta", "beta", "gamma", "epsilon"], (A k').length = (A "n").length) = true :=
    decide_eq_true fun k hk => hlen k (List.mem_cons_of_mem _ hk)
  rw [hd] at hs
  unfold buildCombined
  rw [h "n" (by simp [gaussKeys]), h "t" (by simp [gaussKeys]), h "d" (by simp [gaussKeys]),
    h "eta" (by simp [gaussKeys]), h "beta" (by simp [gaussKeys]), h "gamma" (by simp [gaussKeys]),
    h "epsilon" (by simp [gaussKeys])]
  unfold gaussKeys
  rw [hs]
  simp only [Outcome.bind_ok, Bool.true_eq_false, if_false]
  by_cases hb : Np < 0 ∨ ((A "n").length : ℤ) < Np
  · rw [if_pos hb]
  · rw [if_neg hb]
    have hl : o.arr "l" = .ok (A "l") ∧ ((A "l").length : ℤ) < Np := by
      rcases hbad with hbad | hbad | hbad
      · exact absurd (Or.inl hbad) hb
      · exact absurd (Or.inr hbad) hb
      · exact hbad
    unfold headPower
    rw [arr_lookup o "l" _ hl.1]
    simp only [JVal.toArr, Outcome.bind_ok]
    rw [if_pos (by omega)]
    simp

example : buildCombined true combinedDoc 3 = .ub := by
  have h : HasArrays combinedDoc gaussKeys (arrays combinedDoc) := by
    unfold HasArrays gaussKeys
    simp only [List.forall_mem_cons, List.not_mem_nil, false_imp_iff, implies_true, and_true]
    exact ⟨rfl, rfl, rfl, rfl, rfl, rfl, rfl⟩
  refine combined_ub true combinedDoc _ h ?_ 3 (Or.inr (Or.inl ?_))
  · unfold gaussKeys
    simp only [List.forall_mem_cons, List.not_mem_nil, false_imp_iff, implies_true, and_true, true_and]
    exact ⟨rfl, rfl, rfl, rfl, rfl, rfl⟩
  · have e1 : arrays combinedDoc "n" = [1, 2] := rfl
    rw [e1]; simp

/-! ## Whole documents -/

theorem buildTerms_value (docs : List JObj) (ts : List ResTerm) (h : buildTerms docs = .ok ts) (τ δ : ℝ) :
    ∃ tss : List (List ResTerm), List.Forall₂ (fun o ts => buildTerm o = .ok ts) docs tss ∧
      containerAlphar ts τ δ = (tss.map fun ts => containerAlphar ts τ δ).sum := by
  induction docs generalizing ts with
  | nil =>
    cases h
    exact ⟨[], List.Forall₂.nil, by simp [containerAlphar]⟩
  | cons o os ih =>
    rw [buildTerms] at h
    cases h1 : buildTerm o with
    | ok t1 =>
      rw [h1] at h
      cases h2 : buildTerms os with
      | ok t2 =>
        rw [h2] at h
        simp only [Outcome.bind_ok, Outcome.ok.injEq] at h
        obtain ⟨tss, hf, hv⟩ := ih t2 h2
        refine ⟨t1 :: tss, List.Forall₂.cons h1 hf, ?_⟩
        rw [← h, List.map_cons, List.sum_cons, ← hv]
        simp [containerAlphar]
      | throws e => rw [h2] at h; cases h
      | ub => rw [h2] at h; cases h
      | nonFinite => rw [h2] at h; cases h
    | throws e => rw [h1] at h; cases h
    | ub => rw [h1] at h; cases h
    | nonFinite => rw [h1] at h; cases h

/-- C28. The terms of a pure fluid: no list of terms is refused without reason, an empty list and a term of
unknown type are refused before anything is built, and the value is the sum over the documents. -/
theorem eos_terms (docs : List JObj) :
    (docs = [] → getEOSTerms docs = .throws .invalidArgument) ∧
    ((∃ o ∈ docs, ∃ ty, o.type = .ok ty ∧ ty ∉ allowedTypes) → (∀ o ∈ docs, ∃ ty, o.type = .ok ty) →
      getEOSTerms docs = .throws .stdInvalidArgument) ∧
    (∀ ts, getEOSTerms docs = .ok ts → ∀ τ δ, ∃ tss : List (List ResTerm),
      List.Forall₂ (fun o ts => buildTerm o = .ok ts) docs tss ∧
      containerAlphar ts τ δ = (tss.map fun ts => containerAlphar ts τ δ).sum) := by
  have hck : (∃ o ∈ docs, ∃ ty, o.type = .ok ty ∧ ty ∉ allowedTypes) → (∀ o ∈ docs, ∃ ty, o.type = .ok ty) →
      checkTypes docs = .throws .stdInvalidArgument := by
    induction docs with
    | nil => rintro ⟨o, ho, _⟩; cases ho
    | cons a os ih =>
      rintro ⟨o, ho, ty, hty, hn⟩ hall
      obtain ⟨tya, hta⟩ := hall a (by simp)
      rw [checkTypes, hta]
      simp only [Outcome.bind_ok]
      by_cases hm : tya ∈ allowedTypes
      · rw [if_pos hm]
        rcases List.mem_cons.mp ho with rfl | ho
        · rw [hta] at hty
          cases hty
          exact absurd hm hn
        · exact ih ⟨o, ho, ty, hty, hn⟩ fun o' ho' => hall o' (List.mem_cons_of_mem _ ho')
      · rw [if_neg hm]
  refine ⟨fun h => by rw [h]; rfl, fun h1 h2 => ?_, fun ts h τ δ => ?_⟩
  · have hne : docs ≠ [] := by
      rintro rfl
      obtain ⟨o, ho, _⟩ := h1
      cases ho
    unfold getEOSTerms
    rw [if_neg hne, hck h1 h2]
    rfl
  · unfold getEOSTerms at h
    by_cases hne : docs = []
    · rw [if_pos hne] at h; cases h
    rw [if_neg hne] at h
    cases hc : checkTypes docs with
    | ok u => rw [hc] at h; exact buildTerms_value docs ts h τ δ
    | throws e => rw [hc] at h; cases h
    | ub => rw [hc] at h; cases h
    | nonFinite => rw [hc] at h; cases h

example : getEOSTerms [[("type", .str "ResidualHelmholtzMystery")]] = .throws .stdInvalidArgument := by
  refine (eos_terms _).2.1 ⟨_, List.mem_singleton_self _, "ResidualHelmholtzMystery", rfl, by decide⟩ ?_
  intro o ho
  rw [List.mem_singleton] at ho
  rw [ho]
  exact ⟨_, rfl⟩

/-- C28. Every type accepted by the check of types is built by its own builder; in particular no accepted type
falls through. -/
theorem buildTerm_dispatch (o : JObj) :
    (o.type = .ok "ResidualHelmholtzPower" → buildTerm o = buildPowerPure o) ∧
    (o.type = .ok "ResidualHelmholtzGaussian" → buildTerm o = buildGaussian o) ∧
    (o.type = .ok "ResidualHelmholtzNonAnalytic" → buildTerm o = buildNonAnalytic o) ∧
    (o.type = .ok "ResidualHelmholtzLemmon2005" → buildTerm o = buildLemmon o) ∧
    (o.type = .ok "ResidualHelmholtzGaoB" → buildTerm o = buildGaoB o) ∧
    (o.type = .ok "ResidualHelmholtzExponential" → buildTerm o = buildExponential o) ∧
    (o.type = .ok "ResidualHelmholtzDoubleExponential" → buildTerm o = buildDoubleExp o) := by
  refine ⟨?_, ?_, ?_, ?_, ?_, ?_, ?_⟩ <;>
  · intro h
    unfold buildTerm
    rw [h]
    simp

example : ∃ o : JObj, o.type = .ok "ResidualHelmholtzGaoB" :=
  ⟨[("type", .str "ResidualHelmholtzGaoB")], rfl⟩

end Teqp.Props
