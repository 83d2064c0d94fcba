import Verif.Model.Factory
import Verif.Lemmas.Outcome
import Mathlib.Data.List.Basic
import Mathlib.Data.List.Forall2
import Mathlib.Data.List.Nodup
import Mathlib.Tactic.Linarith
import Mathlib.Tactic.IntervalCases

/-! # C53-C55, C75: the model factory, containers and JSON documents -/

set_option autoImplicit false

namespace Teqp.Props
open Teqp.Model

/-! ## Matrices from JSON (C55) -/

/-- The document is an array of `n` arrays of `n` numbers, and `v` gives the number at each place. -/
def IsMatrix (j : JTree) (n : Nat) (v : Nat → Nat → ℝ) : Prop :=
  ∃ xs, j = .arr xs ∧ xs.length = n ∧ ∀ i < n, ∃ ys, xs[i]? = some (.arr ys) ∧ ys.length = n ∧
    ∀ k < n, ys[k]? = some (.num (v i k))

theorem mapOutcome_ok {α β : Type} (f : α → Outcome β) (l : List α) (bs : List β) :
    mapOutcome f l = .ok bs ↔ List.Forall₂ (fun a b => f a = .ok b) l bs := by
  induction l generalizing bs with
  | nil =>
    simp only [mapOutcome, List.forall₂_nil_left_iff]
    constructor
    · intro h; cases h; rfl
    · rintro rfl; rfl
  | cons a l ih =>
    simp only [mapOutcome]
    constructor
    · intro h
      obtain ⟨b, h1, h2⟩ := Outcome.bind_eq_ok.mp h
      obtain ⟨cs, h3, h4⟩ := Outcome.bind_eq_ok.mp h2
      cases h4
      exact List.Forall₂.cons h1 ((ih _).mp h3)
    · intro h
      cases h with
      | cons h1 h2 => rw [h1, Outcome.bind_ok, (ih _).mpr h2, Outcome.bind_ok]

theorem mapOutcome_json {α β : Type} (f : α → Outcome β)
    (hf : ∀ a, (∃ b, f a = .ok b) ∨ f a = .throws .jsonError) (l : List α) :
    (∃ bs, mapOutcome f l = .ok bs) ∨ mapOutcome f l = .throws .jsonError := by
  induction l with
  | nil => exact Or.inl ⟨[], rfl⟩
  | cons a l ih =>
    simp only [mapOutcome]
    rcases hf a with ⟨b, hb⟩ | hb
    · rcases ih with ⟨bs, h⟩ | h
      · exact Or.inl ⟨b :: bs, by rw [hb, h]; rfl⟩
      · exact Or.inr (by rw [hb, h]; rfl)
    · exact Or.inr (by rw [hb]; rfl)

theorem toDouble_ok (j : JTree) (x : ℝ) : j.toDouble = .ok x ↔ j = .num x := by
  cases j <;> simp [JTree.toDouble]

theorem toDouble_json (j : JTree) : (∃ b, j.toDouble = .ok b) ∨ j.toDouble = .throws .jsonError := by
  cases j <;> simp [JTree.toDouble]

theorem toRow_ok (j : JTree) (r : List ℝ) : j.toRow = .ok r ↔ j = .arr (r.map .num) := by
  have key : ∀ (xs : List JTree) (r : List ℝ),
      List.Forall₂ (fun a b => JTree.toDouble a = .ok b) xs r ↔ xs = r.map .num := by
    intro xs
    induction xs with
    | nil => intro r; cases r <;> simp
    | cons x xs ih =>
      intro r
      cases r with
      | nil => simp
      | cons y r => rw [List.forall₂_cons, List.map_cons, List.cons.injEq, toDouble_ok, ih]
  cases j with
  | arr xs =>
    simp only [JTree.toRow, mapOutcome_ok, key, JTree.arr.injEq]
  | null => simp [JTree.toRow]
  | bool b => simp [JTree.toRow]
  | num b => simp [JTree.toRow]
  | str b => simp [JTree.toRow]
  | obj b => simp [JTree.toRow]

theorem toRow_json (j : JTree) : (∃ b, j.toRow = .ok b) ∨ j.toRow = .throws .jsonError := by
  cases j with
  | arr xs => exact mapOutcome_json _ toDouble_json xs
  | null => simp [JTree.toRow]
  | bool b => simp [JTree.toRow]
  | num b => simp [JTree.toRow]
  | str b => simp [JTree.toRow]
  | obj b => simp [JTree.toRow]

theorem toRows_ok (j : JTree) (m : List (List ℝ)) :
    j.toRows = .ok m ↔ j = .arr (m.map fun r => .arr (r.map .num)) := by
  have key : ∀ (xs : List JTree) (m : List (List ℝ)),
      List.Forall₂ (fun a b => JTree.toRow a = .ok b) xs m ↔ xs = m.map fun r => .arr (r.map .num) := by
    intro xs
    induction xs with
    | nil => intro r; cases r <;> simp
    | cons x xs ih =>
      intro r
      cases r with
      | nil => simp
      | cons y r => rw [List.forall₂_cons, List.map_cons, List.cons.injEq, toRow_ok, ih]
  cases j with
  | arr xs => simp only [JTree.toRows, mapOutcome_ok, key, JTree.arr.injEq]
  | null => simp [JTree.toRows]
  | bool b => simp [JTree.toRows]
  | num b => simp [JTree.toRows]
  | str b => simp [JTree.toRows]
  | obj b => simp [JTree.toRows]

theorem toRows_json (j : JTree) : (∃ b, j.toRows = .ok b) ∨ j.toRows = .throws .jsonError := by
  cases j with
  | arr xs => exact mapOutcome_json _ toRow_json xs
  | null => simp [JTree.toRows]
  | bool b => simp [JTree.toRows]
  | num b => simp [JTree.toRows]
  | str b => simp [JTree.toRows]
  | obj b => simp [JTree.toRows]

theorem copyRow_val (i : Nat) (xs : List ℝ) : ∀ (k : Nat) (v : Nat → Nat → ℝ) (i' k' : Nat),
    copyRow i k xs v i' k' =
      if i' = i ∧ k ≤ k' ∧ k' - k < xs.length then xs.getD (k' - k) 0 else v i' k' := by
  induction xs with
  | nil => intro k v i' k'; simp [copyRow]
  | cons x xs ih =>
    intro k v i' k'
    rw [copyRow, ih]
    by_cases hi : i' = i
    · subst hi
      by_cases hk : k' = k
      · subst hk
        rw [if_neg (by omega), if_pos (by simp)]
        simp
      · by_cases hlt : k < k'
        · have hs : k' - k = (k' - (k + 1)) + 1 := by omega
          by_cases hl : k' - (k + 1) < xs.length
          · rw [if_pos ⟨rfl, by omega, hl⟩, if_pos ⟨rfl, by omega, by simp; omega⟩, hs]
            simp
          · rw [if_neg (by omega), if_neg (by simp; omega)]
            simp [hk]
        · rw [if_neg (by omega), if_neg (by omega)]
          simp [hk]
    · rw [if_neg (by tauto), if_neg (by tauto)]
      simp [hi]

theorem copyRows_ok (n : Nat) (rows : List (List ℝ)) : ∀ (i : Nat) (v : Nat → Nat → ℝ),
    (∀ r ∈ rows, r.length = n) → ∃ w, copyRows n i rows v = .ok w ∧
      (∀ a b, a < i → w a b = v a b) ∧
      ∀ a b, a < rows.length → b < n → w (i + a) b = (rows.getD a []).getD b 0 := by
  induction rows with
  | nil => intro i v _; exact ⟨v, rfl, fun _ _ _ => rfl, fun a b h => by simp at h⟩
  | cons r rows ih =>
    intro i v h
    have hr : r.length = n := h r (by simp)
    obtain ⟨w, h1, h2, h3⟩ := ih (i + 1) (copyRow i 0 r v) (fun r' hr' => h r' (by simp [hr']))
    refine ⟨w, ?_, ?_, ?_⟩
    · rw [copyRows, if_neg (by simp [hr])]; exact h1
    · intro a b ha
      rw [h2 a b (by omega), copyRow_val, if_neg (by omega)]
    · intro a b ha hb
      cases a with
      | zero =>
        rw [h2 _ b (by omega), copyRow_val, if_pos ⟨by omega, by omega, by omega⟩]
        simp
      | succ a =>
        have := h3 a b (by simpa using ha) hb
        rw [show i + (a + 1) = i + 1 + a by omega, this]
        simp

theorem copyRows_bad (n : Nat) (rows : List (List ℝ)) : ∀ (i : Nat) (v : Nat → Nat → ℝ),
    (∃ r ∈ rows, r.length ≠ n) → copyRows n i rows v = .throws .stdInvalidArgument := by
  induction rows with
  | nil => rintro i v ⟨r, h, -⟩; simp at h
  | cons r rows ih =>
    rintro i v ⟨r', h, hl⟩
    rw [copyRows]
    by_cases hr : r.length ≠ n
    · rw [if_pos hr]
    · rw [if_neg hr]
      rcases List.mem_cons.mp h with rfl | h
      · exact absurd hl hr
      · exact ih _ _ ⟨r', h, hl⟩

/-- The rows as a matrix document. -/
theorem isMatrix_rows (m : List (List ℝ)) (n : Nat) (v : Nat → Nat → ℝ) :
    IsMatrix (.arr (m.map fun r => .arr (r.map .num))) n v ↔
      m.length = n ∧ (∀ r ∈ m, r.length = n) ∧ ∀ i k, i < n → k < n → v i k = (m.getD i []).getD k 0 := by
  constructor
  · rintro ⟨xs, hx, hl, h⟩
    cases hx
    have hml : m.length = n := by simpa using hl
    refine ⟨hml, ?_, ?_⟩
    · intro r hr
      obtain ⟨i, hi, rfl⟩ := List.getElem_of_mem hr
      obtain ⟨ys, h1, h2, -⟩ := h i (by omega)
      rw [List.getElem?_map, List.getElem?_eq_getElem hi] at h1
      simp only [Option.map_some, Option.some.injEq, JTree.arr.injEq] at h1
      rw [← h1] at h2; simpa using h2
    · intro i k hi hk
      obtain ⟨ys, h1, h2, h3⟩ := h i hi
      have him : i < m.length := by omega
      rw [List.getElem?_map, List.getElem?_eq_getElem him] at h1
      simp only [Option.map_some, Option.some.injEq, JTree.arr.injEq] at h1
      have := h3 k hk
      rw [← h1] at this h2
      have hk' : k < (m[i]).length := by
        rw [List.length_map] at h2; omega
      rw [List.getElem?_map, List.getElem?_eq_getElem hk'] at this
      simp only [Option.map_some, Option.some.injEq, JTree.num.injEq] at this
      simp [him, hk', this]
  · rintro ⟨hl, hr, hv⟩
    refine ⟨_, rfl, by simpa using hl, ?_⟩
    intro i hi
    have him : i < m.length := by omega
    refine ⟨(m[i]).map .num, ?_, ?_, ?_⟩
    · rw [List.getElem?_map, List.getElem?_eq_getElem him]; rfl
    · simpa using hr _ (List.getElem_mem him)
    · intro k hk
      have hk' : k < (m[i]).length := by rw [hr _ (List.getElem_mem him)]; exact hk
      rw [List.getElem?_map, List.getElem?_eq_getElem hk', hv i k hi hk]
      simp [him, hk']

theorem isMatrix_form {j : JTree} {n : Nat} {v : Nat → Nat → ℝ} (h : IsMatrix j n v) :
    ∃ m : List (List ℝ), j = .arr (m.map fun r => .arr (r.map .num)) := by
  obtain ⟨xs, rfl, hl, h⟩ := h
  refine ⟨(List.range n).map (fun i => (List.range n).map (v i)), ?_⟩
  congr 1
  apply List.ext_getElem?
  intro i
  by_cases hi : i < n
  · obtain ⟨ys, h1, h2, h3⟩ := h i hi
    rw [h1]
    simp only [List.getElem?_map, List.getElem?_range hi, Option.map_some, Option.some.injEq,
      JTree.arr.injEq]
    apply List.ext_getElem?
    intro k
    by_cases hk : k < n
    · rw [h3 k hk]; simp [hk]
    · rw [List.getElem?_eq_none (by omega), List.getElem?_eq_none (by simp; omega)]
  · rw [List.getElem?_eq_none (by omega), List.getElem?_eq_none (by simp; omega)]

/-- A matrix document is loaded with exactly its entries: same size, and the element in row `i`, column
`k` is the `k`-th number of the `i`-th inner array. -/
theorem buildSquareMatrix_faithful (j : JTree) (n : Nat) (v : Nat → Nat → ℝ) (h : IsMatrix j n v) :
    ∃ r, buildSquareMatrix j = .ok r ∧ r.n = n ∧ ∀ i k, i < n → k < n → r.val i k = v i k := by
  obtain ⟨m, rfl⟩ := isMatrix_form h
  obtain ⟨hl, hr, hv⟩ := (isMatrix_rows m n v).mp h
  cases hm : m with
  | nil =>
    subst hm
    exact ⟨_, rfl, by simpa using hl, fun i k hi => by simp at hl; omega⟩
  | cons r0 m0 =>
    rw [← hm]
    obtain ⟨w, h1, -, h3⟩ := copyRows_ok n m 0 (fun _ _ => 0) hr
    have htr : (JTree.arr (m.map fun r => .arr (r.map .num))).toRows = .ok m := (toRows_ok _ _).mpr rfl
    refine ⟨⟨n, w⟩, ?_, rfl, ?_⟩
    · have hb : buildSquareMatrix (.arr (m.map fun r => .arr (r.map .num))) =
          catchJson ((JTree.arr (m.map fun r => .arr (r.map .num))).toRows.bind fun m =>
            (copyRows m.length 0 m (fun _ _ => 0)).bind fun v => .ok ⟨m.length, v⟩) := by
        rw [hm]; rfl
      rw [hb, htr, Outcome.bind_ok, hl, h1]
      rfl
    · intro i k hi hk
      have := h3 i k (by omega) hk
      rw [Nat.zero_add] at this
      show w i k = v i k
      rw [this, hv i k hi hk]

/-- Everything else is refused: a document that is neither null nor a square array of arrays of numbers
(ragged, rectangular, or with an element that is not a number) raises an error. -/
theorem buildSquareMatrix_refuses (j : JTree) (h0 : j ≠ .null) (h : ¬ ∃ n v, IsMatrix j n v) :
    buildSquareMatrix j = .throws .invalidArgument ∨ buildSquareMatrix j = .throws .stdInvalidArgument := by
  have hne : j ≠ .arr [] := by
    rintro rfl
    exact h ⟨0, fun _ _ => 0, [], rfl, rfl, fun i hi => by omega⟩
  have hb : buildSquareMatrix j = catchJson (j.toRows.bind fun m =>
      (copyRows m.length 0 m (fun _ _ => 0)).bind fun v => .ok ⟨m.length, v⟩) := by
    cases j with
    | null => exact absurd rfl h0
    | arr xs =>
      cases xs with
      | nil => exact absurd rfl hne
      | cons x xs => rfl
    | bool b => rfl
    | num b => rfl
    | str b => rfl
    | obj b => rfl
  rw [hb]
  rcases toRows_json j with ⟨m, hm⟩ | hm
  · right
    rw [hm, Outcome.bind_ok]
    have hj := (toRows_ok _ _).mp hm
    rw [copyRows_bad]
    · rfl
    · by_contra hall
      push Not at hall
      refine h ⟨m.length, fun i k => (m.getD i []).getD k 0, ?_⟩
      rw [hj, isMatrix_rows]
      exact ⟨rfl, hall, fun _ _ _ _ => rfl⟩
  · left
    rw [hm]; rfl

/-- An absent matrix (null) is the empty one. -/
theorem buildSquareMatrix_null : buildSquareMatrix .null = .ok ⟨0, fun _ _ => 0⟩ := rfl

example : IsMatrix (.arr [.arr [.num 1, .num 2], .arr [.num 3, .num 4]]) 2
    (fun i k => 1 + 2 * i + k) := by
  refine ⟨_, rfl, rfl, ?_⟩
  intro i hi
  interval_cases i
  · refine ⟨_, rfl, rfl, fun k hk => ?_⟩
    interval_cases k <;> norm_num
  · refine ⟨_, rfl, rfl, fun k hk => ?_⟩
    interval_cases k <;> norm_num

example : buildSquareMatrix (.arr [.arr [.num 1, .num 2], .arr [.num 3]]) = .throws .stdInvalidArgument ∧
    buildSquareMatrix (.arr [.arr [.num 1, .num 2]]) = .throws .stdInvalidArgument ∧
    buildSquareMatrix (.arr [.arr [.bool true]]) = .throws .invalidArgument ∧
    buildSquareMatrix (.num 3) = .throws .invalidArgument := by
  refine ⟨?_, ?_, ?_, ?_⟩ <;>
    simp [buildSquareMatrix, JTree.toRows, mapOutcome, JTree.toRow, JTree.toDouble, catchJson, copyRows]

/-! ## Names of files and JSON texts (C75) -/

/-- A value that stands for "not given". -/
def NotGiven (j : JTree) : Prop := j = .null ∨ j = .arr [] ∨ j = .str ""

/-- What a JSON argument stands for: nothing given means the default file (an error if there is none);
objects and non-empty arrays stand for themselves; a text stands for the content of the file it names if
that file exists and otherwise for itself read as JSON; numbers and booleans are refused. -/
theorem jsonTreeLoad_spec (fs : String → PathInfo) (parse : String → Option JTree) (dflt : Option String)
    (j : JTree) :
    (NotGiven j → dflt = none → jsonTreeLoad fs parse dflt j = .throws .invalidArgument) ∧
    (NotGiven j → ∀ p, dflt = some p → jsonTreeLoad fs parse dflt j = loadJsonFile fs parse p) ∧
    (∀ f, j = .obj f → jsonTreeLoad fs parse dflt j = .ok j) ∧
    (∀ xs, j = .arr xs → xs ≠ [] → jsonTreeLoad fs parse dflt j = .ok j) ∧
    (∀ s, j = .str s → s ≠ "" → (∃ t, fs s = .content t) →
      jsonTreeLoad fs parse dflt j = loadJsonFile fs parse s) ∧
    (∀ s, j = .str s → s ≠ "" → (fs s = .noFile ∨ fs s = .raises) →
      (∀ v, parse s = some v → jsonTreeLoad fs parse dflt j = .ok v) ∧
      (parse s = none → jsonTreeLoad fs parse dflt j = .throws .jsonError)) ∧
    ((∃ x, j = .num x) ∨ (∃ b, j = .bool b) → jsonTreeLoad fs parse dflt j = .throws .invalidArgument) := by
  refine ⟨?_, ?_, ?_, ?_, ?_, ?_, ?_⟩
  · rintro (rfl | rfl | rfl) rfl <;> simp [jsonTreeLoad]
  · rintro (rfl | rfl | rfl) p rfl <;> simp [jsonTreeLoad]
  · rintro f rfl; rfl
  · rintro xs rfl hx
    cases xs with
    | nil => exact absurd rfl hx
    | cons x xs => rfl
  · rintro s rfl hs ⟨t, ht⟩
    simp [jsonTreeLoad, hs, ht]
  · rintro s rfl hs hf
    constructor
    · intro v hv
      rcases hf with hf | hf <;> simp [jsonTreeLoad, hs, hf, hv]
    · intro hv
      rcases hf with hf | hf <;> simp [jsonTreeLoad, hs, hf, hv]
  · rintro (⟨x, rfl⟩ | ⟨b, rfl⟩) <;> rfl

/-- A file is loaded only if it exists, can be read and holds JSON; the result is its content. -/
theorem loadJsonFile_ok (fs : String → PathInfo) (parse : String → Option JTree) (p : String) (j : JTree) :
    loadJsonFile fs parse p = .ok j ↔ ∃ t, fs p = .content t ∧ parse t = some j := by
  unfold loadJsonFile
  cases h : fs p with
  | raises => simp
  | noFile => simp
  | unreadable => simp
  | content t =>
    simp only
    cases hp : parse t with
    | none => simp [hp]
    | some v => simp [hp]

/-- The lengths of all named fields agree iff the check says so; an empty list of names never passes. -/
theorem jsonSameLength_spec (j : JTree) (ks : List String) :
    (jsonSameLength j ks = .ok true ↔ ∃ n, ks ≠ [] ∧ ∀ k ∈ ks, ∃ v, j.at k = .ok v ∧ v.size = n) := by
  have hat : ∀ k, (∃ v, j.at k = .ok v) ∨ j.at k = .throws .jsonError := by
    intro k
    cases j with
    | obj f =>
      simp only [JTree.at]
      cases f.lookup k with
      | none => simp
      | some v => simp
    | null => simp [JTree.at]
    | bool b => simp [JTree.at]
    | num b => simp [JTree.at]
    | str b => simp [JTree.at]
    | arr b => simp [JTree.at]
  have hdup : ∀ ls : List Nat, ls.eraseDups.length = 1 ↔ ∃ n, ls ≠ [] ∧ ∀ l ∈ ls, l = n := by
    intro ls
    cases ls with
    | nil => simp
    | cons a ls =>
      rw [List.eraseDups_cons]
      simp only [List.length_cons, Nat.add_eq_right, List.length_eq_zero_iff]
      constructor
      · intro h
        refine ⟨a, by simp, ?_⟩
        intro l hl
        rcases List.mem_cons.mp hl with rfl | hl
        · rfl
        · by_contra hne
          have hmem : l ∈ ls.filter (fun b => !b == a) := by
            rw [List.mem_filter]; exact ⟨hl, by simpa using hne⟩
          have : l ∈ (ls.filter (fun b => !b == a)).eraseDups := by
            rw [List.mem_eraseDups]; exact hmem
          rw [h] at this; simp at this
      · rintro ⟨n, -, h⟩
        have ha : a = n := h a (by simp)
        have : ls.filter (fun b => !b == a) = [] := by
          rw [List.filter_eq_nil_iff]
          intro b hb
          have := h b (by simp [hb])
          simp [this, ha]
        rw [this]; rfl
  unfold jsonSameLength
  rw [Outcome.bind_eq_ok]
  constructor
  · rintro ⟨ls, h1, h2⟩
    simp only [Outcome.ok.injEq, beq_iff_eq] at h2
    obtain ⟨n, hne, hall⟩ := (hdup ls).mp h2
    rw [mapOutcome_ok] at h1
    refine ⟨n, ?_, ?_⟩
    · rintro rfl
      cases h1; exact hne rfl
    · intro k hk
      clear h2 hne
      induction h1 with
      | nil => simp at hk
      | cons hab _ ih =>
        rcases List.mem_cons.mp hk with rfl | hk
        · obtain ⟨v, hv, hs⟩ := Outcome.bind_eq_ok.mp hab
          cases hs
          exact ⟨v, hv, hall _ (by simp)⟩
        · exact ih (fun l hl => hall l (by simp [hl])) hk
  · rintro ⟨n, hne, hall⟩
    refine ⟨List.replicate ks.length n, ?_, ?_⟩
    · rw [mapOutcome_ok]
      clear hne
      induction ks with
      | nil => simp
      | cons k ks ih =>
        rw [List.length_cons, List.replicate_succ]
        obtain ⟨v, hv, hs⟩ := hall k (by simp)
        exact List.Forall₂.cons (by rw [hv, Outcome.bind_ok, hs]) (ih (fun k' hk' => hall k' (by simp [hk'])))
    · simp only [Outcome.ok.injEq, beq_iff_eq]
      rw [hdup]
      refine ⟨n, ?_, ?_⟩
      · intro h
        apply hne
        simpa using h
      · intro l hl; exact (List.mem_replicate.mp hl).2

example : jsonSameLength (.obj [("n", .arr [.num 1, .num 2]), ("t", .arr [.num 3, .num 4])]) ["n", "t"]
    = .ok true ∧
    jsonSameLength (.obj [("n", .arr [.num 1, .num 2]), ("t", .arr [.num 3])]) ["n", "t"] = .ok false := by
  constructor <;> simp [jsonSameLength, mapOutcome, JTree.at, JTree.size, List.lookup, List.eraseDups_cons]

/-! ## The factory (C53) -/

section
variable {M : Type}

/-- Whether validation is requested: the entry of the document if there is one, else the argument. -/
def Requested (json : JTree) (validate : Bool) (d : Bool) : Prop :=
  (∃ b, json.at "validate" = .ok b ∧ b = .bool d) ∨
    (json.contains "validate" = false ∧ d = validate)

/-- The factory returns a model only for a registered kind given as text, with a specification, after
validation against the schema of that kind if this is requested and the kind has a schema; and the model
is the one made by the function registered for this kind. -/
theorem buildModelPtr_ok (r : Registry M) (schema : String → Option (JTree → Bool)) (json : JTree)
    (validate : Bool) (m : M) :
    buildModelPtr r schema json validate = .ok m ↔
      ∃ kind spec make d, json.at "kind" = .ok (.str kind) ∧ json.at "model" = .ok spec ∧
        r kind = some make ∧ Requested json validate d ∧
        (d = true → ∀ valid, schema kind = some valid → valid spec = true) ∧ make spec = .ok m := by
  have hreq : ∀ d, ((if json.contains "validate" then (json.at "validate").bind JTree.toBool
      else .ok validate) = .ok d ↔ Requested json validate d) := by
    intro d
    unfold Requested
    by_cases hc : json.contains "validate" = true
    · rw [if_pos hc, Outcome.bind_eq_ok]
      constructor
      · rintro ⟨b, h1, h2⟩
        refine Or.inl ⟨b, h1, ?_⟩
        cases b <;> simp [JTree.toBool] at h2 ⊢
        exact h2
      · rintro (⟨b, h1, rfl⟩ | ⟨h, -⟩)
        · exact ⟨_, h1, rfl⟩
        · rw [hc] at h; cases h
    · rw [if_neg hc]
      constructor
      · intro h; cases h
        exact Or.inr ⟨by simpa using hc, rfl⟩
      · rintro (⟨b, h1, rfl⟩ | ⟨-, rfl⟩)
        · exfalso
          apply hc
          cases json with
          | obj f =>
            simp only [JTree.at] at h1
            simp only [JTree.contains]
            cases hl : f.lookup "validate" with
            | none => rw [hl] at h1; cases h1
            | some v => rfl
          | null => cases h1
          | bool b => cases h1
          | num b => cases h1
          | str b => cases h1
          | arr b => cases h1
        · rfl
  unfold buildModelPtr
  constructor
  · intro h
    obtain ⟨k, h1, ha⟩ := Outcome.bind_eq_ok.mp h
    obtain ⟨kind, h2, hb⟩ := Outcome.bind_eq_ok.mp ha
    obtain ⟨spec, h3, hc⟩ := Outcome.bind_eq_ok.mp hb
    have hk : k = .str kind := by
      cases k <;> simp [JTree.toStr] at h2 ⊢
      exact h2
    clear h ha hb
    subst hk
    rename' hc => h
    cases hr : r kind with
    | none => rw [hr] at h; cases h
    | some make =>
      rw [hr] at h
      obtain ⟨d, h4, h⟩ := Outcome.bind_eq_ok.mp h
      refine ⟨kind, spec, make, d, h1, h3, hr, (hreq d).mp h4, ?_, ?_⟩
      · rintro rfl valid hv
        simp only [if_true, hv] at h
        by_cases hvs : valid spec = true
        · exact hvs
        · rw [if_neg hvs] at h; cases h
      · cases d with
        | false => simpa using h
        | true =>
          simp only [if_true] at h
          cases hsch : schema kind with
          | none => rw [hsch] at h; exact h
          | some valid =>
            rw [hsch] at h
            by_cases hvs : valid spec = true
            · simpa [hvs] using h
            · simp only [if_neg hvs] at h; cases h
  · rintro ⟨kind, spec, make, d, h1, h3, hr, h4, h5, h6⟩
    rw [h1, Outcome.bind_ok]
    simp only [JTree.toStr, Outcome.bind_ok, h3, hr]
    rw [(hreq d).mpr h4, Outcome.bind_ok]
    cases d with
    | false => simpa using h6
    | true =>
      simp only [if_true]
      cases hsch : schema kind with
      | none => exact h6
      | some valid => simp only [h5 rfl valid hsch, if_true]; exact h6

/-- An unknown kind, a missing or non-text kind and a missing specification are errors. -/
theorem buildModelPtr_refuses (r : Registry M) (schema : String → Option (JTree → Bool)) (fs : List (String × JTree))
    (validate : Bool) :
    (fs.lookup "kind" = none → buildModelPtr r schema (.obj fs) validate = .throws .jsonError) ∧
    (∀ v, fs.lookup "kind" = some v → (∀ s, v ≠ .str s) →
      buildModelPtr r schema (.obj fs) validate = .throws .jsonError) ∧
    (∀ s, fs.lookup "kind" = some (.str s) → fs.lookup "model" = none →
      buildModelPtr r schema (.obj fs) validate = .throws .jsonError) ∧
    (∀ s v, fs.lookup "kind" = some (.str s) → fs.lookup "model" = some v → r s = none →
      buildModelPtr r schema (.obj fs) validate = .throws .stdInvalidArgument) := by
  refine ⟨fun h => ?_, fun v h hv => ?_, fun s h h' => ?_, fun s v h h' hr => ?_⟩
  · simp [buildModelPtr, JTree.at, h]
  · have : v.toStr = .throws .jsonError := by
      cases v with
      | str s => exact absurd rfl (hv s)
      | null => rfl
      | bool b => rfl
      | num b => rfl
      | obj b => rfl
      | arr b => rfl
    simp [buildModelPtr, JTree.at, h, this]
  · simp [buildModelPtr, JTree.at, JTree.toStr, h, h']
  · simp [buildModelPtr, JTree.at, JTree.toStr, h, h', hr]

/-- With validation on and a schema for the kind, an invalid specification is an error. -/
theorem buildModelPtr_invalid (r : Registry M) (schema : String → Option (JTree → Bool)) (json : JTree)
    (validate : Bool) (kind : String) (spec : JTree) (make : MakeFn M) (valid : JTree → Bool)
    (h1 : json.at "kind" = .ok (.str kind)) (h2 : json.at "model" = .ok spec) (h3 : r kind = some make)
    (h4 : json.contains "validate" = false ∧ validate = true ∨ json.contains "validate" = true ∧
      json.at "validate" = .ok (.bool true)) (h5 : schema kind = some valid) (h6 : valid spec = false) :
    buildModelPtr r schema json validate = .throws .jsonValidation := by
  rcases h4 with ⟨h4, rfl⟩ | ⟨h4, h4'⟩
  · simp [buildModelPtr, h1, h2, h3, h4, h5, h6, JTree.toStr]
  · simp [buildModelPtr, h1, h2, h3, h4, h4', h5, h6, JTree.toStr, JTree.toBool]

/-- The claim that a missing schema is an error fails: without a schema for the kind, a request for
validation has no effect at all. -/
theorem buildModelPtr_no_schema (r : Registry M) (schema : String → Option (JTree → Bool))
    (fs : List (String × JTree)) (kind : String) (spec : JTree) (make : MakeFn M)
    (h0 : fs.lookup "validate" = none) (h1 : fs.lookup "kind" = some (.str kind))
    (h2 : fs.lookup "model" = some spec) (h3 : r kind = some make) (h5 : schema kind = none) :
    buildModelPtr r schema (.obj fs) true = make spec ∧
    buildModelPtr r schema (.obj fs) false = make spec := by
  constructor <;>
    simp [buildModelPtr, JTree.at, JTree.contains, JTree.toStr, h0, h1, h2, h3, h5]

/-- Registering: a new name is added with its function, a name in use is refused. -/
theorem addFactory_spec (r : Registry M) (key : String) (f : MakeFn M) :
    (r key = none → ∃ r', addFactory r key f = .ok r' ∧ r' key = some f ∧ ∀ k, k ≠ key → r' k = r k) ∧
    (∀ g, r key = some g → addFactory r key f = .throws .invalidArgument) := by
  constructor
  · intro h
    refine ⟨Function.update r key (some f), by simp only [addFactory, h], by simp,
      fun k hk => Function.update_of_ne hk _ _⟩
  · intro g h
    simp only [addFactory, h]

/-- After any sequence of registration attempts every name that was known still has the same function,
and every other name has the first function that was offered for it. -/
theorem registerAll_spec (r : Registry M) (l : List (String × MakeFn M)) (k : String) :
    registerAll r l k = match r k with
      | some f => some f
      | none => l.lookup k := by
  induction l generalizing r with
  | nil => simp only [registerAll, List.lookup]; cases r k <;> rfl
  | cons p l ih =>
    obtain ⟨key, f⟩ := p
    simp only [registerAll, addFactory]
    cases hr : r key with
    | some g =>
      simp only
      rw [ih]
      cases hk : r k with
      | some g' => rfl
      | none =>
        simp only
        rw [List.lookup_cons]
        have : (k == key) = false := by
          simp only [beq_eq_false_iff_ne]
          rintro rfl; rw [hr] at hk; cases hk
        rw [this]
    | none =>
      simp only
      rw [ih]
      by_cases hkk : k = key
      · subst hkk
        simp [hr]
      · rw [Function.update_of_ne hkk]
        have : (k == key) = false := by simpa using hkk
        cases hk : r k with
        | some g' => rfl
        | none => simp only [List.lookup_cons, this]

/-- The built-in names are all different, so that each of them selects its own function. -/
theorem builtinKinds_nodup : builtinKinds.Nodup := by decide +kernel

end

/-- A table with two kinds. -/
def toyRegistry : Registry Nat := fun k =>
  if k = "vdW1" then some fun _ => .ok 1
  else if k = "PR" then some fun j => match j with
    | .num _ => .ok 2
    | _ => .throws .jsonError
  else none

example : buildModelPtr toyRegistry (fun k => if k = "vdW1" then some (fun _ => false) else none)
      (.obj [("kind", .str "PR"), ("model", .num 1)]) true = .ok 2 ∧
    buildModelPtr toyRegistry (fun k => if k = "vdW1" then some (fun _ => false) else none)
      (.obj [("kind", .str "vdW1"), ("model", .num 1)]) true = .throws .jsonValidation ∧
    buildModelPtr toyRegistry (fun k => if k = "vdW1" then some (fun _ => false) else none)
      (.obj [("kind", .str "vdW1"), ("model", .num 1), ("validate", .bool false)]) true = .ok 1 ∧
    buildModelPtr toyRegistry (fun _ => none)
      (.obj [("kind", .str "SRK"), ("model", .num 1)]) true = .throws .stdInvalidArgument := by
  refine ⟨?_, ?_, ?_, ?_⟩ <;>
    simp [buildModelPtr, JTree.at, JTree.contains, JTree.toStr, JTree.toBool, List.lookup, toyRegistry]

example : registerAll toyRegistry [("new", fun _ => .ok 7), ("PR", fun _ => .ok 8), ("new", fun _ => .ok 9)]
    "new" = some (fun _ => .ok 7) := by
  rw [registerAll_spec]; simp [toyRegistry, List.lookup]

/-! ## Containers (C54) -/

section
variable {M : Type}

/-- The container after `n` additions. -/
structure ContInv (n : Nat) (c : Container M) : Prop where
  last : c.lastId = BitVec.ofNat 64 n
  below : ∀ id m, c.coll id = some m → 1 ≤ id.toNat ∧ id.toNat ≤ n

theorem contInv_new : ContInv 0 (Container.new M) := ⟨rfl, fun id m h => by cases h⟩

theorem contInv_add {n : Nat} {c : Container M} (h : ContInv n c) (hn : n + 1 < 2 ^ 64) (m : M) :
    ContInv (n + 1) (c.add m).1 ∧ (c.add m).2.toNat = n + 1 ∧ (c.add m).1.get (c.add m).2 = .ok m ∧
      ∀ id, id ≠ (c.add m).2 → (c.add m).1.get id = c.get id := by
  have huid : c.lastId + 1 = BitVec.ofNat 64 (n + 1) := by rw [h.last, BitVec.ofNat_add]; rfl
  have hnat : (c.lastId + 1).toNat = n + 1 := by
    rw [huid, BitVec.toNat_ofNat, Nat.mod_eq_of_lt hn]
  have hnone : c.coll (c.lastId + 1) = none := by
    cases hc : c.coll (c.lastId + 1) with
    | none => rfl
    | some m' => have := h.below _ _ hc; omega
  have hcoll : (c.add m).1.coll = Function.update c.coll (c.lastId + 1) (some m) := by
    simp only [Container.add, hnone]
  refine ⟨⟨huid, ?_⟩, hnat, ?_, ?_⟩
  · intro id m' hid
    rw [hcoll] at hid
    by_cases he : id = c.lastId + 1
    · subst he; omega
    · rw [Function.update_of_ne he] at hid
      have := h.below _ _ hid; omega
  · show Container.get _ (c.lastId + 1) = _
    simp only [Container.get, hcoll, Function.update_self]
  · intro id hid
    have hid' : id ≠ c.lastId + 1 := hid
    simp only [Container.get, hcoll, Function.update_of_ne hid']

theorem addAll_spec (ms : List M) : ∀ (n : Nat) (c : Container M), ContInv n c → n + ms.length < 2 ^ 64 →
    let r := Container.addAll c ms
    r.2.length = ms.length ∧ ContInv (n + ms.length) r.1 ∧
    (∀ i, i < ms.length → ∃ id, r.2[i]? = some id ∧ id.toNat = n + 1 + i ∧ ∃ m, ms[i]? = some m ∧ r.1.get id = .ok m) ∧
    ∀ id, id ∉ r.2 → r.1.get id = c.get id := by
  induction ms with
  | nil =>
    intro n c h hn
    exact ⟨rfl, by simpa [Container.addAll] using h, fun i hi => by simp at hi, fun _ _ => rfl⟩
  | cons m ms ih =>
    intro n c h hn
    rw [List.length_cons] at hn
    obtain ⟨h1, h2, h3, h4⟩ := contInv_add h (by omega) m
    obtain ⟨g1, g2, g3, g4⟩ := ih (n + 1) (c.add m).1 h1 (by omega)
    have hnot : (c.add m).2 ∉ (Container.addAll (c.add m).1 ms).2 := by
      intro hmem
      obtain ⟨i, hi, he⟩ := List.getElem_of_mem hmem
      have hi' : i < ms.length := by omega
      obtain ⟨id, e1, e2, -⟩ := g3 i hi'
      rw [List.getElem?_eq_getElem hi, he] at e1
      cases e1
      omega
    refine ⟨by simp only [Container.addAll, List.length_cons, g1], ?_, ?_, ?_⟩
    · have : n + 1 + ms.length = n + (m :: ms).length := by simp; omega
      simp only [Container.addAll]
      rw [← this]; exact g2
    · intro i hi
      cases i with
      | zero =>
        refine ⟨(c.add m).2, by simp [Container.addAll], by omega, m, by simp, ?_⟩
        simp only [Container.addAll]
        rw [g4 _ hnot, h3]
      | succ i =>
        obtain ⟨id, e1, e2, m', e3, e4⟩ := g3 i (by simpa using hi)
        exact ⟨id, by simpa [Container.addAll] using e1, by omega, m', by simpa using e3, e4⟩
    · intro id hid
      simp only [Container.addAll, List.mem_cons, not_or] at hid ⊢
      rw [g4 id hid.2, h4 id hid.1]

/-- Any number of models added to a new container get different identifiers, each identifier gives back
the model added under it, and any other identifier is refused, by `get_model` and by `caller`.  (The
container never drops a model, so that the bound on their number is that of the address space.) -/
theorem container_spec {R : Type} (ms : List M) (hn : ms.length < 2 ^ 64) :
    let r := Container.addAll (Container.new M) ms
    r.2.Nodup ∧ r.2.length = ms.length ∧
    (∀ (i : Nat) (m : M), ms[i]? = some m → ∃ id, r.2[i]? = some id ∧ r.1.get id = .ok m ∧
      ∀ f : M → Outcome R, r.1.caller id f = f m) ∧
    (∀ id, id ∉ r.2 → r.1.get id = .throws .stdOutOfRange ∧
      ∀ f : M → Outcome R, r.1.caller id f = .throws .stdOutOfRange) := by
  obtain ⟨g1, g2, g3, g4⟩ := addAll_spec ms 0 (Container.new M) contInv_new (by omega)
  refine ⟨?_, g1, ?_, ?_⟩
  · rw [List.nodup_iff_injective_get]
    intro i j hij
    obtain ⟨a, a1, a2, -⟩ := g3 i (by rw [← g1]; exact i.2)
    obtain ⟨b, b1, b2, -⟩ := g3 j (by rw [← g1]; exact j.2)
    rw [List.getElem?_eq_getElem i.2] at a1
    rw [List.getElem?_eq_getElem j.2] at b1
    have e1 := Option.some.inj a1
    have e2 := Option.some.inj b1
    have : a = b := by rw [← e1, ← e2]; exact hij
    apply Fin.ext
    subst this
    omega
  · intro i m hm
    have hi : i < ms.length := by
      by_contra h
      rw [List.getElem?_eq_none (by omega)] at hm; cases hm
    obtain ⟨id, e1, -, m', e3, e4⟩ := g3 i hi
    rw [hm] at e3; cases e3
    refine ⟨id, e1, e4, fun f => ?_⟩
    simp only [Container.caller]
    rw [e4]; rfl
  · intro id hid
    have := g4 id hid
    have h0 : (Container.new M).get id = .throws .stdOutOfRange := rfl
    rw [h0] at this
    refine ⟨this, fun f => ?_⟩
    simp only [Container.caller]
    rw [this]; rfl

/-- Retrieval by type gives the stored model if it has that type and is refused otherwise. -/
theorem container_getRef {K : Type} [DecidableEq K] {A : K → Type} (c : Container ((k : K) × A k))
    (id : BitVec 64) (k : K) (a : A k) (h : c.get id = .ok ⟨k, a⟩) :
    c.getRef id k = .ok a ∧ ∀ k', k' ≠ k → c.getRef id k' = .throws .stdBadVariantAccess := by
  constructor
  · simp [Container.getRef, h]
  · intro k' hk
    simp [Container.getRef, h, hk.symm]

end

example : (Container.addAll (Container.new String) ["PR", "SRK", "PR"]).2 = [1, 2, 3] ∧
    (Container.addAll (Container.new String) ["PR", "SRK", "PR"]).1.get 2 = .ok "SRK" ∧
    (Container.addAll (Container.new String) ["PR", "SRK", "PR"]).1.get 0 = .throws .stdOutOfRange := by
  decide

end Teqp.Props
