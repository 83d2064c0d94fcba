import Verif.Model.ParamOpt
import Verif.Lemmas.Outcome
import Mathlib.Tactic

/-! # C123: the document built from a vector of parameters -/

set_option autoImplicit false

namespace Teqp.Props
open Teqp.Model

/-- Two pointer tokens that select different children whatever the container. -/
def TokNe (t u : PTok) : Prop := t.name ≠ u.name ∧ (t.index = u.index → t.index = none)

/-- Two pointers that part: neither is a prefix of the other, so that they name disjoint parts of a document. -/
inductive Diverge : List PTok → List PTok → Prop
  | here {t u : PTok} {ts us : List PTok} (h : TokNe t u) : Diverge (t :: ts) (u :: us)
  | there {t : PTok} {ts us : List PTok} (h : Diverge ts us) : Diverge (t :: ts) (t :: us)

theorem TokNe.symm {t u : PTok} (h : TokNe t u) : TokNe u t :=
  ⟨h.1.symm, fun e => by rw [e]; exact h.2 e.symm⟩

theorem Diverge.symm {p q : List PTok} (h : Diverge p q) : Diverge q p := by
  induction h with
  | here h => exact .here h.symm
  | there _ ih => exact .there ih

theorem lookup_setKey (fs : List (String × JTree)) (k k' : String) (v c : JTree) (h : fs.lookup k = some c) :
    (setKey fs k v).lookup k' = if k' = k then some v else fs.lookup k' := by
  induction fs with
  | nil => simp at h
  | cons a rest ih =>
    obtain ⟨ka, va⟩ := a
    unfold setKey
    by_cases e : ka = k
    · subst e
      by_cases e' : k' = ka
      · simp [e']
      · simp [e', List.lookup_cons, beq_eq_false_iff_ne.2 e']
    · have hr : rest.lookup k = some c := by
        rw [List.lookup_cons] at h
        rwa [beq_eq_false_iff_ne.2 (Ne.symm e)] at h
      simp only [if_neg e, List.lookup_cons]
      by_cases e' : k' = ka
      · subst e'
        simp [e]
      · simp only [beq_eq_false_iff_ne.2 e']
        exact ih hr

/-- Writing through a pointer succeeds exactly when the entry exists; otherwise the library's exception is raised. -/
theorem setPtr_result (v : JTree) (p : List PTok) (j : JTree) :
    (∃ c, getPtr p j = .ok c ∧ ∃ j', setPtr v p j = .ok j') ∨
      (getPtr p j = .throws .jsonError ∧ setPtr v p j = .throws .jsonError) := by
  induction p generalizing j with
  | nil => exact Or.inl ⟨j, rfl, v, rfl⟩
  | cons t ts ih =>
    cases j with
    | obj fs =>
      simp only [getPtr, setPtr]
      cases h : fs.lookup t.name with
      | none => right; exact ⟨rfl, rfl⟩
      | some c =>
        simp only
        rcases ih c with ⟨d, hd, j', hj'⟩ | ⟨h1, h2⟩
        · left; exact ⟨d, hd, _, by rw [hj']; rfl⟩
        · right; exact ⟨h1, by rw [h2]; rfl⟩
    | arr xs =>
      simp only [getPtr, setPtr]
      cases h : t.index with
      | none => right; exact ⟨rfl, rfl⟩
      | some i =>
        simp only
        cases h' : xs[i]? with
        | none => right; exact ⟨rfl, rfl⟩
        | some c =>
          simp only
          rcases ih c with ⟨d, hd, j', hj'⟩ | ⟨h1, h2⟩
          · left; exact ⟨d, hd, _, by rw [hj']; rfl⟩
          · right; exact ⟨h1, by rw [h2]; rfl⟩
    | null => right; exact ⟨rfl, rfl⟩
    | bool b => right; exact ⟨rfl, rfl⟩
    | num x => right; exact ⟨rfl, rfl⟩
    | str s => right; exact ⟨rfl, rfl⟩

/-- Reading back what was written. -/
theorem setPtr_get {v : JTree} {p : List PTok} {j j' : JTree} (h : setPtr v p j = .ok j') : getPtr p j' = .ok v := by
  induction p generalizing j j' with
  | nil =>
    simp only [setPtr, Outcome.ok.injEq] at h
    rw [← h]; rfl
  | cons t ts ih =>
    cases j with
    | obj fs =>
      simp only [setPtr] at h
      cases hl : fs.lookup t.name with
      | none => rw [hl] at h; simp at h
      | some c =>
        rw [hl] at h
        simp only at h
        obtain ⟨c', hc', h2⟩ := Outcome.bind_eq_ok.1 h
        simp only [Outcome.ok.injEq] at h2
        rw [← h2]
        simp only [getPtr, lookup_setKey fs t.name t.name c' c hl, if_pos]
        exact ih hc'
    | arr xs =>
      simp only [setPtr] at h
      cases hi : t.index with
      | none => rw [hi] at h; simp at h
      | some i =>
        rw [hi] at h
        simp only at h
        cases hx : xs[i]? with
        | none => rw [hx] at h; simp at h
        | some c =>
          rw [hx] at h
          simp only at h
          obtain ⟨c', hc', h2⟩ := Outcome.bind_eq_ok.1 h
          simp only [Outcome.ok.injEq] at h2
          rw [← h2]
          have hlt : i < xs.length := by
            by_contra hh
            rw [List.getElem?_eq_none (by omega)] at hx
            simp at hx
          simp only [getPtr, hi, List.getElem?_set_self hlt]
          exact ih hc'
    | null => simp [setPtr] at h
    | bool b => simp [setPtr] at h
    | num x => simp [setPtr] at h
    | str s => simp [setPtr] at h

/-- Writing leaves every diverging entry alone. -/
theorem setPtr_other {v : JTree} {p q : List PTok} {j j' : JTree} (hd : Diverge p q) (h : setPtr v p j = .ok j') :
    getPtr q j' = getPtr q j := by
  induction hd generalizing j j' with
  | @here t u ts us hne =>
    cases j with
    | obj fs =>
      simp only [setPtr] at h
      cases hl : fs.lookup t.name with
      | none => rw [hl] at h; simp at h
      | some c =>
        rw [hl] at h
        simp only at h
        obtain ⟨c', hc', h2⟩ := Outcome.bind_eq_ok.1 h
        simp only [Outcome.ok.injEq] at h2
        rw [← h2]
        simp only [getPtr, lookup_setKey fs t.name u.name c' c hl, if_neg hne.1.symm]
    | arr xs =>
      simp only [setPtr] at h
      cases hi : t.index with
      | none => rw [hi] at h; simp at h
      | some i =>
        rw [hi] at h
        simp only at h
        cases hx : xs[i]? with
        | none => rw [hx] at h; simp at h
        | some c =>
          rw [hx] at h
          simp only at h
          obtain ⟨c', hc', h2⟩ := Outcome.bind_eq_ok.1 h
          simp only [Outcome.ok.injEq] at h2
          rw [← h2]
          simp only [getPtr]
          cases hu : u.index with
          | none => rfl
          | some k =>
            have hik : i ≠ k := by
              rintro rfl
              have := hne.2 (by rw [hi, hu])
              rw [hi] at this; simp at this
            simp only [List.getElem?_set_ne hik]
    | null => simp [setPtr] at h
    | bool b => simp [setPtr] at h
    | num x => simp [setPtr] at h
    | str s => simp [setPtr] at h
  | @there t ts us _ ih =>
    cases j with
    | obj fs =>
      simp only [setPtr] at h
      cases hl : fs.lookup t.name with
      | none => rw [hl] at h; simp at h
      | some c =>
        rw [hl] at h
        simp only at h
        obtain ⟨c', hc', h2⟩ := Outcome.bind_eq_ok.1 h
        simp only [Outcome.ok.injEq] at h2
        rw [← h2]
        simp only [getPtr, lookup_setKey fs t.name t.name c' c hl, if_pos, hl]
        exact ih hc'
    | arr xs =>
      simp only [setPtr] at h
      cases hi : t.index with
      | none => rw [hi] at h; simp at h
      | some i =>
        rw [hi] at h
        simp only at h
        cases hx : xs[i]? with
        | none => rw [hx] at h; simp at h
        | some c =>
          rw [hx] at h
          simp only at h
          obtain ⟨c', hc', h2⟩ := Outcome.bind_eq_ok.1 h
          simp only [Outcome.ok.injEq] at h2
          rw [← h2]
          have hlt : i < xs.length := by
            by_contra hh
            rw [List.getElem?_eq_none (by omega)] at hx
            simp at hx
          simp only [getPtr, hi, List.getElem?_set_self hlt, hx]
          exact ih hc'
    | null => simp [setPtr] at h
    | bool b => simp [setPtr] at h
    | num x => simp [setPtr] at h
    | str s => simp [setPtr] at h

/-- The assignments of `build_JSON` one after the other. -/
def setFlat : List (List PTok × ℝ) → JTree → Outcome JTree
  | [], j => .ok j
  | (p, x) :: rest, j => (setPtr (.num x) p j).bind (setFlat rest)

theorem setFlat_append (a b : List (List PTok × ℝ)) (j : JTree) :
    setFlat (a ++ b) j = (setFlat a j).bind (setFlat b) := by
  induction a generalizing j with
  | nil => rfl
  | cons e a ih =>
    obtain ⟨p, x⟩ := e
    simp only [List.cons_append, setFlat]
    cases setPtr (.num x) p j with
    | ok j' => simp only [Outcome.bind_ok]; exact ih j'
    | throws e => rfl
    | ub => rfl
    | nonFinite => rfl

theorem setAllPtr_flat (x : ℝ) (ps : List (List PTok)) (j : JTree) :
    setAllPtr (.num x) ps j = setFlat (ps.map fun p => (p, x)) j := by
  induction ps generalizing j with
  | nil => rfl
  | cons p ps ih =>
    simp only [setAllPtr, List.map_cons, setFlat]
    congr 1
    funext j'
    exact ih j'

/-- The list of all assignments asked for: pointer group by pointer group. -/
def assignments (pointers : List (List (List PTok))) (x : List ℝ) : List (List PTok × ℝ) :=
  (pointers.zip x).flatMap fun e => e.1.map fun p => (p, e.2)

theorem setGroups_flat (pss : List (List (List PTok))) (xs : List ℝ) (j : JTree) :
    setGroups pss xs j = setFlat (assignments pss xs) j := by
  induction pss generalizing xs j with
  | nil => cases xs <;> rfl
  | cons ps pss ih =>
    cases xs with
    | nil => rfl
    | cons x xs =>
      simp only [setGroups, assignments, List.zip_cons_cons, List.flatMap_cons]
      rw [setFlat_append, setAllPtr_flat]
      congr 1
      funext j'
      exact ih xs j'

theorem setFlat_other {l : List (List PTok × ℝ)} {q : List PTok} {j j' : JTree} (hq : ∀ e ∈ l, Diverge e.1 q)
    (h : setFlat l j = .ok j') : getPtr q j' = getPtr q j := by
  induction l generalizing j with
  | nil => simp only [setFlat, Outcome.ok.injEq] at h; rw [h]
  | cons e l ih =>
    obtain ⟨p, x⟩ := e
    simp only [setFlat] at h
    obtain ⟨j1, h1, h2⟩ := Outcome.bind_eq_ok.1 h
    rw [ih (fun e he => hq e (List.mem_cons_of_mem _ he)) h2]
    exact setPtr_other (hq (p, x) (List.mem_cons_self ..)) h1

theorem setFlat_get {l : List (List PTok × ℝ)} {j j' : JTree} (hp : l.Pairwise fun a b => Diverge a.1 b.1)
    (h : setFlat l j = .ok j') : ∀ e ∈ l, getPtr e.1 j' = .ok (.num e.2) := by
  induction l generalizing j with
  | nil => intro e he; simp at he
  | cons e l ih =>
    obtain ⟨p, x⟩ := e
    simp only [setFlat] at h
    obtain ⟨j1, h1, h2⟩ := Outcome.bind_eq_ok.1 h
    rw [List.pairwise_cons] at hp
    intro e he
    rcases List.mem_cons.1 he with rfl | he
    · rw [setFlat_other (fun e he => (hp.1 e he).symm) h2]
      exact setPtr_get h1
    · exact ih hp.2 h2 e he

theorem setFlat_result {l : List (List PTok × ℝ)} (j : JTree) (hp : l.Pairwise fun a b => Diverge a.1 b.1) :
    ((∀ e ∈ l, ∃ c, getPtr e.1 j = .ok c) ∧ ∃ j', setFlat l j = .ok j') ∨
      ((∃ e ∈ l, getPtr e.1 j = .throws .jsonError) ∧ setFlat l j = .throws .jsonError) := by
  induction l generalizing j with
  | nil => left; exact ⟨fun e he => by simp at he, j, rfl⟩
  | cons e l ih =>
    obtain ⟨p, x⟩ := e
    rw [List.pairwise_cons] at hp
    simp only [setFlat]
    rcases setPtr_result (.num x) p j with ⟨c, hc, j1, hj1⟩ | ⟨h1, h2⟩
    · rw [hj1, Outcome.bind_ok]
      have hsame : ∀ e ∈ l, getPtr e.1 j1 = getPtr e.1 j := fun e he => setPtr_other (hp.1 e he) hj1
      rcases ih j1 hp.2 with ⟨ha, hb⟩ | ⟨⟨e, he, ha⟩, hb⟩
      · left
        refine ⟨fun e he => ?_, hb⟩
        rcases List.mem_cons.1 he with rfl | he
        · exact ⟨c, hc⟩
        · rw [← hsame e he]; exact ha e he
      · right
        exact ⟨⟨e, List.mem_cons_of_mem _ he, by rw [← hsame e he]; exact ha⟩, hb⟩
    · right
      exact ⟨⟨(p, x), List.mem_cons_self .., h1⟩, by rw [h2]; rfl⟩

/-- C123. The document built for a parameter vector: a vector of the wrong length is refused; when the pointers name
disjoint parts of the document the call succeeds exactly when every named entry exists in the base document, the
document then holds `x[i]` at every pointer of group `i`, and every part not named by a pointer is unchanged. -/
theorem fit_document (jbase : JTree) (pointers : List (List (List PTok))) (x : List ℝ) :
    (x.length ≠ pointers.length → buildJSON jbase pointers x = .throws .invalidArgument) ∧
    (x.length = pointers.length → (pointers.flatten).Pairwise Diverge →
      ((∃ p ∈ pointers.flatten, getPtr p jbase = .throws .jsonError) → buildJSON jbase pointers x = .throws .jsonError) ∧
      ((∀ p ∈ pointers.flatten, ∃ c, getPtr p jbase = .ok c) → ∃ j, buildJSON jbase pointers x = .ok j ∧
        (∀ i (h1 : i < pointers.length) (h2 : i < x.length), ∀ p ∈ pointers[i], getPtr p j = .ok (.num x[i])) ∧
        ∀ q, (∀ p ∈ pointers.flatten, Diverge p q) → getPtr q j = getPtr q jbase)) := by
  refine ⟨fun h => if_pos h, fun hlen hp => ?_⟩
  have eb : buildJSON jbase pointers x = setFlat (assignments pointers x) jbase := by
    unfold buildJSON
    rw [if_neg (not_not.2 hlen), setGroups_flat]
  have efst : (assignments pointers x).map Prod.fst = pointers.flatten := by
    unfold assignments
    clear hp eb
    induction pointers generalizing x with
    | nil => simp
    | cons ps pss ih =>
      cases x with
      | nil => simp at hlen
      | cons a xs =>
        simp only [List.zip_cons_cons, List.flatMap_cons, List.map_append, List.map_map, List.flatten_cons]
        rw [ih xs (by simpa using hlen)]
        congr 1
        have : (Prod.fst ∘ fun p : List PTok => (p, a)) = id := rfl
        rw [this, List.map_id]
  have hpw : (assignments pointers x).Pairwise fun a b => Diverge a.1 b.1 := by
    rw [← efst, List.pairwise_map] at hp; exact hp
  have hmem : ∀ p ∈ pointers.flatten, ∃ e ∈ assignments pointers x, e.1 = p := by
    intro p h
    rw [← efst] at h
    obtain ⟨e, he, rfl⟩ := List.mem_map.1 h
    exact ⟨e, he, rfl⟩
  have hmem' : ∀ e ∈ assignments pointers x, e.1 ∈ pointers.flatten := by
    intro e he; rw [← efst]; exact List.mem_map_of_mem he
  rw [eb]
  rcases setFlat_result jbase hpw with ⟨ha, j, hj⟩ | ⟨⟨e, he, ha⟩, hb⟩
  · refine ⟨?_, fun _ => ⟨j, hj, ?_, ?_⟩⟩
    · rintro ⟨p, hp', hpe⟩
      obtain ⟨e, he, rfl⟩ := hmem p hp'
      obtain ⟨c, hc⟩ := ha e he
      rw [hc] at hpe; simp at hpe
    · intro i h1 h2 p hpi
      refine setFlat_get hpw hj (p, x[i]) ?_
      unfold assignments
      rw [List.mem_flatMap]
      refine ⟨(pointers[i], x[i]), ?_, List.mem_map.2 ⟨p, hpi, rfl⟩⟩
      rw [List.mem_iff_getElem]
      exact ⟨i, by simp [h1, h2], by simp⟩
    · intro q hq
      exact setFlat_other (fun e he => hq e.1 (hmem' e he)) hj
  · refine ⟨fun _ => hb, fun hall => ?_⟩
    obtain ⟨c, hc⟩ := hall e.1 (hmem' e he)
    rw [ha] at hc; simp at hc

/-- C123. When two pointers name the same entry the last one wins: the value of the first parameter is lost without any
error. -/
theorem fit_document_overlap (jbase : JTree) (p : List PTok) (x y : ℝ) (c : JTree) (h : getPtr p jbase = .ok c) :
    ∃ j, buildJSON jbase [[p], [p]] [x, y] = .ok j ∧ getPtr p j = .ok (.num y) := by
  rcases setPtr_result (.num x) p jbase with ⟨c, hc, j1, hj1⟩ | ⟨h1, _⟩
  · have hg := setPtr_get hj1
    rcases setPtr_result (.num y) p j1 with ⟨c2, hc2, j2, hj2⟩ | ⟨h1, _⟩
    · refine ⟨j2, ?_, setPtr_get hj2⟩
      unfold buildJSON
      simp [setGroups, setAllPtr, hj1, hj2, Outcome.bind_ok]
    · rw [hg] at h1; simp at h1
  · rw [h] at h1; simp at h1

def exTok (s : String) : PTok := ⟨s, none⟩

/-- A document with two parameters, one of them in an array, and a part that stays. -/
def exBase : JTree := .obj [("kind", .str "PCSAFT"), ("model", .obj [("coeffs", .arr [.obj [("m", .num 1), ("sigma", .num 2)]])])]

example : ∃ j, buildJSON exBase
      [[[exTok "model", exTok "coeffs", ⟨"0", some 0⟩, exTok "m"]], [[exTok "model", exTok "coeffs", ⟨"0", some 0⟩, exTok "sigma"]]]
      [7, 8] = .ok j ∧
    getPtr [exTok "model", exTok "coeffs", ⟨"0", some 0⟩, exTok "m"] j = .ok (.num 7) ∧ getPtr [exTok "kind"] j = .ok (.str "PCSAFT") := by
  have hdiv : Diverge [exTok "model", exTok "coeffs", ⟨"0", some 0⟩, exTok "m"]
      [exTok "model", exTok "coeffs", ⟨"0", some 0⟩, exTok "sigma"] :=
    .there (.there (.there (.here ⟨by decide, fun _ => rfl⟩)))
  obtain ⟨j, hj, hg, ho⟩ := ((fit_document exBase
      [[[exTok "model", exTok "coeffs", ⟨"0", some 0⟩, exTok "m"]], [[exTok "model", exTok "coeffs", ⟨"0", some 0⟩, exTok "sigma"]]]
      [7, 8]).2 rfl (by simp [hdiv])).2 (by
        intro p hp
        simp only [List.flatten_cons, List.flatten_nil, List.append_nil, List.mem_append, List.mem_singleton] at hp
        rcases hp with rfl | rfl <;> exact ⟨_, rfl⟩)
  refine ⟨j, hj, hg 0 (by simp) (by simp) _ (by simp), ?_⟩
  rw [ho [exTok "kind"] (by
    intro p hp
    simp only [List.flatten_cons, List.flatten_nil, List.append_nil, List.mem_append, List.mem_singleton] at hp
    rcases hp with rfl | rfl <;> exact .here ⟨by decide, fun _ => rfl⟩)]
  rfl

example : buildJSON exBase [[[exTok "model", exTok "epsilon"]]] [7] = .throws .jsonError :=
  ((fit_document exBase [[[exTok "model", exTok "epsilon"]]] [7]).2 rfl (by simp)).1 ⟨_, by simp; rfl, rfl⟩

end Teqp.Props
