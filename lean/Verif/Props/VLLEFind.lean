import Verif.Model.VLLE
import Verif.Lemmas.Envelope
import Verif.Lemmas.Outcome
import Mathlib.LinearAlgebra.Matrix.Determinant.Basic

/-! # Crossings of traced branches and the three-phase guesses made from them (C43, C44, C73) -/

set_option autoImplicit false

open Teqp.Model Teqp.Envelope

namespace Teqp.Props

/-- The column-pivoting QR solve in exact arithmetic: regular systems are solved, and for singular ones at least one
unknown, the one behind a zero pivot, is set to zero. -/
structure PivotSolve (solve : Solver 2) : Prop where
  regular : ∀ (A : Matrix (Fin 2) (Fin 2) ℝ) b, A.det ≠ 0 → A.mulVec (solve A b) = b
  singular : ∀ (A : Matrix (Fin 2) (Fin 2) ℝ) b, A.det = 0 → ∃ i, solve A b i = 0

open Classical in
/-- There is such a solve. -/
noncomputable def pivotSolve : Solver 2 := fun A b => if A.det = 0 then fun _ => 0 else A⁻¹.mulVec b

theorem pivotSolve_ok : PivotSolve pivotSolve where
  regular A b h := by
    unfold pivotSolve
    rw [if_neg h, Matrix.mulVec_mulVec, Matrix.mul_nonsing_inv _ (isUnit_iff_ne_zero.mpr h), Matrix.one_mulVec]
  singular A b h := ⟨0, by unfold pivotSolve; rw [if_pos h]⟩

/-- The point at fraction `s` of the segment from `p` to `q`. -/
def along (p q : Pt) (s : ℝ) : Pt := (p.1 + s * (q.1 - p.1), p.2 + s * (q.2 - p.2))

/-- The crossing `c` lies strictly inside segment number `c.j` of `l` and segment number `c.k` of `l'`, at the fractions
`c.s` and `c.t`. -/
def IsCrossing (l l' : List Pt) (c : Crossing) : Prop :=
  ∃ p0 p1 q0 q1, l[c.j]? = some p0 ∧ l[c.j + 1]? = some p1 ∧ l'[c.k]? = some q0 ∧ l'[c.k + 1]? = some q1 ∧
    (0 < c.s ∧ c.s < 1) ∧ (0 < c.t ∧ c.t < 1) ∧ along p0 p1 c.s = (c.x, c.y) ∧ along q0 q1 c.t = (c.x, c.y)

/-- Two segments are not parallel. -/
def Transversal (p0 p1 q0 q1 : Pt) : Prop := (p1.1 - p0.1) * (q1.2 - q0.2) ≠ (p1.2 - p0.2) * (q1.1 - q0.1)

theorem crossSegments_det (p0 p1 q0 q1 : Pt) :
    (!![p1.1 - p0.1, q0.1 - q1.1; p1.2 - p0.2, q0.2 - q1.2] : Matrix (Fin 2) (Fin 2) ℝ).det ≠ 0 ↔
      Transversal p0 p1 q0 q1 := by
  rw [Matrix.det_fin_two_of]
  unfold Transversal
  constructor
  · intro h h'
    exact h (by linear_combination -h')
  · intro h h'
    exact h (by linear_combination -h')

theorem crossSegments_some {solve : Solver 2} (hs : PivotSolve solve) {j k : ℕ} {p0 p1 q0 q1 : Pt} {c : Crossing}
    (h : crossSegments solve j k p0 p1 q0 q1 = some c) :
    c.j = j ∧ c.k = k ∧ (0 < c.s ∧ c.s < 1) ∧ (0 < c.t ∧ c.t < 1) ∧ along p0 p1 c.s = (c.x, c.y) ∧
      along q0 q1 c.t = (c.x, c.y) ∧ Transversal p0 p1 q0 q1 := by
  unfold crossSegments at h
  simp only at h
  set A : Matrix (Fin 2) (Fin 2) ℝ := !![p1.1 - p0.1, q0.1 - q1.1; p1.2 - p0.2, q0.2 - q1.2] with hA
  set w := solve A ![q0.1 - p0.1, q0.2 - p0.2] with hw
  by_cases hc : (0 < w 0 ∧ w 0 < 1) ∧ 0 < w 1 ∧ w 1 < 1
  · rw [if_pos hc] at h
    injection h with h
    have hdet : A.det ≠ 0 := fun h0 => by
      obtain ⟨i, hi⟩ := hs.singular A ![q0.1 - p0.1, q0.2 - p0.2] h0
      rw [← hw] at hi
      fin_cases i
      · exact hc.1.1.ne' hi
      · exact hc.2.1.ne' hi
    have hm := hs.regular A ![q0.1 - p0.1, q0.2 - p0.2] hdet
    rw [← hw] at hm
    have h0 := congrFun hm 0
    have h1 := congrFun hm 1
    simp [hA, Matrix.mulVec, dotProduct, Fin.sum_univ_two] at h0 h1
    subst h
    refine ⟨rfl, rfl, hc.1, hc.2, rfl, ?_, (crossSegments_det _ _ _ _).mp hdet⟩
    simp only [along, Prod.mk.injEq]
    constructor <;> linarith
  · rw [if_neg hc] at h
    exact absurd h (by simp)

theorem crossSegments_complete {solve : Solver 2} (hs : PivotSolve solve) {j k : ℕ} {p0 p1 q0 q1 : Pt} {s t : ℝ}
    (h0 : 0 < s ∧ s < 1) (h1 : 0 < t ∧ t < 1) (he : along p0 p1 s = along q0 q1 t) (ht : Transversal p0 p1 q0 q1) :
    crossSegments solve j k p0 p1 q0 q1 = some ⟨j, k, s, t, (along p0 p1 s).1, (along p0 p1 s).2⟩ := by
  unfold crossSegments
  simp only
  set A : Matrix (Fin 2) (Fin 2) ℝ := !![p1.1 - p0.1, q0.1 - q1.1; p1.2 - p0.2, q0.2 - q1.2] with hA
  have hdet : A.det ≠ 0 := (crossSegments_det _ _ _ _).mpr ht
  have hw : solve A ![q0.1 - p0.1, q0.2 - p0.2] = ![s, t] := by
    refine SolvesRegular.unique (fun A b h => hs.regular A b h) hdet ?_
    simp only [along, Prod.mk.injEq] at he
    funext i
    fin_cases i <;> simp [hA, Matrix.mulVec, dotProduct, Fin.sum_univ_two] <;> linarith [he.1, he.2]
  rw [hw]
  have hc : (0 < (![s, t] : Fin 2 → ℝ) 0 ∧ (![s, t] : Fin 2 → ℝ) 0 < 1) ∧ 0 < (![s, t] : Fin 2 → ℝ) 1 ∧
      (![s, t] : Fin 2 → ℝ) 1 < 1 := ⟨h0, h1⟩
  rw [if_pos hc]
  rfl

theorem mem_segments {l : List Pt} {a : ℕ × Pt × Pt} :
    a ∈ segments l ↔ l[a.1]? = some a.2.1 ∧ l[a.1 + 1]? = some a.2.2 := by
  obtain ⟨n, p, q⟩ := a
  unfold segments
  rw [List.mem_mapIdx]
  simp only [Prod.mk.injEq]
  constructor
  · rintro ⟨i, hi, rfl, he⟩
    have hz : (l.zip l.tail)[i]? = some (p, q) := by rw [List.getElem?_eq_getElem hi, he]
    rw [List.getElem?_zip_eq_some] at hz
    exact ⟨hz.1, by rw [← hz.2, List.getElem?_tail]⟩
  · rintro ⟨h1, h2⟩
    have hz : (l.zip l.tail)[n]? = some (p, q) := by
      rw [List.getElem?_zip_eq_some]
      exact ⟨h1, by rw [List.getElem?_tail]; exact h2⟩
    obtain ⟨hi, he⟩ := List.getElem?_eq_some_iff.mp hz
    exact ⟨n, hi, rfl, he⟩

/-- **C43** What `get_self_intersections` reports lies strictly inside two different segments of the polyline. -/
theorem selfIntersections_sound {solve : Solver 2} (hs : PivotSolve solve) {l : List Pt} {cs : List Crossing}
    (h : selfIntersections solve l = .ok cs) : ∀ c ∈ cs, c.j < c.k ∧ IsCrossing l l c := by
  unfold selfIntersections at h
  by_cases hl : l = []
  · rw [if_pos hl] at h; simp at h
  · rw [if_neg hl] at h
    injection h with h
    subst h
    intro c hc
    obtain ⟨a, ha, hc⟩ := List.mem_flatMap.mp hc
    obtain ⟨b, hb, hc⟩ := List.mem_filterMap.mp hc
    by_cases hab : a.1 < b.1
    · rw [if_pos hab] at hc
      obtain ⟨e1, e2, h1, h2, h3, h4, -⟩ := crossSegments_some hs hc
      obtain ⟨a1, a2⟩ := mem_segments.mp ha
      obtain ⟨b1, b2⟩ := mem_segments.mp hb
      rw [← e1] at a1 a2
      rw [← e2] at b1 b2
      exact ⟨by omega, _, _, _, _, a1, a2, b1, b2, h1, h2, h3, h4⟩
    · rw [if_neg hab] at hc; simp at hc

/-- **C43** Every transversal crossing strictly inside two segments is reported, with its fractions and coordinates. -/
theorem selfIntersections_complete {solve : Solver 2} (hs : PivotSolve solve) {l : List Pt} {j k : ℕ} (hjk : j < k)
    {p0 p1 q0 q1 : Pt} (h1 : l[j]? = some p0) (h2 : l[j + 1]? = some p1) (h3 : l[k]? = some q0)
    (h4 : l[k + 1]? = some q1) {s t : ℝ} (h5 : 0 < s ∧ s < 1) (h6 : 0 < t ∧ t < 1)
    (he : along p0 p1 s = along q0 q1 t) (ht : Transversal p0 p1 q0 q1) :
    ∃ cs, selfIntersections solve l = .ok cs ∧ (⟨j, k, s, t, (along p0 p1 s).1, (along p0 p1 s).2⟩ : Crossing) ∈ cs := by
  have hl : l ≠ [] := by rintro rfl; simp at h1
  refine ⟨_, by unfold selfIntersections; rw [if_neg hl], ?_⟩
  rw [List.mem_flatMap]
  refine ⟨(j, p0, p1), mem_segments.mpr ⟨h1, h2⟩, ?_⟩
  rw [List.mem_filterMap]
  refine ⟨(k, q0, q1), mem_segments.mpr ⟨h3, h4⟩, ?_⟩
  simp only
  rw [if_pos hjk]
  exact crossSegments_complete hs h5 h6 he ht

/-- **C43** The same for two polylines. -/
theorem crossIntersections_sound {solve : Solver 2} (hs : PivotSolve solve) {l l' : List Pt} {cs : List Crossing}
    (h : crossIntersections solve l l' = .ok cs) : ∀ c ∈ cs, IsCrossing l l' c := by
  unfold crossIntersections at h
  by_cases hl : l = [] ∨ (l' = [] ∧ 2 ≤ l.length)
  · rw [if_pos hl] at h; simp at h
  · rw [if_neg hl] at h
    injection h with h
    subst h
    intro c hc
    obtain ⟨a, ha, hc⟩ := List.mem_flatMap.mp hc
    obtain ⟨b, hb, hc⟩ := List.mem_filterMap.mp hc
    obtain ⟨e1, e2, h1, h2, h3, h4, -⟩ := crossSegments_some hs hc
    obtain ⟨a1, a2⟩ := mem_segments.mp ha
    obtain ⟨b1, b2⟩ := mem_segments.mp hb
    rw [← e1] at a1 a2
    rw [← e2] at b1 b2
    exact ⟨_, _, _, _, a1, a2, b1, b2, h1, h2, h3, h4⟩

/-- **C43** Every transversal crossing of two polylines is reported. -/
theorem crossIntersections_complete {solve : Solver 2} (hs : PivotSolve solve) {l l' : List Pt} {j k : ℕ}
    {p0 p1 q0 q1 : Pt} (h1 : l[j]? = some p0) (h2 : l[j + 1]? = some p1) (h3 : l'[k]? = some q0)
    (h4 : l'[k + 1]? = some q1) {s t : ℝ} (h5 : 0 < s ∧ s < 1) (h6 : 0 < t ∧ t < 1)
    (he : along p0 p1 s = along q0 q1 t) (ht : Transversal p0 p1 q0 q1) :
    ∃ cs, crossIntersections solve l l' = .ok cs ∧
      (⟨j, k, s, t, (along p0 p1 s).1, (along p0 p1 s).2⟩ : Crossing) ∈ cs := by
  have hl : ¬(l = [] ∨ (l' = [] ∧ 2 ≤ l.length)) := by
    rintro (rfl | ⟨rfl, -⟩)
    · simp at h1
    · simp at h3
  refine ⟨_, by unfold crossIntersections; rw [if_neg hl], ?_⟩
  rw [List.mem_flatMap]
  refine ⟨(j, p0, p1), mem_segments.mpr ⟨h1, h2⟩, ?_⟩
  rw [List.mem_filterMap]
  exact ⟨(k, q0, q1), mem_segments.mpr ⟨h3, h4⟩, crossSegments_complete hs h5 h6 he ht⟩

/-- A bow tie crosses itself in its first and third segment. -/
example : ∃ cs, selfIntersections pivotSolve [(0, 0), (2, 2), (2, 0), (0, 2)] = .ok cs ∧
    (⟨0, 2, 1 / 2, 1 / 2, 1, 1⟩ : Crossing) ∈ cs := by
  have := selfIntersections_complete pivotSolve_ok (l := [(0, 0), (2, 2), (2, 0), (0, 2)]) (j := 0) (k := 2) (by norm_num)
    rfl rfl rfl rfl (s := 1 / 2) (t := 1 / 2) (by norm_num) (by norm_num) (by norm_num [along])
    (by norm_num [Transversal])
  norm_num [along] at this
  simpa using this

example : ∀ cs, selfIntersections pivotSolve [(0, 0), (1, 1), (2, 0)] = .ok cs → cs = [] := by
  intro cs h
  rw [List.eq_nil_iff_forall_not_mem]
  intro c hc
  obtain ⟨hjk, p0, p1, q0, q1, h1, h2, h3, h4, h5, h6, h7, h8⟩ := selfIntersections_sound pivotSolve_ok h c hc
  have hk : c.k = 1 ∧ c.j = 0 := by
    have : c.k + 1 < 3 := by
      by_contra hh
      rw [List.getElem?_eq_none (by simp; omega)] at h4
      simp at h4
    omega
  rw [hk.1] at h3 h4
  rw [hk.2] at h1 h2
  simp at h1 h2 h3 h4
  subst h1 h2 h3 h4
  simp [along] at h7 h8
  linarith [h5.2, h6.1]

/-- **C43** An empty trace is undefined behaviour. -/
theorem findVLLE_empty_trace (solve : Solver 2) (polish : VlePoint → Crossing → Phases → Outcome (VLLECode × Phases))
    (isotherm : Bool) (thr : ℝ) : findVLLE solve polish isotherm thr [[]] = .ub := by
  simp [findVLLE, polyline, selfIntersections]

/-! ## The guess -/

/-- **C44** The guess made from a crossing is the point of the branch at the fraction `1 - s`, not `s`. -/
theorem vlleGuess_mirrored {tr tr' : List VlePoint} {c : Crossing} {g : Phases} (h : vlleGuess tr tr' c = some g) :
    ∃ a a' b b', tr[c.j]? = some a ∧ tr[c.j + 1]? = some a' ∧ tr'[c.k]? = some b ∧ tr'[c.k + 1]? = some b' ∧
      (∀ i, g 0 i = a.rhoV i + (1 - c.s) * (a'.rhoV i - a.rhoV i)) ∧
      (∀ i, g 1 i = a.rhoL i + (1 - c.s) * (a'.rhoL i - a.rhoL i)) ∧
      (∀ i, g 2 i = b.rhoL i + (1 - c.t) * (b'.rhoL i - b.rhoL i)) := by
  unfold vlleGuess at h
  split at h
  · next a a' b b' e1 e2 e3 e4 =>
    injection h with h
    subst h
    refine ⟨a, a', b, b', e1, e2, e3, e4, fun i => ?_, fun i => ?_, fun i => ?_⟩ <;> simp [avgValues] <;> ring
  · simp at h

/-- **C44** is false of the code: where the total vapor concentration does not vary along the segment, the vapor
composition of the guess is the one of the crossing only at the midpoint (or on a vertical segment). -/
theorem vlleGuess_at_crossing_iff {tr tr' : List VlePoint} {isotherm : Bool} {c : Crossing} {g : Phases} {D : ℝ}
    (h : vlleGuess tr tr' c = some g) (hc : IsCrossing (polyline isotherm tr) (polyline isotherm tr') c) (hD : D ≠ 0)
    (htot : ∀ e ∈ tr, e.rhoV 0 + e.rhoV 1 = D) :
    g 0 0 / (g 0 0 + g 0 1) = c.x ↔
      c.s = 1 / 2 ∨ ∃ a a', tr[c.j]? = some a ∧ tr[c.j + 1]? = some a' ∧ a.rhoV 0 = a'.rhoV 0 := by
  obtain ⟨a, a', b, b', e1, e2, -, -, g0, -, -⟩ := vlleGuess_mirrored h
  obtain ⟨p0, p1, q0, q1, h1, h2, -, -, h5, -, h7, -⟩ := hc
  have ha := htot a (List.mem_of_getElem? e1)
  have ha' := htot a' (List.mem_of_getElem? e2)
  simp only [polyline, List.getElem?_map, e1, e2, Option.map_some, Option.some.injEq] at h1 h2
  subst h1 h2
  simp only [along, Prod.mk.injEq, ha, ha'] at h7
  have hsum : g 0 0 + g 0 1 = D := by
    rw [g0, g0]
    linear_combination c.s * ha + (1 - c.s) * ha'
  rw [hsum, ← h7.1, g0, div_eq_iff hD]
  have e : (a.rhoV 0 / D + c.s * (a'.rhoV 0 / D - a.rhoV 0 / D)) * D = a.rhoV 0 + c.s * (a'.rhoV 0 - a.rhoV 0) := by
    field_simp
  rw [e]
  constructor
  · intro h
    have : (1 - 2 * c.s) * (a'.rhoV 0 - a.rhoV 0) = 0 := by linear_combination h
    rcases mul_eq_zero.mp this with h | h
    · left; linarith
    · right; exact ⟨a, a', e1, e2, by linarith⟩
  · rintro (h | ⟨b, b', hb, hb', h⟩)
    · rw [h]; ring
    · rw [e1] at hb
      rw [e2] at hb'
      injection hb with hb
      injection hb' with hb'
      rw [hb, hb', h]; ring

/-- Two branches that cross at a quarter of the first one. -/
def quarterTrace : List VlePoint := [⟨300, 0, ![5, 5], ![0, 1]⟩, ⟨300, 1, ![5, 5], ![1, 0]⟩]

/-- The second branch. -/
noncomputable def quarterTrace' : List VlePoint := [⟨300, 1 / 2, ![5, 5], ![0, 1]⟩, ⟨300, 0, ![5, 5], ![1 / 2, 1 / 2]⟩]

/-- **C44** A crossing at vapor mole fraction 1/4 from which a guess at 3/4 is made. -/
theorem vlleGuess_off_crossing :
    ∃ cs c g, crossIntersections pivotSolve (polyline true quarterTrace) (polyline true quarterTrace') = .ok cs ∧ c ∈ cs ∧
      vlleGuess quarterTrace quarterTrace' c = some g ∧ c.x = 1 / 4 ∧ g 0 0 / (g 0 0 + g 0 1) = 3 / 4 := by
  obtain ⟨cs, h1, h2⟩ := crossIntersections_complete pivotSolve_ok (l := polyline true quarterTrace)
    (l' := polyline true quarterTrace') (j := 0) (k := 0) (p0 := (0, 0)) (p1 := (1, 1)) (q0 := (0, 1 / 2))
    (q1 := (1 / 2, 0)) (s := 1 / 4) (t := 1 / 2)
    (by simp [polyline, quarterTrace]) (by simp [polyline, quarterTrace]) (by simp [polyline, quarterTrace'])
    (by norm_num [polyline, quarterTrace']) (by norm_num) (by norm_num) (by norm_num [along]) (by norm_num [Transversal])
  refine ⟨cs, _, _, h1, h2, rfl, by norm_num [along], ?_⟩
  norm_num [avgValues]

example : ∃ c g, vlleGuess quarterTrace quarterTrace' c = some g ∧
    IsCrossing (polyline true quarterTrace) (polyline true quarterTrace') c ∧ c.s ≠ 1 / 2 := by
  refine ⟨⟨0, 0, 1 / 4, 1 / 2, 1 / 4, 1 / 4⟩, _, rfl, ⟨(0, 0), (1, 1), (0, 1 / 2), (1 / 2, 0), ?_, ?_, ?_, ?_, ?_, ?_, ?_, ?_⟩,
    by norm_num⟩ <;> norm_num [polyline, quarterTrace, quarterTrace', along]

/-! ## The solutions reported -/

/-- The two liquids (phases 1 and 2) differ in total density by more than `thr` percent of the second. -/
def LiquidsDiffer (thr : ℝ) (ph : Phases) : Prop :=
  (ph 2 0 + ph 2 1 ≠ 0 → thr * |ph 2 0 + ph 2 1| < 100 * |(ph 1 0 + ph 1 1) - (ph 2 0 + ph 2 1)|) ∧
  (ph 2 0 + ph 2 1 = 0 → ph 1 0 + ph 1 1 ≠ 0)

theorem nontrivial_iff (thr : ℝ) (ph : Phases) : nontrivial thr ph ↔ LiquidsDiffer thr ph := by
  unfold nontrivial LiquidsDiffer
  by_cases h : ph 2 0 + ph 2 1 = 0
  · rw [if_pos h]
    exact ⟨fun h1 => ⟨fun h2 => absurd h h2, fun _ => h1⟩, fun h1 => h1.2 h⟩
  · rw [if_neg h]
    have hp : 0 < |ph 2 0 + ph 2 1| := abs_pos.mpr h
    have e : |100 * ((ph 1 0 + ph 1 1) / (ph 2 0 + ph 2 1) - 1)| =
        100 * |(ph 1 0 + ph 1 1) - (ph 2 0 + ph 2 1)| / |ph 2 0 + ph 2 1| := by
      rw [abs_mul, abs_of_pos (by norm_num : (0 : ℝ) < 100), mul_div_assoc, ← abs_div, sub_div, div_self h]
    rw [e, gt_iff_lt, lt_div_iff₀ hp]
    exact ⟨fun h1 => ⟨fun _ => h1, fun h2 => absurd h2 h⟩, fun h1 => h1.1 h⟩


theorem processAll_mem {polish : Crossing → Phases → Outcome (VLLECode × Phases)} {thr : ℝ} {tr tr' : List VlePoint}
    {cs : List Crossing} {sols : List VlleSolution} (h : processAll polish thr tr tr' cs = .ok sols) :
    ∀ s ∈ sols, ∃ c ∈ cs, vlleGuess tr tr' c = some s.approximate ∧
      polish c s.approximate = .ok (s.code, s.polished) ∧ LiquidsDiffer thr s.polished := by
  induction cs generalizing sols with
  | nil =>
    simp only [processAll, Outcome.ok.injEq] at h
    subst h
    simp
  | cons c cs ih =>
    rw [processAll] at h
    obtain ⟨r, hr, h1⟩ := Outcome.bind_eq_ok.mp h
    obtain ⟨l, hl, h2⟩ := Outcome.bind_eq_ok.mp h1
    injection h2 with h2
    subst h2
    intro s hs
    rw [List.mem_append] at hs
    rcases hs with hs | hs
    · refine ⟨c, List.mem_cons_self, ?_⟩
      unfold processCrossing at hr
      cases hg : vlleGuess tr tr' c with
      | none => rw [hg] at hr; simp at hr
      | some g =>
        rw [hg] at hr
        simp only at hr
        cases hp : polish c g with
        | ok v =>
          obtain ⟨code, ph⟩ := v
          rw [hp] at hr
          simp only [Outcome.ok.injEq] at hr
          by_cases hn : nontrivial thr ph
          · rw [if_pos hn] at hr
            subst hr
            simp only [Option.toList_some, List.mem_singleton] at hs
            subst hs
            exact ⟨rfl, hp, (nontrivial_iff _ _).mp hn⟩
          · rw [if_neg hn] at hr
            subst hr
            simp at hs
        | throws e => rw [hp] at hr; simp only [Outcome.ok.injEq] at hr; subst hr; simp at hs
        | ub => rw [hp] at hr; simp at hr
        | nonFinite => rw [hp] at hr; simp only [Outcome.ok.injEq] at hr; subst hr; simp at hs
    · obtain ⟨c', hc', hr'⟩ := ih hl s hs
      exact ⟨c', List.mem_cons_of_mem _ hc', hr'⟩

/-- **C73** Every solution reported from two branches comes from a crossing of theirs, is what the polisher returned for
the guess made from it, and its liquids differ in density. -/
theorem findVLLE_cross {solve : Solver 2} (hs : PivotSolve solve)
    {polish : VlePoint → Crossing → Phases → Outcome (VLLECode × Phases)} {isotherm : Bool} {thr : ℝ}
    {e : VlePoint} {tr tr' : List VlePoint} {sols : List VlleSolution}
    (h : findVLLE solve polish isotherm thr [e :: tr, tr'] = .ok sols) :
    ∀ s ∈ sols, ∃ c, IsCrossing (polyline isotherm (e :: tr)) (polyline isotherm tr') c ∧
      vlleGuess (e :: tr) tr' c = some s.approximate ∧ polish e c s.approximate = .ok (s.code, s.polished) ∧
      LiquidsDiffer thr s.polished := by
  simp only [findVLLE] at h
  obtain ⟨cs, hc, h1⟩ := Outcome.bind_eq_ok.mp h
  intro s hs'
  obtain ⟨c, hm, h2⟩ := processAll_mem h1 s hs'
  exact ⟨c, crossIntersections_sound hs hc c hm, h2⟩

/-- **C73** The same for one branch that crosses itself. -/
theorem findVLLE_self {solve : Solver 2} (hs : PivotSolve solve)
    {polish : VlePoint → Crossing → Phases → Outcome (VLLECode × Phases)} {isotherm : Bool} {thr : ℝ}
    {e : VlePoint} {tr : List VlePoint} {sols : List VlleSolution}
    (h : findVLLE solve polish isotherm thr [e :: tr] = .ok sols) :
    ∀ s ∈ sols, ∃ c, c.j < c.k ∧ IsCrossing (polyline isotherm (e :: tr)) (polyline isotherm (e :: tr)) c ∧
      vlleGuess (e :: tr) (e :: tr) c = some s.approximate ∧ polish e c s.approximate = .ok (s.code, s.polished) ∧
      LiquidsDiffer thr s.polished := by
  simp only [findVLLE] at h
  obtain ⟨cs, hc, h1⟩ := Outcome.bind_eq_ok.mp h
  intro s hs'
  obtain ⟨c, hm, h2⟩ := processAll_mem h1 s hs'
  obtain ⟨h3, h4⟩ := selfIntersections_sound hs hc c hm
  exact ⟨c, h3, h4, h2⟩

theorem guess_of_crossing {isotherm : Bool} {tr tr' : List VlePoint} {c : Crossing}
    (h : IsCrossing (polyline isotherm tr) (polyline isotherm tr') c) : ∃ g, vlleGuess tr tr' c = some g := by
  obtain ⟨p0, p1, q0, q1, h1, h2, h3, h4, -⟩ := h
  simp only [polyline, List.getElem?_map, Option.map_eq_some_iff] at h1 h2 h3 h4
  obtain ⟨a, ha, -⟩ := h1
  obtain ⟨a', ha', -⟩ := h2
  obtain ⟨b, hb, -⟩ := h3
  obtain ⟨b', hb', -⟩ := h4
  exact ⟨_, by unfold vlleGuess; rw [ha, ha', hb, hb']⟩

theorem processAll_total {polish : Crossing → Phases → Outcome (VLLECode × Phases)} {thr : ℝ} {tr tr' : List VlePoint}
    {cs : List Crossing} (hg : ∀ c ∈ cs, ∃ g, vlleGuess tr tr' c = some g) (hp : ∀ c g, polish c g ≠ .ub) :
    ∃ sols, processAll polish thr tr tr' cs = .ok sols ∧
      ∀ c ∈ cs, ∀ g code ph, vlleGuess tr tr' c = some g → polish c g = .ok (code, ph) → LiquidsDiffer thr ph →
        (⟨g, ph, code⟩ : VlleSolution) ∈ sols := by
  induction cs with
  | nil => exact ⟨[], rfl, by simp⟩
  | cons c cs ih =>
    obtain ⟨l, hl, hl2⟩ := ih fun c' hc' => hg c' (List.mem_cons_of_mem _ hc')
    obtain ⟨g, hg0⟩ := hg c List.mem_cons_self
    have hr : ∃ r, processCrossing polish thr tr tr' c = .ok r ∧
        ∀ code ph, polish c g = .ok (code, ph) → LiquidsDiffer thr ph → r = some ⟨g, ph, code⟩ := by
      unfold processCrossing
      rw [hg0]
      cases hpc : polish c g with
      | ok v =>
        obtain ⟨code, ph⟩ := v
        refine ⟨_, by simp only [hpc]; rfl, fun code' ph' h1 h2 => ?_⟩
        injection h1 with h1
        injection h1 with h1 h3
        subst h1 h3
        rw [if_pos ((nontrivial_iff _ _).mpr h2)]
      | throws e => exact ⟨none, by simp only [hpc], fun _ _ h => by simp at h⟩
      | ub => exact absurd hpc (hp c g)
      | nonFinite => exact ⟨none, by simp only [hpc], fun _ _ h => by simp at h⟩
    obtain ⟨r, hr1, hr2⟩ := hr
    refine ⟨r.toList ++ l, by rw [processAll, hr1, Outcome.bind_ok, hl, Outcome.bind_ok], ?_⟩
    intro c' hc' g' code ph h1 h2 h3
    rw [List.mem_append]
    rcases List.mem_cons.mp hc' with rfl | hc'
    · left
      rw [hg0] at h1
      injection h1 with h1
      subst h1
      rw [hr2 code ph h2 h3]
      simp
    · right
      exact hl2 c' hc' g' code ph h1 h2 h3

/-- **C73** The finder does not fail on traces with points, whatever the polisher throws, and a crossing whose polished
phases pass the test is reported. -/
theorem findVLLE_reports {solve : Solver 2} (hs : PivotSolve solve)
    {polish : VlePoint → Crossing → Phases → Outcome (VLLECode × Phases)} (hp : ∀ e c g, polish e c g ≠ .ub)
    (isotherm : Bool) (thr : ℝ) (e e' : VlePoint) (tr tr' : List VlePoint) :
    ∃ sols, findVLLE solve polish isotherm thr [e :: tr, e' :: tr'] = .ok sols ∧
      ∀ cs, crossIntersections solve (polyline isotherm (e :: tr)) (polyline isotherm (e' :: tr')) = .ok cs →
        ∀ c ∈ cs, ∀ g code ph, vlleGuess (e :: tr) (e' :: tr') c = some g → polish e c g = .ok (code, ph) →
          LiquidsDiffer thr ph → (⟨g, ph, code⟩ : VlleSolution) ∈ sols := by
  have hne : ¬(polyline isotherm (e :: tr) = [] ∨
      (polyline isotherm (e' :: tr') = [] ∧ 2 ≤ (polyline isotherm (e :: tr)).length)) := by
    simp [polyline]
  obtain ⟨cs, hcs⟩ : ∃ cs, crossIntersections solve (polyline isotherm (e :: tr)) (polyline isotherm (e' :: tr')) = .ok cs :=
    ⟨_, by unfold crossIntersections; rw [if_neg hne]⟩
  obtain ⟨sols, h1, h2⟩ := processAll_total (polish := polish e) (thr := thr) (tr := e :: tr) (tr' := e' :: tr') (cs := cs)
    (fun c hc => guess_of_crossing (crossIntersections_sound hs hcs c hc)) (hp e)
  refine ⟨sols, by simp only [findVLLE, hcs, Outcome.bind_ok]; exact h1, fun cs' hcs' => ?_⟩
  rw [hcs] at hcs'
  injection hcs' with hcs'
  subst hcs'
  exact h2

/-- **C73** No trace, or more than two, is refused. -/
theorem findVLLE_refuses (solve : Solver 2) (polish : VlePoint → Crossing → Phases → Outcome (VLLECode × Phases))
    (isotherm : Bool) (thr : ℝ) {traces : List (List VlePoint)} (h : traces.length = 0 ∨ 2 < traces.length) :
    findVLLE solve polish isotherm thr traces = .throws .invalidArgument := by
  match traces, h with
  | [], _ => rfl
  | [_], h => simp at h
  | [_, _], h => simp at h
  | _ :: _ :: _ :: _, _ => rfl

/-- The finder on the two branches above, with a polisher that returns given phases. -/
example : ∃ sols, findVLLE pivotSolve (fun _ _ _ => .ok (.maxiterMet, ![![1, 1], ![9, 9], ![6, 6]])) true 1
    [quarterTrace, quarterTrace'] = .ok sols ∧ sols ≠ [] := by
  obtain ⟨sols, h1, h2⟩ := findVLLE_reports pivotSolve_ok
    (polish := fun _ _ _ => .ok (.maxiterMet, ![![1, 1], ![9, 9], ![6, 6]])) (by simp) true 1
    ⟨300, 0, ![5, 5], ![0, 1]⟩ ⟨300, 1 / 2, ![5, 5], ![0, 1]⟩ [⟨300, 1, ![5, 5], ![1, 0]⟩]
    [⟨300, 0, ![5, 5], ![1 / 2, 1 / 2]⟩]
  obtain ⟨cs, c, g, hc, hm, hg, -, -⟩ := vlleGuess_off_crossing
  refine ⟨sols, h1, fun h => ?_⟩
  have hn : LiquidsDiffer 1 ![![1, 1], ![9, 9], ![6, 6]] := by
    have e : (![![1, 1], ![9, 9], ![6, 6]] : Phases) 2 = ![6, 6] := rfl
    unfold LiquidsDiffer
    rw [e]
    norm_num [abs_of_pos]
  have := h2 cs hc c hm g _ _ hg rfl hn
  rw [h] at this
  simp at this

example : findVLLE pivotSolve (fun _ _ g => .ok (.unset, g)) true 1 [[], [], []] = .throws .invalidArgument :=
  findVLLE_refuses _ _ _ _ (Or.inr (by simp))

end Teqp.Props
