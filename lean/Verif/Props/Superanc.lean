import Verif.Model.Superanc
import Verif.Model.SuperancTables
import Verif.Spec.Chebyshev
import Mathlib.Algebra.BigOperators.Ring.Finset
import Mathlib.Tactic.Linarith
import Mathlib.Tactic.LinearCombination
import Mathlib.Tactic.NormNum

/-! # C17 (superancillary lookup), C18 (Chebyshev evaluation) -/

set_option autoImplicit false

namespace Teqp.Props
open Teqp.Model Teqp.Spec Polynomial

/-! ## C18 -/

theorem T_rec (x : ℝ) (k : ℕ) : (Chebyshev.T ℝ ((k + 2 : ℕ) : ℤ)).eval x
    = 2 * x * (Chebyshev.T ℝ ((k + 1 : ℕ) : ℤ)).eval x - (Chebyshev.T ℝ (k : ℤ)).eval x := by
  have := Chebyshev.T_add_two ℝ (k : ℤ)
  push_cast
  rw [this]; simp

theorem chebLoop_inv (x : ℝ) (c : ℕ → ℝ) (k : ℕ) (s : ℝ × ℝ) :
    c 0 + x * (chebLoop x c k s).1 - (chebLoop x c k s).2
      = ∑ j ∈ Finset.range (k + 1), c j * (Chebyshev.T ℝ (j : ℤ)).eval x
        + s.1 * (Chebyshev.T ℝ ((k + 1 : ℕ) : ℤ)).eval x - s.2 * (Chebyshev.T ℝ (k : ℤ)).eval x := by
  induction k generalizing s with
  | zero => simp [chebLoop]; ring
  | succ k ih =>
    rw [chebLoop, ih, Finset.sum_range_succ _ (k + 1), T_rec]
    ring

/-- C18. Every expansion with at least two coefficients is evaluated exactly. -/
theorem chebScaled_exact (c : List ℝ) (x : ℝ) (h : 2 ≤ c.length) :
    chebScaled c x = .ok (chebSum c x) := by
  match c, h with
  | c0 :: c1 :: cs, _ =>
    unfold chebScaled chebSum
    simp only [List.length_cons, Nat.add_sub_cancel]
    have hi := chebLoop_inv x (fun k => (c0 :: c1 :: cs).getD k 0) cs.length
      ((c0 :: c1 :: cs).getD (cs.length + 1) 0, 0)
    rw [Outcome.ok.injEq]
    refine hi.trans ?_
    rw [Finset.sum_range_succ _ (cs.length + 1)]
    ring

/-- C18 in terms of the public method: the argument is scaled to `[-1, 1]` first. -/
theorem cheb_y_exact (e : Cheb) (x : ℝ) (h : 2 ≤ e.coeff.length) :
    e.y x = .ok (chebSum e.coeff ((2 * x - (e.xmax + e.xmin)) / (e.xmax - e.xmin))) :=
  chebScaled_exact _ _ h

example : (Cheb.mk [1, 2, 3] 0 2).y 1.5 = .ok (chebSum [1, 2, 3] 0.5) := by
  have := cheb_y_exact (Cheb.mk [1, 2, 3] 0 2) 1.5 (by simp)
  rw [this]; norm_num

example : chebSum [1, 2, 3] 0.5 = 0.5 := by
  simp [chebSum, Finset.sum_range_succ, Chebyshev.T_two]; norm_num

/-- The scaled coordinate lies in `[-1, 1]` exactly for points of the interval. -/
theorem scaled_mem (xmin xmax x : ℝ) (h : xmin < xmax) :
    (-1 ≤ (2 * x - (xmax + xmin)) / (xmax - xmin) ∧ (2 * x - (xmax + xmin)) / (xmax - xmin) ≤ 1)
      ↔ xmin ≤ x ∧ x ≤ xmax := by
  have hp : 0 < xmax - xmin := by linarith
  rw [le_div_iff₀ hp, div_le_iff₀ hp]
  constructor <;> rintro ⟨h1, h2⟩ <;> constructor <;> linarith

example : -1 ≤ (2 * (1.5 : ℝ) - (2 + 0)) / (2 - 0) ∧ (2 * (1.5 : ℝ) - (2 + 0)) / (2 - 0) ≤ 1 :=
  (scaled_mem 0 2 1.5 (by norm_num)).mpr (by norm_num)

/-- C18 fails for a one-term expansion: a constant `c` is evaluated as `c + x c`. -/
theorem cheb_single_wrong (c x : ℝ) : chebScaled [c] x = .ok (c + x * c) ∧
    (chebScaled [c] x = .ok (chebSum [c] x) ↔ x * c = 0) := by
  have h : chebScaled [c] x = .ok (c + x * c) := by simp [chebScaled, chebLoop]
  refine ⟨h, ?_⟩
  rw [h]
  have : chebSum [c] x = c := by simp [chebSum]
  rw [this, Outcome.ok.injEq]
  constructor <;> intro h' <;> linarith

example : chebScaled [3] 0.5 ≠ .ok (chebSum [3] 0.5) := by
  rw [Ne, (cheb_single_wrong 3 0.5).2]; norm_num

theorem clenshaw1D_inv (x : ℝ) (c : ℕ → ℝ) (k : ℕ) (s : ℝ × ℝ) :
    clenshaw1D x c k s = chebSumHalf (k + 1) c x
      + s.1 * (Chebyshev.T ℝ ((k + 1 : ℕ) : ℤ)).eval x - s.2 * (Chebyshev.T ℝ (k : ℤ)).eval x := by
  induction k generalizing s with
  | zero => simp [clenshaw1D, chebSumHalf, halfFirst]; ring
  | succ k ih =>
    rw [clenshaw1D, ih]
    have : chebSumHalf (k + 1 + 1) c x = chebSumHalf (k + 1) c x
        + c (k + 1) * (Chebyshev.T ℝ ((k + 1 : ℕ) : ℤ)).eval x := by
      unfold chebSumHalf
      rw [Finset.sum_range_succ _ (k + 1)]
      simp [halfFirst]
    rw [this, T_rec]
    ring

/-- C18. The one-dimensional routine of the two-dimensional term is exact for every coefficient
vector, in the convention that halves the first coefficient. -/
theorem clenshawVec_exact (c : List ℝ) (x : ℝ) :
    clenshawVec c x = chebSumHalf c.length (fun k => c.getD k 0) x := by
  match c with
  | [] => simp [clenshawVec, chebSumHalf]
  | c0 :: cs =>
    unfold clenshawVec
    simp only []
    rw [clenshaw1D_inv]
    simp

example : clenshawVec [2, 3] 0.5 = 2.5 := by
  rw [clenshawVec_exact]; simp [chebSumHalf, Finset.sum_range_succ, halfFirst]; norm_num

/-- C18. For a square coefficient matrix the two-dimensional term is the double Chebyshev series in
the scaled reciprocal temperature and density. -/
theorem cheb2D_exact (n : ℕ) (a : ℕ → ℕ → ℝ) (t0 t1 d0 d1 tau delta : ℝ) :
    cheb2DAlphar n n a t0 t1 d0 d1 tau delta
      = .ok (chebSum2D n n a ((2 * tau - (t1 + t0)) / (t1 - t0))
          ((2 * delta - (d1 + d0)) / (d1 - d0))) := by
  unfold cheb2DAlphar clenshaw2D clenshawByRow
  generalize (2 * tau - (t1 + t0)) / (t1 - t0) = x
  generalize (2 * delta - (d1 + d0)) / (d1 - d0) = y
  rw [if_neg (by simp)]
  by_cases h : n = 0
  · subst h; simp [clenshawVec, chebSum2D]
  · rw [if_neg h, Outcome.bind_ok, clenshawVec_exact]
    congr 1
    unfold chebSumHalf chebSum2D
    simp only [List.length_map, List.length_range]
    refine Finset.sum_congr rfl fun j hj => ?_
    have hj' := Finset.mem_range.mp hj
    have hn : n - 1 + 1 = n := by omega
    rw [List.getD_eq_getElem?_getD, List.getElem?_map, List.getElem?_range hj']
    simp only [Option.map_some, Option.getD_some]
    rw [clenshaw1D_inv, hn]
    unfold chebSumHalf
    simp only [zero_mul, add_zero, sub_zero]
    rw [Finset.mul_sum, Finset.sum_mul]
    exact Finset.sum_congr rfl fun k _ => by ring

example : cheb2DAlphar 1 1 (fun _ _ => 8) 0 1 0 1 0.3 0.4 = .ok 2 := by
  rw [cheb2D_exact]; simp [chebSum2D, halfFirst]; norm_num

/-- C18 fails for rectangular coefficient matrices: the work arrays have the wrong length. -/
theorem cheb2D_rectangular_ub (rows cols : ℕ) (h : rows ≠ cols) (a : ℕ → ℕ → ℝ)
    (t0 t1 d0 d1 tau delta : ℝ) : cheb2DAlphar rows cols a t0 t1 d0 d1 tau delta = .ub := by
  unfold cheb2DAlphar clenshaw2D clenshawByRow
  rw [if_pos h]; rfl

example : cheb2DAlphar 2 3 (fun _ _ => 1) 0 1 0 1 0.5 0.5 = .ub := cheb2D_rectangular_ub _ _ (by simp) _ _ _ _ _ _ _

/-! ## C17 -/

/-- C17. The overflow-free midpoint is the integer midpoint. -/
theorem midpointKnuth_eq (x y : ℕ) : midpointKnuth x y = (x + y) / 2 := and_add_xor_half x y

example : midpointKnuth 5 22 = 13 := by decide

/-- Intervals that abut: each is non-empty and starts where the previous one ends. -/
structure Abutting (n : ℕ) (xmin xmax : ℕ → ℝ) : Prop where
  pos : 0 < n
  lt : ∀ i, i < n → xmin i < xmax i
  abut : ∀ i, i + 1 < n → xmax i = xmin (i + 1)

theorem bisect_inv (xmin : ℕ → ℝ) (x : ℝ) (n iL iR : ℕ) (hLR : iL ≤ iR) (hR : iR < n)
    (h1 : xmin iL ≤ x) (h2 : x < xmin iR ∨ iR = n - 1) :
    let p := bisect xmin x iL iR
    p.1 ≤ p.2 ∧ p.2 ≤ p.1 + 1 ∧ p.2 < n ∧ xmin p.1 ≤ x ∧ (x < xmin p.2 ∨ p.2 = n - 1) ∧
      (iL < iR → p.1 < p.2) := by
  induction hd : iR - iL using Nat.strong_induction_on generalizing iL iR with
  | _ d ih =>
    unfold bisect
    by_cases h : iR - iL > 1
    · rw [if_pos h]
      simp only []
      have hM := midpointKnuth_eq iL iR
      by_cases hx : x ≥ xmin (midpointKnuth iL iR)
      · rw [if_pos hx]
        have := ih (iR - midpointKnuth iL iR) (by omega) (midpointKnuth iL iR) iR (by omega) hR hx
          h2 rfl
        obtain ⟨a, b, c, e, f, g⟩ := this
        exact ⟨a, b, c, e, f, fun _ => g (by omega)⟩
      · rw [if_neg hx]
        have := ih (midpointKnuth iL iR - iL) (by omega) iL (midpointKnuth iL iR) (by omega)
          (by omega) h1 (.inl (not_le.mp hx)) rfl
        obtain ⟨a, b, c, e, f, g⟩ := this
        exact ⟨a, b, c, e, f, fun _ => g (by omega)⟩
    · rw [if_neg h]
      exact ⟨hLR, by simp only []; omega, hR, h1, h2, fun h => h⟩

/-- C17. For every table of abutting intervals, of any size, and every query point in range, the index
found is that of an interval containing the point; at an interior breakpoint it is the interval that
starts there. -/
theorem getIndex_owns (n : ℕ) (xmin xmax : ℕ → ℝ) (ha : Abutting n xmin xmax) (x : ℝ)
    (h0 : xmin 0 ≤ x) (h1 : x ≤ xmax (n - 1)) :
    getIndex n xmin xmax x < n ∧ xmin (getIndex n xmin xmax x) ≤ x ∧
      x ≤ xmax (getIndex n xmin xmax x) ∧
      (x = xmax (getIndex n xmin xmax x) → getIndex n xmin xmax x = n - 1) := by
  have hn := ha.pos
  obtain ⟨a, b, c, d, e, f⟩ := bisect_inv xmin x n 0 (n - 1) (by omega) (by omega) h0 (.inr rfl)
  unfold getIndex
  simp only []
  generalize bisect xmin x 0 (n - 1) = p at *
  by_cases hx : x < xmax p.1
  · rw [if_pos hx]
    exact ⟨by omega, d, hx.le, fun h => absurd h hx.ne⟩
  · rw [if_neg hx]
    have hx' := not_lt.mp hx
    by_cases hp : p.1 = p.2
    · have hn1 : n - 1 = 0 := by
        by_contra hne
        have := f (by omega)
        omega
      have : p.2 = n - 1 := by omega
      exact ⟨c, by rw [← hp]; exact d, by rw [this]; exact h1, fun _ => this⟩
    · have hp1 : p.2 = p.1 + 1 := by omega
      have hab := ha.abut p.1 (by omega)
      rw [← hp1] at hab
      have hge : xmin p.2 ≤ x := hab ▸ hx'
      rcases e with e | e
      · exact absurd e (not_lt.mpr hge)
      · exact ⟨c, hge, by rw [e]; exact h1, fun _ => e⟩

example : getIndex 3 (fun i => (i : ℝ)) (fun i => (i : ℝ) + 1) 2 = 2 := by
  have ha : Abutting 3 (fun i => (i : ℝ)) (fun i => (i : ℝ) + 1) :=
    ⟨by norm_num, fun i _ => by simp, fun i _ => by push_cast; ring⟩
  obtain ⟨h1, h2, h3, h4⟩ := getIndex_owns 3 _ _ ha 2 (by norm_num) (by norm_num)
  generalize getIndex 3 (fun i => (i : ℝ)) (fun i => (i : ℝ) + 1) 2 = i at *
  have h2' : (i : ℝ) ≤ 2 := h2
  have h3' : (2 : ℝ) ≤ (i : ℝ) + 1 := h3
  have : i ≤ 2 := by exact_mod_cast h2'
  have : 1 ≤ i := by
    have : (1 : ℝ) ≤ i := by linarith
    exact_mod_cast this
  by_contra hne
  have : i = 1 := by omega
  subst this
  have := h4 (by norm_num)
  omega

/-- The interval ends of a table of expansions abut. -/
def TableOK (exps : List Cheb) : Prop :=
  exps ≠ [] ∧ (∀ e ∈ exps, e.xmin < e.xmax) ∧
    ∀ i (h : i + 1 < exps.length), (exps[i]'(by omega)).xmax = (exps[i + 1]).xmin

/-- C17. Evaluating a superancillary: outside the fitted range it is refused; inside, the result is the
value of an expansion of the table whose interval contains the query point. -/
theorem superancY_spec (exps : List Cheb) (h : TableOK exps) (x : ℝ) :
    ((x < (exps.head h.1).xmin ∨ (exps.getLast h.1).xmax < x) →
      superancY exps x = .throws .stdInvalidArgument) ∧
    ((exps.head h.1).xmin ≤ x → x ≤ (exps.getLast h.1).xmax →
      ∃ e ∈ exps, e.xmin ≤ x ∧ x ≤ e.xmax ∧ superancY exps x = e.y x) := by
  obtain ⟨hne, hlt, hab⟩ := h
  match exps, hne with
  | e0 :: es, hne =>
    have hget : ∀ i (hi : i < (e0 :: es).length), (e0 :: es).getD i e0 = (e0 :: es)[i] := fun i hi => by
      rw [List.getD_eq_getElem?_getD, List.getElem?_eq_getElem hi]; rfl
    have hlast : (e0 :: es).getLast hne = (e0 :: es).getD ((e0 :: es).length - 1) e0 := by
      rw [hget _ (by simp), List.getLast_eq_getElem]
    rw [hlast]
    simp only [List.head_cons]
    unfold superancY
    simp only []
    have hg0 : (e0 :: es).getD 0 e0 = e0 := rfl
    rw [hg0]
    constructor
    · rintro (h | h)
      · rw [if_pos h]
      · by_cases h' : x < e0.xmin
        · rw [if_pos h']
        · rw [if_neg h', if_pos h]
    · intro h1 h2
      rw [if_neg (not_lt.mpr h1), if_neg (not_lt.mpr h2)]
      have hA : Abutting (e0 :: es).length (fun i => ((e0 :: es).getD i e0).xmin)
          (fun i => ((e0 :: es).getD i e0).xmax) := by
        refine ⟨by simp, fun i hi => ?_, fun i hi => ?_⟩
        · rw [hget i hi]; exact hlt _ (List.getElem_mem hi)
        · rw [hget i (by omega), hget (i + 1) hi]; exact hab i hi
      obtain ⟨a, b, c, _⟩ := getIndex_owns _ _ _ hA x h1 h2
      rw [if_pos a]
      refine ⟨_, ?_, b, c, rfl⟩
      rw [hget _ a]; exact List.getElem_mem a

/-- C17 with C18: inside the range the value is the Chebyshev series of the owning expansion at the
scaled coordinate, provided every expansion has at least two coefficients. -/
theorem superancY_value (exps : List Cheb) (h : TableOK exps) (hc : ∀ e ∈ exps, 2 ≤ e.coeff.length)
    (x : ℝ) (h0 : (exps.head h.1).xmin ≤ x) (h1 : x ≤ (exps.getLast h.1).xmax) :
    ∃ e ∈ exps, e.xmin ≤ x ∧ x ≤ e.xmax ∧
      superancY exps x = .ok (chebSum e.coeff ((2 * x - (e.xmax + e.xmin)) / (e.xmax - e.xmin))) := by
  obtain ⟨e, he, a, b, c⟩ := (superancY_spec exps h x).2 h0 h1
  exact ⟨e, he, a, b, c.trans (cheb_y_exact e x (hc e he))⟩

/-- The shipped tables as integers: intervals non-empty, abutting, at least two coefficients. -/
def endsOK (t : List (ℕ × ℕ × ℕ)) : Bool :=
  !t.isEmpty && t.all (fun p => p.1 < p.2.1 && 2 ≤ p.2.2) &&
    (t.zip t.tail).all (fun q => q.1.2.1 == q.2.1)

/-- C17. All nine shipped tables are well formed. -/
theorem shipped_tables_ok : ∀ t ∈ shippedEnds, endsOK t = true := by decide +kernel

/-- A table of expansions has the interval ends and coefficient counts of a shipped table. -/
def HasEnds (exps : List Cheb) (t : List (ℕ × ℕ × ℕ)) : Prop :=
  List.Forall₂ (fun e p => e.xmin = (p.1 : ℝ) / 10 ^ 20 ∧ e.xmax = (p.2.1 : ℝ) / 10 ^ 20 ∧
    e.coeff.length = p.2.2) exps t

/-- C17. Hence the lookup theorem applies to every shipped table, whatever its coefficients. -/
theorem shipped_tables_lookup (t : List (ℕ × ℕ × ℕ)) (ht : t ∈ shippedEnds) (exps : List Cheb)
    (he : HasEnds exps t) : TableOK exps ∧ ∀ e ∈ exps, 2 ≤ e.coeff.length := by
  have hok := shipped_tables_ok t ht
  clear ht
  unfold endsOK at hok
  simp only [Bool.and_eq_true, List.all_eq_true, decide_eq_true_eq, beq_iff_eq,
    Bool.not_eq_true'] at hok
  obtain ⟨⟨h0, h1⟩, h2⟩ := hok
  have hlen : exps.length = t.length := he.length_eq
  have hidx : ∀ i (hi : i < exps.length), (exps[i]).xmin = ((t[i]'(hlen ▸ hi)).1 : ℝ) / 10 ^ 20 ∧
      (exps[i]).xmax = ((t[i]'(hlen ▸ hi)).2.1 : ℝ) / 10 ^ 20 ∧
      (exps[i]).coeff.length = (t[i]'(hlen ▸ hi)).2.2 := fun i hi => he.get hi (hlen ▸ hi)
  have hten : (0 : ℝ) < 10 ^ 20 := by positivity
  refine ⟨⟨?_, ?_, ?_⟩, ?_⟩
  · intro h
    subst h
    have : t = [] := List.eq_nil_of_length_eq_zero hlen.symm
    subst this
    simp at h0
  · intro e hmem
    obtain ⟨i, hi, rfl⟩ := List.getElem_of_mem hmem
    rw [(hidx i hi).1, (hidx i hi).2.1]
    apply div_lt_div_of_pos_right _ hten
    exact_mod_cast (h1 _ (List.getElem_mem (hlen ▸ hi))).1
  · intro i hi
    rw [(hidx i (by omega)).2.1, (hidx (i + 1) hi).1]
    have hz : (t[i]'(by omega), t[i + 1]'(by omega)) ∈ t.zip t.tail := by
      rw [List.mem_iff_getElem]
      refine ⟨i, by simp; omega, by simp⟩
    have := h2 _ hz
    simp only at this
    rw [this]
  · intro e hmem
    obtain ⟨i, hi, rfl⟩ := List.getElem_of_mem hmem
    rw [(hidx i hi).2.2]
    exact (h1 _ (List.getElem_mem (hlen ▸ hi))).2

example : ∃ exps, HasEnds exps ends_vdW_p ∧ ends_vdW_p ∈ shippedEnds := by
  refine ⟨ends_vdW_p.map fun p => ⟨List.replicate p.2.2 0, (p.1 : ℝ) / 10 ^ 20, (p.2.1 : ℝ) / 10 ^ 20⟩,
    ?_, by simp [shippedEnds]⟩
  unfold HasEnds
  rw [List.forall₂_map_left_iff]
  exact List.forall₂_same.mpr fun p _ => ⟨rfl, rfl, by simp⟩

/-- C17. The table picked by `supercubic` for the nine valid codes, and the sentinel values returned
(not thrown) for the others. -/
theorem supercubic_codes (t : SuperTables) (T : ℝ) :
    supercubic t 0 100 T = superancY t.vdW.1 T ∧ supercubic t 0 101 T = superancY t.vdW.2.1 T ∧
    supercubic t 0 102 T = superancY t.vdW.2.2 T ∧ supercubic t 1 100 T = superancY t.SRK.1 T ∧
    supercubic t 1 101 T = superancY t.SRK.2.1 T ∧ supercubic t 1 102 T = superancY t.SRK.2.2 T ∧
    supercubic t 2 100 T = superancY t.PR.1 T ∧ supercubic t 2 101 T = superancY t.PR.2.1 T ∧
    supercubic t 2 102 T = superancY t.PR.2.2 T ∧
    (∀ e p : Int, e ≠ 0 → e ≠ 1 → e ≠ 2 → supercubic t e p T = .ok (-1)) ∧
    (∀ e p : Int, e = 0 ∨ e = 1 ∨ e = 2 → p ≠ 100 → p ≠ 101 → p ≠ 102 →
      supercubic t e p T = .ok (-2)) := by
  refine ⟨rfl, rfl, rfl, rfl, rfl, rfl, rfl, rfl, rfl, ?_, ?_⟩
  · intro e p h0 h1 h2
    unfold supercubic
    simp [h0, h1, h2]
  · rintro e p (rfl | rfl | rfl) h0 h1 h2 <;> simp [supercubic, h0, h1, h2]

end Teqp.Props
