import Mathlib.Analysis.SpecialFunctions.Exp
import Mathlib.Analysis.Calculus.Deriv.Pow
import Mathlib.Analysis.SpecialFunctions.ExpDeriv
import Mathlib.Analysis.Complex.ExponentialBounds
import Mathlib.Tactic

/-! # Rational enclosures of the exponential, and sums of powers times exponentials of quadratics

Used for theorems about published coefficient tables.  Everything that is evaluated is rational. -/

set_option autoImplicit false

namespace Teqp.Lemmas
open Finset

/-- `z^0/0! + … + z^(n-1)/(n-1)!` -/
def expPartial (z : ℚ) : ℕ → ℚ
  | 0 => 0
  | n + 1 => expPartial z n + z ^ n / n.factorial

theorem expPartial_cast (z : ℚ) (n : ℕ) : (expPartial z n : ℝ) = ∑ m ∈ range n, (z : ℝ) ^ m / (m.factorial : ℝ) := by
  induction n with
  | zero => simp [expPartial]
  | succ n ih => rw [sum_range_succ, ← ih, expPartial]; push_cast; rfl

/-- `|exp y - m| ≤ r`, verified with `n` terms of the series of `exp (y / 2^k)`. -/
def expOK (k n : ℕ) (y m r : ℚ) : Bool :=
  let z := y / 2 ^ k
  let s := expPartial z n
  let e := |z| ^ n * ((n + 1) / (n.factorial * n))
  decide (0 < n ∧ |z| ≤ 1 ∧ 0 ≤ s - e ∧ m - r ≤ (s - e) ^ (2 ^ k) ∧ (s + e) ^ (2 ^ k) ≤ m + r)

theorem expOK_spec (k n : ℕ) (y m r : ℚ) (h : expOK k n y m r = true) : |Real.exp y - m| ≤ r := by
  unfold expOK at h
  simp only [decide_eq_true_eq] at h
  obtain ⟨hn, hz, h0, h1, h2⟩ := h
  have hb := Real.exp_bound (x := ((y / 2 ^ k : ℚ) : ℝ)) (by exact_mod_cast hz) hn
  rw [← expPartial_cast] at hb
  have e0 : |((y / 2 ^ k : ℚ) : ℝ)| ^ n * (((n.succ : ℕ) : ℝ) / ((n.factorial : ℝ) * n)) =
      ((|y / 2 ^ k| ^ n * ((n + 1) / (n.factorial * n)) : ℚ) : ℝ) := by push_cast; rfl
  rw [e0] at hb
  set s := expPartial (y / 2 ^ k) n
  set e := |y / 2 ^ k| ^ n * (((n : ℚ) + 1) / (n.factorial * n))
  rw [abs_le] at hb
  have he : Real.exp y = Real.exp ((y / 2 ^ k : ℚ) : ℝ) ^ 2 ^ k := by
    rw [← Real.exp_nat_mul]; congr 1; push_cast; field_simp
  have l1 : ((s - e : ℚ) : ℝ) ≤ Real.exp ((y / 2 ^ k : ℚ) : ℝ) := by rw [Rat.cast_sub]; linarith [hb.1]
  have u1 : Real.exp ((y / 2 ^ k : ℚ) : ℝ) ≤ ((s + e : ℚ) : ℝ) := by rw [Rat.cast_add]; linarith [hb.2]
  have l2 := pow_le_pow_left₀ (by exact_mod_cast h0) l1 (2 ^ k)
  have u2 := pow_le_pow_left₀ (Real.exp_pos _).le u1 (2 ^ k)
  have c1 : ((m - r : ℚ) : ℝ) ≤ ((s - e : ℚ) : ℝ) ^ 2 ^ k := by exact_mod_cast h1
  have c2 : ((s + e : ℚ) : ℝ) ^ 2 ^ k ≤ ((m + r : ℚ) : ℝ) := by exact_mod_cast h2
  rw [he, abs_le]
  rw [Rat.cast_sub] at c1
  rw [Rat.cast_add m r] at c2
  constructor <;> linarith

/-- A term `a x^d exp(q0 + q1 x + q2 x^2)`. -/
structure QTerm where
  a : ℚ
  d : ℕ
  q0 : ℚ
  q1 : ℚ
  q2 : ℚ

/-- A sum of such terms. -/
abbrev QE := List QTerm

noncomputable def QTerm.eval (e : QTerm) (x : ℝ) : ℝ := e.a * x ^ e.d * Real.exp (e.q0 + e.q1 * x + e.q2 * x ^ 2)

noncomputable def QE.eval (L : QE) (x : ℝ) : ℝ := (L.map fun e => e.eval x).sum

/-- Derivative. -/
def QE.D (L : QE) : QE :=
  L.flatMap fun e => [⟨e.a * e.d, e.d - 1, e.q0, e.q1, e.q2⟩, ⟨e.a * e.q1, e.d, e.q0, e.q1, e.q2⟩, ⟨2 * e.a * e.q2, e.d + 1, e.q0, e.q1, e.q2⟩]

/-- Multiplication by the square of the variable. -/
def QE.sq (L : QE) : QE := L.map fun e => { e with d := e.d + 2 }

theorem QE.hasDerivAt (L : QE) (x : ℝ) : HasDerivAt (QE.eval L) (QE.eval (QE.D L) x) x := by
  induction L with
  | nil => exact hasDerivAt_const x (0 : ℝ)
  | cons e L ih =>
    have hE : QE.eval (e :: L) = fun y => e.a * y ^ e.d * Real.exp (e.q0 + e.q1 * y + e.q2 * y ^ 2) + QE.eval L y := by
      funext y; simp [QE.eval, QTerm.eval]
    rw [hE]
    have h1 : HasDerivAt (fun y : ℝ => (e.a : ℝ) * y ^ e.d) ((e.a : ℝ) * (e.d * x ^ (e.d - 1))) x := (hasDerivAt_pow e.d x).const_mul _
    have h2 : HasDerivAt (fun y : ℝ => (e.q0 : ℝ) + e.q1 * y + e.q2 * y ^ 2) (e.q1 * 1 + e.q2 * ((2 : ℕ) * x ^ (2 - 1))) x :=
      (((hasDerivAt_id x).const_mul (e.q1 : ℝ)).const_add _).add ((hasDerivAt_pow 2 x).const_mul _)
    refine ((h1.mul h2.exp).add ih).congr_deriv ?_
    have hD : QE.eval (QE.D (e :: L)) x = QTerm.eval ⟨e.a * e.d, e.d - 1, e.q0, e.q1, e.q2⟩ x + QTerm.eval ⟨e.a * e.q1, e.d, e.q0, e.q1, e.q2⟩ x
        + QTerm.eval ⟨2 * e.a * e.q2, e.d + 1, e.q0, e.q1, e.q2⟩ x + QE.eval (QE.D L) x := by
      simp [QE.eval, QE.D, add_assoc]
    rw [hD]
    unfold QTerm.eval
    push_cast
    ring

theorem QE.eval_sq (L : QE) (x : ℝ) : QE.eval (QE.sq L) x = x ^ 2 * QE.eval L x := by
  unfold QE.eval QE.sq
  rw [← List.sum_map_mul_left, List.map_map]
  congr 1
  refine List.map_congr_left fun e _ => ?_
  simp only [Function.comp, QTerm.eval]
  ring

/-- A table of enclosures: `(y, m, r)` for `|exp y - m| ≤ r`. -/
abbrev ExpTable := List (ℚ × ℚ × ℚ)

def ExpTable.Valid (T : ExpTable) : Prop := ∀ t ∈ T, |Real.exp t.1 - t.2.1| ≤ t.2.2

def ExpTable.check (T : ExpTable) (k n : ℕ) : Bool := T.all fun t => expOK k n t.1 t.2.1 t.2.2

theorem ExpTable.check_spec (T : ExpTable) (k n : ℕ) (h : ExpTable.check T k n = true) : ExpTable.Valid T := fun t ht =>
  expOK_spec k n _ _ _ (List.all_eq_true.1 h t ht)

/-- The sum at one: approximation and error. -/
def QE.atOne (T : ExpTable) : QE → Option (ℚ × ℚ)
  | [] => some (0, 0)
  | e :: L => match T.find? (fun t => t.1 = e.q0 + e.q1 + e.q2), QE.atOne T L with
    | some t, some (m, r) => some (e.a * t.2.1 + m, |e.a| * t.2.2 + r)
    | _, _ => none

theorem QE.atOne_spec (T : ExpTable) (hT : ExpTable.Valid T) (L : QE) (m r : ℚ) (h : QE.atOne T L = some (m, r)) : |QE.eval L 1 - m| ≤ r := by
  induction L generalizing m r with
  | nil =>
    simp only [QE.atOne, Option.some.injEq, Prod.mk.injEq] at h
    obtain ⟨rfl, rfl⟩ := h
    simp [QE.eval]
  | cons e L ih =>
    unfold QE.atOne at h
    cases hf : T.find? (fun t => t.1 = e.q0 + e.q1 + e.q2) with
    | none => rw [hf] at h; simp at h
    | some t =>
      cases hL : QE.atOne T L with
      | none => rw [hf, hL] at h; simp at h
      | some p =>
        obtain ⟨m', r'⟩ := p
        rw [hf, hL] at h
        simp only [Option.some.injEq, Prod.mk.injEq] at h
        obtain ⟨rfl, rfl⟩ := h
        have hy : t.1 = e.q0 + e.q1 + e.q2 := by simpa using List.find?_some hf
        have hb := hT t (List.mem_of_find?_eq_some hf)
        have hE : QE.eval (e :: L) 1 = e.a * Real.exp t.1 + QE.eval L 1 := by
          simp [QE.eval, QTerm.eval, hy]
        rw [hE]
        have := ih m' r' hL
        have e1 : (e.a : ℝ) * Real.exp t.1 + QE.eval L 1 - ((e.a * t.2.1 + m' : ℚ) : ℝ) = e.a * (Real.exp t.1 - t.2.1) + (QE.eval L 1 - m') := by
          push_cast; ring
        rw [e1]
        refine (abs_add_le _ _).trans ?_
        rw [abs_mul]
        have := mul_le_mul_of_nonneg_left hb (abs_nonneg (e.a : ℝ))
        push_cast
        linarith

/-- `|v + sum at one| ≤ eps`, computed. -/
def QE.near (T : ExpTable) (L : QE) (v eps : ℚ) : Bool :=
  match QE.atOne T L with
  | some (m, r) => decide (|v + m| + r ≤ eps)
  | none => false

theorem QE.near_spec (T : ExpTable) (hT : ExpTable.Valid T) (L : QE) (v eps : ℚ) (h : QE.near T L v eps = true) : |(v : ℝ) + QE.eval L 1| ≤ eps := by
  unfold QE.near at h
  cases ha : QE.atOne T L with
  | none => rw [ha] at h; simp at h
  | some p =>
    obtain ⟨m, r⟩ := p
    rw [ha] at h
    simp only [decide_eq_true_eq] at h
    have h' : |(v : ℝ) + m| + r ≤ eps := by exact_mod_cast h
    have e1 : (v : ℝ) + QE.eval L 1 = (v + m) + (QE.eval L 1 - m) := by ring
    rw [e1]
    refine (abs_add_le _ _).trans ?_
    have := QE.atOne_spec T hT L m r ha
    linarith

/-- On an isotherm where `a` is a sum of such terms: `x (1 + x a')` and its derivatives at one. -/
theorem QE.isotherm (L : QE) (a : ℝ → ℝ) (ha : ∀ x, 0 < x → a x = QE.eval L x) :
    (1 : ℝ) * (1 + 1 * deriv a 1) = 1 + QE.eval (QE.D L) 1 ∧
    deriv (fun x => x * (1 + x * deriv a x)) 1 = 1 + QE.eval (QE.D (QE.sq (QE.D L))) 1 ∧
    deriv (deriv fun x => x * (1 + x * deriv a x)) 1 = QE.eval (QE.D (QE.D (QE.sq (QE.D L)))) 1 := by
  have hpos : ∀ x : ℝ, 0 < x → ∀ᶠ y in nhds x, 0 < y := fun x hx => lt_mem_nhds hx
  have h0 : ∀ x, 0 < x → deriv a x = QE.eval (QE.D L) x := fun x hx =>
    ((QE.hasDerivAt L x).congr_of_eventuallyEq ((hpos x hx).mono fun y hy => ha y hy)).deriv
  have h1 : ∀ x, 0 < x → x * (1 + x * deriv a x) = x + QE.eval (QE.sq (QE.D L)) x := fun x hx => by
    rw [h0 x hx, QE.eval_sq]; ring
  have h2 : ∀ x, 0 < x → deriv (fun x => x * (1 + x * deriv a x)) x = 1 + QE.eval (QE.D (QE.sq (QE.D L))) x := fun x hx =>
    (((hasDerivAt_id x).add (QE.hasDerivAt _ x)).congr_of_eventuallyEq ((hpos x hx).mono fun y hy => h1 y hy)).deriv
  refine ⟨?_, h2 1 one_pos, ?_⟩
  · rw [h0 1 one_pos]; ring
  · have h3 : HasDerivAt (fun x => 1 + QE.eval (QE.D (QE.sq (QE.D L))) x) (0 + QE.eval (QE.D (QE.D (QE.sq (QE.D L)))) 1) 1 :=
      (hasDerivAt_const _ _).add (QE.hasDerivAt _ 1)
    rw [(h3.congr_of_eventuallyEq ((hpos 1 one_pos).mono fun y hy => h2 y hy)).deriv, zero_add]

end Teqp.Lemmas
