import Verif.Model.Newton
import Mathlib.Tactic.Linarith
import Mathlib.Tactic.NormNum
import Mathlib.Tactic.FieldSimp
import Mathlib.Tactic.Ring

/-! # C56: the Newton root finder -/

set_option autoImplicit false

namespace Teqp.Props
open Teqp.Model

variable {n : ℕ}

/-- The points at which the residual is evaluated (oldest first) form a Newton path from `x`: every point
but the last has a residual of at least `tol` and is followed by its Newton update. -/
inductive NewtonPath (f : NVec n → Option (NVec n))
    (solve : Matrix (Fin n) (Fin n) ℝ → NVec n → Option (NVec n)) (tol : ℝ) : NVec n → List (NVec n) → NVec n → Prop
  | single (x : NVec n) (r : NVec n) (hr : f x = some r) : NewtonPath f solve tol x [x] x
  | cons (x y z r : NVec n) (l : List (NVec n)) (hr : f x = some r) (ht : tol ≤ norm2 r)
      (hy : newtonNext f solve x r = some y) (h : NewtonPath f solve tol y l z) :
      NewtonPath f solve tol x (x :: l) z

theorem newtonLoop_path (f : NVec n → Option (NVec n))
    (solve : Matrix (Fin n) (Fin n) ℝ → NVec n → Option (NVec n)) (tol : ℝ) (k : ℕ) :
    ∀ (x : NVec n) (pts : List (NVec n)) (run : NewtonRun n),
      newtonLoop f solve tol (k + 1) (some x) pts = .ok run →
      ∃ l z r, run.pts = l.reverse ++ pts ∧ l.length ≤ k + 1 ∧ NewtonPath f solve tol x l z ∧
        f z = some r ∧ run.x = newtonNext f solve z r ∧ (norm2 r < tol ∨ l.length = k + 1) := by
  induction k with
  | zero =>
    intro x pts run h
    simp only [newtonLoop] at h
    cases hf : f x with
    | none => rw [hf] at h; cases h
    | some r =>
      rw [hf] at h
      simp only at h
      refine ⟨[x], x, r, ?_, by simp, .single x r hf, hf, ?_, Or.inr rfl⟩
      · by_cases ht : norm2 r < tol
        · rw [if_pos ht] at h; cases h; rfl
        · rw [if_neg ht] at h; cases h; rfl
      · by_cases ht : norm2 r < tol
        · rw [if_pos ht] at h; cases h; rfl
        · rw [if_neg ht] at h; cases h; rfl
  | succ k ih =>
    intro x pts run h
    rw [newtonLoop] at h
    simp only at h
    cases hf : f x with
    | none => rw [hf] at h; cases h
    | some r =>
      rw [hf] at h
      simp only at h
      by_cases ht : norm2 r < tol
      · rw [if_pos ht] at h
        cases h
        exact ⟨[x], x, r, rfl, by simp, .single x r hf, hf, rfl, Or.inl ht⟩
      · rw [if_neg ht] at h
        cases hy : newtonNext f solve x r with
        | none => rw [hy] at h; simp only [newtonLoop] at h; cases h
        | some y =>
          rw [hy] at h
          obtain ⟨l, z, r', h1, h2, h3, h4, h5, h6⟩ := ih y (x :: pts) run h
          refine ⟨x :: l, z, r', by simp [h1], by simpa using h2, .cons x y z r l hf (not_lt.mp ht) hy h3, h4, h5, ?_⟩
          rcases h6 with h6 | h6
          · exact Or.inl h6
          · right; simp [h6]

/-- When the root finder returns, it has evaluated the residual along a Newton path of at most 30 points,
starting at the given point; the residual at the last of them is finite and is below the tolerance unless
all 30 passes were used; and the returned point is one further Newton update. -/
theorem newton_contract (f : NVec n → Option (NVec n))
    (solve : Matrix (Fin n) (Fin n) ℝ → NVec n → Option (NVec n)) (x0 : NVec n) (tol : ℝ) (run : NewtonRun n)
    (h : newtonRaphson f solve x0 tol = .ok run) :
    ∃ z r, NewtonPath f solve tol x0 run.pts.reverse z ∧ run.pts.length ≤ 30 ∧ f z = some r ∧
      (run.pts.length < 30 → norm2 r < tol) ∧ run.x = newtonNext f solve z r := by
  obtain ⟨l, z, r, h1, h2, h3, h4, h5, h6⟩ := newtonLoop_path f solve tol 29 x0 [] run h
  rw [List.append_nil] at h1
  refine ⟨z, r, by rw [h1, List.reverse_reverse]; exact h3, by rw [h1, List.length_reverse]; exact h2, h4, ?_, h5⟩
  intro hl
  rw [h1, List.length_reverse] at hl
  rcases h6 with h6 | h6
  · exact h6
  · omega

/-- A residual that is not finite raises an error: if a Newton path of fewer than 30 points, none of them
below the tolerance, leads to a point with such a residual, the root finder throws. -/
theorem newton_nonfinite (f : NVec n → Option (NVec n))
    (solve : Matrix (Fin n) (Fin n) ℝ → NVec n → Option (NVec n)) (tol : ℝ) (l : List (NVec n)) :
    ∀ (k : ℕ) (x z z' r : NVec n) (pts : List (NVec n)), NewtonPath f solve tol x l z → l.length ≤ k →
      f z = some r → tol ≤ norm2 r → newtonNext f solve z r = some z' → f z' = none →
      newtonLoop f solve tol (k + 1) (some x) pts = .throws .stdInvalidArgument := by
  induction l with
  | nil => intro k x z z' r pts h; cases h
  | cons a l ih =>
    intro k x z z' r pts h hk hz ht hn hf
    cases h with
    | single _ r' hr =>
      cases k with
      | zero => simp at hk
      | succ k =>
        rw [newtonLoop]
        simp only [hz]
        rw [if_neg (not_lt.mpr ht), hn, newtonLoop]
        simp only [hf]
    | cons _ y _ r' _ hr ht' hy h =>
      cases k with
      | zero => simp at hk
      | succ k =>
        rw [newtonLoop]
        simp only [hr]
        rw [if_neg (not_lt.mpr ht'), hy]
        exact ih k y z z' r _ h (by simpa using hk) hz ht hn hf

/-- In particular a starting point with a residual that is not finite is refused. -/
theorem newton_nonfinite_start (f : NVec n → Option (NVec n))
    (solve : Matrix (Fin n) (Fin n) ℝ → NVec n → Option (NVec n)) (tol : ℝ) (x0 : NVec n) (h : f x0 = none) :
    newtonRaphson f solve x0 tol = .throws .stdInvalidArgument := by
  unfold newtonRaphson
  rw [newtonLoop]
  simp only [h]

theorem fdStep_pos (x : NVec n) (i : Fin n) : 0 < fdStep x i :=
  lt_of_lt_of_le (by norm_num) (le_max_right _ _)

/-- For an affine function the forward differences are the exact Jacobian. -/
theorem fdJac_affine (A : Matrix (Fin n) (Fin n) ℝ) (c : NVec n) (x : NVec n) :
    fdJac (fun x => some (fun i => (A.mulVec x) i + c i)) x (fun i => (A.mulVec x) i + c i) = some A := by
  have hsome : ∀ i : Fin n, ((fun x : NVec n => some (fun i => (A.mulVec x) i + c i)) (argPlus x i)).isSome = true :=
    fun i => rfl
  unfold fdJac
  rw [dif_pos hsome]
  congr 1
  ext a i
  simp only [Matrix.of_apply, Option.get_some]
  have hp := fdStep_pos x i
  rw [div_eq_iff hp.ne']
  have : A.mulVec (argPlus x i) a = A.mulVec x a + A a i * fdStep x i := by
    have e : argPlus x i = x + Pi.single i (fdStep x i) := by
      ext b
      unfold argPlus
      by_cases hb : b = i
      · subst hb; simp
      · rw [Function.update_of_ne hb]; simp [Pi.single_eq_of_ne hb]
    rw [e, Matrix.mulVec_add]
    simp [Matrix.mulVec_single, mul_comm]
  rw [this]; ring

theorem norm2_zero : norm2 (fun _ : Fin n => (0 : ℝ)) = 0 := by simp [norm2]

/-- An affine system with a solver that solves it is solved: the returned point is the root, after at
most two passes. -/
theorem newton_affine (A : Matrix (Fin n) (Fin n) ℝ) (c : NVec n)
    (solve : Matrix (Fin n) (Fin n) ℝ → NVec n → Option (NVec n)) (x0 : NVec n) (tol : ℝ) (htol : 0 < tol)
    (hs : ∀ b, ∃ v, solve A b = some v ∧ A.mulVec v = b) :
    ∃ run y, newtonRaphson (fun x => some (fun i => (A.mulVec x) i + c i)) solve x0 tol = .ok run ∧
      run.x = some y ∧ (∀ i, (A.mulVec y) i + c i = 0) ∧ run.pts.length ≤ 2 := by
  have hstep : ∀ x : NVec n, ∃ y, newtonNext (fun x => some (fun i => (A.mulVec x) i + c i)) solve x
      (fun i => (A.mulVec x) i + c i) = some y ∧ ∀ i, (A.mulVec y) i + c i = 0 := by
    intro x
    obtain ⟨v, h1, h2⟩ := hs (fun i => -((A.mulVec x) i + c i))
    refine ⟨fun i => x i + v i, ?_, ?_⟩
    · unfold newtonNext
      rw [fdJac_affine]
      simp only [h1]
    · intro i
      have : A.mulVec (fun i => x i + v i) i = A.mulVec x i + A.mulVec v i := by
        rw [show (fun i => x i + v i) = x + v from rfl, Matrix.mulVec_add]; rfl
      rw [this, h2]; ring
  obtain ⟨y, hy, hy0⟩ := hstep x0
  unfold newtonRaphson
  rw [newtonLoop]
  simp only
  by_cases ht : norm2 (fun i => (A.mulVec x0) i + c i) < tol
  · rw [if_pos ht]
    exact ⟨_, y, rfl, hy, hy0, by simp⟩
  · rw [if_neg ht, hy, newtonLoop]
    simp only
    have hz : (fun i => (A.mulVec y) i + c i) = fun _ => 0 := by ext i; exact hy0 i
    have hn : norm2 (fun i => (A.mulVec y) i + c i) < tol := by rw [hz, norm2_zero]; exact htol
    rw [if_pos hn]
    obtain ⟨w, hw, hw0⟩ := hstep y
    exact ⟨_, w, rfl, hw, hw0, by simp⟩

/-- One equation `2 x - 6 = 0` with the exact solver. -/
example : ∃ run y, newtonRaphson (n := 1)
    (fun x => some (fun i => ((Matrix.of fun _ _ => (2 : ℝ) : Matrix (Fin 1) (Fin 1) ℝ).mulVec x) i + (-6)))
    (fun A b => some (fun _ => b 0 / A 0 0)) (fun _ => 1) 1e-10 = .ok run ∧ run.x = some y ∧ y 0 = 3 := by
  have hs : ∀ b : NVec 1, ∃ v : NVec 1, (fun (A : Matrix (Fin 1) (Fin 1) ℝ) (b : NVec 1) =>
      some (fun _ : Fin 1 => b 0 / A 0 0)) (Matrix.of fun _ _ => (2 : ℝ)) b = some v ∧
      (Matrix.of fun _ _ => (2 : ℝ) : Matrix (Fin 1) (Fin 1) ℝ).mulVec v = b := by
    intro b
    refine ⟨fun _ => b 0 / 2, rfl, ?_⟩
    ext i
    rw [Subsingleton.elim i 0]
    simp only [Matrix.mulVec, dotProduct, Matrix.of_apply, Finset.univ_unique, Finset.sum_singleton]
    ring
  obtain ⟨run, y, h1, h2, h3, -⟩ := newton_affine (n := 1) (Matrix.of fun _ _ => (2 : ℝ)) (fun _ => -6)
    (fun A b => some (fun _ => b 0 / A 0 0)) (fun _ => 1) 1e-10 (by norm_num) hs
  refine ⟨run, y, h1, h2, ?_⟩
  have := h3 0
  simp [Matrix.mulVec, dotProduct] at this
  linarith

/-- The function of the next theorem: nearly flat above -100, equal to 1 below. -/
noncomputable def flatFn (x : NVec 1) : Option (NVec 1) :=
  some (fun _ => if x 0 < -100 then 1 else 5e-11 + 1e-13 * x 0)

/-- The returned point itself is not checked: one more update follows the last evaluation, and the
residual there can be large. -/
theorem newton_last_step_unchecked :
    ∃ run y r, newtonRaphson flatFn (fun A b => some (fun _ => b 0 / A 0 0)) (fun _ => 0) 1e-10 = .ok run ∧
      run.x = some y ∧ flatFn y = some r ∧ norm2 r = 1 := by
  have h0 : flatFn (fun _ => 0) = some (fun _ => 5e-11) := by
    unfold flatFn; congr 1; ext; norm_num
  have hn : norm2 (fun _ : Fin 1 => (5e-11 : ℝ)) = 5e-11 := by
    unfold norm2
    simp only [Finset.univ_unique, Finset.sum_const, Finset.card_singleton, one_smul]
    rw [Real.sqrt_sq (by norm_num)]
  have hfs : fdStep (fun _ : Fin 1 => (0 : ℝ)) 0 = 1e-8 := by
    unfold fdStep; norm_num
  have hap : argPlus (fun _ : Fin 1 => (0 : ℝ)) 0 = fun _ => 1e-8 := by
    ext i
    fin_cases i
    simp [argPlus, hfs]
  have hJ : fdJac flatFn (fun _ => 0) (fun _ => 5e-11) = some (Matrix.of fun _ _ => 1e-13) := by
    have hsome : ∀ i : Fin 1, (flatFn (argPlus (fun _ => (0 : ℝ)) i)).isSome := fun i => rfl
    unfold fdJac
    rw [dif_pos hsome]
    congr 1
    ext a i
    fin_cases i
    simp only [Matrix.of_apply, Fin.zero_eta]
    rw [hfs]
    have : (flatFn (argPlus (fun _ => (0 : ℝ)) 0)).get (hsome 0) a = 5e-11 + 1e-13 * 1e-8 := by
      have e : argPlus (fun _ : Fin 1 => (0 : ℝ)) 0 0 = 1e-8 := by rw [hap]
      change (if argPlus (fun _ : Fin 1 => (0 : ℝ)) 0 0 < -100 then (1 : ℝ)
        else 5e-11 + 1e-13 * argPlus (fun _ : Fin 1 => (0 : ℝ)) 0 0) = _
      rw [e]
      norm_num
    rw [this]; norm_num
  refine ⟨⟨some (fun _ => -500), [fun _ => 0]⟩, fun _ => -500, fun _ => 1, ?_, rfl, ?_, ?_⟩
  · unfold newtonRaphson
    rw [newtonLoop]
    simp only [h0]
    rw [if_pos (by rw [hn]; norm_num)]
    unfold newtonNext
    rw [hJ]
    simp only [Matrix.of_apply]
    norm_num
  · unfold flatFn; congr 1; ext; norm_num
  · simp [norm2]

end Teqp.Props
