import Verif.Props.AssocAlphar
import Mathlib.Tactic

/-! # The default number of iterations of the association solver

With its default options the solver of `/repo/include/teqp/models/association/association.hpp` lines 370-433 makes at most 100 substitutions and
says nothing when they are too few.  For a mixture of donors and acceptors in nearly equal numbers they are: the fraction of free acceptors is
too small by a factor that grows with the strength. -/

set_option autoImplicit false

namespace Teqp.Props
open Teqp.Model Teqp.Spec Teqp.Lemmas Finset

/-- Strengths of donors with the mole fraction `0.49` and acceptors with `0.51` that only bond with each other. -/
def daK (κ : ℝ) (i j : Fin 2) : ℝ := if i = j then 0 else if i = 0 then κ * 0.51 else κ * 0.49

theorem daK_sum (κ : ℝ) (X : Fin 2 → ℝ) : (∑ j, daK κ 0 j * X j = κ * 0.51 * X 1) ∧ ∑ j, daK κ 1 j * X j = κ * 0.49 * X 0 := by
  constructor <;> simp [Fin.sum_univ_two, daK]

/-- One substitution. -/
theorem daK_step (κ : ℝ) (X : Fin 2 → ℝ) : maG (1 / 2) (daK κ) X 0 = (X 0 + 1 / (1 + κ * 0.51 * X 1)) / 2 ∧
    maG (1 / 2) (daK κ) X 1 = (X 1 + 1 / (1 + κ * 0.49 * X 0)) / 2 := by
  unfold maG maF
  rw [(daK_sum κ X).1, (daK_sum κ X).2]
  constructor <;> ring

/-- The exact fraction of free acceptors is at least the excess of the acceptors. -/
theorem da_exact (κ : ℝ) (Y : Fin 2 → ℝ) (hY : MassAction (daK κ) Y) : 1 - 0.49 / 0.51 ≤ Y 1 := by
  obtain ⟨hp, he⟩ := hY
  have e0 := he 0
  have e1 := he 1
  rw [(daK_sum κ Y).1] at e0
  rw [(daK_sum κ Y).2] at e1
  have p0 := hp 0
  have p1 := hp 1
  have : κ * (Y 0 * Y 1) ≤ 1 / 0.51 := by
    rw [le_div_iff₀ (by norm_num)]; nlinarith
  nlinarith

/-- What holds during the first 100 substitutions. -/
structure DaState (κ x y : ℝ) (k : ℕ) : Prop where
  x0 : 0 < x
  xy : x ≤ y
  yx : y ≤ 1.0409 ^ k * x
  lo : 1 ≤ κ * (x * y)
  hi : κ * (x * y) ≤ 2.67 + κ / 4 ^ k

theorem da_pow (k : ℕ) (hk : k ≤ 100) : (1.0409 : ℝ) ^ k ≤ 55.5 :=
  (pow_le_pow_right₀ (by norm_num) hk).trans (by norm_num)

theorem DaState.ratio {κ x y : ℝ} {k : ℕ} (h : DaState κ x y k) (hk : k ≤ 100) : y ≤ 55.5 * x :=
  h.yx.trans (mul_le_mul_of_nonneg_right (da_pow k hk) h.x0.le)

/-- The strengths times the fractions are large. -/
theorem DaState.large {κ x y : ℝ} {k : ℕ} (h : DaState κ x y k) (hk : k ≤ 100) (hκ : 1e6 ≤ κ) : 100 ≤ κ * x := by
  have hr := h.ratio hk
  have hx := h.x0
  have hl := h.lo
  by_contra hc
  push Not at hc
  have h1 : κ * (κ * (x * y)) ≤ κ * x * (κ * x) * 55.5 := by
    have hp : 0 ≤ κ * κ * x := by positivity
    nlinarith [mul_le_mul_of_nonneg_left hr hp]
  have h2 : κ * x * (κ * x) ≤ 100 * 100 := mul_le_mul hc.le hc.le (by positivity) (by norm_num)
  nlinarith

theorem DaState.next {κ x y : ℝ} {k : ℕ} (h : DaState κ x y k) (hk : k < 100) (hκ : 1e6 ≤ κ) :
    DaState κ ((x + 1 / (1 + κ * 0.51 * y)) / 2) ((y + 1 / (1 + κ * 0.49 * x)) / 2) (k + 1) := by
  have hx := h.x0
  have hy : 0 < y := hx.trans_le h.xy
  have hκ0 : 0 < κ := by linarith
  have hL := h.large hk.le hκ
  have hLy : 100 ≤ κ * y := hL.trans (mul_le_mul_of_nonneg_left h.xy hκ0.le)
  have da : 0 < 1 + κ * 0.51 * y := by positivity
  have db : 0 < 1 + κ * 0.49 * x := by positivity
  have hxy := h.xy
  have hyx := h.yx
  have hlo := h.lo
  have hhi := h.hi
  have n0 : 1 / (1 + κ * 0.51 * y) ≤ 1 / (1 + κ * 0.49 * x) := one_div_le_one_div_of_le db (by nlinarith)
  have hpow : (1 : ℝ) ≤ 1.0409 ^ k := one_le_pow₀ (by norm_num)
  have n1 : 1 / (1 + κ * 0.49 * x) ≤ 1.0409 ^ (k + 1) * (1 / (1 + κ * 0.51 * y)) := by
    rw [mul_one_div, div_le_div_iff₀ db da, pow_succ]
    have : κ * y ≤ 1.0409 ^ k * (κ * x) := by nlinarith
    nlinarith [mul_nonneg (by linarith : (0 : ℝ) ≤ 1.0409 ^ k) (by linarith : 0 ≤ κ * x)]
  have nx := one_div_pos.2 da
  have ny := one_div_pos.2 db
  -- bounds on the products
  have a1 : 1.9 ≤ κ * (1 / (1 + κ * 0.51 * y)) * y := by
    rw [mul_one_div, div_mul_eq_mul_div, le_div_iff₀ da]; nlinarith
  have a2 : κ * (1 / (1 + κ * 0.51 * y)) * y ≤ 1.961 := by
    rw [mul_one_div, div_mul_eq_mul_div, div_le_iff₀ da]; nlinarith
  have b1 : 2 ≤ κ * x * (1 / (1 + κ * 0.49 * x)) := by
    rw [mul_one_div, le_div_iff₀ db]; nlinarith
  have b2 : κ * x * (1 / (1 + κ * 0.49 * x)) ≤ 2.041 := by
    rw [mul_one_div, div_le_iff₀ db]; nlinarith
  have c2 : κ * ((1 / (1 + κ * 0.51 * y)) * (1 / (1 + κ * 0.49 * x))) ≤ 4.003 := by
    rw [one_div_mul_one_div, mul_one_div, div_le_iff₀ (mul_pos da db)]
    have : κ * 1 ≤ κ * (κ * (x * y)) := mul_le_mul_of_nonneg_left hlo hκ0.le
    nlinarith [mul_pos hκ0 hx, mul_pos hκ0 hy]
  generalize 1 / (1 + κ * 0.51 * y) = N at *
  generalize 1 / (1 + κ * 0.49 * x) = M at *
  have c1 : 0 < κ * (N * M) := by positivity
  have e : κ * ((x + N) / 2 * ((y + M) / 2)) = (κ * (x * y) + κ * N * y + κ * x * M + κ * (N * M)) / 4 := by ring
  refine ⟨by linarith, by linarith, ?_, by rw [e]; linarith, ?_⟩
  · have : y ≤ 1.0409 ^ (k + 1) * x := hyx.trans (mul_le_mul_of_nonneg_right (pow_le_pow_right₀ (by norm_num) (Nat.le_succ k)) hx.le)
    linarith
  · rw [e, pow_succ]
    have : κ / (4 ^ k * 4) = κ / 4 ^ k / 4 := by rw [div_div]
    rw [this]; linarith

/-- The test of the loop is not met there. -/
theorem DaState.not_done {κ x y : ℝ} {k : ℕ} (h : DaState κ x y k) (hk : k ≤ 100) (hκ : 1e6 ≤ κ) (hκ1 : κ ≤ 1e12) 
    (hx : |(x + 1 / (1 + κ * 0.51 * y)) / 2 - x| < 2e-12) (hy : |(y + 1 / (1 + κ * 0.49 * x)) / 2 - y| < 2e-12) : False := by
  have h0 := h.x0
  have hxy := h.xy
  have hr := h.ratio hk
  have hlo := h.lo
  have hy0 : 0 < y := h0.trans_le hxy
  have hκ0 : 0 < κ := by linarith
  have da : 0 < 1 + κ * 0.51 * y := by positivity
  have db : 0 < 1 + κ * 0.49 * x := by positivity
  have hN : 1 / (1 + κ * 0.51 * y) * (1 + κ * 0.51 * y) = 1 := by rw [one_div, inv_mul_cancel₀ da.ne']
  have hM : 1 / (1 + κ * 0.49 * x) * (1 + κ * 0.49 * x) = 1 := by rw [one_div, inv_mul_cancel₀ db.ne']
  generalize 1 / (1 + κ * 0.51 * y) = N at *
  generalize 1 / (1 + κ * 0.49 * x) = M at *
  have hxs : 1e-7 ≤ x := by
    by_contra hc
    push Not at hc
    have h1 : x * y ≤ 1e-7 * (55.5 * 1e-7) := mul_le_mul hc.le (hr.trans (by linarith)) hy0.le (by norm_num)
    nlinarith
  have x1 := (abs_lt.1 hx).1
  have y2 := (abs_lt.1 hy).2
  have hNx : 0.9999 * x ≤ N := by linarith
  have hMy : M ≤ 1.0001 * y := by linarith
  have u1 : 0.9999 * (0.51 * (κ * (x * y))) ≤ 1 := by
    have := mul_le_mul_of_nonneg_right hNx da.le
    nlinarith
  have u2 : 1 ≤ 1.0001 * (y + 0.49 * (κ * (x * y))) := by
    have := mul_le_mul_of_nonneg_right hMy db.le
    nlinarith
  have hy3 : 0.038 ≤ y := by linarith
  have u3 : κ * (y * y) ≤ 55.5 * (κ * (x * y)) := by
    have : 0 ≤ κ * y := by positivity
    nlinarith [mul_le_mul_of_nonneg_left hr this]
  have u4 : 1e6 * (0.038 * 0.038) ≤ κ * (y * y) := mul_le_mul hκ (mul_le_mul hy3 hy3 (by norm_num) hy0.le) (by norm_num) hκ0.le
  linarith

/-- The fractions after each of the first 100 substitutions. -/
theorem da_iter (κ : ℝ) (hκ : 1e6 ≤ κ) (k : ℕ) (hk : k ≤ 100) :
    DaState κ ((maG (1 / 2) (daK κ))^[k] (fun _ => 1) 0) ((maG (1 / 2) (daK κ))^[k] (fun _ => 1) 1) k := by
  induction k with
  | zero =>
    refine ⟨one_pos, le_rfl, by norm_num, ?_, ?_⟩
    · show 1 ≤ κ * (1 * 1); linarith
    · show κ * (1 * 1) ≤ 2.67 + κ / 4 ^ 0; linarith
  | succ k ih =>
    have := (ih (by omega)).next (by omega) hκ
    rw [Function.iterate_succ_apply', (daK_step κ _).1, (daK_step κ _).2]
    exact this

/-- **The default options do not suffice**: for strengths between a million and a million millions the solver uses up its 100 substitutions and returns
a fraction of free acceptors of at most `12.3/√κ`, while the exact one is at least the excess of the acceptors, about `0.039`, whatever the strength. -/
theorem assoc_default_limit (κ : ℝ) (hκ : 1e6 ≤ κ) (hκ1 : κ ≤ 1e12) (count : Fin 2 → ℕ) (Delta : Fin 2 → Fin 2 → ℝ) (D : Fin 2 → Fin 2 → ℕ) (rho NA : ℝ)
    (h01 : rho * NA * (Delta 0 1 * D 0 1) = κ) (h10 : rho * NA * (Delta 1 0 * D 1 0) = κ) (hD : D 0 0 = 0 ∧ D 1 1 = 0) :
    assocSolve {} 2 rho NA Delta D count ![0.49, 0.51] (fun _ => 1) = (maG (1 / 2) (daK κ))^[100] (fun _ => 1) ∧
    κ * assocSolve {} 2 rho NA Delta D count ![0.49, 0.51] (fun _ => 1) 1 ^ 2 ≤ 150 ∧
    ∃ Y, MassAction (rDDX rho NA Delta D ![0.49, 0.51]) Y ∧ (∀ Z, MassAction (rDDX rho NA Delta D ![0.49, 0.51]) Z → Z = Y) ∧
      3 * assocSolve {} 2 rho NA Delta D count ![0.49, 0.51] (fun _ => 1) 1 ≤ Y 1 := by
  have hK : rDDX rho NA Delta D ![0.49, 0.51] = daK κ := by
    have e : ∀ i j, rDDX rho NA Delta D ![0.49, 0.51] i j = rho * NA * (Delta i j * (D i j : ℝ)) * ![0.49, 0.51] j := fun _ _ => rfl
    have q00 : rDDX rho NA Delta D ![0.49, 0.51] 0 0 = daK κ 0 0 := by rw [e, hD.1]; simp [daK]
    have q11 : rDDX rho NA Delta D ![0.49, 0.51] 1 1 = daK κ 1 1 := by rw [e, hD.2]; simp [daK]
    have q01 : rDDX rho NA Delta D ![0.49, 0.51] 0 1 = daK κ 0 1 := by rw [e, h01]; rfl
    have q10 : rDDX rho NA Delta D ![0.49, 0.51] 1 0 = daK κ 1 0 := by rw [e, h10]; rfl
    funext i j
    fin_cases i <;> fin_cases j
    exacts [q00, q01, q10, q11]
  have hsolve : assocSolve {} 2 rho NA Delta D count ![0.49, 0.51] (fun _ => 1) = ssLoop (1 / 2) 1e-12 1e-12 (daK κ) 100 (fun _ => 1) := by
    unfold assocSolve
    simp only
    rw [dif_neg (by rintro ⟨-, h, -⟩; exact absurd h (by norm_num)), hK]
    rfl
  have hK0 : ∀ i j, 0 ≤ daK κ i j := fun i j => by unfold daK; split_ifs <;> linarith
  have hret : ssLoop (1 / 2) 1e-12 1e-12 (daK κ) 100 (fun _ => 1) = (maG (1 / 2) (daK κ))^[100] (fun _ => 1) := by
    obtain ⟨k, hk, he, hc⟩ := ssLoop_real (1 / 2) 1e-12 1e-12 (daK κ) 100 (fun _ => 1)
    rcases Nat.lt_or_ge k 100 with hlt | hge
    · exfalso
      have hu := maG_iterate_unit (α := 1 / 2) (by norm_num) (by norm_num) hK0 (fun i => ⟨one_pos, le_rfl⟩ : Unit01 (fun _ : Fin 2 => (1 : ℝ))) (k + 1)
      have hc' : ∀ i, |(maG (1 / 2) (daK κ))^[k + 1] (fun _ => 1) i - (maG (1 / 2) (daK κ))^[k] (fun _ => 1) i| < 2e-12 := fun i =>
        (hc hlt i).trans_le (by nlinarith [(hu i).2])
      rw [Function.iterate_succ_apply'] at hc'
      have c0 := hc' 0
      have c1 := hc' 1
      rw [(daK_step κ _).1] at c0
      rw [(daK_step κ _).2] at c1
      exact (da_iter κ hκ k hk).not_done hk hκ hκ1 c0 c1
    · rw [he, show k = 100 by omega]
  have hst := da_iter κ hκ 100 le_rfl
  rw [hsolve, hret, hK]
  generalize hX : (maG (1 / 2) (daK κ))^[100] (fun _ => 1) = X at *
  have hsq : κ * X 1 ^ 2 ≤ 150 := by
    have hr := hst.ratio le_rfl
    have hhi := hst.hi
    have h0 := hst.x0
    have hy : 0 < X 1 := h0.trans_le hst.xy
    have hsmall : κ / 4 ^ 100 ≤ 0.001 := by
      rw [div_le_iff₀ (by positivity)]; exact hκ1.trans (by norm_num)
    have : 0 ≤ κ * X 1 := by positivity
    nlinarith [mul_le_mul_of_nonneg_left hr this]
  refine ⟨rfl, hsq, ?_⟩
  obtain ⟨Y, hY, -, hun⟩ := massAction_exists_unique (daK κ) hK0
  refine ⟨Y, hY, hun, ?_⟩
  have hex := da_exact κ Y hY
  have hX1 : X 1 ≤ 0.0123 := by
    by_contra hc
    push Not at hc
    have h1 : (0.0123 : ℝ) ^ 2 ≤ X 1 ^ 2 := pow_le_pow_left₀ (by norm_num) hc.le 2
    nlinarith [mul_le_mul hκ h1 (by norm_num) (by linarith : 0 ≤ κ)]
  norm_num at hex
  linarith

/-- Two components with one site each, at a strength of a million. -/
example : ∃ Y, MassAction (rDDX 1000 6e23 (fun _ _ => (1e-20 / 6 : ℝ)) (fun i j => if i = j then 0 else 1) ![0.49, 0.51]) Y ∧
    3 * assocSolve {} 2 1000 6e23 (fun _ _ => (1e-20 / 6 : ℝ)) (fun i j => if i = j then 0 else 1) (fun _ => 1) ![0.49, 0.51] (fun _ => 1) 1 ≤ Y 1 := by
  obtain ⟨-, -, Y, hY, -, h⟩ := assoc_default_limit 1e6 le_rfl (by norm_num) (fun _ => 1) (fun _ _ => (1e-20 / 6 : ℝ)) (fun i j => if i = j then 0 else 1) 1000 6e23
    (by norm_num) (by norm_num) ⟨rfl, rfl⟩
  exact ⟨Y, hY, h⟩

end Teqp.Props
