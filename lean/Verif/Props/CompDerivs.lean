import Verif.Lemmas.CompDerivs
import Verif.Lemmas.Powi
import Mathlib.Tactic.IntervalCases
import Mathlib.Tactic.FinCases
import Mathlib.Analysis.Calculus.Deriv.Mul

/-! # C04: the composition-derivative accessors -/

set_option autoImplicit false

namespace Teqp.Props
open Teqp.Model Teqp.Lemmas

section
variable {N : ℕ}

/-- Specification: `(1/T)^a ρ^b ∂^{a+b+c} α / ∂(1/T)^a ∂ρ^b ∂x_i^c`, the mole fractions being treated
as independent. -/
noncomputable def LambdaX (α : ℝ → ℝ → (Fin N → ℝ) → ℝ) (a b : ℕ) (T ρ : ℝ) (x : Fin N → ℝ)
    (i : Fin N) (c : ℕ) : ℝ :=
  (1 / T) ^ a * ρ ^ b *
    iteratedDeriv a (fun t => iteratedDeriv b (fun r => iteratedDeriv c
      (fun ξ => α (1 / t) r (Function.update x i ξ)) (x i)) ρ) (1 / T)

/-- Specification: mixed derivative in two mole fractions. -/
noncomputable def LambdaXX (α : ℝ → ℝ → (Fin N → ℝ) → ℝ) (a b : ℕ) (T ρ : ℝ) (x : Fin N → ℝ)
    (i : Fin N) (c : ℕ) (j : Fin N) (d : ℕ) : ℝ :=
  (1 / T) ^ a * ρ ^ b *
    iteratedDeriv a (fun t => iteratedDeriv b (fun r => iteratedDeriv c (fun ξ => iteratedDeriv d
      (fun η => α (1 / t) r (Function.update (Function.update x i ξ) j η)) (x j)) (x i)) ρ) (1 / T)

/-- Specification: mixed derivative in three mole fractions. -/
noncomputable def LambdaXXX (α : ℝ → ℝ → (Fin N → ℝ) → ℝ) (a b : ℕ) (T ρ : ℝ) (x : Fin N → ℝ)
    (i : Fin N) (c : ℕ) (j : Fin N) (d : ℕ) (k : Fin N) (e : ℕ) : ℝ :=
  (1 / T) ^ a * ρ ^ b *
    iteratedDeriv a (fun t => iteratedDeriv b (fun r => iteratedDeriv c (fun ξ => iteratedDeriv d
      (fun η => iteratedDeriv e (fun ζ => α (1 / t) r
        (Function.update (Function.update (Function.update x i ξ) j η) k ζ)) (x k)) (x j)) (x i)) ρ)
          (1 / T)

/-- Counts accepted by the one-composition accessor. -/
def okXi (iT iD iXi : Int) : Prop :=
  0 ≤ iT ∧ 0 ≤ iD ∧ 0 ≤ iXi ∧ iT + iD ≤ 2 ∧ iXi ≤ 3 ∧ ¬ (iT = 0 ∧ iD = 0 ∧ iXi = 0)
/-- Counts accepted by the two-composition accessor. -/
def okXiXj (iT iD iXi iXj : Int) : Prop :=
  0 ≤ iT ∧ 0 ≤ iD ∧ iT + iD ≤ 1 ∧ 0 ≤ iXi ∧ 0 ≤ iXj ∧ 1 ≤ iXi + iXj ∧ iXi + iXj ≤ 2
/-- Counts accepted by the three-composition accessor. -/
def okXiXjXk (iT iD iXi iXj iXk : Int) : Prop :=
  0 ≤ iT ∧ 0 ≤ iD ∧ iT + iD ≤ 1 ∧ 0 ≤ iXi ∧ iXi ≤ 1 ∧ 0 ≤ iXj ∧ iXj ≤ 1 ∧ 0 ≤ iXk ∧ iXk ≤ 1 ∧
    2 ≤ iXi + iXj + iXk

instance (a b c : Int) : Decidable (okXi a b c) := by unfold okXi; infer_instance
instance (a b c d : Int) : Decidable (okXiXj a b c d) := by unfold okXiXj; infer_instance
instance (a b c d e : Int) : Decidable (okXiXjXk a b c d e) := by unfold okXiXjXk; infer_instance

theorem matchXi_eq (a b c : Int) :
    matchXi a b c = if okXi a b c then some (a.toNat, b.toNat, c.toNat) else none := by
  by_cases h : okXi a b c
  · rw [if_pos h]
    obtain ⟨h1, h2, h3, h4, h5, h6⟩ := h
    have : a ≤ 2 := by omega
    have : b ≤ 2 := by omega
    interval_cases a <;> interval_cases b <;> interval_cases c <;>
      first | rfl | (exfalso; omega)
  · rw [if_neg h]
    unfold matchXi
    rw [List.find?_eq_none]
    intro r hr hd
    rw [decide_eq_true_eq] at hd
    obtain ⟨rfl, rfl, rfl⟩ := hd
    revert h
    revert r
    decide

theorem matchXiXj_eq (a b c d : Int) :
    matchXiXj a b c d =
      if okXiXj a b c d then some (a.toNat, b.toNat, c.toNat, d.toNat) else none := by
  by_cases h : okXiXj a b c d
  · rw [if_pos h]
    obtain ⟨h1, h2, h3, h4, h5, h6, h7⟩ := h
    have : a ≤ 1 := by omega
    have : b ≤ 1 := by omega
    have : c ≤ 2 := by omega
    have : d ≤ 2 := by omega
    interval_cases a <;> interval_cases b <;> interval_cases c <;> interval_cases d <;>
      first | rfl | (exfalso; omega)
  · rw [if_neg h]
    unfold matchXiXj
    rw [List.find?_eq_none]
    intro r hr hd
    rw [decide_eq_true_eq] at hd
    obtain ⟨rfl, rfl, rfl, rfl⟩ := hd
    revert h
    revert r
    decide

theorem matchXiXjXk_eq (a b c d e : Int) :
    matchXiXjXk a b c d e =
      if okXiXjXk a b c d e then some (a.toNat, b.toNat, c.toNat, d.toNat, e.toNat) else none := by
  by_cases h : okXiXjXk a b c d e
  · rw [if_pos h]
    obtain ⟨h1, h2, h3, h4, h5, h6, h7, h8, h9, h10⟩ := h
    have : a ≤ 1 := by omega
    have : b ≤ 1 := by omega
    interval_cases a <;> interval_cases b <;> interval_cases c <;> interval_cases d <;>
      interval_cases e <;> first | rfl | (exfalso; omega)
  · rw [if_neg h]
    unfold matchXiXjXk
    rw [List.find?_eq_none]
    intro r hr hd
    rw [decide_eq_true_eq] at hd
    obtain ⟨rfl, rfl, rfl, rfl, rfl⟩ := hd
    revert h
    revert r
    decide

theorem toIdx_coe (i : Fin N) : toIdx N (i : Int) = some i := by
  simp [toIdx]

theorem adLast3 (f : (Fin 3 → ℝ) → ℝ) (a b c : ℕ) (u v w : ℝ) :
    adLast f (List.replicate a 0 ++ List.replicate b 1 ++ List.replicate c 2) ![u, v, w] =
      iteratedDeriv a (fun t => iteratedDeriv b (fun r => iteratedDeriv c
        (fun ξ => f ![t, r, ξ]) w) v) u := by
  rw [adLast_append, adLast_append, adLast_replicate]
  simp only [adLast_replicate]
  have h1 : ∀ t, Function.update ![u, v, w] 0 t = ![t, v, w] := by
    intro t; funext k; fin_cases k <;> rfl
  have h2 : ∀ t r, Function.update ![t, v, w] 1 r = ![t, r, w] := by
    intro t r; funext k; fin_cases k <;> rfl
  have h3 : ∀ t r s, Function.update ![t, r, w] 2 s = ![t, r, s] := by
    intro t r s; funext k; fin_cases k <;> rfl
  simp only [h1, h2, h3]
  rfl

theorem adLast4 (f : (Fin 4 → ℝ) → ℝ) (a b c d : ℕ) (u v w z : ℝ) :
    adLast f (List.replicate a 0 ++ List.replicate b 1 ++ List.replicate c 2 ++
        List.replicate d 3) ![u, v, w, z] =
      iteratedDeriv a (fun t => iteratedDeriv b (fun r => iteratedDeriv c (fun ξ => iteratedDeriv d
        (fun η => f ![t, r, ξ, η]) z) w) v) u := by
  rw [adLast_append, adLast_append, adLast_append, adLast_replicate]
  simp only [adLast_replicate]
  have h1 : ∀ t, Function.update ![u, v, w, z] 0 t = ![t, v, w, z] := by
    intro t; funext k; fin_cases k <;> rfl
  have h2 : ∀ t r, Function.update ![t, v, w, z] 1 r = ![t, r, w, z] := by
    intro t r; funext k; fin_cases k <;> rfl
  have h3 : ∀ t r s, Function.update ![t, r, w, z] 2 s = ![t, r, s, z] := by
    intro t r s; funext k; fin_cases k <;> rfl
  have h4 : ∀ t r s q, Function.update ![t, r, s, z] 3 q = ![t, r, s, q] := by
    intro t r s q; funext k; fin_cases k <;> rfl
  simp only [h1, h2, h3, h4]
  rfl

theorem adLast5 (f : (Fin 5 → ℝ) → ℝ) (a b c d e : ℕ) (u v w z y : ℝ) :
    adLast f (List.replicate a 0 ++ List.replicate b 1 ++ List.replicate c 2 ++
        List.replicate d 3 ++ List.replicate e 4) ![u, v, w, z, y] =
      iteratedDeriv a (fun t => iteratedDeriv b (fun r => iteratedDeriv c (fun ξ => iteratedDeriv d
        (fun η => iteratedDeriv e (fun ζ => f ![t, r, ξ, η, ζ]) y) z) w) v) u := by
  rw [adLast_append, adLast_append, adLast_append, adLast_append, adLast_replicate]
  simp only [adLast_replicate]
  have h1 : ∀ t, Function.update ![u, v, w, z, y] 0 t = ![t, v, w, z, y] := by
    intro t; funext k; fin_cases k <;> rfl
  have h2 : ∀ t r, Function.update ![t, v, w, z, y] 1 r = ![t, r, w, z, y] := by
    intro t r; funext k; fin_cases k <;> rfl
  have h3 : ∀ t r s, Function.update ![t, r, w, z, y] 2 s = ![t, r, s, z, y] := by
    intro t r s; funext k; fin_cases k <;> rfl
  have h4 : ∀ t r s q, Function.update ![t, r, s, z, y] 3 q = ![t, r, s, q, y] := by
    intro t r s q; funext k; fin_cases k <;> rfl
  have h5 : ∀ t r s q o, Function.update ![t, r, s, q, y] 4 o = ![t, r, s, q, o] := by
    intro t r s q o; funext k; fin_cases k <;> rfl
  simp only [h1, h2, h3, h4, h5]
  rfl

/-- C04, one mole fraction. For every component index in range the accessor returns the documented
derivative when the counts are in range and otherwise refuses them with `InvalidArgument`. -/
theorem ATrhoXi_total (α : ℝ → ℝ → (Fin N → ℝ) → ℝ) (T ρ : ℝ) (x : Fin N → ℝ) (i : Fin N)
    (iT iD iXi : Int) :
    ATrhoXi_runtime α T iT ρ iD x i iXi =
      if okXi iT iD iXi then .ok (LambdaX α iT.toNat iD.toNat T ρ x i iXi.toNat)
      else .throws .invalidArgument := by
  unfold ATrhoXi_runtime
  rw [matchXi_eq]
  split_ifs with h
  · simp only [ATrhoXi, toIdx_coe]
    rw [adLast3, powiNat_eq, powiNat_eq]
    rfl
  · rfl

/-- C04, two mole fractions: additionally the two indices must differ. -/
theorem ATrhoXiXj_total (α : ℝ → ℝ → (Fin N → ℝ) → ℝ) (T ρ : ℝ) (x : Fin N → ℝ) (i j : Fin N)
    (iT iD iXi iXj : Int) :
    ATrhoXiXj_runtime α T iT ρ iD x i iXi j iXj =
      if okXiXj iT iD iXi iXj ∧ i ≠ j then
        .ok (LambdaXX α iT.toNat iD.toNat T ρ x i iXi.toNat j iXj.toNat)
      else .throws .invalidArgument := by
  unfold ATrhoXiXj_runtime
  rw [matchXiXj_eq]
  by_cases h : okXiXj iT iD iXi iXj
  · by_cases hij : i = j
    · subst hij; simp [h, ATrhoXiXj]
    · have hne : ¬ ((i : ℕ) : Int) = ((j : ℕ) : Int) := by
        intro hh; exact hij (Fin.ext (by exact_mod_cast hh))
      rw [if_pos h, if_pos ⟨h, hij⟩]
      simp only [ATrhoXiXj, toIdx_coe, if_neg hne]
      rw [adLast4, powiNat_eq, powiNat_eq]
      rfl
  · simp [h]

/-- C04, three mole fractions: the three indices must be pairwise different. -/
theorem ATrhoXiXjXk_total (α : ℝ → ℝ → (Fin N → ℝ) → ℝ) (T ρ : ℝ) (x : Fin N → ℝ) (i j k : Fin N)
    (iT iD iXi iXj iXk : Int) :
    ATrhoXiXjXk_runtime α T iT ρ iD x i iXi j iXj k iXk =
      if okXiXjXk iT iD iXi iXj iXk ∧ i ≠ j ∧ j ≠ k ∧ i ≠ k then
        .ok (LambdaXXX α iT.toNat iD.toNat T ρ x i iXi.toNat j iXj.toNat k iXk.toNat)
      else .throws .invalidArgument := by
  have hco : ∀ a b : Fin N, (((a : ℕ) : Int) = ((b : ℕ) : Int)) ↔ a = b := by
    intro a b; rw [Fin.ext_iff]; exact_mod_cast Iff.rfl
  unfold ATrhoXiXjXk_runtime
  rw [matchXiXjXk_eq]
  by_cases h : okXiXjXk iT iD iXi iXj iXk
  · by_cases hij : i ≠ j ∧ j ≠ k ∧ i ≠ k
    · rw [if_pos h, if_pos ⟨h, hij⟩]
      have hne : ¬ (i = j ∨ j = k ∨ i = k) := by tauto
      simp only [ATrhoXiXjXk, toIdx_coe, hco, if_neg hne]
      rw [adLast5, powiNat_eq, powiNat_eq]
      rfl
    · rw [if_pos h, if_neg (fun hh => hij hh.2)]
      have hne : i = j ∨ j = k ∨ i = k := by tauto
      simp only [ATrhoXiXjXk, hco, if_pos hne]
  · simp [h]

/-- C04, reduced-variable family. Because `α(τ,δ,x)` at `τ` is the same as the `1/T` form, the
specification is `LambdaX` of `fun T => atd (1/T)` at `T = 1/τ`; a model without
`alphar_taudelta` is refused with `NotImplementedError`; the zero-count request returns the value. -/
theorem AtaudeltaXi_total (atd : Option (ℝ → ℝ → (Fin N → ℝ) → ℝ)) (τ δ : ℝ) (x : Fin N → ℝ)
    (i : Fin N) (iT iD iXi : Int) :
    AtaudeltaXi_runtime atd τ iT δ iD x i iXi =
      if okXi iT iD iXi ∨ (iT = 0 ∧ iD = 0 ∧ iXi = 0) then
        match atd with
        | none => .throws .notImplemented
        | some f => .ok (LambdaX (fun T => f (1 / T)) iT.toNat iD.toNat (1 / τ) δ x i iXi.toNat)
      else .throws .invalidArgument := by
  unfold AtaudeltaXi_runtime
  by_cases h0 : iT = 0 ∧ iD = 0 ∧ iXi = 0
  · rw [if_pos h0, if_pos (Or.inr h0)]
    obtain ⟨rfl, rfl, rfl⟩ := h0
    cases atd with
    | none => rfl
    | some f => simp [LambdaX]
  · rw [if_neg h0, matchXi_eq]
    by_cases h : okXi iT iD iXi
    · rw [if_pos h, if_pos (Or.inl h)]
      cases atd with
      | none => simp [AtaudeltaXi, toIdx_coe]
      | some f =>
        simp only [AtaudeltaXi, toIdx_coe]
        rw [adLast3, powiNat_eq, powiNat_eq]
        simp [LambdaX]
    · rw [if_neg h, if_neg (by tauto)]

theorem AtaudeltaXiXj_total (atd : Option (ℝ → ℝ → (Fin N → ℝ) → ℝ)) (τ δ : ℝ) (x : Fin N → ℝ)
    (i j : Fin N) (iT iD iXi iXj : Int) :
    AtaudeltaXiXj_runtime atd τ iT δ iD x i iXi j iXj =
      if okXiXj iT iD iXi iXj ∧ i ≠ j then
        match atd with
        | none => .throws .notImplemented
        | some f => .ok (LambdaXX (fun T => f (1 / T)) iT.toNat iD.toNat (1 / τ) δ x i iXi.toNat
            j iXj.toNat)
      else .throws .invalidArgument := by
  unfold AtaudeltaXiXj_runtime
  rw [matchXiXj_eq]
  by_cases h : okXiXj iT iD iXi iXj
  · by_cases hij : i = j
    · subst hij; simp [h, AtaudeltaXiXj]
    · have hne : ¬ ((i : ℕ) : Int) = ((j : ℕ) : Int) := by
        intro hh; exact hij (Fin.ext (by exact_mod_cast hh))
      rw [if_pos h, if_pos ⟨h, hij⟩]
      cases atd with
      | none => simp [AtaudeltaXiXj, toIdx_coe, hne]
      | some f =>
        simp only [AtaudeltaXiXj, toIdx_coe, if_neg hne]
        rw [adLast4, powiNat_eq, powiNat_eq]
        simp [LambdaXX]
  · simp [h]

theorem AtaudeltaXiXjXk_total (atd : Option (ℝ → ℝ → (Fin N → ℝ) → ℝ)) (τ δ : ℝ) (x : Fin N → ℝ)
    (i j k : Fin N) (iT iD iXi iXj iXk : Int) :
    AtaudeltaXiXjXk_runtime atd τ iT δ iD x i iXi j iXj k iXk =
      if okXiXjXk iT iD iXi iXj iXk ∧ i ≠ j ∧ j ≠ k ∧ i ≠ k then
        match atd with
        | none => .throws .notImplemented
        | some f => .ok (LambdaXXX (fun T => f (1 / T)) iT.toNat iD.toNat (1 / τ) δ x i iXi.toNat
            j iXj.toNat k iXk.toNat)
      else .throws .invalidArgument := by
  have hco : ∀ a b : Fin N, (((a : ℕ) : Int) = ((b : ℕ) : Int)) ↔ a = b := by
    intro a b; rw [Fin.ext_iff]; exact_mod_cast Iff.rfl
  unfold AtaudeltaXiXjXk_runtime
  rw [matchXiXjXk_eq]
  by_cases h : okXiXjXk iT iD iXi iXj iXk
  · by_cases hij : i ≠ j ∧ j ≠ k ∧ i ≠ k
    · rw [if_pos h, if_pos ⟨h, hij⟩]
      have hne : ¬ (i = j ∨ j = k ∨ i = k) := by tauto
      cases atd with
      | none => simp [AtaudeltaXiXjXk, toIdx_coe, hco, hne]
      | some f =>
        simp only [AtaudeltaXiXjXk, toIdx_coe, hco, if_neg hne]
        rw [adLast5, powiNat_eq, powiNat_eq]
        simp [LambdaXXX]
    · rw [if_pos h, if_neg (fun hh => hij hh.2)]
      have hne : i = j ∨ j = k ∨ i = k := by tauto
      simp only [AtaudeltaXiXjXk, hco, if_pos hne]
  · simp [h]

/-- C04, the one gap: with counts in range, a component index outside the mixture is read out of
bounds (undefined behaviour) rather than being refused. -/
theorem ATrhoXi_bad_index (α : ℝ → ℝ → (Fin N → ℝ) → ℝ) (T ρ : ℝ) (x : Fin N → ℝ) (i : Int)
    (iT iD iXi : Int) (h : okXi iT iD iXi) (hi : i < 0 ∨ (N : Int) ≤ i) :
    ATrhoXi_runtime α T iT ρ iD x i iXi = .ub := by
  unfold ATrhoXi_runtime
  rw [matchXi_eq, if_pos h]
  have : toIdx N i = none := by
    unfold toIdx
    rw [dif_neg]
    omega
  simp [ATrhoXi, this]

end

/-- Both outcomes of `ATrhoXi_total` occur for a binary mixture, and the excluded request `(0,0,0)`
of the density form is refused although the reduced form answers it. -/
example (α : ℝ → ℝ → (Fin 2 → ℝ) → ℝ) (x : Fin 2 → ℝ) :
    ATrhoXi_runtime α 300 1 2 1 x 1 3 = .ok (LambdaX α 1 1 300 2 x 1 3) ∧
    ATrhoXi_runtime α 300 0 2 0 x 1 0 = .throws .invalidArgument ∧
    AtaudeltaXi_runtime (some α) 300 0 2 0 x 1 0 = .ok (α 300 2 x) := by
  refine ⟨?_, ?_, ?_⟩
  · have := ATrhoXi_total α 300 2 x 1 1 1 3
    rw [if_pos (by decide)] at this
    exact this
  · have := ATrhoXi_total α 300 2 x 1 0 0 0
    rw [if_neg (by decide)] at this
    exact this
  · simp [AtaudeltaXi_runtime]

/-- A concrete value: for `α = c x₀ x₁ ρ / T` the accessor gives `∂²α/∂x₀∂x₁ = c ρ / T`. -/
example (c : ℝ) (x : Fin 2 → ℝ) :
    ATrhoXiXj_runtime (fun T ρ x => c * x 0 * x 1 * ρ / T) 300 0 2 0 x 0 1 1 1 =
      .ok (c * 2 / 300) := by
  have := ATrhoXiXj_total (fun T ρ (x : Fin 2 → ℝ) => c * x 0 * x 1 * ρ / T) 300 2 x 0 1 0 0 1 1
  rw [if_pos (by decide)] at this
  refine this.trans ?_
  congr 1
  unfold LambdaXX
  have hd : ∀ k : ℝ, deriv (fun y : ℝ => k * y) (x 1) = k := fun k => by
    simp
  have hd0 : ∀ k : ℝ, deriv (fun y : ℝ => k * y) (x 0) = k := fun k => by
    simp
  have e1 : ∀ ξ : ℝ, (fun η : ℝ => c * (Function.update (Function.update x 0 ξ) 1 η) 0 *
      (Function.update (Function.update x 0 ξ) 1 η) 1 * 2 / 300) = fun η => (c * ξ * 2 / 300) * η := by
    intro ξ; funext η; simp; ring
  have e2 : (fun ξ : ℝ => c * ξ * 2 / 300) = fun ξ => (c * 2 / 300) * ξ := by
    funext ξ; ring
  simp only [Int.toNat_zero, Int.toNat_one, iteratedDeriv_zero, iteratedDeriv_one, one_div_one_div,
    pow_zero, one_mul]
  simp only [e1, hd, e2, hd0]

end Teqp.Props
