import Verif.Model.MixVLE
import Verif.Lemmas.Outcome

/-! # The common shape of the saturation solvers' loops -/

set_option autoImplicit false

namespace Teqp.VLELoop

open Teqp.Model

/-- One pass returns nothing (a step that is not finite) or the new state with the verdict of the stopping tests. -/
def iterLoop {σ : Type} (step : σ → Outcome (Option (σ × Option VLECode))) : ℕ → σ → Outcome (VLECode × σ)
  | 0, s => .ok (.unset, s)
  | k + 1, s => (step s).bind fun r =>
    match r with
    | none => .ok (.notfiniteStep, s)
    | some (s', some c) => .ok (c, s')
    | some (s', none) => if k = 0 then .ok (.maxiterMet, s') else iterLoop step k s'

/-- How a run ended. -/
def Ended {σ : Type} (step : σ → Outcome (Option (σ × Option VLECode))) (n k : ℕ) (s : σ) (c : VLECode) (t : σ) : Prop :=
  (c = .notfiniteStep ∧ t = s ∧ step s = .ok none) ∨
  step s = .ok (some (t, some c)) ∨
  (step s = .ok (some (t, none)) ∧ c = .maxiterMet ∧ k + 1 = n)

/-- A run is a sequence of passes that did not stop, followed by the one that ended it. -/
def Run {σ : Type} (step : σ → Outcome (Option (σ × Option VLECode))) (n : ℕ) (s : σ) (c : VLECode) (t : σ) : Prop :=
  ∃ k, k < n ∧ ∃ path : ℕ → σ, path 0 = s ∧ (∀ j, j < k → step (path j) = .ok (some (path (j + 1), none))) ∧
    Ended step n k (path k) c t

theorem iterLoop_run {σ : Type} (step : σ → Outcome (Option (σ × Option VLECode))) (n : ℕ) (s : σ) (c : VLECode) (t : σ)
    (h : iterLoop step n s = .ok (c, t)) : (n = 0 ∧ c = .unset ∧ t = s) ∨ Run step n s c t := by
  induction n generalizing s with
  | zero =>
    simp only [iterLoop, Outcome.ok.injEq, Prod.mk.injEq] at h
    exact .inl ⟨rfl, h.1.symm, h.2.symm⟩
  | succ k ih =>
    right
    simp only [iterLoop] at h
    obtain ⟨r, hr, h⟩ := Outcome.bind_eq_ok.mp h
    match r, hr, h with
    | none, hr, h =>
      simp only [Outcome.ok.injEq, Prod.mk.injEq] at h
      exact ⟨0, by omega, fun _ => s, rfl, fun j hj => by omega, .inl ⟨h.1.symm, h.2.symm, hr⟩⟩
    | some (s', some c'), hr, h =>
      simp only [Outcome.ok.injEq, Prod.mk.injEq] at h
      obtain ⟨rfl, rfl⟩ := h
      exact ⟨0, by omega, fun _ => s, rfl, fun j hj => by omega, .inr (.inl hr)⟩
    | some (s', none), hr, h =>
      by_cases hk : k = 0
      · simp only [hk, if_true, Outcome.ok.injEq, Prod.mk.injEq] at h
        obtain ⟨rfl, rfl⟩ := h
        exact ⟨0, by omega, fun _ => s, rfl, fun j hj => by omega, .inr (.inr ⟨hr, rfl, by omega⟩)⟩
      · simp only [hk, if_false] at h
        rcases ih s' h with ⟨h0, _⟩ | ⟨j, hj, path, hp0, hp, he⟩
        · exact absurd h0 hk
        · refine ⟨j + 1, by omega, fun i => if i = 0 then s else path (i - 1), rfl, ?_, ?_⟩
          · intro i hi
            rcases Nat.eq_zero_or_pos i with rfl | hpos
            · simpa [hp0] using hr
            · have h1 : i ≠ 0 := by omega
              have := hp (i - 1) (by omega)
              have e : i - 1 + 1 = i := by omega
              rw [e] at this
              simpa [h1] using this
          · have : (fun i => if i = 0 then s else path (i - 1)) (j + 1) = path j := by simp
            rw [this]
            rcases he with h1 | h1 | ⟨h1, h2, h3⟩
            · exact .inl h1
            · exact .inr (.inl h1)
            · exact .inr (.inr ⟨h1, h2, by omega⟩)

/-- A property kept by every pass is kept by the loop. -/
theorem iterLoop_invariant {σ : Type} (step : σ → Outcome (Option (σ × Option VLECode))) (P : σ → Prop)
    (hP : ∀ s t o, P s → step s = .ok (some (t, o)) → P t) (n : ℕ) (s : σ) (c : VLECode) (t : σ) (hs : P s)
    (h : iterLoop step n s = .ok (c, t)) : P t := by
  rcases iterLoop_run step n s c t h with ⟨_, _, rfl⟩ | ⟨k, _, path, hp0, hp, he⟩
  · exact hs
  · have hpath : ∀ j, j ≤ k → P (path j) := by
      intro j
      induction j with
      | zero => intro _; rw [hp0]; exact hs
      | succ j ih => intro hj; exact hP _ _ _ (ih (by omega)) (hp j (by omega))
    rcases he with ⟨_, rfl, _⟩ | h1 | ⟨h1, _⟩
    · exact hpath k le_rfl
    · exact hP _ _ _ (hpath k le_rfl) h1
    · exact hP _ _ _ (hpath k le_rfl) h1

end Teqp.VLELoop
