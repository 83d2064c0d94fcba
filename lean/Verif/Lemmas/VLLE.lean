import Verif.Model.VLLE
import Verif.Lemmas.Envelope
import Verif.Lemmas.SampleCrit
import Verif.Lemmas.Outcome

/-! # Lemmas for the three-phase solvers -/

set_option autoImplicit false

open Teqp.Calc Teqp.Model Teqp.Spec Teqp.Lemmas Teqp.MixVLE Teqp.Envelope Filter Topology

namespace Teqp.VLLE

/-! ## A loop with a code -/

/-- A loop that makes passes until one of them gives a code, and gives `full` when `n` passes are used up. -/
def codeLoop {σ C : Type} (pass : σ → Outcome (σ × Option C)) (full : C) : ℕ → σ → Outcome (C × σ)
  | 0, s => (pass s).bind fun r => .ok (r.2.getD full, r.1)
  | n + 1, s => (pass s).bind fun r =>
    match r.2 with
    | some c => .ok (c, r.1)
    | none => codeLoop pass full n r.1

theorem codeLoop_run {σ C : Type} (pass : σ → Outcome (σ × Option C)) (full : C) (n : ℕ) (s t : σ) (c : C)
    (h : codeLoop pass full n s = .ok (c, t)) :
    ∃ k ≤ n, ∃ path : ℕ → σ, path 0 = s ∧ (∀ j, j < k → pass (path j) = .ok (path (j + 1), none)) ∧
      (pass (path k) = .ok (t, some c) ∨ (pass (path k) = .ok (t, none) ∧ c = full ∧ k = n)) := by
  induction n generalizing s with
  | zero =>
    rw [codeLoop] at h
    obtain ⟨⟨t', o⟩, h1, h2⟩ := Outcome.bind_eq_ok.mp h
    simp only [Outcome.ok.injEq, Prod.mk.injEq] at h2
    obtain ⟨h2, rfl⟩ := h2
    refine ⟨0, le_rfl, fun _ => s, rfl, by simp, ?_⟩
    cases o with
    | none => right; exact ⟨h1, by simpa using h2.symm, rfl⟩
    | some c' => left; simp at h2; rw [h1, h2]
  | succ n ih =>
    rw [codeLoop] at h
    obtain ⟨⟨t', o⟩, h1, h2⟩ := Outcome.bind_eq_ok.mp h
    cases o with
    | some c' =>
      simp only [Outcome.ok.injEq, Prod.mk.injEq] at h2
      obtain ⟨rfl, rfl⟩ := h2
      exact ⟨0, by omega, fun _ => s, rfl, by simp, .inl h1⟩
    | none =>
      obtain ⟨k, hk, path, hp0, hp, hl⟩ := ih t' h2
      refine ⟨k + 1, by omega, fun j => if j = 0 then s else path (j - 1), by simp, fun j hj => ?_, ?_⟩
      · rcases j with _ | j
        · simp only [if_true, zero_add, one_ne_zero, if_false, Nat.sub_self, hp0]; exact h1
        · have := hp j (by omega)
          simpa using this
      · simp only [Nat.add_eq_zero_iff, one_ne_zero, and_false, if_false, Nat.add_sub_cancel]
        rcases hl with hl | ⟨h3, h4, h5⟩
        · exact .inl hl
        · exact .inr ⟨h3, h4, by omega⟩

/-! ## Phases along curves -/

section
variable {m : EOS (Fin 2)} {R s τ' : ℝ} {τ : ℝ → ℝ} {γ : ℝ → Fin 2 → ℝ} {v : Fin 2 → ℝ}

theorem phaseMu_eq (hR : ∀ x, m.R x = R) {T : ℝ} {ρ : Fin 2 → ℝ} (h : SmoothAt m T ρ) (hp : ∀ i, 0 < ρ i) (i : Fin 2) :
    phaseMu m T ρ i = mixMu m.alphar R T ρ i := by
  rw [mixMu_eq h hR i (hp i), phaseMu, phaseRT, hR]

theorem phaseP_eq (hR : ∀ x, m.R x = R) {T : ℝ} {ρ : Fin 2 → ℝ} (h : SmoothAt m T ρ) :
    phaseP m T ρ = mixP m.alphar R T ρ := by
  rw [mixP_eq h hR, phaseP, phaseRT, hR]

theorem phaseMu_rate (hR : ∀ x, m.R x = R) (h : SmoothAt m (τ s) (γ s)) (hτ : HasDerivAt τ τ' s) (hγ : HasDerivAt γ v s)
    (hp : ∀ i, 0 < γ s i) (i : Fin 2) :
    HasDerivAt (fun u => phaseMu m (τ u) (γ u) i)
      (τ' * phaseMuT m (τ s) (γ s) i + ∑ j, hessPsi m (τ s) (γ s) i j * v j) s := by
  have := mu_rate h hR hτ hγ i (hp i)
  simp only [phaseMu, phaseRT, hR]
  refine this.congr_deriv ?_
  simp only [dchempotdT, phaseMuT, hR, mv, psiHess_apply, div_one]
  ring

theorem phaseP_rate (hR : ∀ x, m.R x = R) (h : SmoothAt m (τ s) (γ s)) (hτ : HasDerivAt τ τ' s) (hγ : HasDerivAt γ v s) :
    HasDerivAt (fun u => phaseP m (τ u) (γ u))
      (τ' * dpdT m (τ s) (γ s) + ∑ j, solverDp m (phaseRT m (τ s) (γ s)) (τ s) (γ s) j * v j) s := by
  have := p_curve h hR hτ hγ rfl rfl
  simp only [phaseP, phaseRT, hR]
  exact this

end

/-! ## Fluids given by their total Helmholtz energy density -/

section
open Teqp.Sample
variable {P : ℝ → ℝ → ℝ → ℝ} {T : ℝ} {ρ : Fin 2 → ℝ}

theorem ofTotal_mu (hT : T ≠ 0) (hρ : ∀ i, 0 < ρ i) (i : Fin 2) {d : ℝ}
    (h : HasDerivAt (fun r => P T (Function.update ρ i r 0) (Function.update ρ i r 1)) d (ρ i)) :
    mixMu (ofTotal P).alphar 1 T ρ i = d := by
  unfold mixMu
  rw [← h.deriv]
  refine EventuallyEq.deriv_eq ?_
  filter_upwards [lt_mem_nhds (hρ i)] with r hr
  refine ofTotal_psi P hT fun k => ?_
  by_cases hk : k = i
  · subst hk; simpa using hr
  · rw [Function.update_of_ne hk]; exact hρ k

theorem ofTotal_p (hP : ContDiff ℝ 2 fun p : ℝ × ℝ × ℝ => P p.1 p.2.1 p.2.2) (hT : T ≠ 0) (hρ : ∀ i, 0 < ρ i) :
    mixP (ofTotal P).alphar 1 T ρ = ∑ i, ρ i * mixMu (ofTotal P).alphar 1 T ρ i - P T (ρ 0) (ρ 1) := by
  have hs := ofTotal_smooth hP hT hρ
  rw [mixP_eq hs (R := 1) (fun _ => rfl)]
  simp only [mixMu_eq hs (R := 1) (fun _ => rfl) _ (hρ _)]
  simp only [solverP, ofTotal_Psir P hT hρ, rhotot, Fin.sum_univ_two]
  ring

theorem ofTotal_hess (hP : ContDiff ℝ 2 fun p : ℝ × ℝ × ℝ => P p.1 p.2.1 p.2.2) (hT : T ≠ 0) (hρ : ∀ i, 0 < ρ i)
    (i j : Fin 2) {d : ℝ}
    (h : HasDerivAt (fun r => mixMu (ofTotal P).alphar 1 T (Function.update ρ j r) i) d (ρ j)) :
    hessPsi (ofTotal P) T ρ i j = d := by
  have hs := ofTotal_smooth hP hT hρ
  have hu : HasDerivAt (fun r => Function.update ρ j r) (Pi.single j (1 : ℝ)) (ρ j) := hasDerivAt_update ρ j (ρ j)
  have he : Function.update ρ j (ρ j) = ρ := Function.update_eq_self j ρ
  have h1 := mu_rate (m := ofTotal P) (R := 1) (τ := fun _ => T) (γ := fun r => Function.update ρ j r) (s := ρ j)
    (by rw [he]; exact hs) (fun _ => rfl) (hasDerivAt_const _ T) hu i (by rw [he]; exact hρ i)
  rw [he] at h1
  have h2 : (fun r => mixMu (ofTotal P).alphar 1 T (Function.update ρ j r) i) =ᶠ[𝓝 (ρ j)]
      fun r => gradPsir (ofTotal P) T (Function.update ρ j r) i + 1 * T * Real.log (Function.update ρ j r i) := by
    filter_upwards [lt_mem_nhds (hρ j)] with r hr
    have hp : ∀ k, 0 < Function.update ρ j r k := fun k => by
      by_cases hk : k = j
      · subst hk; simpa using hr
      · rw [Function.update_of_ne hk]; exact hρ k
    exact mixMu_eq (ofTotal_smooth hP hT hp) (fun _ => rfl) i (hp i)
  have := (h1.congr_of_eventuallyEq h2).unique h
  rw [← this]
  simp [mv, psiHess_apply, Pi.single_apply]

end

/-! ## The sample fluid: two wells in each concentration, the first pair moving with temperature -/

/-- Total Helmholtz energy density: it is zero at `(T, 1)`, `(T + 1, 1)`, `(T, 2)`, `(T + 1, 2)` and positive elsewhere. -/
noncomputable def wellsP (T a b : ℝ) : ℝ := (a - T) ^ 2 * (a - T - 1) ^ 2 + (b - 1) ^ 2 * (b - 2) ^ 2

/-- The fluid. -/
noncomputable def wells : EOS (Fin 2) := Teqp.Sample.ofTotal wellsP

/-- Its chemical potentials. -/
noncomputable def wellsMu (T : ℝ) (ρ : Fin 2 → ℝ) : Fin 2 → ℝ :=
  ![2 * (ρ 0 - T) * (ρ 0 - T - 1) * (2 * (ρ 0 - T) - 1), 2 * (ρ 1 - 1) * (ρ 1 - 2) * (2 * ρ 1 - 3)]

theorem wells_contDiff : ContDiff ℝ 2 fun p : ℝ × ℝ × ℝ => wellsP p.1 p.2.1 p.2.2 := by unfold wellsP; fun_prop

theorem wells_smooth {T : ℝ} {ρ : Fin 2 → ℝ} (hT : T ≠ 0) (hρ : ∀ i, 0 < ρ i) : SmoothAt wells T ρ :=
  Teqp.Sample.ofTotal_smooth wells_contDiff hT hρ

theorem wells_R (x : Fin 2 → ℝ) : wells.R x = 1 := rfl

theorem wells_mu {T : ℝ} {ρ : Fin 2 → ℝ} (hT : T ≠ 0) (hρ : ∀ i, 0 < ρ i) (i : Fin 2) :
    mixMu wells.alphar 1 T ρ i = wellsMu T ρ i := by
  refine ofTotal_mu hT hρ i ?_
  fin_cases i
  · simp only [wellsP, Fin.zero_eta, Function.update_self, ne_eq, one_ne_zero, not_false_eq_true, Function.update_of_ne]
    have h := (hasDerivAt_id (ρ 0)).sub_const T
    have h1 := ((h.pow 2).mul ((h.sub_const 1).pow 2)).add_const ((ρ 1 - 1) ^ 2 * (ρ 1 - 2) ^ 2)
    refine h1.congr_deriv ?_
    simp [wellsMu]
    ring
  · simp only [wellsP, Fin.mk_one, Function.update_self, ne_eq, zero_ne_one, not_false_eq_true, Function.update_of_ne]
    have h := hasDerivAt_id (ρ 1)
    have h1 := (((h.sub_const 1).pow 2).mul ((h.sub_const 2).pow 2)).const_add ((ρ 0 - T) ^ 2 * (ρ 0 - T - 1) ^ 2)
    refine h1.congr_deriv ?_
    simp [wellsMu]
    ring

theorem wells_p {T : ℝ} {ρ : Fin 2 → ℝ} (hT : T ≠ 0) (hρ : ∀ i, 0 < ρ i) :
    mixP wells.alphar 1 T ρ = ∑ i, ρ i * wellsMu T ρ i - wellsP T (ρ 0) (ρ 1) := by
  have := ofTotal_p wells_contDiff hT hρ
  rw [show (Teqp.Sample.ofTotal fun T a b => wellsP T a b) = wells from rfl] at this
  rw [this]
  simp only [wells_mu hT hρ]

theorem wells_hess {T : ℝ} {ρ : Fin 2 → ℝ} (hT : T ≠ 0) (hρ : ∀ i, 0 < ρ i) (i j : Fin 2) :
    hessPsi wells T ρ i j = if i = j then
      (if i = 0 then 2 * (6 * (ρ 0 - T) ^ 2 - 6 * (ρ 0 - T) + 1) else 2 * (6 * ρ 1 ^ 2 - 18 * ρ 1 + 13)) else 0 := by
  refine ofTotal_hess wells_contDiff hT hρ i j ?_
  have he : (fun r => mixMu wells.alphar 1 T (Function.update ρ j r) i) =ᶠ[𝓝 (ρ j)]
      fun r => wellsMu T (Function.update ρ j r) i := by
    filter_upwards [lt_mem_nhds (hρ j)] with r hr
    refine wells_mu hT (fun k => ?_) i
    by_cases hk : k = j
    · subst hk; simpa using hr
    · rw [Function.update_of_ne hk]; exact hρ k
  refine HasDerivAt.congr_of_eventuallyEq ?_ he
  fin_cases i <;> fin_cases j
  · simp only [wellsMu, Fin.zero_eta, Function.update_self, Matrix.cons_val_zero, if_true]
    have h := (hasDerivAt_id (ρ 0)).sub_const T
    refine ((((h.const_mul 2).mul (h.sub_const 1))).mul ((h.const_mul 2).sub_const 1)).congr_deriv ?_
    simp
    ring
  · simp [wellsMu, hasDerivAt_const]
  · simp [wellsMu, hasDerivAt_const]
  · simp only [wellsMu, Fin.mk_one, Function.update_self, Matrix.cons_val_one, if_true]
    have h := hasDerivAt_id (ρ 1)
    refine (((((h.sub_const 1).const_mul 2).mul (h.sub_const 2))).mul ((h.const_mul 2).sub_const 3)).congr_deriv ?_
    simp
    ring

/-- The three phases. -/
def wellsPhases (T : ℝ) : Phases := ![![T, 1], ![T + 1, 1], ![T, 2]]

theorem wellsPhases_pos {T : ℝ} (hT : 0 < T) (k : Fin 3) (i : Fin 2) : 0 < wellsPhases T k i := by
  fin_cases k <;> fin_cases i <;> simp [wellsPhases] <;> linarith

theorem wellsPhases_mu (T : ℝ) (k : Fin 3) (i : Fin 2) : wellsMu T (wellsPhases T k) i = 0 := by
  fin_cases k <;> fin_cases i <;> simp [wellsPhases, wellsMu]

theorem wellsPhases_psi (T : ℝ) (k : Fin 3) : wellsP T (wellsPhases T k 0) (wellsPhases T k 1) = 0 := by
  fin_cases k <;> simp [wellsPhases, wellsP]

theorem wells_coexist {T : ℝ} (hT : 0 < T) (k k' : Fin 3) :
    MixCoexist wells.alphar 1 T (wellsPhases T k) (wellsPhases T k') := by
  refine ⟨fun i => ?_, ?_⟩
  · rw [wells_mu hT.ne' (wellsPhases_pos hT k), wells_mu hT.ne' (wellsPhases_pos hT k'), wellsPhases_mu, wellsPhases_mu]
  · rw [wells_p hT.ne' (wellsPhases_pos hT k), wells_p hT.ne' (wellsPhases_pos hT k')]
    simp only [wellsPhases_mu, wellsPhases_psi]
    simp

theorem wellsPhases_hess {T : ℝ} (hT : 0 < T) (k : Fin 3) : psiHess wells T (wellsPhases T k) = !![2, 0; 0, 2] := by
  ext i j
  rw [psiHess_apply, wells_hess hT.ne' (wellsPhases_pos hT k)]
  fin_cases k <;> fin_cases i <;> fin_cases j <;> simp [wellsPhases] <;> norm_num

theorem wellsPhases_rate (T : ℝ) : HasDerivAt wellsPhases ![![1, 0], ![1, 0], ![1, 0]] T := by
  refine hasDerivAt_pi.mpr fun k => hasDerivAt_pi.mpr fun i => ?_
  fin_cases k <;> fin_cases i
  · exact hasDerivAt_id T
  · exact hasDerivAt_const T (1 : ℝ)
  · exact (hasDerivAt_id T).add_const 1
  · exact hasDerivAt_const T (1 : ℝ)
  · exact hasDerivAt_id T
  · exact hasDerivAt_const T (2 : ℝ)

end Teqp.VLLE
