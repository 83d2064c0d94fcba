import Verif.Props.TraceVLE
import Verif.Props.Dilute

/-! # C40, C69: where the derivatives of the envelope are finite

The slopes of `Props/Envelope` and `Props/Dilute` are those at states with all components present, or with a component
absent from both phases.  Here are the other states. -/

set_option autoImplicit false

open Classical Teqp.Model

namespace Teqp.Props

section
variable {m : EOS (Fin 2)} {solve : Solver 2} {T : ℝ}

/-- C40. When one component is absent from the vapor alone, neither of the two supported derivatives is finite; when it
is absent from the liquid alone, the derivative with respect to pressure is finite and that with respect to temperature is
not. -/
theorem absent_from_one_phase {L V : Fin 2 → ℝ} (k : Fin 2) (hL : 0 < L (1 - k)) (hV : 0 < V (1 - k)) :
    (0 < L k → V k = 0 → drhodpTsat m solve T (List.ofFn L) (List.ofFn V) = .nonFinite ∧
      drhodTpsat m solve T (List.ofFn L) (List.ofFn V) = .nonFinite) ∧
    (L k = 0 → 0 < V k → (∃ d, drhodpTsat m solve T (List.ofFn L) (List.ofFn V) = .ok d) ∧
      drhodTpsat m solve T (List.ofFn L) (List.ofFn V) = .nonFinite) := by
  have tot : ∀ ρ : Fin 2 → ℝ, rhotot ρ = ρ k + ρ (1 - k) := fun ρ => by
    rw [rhotot, Fin.sum_univ_two]
    fin_cases k <;> simp [add_comm]
  have ep : drhodpTsat m solve T (List.ofFn L) (List.ofFn V) =
      if tsatFinite L V then .ok (drhodpTsatVec m solve T L V) else .nonFinite := by
    unfold drhodpTsat
    rw [if_pos (by simp), if_neg (by norm_num), getD_ofFn, getD_ofFn]
  have eT : drhodTpsat m solve T (List.ofFn L) (List.ofFn V) =
      if psatFinite L V then .ok (drhodTpsatVec m solve T L V) else .nonFinite := by
    unfold drhodTpsat
    rw [ofFn_two, ofFn_two]
    simp only [List.length_cons, List.length_nil, zero_add, Nat.reduceAdd, ne_eq, not_true_eq_false, if_false]
    rw [vec2_eta, vec2_eta]
  constructor
  · intro h1 h2
    constructor
    · rw [ep, if_neg]
      exact fun h => h1.ne' (h.2.2 k h2)
    · rw [eT, if_neg]
      intro h
      have h3 := h.2.2
      rw [if_neg fun hn => hn.2 k h2] at h3
      rcases h3 k with ⟨h4, _⟩ | h4
      · exact h1.ne' h4
      · rw [h2, zero_div] at h4
        exact lt_irrefl _ h4
  · intro h1 h2
    constructor
    · refine ⟨drhodpTsatVec m solve T L V, ?_⟩
      rw [ep, if_pos]
      refine ⟨?_, ?_, ?_⟩
      · rw [tot, h1, zero_add]; exact hL.ne'
      · rw [tot]; exact (add_pos h2 hV).ne'
      · exact fin_two_cases (P := fun j => V j = 0 → L j = 0) k (fun _ => h1) fun h => absurd h hV.ne'
    · rw [eT, if_neg]
      intro h
      have h3 := h.2.2
      rw [if_neg fun hn => hn.1 k h1] at h3
      rcases h3 k with ⟨_, h4⟩ | h4
      · exact h2.ne' h4
      · rw [h1, div_zero] at h4
        exact lt_irrefl _ h4

/-- C40. A negative concentration gives no finite derivative with respect to temperature unless a concentration of a
component absent altogether accompanies it: with all four concentrations non-zero, all must be positive. -/
theorem negative_concentration {L V : Fin 2 → ℝ} (h0 : ∀ i, L i ≠ 0 ∧ V i ≠ 0) (hn : ∃ i, L i < 0 ∨ V i < 0) :
    drhodTpsat m solve T (List.ofFn L) (List.ofFn V) = .nonFinite ∧
      drhodTxsat m solve T (List.ofFn L) (List.ofFn V) = .nonFinite := by
  have hz : noneZero L V := ⟨fun i => (h0 i).1, fun i => (h0 i).2⟩
  have hneg : ¬∀ j, 0 < L j ∧ 0 < V j := by
    obtain ⟨i, hi | hi⟩ := hn
    · exact fun h => lt_asymm hi (h i).1
    · exact fun h => lt_asymm hi (h i).2
  constructor
  · unfold drhodTpsat
    rw [ofFn_two, ofFn_two]
    simp only [List.length_cons, List.length_nil, zero_add, Nat.reduceAdd, ne_eq, not_true_eq_false, if_false]
    rw [vec2_eta, vec2_eta, if_neg]
    intro h
    have h3 := h.2.2
    rw [if_pos hz] at h3
    exact hneg h3
  · unfold drhodTxsat
    rw [ofFn_two, ofFn_two]
    simp only [List.length_cons, List.length_nil, zero_add, Nat.reduceAdd, ne_eq, not_true_eq_false, if_false]
    rw [vec2_eta, vec2_eta, if_pos hz, if_neg fun h => hneg h.1]

/-- C40. On a mixture of one composition (two phases with the same mole fractions and the same densities) the quotient of
`get_drhovecdT_xsat` has the denominator zero. -/
theorem xsat_needs_two_phases {L : Fin 2 → ℝ} (h0 : ∀ i, L i ≠ 0) :
    drhodTxsat m solve T (List.ofFn L) (List.ofFn L) = .nonFinite := by
  unfold drhodTxsat
  rw [ofFn_two]
  simp only [List.length_cons, List.length_nil, zero_add, Nat.reduceAdd, ne_eq, not_true_eq_false, if_false]
  rw [vec2_eta, if_pos ⟨h0, h0⟩, if_neg]
  intro h
  refine h.2 ?_
  simp [mv]

end

/-- Water absent from the vapor alone, from the liquid alone; a negative concentration; one phase twice. -/
example (solve : Solver 2) :
    drhodpTsat idealMix solve 1 (List.ofFn ![1, 2]) (List.ofFn ![1, 0]) = .nonFinite ∧
    drhodTpsat idealMix solve 1 (List.ofFn ![1, 0]) (List.ofFn ![1, 2]) = .nonFinite ∧
    drhodTpsat idealMix solve 1 (List.ofFn ![1, -2]) (List.ofFn ![1, 2]) = .nonFinite ∧
    drhodTxsat idealMix solve 1 (List.ofFn ![1, 2]) (List.ofFn ![1, 2]) = .nonFinite :=
  ⟨((absent_from_one_phase 1 (by simp) (by simp)).1 (by simp) (by simp)).1,
    ((absent_from_one_phase 1 (by simp) (by simp)).2 (by simp) (by simp)).2,
    (negative_concentration (by intro i; fin_cases i <;> simp) ⟨1, by simp⟩).1,
    xsat_needs_two_phases (by intro i; fin_cases i <;> simp)⟩

theorem envelopeLoop_nonFinite {n : ℕ} {sys : TraceSys n} {opt : TraceOpts} {gas left : ℕ} {first : Bool}
    {s : TraceState n} (ho : opt.integrationOrder = 5 ∨ opt.integrationOrder = 1) (hf : ¬sys.finite s.x) :
    envelopeLoop sys opt (gas + 1) (left + 1) first s = some .nonFinite := by
  rw [envelopeLoop]
  generalize hs1 : (if first = true then storePoint sys s else s) = s1
  have hx : s1.x = s.x := by
    rw [← hs1]
    split_ifs <;> rfl
  obtain ⟨r, hr⟩ : ∃ r, envelopeStep sys opt s1 = some r := by
    unfold envelopeStep
    rcases ho with h | h
    · rw [if_pos h]; exact ⟨_, rfl⟩
    · rw [if_neg (by omega), if_pos h]; exact ⟨_, rfl⟩
  simp only [hr]
  rw [hx, if_neg hf]

/-- C69. The trace of an isotherm from a state with a component in the liquid that is not in the vapor: it neither fails
nor returns finite numbers. -/
theorem isotherm_from_one_sided_state {m : EOS (Fin 2)} {lin : Solver 2}
    {solve : Matrix (Fin 4) (Fin 4) ℝ → (Fin 4 → ℝ) → Option (Fin 4 → ℝ)} {crit : ℝ → (Fin 2 → ℝ) → ℝ}
    {adaptive : ((Fin 4 → ℝ) → Option (Fin 4 → ℝ)) → (Fin 4 → ℝ) → ℝ → ℝ → StepRes 4} {opt : TraceOpts} {gas : ℕ}
    {T l0 l1 v0 v1 : ℝ} (hm : 0 < opt.maxSteps) (ho : opt.integrationOrder = 5 ∨ opt.integrationOrder = 1)
    (h : (l0 ≠ 0 ∧ v0 = 0) ∨ (l1 ≠ 0 ∧ v1 = 0)) :
    traceIsotherm m lin solve crit adaptive opt (gas + 1) T [l0, l1] [v0, v1] = some .nonFinite := by
  obtain ⟨k, hk⟩ : ∃ k, opt.maxSteps.toNat = k + 1 := ⟨opt.maxSteps.toNat - 1, by omega⟩
  unfold traceIsotherm
  simp only [List.length_cons, List.length_nil, ne_eq, not_true_eq_false, if_false]
  rw [hk, envelopeLoop_nonFinite ho]
  · rfl
  · rintro ⟨⟨-, -, h3⟩, -⟩
    rcases h with ⟨a, b⟩ | ⟨a, b⟩
    · exact a (h3 0 b)
    · exact a (h3 1 b)

/-- C69. The trace of an isobar from a state with a component in one phase that is not in the other, or with a negative
concentration and no zero: it neither fails nor returns finite numbers. -/
theorem isobar_from_one_sided_state {m : EOS (Fin 2)} {lin : Solver 2}
    {solve : (PxEq 2 → PxVar 2 → ℝ) → (PxEq 2 → ℝ) → Option (PxVar 2 → ℝ)} {crit : ℝ → (Fin 2 → ℝ) → ℝ}
    {adaptive : ((Fin 5 → ℝ) → Option (Fin 5 → ℝ)) → (Fin 5 → ℝ) → ℝ → ℝ → StepRes 5} {opt : TraceOpts} {gas : ℕ}
    {p T l0 l1 v0 v1 : ℝ} (hm : 0 < opt.maxSteps) (ho : opt.integrationOrder = 5 ∨ opt.integrationOrder = 1)
    (h : ¬(l0 = 0 ↔ v0 = 0) ∨ ¬(l1 = 0 ↔ v1 = 0) ∨ (l0 * l1 * v0 * v1 ≠ 0 ∧ (l0 < 0 ∨ l1 < 0 ∨ v0 < 0 ∨ v1 < 0))) :
    traceIsobar m lin solve crit adaptive opt (gas + 1) p T [l0, l1] [v0, v1] = some .nonFinite := by
  obtain ⟨k, hk⟩ : ∃ k, opt.maxSteps.toNat = k + 1 := ⟨opt.maxSteps.toNat - 1, by omega⟩
  unfold traceIsobar
  simp only [List.length_cons, List.length_nil, ne_eq, not_true_eq_false, if_false, isobarRhs]
  rw [hk, envelopeLoop_nonFinite ho]
  · rfl
  · rintro ⟨⟨-, -, h3⟩, -⟩
    change (if noneZero (vec2 l0 l1) (vec2 v0 v1) then ∀ j, 0 < vec2 l0 l1 j ∧ 0 < vec2 v0 v1 j else
      ∀ j, (vec2 l0 l1 j = 0 ∧ vec2 v0 v1 j = 0) ∨ 0 < vec2 v0 v1 j / vec2 l0 l1 j) at h3
    have q : ∀ a b : ℝ, (a = 0 ∧ b = 0) ∨ 0 < b / a → (a = 0 ↔ b = 0) := by
      rintro a b (⟨rfl, rfl⟩ | hp)
      · simp
      · constructor
        · rintro rfl; simp at hp
        · rintro rfl; simp at hp
    split_ifs at h3 with hz
    · have a0 := h3 0
      have a1 := h3 1
      simp only [vec2, Matrix.cons_val_zero, Matrix.cons_val_one] at a0 a1
      rcases h with h | h | ⟨_, h⟩
      · exact h ⟨fun e => absurd e a0.1.ne', fun e => absurd e a0.2.ne'⟩
      · exact h ⟨fun e => absurd e a1.1.ne', fun e => absurd e a1.2.ne'⟩
      · rcases h with h | h | h | h
        · exact lt_asymm h a0.1
        · exact lt_asymm h a1.1
        · exact lt_asymm h a0.2
        · exact lt_asymm h a1.2
    · rcases h with h | h | ⟨h, _⟩
      · exact h (q _ _ (h3 0))
      · exact h (q _ _ (h3 1))
      · apply hz
        have h' := h
        simp only [ne_eq, mul_eq_zero, not_or] at h'
        obtain ⟨⟨⟨c0, c1⟩, c2⟩, c3⟩ := h'
        constructor <;> intro i <;> fin_cases i <;> simp [vec2, c0, c1, c2, c3]

/-- An isotherm and an isobar of the ideal gas from a liquid of two components and a vapor of one. -/
example (lin : Solver 2) :
    traceIsotherm idealMix lin (fun _ _ => none) (fun _ _ => 0)
      (fun _ x t dt => .accepted (fun i => 2 * x i) (t + dt) dt) exampleOpts 2 1 [1, 1] [1, 0] = some .nonFinite ∧
    traceIsobar idealMix lin (fun _ _ => none) (fun _ _ => 0)
      (fun _ x t dt => .accepted (fun i => 2 * x i) (t + dt) dt) exampleOpts 2 1 1 [1, 1] [1, 0] = some .nonFinite :=
  ⟨isotherm_from_one_sided_state (by simp [exampleOpts]) (by simp [exampleOpts]) (by simp),
    isobar_from_one_sided_state (by simp [exampleOpts]) (by simp [exampleOpts]) (by simp)⟩

end Teqp.Props
