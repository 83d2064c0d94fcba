import Verif.Model.VLLE
import Verif.Lemmas.Outcome

/-! # Tracing the three-phase curve (C45) -/

set_option autoImplicit false

open Teqp.Model

namespace Teqp.Props

/-- A point of the trace: an accepted step led to it, it is what the polisher made of the step (or the step itself), the
temperature is within the limit on the side the trace runs to, and the mole fractions of any two phases are apart if
asked for. -/
def GoodVllePoint (sys : VlleSys) (opt : VlleTraceOpts) (pt : ℝ × Phases) : Prop :=
  (∃ ph T dT ph1 dT1, sys.step ph T dT = .accepted ph1 pt.1 dT1 ∧
    (opt.polish = true → ∃ c, sys.polisher pt.1 ph1 = .ok (c, pt.2)) ∧ (opt.polish = false → pt.2 = ph1)) ∧
  sys.conditions pt.1 pt.2 = .ok () ∧ ((0 < opt.initdT → pt.1 ≤ opt.TLimit) ∧ (opt.initdT < 0 → opt.TLimit ≤ pt.1)) ∧
  (opt.terminateComposition = true → ∀ k k', k ≠ k' →
    opt.terminateCompositionTol ≤ |pt.2 k 0 / (pt.2 k 0 + pt.2 k 1) - pt.2 k' 0 / (pt.2 k' 0 + pt.2 k' 1)|)

theorem within_limit {opt : VlleTraceOpts} {T : ℝ} (h : ¬beyondLimit opt T) :
    (0 < opt.initdT → T ≤ opt.TLimit) ∧ (opt.initdT < 0 → opt.TLimit ≤ T) := by
  unfold beyondLimit at h
  push Not at h
  exact h

theorem compositions_apart {tol : ℝ} {ph : Phases} (h : ¬compositionsMeet tol ph) (k k' : Fin 3) (hk : k ≠ k') :
    tol ≤ |ph k 0 / (ph k 0 + ph k 1) - ph k' 0 / (ph k' 0 + ph k' 1)| := by
  unfold compositionsMeet frac0 at h
  push Not at h
  obtain ⟨h12, h10, h20⟩ := h
  fin_cases k <;> fin_cases k'
  · exact absurd rfl hk
  · exact h10.trans_eq (abs_sub_comm _ _)
  · exact h20.trans_eq (abs_sub_comm _ _)
  · exact h10
  · exact absurd rfl hk
  · exact h12
  · exact h20
  · exact h12.trans_eq (abs_sub_comm _ _)
  · exact absurd rfl hk

theorem vlleTraceLoop_inv {sys : VlleSys} {opt : VlleTraceOpts} {gas : ℕ} : ∀ {left : ℕ} {ph : Phases} {T dT : ℝ}
    {acc out : List (ℝ × Phases)}, vlleTraceLoop sys opt gas left ph T dT acc = some (.ok out) →
      (∀ pt ∈ acc, GoodVllePoint sys opt pt) →
      (∀ pt ∈ out, GoodVllePoint sys opt pt) ∧ out.length ≤ acc.length + left ∧ acc <+: out ∧
        (opt.maxStepRetries < 0 → out = acc) := by
  induction gas with
  | zero => intro left ph T dT acc out h; simp [vlleTraceLoop] at h
  | succ gas ih =>
    intro left ph T dT acc out h hacc
    have done : ∀ {out}, some (Outcome.ok acc) = some (Outcome.ok out) →
        (∀ pt ∈ out, GoodVllePoint sys opt pt) ∧ out.length ≤ acc.length + left ∧ acc <+: out ∧
          (opt.maxStepRetries < 0 → out = acc) := by
      intro out h
      simp only [Option.some.injEq, Outcome.ok.injEq] at h
      subst h
      exact ⟨hacc, by omega, List.prefix_refl _, fun _ => rfl⟩
    rcases left with _ | left
    · rw [vlleTraceLoop] at h
      exact done h
    · rw [vlleTraceLoop] at h
      cases hst : sys.step ph T dT with
      | threw => rw [hst] at h; exact done h
      | rejected dT' => rw [hst] at h; exact ih h hacc
      | accepted ph1 T1 dT1 =>
        rw [hst] at h
        simp only at h
        cases hp : (if opt.polish then (sys.polisher T1 ph1).bind fun r => .ok r.2 else .ok ph1).bind fun ph2 =>
            (sys.conditions T1 ph2).bind fun _ => .ok ph2 with
        | throws e => rw [hp] at h; simp at h
        | ub => rw [hp] at h; simp at h
        | nonFinite => rw [hp] at h; exact done h
        | ok ph2 =>
          rw [hp] at h
          simp only at h
          by_cases hc : beyondLimit opt T1 ∨
              (opt.terminateComposition = true ∧ compositionsMeet opt.terminateCompositionTol ph2) ∨ 0 > opt.maxStepRetries
          · rw [if_pos hc] at h; exact done h
          · rw [if_neg hc] at h
            push Not at hc
            obtain ⟨ph2', h1, h2⟩ := Outcome.bind_eq_ok.mp hp
            obtain ⟨⟨⟩, h3, h4⟩ := Outcome.bind_eq_ok.mp h2
            injection h4 with h4
            subst h4
            have hgood : GoodVllePoint sys opt (T1, ph2') := by
              refine ⟨⟨ph, T, dT, ph1, dT1, hst, fun hpol => ?_, fun hpol => ?_⟩, h3, within_limit hc.1, fun ht => compositions_apart (hc.2.1 ht)⟩
              · rw [if_pos hpol] at h1
                obtain ⟨⟨c, q⟩, h5, h6⟩ := Outcome.bind_eq_ok.mp h1
                injection h6 with h6
                exact ⟨c, by rw [h5, ← h6]⟩
              · rw [hpol] at h1
                simp only [Bool.false_eq_true, if_false, Outcome.ok.injEq] at h1
                exact h1.symm
            have hacc' : ∀ pt ∈ acc ++ [(T1, ph2')], GoodVllePoint sys opt pt := by
              intro pt hpt
              rcases List.mem_append.mp hpt with hpt | hpt
              · exact hacc pt hpt
              · rw [List.mem_singleton.mp hpt]; exact hgood
            obtain ⟨g1, g2, g3, -⟩ := ih h hacc'
            refine ⟨g1, ?_, (List.prefix_append _ _).trans g3, fun hneg => ?_⟩
            · rw [List.length_append] at g2
              simp only [List.length_singleton] at g2
              omega
            · exact absurd hc.2.2 (by omega)

/-- **C45** Whatever the stepper does: the points of a finished trace satisfy the stopping tests, and there are at most
`max_step_count` of them. -/
theorem traceVLLE_points {sys : VlleSys} {opt : VlleTraceOpts} {gas : ℕ} {T : ℝ} {ph : Phases} {out : List (ℝ × Phases)}
    (h : traceVLLE sys opt gas T ph = some (.ok out)) :
    (∀ pt ∈ out, GoodVllePoint sys opt pt) ∧ (out.length : ℤ) ≤ max 0 opt.maxStepCount := by
  obtain ⟨h1, h2, -⟩ := vlleTraceLoop_inv h (by simp)
  refine ⟨h1, ?_⟩
  simp only [List.length_nil, zero_add] at h2
  omega

/-- **C45** is false of the code: the retries are not counted.  With a stepper that rejects from some state on, the trace
never ends, whatever `max_step_retries`. -/
theorem traceVLLE_never_ends {sys : VlleSys} {opt : VlleTraceOpts} {T : ℝ} {ph : Phases} (hm : 0 < opt.maxStepCount)
    (hrej : ∀ dT, ∃ dT', sys.step ph T dT = .rejected dT') (gas : ℕ) : traceVLLE sys opt gas T ph = none := by
  unfold traceVLLE
  obtain ⟨n, hn⟩ : ∃ n, opt.maxStepCount.toNat = n + 1 := ⟨opt.maxStepCount.toNat - 1, by omega⟩
  rw [hn]
  generalize opt.initdT = dT
  induction gas generalizing dT with
  | zero => rfl
  | succ gas ih =>
    obtain ⟨dT', h⟩ := hrej dT
    rw [vlleTraceLoop, h]
    exact ih dT'

/-- **C45** The only effect of `max_step_retries`: if it is negative, nothing is recorded. -/
theorem traceVLLE_negative_retries {sys : VlleSys} {opt : VlleTraceOpts} {gas : ℕ} {T : ℝ} {ph : Phases}
    {out : List (ℝ × Phases)} (hneg : opt.maxStepRetries < 0) (h : traceVLLE sys opt gas T ph = some (.ok out)) :
    out = [] :=
  (vlleTraceLoop_inv h (by simp)).2.2.2 hneg

theorem vlleTraceLoop_retries (sys : VlleSys) (opt : VlleTraceOpts) (r : ℤ) (h0 : 0 ≤ opt.maxStepRetries) (h1 : 0 ≤ r)
    (gas : ℕ) : ∀ (left : ℕ) (ph : Phases) (T dT : ℝ) (acc : List (ℝ × Phases)),
    vlleTraceLoop sys { opt with maxStepRetries := r } gas left ph T dT acc = vlleTraceLoop sys opt gas left ph T dT acc := by
  induction gas with
  | zero => intros; rfl
  | succ gas ih =>
    intro left ph T dT acc
    rcases left with _ | left
    · rfl
    · rw [vlleTraceLoop, vlleTraceLoop]
      cases hst : sys.step ph T dT with
      | threw => rfl
      | rejected dT' => exact ih _ _ _ _ _
      | accepted ph1 T1 dT1 =>
        simp only
        cases hp : (if opt.polish then (sys.polisher T1 ph1).bind fun r => .ok r.2 else .ok ph1).bind fun ph2 =>
            (sys.conditions T1 ph2).bind fun _ => .ok ph2 with
        | throws e => rfl
        | ub => rfl
        | nonFinite => rfl
        | ok ph2 =>
          simp only
          have e1 : ¬(0 > r) := by omega
          have e2 : ¬(0 > opt.maxStepRetries) := by omega
          by_cases hc : beyondLimit opt T1 ∨
              (opt.terminateComposition = true ∧ compositionsMeet opt.terminateCompositionTol ph2)
          · rw [if_pos, if_pos]
            · exact hc.imp id .inl
            · exact hc.imp id .inl
          · rw [if_neg, if_neg, ih]
            · rintro (h | h | h)
              · exact hc (.inl h)
              · exact hc (.inr h)
              · exact e2 h
            · rintro (h | h | h)
              · exact hc (.inl h)
              · exact hc (.inr h)
              · exact e1 h

/-- **C45** … and two limits that are not negative give the same trace. -/
theorem traceVLLE_retries_irrelevant (sys : VlleSys) (opt : VlleTraceOpts) (r : ℤ) (h0 : 0 ≤ opt.maxStepRetries) (h1 : 0 ≤ r)
    (gas : ℕ) (T : ℝ) (ph : Phases) :
    traceVLLE sys { opt with maxStepRetries := r } gas T ph = traceVLLE sys opt gas T ph :=
  vlleTraceLoop_retries sys opt r h0 h1 gas _ _ _ _ _

/-- A stepper that advances by the increment offered when it accepts, and offers a smaller one when it rejects. -/
def HonestStepper (sys : VlleSys) : Prop :=
  (∀ ph T dT ph1 T1 dT1, sys.step ph T dT = .accepted ph1 T1 dT1 → T1 = T + dT) ∧
  ∀ ph T dT dT', sys.step ph T dT = .rejected dT' → dT' ≤ dT

theorem vlleTraceLoop_increments {sys : VlleSys} (hs : HonestStepper sys) {opt : VlleTraceOpts} {gas : ℕ} :
    ∀ {left : ℕ} {ph : Phases} {T dT : ℝ} {acc out : List (ℝ × Phases)},
      vlleTraceLoop sys opt gas left ph T dT acc = some (.ok out) →
      acc.IsChain (fun a b => b.1 - a.1 ≤ opt.maxdT) → (∀ a ∈ acc.getLast?, a.1 = T ∧ dT ≤ opt.maxdT) →
      out.IsChain fun a b => b.1 - a.1 ≤ opt.maxdT := by
  induction gas with
  | zero => intro left ph T dT acc out h; simp [vlleTraceLoop] at h
  | succ gas ih =>
    intro left ph T dT acc out h hch hlast
    have done : ∀ {out}, some (Outcome.ok acc) = some (Outcome.ok out) →
        out.IsChain fun a b => b.1 - a.1 ≤ opt.maxdT := by
      intro out h
      simp only [Option.some.injEq, Outcome.ok.injEq] at h
      subst h
      exact hch
    rcases left with _ | left
    · rw [vlleTraceLoop] at h
      exact done h
    · rw [vlleTraceLoop] at h
      cases hst : sys.step ph T dT with
      | threw => rw [hst] at h; exact done h
      | rejected dT' =>
        rw [hst] at h
        exact ih h hch fun a ha => ⟨(hlast a ha).1, (hs.2 _ _ _ _ hst).trans (hlast a ha).2⟩
      | accepted ph1 T1 dT1 =>
        rw [hst] at h
        simp only at h
        cases hp : (if opt.polish then (sys.polisher T1 ph1).bind fun r => .ok r.2 else .ok ph1).bind fun ph2 =>
            (sys.conditions T1 ph2).bind fun _ => .ok ph2 with
        | throws e => rw [hp] at h; simp at h
        | ub => rw [hp] at h; simp at h
        | nonFinite => rw [hp] at h; exact done h
        | ok ph2 =>
          rw [hp] at h
          simp only at h
          by_cases hc : beyondLimit opt T1 ∨
              (opt.terminateComposition = true ∧ compositionsMeet opt.terminateCompositionTol ph2) ∨ 0 > opt.maxStepRetries
          · rw [if_pos hc] at h; exact done h
          · rw [if_neg hc] at h
            refine ih h ?_ ?_
            · rw [List.isChain_append]
              refine ⟨hch, List.isChain_singleton _, fun a ha b hb => ?_⟩
              simp only [List.head?_cons, Option.mem_def, Option.some.injEq] at hb
              subst hb
              obtain ⟨e1, e2⟩ := hlast a ha
              rw [hs.1 _ _ _ _ _ _ hst, e1]
              linarith
            · intro a ha
              rw [List.getLast?_append] at ha
              simp at ha
              subst ha
              exact ⟨rfl, min_le_right _ _⟩

/-- **C45** After the first point the temperature rises by at most `max_dT` from one point to the next. -/
theorem traceVLLE_increments {sys : VlleSys} (hs : HonestStepper sys) {opt : VlleTraceOpts} {gas : ℕ} {T : ℝ} {ph : Phases}
    {out : List (ℝ × Phases)} (h : traceVLLE sys opt gas T ph = some (.ok out)) :
    out.IsChain fun a b => b.1 - a.1 ≤ opt.maxdT :=
  vlleTraceLoop_increments hs h List.isChain_nil (by simp)

/-- **C45** is false of the code on downward traces: the increment is cut from above only.  With `init_dT = -1` and
`max_dT = 10` the temperature falls by 1000 in one step. -/
theorem traceVLLE_downward_unlimited : ∃ (sys : VlleSys) (opt : VlleTraceOpts), HonestStepper sys ∧ opt.initdT = -1 ∧
    opt.maxdT = 10 ∧ ∃ out, traceVLLE sys opt 3 2000 (fun _ _ => 1) = some (.ok out) ∧ out.map Prod.fst = [1999, 999] := by
  refine ⟨⟨fun ph T dT => .accepted ph (T + dT) (-1000), fun _ ph => .ok (.unset, ph), fun _ _ => .ok ()⟩,
    ⟨2, -1, 10, false, false, 0, 0, 100⟩, ⟨fun ph T dT ph1 T1 dT1 h => ?_, fun ph T dT dT' h => ?_⟩, rfl, rfl,
    [(1999, fun _ _ => 1), (999, fun _ _ => 1)], ?_, ?_⟩
  · injection h with h1 h2
    exact h2.symm
  · simp at h
  · change vlleTraceLoop _ _ (2 + 1) (1 + 1) _ _ _ _ = _
    norm_num [vlleTraceLoop, beyondLimit]
  · norm_num

/-- A stepper that goes up by the step it is offered and doubles it. -/
noncomputable def doubling : VlleSys :=
  ⟨fun ph T dT => .accepted ph (T + dT) (2 * dT), fun _ ph => .ok (.functolSatisfied, ph), fun _ _ => .ok ()⟩

/-- A trace that ends at the temperature limit. -/
example : traceVLLE doubling ⟨10, 1, 10, true, false, 0, 305, 10⟩ 10 300 (fun _ _ => 1) =
    some (.ok [(301, fun _ _ => 1), (303, fun _ _ => 1)]) := by
  change vlleTraceLoop _ _ (7 + 1 + 1 + 1) (7 + 1 + 1 + 1) _ _ _ _ = _
  norm_num [vlleTraceLoop, doubling, beyondLimit]

example : HonestStepper doubling := by
  refine ⟨fun ph T dT ph1 T1 dT1 h => ?_, fun ph T dT dT' h => ?_⟩
  · injection h with h1 h2
    exact h2.symm
  · simp [doubling] at h

example : ∀ gas, traceVLLE ⟨fun _ _ dT => .rejected (dT / 2), fun _ ph => .ok (.unset, ph), fun _ _ => .ok ()⟩
    ⟨10, 1, 10, true, false, 0, 305, 3⟩ gas 300 (fun _ _ => 1) = none :=
  traceVLLE_never_ends (by norm_num) fun dT => ⟨dT / 2, rfl⟩

example : traceVLLE doubling ⟨10, 1, 10, true, false, 0, 305, -1⟩ 10 300 (fun _ _ => 1) = some (.ok []) := by
  change vlleTraceLoop _ _ (7 + 1 + 1 + 1) (7 + 1 + 1 + 1) _ _ _ _ = _
  norm_num [vlleTraceLoop, doubling, beyondLimit]

end Teqp.Props
