import Verif.Props.CritTrace

/-! # When the trace of a critical curve stalls, and how long its steps may be (C42) -/

set_option autoImplicit false

open Teqp.Calc Teqp.Model Teqp.Spec Teqp.Lemmas Teqp.CritTrace

namespace Teqp.Props

/-- Number of intervals at the end of a trace (newest point first) in which the temperature changes by less than `tol`. -/
noncomputable def smallRun (tol : ℝ) : List CritPoint → ℕ
  | a :: b :: l => open Classical in if |a.1 0 - b.1 0| < tol then smallRun tol (b :: l) + 1 else 0
  | _ => 0

section loop
variable {sys : CritSys} {opt : CritOpts} {c : ℝ}

theorem critFinish_counter {iter : ℤ} {x0 d0 : Fin 3 → ℝ} {s s' : CritState} {b : Bool}
    (h : critFinish sys opt c iter x0 d0 s = .ok (s', b)) :
    s'.dt = s.dt ∧ ((b = false ∧ s'.points = s.points) ∨
      ∃ d, s'.points = (s'.x, d) :: s.points ∧ (|s'.x 0 - x0 0| < opt.Ttol → s'.counter = s.counter + 1) ∧
        (¬|s'.x 0 - x0 0| < opt.Ttol → s'.counter = 0) ∧ (b = true → s'.counter ≤ opt.smallTCount)) := by
  unfold critFinish at h
  by_cases hz : outsideZ s.x
  · rw [if_pos hz] at h
    injection h with h
    injection h with h1 h2
    subst h1 h2
    exact ⟨rfl, Or.inl ⟨rfl, rfl⟩⟩
  rw [if_neg hz] at h
  obtain ⟨r, hr, h1⟩ := Outcome.bind_eq_ok.mp h
  cases r with
  | none =>
    simp only at h1
    by_cases hp : opt.polishExceptionOnFail = true
    · rw [if_pos hp] at h1; simp at h1
    · rw [if_neg hp] at h1
      injection h1 with h1
      injection h1 with h2 h3
      subst h2 h3
      exact ⟨rfl, Or.inl ⟨rfl, rfl⟩⟩
  | some x =>
    simp only at h1
    by_cases hx : outsideZ x
    · rw [if_pos hx] at h1
      injection h1 with h1
      injection h1 with h2 h3
      subst h2 h3
      exact ⟨rfl, Or.inl ⟨rfl, rfl⟩⟩
    · rw [if_neg hx] at h1
      obtain ⟨s2, hs, h2⟩ := Outcome.bind_eq_ok.mp h1
      injection h2 with h2
      injection h2 with h3 h4
      subst h3
      obtain ⟨d, hd, he⟩ := storeCrit_ok hs
      subst he
      refine ⟨rfl, Or.inr ⟨d, rfl, fun ht => ?_, fun ht => ?_, fun hb => ?_⟩⟩
      · simp only at ht ⊢
        rw [if_pos ht]
      · simp only at ht ⊢
        rw [if_neg ht]
      · rw [hb] at h4
        simpa using h4

theorem critFinish_false_stored {iter : ℤ} {x0 d0 : Fin 3 → ℝ} {s s' : CritState}
    (h : critFinish sys opt c iter x0 d0 s = .ok (s', false)) (hst : s'.points ≠ s.points) :
    opt.smallTCount < s'.counter := by
  unfold critFinish at h
  by_cases hz : outsideZ s.x
  · rw [if_pos hz] at h
    injection h with h
    injection h with h1 h2
    subst h1
    exact absurd rfl hst
  rw [if_neg hz] at h
  obtain ⟨r, hr, h1⟩ := Outcome.bind_eq_ok.mp h
  cases r with
  | none =>
    simp only at h1
    by_cases hp : opt.polishExceptionOnFail = true
    · rw [if_pos hp] at h1; simp at h1
    · rw [if_neg hp] at h1
      injection h1 with h1
      injection h1 with h2 h3
      subst h2
      exact absurd rfl hst
  | some x =>
    simp only at h1
    by_cases hx : outsideZ x
    · rw [if_pos hx] at h1
      injection h1 with h1
      injection h1 with h2 h3
      subst h2
      exact absurd rfl hst
    · rw [if_neg hx] at h1
      obtain ⟨s2, hs, h2⟩ := Outcome.bind_eq_ok.mp h1
      injection h2 with h2
      injection h2 with h3 h4
      subst h3
      simpa using h4

/-- No stretch of the trace stalls for more than one interval beyond the allowed number. -/
def NoStall (tol : ℝ) (n : ℤ) (pts : List CritPoint) : Prop := ∀ l, l <:+ pts → (smallRun tol l : ℤ) ≤ n + 1

theorem NoStall.cons {tol : ℝ} {n : ℤ} {p : CritPoint} {pts : List CritPoint} (h : NoStall tol n pts)
    (hp : (smallRun tol (p :: pts) : ℤ) ≤ n + 1) : NoStall tol n (p :: pts) := by
  intro l hl
  rcases List.suffix_cons_iff.mp hl with rfl | hl
  · exact hp
  · exact h l hl

theorem traceCritLoop_stall (gas : ℕ) :
    ∀ (left : ℕ) (iter : ℤ) (s s' : CritState) (d : Fin 3 → ℝ) (rest : List CritPoint),
      traceCritLoop sys opt c gas left iter false s = some (.ok s') → s.points = (s.x, d) :: rest →
      (smallRun opt.Ttol s.points : ℤ) = s.counter → s.counter ≤ opt.smallTCount →
      NoStall opt.Ttol opt.smallTCount s.points → NoStall opt.Ttol opt.smallTCount s'.points := by
  induction gas with
  | zero => intro left iter s s' d rest h; simp [traceCritLoop] at h
  | succ gas ih =>
    intro left iter s s' d rest h hpts hrun hcnt hns
    cases left with
    | zero =>
      simp only [traceCritLoop, Option.some.injEq, Outcome.ok.injEq] at h
      subst h
      exact hns
    | succ left =>
      rw [traceCritLoop] at h
      cases hm : (sys.xprime c s.last s.x).bind fun d0 =>
          (if (false = true) then storeCrit sys c s else .ok s).bind fun s1 =>
          (critStep sys opt c s1).bind fun r => .ok (d0, s1, r) with
      | ok v =>
        obtain ⟨d0, s1, r⟩ := v
        rw [hm] at h
        obtain ⟨d0', e1, hm2⟩ := Outcome.bind_eq_ok.mp hm
        rw [if_neg (by simp)] at hm2
        obtain ⟨s1', e2, hm3⟩ := Outcome.bind_eq_ok.mp hm2
        obtain ⟨r', -, e4⟩ := Outcome.bind_eq_ok.mp hm3
        injection e2 with e2
        injection e4 with e4
        simp only [Prod.mk.injEq] at e4
        obtain ⟨q1, q2, q3⟩ := e4
        subst q1 q2 e2 q3
        cases r' with
        | threw =>
          simp only [Option.some.injEq, Outcome.ok.injEq] at h
          subst h
          exact hns
        | rejected dt =>
          simp only at h
          exact ih (left + 1) iter { s with dt := dt } s' d rest h hpts hrun hcnt hns
        | accepted x t dt =>
          simp only at h
          cases hf : critFinish sys opt c iter s.x d0' { s with x := x, t := t, dt := dt } with
          | ok v =>
            obtain ⟨s2, b⟩ := v
            rw [hf] at h
            rcases (critFinish_counter hf).2 with ⟨hb, hp⟩ | ⟨d2, hp, hc1, hc2, hc3⟩
            · subst hb
              simp only [Option.some.injEq, Outcome.ok.injEq] at h
              subst h
              rw [hp]; exact hns
            · have hp' : s2.points = (s2.x, d2) :: s.points := hp
              have hr2 : (smallRun opt.Ttol s2.points : ℤ) = s2.counter := by
                rw [hp', hpts, smallRun]
                by_cases ht : |s2.x 0 - s.x 0| < opt.Ttol
                · have e : s2.counter = s.counter + 1 := hc1 ht
                  rw [if_pos ht, ← hpts, e]
                  push_cast
                  linarith
                · rw [if_neg ht, hc2 ht]; simp
              have hc : s2.counter ≤ opt.smallTCount + 1 := by
                by_cases ht : |s2.x 0 - s.x 0| < opt.Ttol
                · have e : s2.counter = s.counter + 1 := hc1 ht
                  omega
                · have e : s2.counter = 0 := hc2 ht
                  omega
              have hns2 : NoStall opt.Ttol opt.smallTCount s2.points := by
                rw [hp'] at hr2 ⊢
                exact hns.cons (hr2.trans_le hc)
              cases b with
              | false =>
                simp only [Option.some.injEq, Outcome.ok.injEq] at h
                subst h
                exact hns2
              | true =>
                simp only at h
                exact ih left (iter + 1) s2 s' d2 s.points h hp' hr2 (hc3 rfl) hns2
          | throws e => rw [hf] at h; simp at h
          | ub => rw [hf] at h; simp at h
          | nonFinite => rw [hf] at h; simp at h
      | throws e => rw [hm] at h; simp at h
      | ub => rw [hm] at h; simp at h
      | nonFinite => rw [hm] at h; simp at h

/-- A stepper that offers no longer step when it rejects one. -/
def ShrinksOnReject (sys : CritSys) : Prop :=
  ∀ f x t dt dt', sys.adaptive f x t dt = .rejected dt' → dt' ≤ dt

/-- **C42** The length of the step the trace carries on with never exceeds `max_dt`, if the initial one does not and the
stepper does not lengthen rejected steps. -/
theorem traceCritLoop_dt (hsh : ShrinksOnReject sys) (gas : ℕ) :
    ∀ (left : ℕ) (iter : ℤ) (first : Bool) (s s' : CritState),
      traceCritLoop sys opt c gas left iter first s = some (.ok s') → s.dt ≤ opt.maxDt → s'.dt ≤ opt.maxDt := by
  induction gas with
  | zero => intro left iter first s s' h; simp [traceCritLoop] at h
  | succ gas ih =>
    intro left iter first s s' h hdt
    cases left with
    | zero =>
      simp only [traceCritLoop, Option.some.injEq, Outcome.ok.injEq] at h
      subst h
      exact hdt
    | succ left =>
      rw [traceCritLoop] at h
      cases hm : (sys.xprime c s.last s.x).bind fun d0 =>
          (if first = true then storeCrit sys c s else .ok s).bind fun s1 =>
          (critStep sys opt c s1).bind fun r => .ok (d0, s1, r) with
      | ok v =>
        obtain ⟨d0, s1, r⟩ := v
        rw [hm] at h
        obtain ⟨d0', e1, hm2⟩ := Outcome.bind_eq_ok.mp hm
        obtain ⟨s1', e2, hm3⟩ := Outcome.bind_eq_ok.mp hm2
        obtain ⟨r', hstep, e4⟩ := Outcome.bind_eq_ok.mp hm3
        injection e4 with e4
        simp only [Prod.mk.injEq] at e4
        obtain ⟨q1, q2, q3⟩ := e4
        subst q1 q2 q3
        have hs1 : s1'.dt ≤ opt.maxDt := by
          by_cases hfirst : first = true
          · rw [if_pos hfirst] at e2
            obtain ⟨d, -, he⟩ := storeCrit_ok e2
            rw [he]; exact hdt
          · rw [if_neg hfirst] at e2
            injection e2 with e2
            rw [← e2]; exact hdt
        cases r' with
        | threw =>
          simp only [Option.some.injEq, Outcome.ok.injEq] at h
          subst h
          exact hs1
        | rejected dt =>
          simp only at h
          refine ih _ _ _ _ _ h ?_
          unfold critStep at hstep
          by_cases h5 : opt.integrationOrder = 5
          · rw [if_pos h5] at hstep
            injection hstep with hstep
            cases ha : sys.adaptive (sys.xprime c s1'.last) s1'.x s1'.t s1'.dt with
            | threw => rw [ha] at hstep; simp at hstep
            | rejected dt' =>
              rw [ha] at hstep
              injection hstep with hstep
              subst hstep
              exact (hsh _ _ _ _ _ ha).trans hs1
            | accepted x t dt' => rw [ha] at hstep; simp at hstep
          · rw [if_neg h5] at hstep
            by_cases h1 : opt.integrationOrder = 1
            · rw [if_pos h1] at hstep
              cases hx : sys.xprime c s1'.last s1'.x <;> rw [hx] at hstep <;> simp at hstep
            · rw [if_neg h1] at hstep
              simp at hstep
        | accepted x t dt =>
          simp only at h
          have hdt2 : dt ≤ opt.maxDt := by
            unfold critStep at hstep
            by_cases h5 : opt.integrationOrder = 5
            · rw [if_pos h5] at hstep
              injection hstep with hstep
              cases ha : sys.adaptive (sys.xprime c s1'.last) s1'.x s1'.t s1'.dt with
              | threw => rw [ha] at hstep; simp at hstep
              | rejected dt' => rw [ha] at hstep; simp at hstep
              | accepted x t dt' =>
                rw [ha] at hstep
                injection hstep with g1 g2 g3
                rw [← g3]
                exact min_le_right _ _
            · rw [if_neg h5] at hstep
              by_cases h1 : opt.integrationOrder = 1
              · rw [if_pos h1] at hstep
                cases hx : sys.xprime c s1'.last s1'.x with
                | ok d =>
                  rw [hx] at hstep
                  injection hstep with hstep
                  injection hstep with g1 g2 g3
                  rw [← g3]; exact hs1
                | throws e => rw [hx] at hstep; simp at hstep
                | ub => rw [hx] at hstep; simp at hstep
                | nonFinite => rw [hx] at hstep; simp at hstep
              · rw [if_neg h1] at hstep
                simp at hstep
          cases hf : critFinish sys opt c iter s1'.x d0' { s1' with x := x, t := t, dt := dt } with
          | ok v =>
            obtain ⟨s2, b⟩ := v
            rw [hf] at h
            have hd := (critFinish_counter hf).1
            cases b with
            | false =>
              simp only [Option.some.injEq, Outcome.ok.injEq] at h
              subst h
              rw [hd]; exact hdt2
            | true =>
              simp only at h
              exact ih _ _ _ _ _ h (by rw [hd]; exact hdt2)
          | throws e => rw [hf] at h; simp at h
          | ub => rw [hf] at h; simp at h
          | nonFinite => rw [hf] at h; simp at h
      | throws e => rw [hm] at h; simp at h
      | ub => rw [hm] at h; simp at h
      | nonFinite => rw [hm] at h; simp at h

end loop

/-- **C42** A trace without endpoint polish stops once more than `small_T_count` consecutive steps change the temperature
by less than `T_tol`: nowhere in it are there more than `small_T_count + 1` such steps in a row. -/
theorem traceCrit_stalls {sys : CritSys} {opt : CritOpts} {gas : ℕ} {T0 : ℝ} {ρ0 : Fin 2 → ℝ} {pts : List CritPoint}
    (hend : opt.pureEndpoint = false) (hpos : 0 < opt.maxStepCount) (h0 : 0 ≤ opt.smallTCount)
    (h : traceCrit sys opt gas T0 ρ0 = some (.ok pts)) : NoStall opt.Ttol opt.smallTCount pts.reverse := by
  unfold traceCrit at h
  simp only at h
  cases hx : sys.xprime opt.initC none ![T0, ρ0 0, ρ0 1] with
  | ok d =>
    rw [hx] at h
    simp only [hend] at h
    obtain ⟨n, hn⟩ : ∃ n, opt.maxStepCount.toNat = n + 1 := ⟨opt.maxStepCount.toNat - 1, by omega⟩
    rw [hn] at h
    obtain ⟨r, hl, hr⟩ := Option.map_eq_some_iff.mp h
    obtain ⟨s, hs, h2⟩ := Outcome.bind_eq_ok.mp hr
    rw [if_neg (by simp), Outcome.bind_ok] at h2
    injection h2 with h2
    subst hs
    obtain ⟨d0, hd0, hloop⟩ := traceCritLoop_first hl
    rw [← h2, List.reverse_reverse]
    refine traceCritLoop_stall gas (n + 1) 0 _ s d0 [] hloop rfl (by simp [smallRun]) h0 ?_
    refine NoStall.cons (fun l hl => ?_) (by simp [smallRun]; omega)
    have : l = [] := List.suffix_nil.mp hl
    subst this
    simp [smallRun]
    omega
  | throws e => rw [hx] at h; simp at h
  | ub => rw [hx] at h; simp at h
  | nonFinite => rw [hx] at h; simp at h

example : NoStall lineOpt.Ttol lineOpt.smallTCount
    [(![1, 1, 1], ![1 / 5, 3 / 5, 4 / 5]), (![2, 4, 5], ![1 / 5, 3 / 5, 4 / 5])].reverse :=
  traceCrit_stalls rfl (by decide) (by decide) line_trace

/-- The bound tells a stalled trace apart. -/
example : ¬NoStall 1 0 [(![1, 1, 1], 0), (![1, 2, 2], 0), (![1, 3, 3], 0)] := by
  intro h
  have := h _ (List.suffix_refl _)
  norm_num [smallRun] at this

example : ShrinksOnReject lineSys := by
  intro f x t dt dt' h
  simp [lineSys] at h

/-- **C42** The stop is not premature: when the count ends the trace (an accepted, stored step after which tracing does
not go on), the last steps really stalled, more than `small_T_count` of them. -/
theorem critFinish_stops_late {sys : CritSys} {opt : CritOpts} {c : ℝ} {iter : ℤ} {d0 d : Fin 3 → ℝ} {x : Fin 3 → ℝ}
    {t dt : ℝ} {s s' : CritState} {rest : List CritPoint}
    (hpts : s.points = (s.x, d) :: rest) (hrun : (smallRun opt.Ttol s.points : ℤ) = s.counter)
    (h : critFinish sys opt c iter s.x d0 { s with x := x, t := t, dt := dt } = .ok (s', false))
    (hst : s'.points ≠ s.points) : opt.smallTCount < smallRun opt.Ttol s'.points := by
  rcases (critFinish_counter h).2 with ⟨-, hp⟩ | ⟨d2, hp, hc1, hc2, -⟩
  · exact absurd hp hst
  · have hp' : s'.points = (s'.x, d2) :: s.points := hp
    have hr2 : (smallRun opt.Ttol s'.points : ℤ) = s'.counter := by
      rw [hp', hpts, smallRun]
      by_cases ht : |s'.x 0 - s.x 0| < opt.Ttol
      · have e : s'.counter = s.counter + 1 := hc1 ht
        rw [if_pos ht, ← hpts, e]
        push_cast
        linarith
      · rw [if_neg ht, hc2 ht]; simp
    rw [hr2]
    exact critFinish_false_stored h hst

end Teqp.Props
