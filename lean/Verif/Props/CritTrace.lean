import Verif.Props.CritTangent

/-! # The tracing loop of the critical curve (C42, C71) -/

set_option autoImplicit false

open Teqp.Calc Teqp.Model Teqp.Spec Teqp.Lemmas Teqp.CritTrace Teqp.Sample Teqp.Envelope Filter Topology

namespace Teqp.Props

/-- A stored point: the state and its derivative. -/
abbrev CritPoint := (Fin 3 → ℝ) × (Fin 3 → ℝ)

/-- What is promised of a state stored after a step: the mole fraction of the first component lies in `[0, 1]`, and with
polishing the state came from one of the polishers and differs from the state it was given by no more than the
tolerances; the criticality conditions have been evaluated at the state without failure. -/
def GoodCritPoint (sys : CritSys) (opt : CritOpts) (x : Fin 3 → ℝ) : Prop :=
  (∃ r, sys.conditions x = .ok r) ∧ (0 ≤ x 1 / (x 1 + x 2) ∧ x 1 / (x 1 + x 2) ≤ 1) ∧
  (opt.polish = true → ∃ y : Fin 3 → ℝ, ∃ f ∈ sys.polishers, f (y 0) ![y 1, y 2] = .ok (x 0, ![x 1, x 2]) ∧
    |y 0 - x 0| ≤ opt.reltolT * y 0 ∧ |y 1 - x 1| ≤ opt.reltolRho * y 1 ∧ |y 2 - x 2| ≤ opt.reltolRho * y 2)

/-- Consecutive points (newest first), from number `skip` on, do not turn back in density space. -/
def Forward (skip : ℤ) : List CritPoint → Prop
  | b :: a :: rest => ((rest.length : ℤ) ≥ skip → 0 ≤ b.2 1 * a.2 1 + b.2 2 * a.2 2) ∧ Forward skip (a :: rest)
  | _ => True

theorem not_outsideZ {x : Fin 3 → ℝ} (h : ¬outsideZ x) : 0 ≤ x 1 / (x 1 + x 2) ∧ x 1 / (x 1 + x 2) ≤ 1 := by
  unfold outsideZ at h
  push Not at h
  exact h

section loop
variable {sys : CritSys} {opt : CritOpts} {c : ℝ}

theorem tryPolish_some {x z : Fin 3 → ℝ} {fs : List (ℝ → (Fin 2 → ℝ) → Outcome (ℝ × (Fin 2 → ℝ)))}
    (h : tryPolish opt x fs = .ok (some z)) :
    ∃ f ∈ fs, f (x 0) ![x 1, x 2] = .ok (z 0, ![z 1, z 2]) ∧ |x 0 - z 0| ≤ opt.reltolT * x 0 ∧
      |x 1 - z 1| ≤ opt.reltolRho * x 1 ∧ |x 2 - z 2| ≤ opt.reltolRho * x 2 := by
  induction fs with
  | nil => simp [tryPolish] at h
  | cons f fs ih =>
    rw [tryPolish] at h
    have lift (hh : ∃ f ∈ fs, f (x 0) ![x 1, x 2] = .ok (z 0, ![z 1, z 2]) ∧ |x 0 - z 0| ≤ opt.reltolT * x 0 ∧
        |x 1 - z 1| ≤ opt.reltolRho * x 1 ∧ |x 2 - z 2| ≤ opt.reltolRho * x 2) :
        ∃ g ∈ f :: fs, g (x 0) ![x 1, x 2] = .ok (z 0, ![z 1, z 2]) ∧
        |x 0 - z 0| ≤ opt.reltolT * x 0 ∧ |x 1 - z 1| ≤ opt.reltolRho * x 1 ∧ |x 2 - z 2| ≤ opt.reltolRho * x 2 :=
      let ⟨g, hg, hr⟩ := hh
      ⟨g, List.mem_cons_of_mem f hg, hr⟩
    cases hf : f (x 0) (crho x) with
    | ok r =>
      rw [hf] at h
      simp only at h
      by_cases hacc : polishAccepts opt x r
      · rw [if_pos hacc] at h
        injection h with h
        injection h with h
        obtain ⟨h1, h2⟩ := hacc
        push Not at h2
        have hr : r = (z 0, ![z 1, z 2]) := by
          rw [← h]
          refine Prod.ext rfl (funext fun i => ?_)
          fin_cases i <;> rfl
        refine ⟨f, List.mem_cons_self, ?_, ?_, ?_, ?_⟩
        · rw [← hr]; exact hf
        · rw [hr] at h1; exact not_lt.mp h1
        · have := h2 0
          rw [hr] at this
          simpa [crho] using this
        · have := h2 1
          rw [hr] at this
          simpa [crho] using this
      · rw [if_neg hacc] at h
        exact lift (ih h)
    | throws e =>
      rw [hf] at h
      exact lift (ih h)
    | ub => rw [hf] at h; simp at h
    | nonFinite => rw [hf] at h; simp at h

theorem storeCrit_ok {s s' : CritState} (h : storeCrit sys c s = .ok s') :
    ∃ d, sys.xprime c s.last s.x = .ok d ∧ s' = { s with points := (s.x, d) :: s.points } := by
  unfold storeCrit at h
  obtain ⟨_, _, h1⟩ := Outcome.bind_eq_ok.mp h
  obtain ⟨d, h2, h3⟩ := Outcome.bind_eq_ok.mp h1
  injection h3 with h3
  exact ⟨d, h2, h3.symm⟩

theorem storeCrit_conditions {s s' : CritState} (h : storeCrit sys c s = .ok s') : ∃ r, sys.conditions s.x = .ok r := by
  unfold storeCrit at h
  obtain ⟨r, hr, -⟩ := Outcome.bind_eq_ok.mp h
  exact ⟨r, hr⟩

/-- The end of a step either stores nothing and stops, or stores a good point. -/
theorem critFinish_ok {iter : ℤ} {x0 d0 : Fin 3 → ℝ} {s s' : CritState} {b : Bool}
    (h : critFinish sys opt c iter x0 d0 s = .ok (s', b)) :
    (b = false ∧ s'.points = s.points) ∨
      ∃ d, s'.points = (s'.x, d) :: s.points ∧ sys.xprime c s'.last s'.x = .ok d ∧ GoodCritPoint sys opt s'.x ∧
        (iter ≥ opt.skipDircheck → s'.last = some ![d0 1, d0 2]) := by
  unfold critFinish at h
  by_cases hz : outsideZ s.x
  · rw [if_pos hz] at h
    injection h with h
    injection h with h1 h2
    subst h1 h2
    exact Or.inl ⟨rfl, rfl⟩
  rw [if_neg hz] at h
  obtain ⟨r, hr, h1⟩ := Outcome.bind_eq_ok.mp h
  cases r with
  | none =>
    simp only at h1
    by_cases hp : opt.polishExceptionOnFail = true
    · rw [if_pos hp] at h1; simp at h1
    · rw [if_neg hp] at h1
      injection h1 with h1
      injection h1 with h2 h3
      subst h2 h3
      exact Or.inl ⟨rfl, rfl⟩
  | some x =>
    simp only at h1
    by_cases hx : outsideZ x
    · rw [if_pos hx] at h1
      injection h1 with h1
      injection h1 with h2 h3
      subst h2 h3
      exact Or.inl ⟨rfl, rfl⟩
    · rw [if_neg hx] at h1
      obtain ⟨s2, hs, h2⟩ := Outcome.bind_eq_ok.mp h1
      injection h2 with h2
      injection h2 with h3 h4
      subst h3
      obtain ⟨d, hd, he⟩ := storeCrit_ok hs
      have hcond := storeCrit_conditions hs
      subst he
      refine Or.inr ⟨d, rfl, hd, ⟨hcond, not_outsideZ hx, fun hp => ?_⟩, fun hi => ?_⟩
      · rw [if_pos hp] at hr
        obtain ⟨f, hf, hr⟩ := tryPolish_some hr
        exact ⟨s.x, f, hf, hr⟩
      · simp only
        rw [if_pos hi]

/-- The loop after the first point is stored. -/
theorem traceCritLoop_inv (hdir : ∀ l x d, sys.xprime c (some l) x = .ok d → 0 ≤ d 1 * l 0 + d 2 * l 1) (gas : ℕ) :
    ∀ (left : ℕ) (iter : ℤ) (s s' : CritState) (d : Fin 3 → ℝ) (rest : List CritPoint),
      traceCritLoop sys opt c gas left iter false s = some (.ok s') → s.points = (s.x, d) :: rest →
      sys.xprime c s.last s.x = .ok d → iter = rest.length → Forward opt.skipDircheck s.points →
      ∃ new, s'.points = new ++ s.points ∧ new.length ≤ left ∧ (∀ p ∈ new, GoodCritPoint sys opt p.1) ∧
        Forward opt.skipDircheck s'.points := by
  induction gas with
  | zero => intro left iter s s' d rest h; simp [traceCritLoop] at h
  | succ gas ih =>
    intro left iter s s' d rest h hpts hxp hit hfw
    cases left with
    | zero =>
      simp only [traceCritLoop, Option.some.injEq, Outcome.ok.injEq] at h
      subst h
      exact ⟨[], rfl, by simp, by simp, hfw⟩
    | succ left =>
      rw [traceCritLoop] at h
      cases hm : (sys.xprime c s.last s.x).bind fun d0 =>
          (if (false = true) then storeCrit sys c s else .ok s).bind fun s1 =>
          (critStep sys opt c s1).bind fun r => .ok (d0, s1, r) with
      | ok v =>
        obtain ⟨d0, s1, r⟩ := v
        rw [hm] at h
        obtain ⟨d0', e1, hm2⟩ := Outcome.bind_eq_ok.mp hm
        rw [if_neg (by simp)] at hm2
        obtain ⟨s1', e2, hm3⟩ := Outcome.bind_eq_ok.mp hm2
        obtain ⟨r', -, e4⟩ := Outcome.bind_eq_ok.mp hm3
        injection e2 with e2
        injection e4 with e4
        simp only [Prod.mk.injEq] at e4
        obtain ⟨q1, q2, q3⟩ := e4
        subst q1 q2 e2 q3
        have hdd : d0' = d := by
          rw [hxp] at e1
          injection e1 with e1
          exact e1.symm
        subst hdd
        cases r' with
        | threw =>
          simp only [Option.some.injEq, Outcome.ok.injEq] at h
          subst h
          exact ⟨[], rfl, by simp, by simp, hfw⟩
        | rejected dt =>
          simp only at h
          exact ih (left + 1) iter { s with dt := dt } s' d0' rest h hpts hxp hit hfw
        | accepted x t dt =>
          simp only at h
          cases hf : critFinish sys opt c iter s.x d0' { s with x := x, t := t, dt := dt } with
          | ok v =>
            obtain ⟨s2, b⟩ := v
            rw [hf] at h
            rcases critFinish_ok hf with ⟨hb, hp⟩ | ⟨d2, hp, hx2, hg, hl⟩
            · subst hb
              simp only [Option.some.injEq, Outcome.ok.injEq] at h
              subst h
              exact ⟨[], by simpa using hp, by simp, by simp, by rw [hp]; exact hfw⟩
            · have hp' : s2.points = (s2.x, d2) :: s.points := hp
              have hfw2 : Forward opt.skipDircheck s2.points := by
                rw [hp', hpts]
                refine ⟨fun hk => ?_, by rw [← hpts]; exact hfw⟩
                rw [hl (by rw [hit]; exact hk)] at hx2
                simpa using hdir _ _ _ hx2
              cases b with
              | false =>
                simp only [Option.some.injEq, Outcome.ok.injEq] at h
                subst h
                exact ⟨[(s2.x, d2)], by simpa using hp', by simp, by simpa using hg, hfw2⟩
              | true =>
                simp only at h
                obtain ⟨new, n1, n2, n3, n4⟩ := ih left (iter + 1) s2 s' d2 s.points h hp' hx2
                  (by rw [hpts, hit]; simp) hfw2
                refine ⟨new ++ [(s2.x, d2)], ?_, ?_, ?_, n4⟩
                · rw [n1, hp']; simp
                · simp; omega
                · intro p hpm
                  rw [List.mem_append, List.mem_singleton] at hpm
                  rcases hpm with hpm | rfl
                  · exact n3 p hpm
                  · exact hg
          | throws e => rw [hf] at h; simp at h
          | ub => rw [hf] at h; simp at h
          | nonFinite => rw [hf] at h; simp at h
      | throws e => rw [hm] at h; simp at h
      | ub => rw [hm] at h; simp at h
      | nonFinite => rw [hm] at h; simp at h

/-- The first pass stores the starting point. -/
theorem traceCritLoop_first {gas left : ℕ} {iter : ℤ} {s s' : CritState}
    (h : traceCritLoop sys opt c gas (left + 1) iter true s = some (.ok s')) :
    ∃ d, sys.xprime c s.last s.x = .ok d ∧
      traceCritLoop sys opt c gas (left + 1) iter false { s with points := (s.x, d) :: s.points } = some (.ok s') := by
  cases gas with
  | zero => simp [traceCritLoop] at h
  | succ gas =>
    rw [traceCritLoop] at h
    cases hx : sys.xprime c s.last s.x with
    | ok d =>
      refine ⟨d, rfl, ?_⟩
      rw [hx, Outcome.bind_ok, if_pos rfl] at h
      cases hs : storeCrit sys c s with
      | ok s1 =>
        obtain ⟨d', hd', he⟩ := storeCrit_ok hs
        rw [hx] at hd'
        injection hd' with hd'
        subst hd'
        rw [hs, Outcome.bind_ok, he] at h
        rw [traceCritLoop]
        rw [show sys.xprime c ({ s with points := (s.x, d) :: s.points } : CritState).last
          ({ s with points := (s.x, d) :: s.points } : CritState).x = .ok d from hx, Outcome.bind_ok, if_neg (by simp),
          Outcome.bind_ok]
        exact h
      | throws e => rw [hs] at h; simp at h
      | ub => rw [hs] at h; simp at h
      | nonFinite => rw [hs] at h; simp at h
    | throws e => rw [hx] at h; simp at h
    | ub => rw [hx] at h; simp at h
    | nonFinite => rw [hx] at h; simp at h

end loop

/-- What the endpoint polish can do. -/
theorem endpointPolish_ok {sys : CritSys} {c : ℝ} {s s' : CritState} (h : endpointPolish sys c s = .ok s') :
    s'.points = s.points ∨ ∃ (ip : Fin 2) (Tg ρg Tp ρp : ℝ) (x d : Fin 3 → ℝ),
      sys.pureCritical ip Tg ρg = .ok (Tp, ρp) ∧ s'.points = (x, d) :: s.points ∧
      x 0 = Tp ∧ crho x ip = ρp ∧ crho x (1 - ip) = 0 := by
  unfold endpointPolish at h
  obtain ⟨d, _, h1⟩ := Outcome.bind_eq_ok.mp h
  simp only at h1
  by_cases ht : ∃ i, (crho s.x i + ![d 1, d 2] i * s.dt) * crho s.x i > 0
  · rw [if_pos ht] at h1
    set ip : Fin 2 := if crho s.x 0 ≥ crho s.x 1 then 0 else 1 with hip
    by_cases hz : (![d 1, d 2] : Fin 2 → ℝ) ip = 0
    · rw [if_pos hz] at h1; simp at h1
    · rw [if_neg hz] at h1
      obtain ⟨⟨Tp, ρp⟩, hp, h2⟩ := Outcome.bind_eq_ok.mp h1
      obtain ⟨d', -, he⟩ := storeCrit_ok h2
      refine Or.inr ⟨ip, _, _, Tp, ρp, _, d', hp, by rw [he], ?_⟩
      simp only
      by_cases h0 : ip = 0
      · rw [if_pos h0, h0]; exact ⟨rfl, rfl, rfl⟩
      · have h1 : ip = 1 := by omega
        rw [if_neg h0, h1]; exact ⟨rfl, rfl, rfl⟩
  · rw [if_neg ht] at h1
    injection h1 with h1
    rw [h1]
    exact Or.inl rfl

/-- C42. Whenever the right-hand side is finite, the concentrations move at the speed `|c|`: the parameter of the trace is
the length of the curve in the plane of concentrations. -/
theorem critXprime_speed {m : EOS (Fin 2)} {eig : EigSolver} {solve : Solver 2} {tn : Bool} {c : ℝ}
    {last : Option (Fin 2 → ℝ)} {x d : Fin 3 → ℝ} (h : critXprime m eig solve tn c last x = .ok d) :
    d 1 ^ 2 + d 2 ^ 2 = c ^ 2 := by
  unfold critXprime at h
  by_cases hneg : tn = true ∧ ∃ i, crho x i < 0
  · rw [if_pos hneg] at h; simp at h
  · rw [if_neg hneg] at h
    obtain ⟨dr, -, h4⟩ := Outcome.bind_eq_ok.mp h
    by_cases hd : dr 0 = 0 ∧ dr 1 = 0
    · rw [if_pos hd] at h4; simp at h4
    rw [if_neg hd] at h4
    injection h4 with h4
    rw [← h4]
    refine (critRhs_direction _ dr last).2.1 ?_
    rcases not_and_or.mp hd with h0 | h1
    · exact ⟨0, h0⟩
    · exact ⟨1, h1⟩

/-- The hypothesis of `critXprime_speed`: the ideal gas with an eigensolver that returns the unit vectors and a linear
solve that returns `(3, 4)`. -/
example : ∃ d, critXprime (⟨fun _ _ _ => 0, fun _ => 1⟩ : EOS (Fin 2)) (fun _ _ => (0, 1)) (fun _ _ => ![3, 4]) true 2 none ![1, 1, 1] = .ok d ∧
    d 1 ^ 2 + d 2 ^ 2 = 2 ^ 2 := by
  have hg : ∀ (T : ℝ) (ρ : Fin 2 → ℝ) (a : Option (Fin 2 → ℝ)), (∀ i, 0 < ρ i) →
      ∃ r, getDerivs (⟨fun _ _ _ => 0, fun _ => 1⟩ : EOS (Fin 2)) (fun _ _ => (0, 1)) T ρ a = .ok r := by
    intro T ρ a hp
    have hz : zeroCount ρ = 0 := by
      unfold zeroCount
      rw [Finset.card_eq_zero, Finset.filter_eq_empty_iff]
      exact fun i _ => (hp i).ne'
    unfold getDerivs eigenProblem
    simp only [hz, if_true, Outcome.bind_ok]
    exact ⟨_, rfl⟩
  have hx : crho ![1, 1, 1] = ![1, 1] := rfl
  have h1 : ∀ i, 0 < (![1, 1] : Fin 2 → ℝ) i := by intro i; fin_cases i <;> simp
  have hd : drhodTcrit (⟨fun _ _ _ => 0, fun _ => 1⟩ : EOS (Fin 2)) (fun _ _ => (0, 1)) (fun _ _ => ![3, 4]) 1 ![1, 1] = .ok ![3, 4] := by
    unfold drhodTcrit
    obtain ⟨r, hr⟩ := hg 1 ![1, 1] none h1
    obtain ⟨p, hp⟩ := hg (1 + 1e-7) ![1, 1] (some r.2.v0) h1
    obtain ⟨q, hq⟩ := hg (1 - 1e-7) ![1, 1] (some r.2.v0) h1
    have hv : r.2.v1 = ![0, 1] := by
      have hz : zeroCount (![1, 1] : Fin 2 → ℝ) = 0 := by
        unfold zeroCount
        rw [Finset.card_eq_zero, Finset.filter_eq_empty_iff]
        exact fun i _ => (h1 i).ne'
      unfold getDerivs eigenProblem at hr
      simp only [hz, if_true, Outcome.bind_ok, Outcome.ok.injEq] at hr
      rw [← hr]
      have ho : ¬∃ r, (1 : Matrix (Fin 2) (Fin 2) ℝ) r (minIndex ![1, 1]) < 0 := by
        rintro ⟨r, hr⟩
        rw [Matrix.one_apply] at hr
        split_ifs at hr <;> norm_num at hr
      funext i
      fin_cases i <;> simp [EigenData.v1, alignFirst, orient, ho]
    have hs : ∃ s, sigma2Deriv (⟨fun _ _ _ => 0, fun _ => 1⟩ : EOS (Fin 2)) (fun _ _ => (0, 1)) 1 ![1, 1] r.1 r.2 = .ok s := by
      unfold sigma2Deriv
      have pp : ∀ s : ℝ, |s| < 1 → ∀ i, 0 < (![1, 1] : Fin 2 → ℝ) i + s * r.2.v1 i := by
        intro s hs i
        have := abs_lt.mp hs
        rw [hv]
        fin_cases i
        · simp
        · simp; linarith
      have hh : |2e-5 * ((![1, 1] : Fin 2 → ℝ) 0 + (![1, 1] : Fin 2 → ℝ) 1)| < 1 := by
        simp; norm_num [abs_lt]
      have hh' : |-(2e-5 * ((![1, 1] : Fin 2 → ℝ) 0 + (![1, 1] : Fin 2 → ℝ) 1))| < 1 := by rwa [abs_neg]
      simp only
      rw [if_pos ⟨pp _ hh', pp _ hh⟩]
      obtain ⟨a, ha⟩ := hg 1 _ (some r.2.v0) (pp _ hh)
      obtain ⟨b, hb⟩ := hg 1 _ (some r.2.v0) (pp _ hh')
      rw [ha, Outcome.bind_ok, hb, Outcome.bind_ok]
      exact ⟨_, rfl⟩
    obtain ⟨s, hs⟩ := hs
    rw [hr, Outcome.bind_ok]
    simp only
    rw [hp, Outcome.bind_ok, hq, Outcome.bind_ok, hs, Outcome.bind_ok]
  have hok : critXprime (⟨fun _ _ _ => 0, fun _ => 1⟩ : EOS (Fin 2)) (fun _ _ => (0, 1)) (fun _ _ => ![3, 4]) true 2 none ![1, 1, 1] =
      .ok (critRhs 2 ![3, 4] none) := by
    unfold critXprime
    rw [if_neg, hx]
    · change (drhodTcrit _ _ _ 1 ![1, 1]).bind _ = _
      rw [hd, Outcome.bind_ok]
      exact if_neg (by simp)
    · rintro ⟨-, i, hi⟩
      rw [hx] at hi
      exact lt_asymm hi (h1 i)
  exact ⟨_, hok, critXprime_speed hok⟩

/-- The right-hand side of the code never points backwards. -/
theorem critXprime_direction {m : EOS (Fin 2)} {eig : EigSolver} {solve : Solver 2} {tn : Bool} {c : ℝ} {l : Fin 2 → ℝ}
    {x d : Fin 3 → ℝ} (h : critXprime m eig solve tn c (some l) x = .ok d) : 0 ≤ d 1 * l 0 + d 2 * l 1 := by
  unfold critXprime at h
  by_cases hneg : tn = true ∧ ∃ i, crho x i < 0
  · rw [if_pos hneg] at h; simp at h
  · rw [if_neg hneg] at h
    obtain ⟨dr, -, h4⟩ := Outcome.bind_eq_ok.mp h
    by_cases hd : dr 0 = 0 ∧ dr 1 = 0
    · rw [if_pos hd] at h4; simp at h4
    rw [if_neg hd] at h4
    injection h4 with h4
    rw [← h4]
    exact (critRhs_direction _ dr (some l)).2.2 l rfl

/-- **C42** A trace without endpoint polish starts at the given state, has no more than `max_step_count + 1` points, every
later point has a mole fraction in `[0, 1]` and (with polishing) was accepted within the tolerances, and from the step
number `skip_dircheck_count` on no point turns back relative to the one before. -/
theorem traceCrit_points {sys : CritSys} {opt : CritOpts} {gas : ℕ} {T0 : ℝ} {ρ0 : Fin 2 → ℝ} {pts : List CritPoint}
    (hdir : ∀ c l x d, sys.xprime c (some l) x = .ok d → 0 ≤ d 1 * l 0 + d 2 * l 1)
    (hend : opt.pureEndpoint = false) (hpos : 0 < opt.maxStepCount)
    (h : traceCrit sys opt gas T0 ρ0 = some (.ok pts)) :
    (∃ d, pts.head? = some (![T0, ρ0 0, ρ0 1], d)) ∧ (pts.length : ℤ) ≤ opt.maxStepCount + 1 ∧
      (∀ p ∈ pts.tail, GoodCritPoint sys opt p.1) ∧ Forward opt.skipDircheck pts.reverse := by
  unfold traceCrit at h
  simp only at h
  cases hx : sys.xprime opt.initC none ![T0, ρ0 0, ρ0 1] with
  | ok d =>
    rw [hx] at h
    simp only [hend] at h
    obtain ⟨n, hn⟩ : ∃ n, opt.maxStepCount.toNat = n + 1 := ⟨opt.maxStepCount.toNat - 1, by omega⟩
    rw [hn] at h
    obtain ⟨r, hl, hr⟩ := Option.map_eq_some_iff.mp h
    obtain ⟨s, hs, h2⟩ := Outcome.bind_eq_ok.mp hr
    rw [if_neg (by simp), Outcome.bind_ok] at h2
    injection h2 with h2
    subst hs
    obtain ⟨d0, hd0, hloop⟩ := traceCritLoop_first hl
    obtain ⟨new, n1, n2, n3, n4⟩ := traceCritLoop_inv (hdir _) gas (n + 1) 0 _ s d0 [] hloop rfl hd0 (by simp) trivial
    have e : pts = (![T0, ρ0 0, ρ0 1], d0) :: new.reverse := by rw [← h2, n1]; simp
    refine ⟨⟨d0, by rw [e]; rfl⟩, ?_, ?_, ?_⟩
    · rw [e]; simp; omega
    · rw [e]
      intro p hp
      exact n3 p (by simpa using hp)
    · rw [← h2, List.reverse_reverse]; exact n4
  | throws e => rw [hx] at h; simp at h
  | ub => rw [hx] at h; simp at h
  | nonFinite => rw [hx] at h; simp at h

/-- **C42** The same for the routine as it is called with a model. -/
theorem traceCrit_model_points {m : EOS (Fin 2)} {eig : EigSolver} {solve : Solver 2} {opt : CritOpts}
    {adaptive : ((Fin 3 → ℝ) → Outcome (Fin 3 → ℝ)) → (Fin 3 → ℝ) → ℝ → ℝ → StepRes 3}
    {polishers : List (ℝ → (Fin 2 → ℝ) → Outcome (ℝ × (Fin 2 → ℝ)))}
    {pureCritical : Fin 2 → ℝ → ℝ → Outcome (ℝ × ℝ)} {gas : ℕ} {T0 : ℝ} {ρ0 : Fin 2 → ℝ} {pts : List CritPoint}
    (hend : opt.pureEndpoint = false) (hpos : 0 < opt.maxStepCount)
    (h : traceCrit (critSys m eig solve opt adaptive polishers pureCritical) opt gas T0 ρ0 = some (.ok pts)) :
    (∃ d, pts.head? = some (![T0, ρ0 0, ρ0 1], d)) ∧ (pts.length : ℤ) ≤ opt.maxStepCount + 1 ∧
      (∀ p ∈ pts.tail, GoodCritPoint (critSys m eig solve opt adaptive polishers pureCritical) opt p.1 ∧
        ∃ r, critConditions m eig (p.1 0) ![p.1 1, p.1 2] = .ok r) ∧ Forward opt.skipDircheck pts.reverse := by
  obtain ⟨h1, h2, h3, h4⟩ := traceCrit_points (fun _ _ _ _ hd => critXprime_direction hd) hend hpos h
  exact ⟨h1, h2, fun p hp => ⟨h3 p hp, (h3 p hp).1⟩, h4⟩

/-- **C71** The endpoint adds at most one point: the pure critical point, with the other concentration zero. -/
theorem traceCrit_endpoint {sys : CritSys} {opt : CritOpts} {gas : ℕ} {T0 : ℝ} {ρ0 : Fin 2 → ℝ} {pts : List CritPoint}
    (h : traceCrit sys opt gas T0 ρ0 = some (.ok pts)) (hend : opt.pureEndpoint = true) :
    traceCrit sys { opt with pureEndpoint := false } gas T0 ρ0 = some (.ok pts) ∨
      ∃ (pts' : List CritPoint) (ip : Fin 2) (Tg ρg Tp ρp : ℝ) (x d : Fin 3 → ℝ),
        traceCrit sys { opt with pureEndpoint := false } gas T0 ρ0 = some (.ok pts') ∧ pts = pts' ++ [(x, d)] ∧
        sys.pureCritical ip Tg ρg = .ok (Tp, ρp) ∧ x 0 = Tp ∧ crho x ip = ρp ∧ crho x (1 - ip) = 0 := by
  have htry : ∀ x fs, tryPolish { opt with pureEndpoint := false } x fs = tryPolish opt x fs := by
    intro x fs
    induction fs with
    | nil => rfl
    | cons f fs ih => simp only [tryPolish, ih]; rfl
  have hstep : ∀ c s, critStep sys { opt with pureEndpoint := false } c s = critStep sys opt c s := fun c s => rfl
  have hfin : ∀ c iter x0 d0 s, critFinish sys { opt with pureEndpoint := false } c iter x0 d0 s =
      critFinish sys opt c iter x0 d0 s := by
    intro c iter x0 d0 s
    simp only [critFinish, htry]
  have hloop : ∀ c gas left iter first s, traceCritLoop sys { opt with pureEndpoint := false } c gas left iter first s =
      traceCritLoop sys opt c gas left iter first s := by
    intro c gas
    induction gas with
    | zero => intros; rfl
    | succ gas ih =>
      intro left iter first s
      cases left with
      | zero => rfl
      | succ left => simp only [traceCritLoop, ih, hstep, hfin]
  unfold traceCrit at h ⊢
  simp only [hend] at h
  simp only [hloop]
  cases hx : sys.xprime opt.initC none ![T0, ρ0 0, ρ0 1] with
  | ok d =>
    rw [hx] at h
    simp only at h ⊢
    obtain ⟨r, hl, hr⟩ := Option.map_eq_some_iff.mp h
    obtain ⟨s, hs, h2⟩ := Outcome.bind_eq_ok.mp hr
    subst hs
    rw [if_pos trivial] at h2
    obtain ⟨s', he, h3⟩ := Outcome.bind_eq_ok.mp h2
    injection h3 with h3
    rw [hl]
    simp only [Option.map_some, Outcome.bind_ok, Bool.false_eq_true, if_false, Option.some.injEq, Outcome.ok.injEq]
    rcases endpointPolish_ok he with hp | ⟨ip, Tg, ρg, Tp, ρp, x, d', h4, h5, h6⟩
    · left
      rw [← hp, h3]
    · right
      exact ⟨s.points.reverse, ip, Tg, ρg, Tp, ρp, x, d', rfl, by rw [← h3, h5]; simp, h4, h6⟩
  | throws e => rw [hx] at h; simp at h
  | ub => rw [hx] at h; simp at h
  | nonFinite => rw [hx] at h; simp at h

/-- **C71** is false of the code: the endpoint polish is meant for a last step that crosses zero concentration, but it is
carried out whenever some concentration keeps its sign.  Here nothing is near zero, no step is taken, and a pure-fluid
point is returned. -/
theorem endpointPolish_without_crossing {sys : CritSys} {c : ℝ} {s : CritState} {d : Fin 3 → ℝ}
    (hx : sys.xprime c s.last s.x = .ok d) (hρ : ∀ i, 0 < crho s.x i)
    (hstep : ∀ i, 0 < crho s.x i + ![d 1, d 2] i * s.dt) (hd : ∀ i, (![d 1, d 2] : Fin 2 → ℝ) i ≠ 0)
    {Tp ρp : ℝ} (hp : ∀ i T ρ, sys.pureCritical i T ρ = .ok (Tp, ρp))
    (hstore : ∀ s', s'.last = s.last → ∃ r, storeCrit sys c s' = .ok r) :
    ∃ s' x d', endpointPolish sys c s = .ok s' ∧ s'.points = (x, d') :: s.points ∧ (x 1 = 0 ∨ x 2 = 0) := by
  have ht : ∃ i, (crho s.x i + ![d 1, d 2] i * s.dt) * crho s.x i > 0 := ⟨0, mul_pos (hstep 0) (hρ 0)⟩
  set ip : Fin 2 := if crho s.x 0 ≥ crho s.x 1 then 0 else 1 with hip
  set x' : Fin 3 → ℝ := if ip = 0 then ![Tp, ρp, 0] else ![Tp, 0, ρp] with hx'
  obtain ⟨r, hr⟩ := hstore { s with x := x' } rfl
  obtain ⟨d', -, he⟩ := storeCrit_ok hr
  refine ⟨r, x', d', ?_, by rw [he], ?_⟩
  · unfold endpointPolish
    rw [hx, Outcome.bind_ok]
    simp only
    rw [if_pos ht]
    change (if (![d 1, d 2] : Fin 2 → ℝ) ip = 0 then Outcome.nonFinite else _) = _
    rw [if_neg (hd ip)]
    simp only [hp, Outcome.bind_ok]
    exact hr
  · by_cases h0 : ip = 0
    · right; rw [hx', if_pos h0]; rfl
    · left; rw [hx', if_neg h0]; rfl

/-- **C71** When the last step did lead to a negative concentration, the default `terminate_negative_density` makes the
endpoint polish throw, and the points found are lost. -/
theorem endpointPolish_after_crossing (m : EOS (Fin 2)) (eig : EigSolver) (solve : Solver 2) (opt : CritOpts)
    (adaptive : ((Fin 3 → ℝ) → Outcome (Fin 3 → ℝ)) → (Fin 3 → ℝ) → ℝ → ℝ → StepRes 3)
    (polishers : List (ℝ → (Fin 2 → ℝ) → Outcome (ℝ × (Fin 2 → ℝ))))
    (pureCritical : Fin 2 → ℝ → ℝ → Outcome (ℝ × ℝ)) (c : ℝ) {s : CritState} (ht : opt.termNeg = true)
    (hn : s.x 1 < 0 ∨ s.x 2 < 0) :
    endpointPolish (critSys m eig solve opt adaptive polishers pureCritical) c s = .throws .stdInvalidArgument := by
  unfold endpointPolish
  change (critXprime m eig solve opt.termNeg c s.last s.x).bind _ = _
  rw [ht, critXprime_refuses_negative m eig solve c s.last hn]
  rfl

/-- **C71** The starting guess of the pure critical solver is the state where the *larger* concentration has been brought
to zero, although the other component is the one that vanishes at the end of the curve. -/
theorem endpointPolish_guess {sys : CritSys} {c : ℝ} {s : CritState} {d : Fin 3 → ℝ}
    (hx : sys.xprime c s.last s.x = .ok d) (h01 : s.x 1 ≥ s.x 2) (h1 : 0 < s.x 1) (h2 : 0 < s.x 1 + d 1 * s.dt)
    (hd : d 1 ≠ 0) :
    endpointPolish sys c s =
      (sys.pureCritical 0 (s.x 0 - d 0 * s.x 1 / d 1) (s.x 2 - d 2 * s.x 1 / d 1)).bind fun r =>
        storeCrit sys c { s with x := ![r.1, r.2, 0] } := by
  unfold endpointPolish
  rw [hx, Outcome.bind_ok]
  simp only
  have ht : ∃ i, (crho s.x i + ![d 1, d 2] i * s.dt) * crho s.x i > 0 := ⟨0, by simpa [crho] using mul_pos h2 h1⟩
  have hip : (if crho s.x 0 ≥ crho s.x 1 then (0 : Fin 2) else 1) = 0 := if_pos (by simpa [crho] using h01)
  rw [if_pos ht]
  simp only [hip]
  have hd0 : ¬((![d 1, d 2] : Fin 2 → ℝ) 0 = 0) := hd
  rw [if_neg hd0]
  have e1 : s.x 0 + d 0 * (-crho s.x 0 / (![d 1, d 2] : Fin 2 → ℝ) 0) = s.x 0 - d 0 * s.x 1 / d 1 := by
    simp [crho]; ring
  have e2 : (crho s.x 0 + (![d 1, d 2] : Fin 2 → ℝ) 0 * (-crho s.x 0 / (![d 1, d 2] : Fin 2 → ℝ) 0)) +
      (crho s.x 1 + (![d 1, d 2] : Fin 2 → ℝ) 1 * (-crho s.x 0 / (![d 1, d 2] : Fin 2 → ℝ) 0)) =
      s.x 2 - d 2 * s.x 1 / d 1 := by
    simp [crho]
    field_simp
    ring
  rw [e1, e2]
  rfl

/-! ## Concrete traces -/

/-- **C42** Any integration order other than 1 and 5 is refused at the first step. -/
theorem traceCrit_refuses_order {sys : CritSys} {opt : CritOpts} {T0 : ℝ} {ρ0 : Fin 2 → ℝ} (gas : ℕ)
    (hx : ∀ c last x, ∃ d, sys.xprime c last x = .ok d) (hc : ∀ x, ∃ r, sys.conditions x = .ok r)
    (h1 : opt.integrationOrder ≠ 1) (h5 : opt.integrationOrder ≠ 5) (hpos : 0 < opt.maxStepCount) :
    traceCrit sys opt (gas + 1) T0 ρ0 = some (.throws .stdInvalidArgument) := by
  obtain ⟨n, hn⟩ : ∃ n, opt.maxStepCount.toNat = n + 1 := ⟨opt.maxStepCount.toNat - 1, by omega⟩
  obtain ⟨d, hd⟩ := hx opt.initC none ![T0, ρ0 0, ρ0 1]
  unfold traceCrit
  simp only [hd, hn]
  set c := if ∃ i, ρ0 i + ![d 1, d 2] i * opt.initDt < 0 then -opt.initC else opt.initC
  obtain ⟨d2, hd2⟩ := hx c none ![T0, ρ0 0, ρ0 1]
  obtain ⟨r, hr⟩ := hc ![T0, ρ0 0, ρ0 1]
  rw [traceCritLoop]
  simp only [hd2, Outcome.bind_ok, if_true, storeCrit, hr, critStep, if_neg h1, if_neg h5, Outcome.bind_throws,
    Option.map_some]

/-- A curve that is a straight line in the state space; the polishers leave the state as it is, and the pure critical
point of either component is `(7, 9)`. -/
noncomputable def lineSys : CritSys where
  xprime c last _ := .ok (critRhs c ![3, 4] last)
  adaptive _ _ _ _ := .threw
  polishers := [fun T ρ => .ok (T, ρ)]
  conditions _ := .ok (0, 0)
  pureCritical _ _ _ := .ok (7, 9)

/-- Euler steps of length 5. -/
noncomputable def lineOpt : CritOpts where
  initDt := 5
  maxDt := 10
  Ttol := 1 / 1000
  initC := 1
  smallTCount := 5
  integrationOrder := 1
  maxStepCount := 1
  skipDircheck := 0
  polish := true
  reltolT := 1 / 100
  reltolRho := 1 / 20
  termNeg := true
  polishExceptionOnFail := false
  pureEndpoint := false

theorem vec3_last (a b c : ℝ) : (![a, b, c] : Fin 3 → ℝ) 2 = c := rfl

theorem line_rhs (c : ℝ) : critRhs c ![3, 4] none = ![c / 5, 3 * c / 5, 4 * c / 5] := by
  have h5 : Real.sqrt (3 * 3 + 4 * 4) = 5 := by
    rw [show (3 * 3 + 4 * 4 : ℝ) = 5 ^ 2 by norm_num]
    exact Real.sqrt_sq (by norm_num)
  unfold critRhs
  simp only [Matrix.cons_val_zero, Matrix.cons_val_one, h5]
  funext i
  fin_cases i <;> simp <;> ring

theorem line_rhs_some : critRhs 1 ![3, 4] (some ![3 / 5, 4 / 5]) = ![1 / 5, 3 / 5, 4 / 5] := by
  have h5 : Real.sqrt (3 * 3 + 4 * 4) = 5 := by
    rw [show (3 * 3 + 4 * 4 : ℝ) = 5 ^ 2 by norm_num]
    exact Real.sqrt_sq (by norm_num)
  unfold critRhs
  simp only [Matrix.cons_val_zero, Matrix.cons_val_one, h5]
  rw [if_neg (by norm_num [vec3_last])]
  funext i
  fin_cases i <;> norm_num

theorem line_trace : traceCrit lineSys lineOpt 5 1 ![1, 1] =
    some (.ok [(![1, 1, 1], ![1 / 5, 3 / 5, 4 / 5]), (![2, 4, 5], ![1 / 5, 3 / 5, 4 / 5])]) := by
  have hc : (if ∃ i, (![1, 1] : Fin 2 → ℝ) i + (![3 / 5, 4 / 5] : Fin 2 → ℝ) i * 5 < 0 then -(1 : ℝ) else 1) = 1 := by
    rw [if_neg]
    rintro ⟨i, hi⟩
    fin_cases i <;> simp at hi <;> linarith
  have e0 : critRhs 1 ![3, 4] none = ![1 / 5, 3 / 5, 4 / 5] := by rw [line_rhs]; norm_num
  have hx : (fun i => (![1, 1, 1] : Fin 3 → ℝ) i + 5 * (![1 / 5, 3 / 5, 4 / 5] : Fin 3 → ℝ) i) = ![2, 4, 5] := by
    funext i
    fin_cases i <;> norm_num
  have hz : ¬outsideZ ![2, 4, 5] := by
    unfold outsideZ
    norm_num [vec3_last]
  have hp : tryPolish lineOpt ![2, 4, 5] lineSys.polishers = .ok (some ![2, 4, 5]) := by
    simp only [lineSys, tryPolish]
    rw [if_pos]
    · congr 2
    · refine ⟨by norm_num [lineOpt], ?_⟩
      rintro ⟨i, hi⟩
      fin_cases i <;> norm_num [crho, lineOpt, vec3_last] at hi
  have hk : traceCritLoop lineSys lineOpt 1 5 1 0 true ⟨![1, 1, 1], 0, 5, none, 0, []⟩ =
      some (.ok ⟨![2, 4, 5], 5, 5, some ![3 / 5, 4 / 5], 0,
        [(![2, 4, 5], ![1 / 5, 3 / 5, 4 / 5]), (![1, 1, 1], ![1 / 5, 3 / 5, 4 / 5])]⟩) := by
    have hf : critFinish lineSys lineOpt 1 0 ![1, 1, 1] ![1 / 5, 3 / 5, 4 / 5]
        ⟨![2, 4, 5], 0 + 5, 5, none, 0, [(![1, 1, 1], ![1 / 5, 3 / 5, 4 / 5])]⟩ =
        .ok (⟨![2, 4, 5], 5, 5, some ![3 / 5, 4 / 5], 0,
          [(![2, 4, 5], ![1 / 5, 3 / 5, 4 / 5]), (![1, 1, 1], ![1 / 5, 3 / 5, 4 / 5])]⟩, true) := by
      unfold critFinish
      rw [if_neg hz, if_pos (show lineOpt.polish = true from rfl), hp, Outcome.bind_ok]
      simp only
      rw [if_neg hz]
      have h0 : (0 : ℤ) ≥ lineOpt.skipDircheck := le_refl 0
      have hT : ¬|(![2, 4, 5] : Fin 3 → ℝ) 0 - (![1, 1, 1] : Fin 3 → ℝ) 0| < lineOpt.Ttol := by norm_num [lineOpt]
      have hl : (some ![(![1 / 5, 3 / 5, 4 / 5] : Fin 3 → ℝ) 1, (![1 / 5, 3 / 5, 4 / 5] : Fin 3 → ℝ) 2]) =
          some ![3 / 5, 4 / 5] := rfl
      rw [if_pos h0, if_neg hT, hl]
      simp only [storeCrit, lineSys, Outcome.bind_ok, line_rhs_some, zero_add]
      norm_num [lineOpt]
    rw [traceCritLoop]
    have hs : critStep lineSys lineOpt 1 ⟨![1, 1, 1], 0, 5, none, 0, [(![1, 1, 1], ![1 / 5, 3 / 5, 4 / 5])]⟩ =
        .ok (.accepted ![2, 4, 5] (0 + 5) 5) := by
      unfold critStep
      rw [if_neg (by norm_num [lineOpt]), if_pos (by norm_num [lineOpt])]
      simp only [lineSys, e0]
      rw [hx]
    have hst : storeCrit lineSys 1 ⟨![1, 1, 1], 0, 5, none, 0, []⟩ =
        .ok ⟨![1, 1, 1], 0, 5, none, 0, [(![1, 1, 1], ![1 / 5, 3 / 5, 4 / 5])]⟩ := by
      simp only [storeCrit, lineSys, Outcome.bind_ok, e0]
    have hxp : lineSys.xprime 1 none ![1, 1, 1] = .ok ![1 / 5, 3 / 5, 4 / 5] := by simp only [lineSys, e0]
    simp only [hxp, Outcome.bind_ok, if_true, hst, hs, hf]
    rw [traceCritLoop]
  have hxp : lineSys.xprime lineOpt.initC none ![1, (![1, 1] : Fin 2 → ℝ) 0, (![1, 1] : Fin 2 → ℝ) 1] =
      .ok ![1 / 5, 3 / 5, 4 / 5] := by simp only [lineSys, lineOpt, e0]
  unfold traceCrit
  simp only [hxp]
  have hc' : (if ∃ i, (![1, 1] : Fin 2 → ℝ) i + (![(![1 / 5, 3 / 5, 4 / 5] : Fin 3 → ℝ) 1,
      (![1 / 5, 3 / 5, 4 / 5] : Fin 3 → ℝ) 2] : Fin 2 → ℝ) i * lineOpt.initDt < 0 then -lineOpt.initC
      else lineOpt.initC) = 1 := hc
  rw [hc']
  have hn : lineOpt.maxStepCount.toNat = 1 := rfl
  have hk' : traceCritLoop lineSys lineOpt 1 5 lineOpt.maxStepCount.toNat 0 true
      ⟨![1, (![1, 1] : Fin 2 → ℝ) 0, (![1, 1] : Fin 2 → ℝ) 1], 0, lineOpt.initDt, none, 0, []⟩ = _ := hk
  rw [hk']
  rfl

example : (∀ p ∈ [((![2, 4, 5] : Fin 3 → ℝ), (![1 / 5, 3 / 5, 4 / 5] : Fin 3 → ℝ))], GoodCritPoint lineSys lineOpt p.1) :=
  (traceCrit_points (fun c l _ d hd => by
    injection hd with hd
    rw [← hd]
    exact (critRhs_direction c ![3, 4] (some l)).2.2 l rfl) rfl (by decide) line_trace).2.2.1

/-- Stored points may not turn back: a pair that does is told apart. -/
example : ¬Forward 0 [(![2, 4, 5], ![0, -1, 0]), (![1, 1, 1], ![0, 1, 0])] := by
  intro h
  have := h.1 (by simp)
  norm_num [vec3_last] at this

example : traceCrit lineSys { lineOpt with integrationOrder := 4 } 5 1 ![1, 1] = some (.throws .stdInvalidArgument) :=
  traceCrit_refuses_order 4 (fun c last _ => ⟨_, rfl⟩) (fun _ => ⟨_, rfl⟩) (by norm_num) (by norm_num) (by decide)

/-- A trace in the middle of the mixture, ended with a jump to a pure fluid. -/
example : ∃ s' x d', endpointPolish lineSys 1 ⟨![1, 1, 1], 0, 5, none, 0, []⟩ = .ok s' ∧
    s'.points = (x, d') :: [] ∧ (x 1 = 0 ∨ x 2 = 0) := by
  refine endpointPolish_without_crossing (d := ![1 / 5, 3 / 5, 4 / 5]) ?_ ?_ ?_ ?_ (Tp := 7) (ρp := 9)
    (fun _ _ _ => rfl) (fun s' _ => ⟨_, rfl⟩)
  · simp only [lineSys]
    rw [line_rhs]
    norm_num
  · intro i; fin_cases i <;> norm_num [crho, vec3_last]
  · intro i; fin_cases i <;> norm_num [crho, vec3_last]
  · intro i; fin_cases i <;> norm_num [vec3_last]

example : endpointPolish lineSys 1 ⟨![1, 2, 1], 0, 5, none, 0, []⟩ =
    (lineSys.pureCritical 0 (1 - 1 / 5 * 2 / (3 / 5)) (1 - 4 / 5 * 2 / (3 / 5))).bind fun r =>
      storeCrit lineSys 1 ⟨![r.1, r.2, 0], 0, 5, none, 0, []⟩ := by
  have := endpointPolish_guess (sys := lineSys) (c := 1) (s := ⟨![1, 2, 1], 0, 5, none, 0, []⟩)
    (d := ![1 / 5, 3 / 5, 4 / 5]) (by simp only [lineSys]; rw [line_rhs]; norm_num) (by norm_num [vec3_last]) (by norm_num)
    (by norm_num) (by norm_num)
  simpa using this

example (m : EOS (Fin 2)) (eig : EigSolver) (solve : Solver 2) :
    endpointPolish (critSys m eig solve lineOpt (fun _ _ _ _ => .threw) [] fun _ _ _ => .ok (7, 9)) 1
      ⟨![300, 5, -2], 10, 1, none, 0, [(![300, 5, 1], ![0, 0, -1])]⟩ = .throws .stdInvalidArgument :=
  endpointPolish_after_crossing m eig solve lineOpt _ _ _ 1 rfl (Or.inr (by simp))

/-- With the endpoint requested the trace of the line gets a third point. -/
example {pts : List CritPoint} (h : traceCrit lineSys { lineOpt with pureEndpoint := true } 5 1 ![1, 1] = some (.ok pts)) :
    pts.length = 2 ∨ pts.length = 3 := by
  rcases traceCrit_endpoint h rfl with h1 | ⟨pts', _, _, _, _, _, _, _, h1, h2, _⟩
  · rw [show ({ lineOpt with pureEndpoint := false } : CritOpts) = lineOpt from rfl] at h1
    have h1' := h1.symm.trans line_trace
    simp only [Option.some.injEq, Outcome.ok.injEq] at h1'
    rw [h1']; simp
  · have h1' : some (Outcome.ok pts') = _ := h1.symm.trans line_trace
    simp only [Option.some.injEq, Outcome.ok.injEq] at h1'
    rw [h2, h1']; simp

end Teqp.Props
