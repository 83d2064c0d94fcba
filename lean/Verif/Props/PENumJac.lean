import Verif.Model.PENumJac
import Verif.Props.PhaseEquilSys

/-! # C162: the numerical Jacobian of the phase-equilibrium system -/

set_option autoImplicit false

open Teqp.Calc Teqp.Model Teqp.Spec Teqp.Lemmas Teqp.MixVLE Teqp.PhaseEquil Filter Topology

namespace Teqp.Props

/-! ## The loop -/

theorem peNumLoop_inv {call : List ℝ → Outcome (List PERow)} {x dx : List ℝ} (is : List ℕ) (hn : is.Nodup) {s t : PENum}
    (h : peNumLoop call x dx is s = .ok t) :
    (∀ i ∈ is, i < dx.length) ∧ (∀ c, c ∉ is → ∀ r, t.J r c = s.J r c) ∧
      (∀ c ∈ is, ∃ rp rm, call (x.set c (x.getD c 0 + peStep (dx.getD c 0))) = .ok rp ∧
        call (x.set c (x.getD c 0 - peStep (dx.getD c 0))) = .ok rm ∧
        ∀ r, t.J r c = ((rp.getD r noRow).1 - (rm.getD r noRow).1) / (2 * peStep (dx.getD c 0))) ∧
      (is = [] → t.buf = s.buf) ∧
      ∀ l, is.getLast? = some l → call (x.set l (x.getD l 0 - peStep (dx.getD l 0))) = .ok t.buf := by
  induction is generalizing s with
  | nil =>
    cases h
    exact ⟨by simp, fun _ _ _ => rfl, by simp, fun _ => rfl, by simp⟩
  | cons i is ih =>
    rw [peNumLoop] at h
    split at h
    · cases h
    · next hi =>
      simp only at h
      obtain ⟨rp, h1, h⟩ := Outcome.bind_eq_ok.1 h
      obtain ⟨rm, h2, h⟩ := Outcome.bind_eq_ok.1 h
      obtain ⟨hni, hn⟩ := List.nodup_cons.1 hn
      obtain ⟨a, b, c, d, e⟩ := ih hn h
      refine ⟨?_, ?_, ?_, by simp, ?_⟩
      · intro j hj
        rcases List.mem_cons.1 hj with rfl | hj
        · omega
        · exact a j hj
      · intro j hj r
        rw [List.mem_cons, not_or] at hj
        rw [b j hj.2 r]
        simp only
        rw [if_neg hj.1]
      · intro j hj
        rcases List.mem_cons.1 hj with rfl | hj
        · refine ⟨rp, rm, h1, h2, fun r => ?_⟩
          rw [b j hni r]
          simp only
          rw [if_pos trivial]
          rfl
        · exact c j hj
      · intro l hl
        rcases is with _ | ⟨k, is⟩
        · simp only [List.getLast?_singleton, Option.some.injEq] at hl
          subst hl
          rw [d rfl]
          exact h2
        · rw [List.getLast?_cons_cons] at hl
          exact e l hl

theorem peNumLoop_returns {call : List ℝ → Outcome (List PERow)} {x dx : List ℝ} (is : List ℕ) (s : PENum)
    (hd : ∀ i ∈ is, i < dx.length)
    (hc : ∀ c ∈ is, (∃ rp, call (x.set c (x.getD c 0 + peStep (dx.getD c 0))) = .ok rp) ∧
        ∃ rm, call (x.set c (x.getD c 0 - peStep (dx.getD c 0))) = .ok rm) : ∃ t, peNumLoop call x dx is s = .ok t := by
  induction is generalizing s with
  | nil => exact ⟨s, rfl⟩
  | cons i is ih =>
    obtain ⟨⟨rp, h1⟩, rm, h2⟩ := hc i List.mem_cons_self
    rw [peNumLoop, if_neg (by have := hd i List.mem_cons_self; omega)]
    simp only [h1, h2, Outcome.bind_ok]
    exact ih _ (fun j hj => hd j (List.mem_cons_of_mem _ hj)) fun j hj => hc j (List.mem_cons_of_mem _ hj)

section
variable {n q : ℕ} {m : EOS (Fin (n + 1))} {R : ℝ} {z : List ℝ} {ig : Option (EOS (Fin (n + 1)))} {specs : List PESpec} {x dx : List ℝ}

/-- The step of an unknown: the given one, or a millionth where it is zero. -/
theorem peStep_cases (d : ℝ) : (d ≠ 0 → peStep d = d) ∧ (d = 0 → peStep d = 1 / 10 ^ 6) ∧ peStep d ≠ 0 := by
  unfold peStep
  refine ⟨fun h => if_pos h, fun h => ?_, ?_⟩
  · rw [if_neg (by simpa using h)]
    norm_num
  · split
    · assumption
    · norm_num

/-- C162. A result holds the central difference quotients of the residuals, column by column; afterwards the buffers hold the system
at the last shifted state, in which the last unknown is lowered by its step. -/
theorem peNumJac_entries {t : PENum} (h : peNumJac (q := q) m R z ig specs x dx = .ok t) :
    x.length = peSize n q ∧ peSize n q ≤ dx.length ∧
      (∀ c < peSize n q, ∃ rp rm, peCall (q := q) m R z ig specs (x.set c (x.getD c 0 + peStep (dx.getD c 0))) = .ok rp ∧
        peCall (q := q) m R z ig specs (x.set c (x.getD c 0 - peStep (dx.getD c 0))) = .ok rm ∧
        ∀ r, t.J r c = ((rp.getD r noRow).1 - (rm.getD r noRow).1) / (2 * peStep (dx.getD c 0))) ∧
      peCall (q := q) m R z ig specs
        (x.set (peSize n q - 1) (x.getD (peSize n q - 1) 0 - peStep (dx.getD (peSize n q - 1) 0))) = .ok t.buf := by
  unfold peNumJac at h
  obtain ⟨r0, h0, h⟩ := Outcome.bind_eq_ok.1 h
  have hx : x.length = peSize n q := by
    by_contra hne
    rw [peCall_refuses z ig specs hne] at h0
    cases h0
  have hpos : 0 < peSize n q := by unfold peSize; omega
  obtain ⟨a, -, c, -, e⟩ := peNumLoop_inv _ List.nodup_range h
  refine ⟨hx, ?_, fun k hk => c k (List.mem_range.2 hk), e _ ?_⟩
  · have := a (peSize n q - 1) (List.mem_range.2 (by omega))
    omega
  · rw [List.getLast?_range, if_neg hpos.ne']

/-- C162. When the calculation succeeds at the state and at every shifted state, so does the numerical Jacobian. -/
theorem peNumJac_returns (hd : peSize n q ≤ dx.length) (h0 : ∃ r, peCall (q := q) m R z ig specs x = .ok r)
    (hc : ∀ c < peSize n q, (∃ rp, peCall (q := q) m R z ig specs (x.set c (x.getD c 0 + peStep (dx.getD c 0))) = .ok rp) ∧
        ∃ rm, peCall (q := q) m R z ig specs (x.set c (x.getD c 0 - peStep (dx.getD c 0))) = .ok rm) :
    ∃ t, peNumJac (q := q) m R z ig specs x dx = .ok t := by
  obtain ⟨r0, h0⟩ := h0
  unfold peNumJac
  rw [h0, Outcome.bind_ok]
  exact peNumLoop_returns _ _ (fun i hi => by have := List.mem_range.1 hi; omega) fun c hc' => hc c (List.mem_range.1 hc')

/-- C162. A state of another size is refused. -/
theorem peNumJac_refuses (m : EOS (Fin (n + 1))) (R : ℝ) (z : List ℝ) (ig : Option (EOS (Fin (n + 1)))) (specs : List PESpec) (dx : List ℝ)
    (h : x.length ≠ 1 + (n + 2) * (q + 1)) : peNumJac (q := q) m R z ig specs x dx = .throws .invalidArgument := by
  unfold peNumJac
  rw [peCall_refuses z ig specs h]
  rfl

/-- C162. The size of the steps is not checked: without steps the first one is read beyond the end. -/
theorem peNumJac_steps_unchecked (h0 : ∃ r, peCall (q := q) m R z ig specs x = .ok r) : peNumJac (q := q) m R z ig specs x [] = .ub := by
  obtain ⟨r0, h0⟩ := h0
  unfold peNumJac
  rw [h0, Outcome.bind_ok, show peSize n q = (n + 2) * (q + 1) + 1 by unfold peSize; ring, List.range_succ_eq_map, peNumLoop, if_pos]
  simp

/-! ## Shifted states -/

/-- The state with unknown `c` changed by `u`. -/
noncomputable def peShift (w : PhaseVars n q) (c : ℕ) (u : ℝ) : PhaseVars n q :=
  peUnpack n q (Function.update (pePack w) c (pePack w c + u))

theorem peVector_getD (w : PhaseVars n q) {c : ℕ} (hc : c < peSize n q) : (peVector w).getD c 0 = pePack w c := by
  unfold peVector
  rw [List.getD_eq_getElem?_getD, List.getElem?_map, List.getElem?_range hc]
  rfl

theorem peVector_set (w : PhaseVars n q) {c : ℕ} (hc : c < peSize n q) (u : ℝ) :
    (peVector w).set c ((peVector w).getD c 0 + u) = peVector (peShift w c u) := by
  rw [peVector_getD w hc]
  apply List.ext_getElem
  · simp [peVector]
  · intro i h1 h2
    have hi : i < peSize n q := by
      rw [peVector_length] at h2
      exact h2
    rw [List.getElem_set]
    have e : (peVector (peShift w c u))[i] = Function.update (pePack w) c (pePack w c + u) i := by
      rw [← pePack_unpack (Function.update (pePack w) c (pePack w c + u)) hi]
      simp only [peVector, List.getElem_map, List.getElem_range]
      rfl
    rw [e, Function.update_apply]
    by_cases hci : c = i
    · rw [if_pos hci, if_pos hci.symm]
    · rw [if_neg hci, if_neg (fun h => hci h.symm)]
      simp only [peVector, List.getElem_map, List.getElem_range]

theorem peShift_zero (w : PhaseVars n q) (c : ℕ) : peShift w c 0 = w := by
  unfold peShift
  rw [add_zero, Function.update_eq_self, peUnpack_pack]

theorem moves_shift (w : PhaseVars n q) (c : ℕ) : Moves (peShift w c) (peUnpack n q (Pi.single c 1)) 0 := by
  have key : ∀ i, HasDerivAt (fun u : ℝ => Function.update (pePack w) c (pePack w c + u) i) ((Pi.single c 1 : ℕ → ℝ) i) 0 := by
    intro i
    by_cases hi : i = c
    · subst hi
      simp only [Function.update_self, Pi.single_eq_same]
      exact (hasDerivAt_id 0).const_add _
    · simp only [Function.update_of_ne hi, Pi.single_eq_of_ne hi]
      exact hasDerivAt_const _ _
  exact ⟨key _, fun k => hasDerivAt_pi.2 fun j => key _, fun k => key _⟩

theorem rowDot_single (J : ℕ → ℝ) {c : ℕ} (hc : c < peSize n q) : rowDot J (peUnpack n q (Pi.single c 1)) = J c := by
  unfold rowDot
  rw [Finset.sum_congr rfl fun i hi => by rw [pePack_unpack _ (Finset.mem_range.1 hi)],
    Finset.sum_eq_single c]
  · simp
  · intro b _ hb
    rw [Pi.single_eq_of_ne hb, mul_zero]
  · intro h
    exact absurd (Finset.mem_range.2 hc) h

/-- A central difference quotient tends to the derivative. -/
theorem central_tendsto {g : ℝ → ℝ} {D d : ℝ} (hg : HasDerivAt g D 0) (hd : d ≠ 0) :
    Tendsto (fun t : ℝ => (g (t * d) - g (-(t * d))) / (2 * (t * d))) (𝓝[≠] 0) (𝓝 D) := by
  have h1 : HasDerivAt (fun t : ℝ => g (t * d)) (D * d) 0 := by
    have hi : HasDerivAt (fun t : ℝ => t * d) d 0 := by simpa using (hasDerivAt_id (0 : ℝ)).mul_const d
    exact HasDerivAt.comp (0 : ℝ) (by simpa using hg) hi
  have h2 : HasDerivAt (fun t : ℝ => g (-(t * d))) (D * -d) 0 := by
    have hi : HasDerivAt (fun t : ℝ => -(t * d)) (-d) 0 := by simpa using ((hasDerivAt_id (0 : ℝ)).mul_const d).fun_neg
    exact HasDerivAt.comp (0 : ℝ) (by simpa using hg) hi
  have h3 := (h1.sub h2).tendsto_slope
  have h4 := h3.div_const (2 * d)
  rw [show (D * d - D * -d) / (2 * d) = D by field_simp; ring] at h4
  refine h4.congr' ?_
  filter_upwards [self_mem_nhdsWithin] with t ht
  rw [slope_def_field]
  simp only [Pi.sub_apply, zero_mul, neg_zero, sub_self, sub_zero]
  field_simp

theorem peNumJac_limit_of {w0 : PhaseVars n q} {rows : List PERow} {L : ℕ} {D : ℕ → ℕ → ℝ}
    (h : peCall (q := q) m R z ig specs (peVector w0) = .ok rows)
    (hG : ∀ c, ∃ G : ℝ → List PERow, (∀ᶠ u in 𝓝 0, peCall (q := q) m R z ig specs (peVector (peShift w0 c u)) = .ok (G u)) ∧
      ∀ r < L, c < peSize n q → HasDerivAt (fun u => ((G u).getD r noRow).1) (D r c) 0)
    (d : List ℝ) (hd : d.length = peSize n q) (hd0 : (0 : ℝ) ∉ d) :
    ∃ N : ℝ → PENum, (∀ᶠ t in 𝓝[≠] (0 : ℝ), peNumJac (q := q) m R z ig specs (peVector w0) (d.map fun v => t * v) = .ok (N t)) ∧
      ∀ r < L, ∀ c < peSize n q, Tendsto (fun t => (N t).J r c) (𝓝[≠] 0) (𝓝 (D r c)) := by
  have hdc : ∀ c, c < peSize n q → d.getD c 0 ≠ 0 := fun c hc h0 => by
    have hc' : c < d.length := by omega
    rw [List.getD_eq_getElem?_getD, List.getElem?_eq_getElem hc', Option.getD_some] at h0
    exact hd0 (h0 ▸ List.getElem_mem hc')
  have hst : ∀ c, c < peSize n q → ∀ t : ℝ, t ≠ 0 → peStep ((d.map fun v => t * v).getD c 0) = t * d.getD c 0 := fun c hc t ht => by
    have hc' : c < d.length := by omega
    have e : (d.map fun v => t * v).getD c 0 = t * d.getD c 0 := by
      rw [List.getD_eq_getElem?_getD, List.getD_eq_getElem?_getD, List.getElem?_map, List.getElem?_eq_getElem hc']
      rfl
    rw [e]
    exact (peStep_cases _).1 (mul_ne_zero ht (hdc c hc))
  choose G hGe hGd using hG
  have hall : ∀ᶠ t in 𝓝[≠] (0 : ℝ), ∀ c ∈ Finset.range (peSize n q),
      peCall (q := q) m R z ig specs (peVector (peShift w0 c (t * d.getD c 0))) = .ok (G c (t * d.getD c 0)) ∧
      peCall (q := q) m R z ig specs (peVector (peShift w0 c (-(t * d.getD c 0)))) = .ok (G c (-(t * d.getD c 0))) := by
    rw [eventually_all_finset]
    intro c _
    have t1 : Tendsto (fun t : ℝ => t * d.getD c 0) (𝓝[≠] 0) (𝓝 0) := by
      have : Continuous fun t : ℝ => t * d.getD c 0 := by fun_prop
      simpa using (this.tendsto 0).mono_left nhdsWithin_le_nhds
    have t2 : Tendsto (fun t : ℝ => -(t * d.getD c 0)) (𝓝[≠] 0) (𝓝 0) := by simpa using t1.neg
    exact (t1.eventually (hGe c)).and (t2.eventually (hGe c))
  have hsub : ∀ c, c < peSize n q → ∀ u : ℝ, (peVector w0).set c ((peVector w0).getD c 0 - u) = peVector (peShift w0 c (-u)) :=
    fun c hc u => by rw [← peVector_set w0 hc, sub_eq_add_neg]
  have hex : ∀ t : ℝ, ∃ s : PENum, (∀ c ∈ Finset.range (peSize n q),
      peCall (q := q) m R z ig specs (peVector (peShift w0 c (t * d.getD c 0))) = .ok (G c (t * d.getD c 0)) ∧
      peCall (q := q) m R z ig specs (peVector (peShift w0 c (-(t * d.getD c 0)))) = .ok (G c (-(t * d.getD c 0)))) → t ≠ 0 →
      peNumJac (q := q) m R z ig specs (peVector w0) (d.map fun v => t * v) = .ok s := by
    intro t
    by_cases hp : (∀ c ∈ Finset.range (peSize n q),
      peCall (q := q) m R z ig specs (peVector (peShift w0 c (t * d.getD c 0))) = .ok (G c (t * d.getD c 0)) ∧
      peCall (q := q) m R z ig specs (peVector (peShift w0 c (-(t * d.getD c 0)))) = .ok (G c (-(t * d.getD c 0)))) ∧ t ≠ 0
    · obtain ⟨s, hs⟩ := peNumJac_returns (dx := d.map fun v => t * v) (by simp [hd]) ⟨rows, h⟩ fun c hc => by
        rw [hst c hc t hp.2, peVector_set w0 hc, hsub c hc]
        have := hp.1 c (Finset.mem_range.2 hc)
        exact ⟨⟨_, this.1⟩, _, this.2⟩
      exact ⟨s, fun _ _ => hs⟩
    · exact ⟨⟨fun _ _ => 0, []⟩, fun a b => absurd ⟨a, b⟩ hp⟩
  choose N hN using hex
  refine ⟨N, ?_, fun r hrr c hc => ?_⟩
  · filter_upwards [hall, self_mem_nhdsWithin] with t ht ht0
    exact hN t ht ht0
  · have hD := hGd c r hrr hc
    refine (central_tendsto hD (hdc c hc)).congr' ?_
    filter_upwards [hall, self_mem_nhdsWithin] with t ht ht0
    obtain ⟨-, -, hE, -⟩ := peNumJac_entries (hN t ht ht0)
    obtain ⟨rp, rm, h1, h2, h3⟩ := hE c hc
    rw [hst c hc t ht0, peVector_set w0 hc] at h1
    rw [hst c hc t ht0, hsub c hc] at h2
    have := ht c (Finset.mem_range.2 hc)
    rw [this.1] at h1
    rw [this.2] at h2
    cases h1
    cases h2
    rw [h3 r, hst c hc t ht0]

/-! ## The rows with their true derivatives -/

/-- The row of an equality of fugacities with the blocks of the two phases that it compares. -/
noncomputable def fugTrue (m : EOS (Fin (n + 1))) (R : ℝ) (k : Fin (q + 1)) (i : Fin (n + 1)) (w : PhaseVars n q) : PERow :=
  ((peFugRow m R w k i).1,
    setBlocks (q + 1)
      (fun j jc => (if j = 0 then peDlnfdrho m R w.T (w.rho 0) i jc else 0) - if j = k then peDlnfdrho m R w.T (w.rho k) i jc else 0)
      (Function.update (fun _ => 0) 0 (peDlnfdT m R w.T (w.rho 0) i - peDlnfdT m R w.T (w.rho k) i)))

/-- The row of an equality of pressures with the blocks of the two phases that it compares. -/
noncomputable def presTrue (m : EOS (Fin (n + 1))) (R : ℝ) (k : Fin (q + 1)) (w : PhaseVars n q) : PERow :=
  ((pePresRow m R w k).1,
    setBlocks (q + 1)
      (fun j jc => (if j = 0 then peDpdrho m R w.T (w.rho 0) jc else 0) - if j = k then peDpdrho m R w.T (w.rho k) jc else 0)
      (Function.update (fun _ => 0) 0 (peDpdT m R w.T (w.rho 0) - peDpdT m R w.T (w.rho k))))

theorem blocks_two (A B : Fin (n + 1) → ℝ) (k : Fin (q + 1)) (g : Fin (q + 1) → Fin (n + 1) → ℝ) :
    ∑ j : Fin (q + 1), ∑ jc, ((if (j : ℕ) = 0 then A jc else 0) - if (j : ℕ) = k then B jc else 0) * g j jc =
      ∑ jc, A jc * g 0 jc - ∑ jc, B jc * g k jc := by
  have e1 : ∑ j : Fin (q + 1), ∑ jc, (if (j : ℕ) = 0 then A jc else 0) * g j jc = ∑ jc, A jc * g 0 jc := by
    rw [Finset.sum_eq_single 0]
    · simp
    · intro b _ hb
      refine Finset.sum_eq_zero fun jc _ => ?_
      rw [if_neg (show ¬(b : ℕ) = 0 from fun h => hb (Fin.ext h)), zero_mul]
    · simp
  have e2 : ∑ j : Fin (q + 1), ∑ jc, (if (j : ℕ) = k then B jc else 0) * g j jc = ∑ jc, B jc * g k jc := by
    rw [Finset.sum_eq_single k]
    · simp
    · intro b _ hb
      refine Finset.sum_eq_zero fun jc _ => ?_
      rw [if_neg (fun h => hb (Fin.ext h)), zero_mul]
    · simp
  rw [← e1, ← e2, ← Finset.sum_sub_distrib]
  refine Finset.sum_congr rfl fun j _ => ?_
  rw [← Finset.sum_sub_distrib]
  exact Finset.sum_congr rfl fun jc _ => sub_mul _ _ _

theorem fugTrue_exact {w0 : PhaseVars n q} (hr : PERegular m ig R w0) (k : Fin (q + 1)) (i : Fin (n + 1)) :
    RowExact (fugTrue m R k i) w0 := by
  intro w v s hw hs
  subst hs
  simp only [fugTrue, peFugRow]
  rw [rowDot_blocks]
  have hRT := mul_pos hr.R_pos hr.T_pos
  refine ((peLnf_rate (hr.smooth 0) hRT hw.T (hw.rho 0) i (hr.rho_pos 0 i)).sub
    (peLnf_rate (hr.smooth k) hRT hw.T (hw.rho k) i (hr.rho_pos k i))).congr_deriv ?_
  rw [blocks_two (fun jc => peDlnfdrho m R (w s).T ((w s).rho 0) i jc) (fun jc => peDlnfdrho m R (w s).T ((w s).rho k) i jc) k v.rho]
  ring

theorem presTrue_exact {w0 : PhaseVars n q} (hr : PERegular m ig R w0) (k : Fin (q + 1)) : RowExact (presTrue m R k) w0 := by
  intro w v s hw hs
  subst hs
  simp only [presTrue, pePresRow]
  rw [rowDot_blocks]
  have hT := hr.T_pos.ne'
  refine ((peP_rate (hr.smooth 0) hr.R_eq hT hw.T (hw.rho 0)).sub
    (peP_rate (hr.smooth k) hr.R_eq hT hw.T (hw.rho k))).congr_deriv ?_
  rw [blocks_two (fun jc => peDpdrho m R (w s).T ((w s).rho 0) jc) (fun jc => peDpdrho m R (w s).T ((w s).rho k) jc) k v.rho]
  ring

/-- The rows that are always present, with their true derivatives. -/
noncomputable def commonTrue (m : EOS (Fin (n + 1))) (R : ℝ) (z : List ℝ) (w : PhaseVars n q) : List PERow :=
  ((List.finRange q).flatMap fun k => (List.finRange (n + 1)).map fun i => fugTrue m R k.succ i w) ++
  ((List.finRange q).map fun k => presTrue m R k.succ w) ++
  ((List.finRange n).map fun i : Fin n => peBalRow w (z.getD i.val 0) i.castSucc) ++ [peSumRow w]

theorem commonTrue_residuals (m : EOS (Fin (n + 1))) (R : ℝ) (z : List ℝ) (w : PhaseVars n q) :
    (commonTrue m R z w).map Prod.fst = (peCommonRows m R w z).map Prod.fst := by
  unfold commonTrue peCommonRows
  simp only [List.map_append, List.map_flatMap, List.map_map]
  rfl

theorem commonTrue_exact {w0 : PhaseVars n q} (hr : PERegular m ig R w0) (z : List ℝ) : RowsExact (commonTrue m R z) w0 := by
  unfold commonTrue
  exact RowsExact.append (RowsExact.append (RowsExact.append
    (RowsExact.flatMap _ fun k _ => RowsExact.map _ fun i _ => fugTrue_exact hr _ i)
    (RowsExact.map _ fun k _ => presTrue_exact hr _)) (RowsExact.map _ fun i _ => peBalRow_exact (fun k => (hr.smooth k).tot) _ _))
    (RowsExact.singleton (peSumRow_exact _))

theorem getD_fst {A B : List PERow} (h : A.map Prod.fst = B.map Prod.fst) (r : ℕ) : (A.getD r noRow).1 = (B.getD r noRow).1 := by
  have : ∀ C : List PERow, (C.getD r noRow).1 = (C.map Prod.fst).getD r 0 := fun C => by
    rw [List.getD_eq_getElem?_getD, List.getD_eq_getElem?_getD, List.getElem?_map]
    rcases C[r]? <;> rfl
  rw [this, this, h]

/-- C162. In every regular state in which `call` returns, the residuals have a Jacobian `D` (along every curve of states they change at the
rates it gives), and the numerical Jacobian tends to `D` as the steps are scaled down, whatever their proportions.  This holds
for every number of phases and components, also where the Jacobian of `call` is not `D`. -/
theorem peNumJac_limit {w0 : PhaseVars n q} (hr : PERegular m ig R w0) {rows : List PERow}
    (h : peCall (q := q) m R z ig specs (peVector w0) = .ok rows) :
    ∃ D : ℕ → ℕ → ℝ,
      (∀ (w : ℝ → PhaseVars n q) (v : PhaseVars n q) (s : ℝ), Moves w v s → w s = w0 →
        ∃ G : ℝ → List PERow, (∀ᶠ u in 𝓝 s, peCall (q := q) m R z ig specs (peVector (w u)) = .ok (G u)) ∧
          ∀ r < rows.length, HasDerivAt (fun u => ((G u).getD r noRow).1) (rowDot (D r) v) s) ∧
      ∀ d : List ℝ, d.length = peSize n q → (0 : ℝ) ∉ d →
        ∃ N : ℝ → PENum,
          (∀ᶠ t in 𝓝[≠] (0 : ℝ), peNumJac (q := q) m R z ig specs (peVector w0) (d.map fun v => t * v) = .ok (N t)) ∧
          ∀ r < rows.length, ∀ c < peSize n q, Tendsto (fun t => (N t).J r c) (𝓝[≠] 0) (𝓝 (D r c)) := by
  obtain ⟨hz, hub, -, ss, h1, h2⟩ := peCall_ok h
  obtain ⟨F, hF, hE⟩ := peSpecRows_exact hr specs h1
  obtain ⟨N, hN, hX⟩ := (commonTrue_exact hr z).append hE
  have hss : ss = F w0 := by
    have := hF w0
    rw [h1] at this
    injection this
  subst hss
  have hlen : rows.length = N := by
    rw [h2, ← hN w0]
    have := congrArg List.length (commonTrue_residuals m R z w0)
    simp only [List.length_map] at this
    rw [List.length_append, List.length_append, this]
  have hres : ∀ (w : PhaseVars n q) (r : ℕ),
      ((commonTrue m R z w ++ F w).getD r noRow).1 = ((peCommonRows m R w z ++ F w).getD r noRow).1 := fun w r =>
    getD_fst (by rw [List.map_append, List.map_append, commonTrue_residuals]) r
  have hcurve : ∀ (w : ℝ → PhaseVars n q) (v : PhaseVars n q) (s : ℝ), Moves w v s → w s = w0 →
        ∃ G : ℝ → List PERow, (∀ᶠ u in 𝓝 s, peCall (q := q) m R z ig specs (peVector (w u)) = .ok (G u)) ∧
          ∀ r < rows.length, HasDerivAt (fun u => ((G u).getD r noRow).1)
            (rowDot ((commonTrue m R z w0 ++ F w0).getD r noRow).2 v) s := by
    intro w v s hw hs
    refine ⟨fun u => peCommonRows m R (w u) z ++ F (w u), ?_, fun r hrr => ?_⟩
    · filter_upwards [peSingular_near hr hw hs] with u hu
      unfold peCall
      rw [if_neg (by rw [peVector_length]; simp), if_neg (by push Not at hub ⊢; exact ⟨hub, hz⟩), peVector_unpack]
      simp only
      rw [hF, Outcome.bind_ok, if_neg hu]
    · have := hX r (by omega) w v s hw hs
      simp only [hres] at this
      exact this
  refine ⟨fun r => ((commonTrue m R z w0 ++ F w0).getD r noRow).2, hcurve, fun d hd hd0 => peNumJac_limit_of h (fun c => ?_) d hd hd0⟩
  obtain ⟨G, g1, g2⟩ := hcurve _ _ _ (moves_shift w0 c) (peShift_zero w0 c)
  refine ⟨G, g1, fun r hrr hc => ?_⟩
  have := g2 r hrr
  rwa [rowDot_single _ hc] at this

/-- C162. Where the Jacobian of `call` is exact (C46), the numerical one tends to it. -/
theorem peNumJac_limit_call {w0 : PhaseVars n q} (hnq : q = 0 ∨ (q = 1 ∧ n = 1)) (hr : PERegular m ig R w0) {rows : List PERow}
    (h : peCall (q := q) m R z ig specs (peVector w0) = .ok rows) (d : List ℝ) (hd : d.length = peSize n q) (hd0 : (0 : ℝ) ∉ d) :
    ∃ N : ℝ → PENum, (∀ᶠ t in 𝓝[≠] (0 : ℝ), peNumJac (q := q) m R z ig specs (peVector w0) (d.map fun v => t * v) = .ok (N t)) ∧
      ∀ r < rows.length, ∀ c < peSize n q, Tendsto (fun t => (N t).J r c) (𝓝[≠] 0) (𝓝 ((rows.getD r noRow).2 c)) := by
  refine peNumJac_limit_of (D := fun r => (rows.getD r noRow).2) h (fun c => ?_) d hd hd0
  obtain ⟨G, -, g1, g2⟩ := peCall_jacobian_partial hnq hr h (moves_shift w0 c) (peShift_zero w0 c)
  refine ⟨G, g1, fun r hrr hc => ?_⟩
  have := g2 r hrr
  rwa [rowDot_single _ hc] at this

/-! ## The sum of the phase fractions -/

theorem sumRow_at {w : PhaseVars n q} {rows : List PERow} (h : peCall (q := q) m R z ig specs (peVector w) = .ok rows) :
    (rows.getD (q * (n + 1) + q + n) noRow).1 = ∑ k, w.beta k - 1 := by
  obtain ⟨-, -, -, ss, -, rfl⟩ := peCall_ok h
  have hl : ((((List.finRange q).flatMap fun k => (List.finRange (n + 1)).map fun i => peFugRow m R w k.succ i) ++
      ((List.finRange q).map fun k => pePresRow m R w k.succ) ++
      ((List.finRange n).map fun i : Fin n => peBalRow w (z.getD i.val 0) i.castSucc))).length = q * (n + 1) + q + n := by
    simp [List.length_flatMap]
    ring
  unfold peCommonRows
  rw [List.getD_eq_getElem?_getD, List.append_assoc, List.getElem?_append_right (by rw [hl]), hl, Nat.sub_self]
  rfl

theorem peShift_beta (w : PhaseVars n q) (c : ℕ) (u : ℝ) (k : Fin (q + 1)) :
    (peShift w c u).beta k = w.beta k + if c = peSize n q - (q + 1) + k then u else 0 := by
  have e : w.beta k = pePack w (peSize n q - (q + 1) + k) := by
    conv_lhs => rw [← peUnpack_pack w]
    rfl
  show Function.update (pePack w) c (pePack w c + u) (peSize n q - (q + 1) + k) = _
  rw [e, Function.update_apply]
  by_cases h : c = peSize n q - (q + 1) + k
  · rw [if_pos h.symm, if_pos h, h]
  · rw [if_neg (fun h' => h h'.symm), if_neg h, add_zero]

theorem peShift_sum (w : PhaseVars n q) {c : ℕ} (hc : c < peSize n q) (u : ℝ) :
    ∑ k, (peShift w c u).beta k = ∑ k, w.beta k + if peSize n q - (q + 1) ≤ c then u else 0 := by
  simp only [peShift_beta, Finset.sum_add_distrib]
  congr 1
  by_cases h : peSize n q - (q + 1) ≤ c
  · rw [if_pos h, Finset.sum_eq_single ⟨c - (peSize n q - (q + 1)), by omega⟩]
    · rw [if_pos (by simp only; omega)]
    · intro b _ hb
      rw [if_neg]
      intro he
      apply hb
      apply Fin.ext
      simp only
      omega
    · simp
  · rw [if_neg h]
    refine Finset.sum_eq_zero fun b _ => ?_
    rw [if_neg (by omega)]

/-- C162. The row of the sum of the phase fractions is right for every choice of steps: one for the fractions, zero for the other
unknowns. -/
theorem peNumJac_sum {w : PhaseVars n q} {t : PENum} (h : peNumJac (q := q) m R z ig specs (peVector w) dx = .ok t) {c : ℕ}
    (hc : c < peSize n q) : t.J (q * (n + 1) + q + n) c = if peSize n q - (q + 1) ≤ c then 1 else 0 := by
  obtain ⟨-, -, hE, -⟩ := peNumJac_entries h
  obtain ⟨rp, rm, h1, h2, h3⟩ := hE c hc
  rw [peVector_set w hc] at h1
  rw [sub_eq_add_neg, peVector_set w hc] at h2
  rw [h3, sumRow_at h1, sumRow_at h2, peShift_sum w hc, peShift_sum w hc]
  have := (peStep_cases (dx.getD c 0)).2.2
  split
  · field_simp
    ring
  · simp

/-- C162. Afterwards the buffers do not hold the system at the given state: the stored sum of the phase fractions is too small by the last
step. -/
theorem peNumJac_buffer {w : PhaseVars n q} {t : PENum} {rows : List PERow} (h : peNumJac (q := q) m R z ig specs (peVector w) dx = .ok t)
    (h0 : peCall (q := q) m R z ig specs (peVector w) = .ok rows) :
    (t.buf.getD (q * (n + 1) + q + n) noRow).1 =
        (rows.getD (q * (n + 1) + q + n) noRow).1 - peStep (dx.getD (peSize n q - 1) 0) ∧ t.buf ≠ rows := by
  have hpos : peSize n q - 1 < peSize n q := by unfold peSize; omega
  obtain ⟨-, -, -, hb⟩ := peNumJac_entries h
  rw [sub_eq_add_neg, peVector_set w hpos] at hb
  have e : (t.buf.getD (q * (n + 1) + q + n) noRow).1 =
        (rows.getD (q * (n + 1) + q + n) noRow).1 - peStep (dx.getD (peSize n q - 1) 0) := by
    rw [sumRow_at hb, sumRow_at h0, peShift_sum w hpos, if_pos (by unfold peSize; omega)]
    ring
  refine ⟨e, fun he => ?_⟩
  rw [he] at e
  have := (peStep_cases (dx.getD (peSize n q - 1) 0)).2.2
  exact this (by linarith)

end

/-! ## Two phases of a pure fluid -/

/-- C162. With two phases of a pure ideal gas the two Jacobians disagree for every choice of steps: the derivative of the equality of
fugacities with respect to the density of the second phase is zero in the one of `call` and negative in the numerical one. -/
theorem peNumJac_disagrees {w : PhaseVars 0 1} {z : List ℝ} {ig : Option (EOS (Fin 1))} {specs : List PESpec} {dx : List ℝ} {t : PENum}
    {rows : List PERow} (hT : 0 < w.T) (h0 : peCall (q := 1) (idealEOS 0) 1 z ig specs (peVector w) = .ok rows)
    (h : peNumJac (q := 1) (idealEOS 0) 1 z ig specs (peVector w) dx = .ok t) : (rows.getD 0 noRow).2 2 = 0 ∧ t.J 0 2 < 0 := by
  have row0 : ∀ {w' : PhaseVars 0 1} {rows : List PERow}, peCall (q := 1) (idealEOS 0) 1 z ig specs (peVector w') = .ok rows →
      rows.getD 0 noRow = peFugRow (idealEOS 0) 1 w' 1 0 ∧ ¬peSingular 1 w' := by
    intro w' rows h
    obtain ⟨-, -, hs, ss, -, rfl⟩ := peCall_ok h
    exact ⟨rfl, hs⟩
  constructor
  · rw [(row0 h0).1]
    simp [peFugRow, setBlocks, setBlock]
  · obtain ⟨-, -, hE, -⟩ := peNumJac_entries h
    obtain ⟨rp, rm, h1, h2, h3⟩ := hE 2 (by decide)
    have hne := (peStep_cases (dx.getD 2 0)).2.2
    set s := peStep (dx.getD 2 0) with hs
    rw [peVector_set w (by decide)] at h1
    rw [sub_eq_add_neg, peVector_set w (by decide)] at h2
    have e0 : ∀ u, (peShift w 2 u).rho 0 0 = w.rho 0 0 := fun u => by
      have : w.rho 0 0 = pePack w 1 := by
        conv_lhs => rw [← peUnpack_pack w]
        rfl
      rw [this]
      show Function.update (pePack w) 2 (pePack w 2 + u) 1 = _
      rw [Function.update_of_ne (by decide)]
    have e1 : ∀ u, (peShift w 2 u).rho 1 0 = w.rho 1 0 + u := fun u => by
      have : w.rho 1 0 = pePack w 2 := by
        conv_lhs => rw [← peUnpack_pack w]
        rfl
      rw [this]
      show Function.update (pePack w) 2 (pePack w 2 + u) 2 = _
      rw [Function.update_self]
    have eT : ∀ u, (peShift w 2 u).T = w.T := fun u => by
      have : w.T = pePack w 0 := by
        conv_lhs => rw [← peUnpack_pack w]
        rfl
      rw [this]
      show Function.update (pePack w) 2 (pePack w 2 + u) 0 = _
      rw [Function.update_of_ne (by decide)]
    have hpos : ∀ u, ¬peSingular 1 (peShift w 2 u) → 0 < w.rho 1 0 + u := fun u hu => by
      by_contra hle
      apply hu
      refine Or.inr (Or.inr ⟨one_pos, 1, 0, ?_⟩)
      rw [e1, eT, mul_one]
      exact mul_nonpos_of_nonpos_of_nonneg (not_lt.1 hle) hT.le
    have p1 := hpos _ (row0 h1).2
    have p2 := hpos _ (row0 h2).2
    have hg : ∀ ρ : Fin 1 → ℝ, gradPsir (idealEOS 0) w.T ρ 0 = 0 := fun ρ => by
      have e : Psir (idealEOS 0) w.T = fun _ => 0 := by
        funext r
        simp [Psir, idealEOS]
      simp [gradPsir, partialD, e]
    rw [h3, (row0 h1).1, (row0 h2).1]
    simp only [peFugRow, peLnf, eT, e0, e1, hg, mul_zero, add_zero, mul_one]
    rw [Real.log_mul p1.ne' hT.ne', Real.log_mul p2.ne' hT.ne']
    rcases lt_or_gt_of_ne hne with hn | hp
    · have := Real.log_lt_log p1 (by linarith : w.rho 1 0 + s < w.rho 1 0 + -s)
      exact div_neg_of_pos_of_neg (by linarith) (by linarith)
    · have := Real.log_lt_log p2 (by linarith : w.rho 1 0 + -s < w.rho 1 0 + s)
      exact div_neg_of_neg_of_pos (by linarith) (by linarith)

/-! ## Samples -/

theorem peShift_near {n q : ℕ} (w : PhaseVars n q) (c : ℕ) (u : ℝ) :
    w.T - |u| ≤ (peShift w c u).T ∧ ∀ k j, w.rho k j - |u| ≤ (peShift w c u).rho k j := by
  have key : ∀ i, pePack w i - |u| ≤ Function.update (pePack w) c (pePack w c + u) i := fun i => by
    by_cases h : i = c
    · subst h
      rw [Function.update_self]
      linarith [neg_abs_le u]
    · rw [Function.update_of_ne h]
      linarith [abs_nonneg u]
  have hT : w.T = pePack w 0 := by
    conv_lhs => rw [← peUnpack_pack w]
    rfl
  have hρ : ∀ (k : Fin (q + 1)) (j : Fin (n + 1)), w.rho k j = pePack w (1 + k * (n + 1) + j) := fun k j => by
    conv_lhs => rw [← peUnpack_pack w]
    rfl
  refine ⟨?_, fun k j => ?_⟩
  · rw [hT]
    exact key 0
  · rw [hρ]
    exact key _

/-- Steps smaller than the temperature and the concentrations give a numerical Jacobian of a mixture of ideal gases. -/
theorem ideal_numJac {n q : ℕ} (w : PhaseVars n q) (z dx : List ℝ) (specs : List PESpec) (hq : q = 0 ∨ n ≤ q) (hz : n ≤ z.length)
    (hs : ∀ sp ∈ specs, PESpecUsable n q none sp) (hd : peSize n q ≤ dx.length) (h0 : ∀ d ∈ dx, |d| ≤ 1 / 10) (hT : 1 / 10 < w.T)
    (hρ : ∀ k i, 1 / 10 < w.rho k i) :
    (∃ rows, peCall (q := q) (idealEOS n) 1 z none specs (peVector w) = .ok rows) ∧
      ∃ t, peNumJac (q := q) (idealEOS n) 1 z none specs (peVector w) dx = .ok t := by
  have hst : ∀ c, |peStep (dx.getD c 0)| ≤ 1 / 10 := fun c => by
    by_cases h : dx.getD c 0 = 0
    · rw [(peStep_cases _).2.1 h]
      norm_num [abs_of_pos]
    · rw [(peStep_cases _).1 h]
      refine h0 _ ?_
      rw [List.getD_eq_getElem?_getD] at h ⊢
      rcases hc : dx[c]? with _ | v
      · rw [hc] at h
        exact absurd rfl h
      · exact List.mem_of_getElem? hc
  have hcall : ∀ c u, |u| ≤ 1 / 10 → ∃ rows, peCall (q := q) (idealEOS n) 1 z none specs (peVector (peShift w c u)) = .ok rows :=
    fun c u hu => by
      obtain ⟨a, b⟩ := peShift_near w c u
      exact (peCall_returns (ideal_regular (by linarith) fun k i => by linarith [b k i, hρ k i]) z specs).2 ⟨hq, hz, hs⟩
  have hw : ∃ rows, peCall (q := q) (idealEOS n) 1 z none specs (peVector w) = .ok rows := by
    have := hcall 0 0 (by norm_num)
    rwa [peShift_zero] at this
  refine ⟨hw, peNumJac_returns hd hw fun c hc => ?_⟩
  rw [sub_eq_add_neg, peVector_set w hc, peVector_set w hc]
  exact ⟨hcall _ _ (hst c), hcall _ _ (by rw [abs_neg]; exact hst c)⟩

/-- Two phases of a pure gas with two of the steps zero. -/
example : ∃ rows t, peCall (q := 1) (idealEOS 0) 1 [1] none [.T 1, .beta (1 / 2) 0]
      (peVector (⟨1, ![![1], ![2]], ![1 / 2, 1 / 2]⟩ : PhaseVars 0 1)) = .ok rows ∧
    peNumJac (q := 1) (idealEOS 0) 1 [1] none [.T 1, .beta (1 / 2) 0]
      (peVector (⟨1, ![![1], ![2]], ![1 / 2, 1 / 2]⟩ : PhaseVars 0 1)) [1 / 100, 0, 1 / 50, 1 / 10, 0] = .ok t ∧
    (rows.getD 0 noRow).2 2 = 0 ∧ t.J 0 2 < 0 ∧ t.J 2 3 = 1 ∧ t.J 2 2 = 0 ∧ (t.buf.getD 2 noRow).1 = -(1 / 10 ^ 6) := by
  obtain ⟨⟨rows, h1⟩, t, h2⟩ := ideal_numJac (⟨1, ![![1], ![2]], ![1 / 2, 1 / 2]⟩ : PhaseVars 0 1) [1] [1 / 100, 0, 1 / 50, 1 / 10, 0]
    [.T 1, .beta (1 / 2) 0] (Or.inr (by decide)) (by norm_num) (by simp [PESpecUsable]) (by decide)
    (by
      intro d hd
      simp only [List.mem_cons, List.not_mem_nil, or_false] at hd
      rcases hd with rfl | rfl | rfl | rfl | rfl <;> norm_num [abs_of_pos])
    (by norm_num) (by intro k i; fin_cases k <;> fin_cases i <;> norm_num)
  obtain ⟨a, b⟩ := peNumJac_disagrees (by norm_num) h1 h2
  have c := peNumJac_sum h2 (c := 3) (by decide)
  have d := peNumJac_sum h2 (c := 2) (by decide)
  have e := (peNumJac_buffer h2 h1).1
  rw [sumRow_at h1, show peSize 0 1 - 1 = 4 by decide] at e
  refine ⟨rows, t, h1, h2, a, b, c.trans (if_pos (by decide)), d.trans (if_neg (by decide)), e.trans ?_⟩
  rw [(peStep_cases _).2.1 (by norm_num), Fin.sum_univ_two]
  norm_num

/-- The sample of C46 with steps in any proportion. -/
example : ∃ rows, peCall (q := 1) (idealEOS 1) 1 [3 / 8, 5 / 8] (some (sampleIdeal 1)) [.p 8, .s 1] (peVector samplePhases) = .ok rows ∧
    ∃ N : ℝ → PENum, ∀ r < 7, ∀ c < 7, Tendsto (fun t => (N t).J r c) (𝓝[≠] 0) (𝓝 ((rows.getD r noRow).2 c)) := by
  obtain ⟨rows, h⟩ := (peCall_returns samplePhases_regular [3 / 8, 5 / 8] [.p 8, .s 1]).mpr
    ⟨Or.inr le_rfl, by norm_num, by simp [PESpecUsable]⟩
  obtain ⟨N, -, hN⟩ := peNumJac_limit_call (Or.inr ⟨rfl, rfl⟩) samplePhases_regular h [1, 1, 2, 1, 1, -1, 3] rfl (by norm_num)
  have hl : rows.length = 7 := by
    rw [peCall_square rfl h, peVector_length]
    rfl
  exact ⟨rows, h, N, fun r hr c hc => hN r (by omega) c hc⟩

example (m : EOS (Fin 1)) (z dx : List ℝ) : peNumJac (q := 1) m 1 z none [.T 1, .p 1] [300, 1, 2] dx = .throws .invalidArgument :=
  peNumJac_refuses m 1 z none _ dx (by norm_num)

example : ∃ x, peNumJac (q := 1) (idealEOS 0) 1 [1] none [.T 1, .beta (1 / 2) 0] x [] = .ub := by
  obtain ⟨h1, -⟩ := ideal_numJac (⟨1, ![![1], ![2]], ![1 / 2, 1 / 2]⟩ : PhaseVars 0 1) [1] [0, 0, 0, 0, 0]
    [.T 1, .beta (1 / 2) 0] (Or.inr (by decide)) (by norm_num) (by simp [PESpecUsable]) (by decide) (by simp)
    (by norm_num) (by intro k i; fin_cases k <;> fin_cases i <;> norm_num)
  exact ⟨_, peNumJac_steps_unchecked h1⟩

/-- Two phases of a pure gas, where the Jacobian of `call` is not exact. -/
example : ∃ (D : ℕ → ℕ → ℝ) (N : ℝ → PENum), ∀ r < 5, ∀ c < 5, Tendsto (fun t => (N t).J r c) (𝓝[≠] 0) (𝓝 (D r c)) := by
  obtain ⟨⟨rows, h1⟩, -⟩ := ideal_numJac (⟨1, ![![1], ![2]], ![1 / 2, 1 / 2]⟩ : PhaseVars 0 1) [1] [0, 0, 0, 0, 0]
    [.T 1, .beta (1 / 2) 0] (Or.inr (by decide)) (by norm_num) (by simp [PESpecUsable]) (by decide) (by simp)
    (by norm_num) (by intro k i; fin_cases k <;> fin_cases i <;> norm_num)
  obtain ⟨D, -, hD⟩ := peNumJac_limit (ideal_regular (by norm_num) (by intro k i; fin_cases k <;> fin_cases i <;> norm_num)) h1
  obtain ⟨N, -, hN⟩ := hD [1, 2, 3, 4, 5] rfl (by norm_num)
  have hl : rows.length = 5 := by
    rw [peCall_square rfl h1, peVector_length]
    rfl
  exact ⟨D, N, fun r hr c hc => hN r (by omega) c hc⟩

end Teqp.Props
