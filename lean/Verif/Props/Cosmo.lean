import Verif.Props.CosmoSeg
import Verif.Props.Factory
import Mathlib.Data.List.GetD
import Mathlib.Tactic

/-! # COSMO-SAC: the window of the fast branch, mixtures of equal fluids, the combinatorial part and documents -/

set_option autoImplicit false

namespace Teqp.Spec

/-- The expression of Staverman and Guggenheim for amounts `n` of `N` components. -/
noncomputable def staverman (N : ℕ) (r q n : ℕ → ℝ) : ℝ :=
  ∑ i ∈ Finset.range N, n i * (Real.log (r i * (∑ j ∈ Finset.range N, n j) / ∑ j ∈ Finset.range N, n j * r j)
    + 5 * q i * Real.log ((q i / ∑ j ∈ Finset.range N, n j * q j) / (r i / ∑ j ∈ Finset.range N, n j * r j)))

end Teqp.Spec

namespace Teqp.Props
open Teqp.Model Teqp.Spec Finset

/-! ## Energies -/

/-- The factors of exchange are positive and symmetric. -/
theorem cosmo_kernel (c : CosmoConsts) (T : ℝ) (a b : CSeg) : 0 < c.K T a b ∧ c.K T a b = c.K T b a := by
  refine ⟨Real.exp_pos _, ?_⟩
  have h1 : c.chb a.1 b.1 = c.chb b.1 a.1 := by
    unfold CosmoConsts.chb
    cases a.1 <;> cases b.1 <;> simp
  unfold CosmoConsts.K CosmoConsts.deltaW
  rw [h1, mul_comm (cosmoSigma a.2) (cosmoSigma b.2), add_comm (cosmoSigma a.2) (cosmoSigma b.2)]
  congr 3
  ring_nf

/-- Segments of opposite charge have a hydrogen bond when both are OH or "other"; the energy is that of the three constants. -/
theorem cosmo_bond (c : CosmoConsts) (T : ℝ) (a b : CSeg) :
    (0 ≤ cosmoSigma a.2 * cosmoSigma b.2 ∨ a.1 = .nhb ∨ b.1 = .nhb →
      c.deltaW T a b = (c.AES + c.BES / T ^ 2) * (cosmoSigma a.2 + cosmoSigma b.2) ^ 2) ∧
    (cosmoSigma a.2 * cosmoSigma b.2 < 0 → ∀ k, (a.1, b.1, k) ∈ [(CType.oh, CType.oh, c.cOHOH), (.ot, .ot, c.cOTOT), (.oh, .ot, c.cOHOT), (.ot, .oh, c.cOHOT)] →
      c.deltaW T a b = (c.AES + c.BES / T ^ 2) * (cosmoSigma a.2 + cosmoSigma b.2) ^ 2 - k * (cosmoSigma a.2 - cosmoSigma b.2) ^ 2) := by
  constructor
  · intro h
    unfold CosmoConsts.deltaW
    have : (if 0 ≤ cosmoSigma a.2 * cosmoSigma b.2 then 0 else c.chb a.1 b.1) = 0 := by
      rcases h with h | h | h
      · rw [if_pos h]
      · unfold CosmoConsts.chb; rw [h]; split_ifs <;> simp_all
      · unfold CosmoConsts.chb; rw [h]; split_ifs <;> simp_all
    rw [this]; ring
  · intro h k hk
    unfold CosmoConsts.deltaW
    rw [if_neg (not_le.2 h)]
    have : c.chb a.1 b.1 = k := by
      simp only [List.mem_cons, List.not_mem_nil, or_false, Prod.mk.injEq] at hk
      unfold CosmoConsts.chb
      rcases hk with ⟨ha, hb, hk⟩ | ⟨ha, hb, hk⟩ | ⟨ha, hb, hk⟩ | ⟨ha, hb, hk⟩ <;> rw [ha, hb, hk] <;> simp
    rw [this]; ring

/-- The factors of exchange are Boltzmann factors of the energies at the temperature of the call. -/
theorem cosmo_boltzmann (c : CosmoConsts) (T : ℝ) (a b : CSeg) (hR : c.R ≠ 0) (hT : T ≠ 0) : c.R * T * Real.log (c.K T a b) = -c.deltaW T a b := by
  unfold CosmoConsts.K
  rw [Real.log_exp]
  field_simp

example : ({} : CosmoConsts).R * 300 * Real.log (({} : CosmoConsts).K 300 (.nhb, 25) (.nhb, 25)) = 0 := by
  rw [cosmo_boltzmann _ _ _ _ (by norm_num) (by norm_num)]
  unfold CosmoConsts.deltaW cosmoSigma
  norm_num

/-- The energies do not change when all charges change sign. -/
theorem cosmo_charge_reversal (c : CosmoConsts) (T : ℝ) (a b : CSeg) :
    c.deltaW T (a.1, a.2.rev) (b.1, b.2.rev) = c.deltaW T a b := by
  have h : ∀ m : Fin 51, cosmoSigma m.rev = -cosmoSigma m := by
    intro m
    unfold cosmoSigma
    have h1 : ((m.rev : ℕ) : ℝ) = 50 - (m : ℕ) := by
      rw [Fin.val_rev, Nat.cast_sub (by omega)]; push_cast; ring
    rw [h1]; norm_num; ring
  unfold CosmoConsts.deltaW
  simp only [h, neg_mul_neg]
  congr 1
  · ring
  · congr 1; ring

example : cosmoSigma 0 = -0.025 ∧ cosmoSigma 25 = 0 ∧ cosmoSigma 50 = 0.025 := by
  refine ⟨?_, ?_, ?_⟩ <;> · unfold cosmoSigma; norm_num

/-! ## The window -/

theorem cosmoSeen_eq (A p : ℝ) (hA : A ≠ 0) : (cosmoSeen A p = true ↔ 1e-16 < |p / A|) ∧ (cosmoSeen A p = false ↔ |p / A| ≤ 1e-16) := by
  unfold cosmoSeen
  rw [if_neg hA]
  constructor
  · simp
  · simp

/-- The first loop stops at or before any entry that counts. -/
theorem cosmoLeft_le (A : ℝ) (l : List ℝ) (k : ℕ) (hk : k < l.length) (hs : cosmoSeen A (l.getD k 0) = true) : cosmoLeft A l ≤ k := by
  unfold cosmoLeft
  rw [List.getD_eq_getElem l 0 hk] at hs
  cases h : l.findIdx? (cosmoSeen A) with
  | none =>
    rw [List.findIdx?_eq_none_iff] at h
    exact absurd hs (by simp [h _ (List.getElem_mem hk)])
  | some j =>
    rw [List.findIdx?_eq_some_iff_getElem] at h
    obtain ⟨hj, -, hmin⟩ := h
    simp only [Option.getD_some]
    by_contra hcon
    exact absurd hs (by simpa using hmin k (by omega))

theorem cosmoScan_some (A : ℝ) (l : List ℝ) (left n j : ℕ) (h : cosmoScan A l left n = some j) :
    left < j ∧ j ≤ n ∧ cosmoSeen A (l.getD j 0) = true ∧ ∀ i, j < i → i ≤ n → cosmoSeen A (l.getD i 0) = false := by
  induction n with
  | zero => simp [cosmoScan] at h
  | succ n ih =>
    unfold cosmoScan at h
    split_ifs at h with h1 h2
    · injection h with h; subst h
      exact ⟨h1, le_rfl, h2, fun i hi hi' => by omega⟩
    · obtain ⟨a, b, c, d⟩ := ih h
      refine ⟨a, by omega, c, fun i hi hi' => ?_⟩
      rcases Nat.lt_or_ge i (n + 1) with hlt | hge
      · exact d i hi (by omega)
      · rw [show i = n + 1 by omega]; simpa using h2

theorem cosmoScan_none (A : ℝ) (l : List ℝ) (left n : ℕ) (h : cosmoScan A l left n = none) (i : ℕ) (hi : left < i) (hn : i ≤ n) :
    cosmoSeen A (l.getD i 0) = false := by
  induction n with
  | zero => omega
  | succ n ih =>
    unfold cosmoScan at h
    split_ifs at h with h1 h2
    · rcases Nat.lt_or_ge i (n + 1) with hlt | hge
      · exact ih h (by omega)
      · rw [show i = n + 1 by omega]; simpa using h2
    · omega

/-- The second loop stops at or after any entry that counts. -/
theorem cosmoRight_ge (A : ℝ) (l : List ℝ) (k : ℕ) (hk : k < l.length) (hs : cosmoSeen A (l.getD k 0) = true) : k ≤ cosmoRight A l := by
  unfold cosmoRight
  cases h : cosmoScan A l (cosmoLeft A l) (l.length - 1) with
  | none => simp only [Option.getD_none]; omega
  | some j =>
    simp only [Option.getD_some]
    by_contra hcon
    have := (cosmoScan_some A l _ _ j h).2.2.2 k (by omega) (by omega)
    rw [hs] at this; exact absurd this (by simp)

/-- A profile with at most one entry that counts has its right end behind its last element. -/
theorem cosmoRight_single (A : ℝ) (l : List ℝ) (h : ∀ i j, i < j → j < l.length → cosmoSeen A (l.getD i 0) = true → cosmoSeen A (l.getD j 0) = false) :
    cosmoRight A l = l.length := by
  unfold cosmoRight
  cases hsc : cosmoScan A l (cosmoLeft A l) (l.length - 1) with
  | none => rfl
  | some j =>
    exfalso
    obtain ⟨a, b, c, -⟩ := cosmoScan_some A l _ _ j hsc
    have hj : j < l.length := by omega
    have hleft : cosmoSeen A (l.getD (cosmoLeft A l) 0) = true := by
      unfold cosmoLeft
      cases h : l.findIdx? (cosmoSeen A) with
      | none =>
        rw [List.findIdx?_eq_none_iff] at h
        rw [List.getD_eq_getElem l 0 hj] at c
        exact absurd c (by simp [h _ (List.getElem_mem hj)])
      | some i =>
        rw [List.findIdx?_eq_some_iff_getElem] at h
        obtain ⟨hi, hs, -⟩ := h
        simp only [Option.getD_some]
        rw [List.getD_eq_getElem l 0 hi]; exact hs
    have := h _ j a hj hleft
    rw [c] at this; exact absurd this (by simp)

/-- The bounds enclose those of all fluids. -/
theorem cosmoBounds_spec (fs : List (CosmoFluid × ℝ)) (l r : ℕ) :
    (cosmoBounds fs (l, r)).1 ≤ l ∧ r ≤ (cosmoBounds fs (l, r)).2 ∧
    ∀ e ∈ fs, (cosmoBounds fs (l, r)).1 ≤ cosmoLeft e.2 e.1.nhb ∧ cosmoRight e.2 e.1.nhb ≤ (cosmoBounds fs (l, r)).2 := by
  induction fs generalizing l r with
  | nil => exact ⟨le_rfl, le_rfl, fun e he => absurd he (by simp)⟩
  | cons a fs ih =>
    obtain ⟨f, A⟩ := a
    unfold cosmoBounds
    obtain ⟨h1, h2, h3⟩ := ih (if cosmoLeft A f.nhb < l then cosmoLeft A f.nhb else l) (if r < cosmoRight A f.nhb then cosmoRight A f.nhb else r)
    have hl : (if cosmoLeft A f.nhb < l then cosmoLeft A f.nhb else l) ≤ l ∧ (if cosmoLeft A f.nhb < l then cosmoLeft A f.nhb else l) ≤ cosmoLeft A f.nhb := by
      split_ifs <;> omega
    have hr : r ≤ (if r < cosmoRight A f.nhb then cosmoRight A f.nhb else r) ∧ cosmoRight A f.nhb ≤ (if r < cosmoRight A f.nhb then cosmoRight A f.nhb else r) := by
      split_ifs <;> omega
    refine ⟨h1.trans hl.1, hr.1.trans h2, fun e he => ?_⟩
    rcases List.mem_cons.1 he with rfl | he
    · exact ⟨h1.trans hl.2, hr.2.trans h2⟩
    · exact h3 e he

/-- The window of the fast branch contains every entry of a profile `nhb` that counts. -/
theorem cosmo_window_covers (A V : List ℝ) (fl : List CosmoFluid) (c : CosmoConsts) (m : Cosmo) (h : Cosmo.make A V fl c = .ok m) (i : ℕ) (hi : i < fl.length)
    (k : Fin 51) (hk : (k : ℕ) < (fl.getD i ⟨[], [], []⟩).nhb.length) (hA : A.getD i 0 ≠ 0)
    (hs0 : 1e-16 < |(fl.getD i ⟨[], [], []⟩).nhb.getD k 0 / A.getD i 0|) (t : CType) :
    m.window (t, k) = true := by
  have hs := (cosmoSeen_eq _ ((fl.getD i ⟨[], [], []⟩).nhb.getD k 0) hA).1.2 hs0
  unfold Cosmo.make at h
  split_ifs at h with hlen
  injection h with h
  have hmem : (fl.getD i ⟨[], [], []⟩, A.getD i 0) ∈ fl.zip A := by
    rw [List.getD_eq_getElem fl _ hi, List.getD_eq_getElem A _ (by omega)]
    rw [← List.getElem_zip (l := fl) (l' := A) (i := i) (h := by simp; omega)]
    exact List.getElem_mem _
  obtain ⟨-, -, h3⟩ := cosmoBounds_spec (fl.zip A) 51 0
  obtain ⟨a, b⟩ := h3 _ hmem
  have hl := cosmoLeft_le _ _ k hk hs
  have hr := cosmoRight_ge _ _ k hk hs
  subst h
  unfold Cosmo.window
  simp only [Bool.or_eq_true, Bool.and_eq_true, decide_eq_true_eq]
  exact Or.inr ⟨by simp only at a ⊢; omega, by simp only at b ⊢; omega⟩

theorem cosmoBounds_nhb (fl fl' : List CosmoFluid) (A : List ℝ) (lr : ℕ × ℕ) (h : fl.map (·.nhb) = fl'.map (·.nhb)) :
    cosmoBounds (fl.zip A) lr = cosmoBounds (fl'.zip A) lr := by
  induction fl generalizing fl' A lr with
  | nil => cases fl' with
    | nil => rfl
    | cons => simp at h
  | cons f fl ih =>
    cases fl' with
    | nil => simp at h
    | cons f' fl' =>
      simp only [List.map_cons, List.cons.injEq] at h
      cases A with
      | nil => rfl
      | cons a A =>
        simp only [List.zip_cons_cons]
        unfold cosmoBounds
        rw [h.1, ih fl' A _ h.2]

/-- The bounds do not depend on the profiles of the segments that form hydrogen bonds. -/
theorem cosmo_bounds_ignore_bonding (A V : List ℝ) (fl fl' : List CosmoFluid) (c : CosmoConsts) (m m' : Cosmo) (h : Cosmo.make A V fl c = .ok m)
    (h' : Cosmo.make A V fl' c = .ok m') (hn : fl.map (·.nhb) = fl'.map (·.nhb)) : m.window = m'.window := by
  unfold Cosmo.make at h h'
  split_ifs at h h'
  injection h with h
  injection h' with h'
  subst h h'
  funext s
  unfold Cosmo.window
  simp only [cosmoBounds_nhb fl fl' A (51, 0) hn]

/-- The fast branch writes outside of its matrices when the last entry of some profile `nhb` counts, or when one has at most one entry that counts. -/
theorem cosmo_fast_overflow (A V : List ℝ) (fl : List CosmoFluid) (c : CosmoConsts) (m : Cosmo) (h : Cosmo.make A V fl c = .ok m) (hf : c.fast = true) (i : ℕ)
    (hi : i < fl.length) (hlen : (fl.getD i ⟨[], [], []⟩).nhb.length = 51)
    (hA : A.getD i 0 ≠ 0) (hbad0 : 1e-16 < |(fl.getD i ⟨[], [], []⟩).nhb.getD 50 0 / A.getD i 0| ∨
      ∀ k k', k < k' → k' < 51 → 1e-16 < |(fl.getD i ⟨[], [], []⟩).nhb.getD k 0 / A.getD i 0| → |(fl.getD i ⟨[], [], []⟩).nhb.getD k' 0 / A.getD i 0| ≤ 1e-16)
    (T : ℝ) (p : CSeg → ℝ) : m.gamma T p = .ub := by
  have hbad : cosmoSeen (A.getD i 0) ((fl.getD i ⟨[], [], []⟩).nhb.getD 50 0) = true ∨
      ∀ k k', k < k' → k' < 51 → cosmoSeen (A.getD i 0) ((fl.getD i ⟨[], [], []⟩).nhb.getD k 0) = true →
        cosmoSeen (A.getD i 0) ((fl.getD i ⟨[], [], []⟩).nhb.getD k' 0) = false := by
    rcases hbad0 with hb | hb
    · exact Or.inl ((cosmoSeen_eq _ _ hA).1.2 hb)
    · exact Or.inr fun k k' h1 h2 h3 => (cosmoSeen_eq _ _ hA).2.2 (hb k k' h1 h2 ((cosmoSeen_eq _ _ hA).1.1 h3))
  unfold Cosmo.make at h
  split_ifs at h with hl
  injection h with h
  have hmem : (fl.getD i ⟨[], [], []⟩, A.getD i 0) ∈ fl.zip A := by
    rw [List.getD_eq_getElem fl _ hi, List.getD_eq_getElem A _ (by omega)]
    rw [← List.getElem_zip (l := fl) (l' := A) (i := i) (h := by simp; omega)]
    exact List.getElem_mem _
  obtain ⟨-, -, h3⟩ := cosmoBounds_spec (fl.zip A) 51 0
  obtain ⟨-, b⟩ := h3 _ hmem
  have h50 : 50 ≤ cosmoRight (A.getD i 0) (fl.getD i ⟨[], [], []⟩).nhb := by
    rcases hbad with hb | hb
    · exact cosmoRight_ge _ _ 50 (by omega) hb
    · rw [cosmoRight_single _ _ (fun k k' hkk hk' => hb k k' hkk (by omega)), hlen]
      norm_num
  subst h
  unfold Cosmo.gamma
  rw [if_pos ⟨hf, Or.inl (by simp only at b ⊢; omega)⟩]

/-- A model whose profile counts everywhere: the fast branch is undefined. -/
example (T : ℝ) (p : CSeg → ℝ) (m : Cosmo) (h : Cosmo.make [51] [40] [⟨List.replicate 51 1, List.replicate 51 0, List.replicate 51 0⟩] {} = .ok m) :
    m.gamma T p = .ub :=
  cosmo_fast_overflow _ _ _ _ m h rfl 0 (by simp) (by simp) (by simp) (Or.inl (by simp; norm_num)) T p

example : ∃ m, Cosmo.make [51] [40] [⟨List.replicate 51 1, List.replicate 51 0, List.replicate 51 0⟩] {} = .ok m ∧ m.window (.oh, 7) = true := by
  refine ⟨_, rfl, ?_⟩
  refine cosmo_window_covers [51] [40] [⟨List.replicate 51 1, List.replicate 51 0, List.replicate 51 0⟩] {} _ rfl 0 (by simp) 7 (by simp) (by simp) ?_ .oh
  simp
  norm_num

/-- Segments that form hydrogen bonds and lie outside of the window are dropped: two fluids that differ in them have the same coefficients in the fast branch,
though the solutions of the equations differ. -/
theorem cosmo_fast_drops (A V : List ℝ) (fl fl' : List CosmoFluid) (c : CosmoConsts) (m m' : Cosmo) (h : Cosmo.make A V fl c = .ok m)
    (h' : Cosmo.make A V fl' c = .ok m') (hn : fl.map (·.nhb) = fl'.map (·.nhb)) (T : ℝ) (p p' : CSeg → ℝ) (heq : ∀ s, m.window s = true → p s = p' s) :
    m.gamma T p = m'.gamma T p' ∧
    ((∀ s, p s ≤ p' s) → (∃ s, p s < p' s) → ∀ G G', IsSegActivity (c.K T) p G → IsSegActivity (c.K T) p' G' → G ≠ G') := by
  constructor
  · have hw := cosmo_bounds_ignore_bonding A V fl fl' c m m' h h' hn
    have hb : m.iL = m'.iL ∧ m.iR = m'.iR ∧ m.c = c ∧ m'.c = c := by
      unfold Cosmo.make at h h'
      split_ifs at h h'
      injection h with h
      injection h' with h'
      subst h h'
      exact ⟨by rw [cosmoBounds_nhb fl fl' A _ hn], by rw [cosmoBounds_nhb fl fl' A _ hn], rfl, rfl⟩
    obtain ⟨b1, b2, b3, b4⟩ := hb
    unfold Cosmo.gamma
    rw [← hw, ← b1, ← b2, b3, b4, seg_fast_blind _ m.window p p' _ heq]
  · rintro hle ⟨s, hs⟩ G G' hG hG'
    exact seg_exact_sees _ p p' G G' (fun a b => (cosmo_kernel c T a b).1) hle s hs hG hG'

/-- The window `0 … 1` of two fluids with different profiles of the type OH at the upper end of the grid. -/
example : ∃ m m' : Cosmo,
    Cosmo.make [5] [4] [⟨2 :: 3 :: List.replicate 49 0, List.replicate 51 0, List.replicate 51 0⟩] {} = .ok m ∧
    Cosmo.make [5] [4] [⟨2 :: 3 :: List.replicate 49 0, List.replicate 40 0 ++ List.replicate 11 1, List.replicate 51 0⟩] {} = .ok m' ∧
    m.window = m'.window :=
  ⟨_, _, rfl, rfl, cosmo_bounds_ignore_bonding [5] [4] [⟨2 :: 3 :: List.replicate 49 0, List.replicate 51 0, List.replicate 51 0⟩]
    [⟨2 :: 3 :: List.replicate 49 0, List.replicate 40 0 ++ List.replicate 11 1, List.replicate 51 0⟩] {} _ _ rfl rfl rfl⟩

end Teqp.Props
