import Verif.Props.Cosmo
import Verif.Props.AssocSites
import Verif.Props.ExtInput
import Mathlib.Algebra.BigOperators.Group.Finset.Sigma

/-! # COSMO-SAC: what is computed for mixtures -/

set_option autoImplicit false

namespace Teqp.Props
open Teqp.Model Teqp.Spec Finset

/-! ## Values -/

/-- The segments of an evaluation are regular: positive temperature and constants, the densities not negative and some of them present in the window. -/
structure CosmoRegular (m : Cosmo) (T : ℝ) (x : List ℝ) : Prop where
  T0 : T ≠ 0
  R0 : m.c.R ≠ 0
  aeff : m.c.aeff ≠ 0
  branch : m.c.fast = true → m.iL ≤ m.iR ∧ m.iR < 50
  sizeF : x.length ≤ m.fluids.length
  sizeA : x.length ≤ m.A.length
  fits : ∀ i < x.length, m.fits i
  area : ∀ i < x.length, 0 < m.area i
  prof : ∀ i < x.length, ∀ s, 0 ≤ m.pA i s
  seen : ∀ i < x.length, ∃ s, m.window s = true ∧ 0 < m.pA i s
  frac : ∀ i < x.length, 0 ≤ el x i
  some : ∃ i < x.length, 0 < el x i

theorem CosmoRegular.xA_pos {m : Cosmo} {T : ℝ} {x : List ℝ} (h : CosmoRegular m T x) : 0 < m.xA x := by
  obtain ⟨i, hi, hx⟩ := h.some
  exact sum_pos' (fun j hj => mul_nonneg (h.frac j (mem_range.1 hj)) (h.area j (mem_range.1 hj)).le) ⟨i, mem_range.2 hi, mul_pos hx (h.area i hi)⟩

theorem CosmoRegular.pure {m : Cosmo} {T : ℝ} {x : List ℝ} (h : CosmoRegular m T x) (i : ℕ) (hi : i < x.length) :
    SegData (m.c.K T) m.window (fun s => m.pA i s / m.area i) :=
  ⟨fun a b => (cosmo_kernel m.c T a b).1, fun s => div_nonneg (h.prof i hi s) (h.area i hi).le, by
    obtain ⟨s, hs, hp⟩ := h.seen i hi
    exact ⟨s, hs, div_pos hp (h.area i hi)⟩⟩

theorem CosmoRegular.mix {m : Cosmo} {T : ℝ} {x : List ℝ} (h : CosmoRegular m T x) : SegData (m.c.K T) m.window (m.pMix x) := by
  refine ⟨fun a b => (cosmo_kernel m.c T a b).1, fun s => div_nonneg (sum_nonneg fun i hi => mul_nonneg (h.frac i (mem_range.1 hi)) (h.prof i (mem_range.1 hi) s)) h.xA_pos.le, ?_⟩
  obtain ⟨i, hi, hx⟩ := h.some
  obtain ⟨s, hs, hp⟩ := h.seen i hi
  exact ⟨s, hs, div_pos (sum_pos' (fun j hj => mul_nonneg (h.frac j (mem_range.1 hj)) (h.prof j (mem_range.1 hj) s)) ⟨i, mem_range.2 hi, mul_pos hx hp⟩) h.xA_pos⟩

/-- For regular data the search for the logarithms ends with values or with the exception of its iteration. -/
theorem cosmo_lnGamma_ends (m : Cosmo) (T : ℝ) (p : CSeg → ℝ) (hT : T ≠ 0) (hR : m.c.R ≠ 0) (hb : m.c.fast = true → m.iL ≤ m.iR ∧ m.iR < 50)
    (h : SegData (m.c.K T) m.window p) :
    (∃ L, m.lnGamma T p = .ok L) ∨ m.lnGamma T p = .throws .stdInvalidArgument := by
  unfold Cosmo.lnGamma Cosmo.gamma
  rw [if_neg (by rintro ⟨hf, h1⟩; have := hb hf; omega), if_neg (by rintro (h1 | h1); exacts [hT h1, hR h1])]
  rcases segLoop_cases (m.c.K T) m.window p m.c.tol h 500 0 with ⟨i, -, -, -, he⟩ | ⟨-, he⟩
  · rw [show segIter (m.c.K T) m.window p 0 = fun _ => 1 from rfl] at he
    rw [he, Outcome.bind_ok, if_neg (by rintro ⟨s, hs⟩; exact absurd (segIter_pos h _ s) (not_lt.2 hs))]
    exact Or.inl ⟨_, rfl⟩
  · rw [show segIter (m.c.K T) m.window p 0 = fun _ => 1 from rfl] at he
    rw [he]; exact Or.inr rfl

/-- The iteration for regular data in either branch: the result is that of the first of 501 passes that meets the test, and otherwise an exception is thrown. -/
theorem cosmo_gamma_cases (m : Cosmo) (T : ℝ) (p : CSeg → ℝ) (hT : T ≠ 0) (hR : m.c.R ≠ 0) (hb : m.c.fast = true → m.iL ≤ m.iR ∧ m.iR < 50)
    (h : SegData (m.c.K T) m.window p) :
    (∃ i ≤ 500, SegDone (m.c.K T) m.window p m.c.tol (segIter (m.c.K T) m.window p i) ∧
      (∀ i' < i, ¬ SegDone (m.c.K T) m.window p m.c.tol (segIter (m.c.K T) m.window p i')) ∧ m.gamma T p = .ok (segIter (m.c.K T) m.window p (i + 1))) ∨
    ((∀ i ≤ 500, ¬ SegDone (m.c.K T) m.window p m.c.tol (segIter (m.c.K T) m.window p i)) ∧ m.gamma T p = .throws .stdInvalidArgument) := by
  unfold Cosmo.gamma
  rw [if_neg (by rintro ⟨hf, h1⟩; have := hb hf; omega), if_neg (by rintro (h1 | h1); exacts [hT h1, hR h1])]
  have := segLoop_cases (m.c.K T) m.window p m.c.tol h 500 0
  simp only [zero_add] at this
  exact this

theorem mapOutcome_two {α β : Type} (f : α → Outcome β) (e : Err) (l : List α) (hf : ∀ a ∈ l, (∃ b, f a = .ok b) ∨ f a = .throws e) :
    (∃ bs, mapOutcome f l = .ok bs) ∨ mapOutcome f l = .throws e := by
  induction l with
  | nil => exact Or.inl ⟨[], rfl⟩
  | cons a l ih =>
    unfold mapOutcome
    rcases hf a (by simp) with ⟨b, hb⟩ | hb
    · rcases ih (fun a ha => hf a (by simp [ha])) with ⟨bs, hbs⟩ | hbs
      · rw [hb, Outcome.bind_ok, hbs]; exact Or.inl ⟨b :: bs, rfl⟩
      · rw [hb, Outcome.bind_ok, hbs]; exact Or.inr rfl
    · rw [hb]; exact Or.inr rfl

/-- For regular data an evaluation has a value or ends with the exception of the iteration. -/
theorem cosmo_ends (m : Cosmo) (T : ℝ) (x : List ℝ) (h : CosmoRegular m T x) :
    (∃ v, m.eval T x = .ok v) ∨ m.eval T x = .throws .stdInvalidArgument := by
  unfold Cosmo.eval Cosmo.resid
  rw [if_neg (by
    rintro (h1 | h1 | ⟨i, hi, h1⟩)
    exacts [absurd h.sizeF (by omega), absurd h.sizeA (by omega), h1 (h.fits i hi)]),
    if_neg (by rintro (h1 | h1); exacts [h.xA_pos.ne' h1, h.aeff h1])]
  rcases cosmo_lnGamma_ends m T _ h.T0 h.R0 h.branch h.mix with ⟨L, hL⟩ | hL
  · rw [hL, Outcome.bind_ok]
    have : ∀ i ∈ List.range x.length, (∃ b, m.residOne T L i = .ok b) ∨ m.residOne T L i = .throws .stdInvalidArgument := by
      intro i hi
      have hi := List.mem_range.1 hi
      unfold Cosmo.residOne
      rw [if_neg (h.area i hi).ne']
      rcases cosmo_lnGamma_ends m T _ h.T0 h.R0 h.branch (h.pure i hi) with ⟨Li, hLi⟩ | hLi
      · rw [hLi]; exact Or.inl ⟨_, rfl⟩
      · rw [hLi]; exact Or.inr rfl
    rcases mapOutcome_two _ _ _ this with ⟨bs, hbs⟩ | hbs
    · rw [hbs]; exact Or.inl ⟨_, rfl⟩
    · rw [hbs]; exact Or.inr rfl
  · rw [hL]; exact Or.inr rfl

/-- What a residual part is when there is one. -/
theorem cosmo_resid_value (m : Cosmo) (T : ℝ) (x g : List ℝ) :
    m.resid T x = .ok g ↔ (¬ (m.fluids.length < x.length ∨ m.A.length < x.length ∨ ∃ i < x.length, ¬ m.fits i)) ∧ ¬ (m.xA x = 0 ∨ m.c.aeff = 0) ∧
      ∃ L, m.lnGamma T (m.pMix x) = .ok L ∧ g.length = x.length ∧ ∀ i < x.length, m.area i ≠ 0 ∧
        ∃ Li, m.lnGamma T (fun s => m.pA i s / m.area i) = .ok Li ∧ el g i = 1 / m.c.aeff * ∑ s, m.pA i s * (L s - Li s) := by
  have one : ∀ (L : CSeg → ℝ) (i : ℕ) (b : ℝ), m.residOne T L i = .ok b ↔ m.area i ≠ 0 ∧
        ∃ Li, m.lnGamma T (fun s => m.pA i s / m.area i) = .ok Li ∧ b = 1 / m.c.aeff * ∑ s, m.pA i s * (L s - Li s) := by
    intro L i b
    unfold Cosmo.residOne
    by_cases ha : m.area i = 0
    · rw [if_pos ha]; simp [ha]
    · rw [if_neg ha]
      have e : ∀ Li : CSeg → ℝ, m.area i / m.c.aeff * ∑ s, m.pA i s / m.area i * (L s - Li s) = 1 / m.c.aeff * ∑ s, m.pA i s * (L s - Li s) := by
        intro Li
        rw [mul_sum, mul_sum]
        exact sum_congr rfl fun s _ => by field_simp
      constructor
      · intro h
        obtain ⟨Li, hLi, hb⟩ := Outcome.bind_eq_ok.1 h
        injection hb with hb
        exact ⟨ha, Li, hLi, by rw [← hb, e]⟩
      · rintro ⟨-, Li, hLi, hb⟩
        rw [hLi, Outcome.bind_ok, e, hb]
  unfold Cosmo.resid
  by_cases h1 : m.fluids.length < x.length ∨ m.A.length < x.length ∨ ∃ i < x.length, ¬ m.fits i
  · rw [if_pos h1]; exact ⟨fun h => absurd h (by simp), fun h => absurd h1 h.1⟩
  rw [if_neg h1]
  by_cases h2 : m.xA x = 0 ∨ m.c.aeff = 0
  · rw [if_pos h2]; exact ⟨fun h => absurd h (by simp), fun h => absurd h2 h.2.1⟩
  rw [if_neg h2]
  constructor
  · intro h
    obtain ⟨L, hL, hg⟩ := Outcome.bind_eq_ok.1 h
    obtain ⟨hlen, hget⟩ := mapOutcome_get _ _ _ hg
    rw [List.length_range] at hlen
    refine ⟨h1, h2, L, hL, hlen, fun i hi => ?_⟩
    obtain ⟨b, hb, hf⟩ := hget i i (by simp [hi])
    have : el g i = b := by unfold el; rw [List.getD_eq_getElem?_getD, hb]; rfl
    rw [this]
    exact (one L i b).1 hf
  · rintro ⟨-, -, L, hL, hlen, hall⟩
    rw [hL, Outcome.bind_ok, mapOutcome_ok, List.forall₂_iff_get]
    refine ⟨by simp [hlen], fun i hi hi' => ?_⟩
    simp only [List.get_eq_getElem, List.getElem_range]
    rw [one L i]
    have := hall i (by rwa [hlen] at hi')
    unfold el at this
    rwa [List.getD_eq_getElem _ _ hi'] at this

/-- Equal constants and windows have equal segment activity coefficients. -/
theorem cosmo_lnGamma_congr (m m' : Cosmo) (hc : m.c = m'.c) (hL : m.iL = m'.iL) (hR : m.iR = m'.iR) (T : ℝ) (p : CSeg → ℝ) :
    m.lnGamma T p = m'.lnGamma T p := by
  unfold Cosmo.lnGamma Cosmo.gamma
  have : m.window = m'.window := by funext s; unfold Cosmo.window; rw [hc, hL, hR]
  rw [this, hc, hL, hR]

/-- A pure component, alone or in a mixture in which the other fractions are zero, has no residual part: its activity coefficient is one. -/
theorem cosmo_pure (m : Cosmo) (T : ℝ) (x g : List ℝ) (h : m.resid T x = .ok g) (k : ℕ) (hk : k < x.length) (hx : el x k ≠ 0)
    (h0 : ∀ i < x.length, i ≠ k → el x i = 0) : el g k = 0 ∧ ∀ v, m.eval T x = .ok v → v = 0 := by
  have hz : el g k = 0 := by
    obtain ⟨-, -, L, hL, -, hall⟩ := (cosmo_resid_value m T x g).1 h
    obtain ⟨ha, Li, hLi, hg⟩ := hall k hk
    have hmix : m.pMix x = fun s => m.pA k s / m.area k := by
      funext s
      have e : ∀ y : ℕ → ℝ, ∑ i ∈ range x.length, el x i * y i = el x k * y k := by
        intro y
        refine sum_eq_single k (fun i hi hik => by rw [h0 i (mem_range.1 hi) hik, zero_mul]) (fun hn => absurd (mem_range.2 hk) hn)
      unfold Cosmo.pMix Cosmo.xA
      rw [e (fun i => m.pA i s), e m.area]
      field_simp
    rw [hmix, hLi] at hL
    injection hL with hL
    rw [hg, hL]; simp
  refine ⟨hz, fun v hv => ?_⟩
  unfold Cosmo.eval at hv
  rw [h, Outcome.bind_ok] at hv
  injection hv with hv
  rw [← hv]
  refine sum_eq_zero fun i hi => ?_
  by_cases hik : i = k
  · rw [hik, hz, mul_zero]
  · rw [h0 i (mem_range.1 hi) hik, zero_mul]

/-- Components with the same area and the same profiles are one fluid: their mixtures have no residual part. -/
theorem cosmo_identical (m : Cosmo) (T : ℝ) (x g : List ℝ) (h : m.resid T x = .ok g) (hA : ∀ i < x.length, m.area i = m.area 0)
    (hP : ∀ i < x.length, m.pA i = m.pA 0) : ∀ k < x.length, el g k = 0 := by
  intro k hk
  obtain ⟨-, h2, L, hL, -, hall⟩ := (cosmo_resid_value m T x g).1 h
  obtain ⟨ha, Li, hLi, hg⟩ := hall k hk
  have hmix : m.pMix x = fun s => m.pA k s / m.area k := by
    funext s
    have e1 : m.xA x = (∑ i ∈ range x.length, el x i) * m.area k := by
      unfold Cosmo.xA
      rw [sum_mul]
      exact sum_congr rfl fun i hi => by rw [hA i (mem_range.1 hi), hA k hk]
    have e2 : ∑ i ∈ range x.length, el x i * m.pA i s = (∑ i ∈ range x.length, el x i) * m.pA k s := by
      rw [sum_mul]
      exact sum_congr rfl fun i hi => by rw [hP i (mem_range.1 hi), hP k hk]
    have hs : ∑ i ∈ range x.length, el x i ≠ 0 := fun h0 => h2 (Or.inl (by rw [e1, h0, zero_mul]))
    unfold Cosmo.pMix
    rw [e1, e2]
    field_simp
  rw [hmix, hLi] at hL
  injection hL with hL
  rw [hg, hL]; simp

/-- Renaming and splitting components: when the components of one model are those of another, each possibly several times, the coefficients are the same. -/
theorem cosmo_lump (m m' : Cosmo) (hc : m.c = m'.c) (hL : m.iL = m'.iL) (hR : m.iR = m'.iR) (T : ℝ) (x x' g g' : List ℝ) (f : ℕ → ℕ)
    (hf : ∀ i < x.length, f i < x'.length) (hA : ∀ i < x.length, m.area i = m'.area (f i)) (hP : ∀ i < x.length, m.pA i = m'.pA (f i))
    (hx : ∀ j < x'.length, el x' j = ∑ i ∈ (range x.length).filter (f · = j), el x i)
    (h : m.resid T x = .ok g) (h' : m'.resid T x' = .ok g') :
    (∀ i < x.length, el g i = el g' (f i)) ∧ m.eval T x = m'.eval T x' := by
  have move : ∀ (y y' : ℕ → ℝ), (∀ i < x.length, y i = y' (f i)) → ∑ i ∈ range x.length, el x i * y i = ∑ j ∈ range x'.length, el x' j * y' j := by
    intro y y' hy
    rw [← sum_fiberwise_of_maps_to (g := f) (t := range x'.length) (fun i hi => mem_range.2 (hf i (mem_range.1 hi)))]
    refine sum_congr rfl fun j hj => ?_
    rw [hx j (mem_range.1 hj), sum_mul]
    refine sum_congr rfl fun i hi => ?_
    obtain ⟨hi, hij⟩ := mem_filter.1 hi
    rw [hy i (mem_range.1 hi), hij]
  obtain ⟨-, -, L, hLm, hlen, hall⟩ := (cosmo_resid_value m T x g).1 h
  obtain ⟨-, -, L', hLm', hlen', hall'⟩ := (cosmo_resid_value m' T x' g').1 h'
  have hmix : m.pMix x = m'.pMix x' := by
    funext s
    unfold Cosmo.pMix Cosmo.xA
    rw [move _ _ hA, move (fun i => m.pA i s) (fun j => m'.pA j s) (fun i hi => by rw [hP i hi])]
  rw [hmix, cosmo_lnGamma_congr m m' hc hL hR, hLm'] at hLm
  injection hLm with hLL
  have hg : ∀ i < x.length, el g i = el g' (f i) := by
    intro i hi
    obtain ⟨-, Li, hLi, e⟩ := hall i hi
    obtain ⟨-, Li', hLi', e'⟩ := hall' (f i) (hf i hi)
    rw [cosmo_lnGamma_congr m m' hc hL hR, hP i hi, hA i hi, hLi'] at hLi
    injection hLi with hLi
    rw [e, e', hLL, hLi, hP i hi, hc]
  refine ⟨hg, ?_⟩
  unfold Cosmo.eval
  rw [h, h', Outcome.bind_ok, Outcome.bind_ok, move _ _ hg]

/-! ### An example that can be computed by hand -/

/-- Without energies of misfit, and without segments that form hydrogen bonds, all segments are ideal. -/
noncomputable def cosmoDemo : Cosmo where
  A := [30, 60]
  V := [20, 50]
  fluids := [⟨30 :: List.replicate 50 0, List.replicate 51 0, List.replicate 51 0⟩, ⟨0 :: 60 :: List.replicate 49 0, List.replicate 51 0, List.replicate 51 0⟩]
  c := { AES := 0, BES := 0, fast := false }
  iL := 0
  iR := 51

theorem getD_replicate_zero (n k : ℕ) : (List.replicate n (0 : ℝ)).getD k 0 = 0 := by
  rw [List.getD_eq_getElem?_getD, List.getElem?_replicate]; split_ifs <;> rfl

theorem cosmoDemo_pA (s : CSeg) : cosmoDemo.pA 0 s = (if s = (.nhb, 0) then 30 else 0) ∧ cosmoDemo.pA 1 s = if s = (.nhb, 1) then 60 else 0 := by
  obtain ⟨t, k⟩ := s
  constructor
  · cases t with
    | nhb =>
      have e : cosmoDemo.pA 0 (.nhb, k) = (30 :: List.replicate 50 0).getD (k : ℕ) (0 : ℝ) := rfl
      rw [e]
      by_cases h : k = 0
      · rw [h, if_pos rfl]; rfl
      · rw [if_neg (by simpa using h)]
        obtain ⟨j, hj⟩ := Nat.exists_eq_succ_of_ne_zero (fun h0 => h (Fin.ext h0) : (k : ℕ) ≠ 0)
        rw [hj, List.getD_cons_succ, getD_replicate_zero]
    | oh => rw [if_neg (by simp)]; exact getD_replicate_zero 51 k
    | ot => rw [if_neg (by simp)]; exact getD_replicate_zero 51 k
  · cases t with
    | nhb =>
      have e : cosmoDemo.pA 1 (.nhb, k) = (0 :: 60 :: List.replicate 49 0).getD (k : ℕ) (0 : ℝ) := rfl
      rw [e]
      by_cases h : k = 1
      · rw [h, if_pos rfl]; rfl
      · rw [if_neg (by simpa using h)]
        by_cases h0 : k = 0
        · rw [h0]; rfl
        · obtain ⟨j, hj⟩ := Nat.exists_eq_succ_of_ne_zero (fun h' => h0 (Fin.ext h') : (k : ℕ) ≠ 0)
          obtain ⟨j', hj'⟩ := Nat.exists_eq_succ_of_ne_zero (fun h' => h (Fin.ext (by rw [hj, h']; rfl)) : j ≠ 0)
          rw [hj, hj', List.getD_cons_succ, List.getD_cons_succ, getD_replicate_zero]
    | oh => rw [if_neg (by simp)]; exact getD_replicate_zero 51 k
    | ot => rw [if_neg (by simp)]; exact getD_replicate_zero 51 k

theorem cosmoDemo_regular : CosmoRegular cosmoDemo 300 [0.25, 0.75] where
  T0 := by norm_num
  R0 := by unfold cosmoDemo; norm_num
  aeff := by unfold cosmoDemo; norm_num
  branch := fun h => absurd h (by simp [cosmoDemo])
  sizeF := le_rfl
  sizeA := le_rfl
  fits := fun i hi t => by
    have : i = 0 ∨ i = 1 := by simp at hi; omega
    rcases this with rfl | rfl <;> cases t <;> rfl
  area := fun i hi => by
    have : i = 0 ∨ i = 1 := by simp at hi; omega
    rcases this with rfl | rfl <;> simp [Cosmo.area, cosmoDemo]
  prof := fun i hi s => by
    have : i = 0 ∨ i = 1 := by simp at hi; omega
    rcases this with rfl | rfl
    · rw [(cosmoDemo_pA s).1]; split_ifs <;> norm_num
    · rw [(cosmoDemo_pA s).2]; split_ifs <;> norm_num
  seen := fun i hi => by
    have : i = 0 ∨ i = 1 := by simp at hi; omega
    rcases this with rfl | rfl
    · exact ⟨(.nhb, 0), rfl, by rw [(cosmoDemo_pA _).1]; norm_num⟩
    · exact ⟨(.nhb, 1), rfl, by rw [(cosmoDemo_pA _).2]; norm_num⟩
  frac := fun i hi => by
    have : i = 0 ∨ i = 1 := by simp at hi; omega
    rcases this with rfl | rfl <;> simp [el] <;> norm_num
  some := ⟨0, by simp, by simp [el]; norm_num⟩

/-- Segment coefficients of one for densities that sum to one and have no segments that form hydrogen bonds. -/
theorem cosmoDemo_lnGamma (p : CSeg → ℝ) (h : SegData (cosmoDemo.c.K 300) cosmoDemo.window p) (hp : ∀ s, s.1 ≠ .nhb → p s = 0) (h1 : ∑ s, p s = 1) :
    cosmoDemo.lnGamma 300 p = .ok fun _ => 0 := by
  have hw : ∀ s, cosmoDemo.window s = true := fun s => rfl
  have hs : ∀ a, segSum (cosmoDemo.c.K 300) cosmoDemo.window p (fun _ => 1) a = 1 := by
    intro a
    unfold segSum
    rw [filter_true_of_mem (fun s _ => hw s)]
    refine Eq.trans ?_ h1
    refine sum_congr rfl fun b _ => ?_
    by_cases hb : b.1 = .nhb
    · have : cosmoDemo.c.K 300 a b = 1 := by
        unfold CosmoConsts.K
        rw [(cosmo_bond _ _ a b).1 (Or.inr (Or.inr hb))]
        simp [cosmoDemo]
      rw [this]; ring
    · rw [hp b hb]; ring
  have hst : segStep (cosmoDemo.c.K 300) cosmoDemo.window p (fun _ => 1) = fun _ => 1 := by
    funext a
    unfold segStep segNew
    rw [if_pos (hw a), if_pos (hw a), hs]; norm_num
  have hdone : SegDone (cosmoDemo.c.K 300) cosmoDemo.window p cosmoDemo.c.tol (fun _ => 1) := by
    intro a
    rw [hst]
    unfold segNew
    rw [if_pos (hw a), hs]
    simp [cosmoDemo]; norm_num
  unfold Cosmo.lnGamma Cosmo.gamma
  rw [if_neg (by simp [cosmoDemo]), if_neg (by simp [cosmoDemo]; norm_num), (segLoop_unfold _ _ _ _ 500 _ h (fun _ => one_pos)).1 hdone, hst, Outcome.bind_ok,
    if_neg (by rintro ⟨s, hs⟩; linarith)]
  simp

/-- The demonstration model has residual parts of zero in an equimolar mixture and everywhere else. -/
theorem cosmoDemo_resid : cosmoDemo.resid 300 [0.25, 0.75] = .ok [0, 0] := by
  have h := cosmoDemo_regular
  have hi : ∀ i < ([0.25, 0.75] : List ℝ).length, i = 0 ∨ i = 1 := fun i hi => by simp at hi; omega
  have hz : ∀ s : CSeg, s.1 ≠ .nhb → cosmoDemo.pA 0 s = 0 ∧ cosmoDemo.pA 1 s = 0 := by
    intro s hs
    rw [(cosmoDemo_pA s).1, (cosmoDemo_pA s).2, if_neg (fun e => hs (by rw [e])), if_neg (fun e => hs (by rw [e]))]
    exact ⟨rfl, rfl⟩
  have hsum : ∑ s, cosmoDemo.pA 0 s = 30 ∧ ∑ s, cosmoDemo.pA 1 s = 60 := by
    constructor
    · rw [sum_congr rfl fun s _ => (cosmoDemo_pA s).1]; simp
    · rw [sum_congr rfl fun s _ => (cosmoDemo_pA s).2]; simp
  have hxA : cosmoDemo.xA [0.25, 0.75] = 52.5 := by
    unfold Cosmo.xA
    simp [sum_range_succ, el, Cosmo.area, cosmoDemo]; norm_num
  have hmix : ∀ s, cosmoDemo.pMix [0.25, 0.75] s = (0.25 * cosmoDemo.pA 0 s + 0.75 * cosmoDemo.pA 1 s) / 52.5 := by
    intro s
    unfold Cosmo.pMix
    rw [hxA]; simp [sum_range_succ, el]
  rw [cosmo_resid_value]
  refine ⟨?_, ?_, fun _ => 0, cosmoDemo_lnGamma _ h.mix (fun s hs => by rw [hmix, (hz s hs).1, (hz s hs).2]; norm_num) ?_, rfl, ?_⟩
  · rintro (h1 | h1 | ⟨i, hi, h1⟩)
    exacts [absurd h.sizeF (by omega), absurd h.sizeA (by omega), h1 (h.fits i hi)]
  · rintro (h1 | h1)
    exacts [h.xA_pos.ne' h1, h.aeff h1]
  · rw [sum_congr rfl fun s _ => hmix s, ← sum_div, sum_add_distrib, ← mul_sum, ← mul_sum, hsum.1, hsum.2]; norm_num
  · intro i hil
    refine ⟨(h.area i hil).ne', fun _ => 0, cosmoDemo_lnGamma _ (h.pure i hil) ?_ ?_, ?_⟩
    · rcases hi i hil with rfl | rfl
      · intro s hs; simp only [(hz s hs).1, zero_div]
      · intro s hs; simp only [(hz s hs).2, zero_div]
    · rcases hi i hil with rfl | rfl
      · rw [← sum_div, hsum.1]; simp [Cosmo.area, cosmoDemo]
      · rw [← sum_div, hsum.2]; simp [Cosmo.area, cosmoDemo]
    · rcases hi i hil with rfl | rfl <;> simp [el]

/-- A mixture of the demonstration model and the same mixture with the second component split and the order changed. -/
example : ∃ v, cosmoDemo.eval 300 [0.25, 0.75] = .ok v := ⟨_, by unfold Cosmo.eval; rw [cosmoDemo_resid]; rfl⟩

/-! ## The combinatorial part -/

/-- The combinatorial parts are the derivatives of the expression of Staverman and Guggenheim with respect to the amounts, and it is their mean. -/
theorem cosmo_comb_consistent (m : Cosmo) (x g : List ℝ) (h : m.comb x = .ok g) (hx : ∑ i ∈ range x.length, el x i = 1) :
    (∀ k < x.length, HasDerivAt (fun t => staverman x.length (fun i => m.V.getD i 0 / 66.69) (fun i => m.A.getD i 0 / 79.53) (Function.update (el x) k (el x k + t)))
      (el g k) 0) ∧
    ∑ i ∈ range x.length, el x i * el g i = staverman x.length (fun i => m.V.getD i 0 / 66.69) (fun i => m.A.getD i 0 / 79.53) (el x) := by
  change (∀ k < x.length, HasDerivAt (fun t => staverman x.length m.r m.q (Function.update (el x) k (el x k + t))) (el g k) 0) ∧
    ∑ i ∈ range x.length, el x i * el g i = staverman x.length m.r m.q (el x)
  unfold Cosmo.comb at h
  split_ifs at h with h1 h2 h3
  injection h with h
  push Not at h3
  obtain ⟨hR, hQ, hpos⟩ := h3
  set R := Cosmo.dot x m.r with hRd
  set Q := Cosmo.dot x m.q with hQd
  have hl : Cosmo.dot x m.l = 5 * (R - Q) - (R - 1) := by
    rw [hRd, hQd]
    unfold Cosmo.dot Cosmo.l
    have e : ∀ i, el x i * (10 / 2 * (m.r i - m.q i) - (m.r i - 1)) = 4 * (el x i * m.r i) - 5 * (el x i * m.q i) + el x i := fun i => by ring
    rw [sum_congr rfl fun i _ => e i, sum_add_distrib, sum_sub_distrib, ← mul_sum, ← mul_sum, hx]
    ring
  have hg : ∀ k < x.length, el g k = Real.log (m.r k / R) + 5 * m.q k * Real.log (m.q k / Q / (m.r k / R)) + (1 - m.r k / R - 5 * m.q k + 5 * m.r k * Q / R) := by
    intro k hk
    have : el g k = Real.log (m.r k / R) + 10 / 2 * m.q k * Real.log (m.q k / Q / (m.r k / R)) + m.l k - m.r k / R * Cosmo.dot x m.l := by
      rw [← h]; unfold el; rw [List.getD_eq_getElem _ _ (by simpa using hk)]; simp
    rw [this, hl]
    unfold Cosmo.l
    field_simp
    ring
  have hr0 : ∀ i < x.length, m.r i ≠ 0 := fun i hi h0 => by have := (hpos i hi).1; rw [h0, zero_div] at this; exact lt_irrefl _ this
  have hq0 : ∀ i < x.length, m.q i ≠ 0 := fun i hi h0 => by have := (hpos i hi).2; rw [h0, zero_div, zero_div] at this; exact lt_irrefl _ this
  constructor
  · intro k hk
    have hn : ∀ i, HasDerivAt (fun t => Function.update (el x) k (el x k + t) i) (if i = k then 1 else 0) 0 := by
      intro i
      by_cases hik : i = k
      · subst hik; simp only [Function.update_self, if_true]; exact (hasDerivAt_id (0 : ℝ)).const_add (el x i)
      · simp only [Function.update_of_ne hik, hik, if_false]; exact hasDerivAt_const _ _
    have h0 : Function.update (el x) k (el x k + 0) = el x := by simp
    have hsum : ∀ y : ℕ → ℝ, HasDerivAt (fun t => ∑ j ∈ range x.length, Function.update (el x) k (el x k + t) j * y j) (y k) 0 := by
      intro y
      have := HasDerivAt.fun_sum (u := range x.length) fun i _ => (hn i).mul_const (y i)
      refine this.congr_deriv ?_
      simp [ite_mul, sum_ite_eq', hk]
    have hN : HasDerivAt (fun t => ∑ j ∈ range x.length, Function.update (el x) k (el x k + t) j) 1 0 := by
      have := hsum fun _ => 1
      simpa using this
    have vR : ∑ j ∈ range x.length, Function.update (el x) k (el x k + 0) j * m.r j = R := by rw [h0]; rfl
    have vQ : ∑ j ∈ range x.length, Function.update (el x) k (el x k + 0) j * m.q j = Q := by rw [h0]; rfl
    have vN : ∑ j ∈ range x.length, Function.update (el x) k (el x k + 0) j = 1 := by rw [h0]; exact hx
    have hterm : ∀ i ∈ range x.length, HasDerivAt (fun t => Function.update (el x) k (el x k + t) i * (Real.log (m.r i * (∑ j ∈ range x.length, Function.update (el x) k (el x k + t) j)
          / ∑ j ∈ range x.length, Function.update (el x) k (el x k + t) j * m.r j)
        + 5 * m.q i * Real.log ((m.q i / ∑ j ∈ range x.length, Function.update (el x) k (el x k + t) j * m.q j)
          / (m.r i / ∑ j ∈ range x.length, Function.update (el x) k (el x k + t) j * m.r j))))
        ((if i = k then 1 else 0) * (Real.log (m.r i / R) + 5 * m.q i * Real.log (m.q i / Q / (m.r i / R)))
          + el x i * (1 - m.r k / R + 5 * m.q i * (- m.q k / Q + m.r k / R))) 0 := by
      intro i hi
      have hi := mem_range.1 hi
      have d1 := ((hN.const_mul (m.r i)).fun_div (hsum m.r) (by rw [vR]; exact hR)).log (by rw [vR, vN, mul_one]; exact div_ne_zero (hr0 i hi) hR)
      have d2 := (((hasDerivAt_const (0 : ℝ) (m.q i)).fun_div (hsum m.q) (by rw [vQ]; exact hQ)).fun_div
        ((hasDerivAt_const (0 : ℝ) (m.r i)).fun_div (hsum m.r) (by rw [vR]; exact hR)) (by rw [vR]; exact div_ne_zero (hr0 i hi) hR)).log
        (by rw [vR, vQ]; exact div_ne_zero (div_ne_zero (hq0 i hi) hQ) (div_ne_zero (hr0 i hi) hR))
      have d3 := (hn i).fun_mul (d1.fun_add (d2.const_mul (5 * m.q i)))
      refine d3.congr_deriv ?_
      rw [vR, vQ, vN, h0]
      have a1 := hr0 i hi
      have a2 := hq0 i hi
      field_simp
      ring
    have := HasDerivAt.fun_sum hterm
    refine this.congr_deriv ?_
    rw [hg k hk, sum_add_distrib]
    have s1 : ∑ i ∈ range x.length, (if i = k then (1 : ℝ) else 0) * (Real.log (m.r i / R) + 5 * m.q i * Real.log (m.q i / Q / (m.r i / R)))
        = Real.log (m.r k / R) + 5 * m.q k * Real.log (m.q k / Q / (m.r k / R)) := by
      simp [ite_mul, sum_ite_eq', hk]
    have s2 : ∑ i ∈ range x.length, el x i * (1 - m.r k / R + 5 * m.q i * (- m.q k / Q + m.r k / R))
        = (1 - m.r k / R) + 5 * (- m.q k / Q + m.r k / R) * Q := by
      have : ∀ i, el x i * (1 - m.r k / R + 5 * m.q i * (- m.q k / Q + m.r k / R)) = el x i * (1 - m.r k / R) + (el x i * m.q i) * (5 * (- m.q k / Q + m.r k / R)) :=
        fun i => by ring
      rw [sum_congr rfl fun i _ => this i, sum_add_distrib, ← sum_mul, ← sum_mul, hx]
      change 1 * _ + Q * _ = _
      ring
    rw [s1, s2]
    field_simp
    ring
  · have e : ∀ i ∈ range x.length, el x i * el g i = el x i * (Real.log (m.r i * (∑ j ∈ range x.length, el x j) / ∑ j ∈ range x.length, el x j * m.r j)
        + 5 * m.q i * Real.log ((m.q i / ∑ j ∈ range x.length, el x j * m.q j) / (m.r i / ∑ j ∈ range x.length, el x j * m.r j)))
        + (el x i * 1 - el x i * m.r i * (1 / R) - 5 * (el x i * m.q i) + (el x i * m.r i) * (5 * Q / R)) := by
      intro i hi
      rw [hg i (mem_range.1 hi), hx, mul_one]
      change _ = el x i * (Real.log (m.r i / R) + 5 * m.q i * Real.log (m.q i / Q / (m.r i / R))) + _
      ring
    rw [sum_congr rfl e, sum_add_distrib, sum_add_distrib, sum_sub_distrib, sum_sub_distrib, ← sum_mul, ← sum_mul, ← sum_mul, ← mul_sum, hx]
    have f1 : ∑ i ∈ range x.length, el x i * m.r i = R := rfl
    have f2 : ∑ i ∈ range x.length, el x i * m.q i = Q := rfl
    have f3 : (1 * 1 - R * (1 / R) - 5 * Q + R * (5 * Q / R) : ℝ) = 0 := by field_simp; ring
    unfold staverman
    rw [hx, f1, f2, f3, add_zero]

/-- A pure component has no combinatorial part. -/
theorem cosmo_comb_pure (m : Cosmo) (x g : List ℝ) (h : m.comb x = .ok g) (k : ℕ) (hk : k < x.length) (hx : el x k = 1)
    (h0 : ∀ i < x.length, i ≠ k → el x i = 0) : el g k = 0 := by
  unfold Cosmo.comb at h
  split_ifs at h with h1 h2 h3
  injection h with h
  push Not at h3
  have e : ∀ y : ℕ → ℝ, Cosmo.dot x y = y k := by
    intro y
    unfold Cosmo.dot
    rw [sum_eq_single k (fun i hi hik => by rw [h0 i (mem_range.1 hi) hik, zero_mul]) (fun hn => absurd (mem_range.2 hk) hn), hx, one_mul]
  have hr := h3.1
  have hq := h3.2.1
  rw [e] at hr hq
  have : el g k = Real.log (m.r k / Cosmo.dot x m.r) + 10 / 2 * m.q k * Real.log (m.q k / Cosmo.dot x m.q / (m.r k / Cosmo.dot x m.r)) + m.l k
      - m.r k / Cosmo.dot x m.r * Cosmo.dot x m.l := by
    rw [← h]; unfold el; rw [List.getD_eq_getElem _ _ (by simpa using hk)]; simp
  rw [this, e, e, e, div_self hr, div_self hq]
  simp

/-- The combinatorial part of a mixture is defined for positive areas, volumes and fractions; other numbers of fractions are refused. -/
theorem cosmo_comb_ends (m : Cosmo) (x : List ℝ) (hA : m.A ≠ []) (hV : m.V.length = m.A.length) :
    (x.length ≠ m.A.length → m.comb x = .throws .invalidArgument) ∧
    (x.length = m.A.length → (∀ a ∈ m.A, 0 < a) → (∀ v ∈ m.V, 0 < v) → (∀ f ∈ x, 0 ≤ f) → (∃ f ∈ x, 0 < f) → ∃ g, m.comb x = .ok g ∧ g.length = x.length) := by
  have hbad : ¬ (m.A = [] ∨ m.V = [] ∨ m.A.length ≠ m.V.length) := by
    rintro (h | h | h)
    · exact hA h
    · rw [h] at hV; exact hA (List.length_eq_zero_iff.1 hV.symm)
    · exact h hV.symm
  constructor
  · intro h
    unfold Cosmo.comb
    rw [if_neg hbad, if_pos h]
  · intro h hp hv hx hx1
    have pr : ∀ i < x.length, 0 < m.r i := fun i hi => by
      unfold Cosmo.r
      rw [List.getD_eq_getElem _ _ (by omega)]
      exact div_pos (hv _ (List.getElem_mem _)) (by norm_num)
    have pq : ∀ i < x.length, 0 < m.q i := fun i hi => by
      unfold Cosmo.q Cosmo.area
      rw [List.getD_eq_getElem _ _ (by omega)]
      exact div_pos (hp _ (List.getElem_mem _)) (by norm_num)
    have dp : ∀ y : ℕ → ℝ, (∀ i < x.length, 0 < y i) → 0 < Cosmo.dot x y := by
      intro y hy
      obtain ⟨f, hf, hf0⟩ := hx1
      obtain ⟨k, hk, rfl⟩ := List.getElem_of_mem hf
      refine sum_pos' (fun i hi => mul_nonneg ?_ (hy i (mem_range.1 hi)).le) ⟨k, mem_range.2 hk, mul_pos ?_ (hy k hk)⟩
      · unfold el; rw [List.getD_eq_getElem _ _ (mem_range.1 hi)]; exact hx _ (List.getElem_mem _)
      · unfold el; rw [List.getD_eq_getElem _ _ hk]; exact hf0
    unfold Cosmo.comb
    rw [if_neg hbad, if_neg (not_not.2 h), if_neg]
    · exact ⟨_, rfl, by simp⟩
    · rintro (h | h | ⟨i, hi, h | h⟩)
      · exact (dp _ pr).ne' h
      · exact (dp _ pq).ne' h
      · exact absurd (div_pos (pr i hi) (dp _ pr)) (not_lt.2 h)
      · exact absurd (div_pos (div_pos (pq i hi) (dp _ pq)) (div_pos (pr i hi) (dp _ pr))) (not_lt.2 h)

example : ∃ g, cosmoDemo.comb [0.25, 0.75] = .ok g ∧ g.length = 2 :=
  (cosmo_comb_ends cosmoDemo [0.25, 0.75] (by simp [cosmoDemo]) rfl).2 rfl (by simp [cosmoDemo]) (by simp [cosmoDemo]) (by simp; norm_num) ⟨0.25, by simp, by norm_num⟩

/-! ## Documents -/

/-- A document with the constants left out has those of the publication and the fast branch. -/
theorem cosmo_default_consts (j : JTree) (h : j.contains "constants" = false) : cosmoConsts j = .ok ⟨7.25, 4013.78, 932.31, 3016.43, 6525.69, 1.4859e8,
    1.38064903e-23 * 6.022140758e23 / 4184, 1e-8, true⟩ := by
  unfold cosmoConsts
  rw [h]; rfl

/-- The constants that a document can set are three; the others are always those of the publication. -/
theorem cosmo_consts_read (j : JTree) (c : CosmoConsts) (h : cosmoConsts j = .ok c) :
    c.aeff = 7.25 ∧ c.cOHOH = 4013.78 ∧ c.cOTOT = 932.31 ∧ c.cOHOT = 3016.43 ∧ c.tol = 1e-8 ∧ c.R = 1.38064903e-23 * 6.022140758e23 / 4184 := by
  unfold cosmoConsts at h
  split_ifs at h
  · obtain ⟨k, -, h⟩ := Outcome.bind_eq_ok.1 h
    obtain ⟨a, -, h⟩ := Outcome.bind_eq_ok.1 h
    obtain ⟨b, -, h⟩ := Outcome.bind_eq_ok.1 h
    obtain ⟨f, -, h⟩ := Outcome.bind_eq_ok.1 h
    injection h with h
    subst h
    exact ⟨rfl, rfl, rfl, rfl, rfl, rfl⟩
  · injection h with h
    subst h
    exact ⟨rfl, rfl, rfl, rfl, rfl, rfl⟩

/-- The three constants of a document. -/
theorem cosmo_consts_values (j : JTree) (fs : List (String × JTree)) (h : j.at "constants" = .ok (.obj fs)) (a b : ℝ) (f : Bool)
    (ha : fs.lookup "A_ES / kcal A^4 /(mol e^2)" = some (.num a) ∨ fs.lookup "A_ES / kcal A^4 /(mol e^2)" = none ∧ a = 6525.69)
    (hb : fs.lookup "B_ES / kcal A^4 K^2/(mol e^2)" = some (.num b) ∨ fs.lookup "B_ES / kcal A^4 K^2/(mol e^2)" = none ∧ b = 1.4859e8)
    (hf : fs.lookup "fast_Gamma" = some (.bool f) ∨ fs.lookup "fast_Gamma" = none ∧ f = true) :
    ∃ c, cosmoConsts j = .ok c ∧ c.AES = a ∧ c.BES = b ∧ c.fast = f := by
  have hc : j.contains "constants" = true := by
    unfold JTree.at at h
    unfold JTree.contains
    cases j with
    | obj gs => cases hl : gs.lookup "constants" with
      | none => simp [hl] at h
      | some v => simp [hl]
    | null => simp at h
    | bool => simp at h
    | num => simp at h
    | str => simp at h
    | arr => simp at h
  have va : valueOr (.obj fs) "A_ES / kcal A^4 /(mol e^2)" JTree.toDouble ({} : CosmoConsts).AES = .ok a := by
    rcases ha with e | ⟨e, rfl⟩
    · simp [valueOr, JTree.contains, JTree.at, e, Outcome.bind, JTree.toDouble]
    · simp [valueOr, JTree.contains, e]
  have vb : valueOr (.obj fs) "B_ES / kcal A^4 K^2/(mol e^2)" JTree.toDouble ({} : CosmoConsts).BES = .ok b := by
    rcases hb with e | ⟨e, rfl⟩
    · simp [valueOr, JTree.contains, JTree.at, e, Outcome.bind, JTree.toDouble]
    · simp [valueOr, JTree.contains, e]
  have vf : valueOr (.obj fs) "fast_Gamma" JTree.toBool ({} : CosmoConsts).fast = .ok f := by
    rcases hf with e | ⟨e, rfl⟩
    · simp [valueOr, JTree.contains, JTree.at, e, Outcome.bind, JTree.toBool]
    · simp [valueOr, JTree.contains, e]
  unfold cosmoConsts
  rw [if_pos hc, h, Outcome.bind_ok, va, Outcome.bind_ok, vb, Outcome.bind_ok, vf, Outcome.bind_ok]
  exact ⟨_, rfl, rfl, rfl, rfl⟩

example : ∃ c, cosmoConsts (.obj [("constants", .obj [("fast_Gamma", .bool false), ("A_ES / kcal A^4 /(mol e^2)", .num 7000)])]) = .ok c
    ∧ c.AES = 7000 ∧ c.BES = 1.4859e8 ∧ c.fast = false :=
  cosmo_consts_values _ _ rfl _ _ _ (Or.inl rfl) (Or.inr ⟨rfl, rfl⟩) (Or.inl rfl)

/-- Constants that are not an object are an error of the JSON library. -/
theorem cosmo_consts_typed {j w : JTree} (hc : j.contains "constants" = true) (h : j.at "constants" = .ok w)
    (hw : ∀ fs, w ≠ .obj fs) : cosmoConsts j = .throws .jsonError := by
  unfold cosmoConsts
  rw [if_pos hc, h, Outcome.bind_ok]
  cases w with
  | obj fs => exact absurd rfl (hw fs)
  | _ => rfl

example : cosmoConsts (.obj [("constants", .arr [.num 1])]) = .throws .jsonError :=
  cosmo_consts_typed rfl rfl (by simp)

/-- The profiles of a fluid come from the entries of their names. -/
theorem cosmo_fluid_profiles (j : JTree) (f : CosmoFluid) (h : cosmoFluid j = .ok f) (t : CType) (k : String)
    (hk : (t, k) ∈ [(CType.nhb, "nhb"), (.oh, "oh"), (.ot, "ot")]) :
    ∃ e, j.at k = .ok e ∧ (e.at "p(sigma)*A / A^2").bind JTree.toRow = .ok (f.get t) ∧ f.get t ≠ [] := by
  have prof : ∀ (e : JTree) (p : List ℝ), cosmoProfile e = .ok p → (e.at "p(sigma)*A / A^2").bind JTree.toRow = .ok p ∧ p ≠ [] := by
    intro e p hp
    unfold cosmoProfile at hp
    obtain ⟨s, -, hp⟩ := Outcome.bind_eq_ok.1 hp
    obtain ⟨q, hq, hp⟩ := Outcome.bind_eq_ok.1 hp
    split_ifs at hp with h0
    injection hp with hp
    subst hp
    exact ⟨hq, fun h => h0 (Or.inr h)⟩
  unfold cosmoFluid at h
  obtain ⟨a, ha, h⟩ := Outcome.bind_eq_ok.1 h
  obtain ⟨b, hb, h⟩ := Outcome.bind_eq_ok.1 h
  obtain ⟨c, hc, h⟩ := Outcome.bind_eq_ok.1 h
  injection h with h
  subst h
  obtain ⟨ea, hea, ha⟩ := Outcome.bind_eq_ok.1 ha
  obtain ⟨eb, heb, hb⟩ := Outcome.bind_eq_ok.1 hb
  obtain ⟨ec, hec, hc⟩ := Outcome.bind_eq_ok.1 hc
  simp only [List.mem_cons, List.not_mem_nil, or_false, Prod.mk.injEq] at hk
  rcases hk with ⟨rfl, rfl⟩ | ⟨rfl, rfl⟩ | ⟨rfl, rfl⟩
  · exact ⟨ea, hea, prof _ _ ha⟩
  · exact ⟨eb, heb, prof _ _ hb⟩
  · exact ⟨ec, hec, prof _ _ hc⟩

/-- The charge densities of a profile are not used: whatever they are, the grid of the energies is the fixed one. -/
theorem cosmo_sigma_unused (s s' : List ℝ) (p : JTree) (hs : s ≠ []) (hs' : s' ≠ []) :
    cosmoProfile (.obj [("sigma / e/A^2", .arr (s.map JTree.num)), ("p(sigma)*A / A^2", p)])
      = cosmoProfile (.obj [("sigma / e/A^2", .arr (s'.map JTree.num)), ("p(sigma)*A / A^2", p)]) := by
  have e : ∀ s : List ℝ, (JTree.arr (s.map JTree.num)).toRow = .ok s := by
    intro s
    have := mapOutcome_ok_of JTree.toDouble JTree.num id (fun c => rfl) s
    rwa [List.map_id] at this
  unfold cosmoProfile
  have l1 : ∀ s : List ℝ, (JTree.obj [("sigma / e/A^2", .arr (s.map JTree.num)), ("p(sigma)*A / A^2", p)]).at "sigma / e/A^2" = .ok (.arr (s.map JTree.num)) := fun s => rfl
  have l2 : ∀ s : List ℝ, (JTree.obj [("sigma / e/A^2", .arr (s.map JTree.num)), ("p(sigma)*A / A^2", p)]).at "p(sigma)*A / A^2" = .ok p := fun s => rfl
  simp only [l1, l2, e, Outcome.bind_ok, hs, hs', false_or]

/-- Profiles and areas of a model from a document; the areas are at least as many as the profiles. -/
theorem cosmo_factory_ok (j : JTree) (m : Cosmo) (h : cosmoFactory j = .ok m) :
    m.fluids.length ≤ m.A.length ∧ (j.at "A_COSMOSAC / A^2").bind JTree.toRow = .ok m.A ∧ (j.at "V_COSMOSAC / A^3").bind JTree.toRow = .ok m.V ∧
      ∃ p, j.at "profiles" = .ok p ∧ mapOutcome cosmoFluid p.items = .ok m.fluids ∧ cosmoConsts j = .ok m.c := by
  unfold cosmoFactory at h
  obtain ⟨A, hA, h⟩ := Outcome.bind_eq_ok.1 h
  obtain ⟨V, hV, h⟩ := Outcome.bind_eq_ok.1 h
  obtain ⟨fl, hfl, h⟩ := Outcome.bind_eq_ok.1 h
  obtain ⟨c, hc, h⟩ := Outcome.bind_eq_ok.1 h
  obtain ⟨p, hp, hfl⟩ := Outcome.bind_eq_ok.1 hfl
  unfold Cosmo.make at h
  split_ifs at h with hl
  injection h with h
  subst h
  exact ⟨not_lt.1 hl, hA, hV, p, hp, hfl, hc⟩

/-- More profiles than areas: an array is read past its end. -/
theorem cosmo_too_few_areas (A V : List ℝ) (fl : List CosmoFluid) (c : CosmoConsts) : Cosmo.make A V fl c = .ub ↔ A.length < fl.length := by
  unfold Cosmo.make
  split_ifs with h <;> simp [h]

end Teqp.Props
