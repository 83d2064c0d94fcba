import Verif.Props.CosmoMix
import Verif.Props.CPARewrite

/-! # C187: COSMO-SAC does not depend on how a mixture is written down, except for absent components in the fast branch -/

set_option autoImplicit false

namespace Teqp.Props
open Teqp Teqp.Model Teqp.Spec Finset

/-! ## The window -/

/-- The bounds are those that were given or those of a fluid. -/
theorem cosmoBounds_attained (fs : List (CosmoFluid × ℝ)) (l r : ℕ) :
    ((cosmoBounds fs (l, r)).1 = l ∨ ∃ e ∈ fs, (cosmoBounds fs (l, r)).1 = cosmoLeft e.2 e.1.nhb) ∧
    ((cosmoBounds fs (l, r)).2 = r ∨ ∃ e ∈ fs, (cosmoBounds fs (l, r)).2 = cosmoRight e.2 e.1.nhb) := by
  induction fs generalizing l r with
  | nil => exact ⟨Or.inl rfl, Or.inl rfl⟩
  | cons a fs ih =>
    obtain ⟨f, A⟩ := a
    unfold cosmoBounds
    obtain ⟨h1, h2⟩ := ih (if cosmoLeft A f.nhb < l then cosmoLeft A f.nhb else l) (if r < cosmoRight A f.nhb then cosmoRight A f.nhb else r)
    constructor
    · rcases h1 with h1 | ⟨e, he, h1⟩
      · rw [h1]
        split_ifs
        · exact Or.inr ⟨(f, A), by simp, rfl⟩
        · exact Or.inl rfl
      · exact Or.inr ⟨e, by simp [he], h1⟩
    · rcases h2 with h2 | ⟨e, he, h2⟩
      · rw [h2]
        split_ifs
        · exact Or.inr ⟨(f, A), by simp, rfl⟩
        · exact Or.inl rfl
      · exact Or.inr ⟨e, by simp [he], h2⟩

/-- The bounds depend on which fluids there are, not on their order or number. -/
theorem cosmoBounds_members (fs fs' : List (CosmoFluid × ℝ)) (h : ∀ e, e ∈ fs ↔ e ∈ fs') (lr : ℕ × ℕ) : cosmoBounds fs lr = cosmoBounds fs' lr := by
  obtain ⟨l, r⟩ := lr
  obtain ⟨a1, a2, a3⟩ := cosmoBounds_spec fs l r
  obtain ⟨b1, b2, b3⟩ := cosmoBounds_spec fs' l r
  obtain ⟨c1, c2⟩ := cosmoBounds_attained fs l r
  obtain ⟨d1, d2⟩ := cosmoBounds_attained fs' l r
  refine Prod.ext (le_antisymm ?_ ?_) (le_antisymm ?_ ?_)
  · rcases d1 with d | ⟨e, he, d⟩
    · omega
    · have := (a3 e ((h e).2 he)).1; omega
  · rcases c1 with d | ⟨e, he, d⟩
    · omega
    · have := (b3 e ((h e).1 he)).1; omega
  · rcases c2 with d | ⟨e, he, d⟩
    · omega
    · have := (b3 e ((h e).1 he)).2; omega
  · rcases d2 with d | ⟨e, he, d⟩
    · omega
    · have := (a3 e ((h e).2 he)).2; omega

theorem zip_ofFn_mem {M : ℕ} (fl : Fin M → CosmoFluid) (A : Fin M → ℝ) (e : CosmoFluid × ℝ) : e ∈ (List.ofFn fl).zip (List.ofFn A) ↔ ∃ i, (fl i, A i) = e := by
  have : (List.ofFn fl).zip (List.ofFn A) = List.ofFn fun i => (fl i, A i) := by
    refine List.ext_getElem (by simp) fun i h1 h2 => ?_
    simp
  rw [this, List.mem_ofFn']
  rfl

section
variable {N' N : ℕ} {f : Fin N' → Fin N}

/-- The models of the same fluids.  The windows need not be the same. -/
structure SameCosmo (f : Fin N' → Fin N) (m' m : Cosmo) : Prop where
  area : ∀ k : Fin N', m'.area k = m.area (f k)
  fluid : ∀ k : Fin N', m'.fluids.getD k ⟨[], [], []⟩ = m.fluids.getD (f k) ⟨[], [], []⟩
  vol : ∀ k : Fin N', m'.V.getD k 0 = m.V.getD (f k) 0
  c : m'.c = m.c
  len' : m'.fluids.length = N' ∧ m'.A.length = N' ∧ m'.V.length = N'
  len : m.fluids.length = N ∧ m.A.length = N ∧ m.V.length = N

theorem getD_ofFn_fluid {M : ℕ} (fl : Fin M → CosmoFluid) (i : Fin M) : (List.ofFn fl).getD i ⟨[], [], []⟩ = fl i := by
  rw [List.getD_eq_getElem _ _ (by simp)]
  simp

/-- The constructor: the same fluids, and the same window when every fluid is in both lists. -/
theorem cosmo_make_rewrite (f : Fin N' → Fin N) (A V : Fin N → ℝ) (fl : Fin N → CosmoFluid) (c : CosmoConsts) {m' m : Cosmo}
    (h' : Cosmo.make (List.ofFn fun k => A (f k)) (List.ofFn fun k => V (f k)) (List.ofFn fun k => fl (f k)) c = .ok m') (h : Cosmo.make (List.ofFn A) (List.ofFn V) (List.ofFn fl) c = .ok m) :
    SameCosmo f m' m ∧ (Function.Surjective f → m'.iL = m.iL ∧ m'.iR = m.iR) := by
  unfold Cosmo.make at h h'
  simp only [List.length_ofFn, lt_irrefl, if_false] at h h'
  injection h with h
  injection h' with h'
  subst h h'
  refine ⟨⟨fun k => ?_, fun k => ?_, fun k => ?_, rfl, by simp, by simp⟩, fun hf => ?_⟩
  · simp only [Cosmo.area]
    rw [getD_ofFn_real (fun k => A (f k)) k, getD_ofFn_real A (f k)]
  · simp only
    rw [getD_ofFn_fluid (fun k => fl (f k)) k, getD_ofFn_fluid fl (f k)]
  · simp only
    rw [getD_ofFn_real (fun k => V (f k)) k, getD_ofFn_real V (f k)]
  · have : cosmoBounds ((List.ofFn fun k => fl (f k)).zip (List.ofFn fun k => A (f k))) (51, 0) = cosmoBounds ((List.ofFn fl).zip (List.ofFn A)) (51, 0) := by
      refine cosmoBounds_members _ _ (fun e => ?_) _
      rw [zip_ofFn_mem, zip_ofFn_mem]
      constructor
      · rintro ⟨k, rfl⟩; exact ⟨f k, rfl⟩
      · rintro ⟨i, rfl⟩
        obtain ⟨k, rfl⟩ := hf i
        exact ⟨k, rfl⟩
    simp only [this, and_self]

variable {m' m : Cosmo}

theorem sum_el_ofFn {M : ℕ} (x : Fin M → ℝ) (y : ℕ → ℝ) : ∑ i ∈ range (List.ofFn x).length, el (List.ofFn x) i * y i = ∑ i : Fin M, x i * y i := by
  rw [List.length_ofFn, ← Fin.sum_univ_eq_sum_range fun i => el (List.ofFn x) i * y i]
  exact sum_congr rfl fun i _ => by rw [el_ofFn]

theorem cosmo_gathers (x : Fin N' → ℝ) (y' y : ℕ → ℝ) (h : ∀ k : Fin N', y' k = y (f k)) :
    ∑ i ∈ range (List.ofFn x).length, el (List.ofFn x) i * y' i = ∑ i ∈ range (List.ofFn (gathered f x)).length, el (List.ofFn (gathered f x)) i * y i := by
  rw [sum_el_ofFn, sum_el_ofFn, ← gathered_sum f x fun i => y i]
  exact sum_congr rfl fun k _ => by rw [h]

theorem SameCosmo.pA (h : SameCosmo f m' m) (k : Fin N') : m'.pA k = m.pA (f k) := by
  funext s
  unfold Cosmo.pA
  rw [h.fluid]

theorem SameCosmo.mix (h : SameCosmo f m' m) (x : Fin N' → ℝ) : m'.xA (List.ofFn x) = m.xA (List.ofFn (gathered f x)) ∧ m'.pMix (List.ofFn x) = m.pMix (List.ofFn (gathered f x)) := by
  have e : m'.xA (List.ofFn x) = m.xA (List.ofFn (gathered f x)) := cosmo_gathers x _ _ h.area
  refine ⟨e, funext fun s => ?_⟩
  unfold Cosmo.pMix
  rw [e, cosmo_gathers x (fun i => m'.pA i s) (fun i => m.pA i s) fun k => by rw [h.pA]]

/-- The value of the larger list is that of the smaller one. -/
theorem SameCosmo.resid_ok (h : SameCosmo f m' m) (hw : m'.lnGamma = m.lnGamma) (T : ℝ) (x : Fin N' → ℝ) {g : List ℝ} (hg : m.resid T (List.ofFn (gathered f x)) = .ok g) :
    m'.resid T (List.ofFn x) = .ok (List.ofFn fun k => el g (f k)) := by
  rw [cosmo_resid_value] at hg ⊢
  obtain ⟨h1, h2, L, hL, hlen, hall⟩ := hg
  push Not at h1
  obtain ⟨-, -, hfit⟩ := h1
  simp only [List.length_ofFn] at hlen hall hfit ⊢
  refine ⟨?_, ?_, L, ?_, trivial, fun i hi => ?_⟩
  · rintro (b | b | ⟨i, hi, b⟩)
    · rw [h.len'.1] at b; omega
    · rw [h.len'.2.1] at b; omega
    · refine b fun t => ?_
      have := hfit _ (f ⟨i, hi⟩).2 t
      rwa [← h.fluid ⟨i, hi⟩] at this
  · rwa [(h.mix x).1, h.c]
  · rw [(h.mix x).2, hw, hL]
  · obtain ⟨ha, Li, hLi, e⟩ := hall _ (f ⟨i, hi⟩).2
    have ea := h.area ⟨i, hi⟩
    have ep := h.pA ⟨i, hi⟩
    simp only at ea ep
    rw [ea, ep, hw, h.c]
    refine ⟨ha, Li, hLi, ?_⟩
    rw [← e]
    exact el_ofFn (fun k => el g (f k)) ⟨i, hi⟩

/-- Conversely when every component is listed. -/
theorem SameCosmo.resid_back (h : SameCosmo f m' m) (hf : Function.Surjective f) (hw : m'.lnGamma = m.lnGamma) (T : ℝ) (x : Fin N' → ℝ) {g' : List ℝ} (hg : m'.resid T (List.ofFn x) = .ok g') :
    ∃ g, m.resid T (List.ofFn (gathered f x)) = .ok g := by
  rw [cosmo_resid_value] at hg
  obtain ⟨h1, h2, L, hL, hlen, hall⟩ := hg
  push Not at h1
  obtain ⟨-, -, hfit⟩ := h1
  simp only [List.length_ofFn] at hlen hall hfit
  refine ⟨List.ofFn fun i : Fin N => el g' (Function.surjInv hf i : Fin N'), ?_⟩
  rw [cosmo_resid_value]
  simp only [List.length_ofFn]
  refine ⟨?_, ?_, L, ?_, trivial, fun i hi => ?_⟩
  · rintro (b | b | ⟨i, hi, b⟩)
    · rw [h.len.1] at b; omega
    · rw [h.len.2.1] at b; omega
    · refine b fun t => ?_
      have := hfit _ (Function.surjInv hf ⟨i, hi⟩).2 t
      rwa [h.fluid, Function.surjInv_eq hf] at this
  · rwa [(h.mix x).1, h.c] at h2
  · rw [← (h.mix x).2, ← hw, hL]
  · obtain ⟨ha, Li, hLi, e⟩ := hall _ (Function.surjInv hf ⟨i, hi⟩).2
    rw [h.area, Function.surjInv_eq hf] at ha
    rw [h.area, h.pA, Function.surjInv_eq hf, hw] at hLi
    rw [h.pA, Function.surjInv_eq hf, h.c] at e
    refine ⟨ha, Li, hLi, ?_⟩
    rw [← e]
    exact el_ofFn (fun i : Fin N => el g' (Function.surjInv hf i : Fin N')) ⟨i, hi⟩

theorem SameCosmo.eval_ok (h : SameCosmo f m' m) (hw : m'.lnGamma = m.lnGamma) (T : ℝ) (x : Fin N' → ℝ) {g : List ℝ} (hg : m.resid T (List.ofFn (gathered f x)) = .ok g) :
    m'.eval T (List.ofFn x) = m.eval T (List.ofFn (gathered f x)) := by
  unfold Cosmo.eval
  rw [hg, h.resid_ok hw T x hg, Outcome.bind_ok, Outcome.bind_ok, cosmo_gathers x (fun i => el (List.ofFn fun k => el g (f k)) i) (fun i => el g i) fun k => el_ofFn _ k]

end

section
variable {N' N : ℕ}

/-- **C187**: reordering the fluids, or listing one several times, leaves the residual part alone. -/
theorem cosmo_rewrite (f : Fin N' → Fin N) (hf : Function.Surjective f) (A V : Fin N → ℝ) (fl : Fin N → CosmoFluid) (c : CosmoConsts) {m' m : Cosmo}
    (h' : Cosmo.make (List.ofFn fun k => A (f k)) (List.ofFn fun k => V (f k)) (List.ofFn fun k => fl (f k)) c = .ok m') (h : Cosmo.make (List.ofFn A) (List.ofFn V) (List.ofFn fl) c = .ok m)
    (T : ℝ) (x : Fin N' → ℝ) (v : ℝ) : m'.eval T (List.ofFn x) = .ok v ↔ m.eval T (List.ofFn (gathered f x)) = .ok v := by
  obtain ⟨hs, hw⟩ := cosmo_make_rewrite f A V fl c h' h
  obtain ⟨hL, hR⟩ := hw hf
  have hl : m'.lnGamma = m.lnGamma := funext fun T => funext fun p => cosmo_lnGamma_congr m' m hs.c hL hR T p
  constructor
  · intro e
    obtain ⟨g', hg', -⟩ := Outcome.bind_eq_ok.1 e
    obtain ⟨g, hg⟩ := hs.resid_back hf hl T x hg'
    rw [← hs.eval_ok hl T x hg, e]
  · intro e
    obtain ⟨g, hg, -⟩ := Outcome.bind_eq_ok.1 e
    rw [hs.eval_ok hl T x hg, e]

/-- **C187, absent components**: without the fast branch a fluid that is not there has no influence, as long as it can be evaluated. -/
theorem cosmo_absent_partial (f : Fin N' → Fin N) (A V : Fin N → ℝ) (fl : Fin N → CosmoFluid) (c : CosmoConsts) (hc : c.fast = false) {m' m : Cosmo}
    (h' : Cosmo.make (List.ofFn fun k => A (f k)) (List.ofFn fun k => V (f k)) (List.ofFn fun k => fl (f k)) c = .ok m') (h : Cosmo.make (List.ofFn A) (List.ofFn V) (List.ofFn fl) c = .ok m)
    (T : ℝ) (x : Fin N' → ℝ) (v : ℝ) (hv : m.eval T (List.ofFn (gathered f x)) = .ok v) : m'.eval T (List.ofFn x) = .ok v := by
  obtain ⟨hs, -⟩ := cosmo_make_rewrite f A V fl c h' h
  have hmc : m.c = c := by
    unfold Cosmo.make at h
    split_ifs at h
    injection h with h
    rw [← h]
  have hl : m'.lnGamma = m.lnGamma := by
    funext T p
    have hw : m'.window = m.window := by
      funext s
      unfold Cosmo.window
      rw [hs.c, hmc, hc]
      rfl
    unfold Cosmo.lnGamma Cosmo.gamma
    rw [hw, hs.c, hmc, hc]
    simp only [Bool.false_eq_true, false_and, if_false]
  obtain ⟨g, hg, -⟩ := Outcome.bind_eq_ok.1 hv
  rw [hs.eval_ok hl T x hg, hv]

end

/-! ## The combinatorial part -/

section
variable {N' N : ℕ} {f : Fin N' → Fin N} {m' m : Cosmo}

/-- **C187, the combinatorial part**: the same coefficient for every entry of a fluid, or the same failure. -/
theorem cosmo_comb_rewrite (h : SameCosmo f m' m) (hf : Function.Surjective f) (x : Fin N' → ℝ) :
    m'.comb (List.ofFn x) = (m.comb (List.ofFn (gathered f x))).bind fun g => .ok (List.ofFn fun k => el g (f k)) := by
  have hq (k : Fin N') : m'.q k = m.q (f k) := by unfold Cosmo.q; rw [h.area]
  have hr (k : Fin N') : m'.r k = m.r (f k) := by unfold Cosmo.r; rw [h.vol]
  have hl (k : Fin N') : m'.l k = m.l (f k) := by unfold Cosmo.l; rw [hq, hr]
  have dq : Cosmo.dot (List.ofFn x) m'.q = Cosmo.dot (List.ofFn (gathered f x)) m.q := cosmo_gathers x _ _ hq
  have dr : Cosmo.dot (List.ofFn x) m'.r = Cosmo.dot (List.ofFn (gathered f x)) m.r := cosmo_gathers x _ _ hr
  have dl : Cosmo.dot (List.ofFn x) m'.l = Cosmo.dot (List.ofFn (gathered f x)) m.l := cosmo_gathers x _ _ hl
  have hN : N' = 0 ↔ N = 0 := by
    constructor
    · intro e
      by_contra b
      obtain ⟨k, -⟩ := hf ⟨0, Nat.pos_of_ne_zero b⟩
      have := k.2
      omega
    · intro e
      by_contra b
      have := (f ⟨0, Nat.pos_of_ne_zero b⟩).2
      omega
  unfold Cosmo.comb
  by_cases h0 : N = 0
  · have a0 : m.A = [] := List.length_eq_zero_iff.1 (by rw [h.len.2.1, h0])
    have a0' : m'.A = [] := List.length_eq_zero_iff.1 (by rw [h.len'.2.1, hN.2 h0])
    rw [if_pos (Or.inl a0), if_pos (Or.inl a0')]
    rfl
  · have h0' : N' ≠ 0 := fun e => h0 (hN.1 e)
    have b1 : ¬ (m.A = [] ∨ m.V = [] ∨ m.A.length ≠ m.V.length) := by
      rintro (b | b | b)
      · have := h.len.2.1; rw [b] at this; exact h0 this.symm
      · have := h.len.2.2; rw [b] at this; exact h0 this.symm
      · exact b (h.len.2.1.trans h.len.2.2.symm)
    have b1' : ¬ (m'.A = [] ∨ m'.V = [] ∨ m'.A.length ≠ m'.V.length) := by
      rintro (b | b | b)
      · have := h.len'.2.1; rw [b] at this; exact h0' this.symm
      · have := h.len'.2.2; rw [b] at this; exact h0' this.symm
      · exact b (h.len'.2.1.trans h.len'.2.2.symm)
    have b2 : ¬ (List.ofFn (gathered f x)).length ≠ m.A.length := by rw [List.length_ofFn, h.len.2.1]; simp
    have b2' : ¬ (List.ofFn x).length ≠ m'.A.length := by rw [List.length_ofFn, h.len'.2.1]; simp
    rw [if_neg b1, if_neg b1', if_neg b2, if_neg b2', dq, dr, dl, List.length_ofFn, List.length_ofFn]
    have ex := exists_along hf (fun i => m'.r i / Cosmo.dot (List.ofFn (gathered f x)) m.r ≤ 0 ∨ m'.q i / Cosmo.dot (List.ofFn (gathered f x)) m.q / (m'.r i / Cosmo.dot (List.ofFn (gathered f x)) m.r) ≤ 0)
      (fun i => m.r i / Cosmo.dot (List.ofFn (gathered f x)) m.r ≤ 0 ∨ m.q i / Cosmo.dot (List.ofFn (gathered f x)) m.q / (m.r i / Cosmo.dot (List.ofFn (gathered f x)) m.r) ≤ 0)
      fun k => by rw [hq, hr]
    rw [if_congr (or_congr_right (or_congr_right ex)) rfl rfl]
    split_ifs
    · rfl
    · rw [Outcome.bind_ok]
      congr 1
      refine List.ext_getElem (by simp) fun i hi _ => ?_
      have hi : i < N' := by simpa using hi
      have eq := hq ⟨i, hi⟩
      have er := hr ⟨i, hi⟩
      have el' := hl ⟨i, hi⟩
      simp only at eq er el'
      simp [el, eq, er, el']

end

/-! ## Absent components in the fast branch -/

/-- A fluid of two kinds of segments. -/
noncomputable def narrowFluid : CosmoFluid := ⟨15 :: 15 :: List.replicate 49 0, List.replicate 51 0, List.replicate 51 0⟩

/-- A fluid whose profile reaches the end of the grid. -/
noncomputable def wideFluid : CosmoFluid := ⟨List.replicate 50 0 ++ [30], List.replicate 51 0, List.replicate 51 0⟩

/-- Constants without interaction, for the fast or the slow branch. -/
noncomputable def idealConsts (b : Bool) : CosmoConsts := { AES := 0, BES := 0, cOHOH := 0, cOTOT := 0, cOHOT := 0, fast := b }

theorem idealConsts_K (q : Bool) (T : ℝ) (a b : CSeg) : (idealConsts q).K T a b = 1 := by
  have : (idealConsts q).chb a.1 b.1 = 0 := by
    unfold CosmoConsts.chb idealConsts
    split_ifs <;> rfl
  unfold CosmoConsts.K CosmoConsts.deltaW
  rw [this]
  simp [idealConsts]

theorem ideal_lnGamma (m : Cosmo) (q : Bool) (hc : m.c = idealConsts q) (hb : q = true → m.iL ≤ m.iR ∧ m.iR < 50) (T : ℝ) (hT : T ≠ 0) (p : CSeg → ℝ)
    (hp : ∑ s ∈ univ.filter (m.window · = true), p s = 1) : m.lnGamma T p = .ok fun _ => 0 := by
  have hs (a : CSeg) : segSum (m.c.K T) m.window p (fun _ => 1) a = 1 := by
    unfold segSum
    refine Eq.trans ?_ hp
    exact sum_congr rfl fun b _ => by rw [hc, idealConsts_K]; ring
  have hn : segNew (m.c.K T) m.window p (fun _ => 1) = fun _ => 1 := by
    funext a
    unfold segNew
    rw [hs]
    split_ifs <;> norm_num
  have hst : segStep (m.c.K T) m.window p (fun _ => 1) = fun _ => 1 := by
    funext a
    unfold segStep
    rw [hn]
    split_ifs <;> norm_num
  unfold Cosmo.lnGamma Cosmo.gamma
  have b1 : ¬ (m.c.fast ∧ (50 ≤ m.iR ∨ m.iR < m.iL)) := by
    rintro ⟨hq, h⟩
    rw [hc] at hq
    have := hb hq
    omega
  have b2 : ¬ (T = 0 ∨ m.c.R = 0) := by
    rintro (h | h)
    · exact hT h
    · rw [hc] at h
      norm_num [idealConsts] at h
  have b3 : ¬ ∃ a, m.window a = true ∧ (segSum (m.c.K T) m.window p (fun _ => 1) a = 0 ∨ segStep (m.c.K T) m.window p (fun _ => 1) a = 0) := by
    rintro ⟨a, -, h | h⟩
    · rw [hs] at h; norm_num at h
    · rw [hst] at h; norm_num at h
  have b4 : ∀ a, |(segStep (m.c.K T) m.window p (fun _ => 1) a - segNew (m.c.K T) m.window p (fun _ => 1) a) / segStep (m.c.K T) m.window p (fun _ => 1) a| < m.c.tol := by
    intro a
    rw [hst, hn, hc]
    norm_num [idealConsts]
  rw [if_neg b1, if_neg b2]
  unfold segLoop
  rw [if_neg b3, if_pos b4, hst, Outcome.bind_ok, if_neg (by rintro ⟨s, h⟩; norm_num at h)]
  simp

/-- Without interaction the residual part is zero, for profiles that add up to the areas within the window. -/
theorem ideal_eval (m : Cosmo) (q : Bool) (hc : m.c = idealConsts q) (hb : q = true → m.iL ≤ m.iR ∧ m.iR < 50) (T : ℝ) (hT : T ≠ 0) (x : List ℝ) (hF : x.length ≤ m.fluids.length)
    (hA : x.length ≤ m.A.length) (hfit : ∀ i < x.length, m.fits i) (hx : m.xA x ≠ 0)
    (hi : ∀ i < x.length, m.area i ≠ 0 ∧ ∑ s ∈ univ.filter (m.window · = true), m.pA i s = m.area i) : m.eval T x = .ok 0 := by
  have hmix : ∑ s ∈ univ.filter (m.window · = true), m.pMix x s = 1 := by
    unfold Cosmo.pMix
    rw [← sum_div, sum_comm, div_eq_one_iff_eq hx]
    unfold Cosmo.xA
    refine sum_congr rfl fun i hir => ?_
    rw [← mul_sum, (hi i (mem_range.1 hir)).2]
  have hr : m.resid T x = .ok (List.replicate x.length 0) := by
    rw [cosmo_resid_value]
    refine ⟨?_, ?_, fun _ => 0, ideal_lnGamma m q hc hb T hT _ hmix, by simp, fun i hil => ⟨(hi i hil).1, fun _ => 0, ideal_lnGamma m q hc hb T hT _ ?_, ?_⟩⟩
    · rintro (b | b | ⟨i, hil, b⟩)
      · omega
      · omega
      · exact b (hfit i hil)
    · rintro (b | b)
      · exact hx b
      · rw [hc] at b
        norm_num [idealConsts] at b
    · rw [← sum_div, (hi i hil).2, div_self (hi i hil).1]
    · rw [el, getD_replicate_zero]
      simp
  unfold Cosmo.eval
  rw [hr, Outcome.bind_ok]
  congr 1
  exact sum_eq_zero fun i _ => by rw [show el (List.replicate x.length 0) i = 0 from getD_replicate_zero _ _, mul_zero]

theorem narrow_left : cosmoLeft 30 narrowFluid.nhb = 0 := by
  have : cosmoSeen 30 15 = true := (cosmoSeen_eq 30 15 (by norm_num)).1.2 (by norm_num)
  unfold cosmoLeft narrowFluid
  simp [List.findIdx?_cons, this]

theorem narrow_right : cosmoRight 30 narrowFluid.nhb = 1 := by
  have h1 : cosmoSeen 30 15 = true := (cosmoSeen_eq 30 15 (by norm_num)).1.2 (by norm_num)
  have h0 : cosmoSeen 30 0 = false := (cosmoSeen_eq 30 0 (by norm_num)).2.2 (by norm_num)
  have scan (n : ℕ) : cosmoScan 30 narrowFluid.nhb 0 (n + 1) = some 1 := by
    induction n with
    | zero => simp [cosmoScan, narrowFluid, h1]
    | succ n ih =>
      unfold cosmoScan
      have : narrowFluid.nhb.getD (n + 1 + 1) 0 = 0 := by
        unfold narrowFluid
        simp only [List.getD_cons_succ]
        exact getD_replicate_zero 49 n
      rw [this, h0, if_pos (by omega), ih]
      simp
  unfold cosmoRight
  rw [narrow_left, show narrowFluid.nhb.length - 1 = 49 + 1 from rfl, scan 49]
  rfl

theorem narrow_pA (m : Cosmo) (fs : List CosmoFluid) (hm : m.fluids = narrowFluid :: fs) (s : CSeg) : m.pA 0 s = if s = (.nhb, 0) ∨ s = (.nhb, 1) then 15 else 0 := by
  unfold Cosmo.pA
  rw [hm]
  obtain ⟨t, k⟩ := s
  cases t with
  | nhb =>
    show (15 :: 15 :: List.replicate 49 0).getD (k : ℕ) (0 : ℝ) = _
    rcases k with ⟨k, hk⟩
    match k with
    | 0 => simp
    | 1 => simp
    | k + 2 =>
      rw [List.getD_cons_succ, List.getD_cons_succ, getD_replicate_zero, if_neg]
      rintro (h | h) <;> simp [Fin.ext_iff] at h
  | oh => rw [if_neg (by simp)]; exact getD_replicate_zero 51 k
  | ot => rw [if_neg (by simp)]; exact getD_replicate_zero 51 k

theorem narrow_sum (m : Cosmo) (fs : List CosmoFluid) (hm : m.fluids = narrowFluid :: fs) (hw : m.window (.nhb, 0) = true ∧ m.window (.nhb, 1) = true) :
    ∑ s ∈ univ.filter (m.window · = true), m.pA 0 s = 30 := by
  have hsub : ({(.nhb, 0), (.nhb, 1)} : Finset CSeg) ⊆ univ.filter (m.window · = true) := by
    intro s hs
    rw [mem_insert, mem_singleton] at hs
    rcases hs with rfl | rfl
    · exact mem_filter.2 ⟨mem_univ _, hw.1⟩
    · exact mem_filter.2 ⟨mem_univ _, hw.2⟩
  rw [← sum_subset hsub fun s _ hs => by
    rw [narrow_pA m fs hm, if_neg (by simpa using hs)], sum_pair (by decide), narrow_pA m fs hm, narrow_pA m fs hm, if_pos (Or.inl rfl), if_pos (Or.inr rfl)]
  norm_num

/-- One fluid in the fast branch: its residual part is zero. -/
theorem narrow_eval (m : Cosmo) (h : Cosmo.make [30] [20] [narrowFluid] (idealConsts true) = .ok m) (T : ℝ) (hT : T ≠ 0) : m.eval T [1] = .ok 0 := by
  have hm : m = ⟨[30], [20], [narrowFluid], idealConsts true, 0, 1⟩ := by
    unfold Cosmo.make at h
    rw [if_neg (by simp)] at h
    injection h with h
    rw [← h]
    simp [cosmoBounds, narrow_left, narrow_right]
  have h0 : ∀ i < ([1] : List ℝ).length, i = 0 := fun i hi => by simpa using hi
  have hw : m.window (.nhb, 0) = true ∧ m.window (.nhb, 1) = true := by rw [hm]; constructor <;> simp [Cosmo.window]
  have harea : m.area 0 = 30 := by rw [hm]; rfl
  refine ideal_eval m true (by rw [hm]) (fun _ => by rw [hm]; norm_num) T hT [1] (by rw [hm]; simp) (by rw [hm]; simp) (fun i hi t => ?_) ?_ fun i hi => ?_
  · rw [h0 i hi, hm]
    cases t <;> rfl
  · unfold Cosmo.xA
    simp [el, harea]
  · rw [h0 i hi, harea, narrow_sum m [] (by rw [hm]) hw]
    norm_num

/-- The same fluid with another one that is absent: the fast branch writes outside of its matrices. -/
theorem wide_eval (m : Cosmo) (h : Cosmo.make [30, 30] [20, 20] [narrowFluid, wideFluid] (idealConsts true) = .ok m) (T : ℝ) : m.eval T [1, 0] = .ub := by
  have hg (p : CSeg → ℝ) : m.gamma T p = .ub := by
    refine cosmo_fast_overflow _ _ _ _ m h rfl 1 (by simp) rfl (by norm_num) (Or.inl ?_) T p
    have : (([narrowFluid, wideFluid] : List CosmoFluid).getD 1 ⟨[], [], []⟩).nhb.getD 50 0 = 30 := rfl
    rw [this]
    norm_num
  have hm : m.A = [30, 30] ∧ m.fluids = [narrowFluid, wideFluid] ∧ m.c = idealConsts true := by
    unfold Cosmo.make at h
    rw [if_neg (by simp)] at h
    injection h with h
    rw [← h]
    exact ⟨rfl, rfl, rfl⟩
  have hxA : m.xA [1, 0] = 30 := by
    unfold Cosmo.xA Cosmo.area
    rw [hm.1]
    simp [sum_range_succ, el]
  unfold Cosmo.eval Cosmo.resid
  split_ifs with h1 h2
  · rfl
  · rw [hxA, hm.2.2] at h2
    norm_num [idealConsts] at h2
  · unfold Cosmo.lnGamma
    rw [hg]
    rfl

/-- **C187 is false of the fast branch for absent components**: it has a value for one fluid, and undefined behaviour with another one of fraction zero. -/
theorem cosmo_absent_false : ∃ m' m : Cosmo, Cosmo.make [30] [20] [narrowFluid] (idealConsts true) = .ok m' ∧ Cosmo.make [30, 30] [20, 20] [narrowFluid, wideFluid] (idealConsts true) = .ok m ∧
    ∀ T : ℝ, T ≠ 0 → m'.eval T [1] = .ok 0 ∧ m.eval T [1, 0] = .ub :=
  ⟨_, _, rfl, rfl, fun T hT => ⟨narrow_eval _ rfl T hT, wide_eval _ rfl T⟩⟩

/-! ## Examples -/

/-- The fluid listed twice, in the fast branch. -/
example (m m' : Cosmo) (h : Cosmo.make [30] [20] [narrowFluid] (idealConsts true) = .ok m) (h' : Cosmo.make [30, 30] [20, 20] [narrowFluid, narrowFluid] (idealConsts true) = .ok m') :
    m'.eval 300 [1/4, 3/4] = .ok 0 := by
  have key := cosmo_rewrite (fun _ : Fin 2 => (0 : Fin 1)) (fun i => ⟨0, (Fin.fin_one_eq_zero i).symm⟩) (fun _ => 30) (fun _ => 20) (fun _ => narrowFluid) (idealConsts true) (m' := m') (m := m)
    (by rw [← h']; rfl) (by rw [← h]; rfl) 300 ![1/4, 3/4] 0
  have e : gathered (fun _ : Fin 2 => (0 : Fin 1)) ![1/4, 3/4] 0 = (1 : ℝ) := by
    simp [gathered]
    norm_num
  rw [List.ofFn_succ, List.ofFn_succ, List.ofFn_zero, List.ofFn_succ, List.ofFn_zero, e] at key
  exact key.2 (narrow_eval m h 300 (by norm_num))

/-- Two fluids, the first one listed twice: the combinatorial coefficients of both entries are that of the fluid. -/
example (m m' : Cosmo) (h : Cosmo.make [30, 60] [20, 50] [narrowFluid, wideFluid] (idealConsts true) = .ok m)
    (h' : Cosmo.make [30, 60, 30] [20, 50, 20] [narrowFluid, wideFluid, narrowFluid] (idealConsts true) = .ok m') :
    ∃ g, m.comb [1/2, 1/2] = .ok g ∧ m'.comb [1/4, 1/2, 1/4] = .ok [el g 0, el g 1, el g 0] := by
  have hm : m.A = [30, 60] ∧ m.V = [20, 50] := by
    unfold Cosmo.make at h
    rw [if_neg (by simp)] at h
    injection h with h
    rw [← h]
    exact ⟨rfl, rfl⟩
  obtain ⟨g, hg, -⟩ := (cosmo_comb_ends m [1/2, 1/2] (by rw [hm.1]; simp) (by rw [hm.1, hm.2]; rfl)).2 (by rw [hm.1]; rfl) (by rw [hm.1]; simp) (by rw [hm.2]; simp) (by simp) (by simp)
  refine ⟨g, hg, ?_⟩
  have hs := (cosmo_make_rewrite (![0, 1, 0] : Fin 3 → Fin 2) ![30, 60] ![20, 50] ![narrowFluid, wideFluid] (idealConsts true) (m' := m') (m := m) (by rw [← h']; rfl) (by rw [← h]; rfl)).1
  have key := cosmo_comb_rewrite hs (fun i => by fin_cases i; exacts [⟨0, rfl⟩, ⟨1, rfl⟩]) ![1/4, 1/2, 1/4]
  have e1 : List.ofFn (![1/4, 1/2, 1/4] : Fin 3 → ℝ) = [1/4, 1/2, 1/4] := by simp [List.ofFn_succ]
  have e2 : List.ofFn (gathered ![(0 : Fin 2), 1, 0] ![1/4, 1/2, 1/4]) = ([1/2, 1/2] : List ℝ) := by
    simp [List.ofFn_succ, gathered, sum_filter, Fin.sum_univ_three]
    norm_num
  rw [e1, e2, hg, Outcome.bind_ok] at key
  rw [key]
  simp [List.ofFn_succ]

theorem wide_sum (m : Cosmo) (hm : m.fluids = [narrowFluid, wideFluid]) (hw : ∀ s, m.window s = true) : ∑ s ∈ univ.filter (m.window · = true), m.pA 1 s = 30 := by
  have hp (s : CSeg) : m.pA 1 s = if s = (.nhb, 50) then 30 else 0 := by
    unfold Cosmo.pA
    rw [hm]
    obtain ⟨t, k⟩ := s
    cases t with
    | nhb =>
      show (List.replicate 50 (0 : ℝ) ++ [30]).getD (k : ℕ) 0 = _
      by_cases hk : k = 50
      · rw [hk, if_pos rfl]
        rfl
      · have : (k : ℕ) < 50 := by
          have h1 := k.2
          have h2 : (k : ℕ) ≠ 50 := fun h => hk (Fin.ext h)
          omega
        rw [if_neg (by simpa using hk), List.getD_append _ _ _ _ (by simpa using this), getD_replicate_zero]
    | oh => rw [if_neg (by simp)]; exact getD_replicate_zero 51 k
    | ot => rw [if_neg (by simp)]; exact getD_replicate_zero 51 k
  rw [filter_true_of_mem fun s _ => hw s, sum_congr rfl fun s _ => hp s]
  simp

/-- The pair of `cosmo_absent_false` in the slow branch: the value with the absent fluid is that without it. -/
example (m m' : Cosmo) (h : Cosmo.make [30, 30] [20, 20] [narrowFluid, wideFluid] (idealConsts false) = .ok m) (h' : Cosmo.make [30] [20] [narrowFluid] (idealConsts false) = .ok m') :
    m'.eval 300 [1] = .ok 0 := by
  refine cosmo_absent_partial (fun _ : Fin 1 => (0 : Fin 2)) ![30, 30] ![20, 20] ![narrowFluid, wideFluid] (idealConsts false) rfl (m' := m') (m := m) (by rw [← h']; rfl) (by rw [← h]; rfl) 300 ![1] 0 ?_
  have e : List.ofFn (gathered (fun _ : Fin 1 => (0 : Fin 2)) ![1]) = [1, 0] := by simp [List.ofFn_succ, gathered]
  have hm : m.A = [30, 30] ∧ m.fluids = [narrowFluid, wideFluid] ∧ m.c = idealConsts false := by
    unfold Cosmo.make at h
    rw [if_neg (by simp)] at h
    injection h with h
    rw [← h]
    exact ⟨rfl, rfl, rfl⟩
  have h0 : ∀ i < ([1, 0] : List ℝ).length, i = 0 ∨ i = 1 := fun i hi => by simp at hi; omega
  have hw (s : CSeg) : m.window s = true := by
    unfold Cosmo.window
    rw [hm.2.2]
    rfl
  have harea : m.area 0 = 30 ∧ m.area 1 = 30 := by
    unfold Cosmo.area
    rw [hm.1]
    exact ⟨rfl, rfl⟩
  rw [e]
  refine ideal_eval m false hm.2.2 (fun h => absurd h (by simp)) 300 (by norm_num) [1, 0] (by rw [hm.2.1]; simp) (by rw [hm.1]; simp) (fun i hi t => ?_) ?_ fun i hi => ?_
  · rw [hm.2.1]
    rcases h0 i hi with rfl | rfl <;> cases t <;> rfl
  · unfold Cosmo.xA
    simp [sum_range_succ, el, harea]
  · rcases h0 i hi with rfl | rfl
    · rw [harea.1, narrow_sum m _ hm.2.1 ⟨hw _, hw _⟩]
      norm_num
    · rw [harea.2, wide_sum m hm.2.1 hw]
      norm_num

end Teqp.Props
