import Verif.Props.AssocRewrite
import Verif.Model.CPA
import Verif.Model.AdvPR
import Verif.Props.Ideal

/-! # C186: CPA, the Wilson model and the advanced Peng-Robinson model do not depend on how a mixture is written down -/

set_option autoImplicit false

namespace Teqp.Props
open Teqp Teqp.Model Teqp.Spec Finset

section
variable {N' N : ℕ} {f : Fin N' → Fin N}

/-- A condition on all entries of the new list is the condition on all components. -/
theorem exists_along (hf : Function.Surjective f) (P' P : ℕ → Prop) (h : ∀ k : Fin N', P' k ↔ P (f k)) : (∃ i < N', P' i) ↔ ∃ i < N, P i := by
  constructor
  · rintro ⟨i, hi, e⟩
    exact ⟨_, (f ⟨i, hi⟩).2, (h ⟨i, hi⟩).1 e⟩
  · rintro ⟨i, hi, e⟩
    obtain ⟨k, hk⟩ := hf ⟨i, hi⟩
    refine ⟨k, k.2, (h k).2 ?_⟩
    rw [hk]
    exact e

/-- The same substances in the cubic part of CPA. -/
structure SameCPACubic (f : Fin N' → Fin N) (c' c : CPACubic) : Prop where
  a0 : ∀ k : Fin N', c'.a0.getD k 0 = c.a0.getD (f k) 0
  b : ∀ k : Fin N', c'.b.getD k 0 = c.b.getD (f k) 0
  c1 : ∀ k : Fin N', c'.c1.getD k 0 = c.c1.getD (f k) 0
  Tc : ∀ k : Fin N', c'.Tc.getD k 0 = c.Tc.getD (f k) 0
  kij : ∀ k l : Fin N', c'.kij k l = c.kij (f k) (f l)
  d1 : c'.d1 = c.d1
  d2 : c'.d2 = c.d2
  R : c'.R = c.R
  len' : c'.a0.length = N' ∧ c'.b.length = N' ∧ c'.c1.length = N' ∧ c'.Tc.length = N'
  len : c.a0.length = N ∧ c.b.length = N ∧ c.c1.length = N ∧ c.Tc.length = N
  size' : ∀ k, c'.kmat = some k → k.length = N' ∧ ∀ i < N', (k.getD i []).length = N'
  size : ∀ k, c.kmat = some k → k.length = N ∧ ∀ i < N, (k.getD i []).length = N

variable {c' c : CPACubic}

theorem SameCPACubic.ai (h : SameCPACubic f c' c) (T : ℝ) (k : Fin N') : c'.ai T k = c.ai T (f k) := by
  unfold CPACubic.ai
  rw [h.a0, h.c1, h.Tc]

theorem SameCPACubic.amix (h : SameCPACubic f c' c) (T : ℝ) (x : Fin N' → ℝ) : c'.amix T (List.ofFn x) = c.amix T (List.ofFn (gathered f x)) := by
  unfold CPACubic.amix
  simp only [List.length_ofFn, sum_range, getD_ofFn_real]
  refine gathered_eq2 f x (fun i j => (1 - c.kij i j) * Real.sqrt (c.ai T i * c.ai T j)) (fun k l => ?_) fun i j => rfl
  rw [h.kij, h.ai, h.ai]

theorem SameCPACubic.bmix (h : SameCPACubic f c' c) (x : Fin N' → ℝ) : c'.bmix (List.ofFn x) = c.bmix (List.ofFn (gathered f x)) := by
  unfold CPACubic.bmix
  simp only [List.length_ofFn, sum_range, getD_ofFn_real]
  rw [← gathered_sum f x fun i : Fin N => c.b.getD i 0]
  exact sum_congr rfl fun k _ => by rw [h.b]

/-- **C186, the cubic part of CPA.** -/
theorem cpa_cubic_rewrite (h : SameCPACubic f c' c) (hf : Function.Surjective f) (T rho : ℝ) (x : Fin N' → ℝ) :
    c'.alphar T rho (List.ofFn x) = c.alphar T rho (List.ofFn (gathered f x)) := by
  obtain ⟨p1, p2, p3, p4⟩ := h.len'
  obtain ⟨q1, q2, q3, q4⟩ := h.len
  have n1 : ¬ (c'.a0.length < (List.ofFn x).length ∨ c'.b.length < (List.ofFn x).length ∨ c'.c1.length < (List.ofFn x).length ∨ c'.Tc.length < (List.ofFn x).length ∨
      (∃ k, c'.kmat = some k ∧ (k.length < (List.ofFn x).length ∨ ∃ i < (List.ofFn x).length, (k.getD i []).length < (List.ofFn x).length))) := by
    simp only [List.length_ofFn]
    rintro (e | e | e | e | ⟨k, e, e1 | ⟨i, hi, e1⟩⟩)
    · omega
    · omega
    · omega
    · omega
    · have := (h.size' k e).1; omega
    · have := (h.size' k e).2 i hi; omega
  have n2 : ¬ (c.a0.length < (List.ofFn (gathered f x)).length ∨ c.b.length < (List.ofFn (gathered f x)).length ∨ c.c1.length < (List.ofFn (gathered f x)).length ∨ c.Tc.length < (List.ofFn (gathered f x)).length ∨
      (∃ k, c.kmat = some k ∧ (k.length < (List.ofFn (gathered f x)).length ∨ ∃ i < (List.ofFn (gathered f x)).length, (k.getD i []).length < (List.ofFn (gathered f x)).length))) := by
    simp only [List.length_ofFn]
    rintro (e | e | e | e | ⟨k, e, e1 | ⟨i, hi, e1⟩⟩)
    · omega
    · omega
    · omega
    · omega
    · have := (h.size k e).1; omega
    · have := (h.size k e).2 i hi; omega
  have n3 : (∃ i < N', c'.Tc.getD i 0 = 0 ∨ T / c'.Tc.getD i 0 < 0 ∨ ∃ j < N', c'.ai T i * c'.ai T j < 0) ↔ ∃ i < N, c.Tc.getD i 0 = 0 ∨ T / c.Tc.getD i 0 < 0 ∨ ∃ j < N, c.ai T i * c.ai T j < 0 := by
    refine exists_along hf _ _ fun k => ?_
    rw [h.Tc, exists_along hf (fun j => c'.ai T k * c'.ai T j < 0) (fun j => c.ai T (f k) * c.ai T j < 0) fun l => by rw [h.ai, h.ai]]
  unfold CPACubic.alphar
  rw [if_neg n1, if_neg n2]
  by_cases g : ∃ i < N, c.Tc.getD i 0 = 0 ∨ T / c.Tc.getD i 0 < 0 ∨ ∃ j < N, c.ai T i * c.ai T j < 0
  · rw [if_pos (by simpa only [List.length_ofFn] using n3.2 g), if_pos (by simpa only [List.length_ofFn] using g)]
  · have g' : ¬ ∃ i < (List.ofFn (gathered f x)).length, c.Tc.getD i 0 = 0 ∨ T / c.Tc.getD i 0 < 0 ∨ ∃ j < (List.ofFn (gathered f x)).length, c.ai T i * c.ai T j < 0 := by
      simpa only [List.length_ofFn] using g
    rw [if_neg (by simpa only [List.length_ofFn] using fun q => g (n3.1 q)), if_neg g']
    simp only [h.amix, h.bmix, h.d1, h.d2, h.R]

/-- **C186, CPA** with the general association class: two or more components, or without the closed form. -/
theorem cpa_rewrite {o' o : AssocOptions} {mols' mols : List (List String)} {d' d : CanonicalData} (h : SameCPACubic f c' c) (ha : SameAssoc f o' o mols' mols d' d) (hf : Function.Surjective f)
    (hN : o.allowExplicit = false ∨ N ≠ 1) {a' a : AssocModel} (m' : AssocModel.make d' mols' o' = .ok a') (m : AssocModel.make d mols o = .ok a) (R0 NA T rho : ℝ) (x : Fin N' → ℝ) :
    CPAEOS.alphar R0 NA ⟨c', .new a'⟩ T rho (List.ofFn x) = CPAEOS.alphar R0 NA ⟨c, .new a⟩ T rho (List.ofFn (gathered f x)) := by
  unfold CPAEOS.alphar CPAAssocVariant.alphar
  simp only [List.length_ofFn, h.len'.1, h.len.1, ne_eq, not_true_eq_false, if_false]
  rw [cpa_cubic_rewrite h hf, assoc_rewrite_partial ha hf hN m' m]

/-- The same substances in the Wilson model. -/
structure SameWilson (f : Fin N' → Fin N) (w' w : Wilson) : Prop where
  b : ∀ k : Fin N', el w'.b k = el w.b (f k)
  A : ∀ (k l : Fin N') (T : ℝ), w'.A k l T = w.A (f k) (f l) T
  len' : w'.b.length = N' ∧ w'.m.n = N' ∧ w'.n.n = N'
  len : w.b.length = N ∧ w.m.n = N ∧ w.n.n = N

variable {w' w : Wilson}

theorem el_ofFn {M : ℕ} (x : Fin M → ℝ) (i : Fin M) : el (List.ofFn x) i = x i := getD_ofFn_real x i

theorem SameWilson.inner (h : SameWilson f w' w) (T : ℝ) (x : Fin N' → ℝ) (k : Fin N') : w'.inner T (List.ofFn x) k = w.inner T (List.ofFn (gathered f x)) (f k) := by
  unfold Wilson.inner
  simp only [List.length_ofFn, sum_range, el_ofFn]
  rw [← gathered_sum f x fun j : Fin N => el w.b j / el w.b (f k) * Real.exp (-w.A (f k) j T / T)]
  exact sum_congr rfl fun l _ => by rw [h.b, h.b, h.A]

theorem SameWilson.total (h : SameWilson f w' w) (hf : Function.Surjective f) (T : ℝ) (x : Fin N' → ℝ) : w'.total T (List.ofFn x) = w.total T (List.ofFn (gathered f x)) := by
  obtain ⟨p1, p2, p3⟩ := h.len'
  obtain ⟨q1, q2, q3⟩ := h.len
  have n1 : ¬ (w'.b.length < (List.ofFn x).length ∨ w'.m.n < (List.ofFn x).length ∨ w'.n.n < (List.ofFn x).length) := by
    rw [List.length_ofFn]; omega
  have n2 : ¬ (w.b.length < (List.ofFn (gathered f x)).length ∨ w.m.n < (List.ofFn (gathered f x)).length ∨ w.n.n < (List.ofFn (gathered f x)).length) := by
    rw [List.length_ofFn]; omega
  have n0 : List.ofFn x = [] ↔ List.ofFn (gathered f x) = [] := by
    rw [List.ofFn_eq_nil_iff, List.ofFn_eq_nil_iff]
    constructor
    · rintro rfl
      by_contra hne
      obtain ⟨k, -⟩ := hf ⟨0, Nat.pos_of_ne_zero hne⟩
      exact k.elim0
    · rintro rfl
      by_contra hne
      exact (f ⟨0, Nat.pos_of_ne_zero hne⟩).elim0
  have n3 : (∃ i ∈ range (List.ofFn x).length, el w'.b i = 0 ∨ w'.inner T (List.ofFn x) i ≤ 0) ↔ ∃ i ∈ range (List.ofFn (gathered f x)).length, el w.b i = 0 ∨ w.inner T (List.ofFn (gathered f x)) i ≤ 0 := by
    simp only [List.length_ofFn, mem_range]
    exact exists_along hf (fun i => el w'.b i = 0 ∨ w'.inner T (List.ofFn x) i ≤ 0) _ fun k => by rw [h.b, h.inner]
  have n4 : ∑ i ∈ range (List.ofFn x).length, el (List.ofFn x) i * Real.log (w'.inner T (List.ofFn x) i) =
      ∑ i ∈ range (List.ofFn (gathered f x)).length, el (List.ofFn (gathered f x)) i * Real.log (w.inner T (List.ofFn (gathered f x)) i) := by
    simp only [List.length_ofFn, sum_range, el_ofFn]
    rw [← gathered_sum f x fun i : Fin N => Real.log (w.inner T (List.ofFn (gathered f x)) i)]
    exact sum_congr rfl fun k _ => by rw [h.inner]
  unfold Wilson.total
  rw [if_neg n1, if_neg n2]
  simp only [n0, n3, n4]

theorem SameWilson.combinatorial (h : SameWilson f w' w) (hf : Function.Surjective f) (x : Fin N' → ℝ) : w'.combinatorial (List.ofFn x) = w.combinatorial (List.ofFn (gathered f x)) := by
  have V : ∑ i ∈ range (List.ofFn x).length, el (List.ofFn x) i * el w'.b i = ∑ i ∈ range (List.ofFn (gathered f x)).length, el (List.ofFn (gathered f x)) i * el w.b i := by
    simp only [List.length_ofFn, sum_range, el_ofFn]
    rw [← gathered_sum f x fun i : Fin N => el w.b i]
    exact sum_congr rfl fun k _ => by rw [h.b]
  unfold Wilson.combinatorial
  have b1 : ¬ (w'.b.length ≠ (List.ofFn x).length) := by rw [List.length_ofFn, h.len'.1]; simp
  have b2 : ¬ (w.b.length ≠ (List.ofFn (gathered f x)).length) := by rw [List.length_ofFn, h.len.1]; simp
  rw [if_neg b1, if_neg b2]
  simp only [V]
  set W := ∑ i ∈ range (List.ofFn (gathered f x)).length, el (List.ofFn (gathered f x)) i * el w.b i
  have n3 : (∃ i ∈ range (List.ofFn x).length, el w'.b i / W ≤ 0) ↔ ∃ i ∈ range (List.ofFn (gathered f x)).length, el w.b i / W ≤ 0 := by
    simp only [List.length_ofFn, mem_range]
    exact exists_along hf (fun i => el w'.b i / W ≤ 0) _ fun k => by rw [h.b]
  have n4 : ∑ i ∈ range (List.ofFn x).length, el (List.ofFn x) i * Real.log (el w'.b i / W) = ∑ i ∈ range (List.ofFn (gathered f x)).length, el (List.ofFn (gathered f x)) i * Real.log (el w.b i / W) := by
    simp only [List.length_ofFn, sum_range, el_ofFn]
    rw [← gathered_sum f x fun i : Fin N => Real.log (el w.b i / W)]
    exact sum_congr rfl fun k _ => by rw [h.b]
  simp only [n3, n4]

/-- **C186, the Wilson model.** -/
theorem wilson_rewrite (h : SameWilson f w' w) (hf : Function.Surjective f) (T : ℝ) (x : Fin N' → ℝ) : w'.eval T (List.ofFn x) = w.eval T (List.ofFn (gathered f x)) := by
  unfold Wilson.eval
  rw [h.total hf, h.combinatorial hf]

/-- The same substances in the advanced Peng-Robinson model, with the same excess energies. -/
structure SameAdv (f : Fin N' → Fin N) (m' m : AdvPR) : Prop where
  ai : ∀ k : Fin N', el m'.ai k = el m.ai (f k)
  bi : ∀ k : Fin N', el m'.bi k = el m.bi (f k)
  alphas : ∀ k : Fin N', m'.alphas.getD k (.basic 1 0) = m.alphas.getD (f k) (.basic 1 0)
  l : ∀ k l : Fin N', m'.lmat.get k l = m.lmat.get (f k) (f l)
  o : m'.o = m.o
  ares : ∀ (T : ℝ) (x : Fin N' → ℝ), m'.ares.eval T (List.ofFn x) = m.ares.eval T (List.ofFn (gathered f x))
  len' : m'.ai.length = N' ∧ m'.bi.length = N' ∧ m'.alphas.length = N' ∧ m'.lmat.rows = N' ∧ m'.lmat.cols = N'
  len : m.ai.length = N ∧ m.bi.length = N ∧ m.alphas.length = N ∧ m.lmat.rows = N ∧ m.lmat.cols = N

variable {m' m : AdvPR}

theorem SameAdv.nil (hf : Function.Surjective f) (x : Fin N' → ℝ) : List.ofFn x ≠ [] ↔ List.ofFn (gathered f x) ≠ [] := by
  rw [not_iff_not, List.ofFn_eq_nil_iff, List.ofFn_eq_nil_iff]
  constructor
  · rintro rfl
    by_contra hne
    obtain ⟨k, -⟩ := hf ⟨0, Nat.pos_of_ne_zero hne⟩
    exact k.elim0
  · rintro rfl
    by_contra hne
    exact (f ⟨0, Nat.pos_of_ne_zero hne⟩).elim0

theorem SameAdv.getB (h : SameAdv f m' m) (hf : Function.Surjective f) (x : Fin N' → ℝ) : m'.getB (List.ofFn x) = m.getB (List.ofFn (gathered f x)) := by
  obtain ⟨-, p2, -, p4, p5⟩ := h.len'
  obtain ⟨-, q2, -, q4, q5⟩ := h.len
  unfold AdvPR.getB
  rw [h.o]
  cases m.o.brule with
  | notSpecified => rfl
  | linear =>
    have b1 : ¬ m'.bi.length < (List.ofFn x).length := by rw [List.length_ofFn]; omega
    have b2 : ¬ m.bi.length < (List.ofFn (gathered f x)).length := by rw [List.length_ofFn]; omega
    simp only [if_neg b1, if_neg b2]
    simp only [List.length_ofFn, sum_range, el_ofFn]
    rw [← gathered_sum f x fun i : Fin N => el m.bi i]
    simp only [h.bi]
  | quadratic =>
    have b1 : ¬ (m'.bi.length < (List.ofFn x).length ∨ m'.lmat.rows < (List.ofFn x).length ∨ m'.lmat.cols < (List.ofFn x).length) := by rw [List.length_ofFn]; omega
    have b2 : ¬ (m.bi.length < (List.ofFn (gathered f x)).length ∨ m.lmat.rows < (List.ofFn (gathered f x)).length ∨ m.lmat.cols < (List.ofFn (gathered f x)).length) := by
      rw [List.length_ofFn]; omega
    simp only [if_neg b1, if_neg b2]
    have n3 : (List.ofFn x ≠ [] ∧ m.o.s = 0 ∨ ∃ i < (List.ofFn x).length, el m'.bi i < 0) ↔ (List.ofFn (gathered f x) ≠ [] ∧ m.o.s = 0 ∨ ∃ i < (List.ofFn (gathered f x)).length, el m.bi i < 0) := by
      rw [SameAdv.nil hf, List.length_ofFn, List.length_ofFn, exists_along hf (fun i => el m'.bi i < 0) (fun i => el m.bi i < 0) fun k => by rw [h.bi]]
    have n4 : ∑ i ∈ range (List.ofFn x).length, ∑ j ∈ range (List.ofFn x).length, el (List.ofFn x) i * el (List.ofFn x) j * m'.bij i j =
        ∑ i ∈ range (List.ofFn (gathered f x)).length, ∑ j ∈ range (List.ofFn (gathered f x)).length, el (List.ofFn (gathered f x)) i * el (List.ofFn (gathered f x)) j * m.bij i j := by
      simp only [List.length_ofFn, sum_range, el_ofFn]
      refine gathered_eq2 f x (fun i j => m.bij i j) (fun k l => ?_) fun i j => rfl
      unfold AdvPR.bij
      rw [h.l, h.bi, h.bi, h.o]
    rw [n4]
    by_cases g : List.ofFn (gathered f x) ≠ [] ∧ m.o.s = 0 ∨ ∃ i < (List.ofFn (gathered f x)).length, el m.bi i < 0
    · rw [if_pos g, if_pos (n3.2 g)]
    · rw [if_neg g, if_neg fun q => g (n3.1 q)]

theorem SameAdv.amOverBm (h : SameAdv f m' m) (hf : Function.Surjective f) (T : ℝ) (x : Fin N' → ℝ) : m'.amOverBm T (List.ofFn x) = m.amOverBm T (List.ofFn (gathered f x)) := by
  obtain ⟨p1, p2, p3, -, -⟩ := h.len'
  obtain ⟨q1, q2, q3, -, -⟩ := h.len
  unfold AdvPR.amOverBm
  rw [h.ares, h.o]
  congr 1
  funext e
  have b1 : ¬ (m'.ai.length < (List.ofFn x).length ∨ m'.bi.length < (List.ofFn x).length ∨ m'.alphas.length < (List.ofFn x).length) := by rw [List.length_ofFn]; omega
  have b2 : ¬ (m.ai.length < (List.ofFn (gathered f x)).length ∨ m.bi.length < (List.ofFn (gathered f x)).length ∨ m.alphas.length < (List.ofFn (gathered f x)).length) := by
    rw [List.length_ofFn]; omega
  rw [if_neg b1, if_neg b2]
  have n3 : (m.o.CEoS = 0 ∨ ∃ i < (List.ofFn x).length, el m'.bi i = 0) ↔ (m.o.CEoS = 0 ∨ ∃ i < (List.ofFn (gathered f x)).length, el m.bi i = 0) := by
    rw [List.length_ofFn, List.length_ofFn, exists_along hf (fun i => el m'.bi i = 0) (fun i => el m.bi i = 0) fun k => by rw [h.bi]]
  have n4 : ∑ i ∈ range (List.ofFn x).length, el (List.ofFn x) i * m'.aOf T i / el m'.bi i = ∑ i ∈ range (List.ofFn (gathered f x)).length, el (List.ofFn (gathered f x)) i * m.aOf T i / el m.bi i := by
    simp only [List.length_ofFn, sum_range, el_ofFn, mul_div_assoc]
    rw [← gathered_sum f x fun i : Fin N => m.aOf T i / el m.bi i]
    refine sum_congr rfl fun k _ => ?_
    unfold AdvPR.aOf
    rw [h.ai, h.bi, h.alphas]
  rw [n4]
  by_cases g : m.o.CEoS = 0 ∨ ∃ i < (List.ofFn (gathered f x)).length, el m.bi i = 0
  · rw [if_pos g, if_pos (n3.2 g)]
  · rw [if_neg g, if_neg fun q => g (n3.1 q)]

/-- **C186, the advanced Peng-Robinson model.** -/
theorem advPR_rewrite (h : SameAdv f m' m) (hf : Function.Surjective f) (T rho : ℝ) (x : Fin N' → ℝ) : m'.alphar T rho (List.ofFn x) = m.alphar T rho (List.ofFn (gathered f x)) := by
  unfold AdvPR.alphar
  rw [h.getB hf, h.amOverBm hf, h.o]
  simp only [List.length_ofFn, h.len'.2.2.1, h.len.2.2.1, ne_eq, not_true_eq_false, if_false]

/-! ## The ideal gas -/

theorem zipWith_ofFn_sum {M : ℕ} (x a : Fin M → ℝ) : (List.zipWith (· * ·) (List.ofFn x) (List.ofFn a)).sum = ∑ i, x i * a i := by
  have : List.zipWith (· * ·) (List.ofFn x) (List.ofFn a) = List.ofFn fun i => x i * a i := by
    refine List.ext_getElem (by simp) fun i h1 h2 => ?_
    simp
  rw [this, List.sum_ofFn]

theorem ideal_value_fin {M : ℕ} (p : Fin M → List IdealTerm) (a x : Fin M → ℝ) (T rho : ℝ) (ha : ∀ i, pureAlphaig (p i) T rho = .ok (a i)) :
    idealAlphaig (List.ofFn p) T rho (List.ofFn x) = .ok (∑ i, x i * a i + ∑ i, x i * Real.log (x i)) := by
  rw [ideal_mixture_value (List.ofFn p) (List.ofFn x) (List.ofFn a) T rho (by simp) (by simp) fun i h _ => by simpa using ha _, zipWith_ofFn_sum, List.map_ofFn, List.sum_ofFn]
  rfl

/-- **C186, the ideal gas**: the entries of a component count as different substances.  The value changes by their entropy of mixing. -/
theorem ideal_rewrite (f : Fin N' → Fin N) (p : Fin N → List IdealTerm) (a : Fin N → ℝ) (T rho : ℝ) (ha : ∀ i, pureAlphaig (p i) T rho = .ok (a i)) (x : Fin N' → ℝ) (hx : ∀ k, 0 ≤ x k) :
    ∃ v, idealAlphaig (List.ofFn p) T rho (List.ofFn (gathered f x)) = .ok v ∧
      idealAlphaig (List.ofFn fun k => p (f k)) T rho (List.ofFn x) = .ok (v + ∑ k, x k * Real.log (x k / gathered f x (f k))) := by
  refine ⟨_, ideal_value_fin p a (gathered f x) T rho ha, ?_⟩
  rw [ideal_value_fin (fun k => p (f k)) (fun k => a (f k)) x T rho fun k => ha (f k)]
  congr 1
  rw [gathered_sum f x a, ← gathered_sum f x fun i => Real.log (gathered f x i), add_assoc, ← sum_add_distrib]
  congr 1
  refine sum_congr rfl fun k _ => ?_
  rcases (hx k).eq_or_lt with h0 | h0
  · rw [← h0]; simp
  · have hg : 0 < gathered f x (f k) := h0.trans_le (single_le_sum (f := x) (fun l _ => hx l) (mem_filter.2 ⟨mem_univ k, rfl⟩))
    rw [Real.log_div h0.ne' hg.ne']
    ring

/-- Two entries of the same component that are both present: the value of the ideal gas is lower than for one entry. -/
theorem ideal_rewrite_lower (f : Fin N' → Fin N) (x : Fin N' → ℝ) (hx : ∀ k, 0 ≤ x k) (k l : Fin N') (hkl : k ≠ l) (hf : f k = f l) (hk : 0 < x k) (hl : 0 < x l) :
    ∑ k, x k * Real.log (x k / gathered f x (f k)) < 0 := by
  have hle (q : Fin N') : x q ≤ gathered f x (f q) := single_le_sum (f := x) (fun l _ => hx l) (mem_filter.2 ⟨mem_univ q, rfl⟩)
  refine sum_neg' (fun q _ => ?_) ⟨k, mem_univ _, ?_⟩
  · refine mul_nonpos_of_nonneg_of_nonpos (hx q) (Real.log_nonpos (div_nonneg (hx q) ((hx q).trans (hle q))) ?_)
    exact div_le_one_of_le₀ (hle q) ((hx q).trans (hle q))
  · refine mul_neg_of_pos_of_neg hk (Real.log_neg (div_pos hk (hk.trans_le (hle k))) ?_)
    rw [div_lt_one (hk.trans_le (hle k))]
    have h2 : ∑ q ∈ {k, l}, x q ≤ gathered f x (f k) := by
      refine sum_le_sum_of_subset_of_nonneg (fun q hq => ?_) fun q _ _ => hx q
      rw [mem_insert, mem_singleton] at hq
      refine mem_filter.2 ⟨mem_univ _, ?_⟩
      rcases hq with rfl | rfl
      · rfl
      · exact hf.symm
    rw [sum_pair hkl] at h2
    linarith
end

/-! ## Examples -/

/-- The cubic parts of a pair of substances, and of the same with the first one listed twice. -/
noncomputable def cpaTwice : CPACubic := ⟨[1, 2, 1], [3, 4, 3], [5, 6, 5], [7, 8, 7], 1, 0, 9, some [[0, 10, 0], [10, 0, 10], [0, 10, 0]]⟩
noncomputable def cpaOnce : CPACubic := ⟨[1, 2], [3, 4], [5, 6], [7, 8], 1, 0, 9, some [[0, 10], [10, 0]]⟩

theorem cpaTwice_same : SameCPACubic (![0, 1, 0] : Fin 3 → Fin 2) cpaTwice cpaOnce :=
    { a0 := fun k => by fin_cases k <;> rfl, b := fun k => by fin_cases k <;> rfl, c1 := fun k => by fin_cases k <;> rfl, Tc := fun k => by fin_cases k <;> rfl,
      kij := fun k l => by fin_cases k <;> fin_cases l <;> rfl
      d1 := rfl, d2 := rfl, R := rfl, len' := ⟨rfl, rfl, rfl, rfl⟩, len := ⟨rfl, rfl, rfl, rfl⟩
      size' := fun k hk => by
        cases hk
        exact ⟨rfl, fun i (hi : i < _) => by simp at hi; interval_cases i <;> rfl⟩
      size := fun k hk => by
        cases hk
        exact ⟨rfl, fun i (hi : i < _) => by simp at hi; interval_cases i <;> rfl⟩ }

example (T rho x y z : ℝ) : cpaTwice.alphar T rho [x, y, z] = cpaOnce.alphar T rho [x + z, y] := by
  have key := cpa_cubic_rewrite cpaTwice_same (fun i => by fin_cases i; exacts [⟨0, rfl⟩, ⟨1, rfl⟩]) T rho ![x, y, z]
  have e1 : List.ofFn ![x, y, z] = [x, y, z] := by simp [List.ofFn_succ]
  have e2 : List.ofFn (gathered ![(0 : Fin 2), 1, 0] ![x, y, z]) = [x + z, y] := by
    simp [List.ofFn_succ, gathered, sum_filter, Fin.sum_univ_three]
  rwa [e1, e2] at key

/-- With association: one site on the first substance, two on the second. -/
example : ∃ a' a, AssocModel.make ⟨[1, 2, 1], [3, 4, 3], [5, 6, 5], some .CS⟩ [["A"], ["A", "A"], ["A"]] {} = .ok a' ∧ AssocModel.make ⟨[1, 2], [3, 4], [5, 6], some .CS⟩ [["A"], ["A", "A"]] {} = .ok a ∧
    ∀ R NA T rho x y z : ℝ, CPAEOS.alphar R NA ⟨cpaTwice, .new a'⟩ T rho [x, y, z] = CPAEOS.alphar R NA ⟨cpaOnce, .new a⟩ T rho [x + z, y] := by
  have h1 : makeMapper [["A"], ["A", "A"], ["A"]] = .ok [⟨0, "A", 1⟩, ⟨1, "A", 2⟩, ⟨2, "A", 1⟩] := by
    simp [makeMapper, mapSites, unique_AA]
    simp [uniqueSites]
  have h2 : makeMapper [["A"], ["A", "A"]] = .ok [⟨0, "A", 1⟩, ⟨1, "A", 2⟩] := by
    simp [makeMapper, mapSites, unique_AA]
    simp [uniqueSites]
  have h : SameAssoc ![0, 1, 0] ({} : AssocOptions) {} [["A"], ["A", "A"], ["A"]] [["A"], ["A", "A"]] ⟨[1, 2, 1], [3, 4, 3], [5, 6, 5], some .CS⟩ ⟨[1, 2], [3, 4], [5, 6], some .CS⟩ :=
    { len' := rfl, len := rfl, mol := fun k => by fin_cases k <;> rfl, b := fun k => by fin_cases k <;> rfl, beta := fun k => by fin_cases k <;> rfl,
      epsilon := fun k => by fin_cases k <;> rfl, blen' := ⟨rfl, rfl, rfl⟩, blen := ⟨rfl, rfl, rfl⟩, dist := rfl, partners := rfl, explicit := rfl, alpha := rfl, rtol := rfl, atol := rfl, iters := rfl,
      mask := Or.inl ⟨rfl, rfl⟩ }
  refine ⟨_, _, by unfold AssocModel.make; rw [h1]; rfl, by unfold AssocModel.make; rw [h2]; rfl, fun R NA T rho x y z => ?_⟩
  have key := cpa_rewrite cpaTwice_same h (fun i => by fin_cases i; exacts [⟨0, rfl⟩, ⟨1, rfl⟩]) (Or.inr (by norm_num)) (by unfold AssocModel.make; rw [h1]; rfl) (by unfold AssocModel.make; rw [h2]; rfl) R NA T rho ![x, y, z]
  have e1 : List.ofFn ![x, y, z] = [x, y, z] := by simp [List.ofFn_succ]
  have e2 : List.ofFn (gathered ![(0 : Fin 2), 1, 0] ![x, y, z]) = [x + z, y] := by
    simp [List.ofFn_succ, gathered, sum_filter, Fin.sum_univ_three]
  rwa [e1, e2] at key

/-- Wilson parameters of two substances. -/
noncomputable def wilsonPair : Wilson := ⟨[1, 2], ⟨2, fun i j => if i = j then 0 else 3 + i⟩, ⟨2, fun i j => if i = j then 0 else 5⟩⟩

/-- The first of them listed twice. -/
noncomputable def wilsonTriple : Wilson := ⟨[1, 2, 1], ⟨3, fun i j => if i % 2 = j % 2 then 0 else 3 + (i % 2 : ℕ)⟩, ⟨3, fun i j => if i % 2 = j % 2 then 0 else 5⟩⟩

theorem wilsonTriple_same : SameWilson (![0, 1, 0] : Fin 3 → Fin 2) wilsonTriple wilsonPair where
  b k := by fin_cases k <;> rfl
  A k l T := by fin_cases k <;> fin_cases l <;> simp [wilsonTriple, wilsonPair, Wilson.A]
  len' := ⟨rfl, rfl, rfl⟩
  len := ⟨rfl, rfl, rfl⟩

example (T x y z : ℝ) : wilsonTriple.eval T [x, y, z] = wilsonPair.eval T [x + z, y] := by
  have key := wilson_rewrite wilsonTriple_same (fun i => by fin_cases i; exacts [⟨0, rfl⟩, ⟨1, rfl⟩]) T ![x, y, z]
  have e1 : List.ofFn ![x, y, z] = [x, y, z] := by simp [List.ofFn_succ]
  have e2 : List.ofFn (gathered ![(0 : Fin 2), 1, 0] ![x, y, z]) = [x + z, y] := by
    simp [List.ofFn_succ, gathered, sum_filter, Fin.sum_univ_three]
  rwa [e1, e2] at key

example (T rho x y z : ℝ) (o : AdvOptions) :
    (⟨[1, 2, 1], [3, 4, 3], [.basic 1 0, .basic 2 1, .basic 1 0], .wilson wilsonTriple, Mat.zero 3, o⟩ : AdvPR).alphar T rho [x, y, z] =
    (⟨[1, 2], [3, 4], [.basic 1 0, .basic 2 1], .wilson wilsonPair, Mat.zero 2, o⟩ : AdvPR).alphar T rho [x + z, y] := by
  have hs : Function.Surjective (![0, 1, 0] : Fin 3 → Fin 2) := fun i => by fin_cases i; exacts [⟨0, rfl⟩, ⟨1, rfl⟩]
  have h : SameAdv ![0, 1, 0] (⟨[1, 2, 1], [3, 4, 3], [.basic 1 0, .basic 2 1, .basic 1 0], .wilson wilsonTriple, Mat.zero 3, o⟩ : AdvPR)
      ⟨[1, 2], [3, 4], [.basic 1 0, .basic 2 1], .wilson wilsonPair, Mat.zero 2, o⟩ :=
    { ai := fun k => by fin_cases k <;> rfl, bi := fun k => by fin_cases k <;> rfl, alphas := fun k => by fin_cases k <;> rfl, l := fun _ _ => rfl, o := rfl
      ares := fun T x => wilson_rewrite wilsonTriple_same hs T x
      len' := ⟨rfl, rfl, rfl, rfl, rfl⟩, len := ⟨rfl, rfl, rfl, rfl, rfl⟩ }
  have key := advPR_rewrite h hs T rho ![x, y, z]
  have e1 : List.ofFn ![x, y, z] = [x, y, z] := by simp [List.ofFn_succ]
  have e2 : List.ofFn (gathered ![(0 : Fin 2), 1, 0] ![x, y, z]) = [x + z, y] := by
    simp [List.ofFn_succ, gathered, sum_filter, Fin.sum_univ_three]
  rwa [e1, e2] at key

/-- A gas with all its molecules listed under two names. -/
example : ∃ v, idealAlphaig [[.lead 1 300]] 300 5 [1/2 + 1/2] = .ok v ∧ idealAlphaig [[.lead 1 300], [.lead 1 300]] 300 5 [1/2, 1/2] = .ok (v - Real.log 2) := by
  obtain ⟨v, h1, h2⟩ := ideal_rewrite (fun _ : Fin 2 => (0 : Fin 1)) (fun _ => [.lead 1 300]) (fun _ => Real.log 5 + 1 + 300 / 300 + 0) 300 5 (fun _ => rfl) (fun _ => 1/2) (fun _ => by norm_num)
  have e : gathered (fun _ : Fin 2 => (0 : Fin 1)) (fun _ => (1/2 : ℝ)) 0 = 1/2 + 1/2 := by
    simp [gathered]
    norm_num
  refine ⟨v, ?_, ?_⟩
  · rw [← h1]
    rw [List.ofFn_succ, List.ofFn_zero, List.ofFn_succ, List.ofFn_zero, e]
  · simp only [e] at h2
    rw [show (v - Real.log 2 : ℝ) = v + ∑ _k : Fin 2, 1/2 * Real.log (1/2 / (1/2 + 1/2)) by
      rw [Fin.sum_univ_two, show (1/2 / (1/2 + 1/2) : ℝ) = 2⁻¹ by norm_num, Real.log_inv]; ring, ← h2]
    simp [List.ofFn_succ]

example : ∑ k, (![1/4, 1/2, 1/4] : Fin 3 → ℝ) k * Real.log ((![1/4, 1/2, 1/4] : Fin 3 → ℝ) k / gathered (![0, 1, 0] : Fin 3 → Fin 2) ![1/4, 1/2, 1/4] ((![0, 1, 0] : Fin 3 → Fin 2) k)) < 0 :=
  ideal_rewrite_lower (![0, 1, 0] : Fin 3 → Fin 2) ![1/4, 1/2, 1/4] (fun k => by fin_cases k <;> norm_num) 0 2 (by decide) rfl (by norm_num) (show (0 : ℝ) < 1/4 by norm_num)
end Teqp.Props
