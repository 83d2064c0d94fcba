import Verif.Props.Rewrite
import Verif.Props.AssocSites
import Verif.Props.Assoc
import Mathlib.NumberTheory.Real.Irrational

/-! # C184: association does not depend on how a mixture is written down -/

set_option autoImplicit false

namespace Teqp.Props
open Teqp.Model
/-- The same associating substances, written down in another way: the molecules and their parameters agree along `f`.  The options agree, apart from the mask, which says the same about every component;
a mask is only allowed when no component is listed twice. -/
structure SameAssoc {N' N : ℕ} (f : Fin N' → Fin N) (o' o : AssocOptions) (mols' mols : List (List String)) (d' d : CanonicalData) : Prop where
  len' : mols'.length = N'
  len : mols.length = N
  mol : ∀ k : Fin N', mols'[(k : ℕ)]? = mols[(f k : ℕ)]?
  b : ∀ k : Fin N', d'.b.getD k 0 = d.b.getD (f k) 0
  beta : ∀ k : Fin N', d'.beta.getD k 0 = d.beta.getD (f k) 0
  epsilon : ∀ k : Fin N', d'.epsilon.getD k 0 = d.epsilon.getD (f k) 0
  blen' : d'.b.length = N' ∧ d'.beta.length = N' ∧ d'.epsilon.length = N'
  blen : d.b.length = N ∧ d.beta.length = N ∧ d.epsilon.length = N
  dist : d'.radialDist = d.radialDist
  partners : o'.partners = o.partners
  explicit : o'.allowExplicit = o.allowExplicit
  alpha : o'.alpha = o.alpha
  rtol : o'.rtol = o.rtol
  atol : o'.atol = o.atol
  iters : o'.maxIters = o.maxIters
  mask : (o'.mask = [] ∧ o.mask = []) ∨ (Function.Injective f ∧ (o'.mask = [] ↔ o.mask = []) ∧ ∀ k : Fin N', o'.mask[(k : ℕ)]? = o.mask[(f k : ℕ)]?)
end Teqp.Props

namespace Teqp.Props
open Teqp Teqp.Model Teqp.Spec Finset

section
variable {n' n : ℕ} (g : Fin n' → Fin n)

theorem massStep_along (α : ℝ) (K' : Fin n' → Fin n' → ℝ) (K : Fin n → Fin n → ℝ) (hK : ∀ k (Y : Fin n → ℝ), ∑ l, K' k l * Y (g l) = ∑ j, K (g k) j * Y j) (X : Fin n → ℝ) :
    massStep α K' (fun k => X (g k)) = fun k => massStep α K X (g k) := by
  funext k
  unfold massStep
  rw [hK k X]

/-- The iteration does the same with every copy of a site. -/
theorem ssLoop_along (hg : Function.Surjective g) (α rtol atol : ℝ) (K' : Fin n' → Fin n' → ℝ) (K : Fin n → Fin n → ℝ)
    (hK : ∀ k (Y : Fin n → ℝ), ∑ l, K' k l * Y (g l) = ∑ j, K (g k) j * Y j) (m : ℕ) : ∀ X : Fin n → ℝ,
    ssLoop α rtol atol K' m (fun k => X (g k)) = fun k => ssLoop α rtol atol K m X (g k) := by
  induction m with
  | zero => intro X; rfl
  | succ m ih =>
    intro X
    rw [ssLoop, ssLoop]
    simp only [massStep_along g α K' K hK X]
    have hc : (∀ i, |ADScalar.base (massStep α K X (g i) - X (g i))| < ADScalar.base (ADScalar.ofR rtol * massStep α K X (g i) + ADScalar.ofR atol)) ↔
        ∀ i, |ADScalar.base (massStep α K X i - X i)| < ADScalar.base (ADScalar.ofR rtol * massStep α K X i + ADScalar.ofR atol) := by
      constructor
      · intro h i
        obtain ⟨k, rfl⟩ := hg i
        exact h k
      · intro h k
        exact h (g k)
    by_cases h : ∀ i, |ADScalar.base (massStep α K X i - X i)| < ADScalar.base (ADScalar.ofR rtol * massStep α K X i + ADScalar.ofR atol)
    · rw [if_pos h, if_pos (hc.2 h)]
    · rw [if_neg h, if_neg fun h' => h (hc.1 h')]
      exact ih (massStep α K X)

/-- The sum over the components and their sites is a sum over the sites. -/
theorem assocSum_sites {N : ℕ} (x : Fin N → ℝ) (comp count : Fin n → ℕ) (c : Fin n → Fin N) (hc : ∀ I, comp I = c I) (X : Fin n → ℝ) :
    assocSum (List.ofFn x) comp count X = ∑ I, x (c I) * ((Real.log (X I) - X I * (1/2) + 1/2) * count I) := by
  unfold assocSum
  rw [List.length_ofFn, sum_range]
  have h1 (i : Fin N) : (List.ofFn x).getD (i : ℕ) 0 = x i := by simp [List.getD_eq_getElem?_getD]
  simp only [h1, mul_sum]
  rw [sum_comm]
  refine sum_congr rfl fun I _ => ?_
  rw [sum_eq_single (c I)]
  · rw [if_pos (hc I)]
    rfl
  · intro i _ hi
    rw [if_neg, mul_zero]
    rw [hc I]
    exact fun h => hi (Fin.ext h.symm)
  · intro h
    exact absurd (mem_univ _) h
end

section
variable {N' N : ℕ} {f : Fin N' → Fin N} {o' o : AssocOptions} {mols' mols : List (List String)} {d' d : CanonicalData}

/-- The sites of the two lists correspond to each other, and the fractions gather. -/
theorem SameAssoc.sites (h : SameAssoc f o' o mols' mols d' d) (hf : Function.Surjective f) {s' s : List AssocSite} (h' : makeMapper mols' = .ok s') (hs : makeMapper mols = .ok s) :
    ∃ (g : Fin s'.length → Fin s.length) (c' : Fin s'.length → Fin N') (c : Fin s.length → Fin N), Function.Surjective g ∧ (∀ I, (s'.get I).comp = c' I) ∧ (∀ I, (s.get I).comp = c I) ∧
      (∀ I, c (g I) = f (c' I)) ∧ (∀ I, (s.get (g I)).name = (s'.get I).name) ∧ (∀ I, (s.get (g I)).count = (s'.get I).count) ∧
      ∀ (x : Fin N' → ℝ) (J : Fin s.length), gathered g (fun I => x (c' I)) J = gathered f x (c J) := by
  obtain ⟨m1', nd', -⟩ := makeMapper_spec mols' s' h'
  obtain ⟨m1, nd, -⟩ := makeMapper_spec mols s hs
  have hc' (I : Fin s'.length) : (s'.get I).comp < N' := by
    obtain ⟨mol, hm, -⟩ := (m1' _).1 (List.get_mem s' I)
    rw [← h.len']
    exact (List.getElem?_eq_some_iff.1 hm).1
  have hc (I : Fin s.length) : (s.get I).comp < N := by
    obtain ⟨mol, hm, -⟩ := (m1 _).1 (List.get_mem s I)
    rw [← h.len]
    exact (List.getElem?_eq_some_iff.1 hm).1
  have hg (I : Fin s'.length) : ∃ J : Fin s.length, s.get J = ⟨f ⟨_, hc' I⟩, (s'.get I).name, (s'.get I).count⟩ := by
    obtain ⟨mol, hm, h1, h2⟩ := (m1' _).1 (List.get_mem s' I)
    have := h.mol ⟨_, hc' I⟩
    rw [hm] at this
    exact List.mem_iff_get.1 ((m1 ⟨f ⟨_, hc' I⟩, (s'.get I).name, (s'.get I).count⟩).2 ⟨mol, this.symm, h1, h2⟩)
  choose g hg using hg
  -- a site is determined by its component and its name
  have inj' (I J : Fin s'.length) (e1 : (s'.get I).comp = (s'.get J).comp) (e2 : (s'.get I).name = (s'.get J).name) : I = J := by
    have hi := List.nodup_iff_injective_get.1 nd'
    have := @hi ⟨I, by simp⟩ ⟨J, by simp⟩ (by
      simp only [List.get_eq_getElem, List.getElem_map, Prod.mk.injEq]
      exact ⟨e1, e2⟩)
    simp only [Fin.mk.injEq] at this
    exact Fin.ext this
  have inj (I J : Fin s.length) (e1 : (s.get I).comp = (s.get J).comp) (e2 : (s.get I).name = (s.get J).name) : I = J := by
    have hi := List.nodup_iff_injective_get.1 nd
    have := @hi ⟨I, by simp⟩ ⟨J, by simp⟩ (by
      simp only [List.get_eq_getElem, List.getElem_map, Prod.mk.injEq]
      exact ⟨e1, e2⟩)
    simp only [Fin.mk.injEq] at this
    exact Fin.ext this
  -- every copy of the component has its copy of the site
  have lift (J : Fin s.length) (k : Fin N') (hk : f k = ⟨_, hc J⟩) : ∃ I : Fin s'.length, g I = J ∧ (⟨_, hc' I⟩ : Fin N') = k := by
    obtain ⟨mol, hm, h1, h2⟩ := (m1 _).1 (List.get_mem s J)
    have h3 := h.mol k
    rw [hk, hm] at h3
    obtain ⟨I, hI⟩ := List.mem_iff_get.1 ((m1' ⟨k, (s.get J).name, (s.get J).count⟩).2 ⟨mol, h3, h1, h2⟩)
    have hIk : (⟨_, hc' I⟩ : Fin N') = k := Fin.ext (by simp only [hI])
    refine ⟨I, inj _ _ ?_ ?_, hIk⟩
    · rw [hg I, hIk, hk]
    · rw [hg I]
      exact (congrArg AssocSite.name hI : (s'.get I).name = _)
  refine ⟨g, fun I => ⟨_, hc' I⟩, fun I => ⟨_, hc I⟩, fun J => ?_, fun I => rfl, fun I => rfl, fun I => Fin.ext (by simp only [hg I]), fun I => by rw [hg I], fun I => by rw [hg I], fun x J => ?_⟩
  · obtain ⟨k, hk⟩ := hf ⟨_, hc J⟩
    obtain ⟨I, hI, -⟩ := lift J k hk
    exact ⟨I, hI⟩
  · unfold gathered
    refine sum_bij (fun I _ => (⟨_, hc' I⟩ : Fin N')) (fun I hI => ?_) (fun I hI K hK e => ?_) (fun k hk => ?_) fun I _ => rfl
    · rw [mem_filter] at hI ⊢
      refine ⟨mem_univ _, Fin.ext ?_⟩
      rw [← hI.2]
      simp only [hg I]
    · have e1 : g I = g K := (mem_filter.1 hI).2.trans (mem_filter.1 hK).2.symm
      refine inj' I K (congrArg Fin.val e) ?_
      have : (s.get (g I)).name = (s.get (g K)).name := by rw [e1]
      rwa [hg I, hg K] at this
    · obtain ⟨I, hI, e⟩ := lift J k (mem_filter.1 hk).2
      exact ⟨I, mem_filter.2 ⟨mem_univ _, hI⟩, e⟩

theorem SameAssoc.interact (h : SameAssoc f o' o mols' mols d' d) {I' J' I J : AssocSite} (kI kJ : Fin N') (hI' : I'.comp = kI) (hJ' : J'.comp = kJ) (hI : I.comp = f kI) (hJ : J.comp = f kJ)
    (nI : I.name = I'.name) (nJ : J.name = J'.name) : MayInteract o'.mask o'.partners I' J' ↔ MayInteract o.mask o.partners I J := by
  unfold MayInteract
  rw [nI, nJ, h.partners, hI', hJ', hI, hJ]
  rcases h.mask with ⟨h1, h2⟩ | ⟨hi, h1, h2⟩
  · simp [h1, h2]
  · rw [h1, h2 kI]
    have : ((kI : ℕ) ≠ kJ) ↔ ((f kI : ℕ) ≠ f kJ) := by
      rw [not_iff_not, ← Fin.ext_iff, ← Fin.ext_iff]
      exact hi.eq_iff.symm
    rw [this]

theorem getD_ofFn_real {M : ℕ} (x : Fin M → ℝ) (i : Fin M) : (List.ofFn x).getD (i : ℕ) 0 = x i := by simp [List.getD_eq_getElem?_getD]

theorem SameAssoc.cr1 (h : SameAssoc f o' o mols' mols d' d) (R NA T gg : ℝ) (k l : Fin N') : cr1Delta R NA T gg d' k l = cr1Delta R NA T gg d (f k) (f l) := by
  unfold cr1Delta
  rw [h.b, h.b, h.beta, h.beta, h.epsilon, h.epsilon]

/-- The strengths: both fail in the same way, or they agree along `f`. -/
theorem SameAssoc.delta (h : SameAssoc f o' o mols' mols d' d) (hf : Function.Surjective f) {s' s : List AssocSite} (hs' : ∀ I ∈ s', I.comp < N') (hs : ∀ I ∈ s, I.comp < N)
    (R NA T rho : ℝ) (x : Fin N' → ℝ) :
    (∃ Δ' Δ, getDelta R NA T rho (List.ofFn x) d' s' = .ok Δ' ∧ getDelta R NA T rho (List.ofFn (gathered f x)) d s = .ok Δ ∧ ∀ k l : Fin N', Δ' k l = Δ (f k) (f l)) ∨
    (getDelta R NA T rho (List.ofFn x) d' s' = .ub ∧ getDelta R NA T rho (List.ofFn (gathered f x)) d s = .ub) ∨
    (getDelta R NA T rho (List.ofFn x) d' s' = .nonFinite ∧ getDelta R NA T rho (List.ofFn (gathered f x)) d s = .nonFinite) := by
  have eta : ∑ i ∈ range N', (List.ofFn x).getD i 0 * d'.b.getD i 0 = ∑ i ∈ range N, (List.ofFn (gathered f x)).getD i 0 * d.b.getD i 0 := by
    rw [sum_range, sum_range]
    simp only [getD_ofFn_real]
    rw [← gathered_sum f x fun i : Fin N => d.b.getD i 0]
    exact sum_congr rfl fun k _ => by rw [h.b]
  have neg : (∃ i < N', ∃ j < N', d'.beta.getD i 0 * d'.beta.getD j 0 < 0) ↔ ∃ i < N, ∃ j < N, d.beta.getD i 0 * d.beta.getD j 0 < 0 := by
    constructor
    · rintro ⟨i, hi, j, hj, e⟩
      have e1 := h.beta ⟨i, hi⟩
      have e2 := h.beta ⟨j, hj⟩
      simp only at e1 e2
      rw [e1, e2] at e
      exact ⟨_, (f ⟨i, hi⟩).2, _, (f ⟨j, hj⟩).2, e⟩
    · rintro ⟨i, hi, j, hj, e⟩
      obtain ⟨k, hk⟩ := hf ⟨i, hi⟩
      obtain ⟨l, hl⟩ := hf ⟨j, hj⟩
      refine ⟨k, k.2, l, l.2, ?_⟩
      rw [h.beta, h.beta, hk, hl]
      exact e
  obtain ⟨b1, b2, b3⟩ := h.blen'
  obtain ⟨c1, c2, c3⟩ := h.blen
  have n1 : ¬ (d'.b.length ≠ N' ∨ d'.beta.length ≠ N' ∨ d'.epsilon.length ≠ N' ∨ ∃ s ∈ s', N' ≤ s.comp) := by
    rintro (e | e | e | ⟨I, hI, e⟩)
    · exact e b1
    · exact e b2
    · exact e b3
    · exact absurd (hs' I hI) (not_lt.2 e)
  have n2 : ¬ (d.b.length ≠ N ∨ d.beta.length ≠ N ∨ d.epsilon.length ≠ N ∨ ∃ q ∈ s, N ≤ q.comp) := by
    rintro (e | e | e | ⟨I, hI, e⟩)
    · exact e c1
    · exact e c2
    · exact e c3
    · exact absurd (hs I hI) (not_lt.2 e)
  unfold getDelta
  simp only [List.length_ofFn]
  rw [if_neg n1, if_neg n2, h.dist]
  cases d.radialDist with
  | none => exact Or.inr (Or.inl ⟨rfl, rfl⟩)
  | some rd =>
    simp only [neg, eta]
    split_ifs with q1 q2 q2
    · exact Or.inr (Or.inr ⟨rfl, rfl⟩)
    · simp only [List.length_ofFn, neg, eta] at q1 q2
      exact absurd q1 q2
    · simp only [List.length_ofFn, neg, eta] at q1 q2
      exact absurd q2 q1
    · exact Or.inl ⟨_, _, rfl, rfl, fun k l => h.cr1 R NA T _ k l⟩

theorem make_ok {dd : CanonicalData} {ms : List (List String)} {oo : AssocOptions} {a : AssocModel} (h : AssocModel.make dd ms oo = .ok a) :
    ∃ s D, makeMapper ms = .ok s ∧ makeD oo ms.length s = .ok D ∧ a = ⟨oo, ms.length, s, D, dd⟩ := by
  unfold AssocModel.make at h
  cases h1 : makeMapper ms with
  | ok s =>
    rw [h1] at h
    simp only [Outcome.bind] at h
    cases h2 : makeD oo ms.length s with
    | ok D =>
      rw [h2] at h
      simp only [Outcome.ok.injEq] at h
      exact ⟨s, D, rfl, h2, h.symm⟩
    | throws e => rw [h2] at h; cases h
    | ub => rw [h2] at h; cases h
    | nonFinite => rw [h2] at h; cases h
  | throws e => rw [h1] at h; cases h
  | ub => rw [h1] at h; cases h
  | nonFinite => rw [h1] at h; cases h

/-- **C184, partial.** The full claim has neither the condition on masks in `SameAssoc` nor the one on the closed form (`assoc_rewrite_mask_false`, `assoc_rewrite_pure_false`).  Mixtures of at least two components (or without the closed form): the contribution of association is the same for both ways of writing the mixture down, and the two calls fail in the same way. -/
theorem assoc_rewrite_partial (h : SameAssoc f o' o mols' mols d' d) (hf : Function.Surjective f) (hN : o.allowExplicit = false ∨ N ≠ 1) {a' a : AssocModel} (ha' : AssocModel.make d' mols' o' = .ok a')
    (ha : AssocModel.make d mols o = .ok a) (R NA T rho : ℝ) (x : Fin N' → ℝ) : a'.alphar R NA T rho (List.ofFn x) = a.alphar R NA T rho (List.ofFn (gathered f x)) := by
  obtain ⟨s', D', m', hD', rfl⟩ := make_ok ha'
  obtain ⟨s, D, m, hD, rfl⟩ := make_ok ha
  obtain ⟨g, c', c, hg, e', e, hcg, hname, hcount, hgat⟩ := h.sites hf m' m
  have hs' : ∀ I ∈ s', I.comp < N' := fun I hI => by
    obtain ⟨k, rfl⟩ := List.mem_iff_get.1 hI
    rw [e' k]
    exact (c' k).2
  have hs : ∀ I ∈ s, I.comp < N := fun I hI => by
    obtain ⟨k, rfl⟩ := List.mem_iff_get.1 hI
    rw [e k]
    exact (c k).2
  have hN' : o.allowExplicit = false ∨ N' ≠ 1 := by
    refine hN.imp id fun hne e1 => hne ?_
    subst e1
    have := Fintype.card_le_of_surjective f hf
    have h0 := (f 0).2
    simp only [Fintype.card_fin] at this
    omega
  obtain ⟨-, hd'⟩ := makeD_spec _ _ _ _ (fun I hI => h.len' ▸ hs' I hI) hD'
  obtain ⟨-, hd⟩ := makeD_spec _ _ _ _ (fun I hI => h.len ▸ hs I hI) hD
  have hDD (I J : Fin s'.length) : AssocModel.Dmat ⟨o', mols'.length, s', D', d'⟩ I J = AssocModel.Dmat ⟨o, mols.length, s, D, d⟩ (g I) (g J) := by
    unfold AssocModel.Dmat
    have q1 (K : Fin s'.length) : s'[(K : ℕ)]? = some (s'.get K) := List.getElem?_eq_getElem K.2
    have q2 (K : Fin s.length) : s[(K : ℕ)]? = some (s.get K) := List.getElem?_eq_getElem K.2
    simp only
    rw [hd' I J _ _ (q1 I) (q1 J), hd (g I) (g J) _ _ (q2 _) (q2 _), hcount J]
    have := h.interact (I' := s'.get I) (J' := s'.get J) (I := s.get (g I)) (J := s.get (g J)) (c' I) (c' J) (e' I) (e' J) (by rw [e, hcg]) (by rw [e, hcg]) (hname I) (hname J)
    by_cases hm : MayInteract o.mask o.partners (s.get (g I)) (s.get (g J))
    · rw [if_pos hm, if_pos (this.2 hm)]
    · rw [if_neg hm, if_neg fun q => hm (this.1 q)]
  unfold AssocModel.alphar AssocModel.fractions
  simp only [List.length_ofFn, List.length_replicate, h.len', h.len, ne_eq, not_true_eq_false, if_false]
  rcases h.delta hf hs' hs R NA T rho x with ⟨Δ', Δ, p', p, hΔ⟩ | ⟨p', p⟩ | ⟨p', p⟩
  · rw [p', p]
    simp only [Outcome.bind]
    have hsolve : assocSolve o' N' rho NA (fun I J : Fin s'.length => Δ' (s'.get I).comp (s'.get J).comp) (AssocModel.Dmat ⟨o', mols'.length, s', D', d'⟩)
        (fun I => (s'.get I).count) (fun I => (List.ofFn x).getD (s'.get I).comp 0) (fun I => (List.replicate s'.length (1:ℝ)).getD I 0) =
        fun k => assocSolve o N rho NA (fun I J : Fin s.length => Δ (s.get I).comp (s.get J).comp) (AssocModel.Dmat ⟨o, mols.length, s, D, d⟩)
        (fun I => (s.get I).count) (fun I => (List.ofFn (gathered f x)).getD (s.get I).comp 0) (fun I => (List.replicate s.length (1:ℝ)).getD I 0) (g k) := by
      unfold assocSolve
      rw [dif_neg, dif_neg]
      · rw [h.alpha, h.rtol, h.atol, h.iters]
        have r1 : (fun I : Fin s'.length => (List.replicate s'.length (1:ℝ)).getD I 0) = fun k => (fun I : Fin s.length => (List.replicate s.length (1:ℝ)).getD I 0) (g k) := by
          funext k
          simp [List.getD_eq_getElem?_getD]
        rw [r1]
        refine ssLoop_along g hg o.alpha o.rtol o.atol _ _ ?_ o.maxIters.toNat fun I : Fin s.length => (List.replicate s.length (1:ℝ)).getD I 0
        intro k Y
        unfold rDDX
        have hofR (y : ℝ) : (ADScalar.ofR y : ℝ) = y := rfl
        simp only [e', e, getD_ofFn_real, hDD, hΔ, hofR]
        have key := gathered_sum g (fun I => x (c' I)) fun J => rho * NA * (Δ (c (g k)) (c J) * ((AssocModel.Dmat ⟨o, mols.length, s, D, d⟩ (g k) J : ℕ) : ℝ)) * Y J
        simp only [hgat] at key
        rw [sum_congr rfl fun J _ => show _ = gathered f x (c J) * (rho * NA * (Δ (c (g k)) (c J) * ((AssocModel.Dmat ⟨o, mols.length, s, D, d⟩ (g k) J : ℕ) : ℝ)) * Y J) by ring, ← key]
        refine sum_congr rfl fun l _ => ?_
        rw [hcg, hcg]
        ring
      · rintro ⟨w1, w2, -⟩
        rcases hN with w | w
        · rw [w] at w1; cases w1
        · exact w w2
      · rintro ⟨w1, w2, -⟩
        rw [h.explicit] at w1
        rcases hN' with w | w
        · rw [w] at w1; cases w1
        · exact w w2
    simp only [hsolve]
    set X := assocSolve o N rho NA (fun I J : Fin s.length => Δ (s.get I).comp (s.get J).comp) (AssocModel.Dmat ⟨o, mols.length, s, D, d⟩)
        (fun I => (s.get I).count) (fun I => (List.ofFn (gathered f x)).getD (s.get I).comp 0) (fun I => (List.replicate s.length (1:ℝ)).getD I 0)
    have hpos : (∃ I, X (g I) ≤ 0) ↔ ∃ I, X I ≤ 0 := by
      constructor
      · rintro ⟨I, hI⟩
        exact ⟨_, hI⟩
      · rintro ⟨I, hI⟩
        obtain ⟨k, rfl⟩ := hg I
        exact ⟨k, hI⟩
    by_cases hp : ∃ I, X I ≤ 0
    · rw [if_pos hp, if_pos (hpos.2 hp)]
    · rw [if_neg hp, if_neg fun q => hp (hpos.1 q)]
      rw [assocSum_sites x _ _ c' e', assocSum_sites (gathered f x) _ _ c e]
      have key := gathered_sum g (fun I => x (c' I)) fun J => (Real.log (X J) - X J * (1/2) + 1/2) * ((s.get J).count : ℝ)
      simp only [hgat] at key
      rw [← key]
      simp only [hcount]
  · rw [p', p]
    rfl
  · rw [p', p]
    rfl
end

/-! ## Masks -/

/-- A fluid of molecules with one kind of site that may bind to itself; `n` entries for it, all masked or not. -/
noncomputable def selfData (n : ℕ) : CanonicalData := ⟨List.replicate n 1, List.replicate n 1, List.replicate n (Real.log 2), some .KG⟩

theorem mapper_one : makeMapper [["A"]] = .ok [⟨0, "A", 1⟩] := by
  simp [makeMapper, mapSites, uniqueSites]

theorem mapper_two : makeMapper [["A"], ["A"]] = .ok [⟨0, "A", 1⟩, ⟨1, "A", 1⟩] := by
  simp [makeMapper, mapSites, uniqueSites]

/-- The masked fluid, listed once. -/
noncomputable def maskedOnce : AssocModel := ⟨{ mask := [false] }, 1, [⟨0, "A", 1⟩], [[0]], selfData 1⟩

/-- The masked fluid, listed twice. -/
noncomputable def maskedTwice : AssocModel := ⟨{ mask := [false, false] }, 2, [⟨0, "A", 1⟩, ⟨1, "A", 1⟩], [[0, 1], [1, 0]], selfData 2⟩

theorem maskedOnce_make : AssocModel.make (selfData 1) [["A"]] { mask := [false] } = .ok maskedOnce := by
  unfold AssocModel.make
  rw [mapper_one]
  rfl

theorem maskedTwice_make : AssocModel.make (selfData 2) [["A"], ["A"]] { mask := [false, false] } = .ok maskedTwice := by
  unfold AssocModel.make
  rw [mapper_two]
  rfl

/-- Without the possibility of a bond nothing happens in the iteration. -/
theorem ssLoop_no_bonds {n : ℕ} (α rtol atol : ℝ) (ha : 0 < atol) (hr : 0 ≤ rtol) (K : Fin n → Fin n → ℝ) (hK : ∀ i j, K i j = 0) (m : ℕ) : ssLoop α rtol atol K m (fun _ => 1) = fun _ => 1 := by
  have h1 : massStep α K (fun _ => (1 : ℝ)) = fun _ => 1 := by
    funext i
    unfold massStep
    simp only [hK, zero_mul, sum_const_zero, add_zero]
    change α * 1 + (1 - α) * (1 : ℝ)⁻¹ = 1
    norm_num
  cases m with
  | zero => rfl
  | succ m =>
    rw [ssLoop]
    simp only [h1]
    rw [if_pos]
    intro i
    change |(1 : ℝ) - 1| < rtol * 1 + atol
    rw [sub_self, abs_zero]
    linarith

/-- With a partner for every site the fractions stay below one. -/
theorem ssLoop_bonded {n : ℕ} (rtol atol : ℝ) (K : Fin n → Fin n → ℝ) (hK : ∀ i j, 0 ≤ K i j) (hp : ∀ i, ∃ j, 0 < K i j) (m : ℕ) : ∀ X : Fin n → ℝ, (∀ i, 0 < X i ∧ X i < 1) →
    ∀ i, 0 < ssLoop (1/2) rtol atol K m X i ∧ ssLoop (1/2) rtol atol K m X i < 1 := by
  induction m with
  | zero => intro X hX; exact hX
  | succ m ih =>
    intro X hX
    rw [ssLoop]
    split_ifs
    · exact hX
    · refine ih _ fun i => ?_
      have hS : 0 < ∑ j, K i j * X j := by
        obtain ⟨j, hj⟩ := hp i
        exact sum_pos' (fun k _ => mul_nonneg (hK i k) (hX k).1.le) ⟨j, mem_univ _, mul_pos hj (hX j).1⟩
      change 0 < (1/2 : ℝ) * X i + (1 - 1/2) * (1 + ∑ j, K i j * X j)⁻¹ ∧ (1/2 : ℝ) * X i + (1 - 1/2) * (1 + ∑ j, K i j * X j)⁻¹ < 1
      have h1 : (1 + ∑ j, K i j * X j)⁻¹ < 1 := inv_lt_one_of_one_lt₀ (by linarith)
      have h2 : 0 < (1 + ∑ j, K i j * X j)⁻¹ := by positivity
      have := hX i
      constructor <;> linarith

/-- Listed once, the masked fluid does not associate. -/
theorem maskedOnce_alphar : maskedOnce.alphar 1 1 1 1 [1] = .ok 0 := by
  have hd : getDelta 1 1 1 1 [1] (selfData 1) [⟨0, "A", 1⟩] = .ok (cr1Delta 1 1 1 (assocG .KG (1 / 4)) (selfData 1)) := by
    unfold getDelta
    rw [if_neg (by simp [selfData])]
    have hrd : (selfData 1).radialDist = some .KG := rfl
    rw [hrd]
    dsimp only
    split_ifs with q
    · exfalso
      simp [selfData] at q
      norm_num at q
    · simp [selfData]
  unfold AssocModel.alphar AssocModel.fractions
  rw [if_neg (by simp [maskedOnce]), if_neg (by simp)]
  change ((getDelta 1 1 1 1 [1] (selfData 1) [⟨0, "A", 1⟩]).bind _).bind _ = _
  rw [hd]
  simp only [Outcome.bind]
  set X := assocSolve (S := ℝ) _ _ _ _ _ _ _ _ _ with hX
  have hX1 : X = fun _ => 1 := by
    rw [hX]
    unfold assocSolve
    rw [dif_neg]
    · have r1 : (fun I : Fin maskedOnce.sites.length => (List.replicate maskedOnce.sites.length (1:ℝ)).getD I 0) = fun _ => 1 := by
        funext k
        simp [List.getD_eq_getElem?_getD]
      rw [r1]
      refine ssLoop_no_bonds _ _ _ (by norm_num [maskedOnce]) (by norm_num [maskedOnce]) _ (fun i j => ?_) _
      have hD : maskedOnce.Dmat i j = 0 := by
        fin_cases i; fin_cases j; rfl
      unfold rDDX
      rw [hD]
      change _ * (_ * ((0 : ℕ) : ℝ)) * _ = _
      simp
    · rintro ⟨-, -, w, -⟩
      simp [maskedOnce] at w
  rw [hX1, if_neg (by simp)]
  congr 1
  rw [show ([1] : List ℝ) = List.ofFn fun _ : Fin 1 => (1 : ℝ) by simp, assocSum_sites (N := 1) _ _ _ (fun _ => 0) (fun I => by fin_cases I; rfl)]
  simp

/-- Two sites that bind to each other. -/
theorem ssLoop_pair (K : Fin 2 → Fin 2 → ℝ) (k00 : K 0 0 = 0) (k11 : K 1 1 = 0) (k01 : K 0 1 = 20/21) (k10 : K 1 0 = 20/21) :
    ∀ I : Fin 2, 0 < ssLoop (1/2) 1e-12 1e-12 K 100 (fun _ => 1) I ∧ ssLoop (1/2) 1e-12 1e-12 K 100 (fun _ => 1) I < 1 := by
  have s1 : massStep (1/2) K (fun _ => (1:ℝ)) = fun _ => 31/41 := by
    funext i
    have : (∑ j : Fin 2, K i j * 1) = 20/21 := by
      fin_cases i
      · change (∑ j : Fin 2, K 0 j * 1) = 20/21
        rw [Fin.sum_univ_two]
        change K 0 0 * 1 + K 0 1 * 1 = _
        rw [k00, k01]; norm_num
      · change (∑ j : Fin 2, K 1 j * 1) = 20/21
        rw [Fin.sum_univ_two]
        change K 1 0 * 1 + K 1 1 * 1 = _
        rw [k10, k11]; norm_num
    unfold massStep
    change (1/2 : ℝ) * 1 + (1 - 1/2) * (1 + ∑ j : Fin 2, K i j * 1)⁻¹ = _
    rw [this]
    norm_num
  rw [ssLoop, s1]
  dsimp only
  rw [if_neg]
  · refine ssLoop_bonded _ _ K (fun i j => ?_) (fun i => ?_) 99 _ fun _ => by norm_num
    · fin_cases i <;> fin_cases j
      · exact k00.ge
      · change 0 ≤ K 0 1; rw [k01]; norm_num
      · change 0 ≤ K 1 0; rw [k10]; norm_num
      · exact k11.ge
    · fin_cases i
      · exact ⟨1, by change 0 < K 0 1; rw [k01]; norm_num⟩
      · exact ⟨0, by change 0 < K 1 0; rw [k10]; norm_num⟩
  · intro hc
    have := hc 0
    change |(31/41 : ℝ) - 1| < 1e-12 * (31/41) + 1e-12 at this
    rw [abs_of_nonpos (by norm_num)] at this
    norm_num at this

/-- Listed twice, the copies associate with each other. -/
theorem maskedTwice_alphar : ∃ v, maskedTwice.alphar 1 1 1 1 [1/2, 1/2] = .ok v ∧ v < 0 := by
  have hd : getDelta 1 1 1 1 [1/2, 1/2] (selfData 2) [⟨0, "A", 1⟩, ⟨1, "A", 1⟩] = .ok (cr1Delta 1 1 1 (assocG .KG (1 / 4)) (selfData 2)) := by
    unfold getDelta
    rw [if_neg (by simp [selfData])]
    have hrd : (selfData 2).radialDist = some .KG := rfl
    rw [hrd]
    dsimp only
    split_ifs with q
    · exfalso
      rcases q with q | q | ⟨i, hi, j, hj, q⟩
      · norm_num at q
      · simp [selfData, sum_range_succ] at q
        norm_num at q
      · simp only [List.length_cons, List.length_nil] at hi hj
        interval_cases i <;> interval_cases j <;> simp [selfData] at q <;> linarith
    · simp [selfData, sum_range_succ]
      norm_num
  have hΔ : ∀ i < 2, ∀ j < 2, cr1Delta 1 1 1 (assocG .KG (1 / 4)) (selfData 2) i j = 40/21 := by
    intro i hi j hj
    unfold cr1Delta assocG
    have he : Real.exp ((Real.log 2 + Real.log 2) / 2 / (1 * 1)) = 2 := by
      rw [show (Real.log 2 + Real.log 2) / 2 / (1 * 1) = Real.log 2 by ring, Real.exp_log (by norm_num)]
    interval_cases i <;> interval_cases j <;> simp [selfData] at he ⊢ <;> rw [he] <;> norm_num
  unfold AssocModel.alphar AssocModel.fractions
  rw [if_neg (by simp [maskedTwice]), if_neg (by simp)]
  change ∃ v, ((getDelta 1 1 1 1 [1/2, 1/2] (selfData 2) [⟨0, "A", 1⟩, ⟨1, "A", 1⟩]).bind _).bind _ = _ ∧ _
  rw [hd]
  simp only [Outcome.bind]
  set X := assocSolve (S := ℝ) _ _ _ _ _ _ _ _ _ with hX
  have hX1 : ∀ I, 0 < X I ∧ X I < 1 := by
    rw [hX]
    unfold assocSolve
    rw [dif_neg]
    · have r1 : (fun I : Fin maskedTwice.sites.length => (List.replicate maskedTwice.sites.length (1:ℝ)).getD I 0) = fun _ => 1 := by
        funext k
        simp [List.getD_eq_getElem?_getD]
      rw [r1]
      change ∀ I : Fin 2, 0 < @ssLoop ℝ _ _ 2 (1/2) 1e-12 1e-12 _ 100 (fun _ => 1) I ∧ @ssLoop ℝ _ _ 2 (1/2) 1e-12 1e-12 _ 100 (fun _ => 1) I < 1
      refine ssLoop_pair _ ?_ ?_ ?_ ?_
      · change (1 * 1 * (_ * ((0 : ℕ) : ℝ)) * _ : ℝ) = _
        simp
      · change (1 * 1 * (_ * ((0 : ℕ) : ℝ)) * _ : ℝ) = _
        simp
      · change (1 * 1 * (cr1Delta 1 1 1 (assocG .KG (1 / 4)) (selfData 2) 0 1 * ((1 : ℕ) : ℝ)) * (1/2) : ℝ) = _
        rw [hΔ 0 (by norm_num) 1 (by norm_num)]
        norm_num
      · change (1 * 1 * (cr1Delta 1 1 1 (assocG .KG (1 / 4)) (selfData 2) 1 0 * ((1 : ℕ) : ℝ)) * (1/2) : ℝ) = _
        rw [hΔ 1 (by norm_num) 0 (by norm_num)]
        norm_num
    · rintro ⟨-, w, -⟩
      simp at w
  rw [if_neg (by push Not; exact fun I => (hX1 I).1)]
  refine ⟨_, rfl, ?_⟩
  have key := assocSum_sites (fun _ : Fin 2 => (1/2 : ℝ)) (fun I => (maskedTwice.sites.get I).comp) (fun I => (maskedTwice.sites.get I).count) (fun I => (I : Fin 2))
    (fun I => by fin_cases I <;> rfl) X
  have hl : (List.ofFn fun _ : Fin 2 => (1/2 : ℝ)) = [1/2, 1/2] := by simp [List.ofFn_succ]
  rw [hl] at key
  refine key.trans_lt ?_
  have neg (I : Fin maskedTwice.sites.length) : (1/2 : ℝ) * ((Real.log (X I) - X I * (1/2) + 1/2) * ((maskedTwice.sites.get I).count : ℝ)) < 0 := by
    have hc : (maskedTwice.sites.get I).count = 1 := by fin_cases I <;> rfl
    rw [hc]
    have := Real.log_le_sub_one_of_pos (hX1 I).1
    have := (hX1 I).2
    push_cast
    linarith
  exact sum_neg (fun I _ => neg I) ⟨⟨0, by simp [maskedTwice]⟩, mem_univ _⟩

/-- **C184 is false with a mask and a component that is listed twice**: the mask of a component only stands against bonds between molecules of the same entry. -/
theorem assoc_rewrite_mask_false : maskedTwice.alphar 1 1 1 1 [1/2, 1/2] ≠ maskedOnce.alphar 1 1 1 1 [1/2 + 1/2] := by
  obtain ⟨v, hv, hneg⟩ := maskedTwice_alphar
  rw [hv, show (1/2 + 1/2 : ℝ) = 1 by norm_num, maskedOnce_alphar]
  intro h
  simp only [Outcome.ok.injEq] at h
  exact hneg.ne h

/-! ## The closed form for one component -/

/-- Molecules with a donor and an acceptor, listed once: the closed form is used. -/
noncomputable def donorOnce : AssocModel := ⟨{ partners := [("A", ["B"]), ("B", ["A"])] }, 1, [⟨0, "A", 1⟩, ⟨0, "B", 1⟩], [[0, 1], [1, 0]], ⟨[1], [21/40], [Real.log 2], some .KG⟩⟩

/-- The same molecules listed twice: the iteration is used. -/
noncomputable def donorTwice : AssocModel := ⟨{ partners := [("A", ["B"]), ("B", ["A"])] }, 2, [⟨0, "A", 1⟩, ⟨0, "B", 1⟩, ⟨1, "A", 1⟩, ⟨1, "B", 1⟩],
  [[0, 1, 0, 1], [1, 0, 1, 0], [0, 1, 0, 1], [1, 0, 1, 0]], ⟨[1, 1], [21/40, 21/40], [Real.log 2, Real.log 2], some .KG⟩⟩

theorem unique_AB : uniqueSites ["A", "B"] = ["A", "B"] := by decide +kernel

theorem donorOnce_make : AssocModel.make ⟨[1], [21/40], [Real.log 2], some .KG⟩ [["A", "B"]] { partners := [("A", ["B"]), ("B", ["A"])] } = .ok donorOnce := by
  have h : makeMapper [["A", "B"]] = .ok [⟨0, "A", 1⟩, ⟨0, "B", 1⟩] := by
    simp [makeMapper, mapSites, unique_AB]
  unfold AssocModel.make
  rw [h]
  rfl

theorem donorTwice_make : AssocModel.make ⟨[1, 1], [21/40, 21/40], [Real.log 2, Real.log 2], some .KG⟩ [["A", "B"], ["A", "B"]] { partners := [("A", ["B"]), ("B", ["A"])] } = .ok donorTwice := by
  have h : makeMapper [["A", "B"], ["A", "B"]] = .ok [⟨0, "A", 1⟩, ⟨0, "B", 1⟩, ⟨1, "A", 1⟩, ⟨1, "B", 1⟩] := by
    simp [makeMapper, mapSites, unique_AB]
  unfold AssocModel.make
  rw [h]
  rfl

/-- The iteration only does rational arithmetic. -/
theorem ssLoop_rational (rtol atol : ℝ) (m : ℕ) : ∀ X : Fin 1 → ℝ, (∃ q : ℚ, X 0 = q ∧ 0 < q) → ∃ q : ℚ, ssLoop (1/2) rtol atol (fun _ _ : Fin 1 => (1 : ℝ)) m X 0 = q ∧ 0 < q := by
  induction m with
  | zero => intro X hX; exact hX
  | succ m ih =>
    intro X hX
    rw [ssLoop]
    split_ifs
    · exact hX
    · refine ih _ ?_
      obtain ⟨q, hq, hp⟩ := hX
      refine ⟨1/2 * q + (1 - 1/2) * (1 + 1 * q)⁻¹, ?_, by positivity⟩
      change (1/2 : ℝ) * X 0 + (1 - 1/2) * (1 + ∑ j : Fin 1, 1 * X j)⁻¹ = _
      rw [Fin.sum_univ_one, hq]
      push_cast
      rfl

/-- The contribution of one site. -/
noncomputable def bondTerm (X : ℝ) : ℝ := Real.log X - X * (1/2) + 1/2

theorem bondTerm_inj {X Y : ℝ} (hX : 0 < X) (hY : 0 < Y) (hX1 : X < 2) (hY1 : Y < 2) (h : bondTerm X = bondTerm Y) : X = Y := by
  have aux {a b : ℝ} (ha : 0 < a) (hb : b < 2) (hab : a < b) : bondTerm a < bondTerm b := by
    unfold bondTerm
    have h1 := Real.log_lt_sub_one_of_pos (div_pos ha (ha.trans hab)) (by rw [Ne, div_eq_one_iff_eq (ha.trans hab).ne']; exact hab.ne)
    rw [Real.log_div ha.ne' (ha.trans hab).ne'] at h1
    have h2 : a / b - 1 = -(b - a) / b := by field_simp [(ha.trans hab).ne']; ring
    have h3 : (b - a) * (1/2) < (b - a) / b := by
      rw [div_eq_mul_inv]
      refine mul_lt_mul_of_pos_left ?_ (by linarith)
      rw [one_mul]
      exact inv_strictAnti₀ (ha.trans hab) hb
    rw [h2, neg_div] at h1
    linarith
  rcases lt_trichotomy X Y with q | q | q
  · exact absurd h (aux hX hY1 q).ne
  · exact q
  · exact absurd h.symm (aux hY hX1 q).ne

theorem sqrt5_bounds : 2 < Real.sqrt 5 ∧ Real.sqrt 5 < 3 := by
  constructor
  · exact Real.lt_sqrt_of_sq_lt (by norm_num)
  · rw [Real.sqrt_lt' (by norm_num)]
    norm_num

theorem donor_delta (n i j : ℕ) (hi : i < n) (hj : j < n) :
    cr1Delta 1 1 1 (assocG .KG (1 / 4)) ⟨List.replicate n 1, List.replicate n (21/40), List.replicate n (Real.log 2), some .KG⟩ i j = 1 := by
  unfold cr1Delta assocG
  have g1 (y : ℝ) (k : ℕ) (hk : k < n) : (List.replicate n y).getD k 0 = y := by simp [List.getD_eq_getElem?_getD, hk]
  simp only [g1 _ i hi, g1 _ j hj]
  rw [show (Real.log 2 + Real.log 2) / 2 / (1 * 1) = Real.log 2 by ring, Real.exp_log (by norm_num), Real.sqrt_mul_self (by norm_num)]
  norm_num

theorem donorOnce_alphar : donorOnce.alphar 1 1 1 1 [1] = .ok (2 * bondTerm ((Real.sqrt 5 - 1) / 2)) := by
  obtain ⟨b1, b2⟩ := sqrt5_bounds
  have hd : getDelta 1 1 1 1 [1] donorOnce.data donorOnce.sites = .ok (cr1Delta 1 1 1 (assocG .KG (1 / 4)) donorOnce.data) := by
    unfold getDelta
    rw [if_neg (by simp [donorOnce])]
    have hrd : donorOnce.data.radialDist = some .KG := rfl
    rw [hrd]
    dsimp only
    split_ifs with q
    · exfalso
      rcases q with q | q | ⟨i, hi, j, hj, q⟩
      · norm_num at q
      · simp [donorOnce] at q
        norm_num at q
      · simp only [List.length_cons, List.length_nil] at hi hj
        interval_cases i
        interval_cases j
        norm_num [donorOnce] at q
    · simp [donorOnce]
  have h00 : cr1Delta 1 1 1 (assocG .KG (1 / 4)) donorOnce.data 0 0 = 1 := donor_delta 1 0 0 (by norm_num) (by norm_num)
  have hs5 : Real.sqrt 5 * Real.sqrt 5 = 5 := Real.mul_self_sqrt (by norm_num)
  have hX0 : explicitX0 (1 : ℝ) 1 1 = (Real.sqrt 5 - 1) / 2 := by
    unfold explicitX0
    have er : ((1 : ℝ) * 1 - ADScalar.ofR 2 * 1 * 1 + ADScalar.ofR 2 * 1 + 1 * 1 + ADScalar.ofR 2 * 1 + 1) = 5 := by
      change ((1 : ℝ) * 1 - 2 * 1 * 1 + 2 * 1 + 1 * 1 + 2 * 1 + 1) = 5
      norm_num
    dsimp only
    rw [er]
    have e1 : ((1 : ℝ) - 1 - ADScalar.sqrt (5 : ℝ) - 1) * ADScalar.inv (ADScalar.ofR 2 * (1 : ℝ)) = (-Real.sqrt 5 - 1) / 2 := by
      change ((1 : ℝ) - 1 - Real.sqrt 5 - 1) * ((2 : ℝ) * 1)⁻¹ = _
      ring
    have e2 : ((1 : ℝ) - 1 + ADScalar.sqrt (5 : ℝ) - 1) * ADScalar.inv (ADScalar.ofR 2 * (1 : ℝ)) = (Real.sqrt 5 - 1) / 2 := by
      change ((1 : ℝ) - 1 + Real.sqrt 5 - 1) * ((2 : ℝ) * 1)⁻¹ = _
      ring
    rw [e1, e2, if_neg, if_pos]
    · change (-Real.sqrt 5 - 1) / 2 < 0 ∧ 0 < (Real.sqrt 5 - 1) / 2
      constructor <;> linarith
    · change ¬ ((1 : ℝ) = 0 ∨ (5 : ℝ) < 0)
      norm_num
  unfold AssocModel.alphar AssocModel.fractions
  rw [if_neg (by simp [donorOnce]), if_neg (by simp), hd]
  simp only [Outcome.bind]
  set X := assocSolve (S := ℝ) _ _ _ _ _ _ _ _ _ with hX
  have hX1 : ∀ I, X I = (Real.sqrt 5 - 1) / 2 := by
    intro I
    rw [hX]
    unfold assocSolve
    rw [dif_pos]
    · change (if I = ⟨0, _⟩ then explicitX0 ((1 : ℝ) * 1 * ((1 : ℕ) : ℝ) * cr1Delta 1 1 1 (assocG .KG (1 / 4)) donorOnce.data 0 0) ((1 : ℝ) * 1 * ((1 : ℕ) : ℝ) * cr1Delta 1 1 1 (assocG .KG (1 / 4)) donorOnce.data 0 0) (1 : ℝ) else
        (1 + (1 : ℝ) * 1 * ((1 : ℕ) : ℝ) * cr1Delta 1 1 1 (assocG .KG (1 / 4)) donorOnce.data 0 0 *
          explicitX0 ((1 : ℝ) * 1 * ((1 : ℕ) : ℝ) * cr1Delta 1 1 1 (assocG .KG (1 / 4)) donorOnce.data 0 0) ((1 : ℝ) * 1 * ((1 : ℕ) : ℝ) * cr1Delta 1 1 1 (assocG .KG (1 / 4)) donorOnce.data 0 0) (1 : ℝ))⁻¹) = _
      rw [h00]
      simp only [Nat.cast_one, mul_one, one_mul]
      rw [hX0]
      split_ifs
      · rfl
      · refine inv_eq_of_mul_eq_one_right ?_
        nlinarith
    · refine ⟨rfl, rfl, rfl, fun i => ?_⟩
      have hD : donorOnce.Dmat i i = 0 := by fin_cases i <;> rfl
      unfold rDDX
      rw [hD]
      change (_ * (_ * ((0 : ℕ) : ℝ)) * _ : ℝ) = 0
      simp
  rw [if_neg (by push Not; intro I; rw [hX1 I]; linarith)]
  congr 1
  have key := assocSum_sites (fun _ : Fin 1 => (1 : ℝ)) (fun I => (donorOnce.sites.get I).comp) (fun I => (donorOnce.sites.get I).count) (fun _ => (0 : Fin 1))
    (fun I => by fin_cases I <;> rfl) X
  have hl : (List.ofFn fun _ : Fin 1 => (1 : ℝ)) = [1] := by simp
  rw [hl] at key
  refine key.trans ?_
  have hc (I : Fin donorOnce.sites.length) : (donorOnce.sites.get I).count = 1 := by fin_cases I <;> rfl
  simp only [hX1, hc]
  rw [sum_const, card_univ, Fintype.card_fin]
  simp [donorOnce, bondTerm]
  ring

theorem donorTwice_alphar : ∃ q : ℚ, 0 < q ∧ q < 2 ∧ donorTwice.alphar 1 1 1 1 [1/2, 1/2] = .ok (2 * bondTerm q) := by
  have hd : getDelta 1 1 1 1 [1/2, 1/2] donorTwice.data donorTwice.sites = .ok (cr1Delta 1 1 1 (assocG .KG (1 / 4)) donorTwice.data) := by
    unfold getDelta
    rw [if_neg (by simp [donorTwice])]
    have hrd : donorTwice.data.radialDist = some .KG := rfl
    rw [hrd]
    dsimp only
    split_ifs with q
    · exfalso
      rcases q with q | q | ⟨i, hi, j, hj, q⟩
      · norm_num at q
      · simp [donorTwice, sum_range_succ] at q
        norm_num at q
      · simp only [List.length_cons, List.length_nil] at hi hj
        interval_cases i <;> interval_cases j <;> norm_num [donorTwice] at q
    · simp [donorTwice, sum_range_succ]
      norm_num
  have hΔ (i j : ℕ) (hi : i < 2) (hj : j < 2) : cr1Delta 1 1 1 (assocG .KG (1 / 4)) donorTwice.data i j = 1 := donor_delta 2 i j hi hj
  unfold AssocModel.alphar AssocModel.fractions
  rw [if_neg (by simp [donorTwice]), if_neg (by simp), hd]
  simp only [Outcome.bind]
  set X := assocSolve (S := ℝ) _ _ _ _ _ _ _ _ _ with hX
  have hX1 : X = fun _ => ssLoop (1/2) 1e-12 1e-12 (fun _ _ : Fin 1 => (1 : ℝ)) 100 (fun _ => 1) 0 := by
    rw [hX]
    unfold assocSolve
    rw [dif_neg]
    · have r1 : (fun I : Fin donorTwice.sites.length => (List.replicate donorTwice.sites.length (1:ℝ)).getD I 0) = fun _ => 1 := by
        funext k
        simp [List.getD_eq_getElem?_getD]
      rw [r1]
      refine ssLoop_along (fun _ => (0 : Fin 1)) (fun i => ⟨⟨0, by simp [donorTwice]⟩, (Subsingleton.elim _ _)⟩) (1/2) 1e-12 1e-12 _ (fun _ _ : Fin 1 => (1 : ℝ)) ?_ 100 fun _ => 1
      intro k Y
      have hK (l : Fin donorTwice.sites.length) : rDDX (1 : ℝ) 1 (fun I J : Fin donorTwice.sites.length => cr1Delta 1 1 1 (assocG .KG (1 / 4)) donorTwice.data (donorTwice.sites.get I).comp (donorTwice.sites.get J).comp) donorTwice.Dmat
          (fun I => [1/2, 1/2].getD (donorTwice.sites.get I).comp 0) k l = (donorTwice.Dmat k l : ℝ) * (1/2) := by
        have c1 (I : Fin donorTwice.sites.length) : (donorTwice.sites.get I).comp < 2 := by fin_cases I <;> decide
        unfold rDDX
        beta_reduce
        rw [hΔ _ _ (c1 k) (c1 l)]
        have : ([1/2, 1/2] : List ℝ).getD (donorTwice.sites.get l).comp 0 = 1/2 := by fin_cases l <;> rfl
        rw [this]
        change (1 * 1 * (1 * (donorTwice.Dmat k l : ℝ)) * (1/2) : ℝ) = _
        ring
      rw [Fin.sum_univ_one, sum_congr rfl fun l _ => by rw [hK l], ← sum_mul, ← sum_mul]
      have : ∑ l, (donorTwice.Dmat k l : ℝ) = 2 := by
        rw [← Nat.cast_sum]
        have : ∑ l, donorTwice.Dmat k l = 2 := by fin_cases k <;> rfl
        rw [this]
        norm_num
      rw [this]
      norm_num
    · rintro ⟨-, w, -⟩
      simp at w
  obtain ⟨q, hq, hp⟩ := ssLoop_rational 1e-12 1e-12 100 (fun _ => 1) ⟨1, by norm_num, by norm_num⟩
  have hle := (ssLoop_physical (1/2) 1e-12 1e-12 (by norm_num) (by norm_num) (fun _ _ : Fin 1 => (1 : ℝ)) (fun _ _ => by norm_num) 100 (fun _ => 1) (fun _ => by norm_num) 0).2
  rw [hq] at hX1 hle
  have hp' : (0 : ℝ) < q := by exact_mod_cast hp
  refine ⟨q, hp, by have : (q : ℝ) < 2 := by linarith
                    exact_mod_cast this, ?_⟩
  rw [hX1, if_neg (by push Not; exact fun _ => hp')]
  congr 1
  have key := assocSum_sites (fun _ : Fin 2 => (1/2 : ℝ)) (fun I => (donorTwice.sites.get I).comp) (fun I => (donorTwice.sites.get I).count) ![0, 0, 1, 1]
    (fun I => by fin_cases I <;> rfl) (fun _ => (q : ℝ))
  have hl : (List.ofFn fun _ : Fin 2 => (1/2 : ℝ)) = [1/2, 1/2] := by simp [List.ofFn_succ]
  rw [hl] at key
  refine key.trans ?_
  have hc (I : Fin donorTwice.sites.length) : (donorTwice.sites.get I).count = 1 := by fin_cases I <;> rfl
  simp only [hc]
  rw [sum_const, card_univ, Fintype.card_fin]
  simp [donorTwice, bondTerm]
  ring

/-- **C184 is false for one component with two kinds of sites**: listed once the closed form is used, listed twice the iteration stops at a rational number. -/
theorem assoc_rewrite_pure_false : donorTwice.alphar 1 1 1 1 [1/2, 1/2] ≠ donorOnce.alphar 1 1 1 1 [1/2 + 1/2] := by
  obtain ⟨q, h0, h2, hq⟩ := donorTwice_alphar
  obtain ⟨b1, b2⟩ := sqrt5_bounds
  rw [hq, show (1/2 + 1/2 : ℝ) = 1 by norm_num, donorOnce_alphar]
  intro h
  simp only [Outcome.ok.injEq] at h
  have h' := bondTerm_inj (by exact_mod_cast h0) (by linarith) (by exact_mod_cast h2) (by linarith) (mul_left_cancel₀ two_ne_zero h)
  have irr : Irrational (Real.sqrt 5) := by
    have := Nat.Prime.irrational_sqrt (p := 5) (by norm_num)
    exact_mod_cast this
  refine irr ⟨2 * q + 1, ?_⟩
  push_cast
  linarith

/-! ## Examples -/

theorem unique_AA : uniqueSites ["A", "A"] = ["A"] := by
  simp [uniqueSites, List.dedup_cons_of_mem]

/-- Two substances, the first of them listed twice. -/
example : ∃ a' a, AssocModel.make ⟨[1, 2, 1], [3, 4, 3], [5, 6, 5], some .CS⟩ [["A"], ["A", "A"], ["A"]] {} = .ok a' ∧ AssocModel.make ⟨[1, 2], [3, 4], [5, 6], some .CS⟩ [["A"], ["A", "A"]] {} = .ok a ∧
    ∀ R NA T rho x y z : ℝ, a'.alphar R NA T rho [x, y, z] = a.alphar R NA T rho [x + z, y] := by
  have h1 : makeMapper [["A"], ["A", "A"], ["A"]] = .ok [⟨0, "A", 1⟩, ⟨1, "A", 2⟩, ⟨2, "A", 1⟩] := by
    simp [makeMapper, mapSites, unique_AA]
    simp [uniqueSites]
  have h2 : makeMapper [["A"], ["A", "A"]] = .ok [⟨0, "A", 1⟩, ⟨1, "A", 2⟩] := by
    simp [makeMapper, mapSites, unique_AA]
    simp [uniqueSites]
  have h : SameAssoc ![0, 1, 0] ({} : AssocOptions) {} [["A"], ["A", "A"], ["A"]] [["A"], ["A", "A"]] ⟨[1, 2, 1], [3, 4, 3], [5, 6, 5], some .CS⟩ ⟨[1, 2], [3, 4], [5, 6], some .CS⟩ :=
    { len' := rfl, len := rfl, mol := fun k => by fin_cases k <;> rfl, b := fun k => by fin_cases k <;> rfl, beta := fun k => by fin_cases k <;> rfl,
      epsilon := fun k => by fin_cases k <;> rfl, blen' := ⟨rfl, rfl, rfl⟩, blen := ⟨rfl, rfl, rfl⟩, dist := rfl, partners := rfl, explicit := rfl, alpha := rfl, rtol := rfl, atol := rfl, iters := rfl,
      mask := Or.inl ⟨rfl, rfl⟩ }
  refine ⟨_, _, by unfold AssocModel.make; rw [h1]; rfl, by unfold AssocModel.make; rw [h2]; rfl, fun R NA T rho x y z => ?_⟩
  have key := assoc_rewrite_partial h (fun i => by fin_cases i; exacts [⟨0, rfl⟩, ⟨1, rfl⟩]) (Or.inr (by norm_num)) (by unfold AssocModel.make; rw [h1]; rfl) (by unfold AssocModel.make; rw [h2]; rfl) R NA T rho ![x, y, z]
  have e1 : List.ofFn ![x, y, z] = [x, y, z] := by simp [List.ofFn_succ]
  have e2 : List.ofFn (gathered ![(0 : Fin 2), 1, 0] ![x, y, z]) = [x + z, y] := by
    simp [List.ofFn_succ, gathered, sum_filter, Fin.sum_univ_three]
  rwa [e1, e2] at key

/-- Two substances in the other order, one of them masked. -/
example : ∃ a' a, AssocModel.make ⟨[2, 1], [4, 3], [6, 5], some .KG⟩ [["A", "A"], ["A"]] { mask := [true, false] } = .ok a' ∧
    AssocModel.make ⟨[1, 2], [3, 4], [5, 6], some .KG⟩ [["A"], ["A", "A"]] { mask := [false, true] } = .ok a ∧ ∀ R NA T rho x y : ℝ, a'.alphar R NA T rho [x, y] = a.alphar R NA T rho [y, x] := by
  have h1 : makeMapper [["A", "A"], ["A"]] = .ok [⟨0, "A", 2⟩, ⟨1, "A", 1⟩] := by
    simp [makeMapper, mapSites, unique_AA]
    simp [uniqueSites]
  have h2 : makeMapper [["A"], ["A", "A"]] = .ok [⟨0, "A", 1⟩, ⟨1, "A", 2⟩] := by
    simp [makeMapper, mapSites, unique_AA]
    simp [uniqueSites]
  have h : SameAssoc ![1, 0] ({ mask := [true, false] } : AssocOptions) { mask := [false, true] } [["A", "A"], ["A"]] [["A"], ["A", "A"]] ⟨[2, 1], [4, 3], [6, 5], some .KG⟩ ⟨[1, 2], [3, 4], [5, 6], some .KG⟩ :=
    { len' := rfl, len := rfl, mol := fun k => by fin_cases k <;> rfl, b := fun k => by fin_cases k <;> rfl, beta := fun k => by fin_cases k <;> rfl,
      epsilon := fun k => by fin_cases k <;> rfl, blen' := ⟨rfl, rfl, rfl⟩, blen := ⟨rfl, rfl, rfl⟩, dist := rfl, partners := rfl, explicit := rfl, alpha := rfl, rtol := rfl, atol := rfl, iters := rfl,
      mask := Or.inr ⟨by decide, by simp, fun k => by fin_cases k <;> rfl⟩ }
  refine ⟨_, _, by unfold AssocModel.make; rw [h1]; rfl, by unfold AssocModel.make; rw [h2]; rfl, fun R NA T rho x y => ?_⟩
  have key := assoc_rewrite_partial h (fun i => by fin_cases i; exacts [⟨1, rfl⟩, ⟨0, rfl⟩]) (Or.inr (by norm_num)) (by unfold AssocModel.make; rw [h1]; rfl) (by unfold AssocModel.make; rw [h2]; rfl) R NA T rho ![x, y]
  have e1 : List.ofFn ![x, y] = [x, y] := by simp [List.ofFn_succ]
  have e2 : List.ofFn (gathered ![(1 : Fin 2), 0] ![x, y]) = [y, x] := by
    simp [List.ofFn_succ, gathered, sum_filter, Fin.sum_univ_two]
  rwa [e1, e2] at key
end Teqp.Props
