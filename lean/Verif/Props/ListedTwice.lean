import Verif.Props.Rewrite
import Verif.Props.Isochoric
import Verif.Props.Cubic
import Verif.Props.MixConverge

/-! # C188: what a component that is listed several times means for the derived properties and for phase equilibrium -/

set_option autoImplicit false

namespace Teqp.Props
open Teqp Teqp.Model Teqp.Spec Teqp.Calc Teqp.Sample Finset

/-- A model that does not depend on how the mixture is written down: C14, C110 and C183 to C187 are statements of this kind. -/
structure SameEOS {κ ι : Type} [Fintype κ] [DecidableEq ι] (f : κ → ι) (m' : EOS κ) (m : EOS ι) : Prop where
  alphar : ∀ (T rho : ℝ) (x : κ → ℝ), m'.alphar T rho x = m.alphar T rho (gathered f x)
  R : ∀ x : κ → ℝ, m'.R x = m.R (gathered f x)

section
variable {κ ι : Type} [Fintype κ] [Fintype ι] [DecidableEq ι] {f : κ → ι}

theorem rhotot_gathered (rho : κ → ℝ) : rhotot (gathered f rho) = rhotot rho := by
  have := gathered_sum f rho fun _ => 1
  simp only [mul_one] at this
  exact this.symm

theorem molefrac_gathered (rho : κ → ℝ) : molefrac (gathered f rho) = gathered f (molefrac rho) := by
  funext i
  unfold molefrac
  rw [rhotot_gathered, gathered, gathered, sum_div]

theorem gathered_scale (r : ℝ) (x : κ → ℝ) : gathered f (fun k => r * x k) = fun i => r * gathered f x i := by
  funext i
  unfold gathered
  rw [mul_sum]

variable [DecidableEq κ]

theorem gathered_update (x : κ → ℝ) (k : κ) (t : ℝ) : gathered f (Function.update x k t) = Function.update (gathered f x) (f k) (gathered f x (f k) - x k + t) := by
  funext i
  by_cases h : i = f k
  · subst h
    have hk : k ∈ univ.filter fun l => f l = f k := mem_filter.2 ⟨mem_univ k, rfl⟩
    rw [Function.update_self, gathered, gathered, ← add_sum_erase _ (Function.update x k t) hk, ← add_sum_erase _ x hk, Function.update_self,
      sum_congr rfl fun l hl => Function.update_of_ne (mem_erase.1 hl).1 t x]
    ring
  · rw [Function.update_of_ne h, gathered, gathered]
    refine sum_congr rfl fun l hl => Function.update_of_ne ?_ t x
    rintro rfl
    exact h (mem_filter.1 hl).2.symm

/-- The chain rule needs no differentiability: one entry is shifted. -/
theorem deriv_gathered (F : (ι → ℝ) → ℝ) (x : κ → ℝ) (k : κ) :
    deriv (fun t => F (gathered f (Function.update x k t))) (x k) = deriv (fun t => F (Function.update (gathered f x) (f k) t)) (gathered f x (f k)) := by
  simp only [gathered_update]
  rw [deriv_comp_const_add (fun t => F (Function.update (gathered f x) (f k) t)) (gathered f x (f k) - x k) (x k)]
  congr 1
  ring

theorem partialD_gathered {G : (κ → ℝ) → ℝ} {F : (ι → ℝ) → ℝ} (h : ∀ x, G x = F (gathered f x)) (x : κ → ℝ) (k : κ) : partialD G k x = partialD F (f k) (gathered f x) := by
  unfold partialD
  simp only [h]
  exact deriv_gathered F x k

variable {m' : EOS κ} {m : EOS ι}

theorem SameEOS.Psir (h : SameEOS f m' m) (T : ℝ) (rho : κ → ℝ) : Model.Psir m' T rho = Model.Psir m T (gathered f rho) := by
  unfold Model.Psir
  rw [h.alphar, h.R, rhotot_gathered, molefrac_gathered]

theorem SameEOS.grad (h : SameEOS f m' m) (T : ℝ) (rho : κ → ℝ) (k : κ) : gradPsir m' T rho k = gradPsir m T (gathered f rho) (f k) :=
  partialD_gathered (h.Psir T) rho k

theorem SameEOS.hess (h : SameEOS f m' m) (T : ℝ) (rho : κ → ℝ) (k l : κ) : hessPsir m' T rho k l = hessPsir m T (gathered f rho) (f k) (f l) :=
  partialD_gathered (fun y => h.grad T y l) rho k

theorem SameEOS.tdx (h : SameEOS f m' m) (a b : ℕ) (T r : ℝ) (x : κ → ℝ) : tdxAr m' a b T r x = tdxAr m a b T r (gathered f x) := by
  unfold tdxAr
  simp only [h.alphar]

theorem SameEOS.dT (h : SameEOS f m' m) (T : ℝ) (rho : κ → ℝ) (k : κ) : d2PsirdTdrhoi m' T rho k = d2PsirdTdrhoi m T (gathered f rho) (f k) := by
  unfold d2PsirdTdrhoi
  congr 1
  funext T'
  simp only [h.Psir]
  exact deriv_gathered (Model.Psir m T') rho k

/-- **C188, the mixture**: pressure, residual Helmholtz energy and entropy, and their derivatives do not depend on the listing. -/
theorem listing_mixture (h : SameEOS f m' m) (T : ℝ) (rho : κ → ℝ) :
    ptot m' T rho = ptot m T (gathered f rho) ∧ isoAr00 m' T rho = isoAr00 m T (gathered f rho) ∧ isoAr10 m' T rho = isoAr10 m T (gathered f rho) ∧
    isoAr01 m' T rho = isoAr01 m T (gathered f rho) ∧ splus m' T rho = splus m T (gathered f rho) ∧ dPsirdT m' T rho = dPsirdT m T (gathered f rho) ∧
    dpdT m' T rho = dpdT m T (gathered f rho) ∧ lnZ_Z_dZdrho m' T rho = lnZ_Z_dZdrho m T (gathered f rho) := by
  have h10 : isoAr10 m' T rho = isoAr10 m T (gathered f rho) := by
    unfold isoAr10
    simp only [h.alphar, rhotot_gathered, molefrac_gathered]
  have hdT : dPsirdT m' T rho = dPsirdT m T (gathered f rho) := by
    unfold dPsirdT
    simp only [h.alphar, h.R, rhotot_gathered, molefrac_gathered]
  refine ⟨?_, ?_, h10, ?_, ?_, hdT, ?_, ?_⟩
  · unfold ptot pr
    simp only [h.alphar, h.R, rhotot_gathered, molefrac_gathered]
  · unfold isoAr00
    rw [h.alphar, rhotot_gathered, molefrac_gathered]
  · unfold isoAr01
    rw [← gathered_sum f rho fun i => partialD (fun r => m.alphar T (rhotot r) (molefrac r)) i (gathered f rho)]
    refine sum_congr rfl fun k _ => ?_
    rw [partialD_gathered (F := fun r => m.alphar T (rhotot r) (molefrac r)) (fun y => by rw [h.alphar, rhotot_gathered, molefrac_gathered])]
  · unfold splus
    rw [h10, h.alphar, rhotot_gathered, molefrac_gathered]
  · unfold dpdT
    rw [hdT, h.R, rhotot_gathered, molefrac_gathered, ← gathered_sum f rho fun i => d2PsirdTdrhoi m T (gathered f rho) i, sum_congr rfl fun k _ => by rw [h.dT T rho k]]
  · unfold lnZ_Z_dZdrho
    rw [h.tdx, h.tdx, rhotot_gathered, molefrac_gathered]

/-- **C188, the entries**: every entry has the fugacity coefficient and the partial molar volume of its component, with all their derivatives. -/
theorem listing_entries (h : SameEOS f m' m) (T : ℝ) (rho : κ → ℝ) (k l : κ) :
    fugacityCoefficient m' T rho k = fugacityCoefficient m T (gathered f rho) (f k) ∧ dlnphidT m' T rho k = dlnphidT m T (gathered f rho) (f k) ∧
    dlnphidrho m' T rho k = dlnphidrho m T (gathered f rho) (f k) ∧ dlnphidv m' T rho k = dlnphidv m T (gathered f rho) (f k) ∧
    dlnphidx m' T rho k l = dlnphidx m T (gathered f rho) (f k) (f l) ∧ dpdrhovec m' T rho k = dpdrhovec m T (gathered f rho) (f k) ∧
    partialMolarVolume m' T rho k = partialMolarVolume m T (gathered f rho) (f k) := by
  have hr : dlnphidrho m' T rho k = dlnphidrho m T (gathered f rho) (f k) := by
    unfold dlnphidrho
    simp only [(listing_mixture h T rho).2.2.2.2.2.2.2, h.R, molefrac_gathered]
    congr 2
    have e := gathered_sum f (molefrac rho) fun i => hessPsir m T (gathered f rho) (f k) i
    simp only [mul_comm (hessPsir _ _ _ _ _)]
    rw [← e]
    exact sum_congr rfl fun l _ => by rw [h.hess]
  have hp : dpdrhovec m' T rho k = dpdrhovec m T (gathered f rho) (f k) := by
    unfold dpdrhovec
    rw [h.R, molefrac_gathered]
    congr 1
    have e := gathered_sum f rho fun i => hessPsir m T (gathered f rho) (f k) i
    simp only [mul_comm (hessPsir _ _ _ _ _)]
    rw [← e]
    exact sum_congr rfl fun l _ => by rw [h.hess]
  refine ⟨?_, ?_, hr, ?_, ?_, hp, ?_⟩
  · unfold fugacityCoefficient lnphi
    simp only [h.grad, h.tdx, h.R, rhotot_gathered, molefrac_gathered]
  · unfold dlnphidT
    simp only [h.grad, h.dT, h.tdx, h.R, rhotot_gathered, molefrac_gathered]
  · unfold dlnphidv
    rw [hr, rhotot_gathered]
  · unfold dlnphidx
    have hd : d2alphardrhodxi m' T (rhotot rho) (molefrac rho) l = d2alphardrhodxi m T (rhotot rho) (gathered f (molefrac rho)) (f l) := by
      unfold d2alphardrhodxi
      congr 1
      funext r'
      simp only [h.alphar]
      exact deriv_gathered (m.alphar T r') (molefrac rho) l
    simp only [h.hess, h.tdx, h.R, hd, rhotot_gathered, molefrac_gathered]
  · unfold partialMolarVolume
    simp only [hp, h.R, h.alphar, rhotot_gathered, molefrac_gathered]

/-- **C188, the chemical potentials** are lower than those of the component by the share of the entry. -/
theorem listing_chempot (h : SameEOS f m' m) (T : ℝ) (rho : κ → ℝ) (hr : ∀ k, 0 < rho k) (k : κ) :
    chempotVLE m' T rho k = chempotVLE m T (gathered f rho) (f k) + m.R (molefrac (gathered f rho)) * T * Real.log (rho k / gathered f rho (f k)) := by
  have hg : 0 < gathered f rho (f k) := sum_pos (fun l _ => hr l) ⟨k, mem_filter.2 ⟨mem_univ k, rfl⟩⟩
  unfold chempotVLE
  simp only [h.grad, h.R, molefrac_gathered, div_one]
  rw [Real.log_div (hr k).ne' hg.ne']
  ring

/-- Two phases with equal temperature, pressure and chemical potentials. -/
def Coexist {J : Type} [Fintype J] [DecidableEq J] (m : EOS J) (T : ℝ) (L V : J → ℝ) : Prop := ptot m T L = ptot m T V ∧ ∀ i, chempotVLE m T L i = chempotVLE m T V i

/-- **C188, phase equilibrium**: phases of the longer list coexist exactly when those of the components do and every entry has the same share of its component in both. -/
theorem listing_coexist (h : SameEOS f m' m) (hf : Function.Surjective f) (R0 : ℝ) (hR : ∀ x, m.R x = R0) (hR0 : R0 ≠ 0) (T : ℝ) (hT : T ≠ 0) (L V : κ → ℝ) (hL : ∀ k, 0 < L k) (hV : ∀ k, 0 < V k) :
    Coexist m' T L V ↔ Coexist m T (gathered f L) (gathered f V) ∧ ∀ k, L k / gathered f L (f k) = V k / gathered f V (f k) := by
  have hgL (k : κ) : 0 < gathered f L (f k) := sum_pos (fun l _ => hL l) ⟨k, mem_filter.2 ⟨mem_univ k, rfl⟩⟩
  have hgV (k : κ) : 0 < gathered f V (f k) := sum_pos (fun l _ => hV l) ⟨k, mem_filter.2 ⟨mem_univ k, rfl⟩⟩
  unfold Coexist
  rw [(listing_mixture h T L).1, (listing_mixture h T V).1]
  simp only [listing_chempot h T L hL, listing_chempot h T V hV, hR]
  constructor
  · rintro ⟨hp, hm⟩
    have share (i : ι) (W : κ → ℝ) (hW : gathered f W i ≠ 0) : ∑ k with f k = i, W k / gathered f W i = 1 := by
      rw [← sum_div]
      exact div_self hW
    have hmu (i : ι) : chempotVLE m T (gathered f L) i = chempotVLE m T (gathered f V) i := by
      obtain ⟨k0, rfl⟩ := hf i
      set d := (chempotVLE m T (gathered f V) (f k0) - chempotVLE m T (gathered f L) (f k0)) / (R0 * T) with hd
      have key (k : κ) (hk : f k = f k0) : L k / gathered f L (f k0) = Real.exp d * (V k / gathered f V (f k0)) := by
        have e := hm k
        have pL : 0 < L k / gathered f L (f k) := div_pos (hL k) (hgL k)
        have pV : 0 < V k / gathered f V (f k) := div_pos (hV k) (hgV k)
        have e2 : Real.log (L k / gathered f L (f k)) = d + Real.log (V k / gathered f V (f k)) := by
          rw [hd, ← hk]
          field_simp
          linarith
        rw [← hk, ← Real.exp_log pL, e2, Real.exp_add, Real.exp_log pV]
      have s1 := share (f k0) L (hgL k0).ne'
      rw [sum_congr rfl fun k hk => key k (mem_filter.1 hk).2, ← mul_sum, share (f k0) V (hgV k0).ne', mul_one, Real.exp_eq_one_iff] at s1
      rw [hd, div_eq_zero_iff] at s1
      rcases s1 with s1 | s1
      · linarith
      · exact absurd s1 (mul_ne_zero hR0 hT)
    refine ⟨⟨hp, hmu⟩, fun k => ?_⟩
    have e := hm k
    rw [hmu, add_right_inj, mul_right_inj' (mul_ne_zero hR0 hT)] at e
    exact Real.log_injOn_pos (div_pos (hL k) (hgL k)) (div_pos (hV k) (hgV k)) e
  · rintro ⟨⟨hp, hmu⟩, hs⟩
    exact ⟨hp, fun k => by rw [hmu, hs]⟩
end

/-! ## Examples -/

section
variable {κ ι : Type} [Fintype κ] [Fintype ι] [DecidableEq ι]

/-- A cubic mixture as a model of the isochoric formalism. -/
noncomputable def cubicListed {J : Type} [Fintype J] (m : Cubic J) : EOS J := ⟨m.alphar, fun _ => m.R⟩

/-- Cubic mixtures do not depend on the listing (C14). -/
theorem cubicListed_same (f : κ → ι) (m : Cubic ι) : SameEOS f (cubicListed (copyComponents m f)) (cubicListed m) :=
  ⟨fun T rho x => cubic_lump m f T rho x, fun _ => rfl⟩
end

/-- A Peng-Robinson mixture of two fluids with the first one listed twice. -/
noncomputable def prPair : Cubic (Fin 2) := Cubic.build (1 + Real.sqrt 2) (1 - Real.sqrt 2) 0.457 0.0778 ![190, 305] ![4.6e6, 4.9e6] ![.basic 190 0.39, .basic 305 0.52] (fun _ _ => 0) 8.314

example (T : ℝ) (rho : Fin 3 → ℝ) : ptot (cubicListed (copyComponents prPair ![0, 1, 0])) T rho = ptot (cubicListed prPair) T (gathered ![0, 1, 0] rho) :=
  (listing_mixture (cubicListed_same ![0, 1, 0] prPair) T rho).1

example (T : ℝ) (rho : Fin 3 → ℝ) : fugacityCoefficient (cubicListed (copyComponents prPair ![0, 1, 0])) T rho 0 = fugacityCoefficient (cubicListed (copyComponents prPair ![0, 1, 0])) T rho 2 := by
  rw [(listing_entries (cubicListed_same ![0, 1, 0] prPair) T rho 0 0).1, (listing_entries (cubicListed_same ![0, 1, 0] prPair) T rho 2 0).1]
  rfl

/-- Coexisting phases have the same shares of the two entries. -/
example (T : ℝ) (hT : T ≠ 0) (L V : Fin 3 → ℝ) (hL : ∀ k, 0 < L k) (hV : ∀ k, 0 < V k) (h : Coexist (cubicListed (copyComponents prPair ![0, 1, 0])) T L V) : L 0 / (L 0 + L 2) = V 0 / (V 0 + V 2) := by
  have := ((listing_coexist (cubicListed_same ![0, 1, 0] prPair) (fun i => by fin_cases i; exacts [⟨0, rfl⟩, ⟨1, rfl⟩]) 8.314 (fun _ => rfl) (by norm_num) T hT L V hL hV).1 h).2 0
  have e (W : Fin 3 → ℝ) : gathered (![0, 1, 0] : Fin 3 → Fin 2) W 0 = W 0 + W 2 := by
    rw [gathered, sum_filter, Fin.sum_univ_three]
    simp
  rw [← e, ← e]
  exact this

/-- The two liquids of `demixA` coexist. -/
theorem demixA_phases : Coexist demixA 1 ![2, 1] ![1, 2] := by
  have tL : rhotot ![(2 : ℝ), 1] ≠ 0 := by simp [rhotot]; norm_num
  have tV : rhotot ![(1 : ℝ), 2] ≠ 0 := by simp [rhotot]; norm_num
  have hg (ρ : Fin 2 → ℝ) (h : rhotot ρ ≠ 0) (i : Fin 2) : gradPsir demixA 1 ρ i = 8 * Real.log 2 * ρ (1 - i) := by
    have : gradPsir demixA 1 ρ i = gradPsir demix 1 ρ i := by unfold gradPsir; rw [demixA_Psir_one]
    rw [this, demix_grad 1 ρ h, one_pow, mul_one]
  constructor
  · unfold ptot pr demixA
    simp [rhotot, molefrac, Fin.sum_univ_two]
    norm_num
  · intro i
    unfold chempotVLE
    simp only [hg _ tL, hg _ tV, demixA_R]
    fin_cases i <;> simp <;> ring

/-- The first component of `demixA` listed twice, a quarter of it under the first entry in both phases: the phases coexist. -/
example : Coexist (⟨fun T r x => demixA.alphar T r (gathered (![0, 1, 0] : Fin 3 → Fin 2) x), fun _ => 8⟩ : EOS (Fin 3)) 1 ![1/2, 1, 3/2] ![1/4, 2, 3/4] := by
  have e (a b c : ℝ) : gathered (![0, 1, 0] : Fin 3 → Fin 2) ![a, b, c] = ![a + c, b] := by
    funext i
    rw [gathered, sum_filter, Fin.sum_univ_three]
    fin_cases i <;> simp
  refine (listing_coexist (f := (![0, 1, 0] : Fin 3 → Fin 2)) (m := demixA) ⟨fun _ _ _ => rfl, fun _ => rfl⟩ (fun i => by fin_cases i; exacts [⟨0, rfl⟩, ⟨1, rfl⟩]) 8 (fun _ => rfl) (by norm_num) 1 (by norm_num)
    _ _ (fun k => by fin_cases k <;> simp) (fun k => by fin_cases k <;> simp)).2 ⟨?_, fun k => ?_⟩
  · rw [e, e]
    convert demixA_phases using 2 <;> norm_num
  · rw [e, e]
    fin_cases k <;> simp <;> norm_num
end Teqp.Props
