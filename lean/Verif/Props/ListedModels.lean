import Verif.Props.AbsentCritical
import Verif.Props.CPARewrite

/-! # C188 to C190 for the model families: what their functions return does not depend on the listing

The calls of `derivs.hpp` see a model as a function of temperature, density and mole fractions.  Where `alphar` does not return a number the function below is zero; the equalities are between
outcomes, so both mixtures fail together. -/

set_option autoImplicit false

namespace Teqp.Props
open Teqp Teqp.Model Teqp.Spec Teqp.Calc Teqp.Sample Finset

/-- A model with failures seen by the derivative functions (the concept `CallableAlphar`, `/repo/include/teqp/derivs.hpp` lines 106-109). -/
noncomputable def seenAs {N : ℕ} (R : ℝ) (al : ℝ → ℝ → List ℝ → Outcome ℝ) : EOS (Fin N) :=
  ⟨fun T rho x => match al T rho (List.ofFn x) with
    | .ok v => v
    | _ => 0, fun _ => R⟩

theorem seenAs_same {N' N : ℕ} {f : Fin N' → Fin N} {R : ℝ} {al' al : ℝ → ℝ → List ℝ → Outcome ℝ}
    (h : ∀ T rho (x : Fin N' → ℝ), al' T rho (List.ofFn x) = al T rho (List.ofFn (gathered f x))) : SameEOS f (seenAs R al') (seenAs R al) :=
  ⟨fun T rho x => by simp only [seenAs, h], fun _ => rfl⟩

theorem getD_ofFn_self {N : ℕ} (x : Fin N → ℝ) : (fun k : Fin N => (List.ofFn x).getD k 0) = x := by
  funext k
  simp [List.getD_eq_getElem?_getD]

/-- **C188, PC-SAFT** with or without polar terms. -/
theorem pc_listed (NA R : ℝ) {m' m : PCMixture} {f : Fin m'.coeffs.length → Fin m.coeffs.length} (h : SameMixture m' m f) (hf : Function.Surjective f) :
    SameEOS f (seenAs R (m'.alpharPolar NA)) (seenAs R (m.alpharPolar NA)) := seenAs_same fun T rho x => by
  rw [pc_rewrite NA m' m f h hf T rho (List.ofFn x) (List.length_ofFn ..), getD_ofFn_self]

/-- **C188, Lee-Kesler-Ploecker.** -/
theorem lkp_listed (R : ℝ) {m' m : LKPMix} {f : Fin m'.N → Fin m.N} (h : SameLKP m' m f) (hf : Function.Surjective f) : SameEOS f (seenAs R m'.alphar) (seenAs R m.alphar) :=
  seenAs_same fun T rho x => by
    rw [lkp_rewrite m' m f h hf T rho (List.ofFn x) (List.length_ofFn ..), getD_ofFn_self]

/-- **C188, CPA**, with the cubic part and association. -/
theorem cpa_listed (R NA : ℝ) {N' N : ℕ} {f : Fin N' → Fin N} {c' c : CPACubic} {o' o : AssocOptions} {mols' mols : List (List String)} {d' d : CanonicalData} (h : SameCPACubic f c' c)
    (ha : SameAssoc f o' o mols' mols d' d) (hf : Function.Surjective f) (hN : o.allowExplicit = false ∨ N ≠ 1) {a' a : AssocModel} (m' : AssocModel.make d' mols' o' = .ok a')
    (m : AssocModel.make d mols o = .ok a) : SameEOS f (seenAs R (CPAEOS.alphar R NA ⟨c', .new a'⟩)) (seenAs R (CPAEOS.alphar R NA ⟨c, .new a⟩)) :=
  seenAs_same fun T rho x => cpa_rewrite h ha hf hN m' m R NA T rho x

/-- **C188, the advanced cubic model** with excess energies. -/
theorem advPR_listed (R : ℝ) {N' N : ℕ} {f : Fin N' → Fin N} {m' m : AdvPR} (h : SameAdv f m' m) (hf : Function.Surjective f) : SameEOS f (seenAs R m'.alphar) (seenAs R m.alphar) :=
  seenAs_same fun T rho x => advPR_rewrite h hf T rho x

/-! ## Examples -/

theorem three_onto_two : Function.Surjective (![0, 1, 0] : Fin 3 → Fin 2) := fun i => by fin_cases i; exacts [⟨0, rfl⟩, ⟨1, rfl⟩]

theorem sampleThree_same : SameMixture sampleThree sampleTwo (![0, 1, 0] : Fin 3 → Fin 2) := by
  constructor
  all_goals first
    | rfl
    | (intro (k : Fin 3); fin_cases k <;> rfl)
    | (intro (k : Fin 3) (l : Fin 3); fin_cases k <;> fin_cases l <;> rfl)

/-- Two phases of a PC-SAFT mixture with a component listed twice: the merged phases are in equilibrium and the shares agree. -/
example (T : ℝ) (hT : T ≠ 0) (L V : Fin 3 → ℝ) (hL : ∀ k, 0 < L k) (hV : ∀ k, 0 < V k) :
    Coexist (seenAs 8.314 (sampleThree.alpharPolar 6.022e23) : EOS (Fin 3)) T L V ↔
      Coexist (seenAs 8.314 (sampleTwo.alpharPolar 6.022e23) : EOS (Fin 2)) T (gathered (![0, 1, 0] : Fin 3 → Fin 2) L) (gathered (![0, 1, 0] : Fin 3 → Fin 2) V) ∧
      ∀ k, L k / gathered (![0, 1, 0] : Fin 3 → Fin 2) L ((![0, 1, 0] : Fin 3 → Fin 2) k) = V k / gathered (![0, 1, 0] : Fin 3 → Fin 2) V ((![0, 1, 0] : Fin 3 → Fin 2) k) :=
  listing_coexist (pc_listed 6.022e23 8.314 sampleThree_same three_onto_two) three_onto_two 8.314 (fun _ => rfl) (by norm_num) T hT L V hL hV

example (T : ℝ) (rho : Fin 3 → ℝ) : splus (seenAs 8.314 cpaTwice.alphar : EOS (Fin 3)) T rho = splus (seenAs 8.314 cpaOnce.alphar : EOS (Fin 2)) T (gathered (![0, 1, 0] : Fin 3 → Fin 2) rho) :=
  (listing_mixture (seenAs_same fun T rho x => cpa_cubic_rewrite cpaTwice_same three_onto_two T rho x) T rho).2.2.2.2.1

/-- Reordering two fluids of the Lee-Kesler-Ploecker model. -/
example (T : ℝ) (rho : Fin 2 → ℝ) :
    ptot (seenAs 8.314 (⟨[190.5, 305.3], [4.6e6, 4.87e6], [0.011, 0.099], 8.314, [[1, 1.05], [1.02, 1]]⟩ : LKPMix).alphar : EOS (Fin 2)) T rho =
      ptot (seenAs 8.314 (⟨[305.3, 190.5], [4.87e6, 4.6e6], [0.099, 0.011], 8.314, [[1, 1.02], [1.05, 1]]⟩ : LKPMix).alphar : EOS (Fin 2)) T (gathered (![1, 0] : Fin 2 → Fin 2) rho) := by
  have h : SameLKP ⟨[190.5, 305.3], [4.6e6, 4.87e6], [0.011, 0.099], 8.314, [[1, 1.05], [1.02, 1]]⟩ ⟨[305.3, 190.5], [4.87e6, 4.6e6], [0.099, 0.011], 8.314, [[1, 1.02], [1.05, 1]]⟩
      (![1, 0] : Fin 2 → Fin 2) := by
    constructor
    all_goals first
      | rfl
      | (intro (k : Fin 2); fin_cases k <;> rfl)
      | (intro (k : Fin 2) (l : Fin 2); fin_cases k <;> fin_cases l <;> rfl)
  exact (listing_mixture (lkp_listed 8.314 h fun (i : Fin 2) => by fin_cases i; exacts [⟨(1 : Fin 2), rfl⟩, ⟨(0 : Fin 2), rfl⟩]) T rho).1

/-- The fugacity coefficient of the second entry of an advanced cubic mixture with a Wilson excess energy. -/
example (o : AdvOptions) (T : ℝ) (rho : Fin 3 → ℝ) :
    fugacityCoefficient (seenAs 8.314 (⟨[1, 2, 1], [3, 4, 3], [.basic 1 0, .basic 2 1, .basic 1 0], .wilson wilsonTriple, Mat.zero 3, o⟩ : AdvPR).alphar : EOS (Fin 3)) T rho 1 =
      fugacityCoefficient (seenAs 8.314 (⟨[1, 2], [3, 4], [.basic 1 0, .basic 2 1], .wilson wilsonPair, Mat.zero 2, o⟩ : AdvPR).alphar : EOS (Fin 2)) T (gathered (![0, 1, 0] : Fin 3 → Fin 2) rho) 1 := by
  have h : SameAdv (![0, 1, 0] : Fin 3 → Fin 2) (⟨[1, 2, 1], [3, 4, 3], [.basic 1 0, .basic 2 1, .basic 1 0], .wilson wilsonTriple, Mat.zero 3, o⟩ : AdvPR)
      ⟨[1, 2], [3, 4], [.basic 1 0, .basic 2 1], .wilson wilsonPair, Mat.zero 2, o⟩ :=
    { ai := fun k => by fin_cases k <;> rfl, bi := fun k => by fin_cases k <;> rfl, alphas := fun k => by fin_cases k <;> rfl, l := fun _ _ => rfl, o := rfl
      ares := fun T x => wilson_rewrite wilsonTriple_same three_onto_two T x
      len' := ⟨rfl, rfl, rfl, rfl, rfl⟩, len := ⟨rfl, rfl, rfl, rfl, rfl⟩ }
  exact (listing_entries (advPR_listed 8.314 h three_onto_two) T rho 1 1).1

example : ∃ a' a, AssocModel.make ⟨[1, 2, 1], [3, 4, 3], [5, 6, 5], some .CS⟩ [["A"], ["A", "A"], ["A"]] {} = .ok a' ∧ AssocModel.make ⟨[1, 2], [3, 4], [5, 6], some .CS⟩ [["A"], ["A", "A"]] {} = .ok a ∧
    ∀ (T : ℝ) (rho : Fin 3 → ℝ), ptot (seenAs 8.314 (CPAEOS.alphar 8.314 6.022e23 ⟨cpaTwice, .new a'⟩) : EOS (Fin 3)) T rho =
      ptot (seenAs 8.314 (CPAEOS.alphar 8.314 6.022e23 ⟨cpaOnce, .new a⟩) : EOS (Fin 2)) T (gathered (![0, 1, 0] : Fin 3 → Fin 2) rho) := by
  have h1 : makeMapper [["A"], ["A", "A"], ["A"]] = .ok [⟨0, "A", 1⟩, ⟨1, "A", 2⟩, ⟨2, "A", 1⟩] := by
    simp [makeMapper, mapSites, unique_AA]
    simp [uniqueSites]
  have h2 : makeMapper [["A"], ["A", "A"]] = .ok [⟨0, "A", 1⟩, ⟨1, "A", 2⟩] := by
    simp [makeMapper, mapSites, unique_AA]
    simp [uniqueSites]
  have h : SameAssoc ![0, 1, 0] ({} : AssocOptions) {} [["A"], ["A", "A"], ["A"]] [["A"], ["A", "A"]] ⟨[1, 2, 1], [3, 4, 3], [5, 6, 5], some .CS⟩ ⟨[1, 2], [3, 4], [5, 6], some .CS⟩ :=
    { len' := rfl, len := rfl, mol := fun k => by fin_cases k <;> rfl, b := fun k => by fin_cases k <;> rfl, beta := fun k => by fin_cases k <;> rfl,
      epsilon := fun k => by fin_cases k <;> rfl, blen' := ⟨rfl, rfl, rfl⟩, blen := ⟨rfl, rfl, rfl⟩, dist := rfl, partners := rfl, explicit := rfl, alpha := rfl, rtol := rfl, atol := rfl, iters := rfl,
      mask := Or.inl ⟨rfl, rfl⟩ }
  refine ⟨_, _, by unfold AssocModel.make; rw [h1]; rfl, by unfold AssocModel.make; rw [h2]; rfl, fun T rho => ?_⟩
  exact (listing_mixture (cpa_listed 8.314 6.022e23 cpaTwice_same h three_onto_two (Or.inr (by norm_num)) (by unfold AssocModel.make; rw [h1]; rfl) (by unfold AssocModel.make; rw [h2]; rfl)) T rho).1

end Teqp.Props
