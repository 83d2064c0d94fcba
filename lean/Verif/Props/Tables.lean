import Verif.Spec.Fingerprint
import Verif.Model.GERGTables
import Verif.Model.CorrTables
import Mathlib.Tactic

/-! # C163: the transcribed tables

The numbers of each table, in the order of the C++ source and with the names replaced by their positions in
`GERG2008::component_names`, have the count, the sum and the weighted sum that a script found in the text of
`/repo/include/teqp/models/GERG/GERG.hpp` and `/repo/include/teqp/models/saft/correlation_integrals.hpp`. -/

set_option autoImplicit false

namespace Teqp.Props
open Teqp.Spec Teqp.Model

/-! ## Flattening -/

/-- The position of a fluid in `GERG2008::component_names`. -/
def fluidNo (f : GFluid) : ℚ := (gergNames08.idxOf f : ℕ)
/-- The two names of a pair. -/
def flatPair (p : GFluid × GFluid) : List ℚ := [fluidNo p.1, fluidNo p.2]
/-- Rows of critical data. -/
def flatInfo (l : List (GFluid × GInfo)) : List ℚ := l.flatMap fun e => [fluidNo e.1, e.2.rhoc, e.2.Tc, e.2.M]
/-- Rows of ideal-gas coefficients. -/
def flatAig (l : List (GFluid × GAig)) : List ℚ := l.flatMap fun e => fluidNo e.1 :: (e.2.n ++ e.2.theta)
/-- Rows of coefficients. -/
def flatRows (l : List (GFluid × List ℚ)) : List ℚ := l.flatMap fun e => fluidNo e.1 :: e.2
/-- Rows of parameters of the reducing functions. -/
def flatBetas (l : List ((GFluid × GFluid) × GBetas)) : List ℚ :=
  l.flatMap fun e => flatPair e.1 ++ [e.2.betaV, e.2.gammaV, e.2.betaT, e.2.gammaT]
/-- Natural numbers as rational numbers. -/
def flatNat (l : List ℕ) : List ℚ := l.map fun k => (k : ℚ)
/-- The fields of the coefficients of a pure fluid. -/
def flatPure (p : GPure) : List ℚ := p.n ++ p.t ++ flatNat p.d ++ flatNat p.c ++ flatNat p.l
/-- The fields of a departure function. -/
def flatDep (p : GDep) : List ℚ := p.n ++ p.t ++ flatNat p.d ++ p.eta ++ p.beta ++ p.gamma ++ p.epsilon
/-- Rows with one key. -/
def flatKeyed (l : List (ℤ × List ℚ)) : List ℚ := l.flatMap fun e => (e.1 : ℚ) :: e.2
/-- Rows with two keys. -/
def flatKeyed2 (l : List ((ℤ × ℤ) × List ℚ)) : List ℚ := l.flatMap fun e => (e.1.1 : ℚ) :: (e.1.2 : ℚ) :: e.2
/-- Rows with six keys. -/
def flatKeyed6 (l : List (((ℤ × ℤ × ℤ) × (ℤ × ℤ × ℤ)) × List ℚ)) : List ℚ :=
  l.flatMap fun e => ([e.1.1.1, e.1.1.2.1, e.1.1.2.2, e.1.2.1, e.1.2.2.1, e.1.2.2.2].map fun k => (k : ℚ)) ++ e.2

/-! ## What a fingerprint detects -/

theorem weighted_append {R : Type} [CommRing R] (k : ℕ) (a b : List R) : weighted k (a ++ b) = weighted k a + weighted (k + a.length) b := by
  induction a generalizing k with
  | nil => simp [weighted]
  | cons v a ih => simp only [List.cons_append, weighted, ih, List.length_cons]; rw [show k + 1 + a.length = k + (a.length + 1) by ring]; ring

/-- **A wrong entry is detected**: two tables that agree except for one entry have different fingerprints. -/
theorem fingerprint_entry {R : Type} [Field R] [LinearOrder R] [IsStrictOrderedRing R] (a b : List R) (u v : R) (h : fingerprint (a ++ u :: b) = fingerprint (a ++ v :: b)) : u = v := by
  simp only [fingerprint, Prod.mk.injEq, List.sum_append, List.sum_cons] at h
  linarith [h.2.1]

/-- **An exchange is detected**: a table and the same with two different entries exchanged have different fingerprints. -/
theorem fingerprint_exchange {R : Type} [Field R] [LinearOrder R] [IsStrictOrderedRing R] (a b c : List R) (u v : R) (h : fingerprint (a ++ u :: b ++ v :: c) = fingerprint (a ++ v :: b ++ u :: c)) :
    u = v := by
  simp only [fingerprint, Prod.mk.injEq, weighted_append, weighted, List.length_append, List.length_cons] at h
  have h3 := h.2.2
  push_cast at h3
  have : (1 + (b.length : R)) * (u - v) = 0 := by linarith
  rcases mul_eq_zero.mp this with h0 | h0
  · exact absurd h0 (by positivity)
  · linarith

/-- **A missing row is detected.** -/
theorem fingerprint_count {R : Type} [Semiring R] (a b : List R) (h : fingerprint a = fingerprint b) : a.length = b.length := by
  simp only [fingerprint, Prod.mk.injEq] at h
  exact h.1

example : fingerprint ([0.5, 2, -1] : List ℚ) = (3, 3 / 2, 3 / 2) ∧ fingerprint ([0.5, -1, 2] : List ℚ) ≠ fingerprint [0.5, 2, -1] := by
  constructor
  · norm_num [fingerprint, weighted]
  · norm_num [fingerprint, weighted]

/-! ## The tables -/

/-- The critical data and the ideal-gas coefficients of both versions. -/
theorem gerg_info_fingerprints :
    fingerprint (flatInfo gergInfoTable04) = (72, 6953488589131 / 10 ^ 9, 25249661066185 / 10 ^ 8) ∧
    fingerprint (flatInfo gergInfoTable08) = (20, 269009754 / 10 ^ 5, 3275870232 / 10 ^ 5) ∧
    fingerprint (flatAig gergAigTable04) = (216, -3227303399 / 10 ^ 8, 3219623463365 / 10 ^ 9) ∧
    fingerprint (flatAig gergAigTable08) = (60, 155294870373 / 10 ^ 9, 5972198230605 / 10 ^ 9) := by
  refine ⟨?_, ?_, ?_, ?_⟩ <;> decide +kernel

/-- The coefficients and exponents of the pure fluids of both versions. -/
theorem gerg_pure_fingerprints :
    fingerprint (flatRows gergMne04) = (75, 18205199621818044 / 10 ^ 16, 1212954370126339388 / 10 ^ 16) ∧
    fingerprint (flatRows gergMain04) = (143, 9232736387139362782 / 10 ^ 17, 777718684292026129403 / 10 ^ 17) ∧
    fingerprint (flatRows gergMain08) = (65, 7375014663 / 10 ^ 8, 225126741929 / 10 ^ 8) ∧
    fingerprint (flatPure (gergMainShape [])) = (48, 935 / 10 ^ 1, 182775 / 10 ^ 2) ∧
    fingerprint (flatPure (gergMneShape [])) = (96, 3165 / 10 ^ 1, 11950) ∧
    fingerprint (flatPure gergPure_carbonDioxide) = (110, 337310140475617849 / 10 ^ 15, 188714497116307946801 / 10 ^ 16) ∧
    fingerprint (flatPure gergPure_hydrogen) = (70, 997447828911649624 / 10 ^ 16, 39540865878721158156 / 10 ^ 16) ∧
    fingerprint (flatPure gergPure_water) = (80, 1066432897150208489 / 10 ^ 16, 48528768331159826643 / 10 ^ 16) ∧
    fingerprint (flatPure gergPure_helium) = (60, 69943757966949914 / 10 ^ 15, 2466634369568418502 / 10 ^ 15) := by
  refine ⟨?_, ?_, ?_, ?_, ?_, ?_, ?_, ?_, ?_⟩ <;> decide +kernel

/-- The parameters of the reducing functions, the weights and the departure functions. -/
theorem gerg_binary_fingerprints :
    fingerprint (flatBetas gergBetasTable04) = (918, 3245182985538 / 10 ^ 9, 1740928173823548 / 10 ^ 9) ∧
    fingerprint (flatBetas gergBetasTable08) = (432, 2182157093305 / 10 ^ 9, 522676216615316 / 10 ^ 9) ∧
    fingerprint (gergFTable.flatMap fun e => flatPair e.1 ++ [e.2]) = (45, 1033646348736666 / 10 ^ 13, 28008876489932828 / 10 ^ 13) ∧
    fingerprint (gergGeneralized.flatMap flatPair) = (16, 65, 632) ∧
    fingerprint (gergDepTable.flatMap fun e => flatPair e.1 ++ flatDep e.2) = (378, 3980085621380398847 / 10 ^ 16, 6951826979472246543241 / 10 ^ 17) ∧
    fingerprint (flatDep gergDepGeneral) = (70, 38014770288542761943 / 10 ^ 18, 89242539734902624943 / 10 ^ 17) := by
  refine ⟨?_, ?_, ?_, ?_, ?_, ?_⟩ <;> decide +kernel

/-- The coefficients of the correlation integrals. -/
theorem corr_fingerprints :
    fingerprint (flatKeyed luckasJTable) = (156, 12044424747836 / 10 ^ 11, 1051937609349035 / 10 ^ 11) ∧
    fingerprint (flatKeyed2 luckasKTable) = (72, 2910056943675365 / 10 ^ 12, 96963969775911176 / 10 ^ 12) ∧
    fingerprint (flatKeyed gtJTable) = (231, 600393107 / 10 ^ 6, 86662053096 / 10 ^ 6) ∧
    fingerprint (flatKeyed2 gtKTable) = (40, 4335116843 / 10 ^ 6, 93580091992 / 10 ^ 6) ∧
    fingerprint (flatKeyed gottJTable) = (1188, 156296521946428345549191 / 10 ^ 20, 110589569191502674302315655 / 10 ^ 20) := by
  refine ⟨?_, ?_, ?_, ?_, ?_⟩ <;> decide +kernel

/-- The coefficients of the three-body integrals of Gottschalk, in the seven parts whose concatenation is `gottKTable`. -/
theorem corr_triple_fingerprints :
    fingerprint (flatKeyed6 gottKTable1) = (644, 39806405413052453331746919 / 10 ^ 23, 13458138187544157216790887178 / 10 ^ 23) ∧
    fingerprint (flatKeyed6 gottKTable2) = (644, 475145133099875076730352 / 10 ^ 21, 130845494161429293707846056 / 10 ^ 21) ∧
    fingerprint (flatKeyed6 gottKTable3) = (644, 44413128607173512954038624 / 10 ^ 23, 13308795970645485535762394528 / 10 ^ 23) ∧
    fingerprint (flatKeyed6 gottKTable4) = (644, 48302880547571054719519477 / 10 ^ 23, 15288286241440779999550273288 / 10 ^ 23) ∧
    fingerprint (flatKeyed6 gottKTable5) = (644, 49383956346109404458482 / 10 ^ 20, 15765591387782600132180796 / 10 ^ 20) ∧
    fingerprint (flatKeyed6 gottKTable6) = (644, 500189850562204152420583 / 10 ^ 21, 146909440761472183642470558 / 10 ^ 21) ∧
    fingerprint (flatKeyed6 gottKTable7) = (276, 236072600503217348412344 / 10 ^ 21, 30116336881223612642576354 / 10 ^ 21) := by
  refine ⟨?_, ?_, ?_, ?_, ?_, ?_, ?_⟩ <;> decide +kernel

example : (flatInfo gergInfoTable08).take 4 = [14, 10.85, 132.86, 28.0101] := by decide +kernel

end Teqp.Props
