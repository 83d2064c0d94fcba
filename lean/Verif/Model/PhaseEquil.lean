import Verif.Model.MixVLE

/-!
# The general phase-equilibrium system

Models `include/teqp/algorithms/phase_equil.hpp`.  There are `n + 1` components and `q + 1` phases: the constructor does not
finish with none of either.  Rows of the Jacobian are functions of the column number, written block by block as the code
does.  `R` is the value of `get_R(zbulk)`, which the code uses for all phases (line 411).
-/

set_option autoImplicit false

namespace Teqp.Model

/-- `get_Ncomponents` and the checks of the constructor (`phase_equil.hpp` lines 301-317, 375-382): from the sizes of the
concentration vectors, the number of phase fractions and the number of specifications, the numbers of components and
phases.  `throw;` without an exception being handled ends the program; it counts as undefined behaviour. -/
def peConstruct (rhoSizes : List ℕ) (nBetas nSpecs : ℕ) : Outcome (ℕ × ℕ) :=
  match rhoSizes with
  | [] => .ub
  | N :: rest =>
    if ∃ N' ∈ rest, N' ≠ N then .ub
    else if N = 0 then .ub
    else if nBetas ≠ rhoSizes.length then .throws .invalidArgument
    else if nSpecs ≠ 2 then .throws .invalidArgument
    else .ok (N, nBetas)

/-- `UnpackedVariables` (`phase_equil.hpp` lines 330-335). -/
structure PhaseVars (n q : ℕ) where
  T : ℝ
  rho : Fin (q + 1) → Fin (n + 1) → ℝ
  beta : Fin (q + 1) → ℝ

/-- `Nindependent` (`phase_equil.hpp` line 375). -/
def peSize (n q : ℕ) : ℕ := 1 + (n + 1 + 1) * (q + 1)

/-- Writing a block of consecutive entries. -/
def setBlock {len : ℕ} (row : ℕ → ℝ) (c0 : ℕ) (f : Fin len → ℝ) (c : ℕ) : ℝ :=
  if h : c0 ≤ c ∧ c - c0 < len then f ⟨c - c0, h.2⟩ else row c

/-- A loop writing the blocks of the phases `0, …, nb - 1` after the first entry. -/
def setBlocks {len : ℕ} (nb : ℕ) (f : ℕ → Fin len → ℝ) (row : ℕ → ℝ) : ℕ → ℝ :=
  (List.range nb).foldl (fun row k => setBlock row (1 + k * len) (f k)) row

/-- Phase `k` of a family indexed by `Fin (q + 1)`, for a loop counter below `q + 1`. -/
def phaseAt {α : Type} {q : ℕ} (f : Fin (q + 1) → α) (k : ℕ) : α := f (Fin.ofNat (q + 1) k)

/-- `pack` (`phase_equil.hpp` lines 337-347). -/
def pePack {n q : ℕ} (u : PhaseVars n q) : ℕ → ℝ :=
  setBlock (setBlocks (q + 1) (fun k => phaseAt u.rho k) (Function.update (fun _ => 0) 0 u.T)) (peSize n q - (q + 1)) u.beta

/-- The unpacking in `call` (`phase_equil.hpp` lines 405-410). -/
def peUnpack (n q : ℕ) (x : ℕ → ℝ) : PhaseVars n q where
  T := x 0
  rho k j := x (1 + k * (n + 1) + j)
  beta k := x (peSize n q - (q + 1) + k)

section phase
variable {n : ℕ} (m : EOS (Fin (n + 1))) (R T : ℝ) (ρ : Fin (n + 1) → ℝ)

/-- `d_Psir_dT` (`phase_equil.hpp` line 426). -/
noncomputable def peDPsirDT : ℝ := rhotot ρ * R * (-tdxAr m 1 0 T (rhotot ρ) (molefrac ρ)) + Psir m T ρ / T

/-- `RequiredPhaseDerivatives::p` (`phase_equil.hpp` lines 24-26). -/
noncomputable def peP : ℝ := rhotot ρ * R * T - Psir m T ρ + ∑ i, ρ i * gradPsir m T ρ i

/-- `RequiredPhaseDerivatives::dpdT` (`phase_equil.hpp` lines 27-29). -/
noncomputable def peDpdT : ℝ := rhotot ρ * R - peDPsirDT m R T ρ + ∑ i, ρ i * d2PsirdTdrhoi m T ρ i

/-- `RequiredPhaseDerivatives::dpdrhovec` (`phase_equil.hpp` lines 30-32). -/
noncomputable def peDpdrho (j : Fin (n + 1)) : ℝ := R * T + ∑ i, ρ i * hessPsir m T ρ i j

/-- `lnf` (`phase_equil.hpp` lines 439, 447). -/
noncomputable def peLnf (i : Fin (n + 1)) : ℝ := Real.log (ρ i * R * T) + 1 / (R * T) * gradPsir m T ρ i

/-- `dlnfdT` (`phase_equil.hpp` lines 440, 448). -/
noncomputable def peDlnfdT (i : Fin (n + 1)) : ℝ :=
  1 / T + 1 / (R * T) * d2PsirdTdrhoi m T ρ i - 1 / (R * T * T) * gradPsir m T ρ i

/-- `dlnfdrho` (`phase_equil.hpp` lines 441-443, 449-451). -/
noncomputable def peDlnfdrho (i j : Fin (n + 1)) : ℝ :=
  (if i = j then 1 / ρ i else 0) + 1 / (R * T) * hessPsir m T ρ i j

variable (ig : EOS (Fin (n + 1)))

/-- `Psiig` (`phase_equil.hpp` line 536). -/
noncomputable def pePsiig : ℝ := tdxAr ig 0 0 T (rhotot ρ) (molefrac ρ) * R * T * rhotot ρ

/-- `d_Psiig_dT` (`phase_equil.hpp` line 541). -/
noncomputable def peDPsiigDT : ℝ :=
  rhotot ρ * R * (-tdxAr ig 1 0 T (rhotot ρ) (molefrac ρ)) + pePsiig R T ρ ig / T

/-- `d2_Psiig_dT2` and `d2_Psir_dT2` (`phase_equil.hpp` lines 544-545). -/
noncomputable def peD2PsiDT2 : ℝ := rhotot ρ * R / T * tdxAr m 2 0 T (rhotot ρ) (molefrac ρ)

/-- `s` (`phase_equil.hpp` lines 47-49). -/
noncomputable def peS : ℝ := -1 / rhotot ρ * (peDPsiigDT R T ρ ig + peDPsirDT m R T ρ)

/-- `dsdT` (`phase_equil.hpp` lines 50-52). -/
noncomputable def peDsdT : ℝ := -1 / rhotot ρ * (peD2PsiDT2 ig R T ρ + peD2PsiDT2 m R T ρ)

/-- `dsdrhovec` (`phase_equil.hpp` lines 53-55). -/
noncomputable def peDsdrho (j : Fin (n + 1)) : ℝ :=
  -1 / rhotot ρ * (d2PsirdTdrhoi ig T ρ j + d2PsirdTdrhoi m T ρ j) +
    1 / rhotot ρ / rhotot ρ * (peDPsiigDT R T ρ ig + peDPsirDT m R T ρ)

/-- `a` (`phase_equil.hpp` lines 57-59). -/
noncomputable def peA : ℝ := (pePsiig R T ρ ig + Psir m T ρ) / rhotot ρ

/-- `dadT` (`phase_equil.hpp` lines 60-62). -/
noncomputable def peDadT : ℝ := 1 / rhotot ρ * (peDPsiigDT R T ρ ig + peDPsirDT m R T ρ)

/-- `dadrhovec` (`phase_equil.hpp` lines 63-65). -/
noncomputable def peDadrho (j : Fin (n + 1)) : ℝ :=
  1 / rhotot ρ * (gradPsir ig T ρ j + gradPsir m T ρ j) - 1 / rhotot ρ / rhotot ρ * (pePsiig R T ρ ig + Psir m T ρ)

/-- `u` (`phase_equil.hpp` lines 67-69). -/
noncomputable def peU : ℝ := peA m R T ρ ig + T * peS m R T ρ ig

/-- `dudT` (`phase_equil.hpp` lines 70-72). -/
noncomputable def peDudT : ℝ := peDadT m R T ρ ig + peS m R T ρ ig + T * peDsdT m R T ρ ig

/-- `dudrhovec` (`phase_equil.hpp` lines 73-75). -/
noncomputable def peDudrho (j : Fin (n + 1)) : ℝ := peDadrho m R T ρ ig j + T * peDsdrho m R T ρ ig j

/-- `h` (`phase_equil.hpp` lines 77-79). -/
noncomputable def peH : ℝ := peU m R T ρ ig + peP m R T ρ / rhotot ρ

/-- `dhdT` (`phase_equil.hpp` lines 80-82). -/
noncomputable def peDhdT : ℝ := peDudT m R T ρ ig + peDpdT m R T ρ / rhotot ρ

/-- `dhdrhovec` (`phase_equil.hpp` lines 83-85). -/
noncomputable def peDhdrho (j : Fin (n + 1)) : ℝ :=
  peDudrho m R T ρ ig j + peDpdrho m R T ρ j / rhotot ρ - peP m R T ρ / rhotot ρ / rhotot ρ

end phase

/-- The specification equations (`phase_equil.hpp` lines 104-291). -/
inductive PESpec where
  | T (v : ℝ)
  | beta (v : ℝ) (iphase : ℕ)
  | p (v : ℝ)
  | v (v : ℝ)
  | s (v : ℝ)
  | u (v : ℝ)
  | h (v : ℝ)

/-- A row of the system: residual and Jacobian. -/
abbrev PERow := ℝ × (ℕ → ℝ)

section rows
variable {n q : ℕ} (m : EOS (Fin (n + 1))) (R : ℝ) (w : PhaseVars n q)

/-- The loops of the three caloric specifications (`phase_equil.hpp` lines 213-223, 249-259, 280-290): `f` is the property of a
phase, `fT` and `fρ` its derivatives. -/
noncomputable def peCaloric (spec : ℝ) (f fT : Fin (q + 1) → ℝ) (fρ : Fin (q + 1) → Fin (n + 1) → ℝ) : PERow :=
  (∑ k, w.beta k * f k - spec,
    setBlocks (q + 1) (fun k j => phaseAt w.beta k * phaseAt fρ k j)
      (setBlock (Function.update (fun _ => 0) 0 (∑ k, w.beta k * fT k)) (peSize n q - (q + 1)) f))

/-- `r_Jacobian` of the specifications.  `ig` is the attached ideal-gas model; without it the caloric specifications throw.
The index of a phase fraction is not checked; one beyond the last reads and writes past the end. -/
noncomputable def peSpecRow (ig : Option (EOS (Fin (n + 1)))) : PESpec → Outcome PERow
  | .T v => .ok (w.T - v, Function.update (fun _ => 0) 0 1)
  | .beta v k =>
    if h : k < q + 1 then
      .ok (w.beta ⟨k, h⟩ - v, Function.update (fun _ => 0) (peSize n q - (q + 1) + k) 1)
    else .ub
  | .p v =>
    .ok (peP m R w.T (w.rho 0) - v,
      setBlock (Function.update (fun _ => 0) 0 (peDpdT m R w.T (w.rho 0))) 1 (peDpdrho m R w.T (w.rho 0)))
  | .v v =>
    .ok (∑ k, w.beta k / rhotot (w.rho k) - v,
      setBlocks (len := n + 1) (q + 1)
        (fun k _ => -phaseAt w.beta k / rhotot (phaseAt w.rho k) / rhotot (phaseAt w.rho k))
        (setBlock (fun _ => 0) (peSize n q - (q + 1)) fun k : Fin (q + 1) => 1 / rhotot (w.rho k)))
  | .s v =>
    match ig with
    | none => .throws .invalidArgument
    | some ig =>
      .ok (peCaloric w v (fun k => peS m R w.T (w.rho k) ig) (fun k => peDsdT m R w.T (w.rho k) ig)
        fun k => peDsdrho m R w.T (w.rho k) ig)
  | .u v =>
    match ig with
    | none => .throws .invalidArgument
    | some ig =>
      .ok (peCaloric w v (fun k => peU m R w.T (w.rho k) ig) (fun k => peDudT m R w.T (w.rho k) ig)
        fun k => peDudrho m R w.T (w.rho k) ig)
  | .h v =>
    match ig with
    | none => .throws .invalidArgument
    | some ig =>
      .ok (peCaloric w v (fun k => peH m R w.T (w.rho k) ig) (fun k => peDhdT m R w.T (w.rho k) ig)
        fun k => peDhdrho m R w.T (w.rho k) ig)

/-- Equality of the fugacities of component `i` in phase 0 and phase `k` (`phase_equil.hpp` lines 453-469).  The loop over the
blocks of the Jacobian runs to the number of components. -/
noncomputable def peFugRow (k : Fin (q + 1)) (i : Fin (n + 1)) : PERow :=
  (peLnf m R w.T (w.rho 0) i - peLnf m R w.T (w.rho k) i,
    setBlocks (n + 1)
      (fun j jc => if j = 0 then peDlnfdrho m R w.T (w.rho 0) i jc else -peDlnfdrho m R w.T (w.rho k) i jc)
      (Function.update (fun _ => 0) 0 (peDlnfdT m R w.T (w.rho 0) i - peDlnfdT m R w.T (w.rho k) i)))

/-- Equality of the pressures of phase 0 and phase `k` (`phase_equil.hpp` lines 478-493). -/
noncomputable def pePresRow (k : Fin (q + 1)) : PERow :=
  (peP m R w.T (w.rho 0) - peP m R w.T (w.rho k),
    setBlocks (q + 1)
      (fun j jc => if j = 0 then peDpdrho m R w.T (w.rho 0) jc else -peDpdrho m R w.T (w.rho k) jc)
      (Function.update (fun _ => 0) 0 (peDpdT m R w.T (w.rho 0) - peDpdT m R w.T (w.rho k))))

/-- The material balance of component `i` (`phase_equil.hpp` lines 497-512). -/
noncomputable def peBalRow (z : ℝ) (i : Fin (n + 1)) : PERow :=
  (∑ k, w.beta k * (w.rho k i / rhotot (w.rho k)) - z,
    setBlocks (q + 1)
      (fun k j => phaseAt w.beta k *
        ((if i = j then 1 else 0) - phaseAt w.rho k i / rhotot (phaseAt w.rho k)) / rhotot (phaseAt w.rho k))
      (setBlock (fun _ => 0) (peSize n q - (q + 1)) fun k : Fin (q + 1) => w.rho k i / rhotot (w.rho k)))

/-- The sum of the phase fractions (`phase_equil.hpp` lines 515-516). -/
noncomputable def peSumRow : PERow :=
  (∑ k, w.beta k - 1, setBlock (fun _ => 0) (peSize n q - (q + 1)) fun _ : Fin (q + 1) => 1)

/-- The rows that are always present, in order (`phase_equil.hpp` lines 435-517). -/
noncomputable def peCommonRows (z : List ℝ) : List PERow :=
  ((List.finRange q).flatMap fun k => (List.finRange (n + 1)).map fun i => peFugRow m R w k.succ i) ++
  ((List.finRange q).map fun k => pePresRow m R w k.succ) ++
  ((List.finRange n).map fun i : Fin n => peBalRow w (z.getD i.val 0) i.castSucc) ++ [peSumRow w]

/-- The specification rows, in order (`phase_equil.hpp` lines 559-564). -/
noncomputable def peSpecRows (ig : Option (EOS (Fin (n + 1)))) : List PESpec → Outcome (List PERow)
  | [] => .ok []
  | s :: ss => (peSpecRow m R w ig s).bind fun r => (peSpecRows ig ss).bind fun rs => .ok (r :: rs)

/-- States in which the system is not finite: a division by zero, or with several phases the logarithm of a number that is
not positive. -/
def peSingular : Prop :=
  R * w.T = 0 ∨ (∃ k, rhotot (w.rho k) = 0) ∨ (0 < q ∧ ∃ k i, w.rho k i * R * w.T ≤ 0)

open Classical in
/-- `call` (`phase_equil.hpp` lines 396-567).  With several phases the last block of a fugacity row ends at column
`1 + Ncomp²`; if that lies beyond the matrix, the write is out of bounds.  A bulk composition that is too short is read
beyond its end. -/
noncomputable def peCall {n q : ℕ} (m : EOS (Fin (n + 1))) (R : ℝ) (z : List ℝ) (ig : Option (EOS (Fin (n + 1))))
    (specs : List PESpec) (x : List ℝ) : Outcome (List PERow) :=
  if x.length ≠ peSize n q then .throws .invalidArgument
  else if (0 < q ∧ peSize n q < 1 + (n + 1) * (n + 1)) ∨ z.length < n then .ub
  else
    let w : PhaseVars n q := peUnpack n q fun c => x.getD c 0
    (peSpecRows m R w ig specs).bind fun ss =>
      if peSingular R w then .nonFinite else .ok (peCommonRows m R w z ++ ss)

end rows

end Teqp.Model
