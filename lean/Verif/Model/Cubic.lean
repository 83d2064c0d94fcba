import Verif.Basic
import Mathlib.Analysis.SpecialFunctions.Log.Basic
import Mathlib.Analysis.SpecialFunctions.Exp
import Mathlib.Analysis.SpecialFunctions.Pow.Real
import Mathlib.Data.Fintype.BigOperators

/-! # The cubic models (`/repo/include/teqp/models/cubics.hpp`)

Real arithmetic replaces floating point.  `std::cbrt` is `rpow (1/3)` (used on positive arguments
only). -/

set_option autoImplicit false

namespace Teqp.Model
open Finset

/-! ## Alpha functions -/

/-- `AlphaFunctionOptions` (`cubics.hpp` line 97): the three alpha functions with their stored
coefficients (lines 31-43, 51-65, 79-95). -/
inductive AlphaFn where
  | basic (Tci mi : ℝ)
  | twu (Tci c0 c1 c2 : ℝ)
  | mathiasCopeman (Tci c0 c1 c2 : ℝ)

/-- `operator()` of the three alpha functions (`cubics.hpp` lines 39-41, 62-64, 90-94). -/
noncomputable def AlphaFn.eval : AlphaFn → ℝ → ℝ
  | .basic Tci mi, T => (1 + mi * (1 - Real.sqrt (T / Tci))) ^ 2
  | .twu Tci c0 c1 c2, T =>
      (T / Tci) ^ (c2 * (c1 - 1)) * Real.exp (c0 * (1 - (T / Tci) ^ (c1 * c2)))
  | .mathiasCopeman Tci c0 c1 c2, T =>
      let x := 1 - Real.sqrt (T / Tci)
      let paren := 1 + c0 * x + c1 * x * x + c2 * x * x * x
      paren * paren

/-- The critical temperature stored in an alpha function. -/
def AlphaFn.Tc : AlphaFn → ℝ
  | .basic t _ => t
  | .twu t _ _ _ => t
  | .mathiasCopeman t _ _ _ => t

/-- `m` of Soave-Redlich-Kwong (`cubics.hpp` line 264). -/
noncomputable def mSRK (ω : ℝ) : ℝ := 0.48 + 1.574 * ω - 0.176 * ω * ω

/-- `m` of Peng-Robinson, with the 1978 branch (`cubics.hpp` lines 306-311, 119-124, 380-386). -/
noncomputable def mPR (ω : ℝ) : ℝ :=
  if ω < 0.491 then 0.37464 + 1.54226 * ω - 0.26992 * ω ^ 2
  else 0.379642 + 1.48503 * ω - 0.164423 * ω ^ 2 + 0.016666 * ω ^ 3

/-- One entry of the JSON array `alpha` (`cubics.hpp` lines 106-131): its `type` and numbers. -/
inductive AlphaSpec where
  | twu (c : List ℝ)
  | mathiasCopeman (c : List ℝ)
  | pr78 (acentric : ℝ)
  | other

/-- `build_alpha_functions` for one entry (`cubics.hpp` lines 106-131).  The three coefficients are
read through `Eigen::Map<Eigen::Array3d>(&c_[0], c_.size())`, a fixed-size map of three entries: with
a list of another length the size assertion is a debug assertion only, so a shorter list is an
out-of-bounds read and a longer one is cut. -/
noncomputable def buildAlpha (Tci : ℝ) : AlphaSpec → Outcome AlphaFn
  | .twu (c0 :: c1 :: c2 :: _) => .ok (.twu Tci c0 c1 c2)
  | .twu _ => .ub
  | .mathiasCopeman (c0 :: c1 :: c2 :: _) => .ok (.mathiasCopeman Tci c0 c1 c2)
  | .mathiasCopeman _ => .ub
  | .pr78 ω => .ok (.basic Tci (mPR ω))
  | .other => .throws .invalidArgument

/-- `build_alpha_functions` (`cubics.hpp` lines 100-135): size check, then one entry at a time. -/
noncomputable def buildAlphas (Tc : List ℝ) (js : List AlphaSpec) : Outcome (List AlphaFn) :=
  if js.length ≠ Tc.length then .throws .invalidArgument
  else (Tc.zip js).foldr (fun p acc => (buildAlpha p.1 p.2).bind fun f => acc.bind fun fs =>
    .ok (f :: fs)) (.ok [])

/-! ## The generic cubic -/

/-- The residual Helmholtz energy shared by the cubic models as a function of the mixture
parameters (`cubics.hpp` lines 252-256; the same expression at 629-634, 773-776 and 914-917). -/
noncomputable def cubicAlphar (R a b Delta1 Delta2 T rho : ℝ) : ℝ :=
  let Psiminus := -Real.log (1 - b * rho)
  let Psiplus := Real.log ((Delta1 * b * rho + 1) / (Delta2 * b * rho + 1)) / (b * (Delta1 - Delta2))
  Psiminus - a / (R * T) * Psiplus

/-- Data members of `GenericCubic` (`cubics.hpp` lines 138-148) for components indexed by `ι`. -/
structure Cubic (ι : Type) where
  ai : ι → ℝ
  bi : ι → ℝ
  Delta1 : ℝ
  Delta2 : ℝ
  alphas : ι → AlphaFn
  kmat : ι → ι → ℝ
  R : ℝ

/-- Constructor body of `GenericCubic` (`cubics.hpp` lines 172-177). -/
noncomputable def Cubic.build {ι : Type} (Delta1 Delta2 OmegaA OmegaB : ℝ) (Tc pc : ι → ℝ)
    (alphas : ι → AlphaFn) (kmat : ι → ι → ℝ) (R : ℝ) : Cubic ι where
  ai i := OmegaA * (R * Tc i) ^ 2 / pc i
  bi i := OmegaB * R * Tc i / pc i
  Delta1 := Delta1
  Delta2 := Delta2
  alphas := alphas
  kmat := kmat
  R := R

namespace Cubic
variable {ι : Type} [Fintype ι]

/-- `GenericCubic::get_a` (`cubics.hpp` lines 219-233). -/
noncomputable def get_a (m : Cubic ι) (T : ℝ) (x : ι → ℝ) : ℝ :=
  ∑ i, ∑ j, x i * x j * ((1 - m.kmat i j) *
    Real.sqrt (m.ai i * (m.alphas i).eval T * (m.ai j * (m.alphas j).eval T)))

/-- `GenericCubic::get_b` (`cubics.hpp` lines 235-242). -/
noncomputable def get_b (m : Cubic ι) (x : ι → ℝ) : ℝ := ∑ i, x i * m.bi i

/-- `GenericCubic::alphar` after the size check (`cubics.hpp` lines 252-256). -/
noncomputable def alphar (m : Cubic ι) (T rho : ℝ) (x : ι → ℝ) : ℝ :=
  cubicAlphar m.R (m.get_a T x) (m.get_b x) m.Delta1 m.Delta2 T rho
end Cubic

/-- `OmegaA` of SRK (`cubics.hpp` line 272). -/
noncomputable def OmegaA_SRK : ℝ := 1 / (9 * ((2 : ℝ) ^ (1 / 3 : ℝ) - 1))
/-- `OmegaB` of SRK (`cubics.hpp` line 273). -/
noncomputable def OmegaB_SRK : ℝ := ((2 : ℝ) ^ (1 / 3 : ℝ) - 1) / 3
/-- `OmegaA` of Peng-Robinson (`cubics.hpp` line 316). -/
noncomputable def OmegaA_PR : ℝ := 0.45723552892138218938
/-- `OmegaB` of Peng-Robinson (`cubics.hpp` line 317). -/
noncomputable def OmegaB_PR : ℝ := 0.077796073903888455972

/-- `canonical_SRK` on matching arrays (`cubics.hpp` lines 260-287). -/
noncomputable def canonicalSRK {ι : Type} (Tc pc acentric : ι → ℝ) (kmat : ι → ι → ℝ) (R : ℝ) :
    Cubic ι :=
  Cubic.build 1 0 OmegaA_SRK OmegaB_SRK Tc pc (fun i => .basic (Tc i) (mSRK (acentric i))) kmat R

/-! ## Run-time sizes -/

/-- A matrix with run-time dimensions, `Eigen::ArrayXXd`. -/
structure Mat where
  rows : ℕ
  cols : ℕ
  get : ℕ → ℕ → ℝ

/-- `Eigen::ArrayXXd::Zero(n, n)`. -/
def Mat.zero (n : ℕ) : Mat := ⟨n, n, fun _ _ => 0⟩

/-- `GenericCubic::check_kmat` (`cubics.hpp` lines 156-166): reject non-square, resize an empty matrix
to zero, reject a wrong size. -/
def checkKmat (kmat : Mat) (N : ℕ) : Outcome Mat :=
  if kmat.cols ≠ kmat.rows then .throws .invalidArgument
  else if kmat.cols = 0 then .ok (Mat.zero N)
  else if kmat.cols ≠ N then .throws .invalidArgument
  else .ok kmat

/-- `GenericCubic` as stored at run time: the arrays keep their own lengths. -/
structure CubicRT where
  ai : List ℝ
  bi : List ℝ
  Delta1 : ℝ
  Delta2 : ℝ
  alphas : List AlphaFn
  kmat : Mat
  R : ℝ

/-- The constructor of `GenericCubic` on run-time arrays (`cubics.hpp` lines 169-179).  `pc_Pa[i]` is
read for every `i` below the length of `Tc_K` with the unchecked `valarray` subscript, so a shorter
`pc_Pa` is undefined behaviour; a longer one is ignored. -/
noncomputable def cubicCtor (Delta1 Delta2 OmegaA OmegaB : ℝ) (Tc pc : List ℝ)
    (alphas : List AlphaFn) (kmat : Mat) (R : ℝ) : Outcome CubicRT :=
  if pc.length < Tc.length then .ub
  else (checkKmat kmat Tc.length).bind fun k => .ok
    { ai := List.zipWith (fun t p => OmegaA * (R * t) ^ 2 / p) Tc pc
      bi := List.zipWith (fun t p => OmegaB * R * t / p) Tc pc
      Delta1 := Delta1, Delta2 := Delta2, alphas := alphas, kmat := k, R := R }

/-- `GenericCubic::alphar` on a run-time composition (`cubics.hpp` lines 244-258).  The size of the
composition is compared with the number of alpha functions; `ai`, `bi` and `kmat` are then read with
unchecked subscripts, so they must be at least that long. -/
noncomputable def CubicRT.alphar (m : CubicRT) (T rho : ℝ) (x : List ℝ) : Outcome ℝ :=
  if x.length ≠ m.alphas.length then .throws .stdInvalidArgument
  else if h : m.alphas.length ≤ m.ai.length ∧ m.alphas.length ≤ m.bi.length ∧
      m.alphas.length ≤ m.kmat.rows ∧ m.alphas.length ≤ m.kmat.cols ∧
      x.length = m.alphas.length then
    .ok ((({ ai := fun i => m.ai[i.1]'(by have := i.2; omega)
             bi := fun i => m.bi[i.1]'(by have := i.2; omega)
             Delta1 := m.Delta1, Delta2 := m.Delta2
             alphas := fun i => m.alphas[i]
             kmat := fun i j => m.kmat.get i.1 j.1, R := m.R } : Cubic (Fin m.alphas.length)).alphar
               T rho (fun i => x[i.1]'(by have := i.2; omega))))
  else .ub

/-- `canonical_SRK` on run-time arrays (`cubics.hpp` lines 260-287).  `m[i]` is read for every `i`
below the length of `Tc_K`, so a shorter `acentric` is undefined behaviour. -/
noncomputable def canonicalSRK_RT (Tc pc acentric : List ℝ) (kmat : Option Mat) (R : ℝ) :
    Outcome CubicRT :=
  if acentric.length < Tc.length then .ub
  else cubicCtor 1 0 OmegaA_SRK OmegaB_SRK Tc pc
    (List.zipWith (fun t w => AlphaFn.basic t (mSRK w)) Tc acentric)
    (kmat.getD (Mat.zero acentric.length)) R

/-- `canonical_PR` on run-time arrays (`cubics.hpp` lines 299-332). -/
noncomputable def canonicalPR_RT (Tc pc acentric : List ℝ) (kmat : Option Mat) (R : ℝ) :
    Outcome CubicRT :=
  if acentric.length < Tc.length then .ub
  else cubicCtor (1 + Real.sqrt 2) (1 - Real.sqrt 2) OmegaA_PR OmegaB_PR Tc pc
    (List.zipWith (fun t w => AlphaFn.basic t (mPR w)) Tc acentric)
    (kmat.getD (Mat.zero acentric.length)) R

/-! ## Quantum-corrected Peng-Robinson -/

/-- Data members of `QuantumCorrectedPR` (`cubics.hpp` lines 681-685). -/
structure QCPR (ι : Type) where
  Tc : ι → ℝ
  pc : ι → ℝ
  alphas : ι → AlphaFn
  As : ι → ℝ
  Bs : ι → ℝ
  cs : ι → ℝ
  kmat : ι → ι → ℝ
  lmat : ι → ι → ℝ
  Ru : ℝ

namespace QCPR
variable {ι : Type} [Fintype ι]

/-- `QuantumCorrectedPR::get_bi` (`cubics.hpp` lines 716-722). -/
noncomputable def get_bi (m : QCPR ι) (i : ι) (T : ℝ) : ℝ :=
  0.07780 * m.Tc i * m.Ru / m.pc i *
    ((1 + m.As i / (T + m.Bs i)) ^ 3 / (1 + m.As i / (m.Tc i + m.Bs i)) ^ 3)

/-- `QuantumCorrectedPR::get_ai` (`cubics.hpp` lines 724-731). -/
noncomputable def get_ai (m : QCPR ι) (i : ι) (T : ℝ) : ℝ :=
  OmegaA_PR * (m.Tc i * m.Ru) ^ 2 / m.pc i * (m.alphas i).eval T

/-- `a` of `QuantumCorrectedPR::get_ab` (`cubics.hpp` lines 733-750). -/
noncomputable def get_a (m : QCPR ι) (T : ℝ) (z : ι → ℝ) : ℝ :=
  ∑ i, ∑ j, z i * z j * Real.sqrt (m.get_ai i T * m.get_ai j T) * (1 - m.kmat i j)

/-- `b` of `QuantumCorrectedPR::get_ab` (`cubics.hpp` lines 733-750). -/
noncomputable def get_b (m : QCPR ι) (T : ℝ) (z : ι → ℝ) : ℝ :=
  ∑ i, ∑ j, z i * z j * (m.get_bi i T + m.get_bi j T) / 2 * (1 - m.lmat i j)

/-- `QuantumCorrectedPR::get_c` (`cubics.hpp` lines 751-760). -/
noncomputable def get_c (m : QCPR ι) (z : ι → ℝ) : ℝ := ∑ i, z i * m.cs i

/-- The shifted density (`cubics.hpp` line 769); in floating point the quotient `1/0` is infinite and its inverse is zero. -/
noncomputable def shift (rhoinit c : ℝ) : ℝ := if rhoinit = 0 then 0 else 1 / (1 / rhoinit + c)

/-- `QuantumCorrectedPR::alphar` (`cubics.hpp` lines 762-777). -/
noncomputable def alphar (m : QCPR ι) (T rhoinit : ℝ) (z : ι → ℝ) : ℝ :=
  cubicAlphar m.Ru (m.get_a T z) (m.get_b T z) (1 + Real.sqrt 2) (1 - Real.sqrt 2) T (shift rhoinit (m.get_c z))
end QCPR

/-! ## RK-PR -/

/-- Data members of `RKPRCismondi2005` (`cubics.hpp` lines 826-829). -/
structure RKPR (ι : Type) where
  delta1 : ι → ℝ
  Tc : ι → ℝ
  pc : ι → ℝ
  k : ι → ℝ
  kmat : ι → ι → ℝ
  lmat : ι → ι → ℝ
  Ru : ℝ

/-- `RKPRCismondi2005::get_yd1`, first component (`cubics.hpp` lines 834-837). -/
noncomputable def rkpr_y (d : ℝ) : ℝ :=
  1 + (2 * (1 + d)) ^ (1 / 3 : ℝ) + (4 / (1 + d)) ^ (1 / 3 : ℝ)

/-- `RKPRCismondi2005::get_yd1`, second component (`cubics.hpp` lines 834-837). -/
noncomputable def rkpr_d1 (d : ℝ) : ℝ := (1 + d * d) / (1 + d)

namespace RKPR
variable {ι : Type} [Fintype ι]

/-- `RKPRCismondi2005::build_ac` (`cubics.hpp` lines 839-847). -/
noncomputable def a_c (m : RKPR ι) (i : ι) : ℝ :=
  let y := rkpr_y (m.delta1 i)
  let d_1 := rkpr_d1 (m.delta1 i)
  let Omega_a := (3 * y * y + 3 * y * d_1 + d_1 * d_1 + d_1 - 1) / (3 * y + d_1 - 1) ^ 2
  Omega_a * (m.Ru * m.Tc i) ^ 2 / m.pc i

/-- `RKPRCismondi2005::build_bc` (`cubics.hpp` lines 848-856). -/
noncomputable def b_c (m : RKPR ι) (i : ι) : ℝ :=
  let y := rkpr_y (m.delta1 i)
  let d_1 := rkpr_d1 (m.delta1 i)
  let Omega_b := 1 / (3 * y + d_1 - 1)
  Omega_b * m.Ru * m.Tc i / m.pc i

/-- `RKPRCismondi2005::get_ai` (`cubics.hpp` lines 877-880). -/
noncomputable def get_ai (m : RKPR ι) (i : ι) (T : ℝ) : ℝ :=
  m.a_c i * (3 / (2 + T / m.Tc i)) ^ (m.k i)

/-- `a` of `RKPRCismondi2005::get_ab` (`cubics.hpp` lines 882-901). -/
noncomputable def get_a (m : RKPR ι) (T : ℝ) (z : ι → ℝ) : ℝ :=
  ∑ i, ∑ j, z i * z j * Real.sqrt (m.get_ai i T * m.get_ai j T) * (1 - m.kmat i j)

/-- `b` of `RKPRCismondi2005::get_ab` (`cubics.hpp` lines 882-901). -/
noncomputable def get_b (m : RKPR ι) (z : ι → ℝ) : ℝ :=
  ∑ i, ∑ j, z i * z j * (m.b_c i + m.b_c j) / 2 * (1 - m.lmat i j)

/-- `RKPRCismondi2005::alphar` (`cubics.hpp` lines 903-919). -/
noncomputable def alphar (m : RKPR ι) (T rho : ℝ) (z : ι → ℝ) : ℝ :=
  let Delta1 := ∑ i, z i * m.delta1 i
  let Delta2 := (1 - Delta1) / (1 + Delta1)
  cubicAlphar m.Ru (m.get_a T z) (m.get_b z) Delta1 Delta2 T rho
end RKPR

end Teqp.Model
