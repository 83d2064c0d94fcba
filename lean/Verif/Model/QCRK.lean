import Verif.Model.AdvPR

/-! # The quantum-corrected Peng-Robinson and RK-PR models at run time

`/repo/include/teqp/models/cubics.hpp`, lines 678-920: the constructors from a document, `alphar` with the arrays as they were given, and
`superanc_rhoLV`; `get_Bnvir` of `/repo/include/teqp/derivs.hpp` at zero density in floating-point arithmetic of dual numbers. -/

set_option autoImplicit false

namespace Teqp.Model
open Finset

/-! ## Quantum-corrected Peng-Robinson -/

/-- The members of `QuantumCorrectedPR` as stored, lines 681-685. -/
structure QCPRrt where
  Tc : List ℝ
  pc : List ℝ
  alphas : List AlphaFn
  As : List ℝ
  Bs : List ℝ
  cs : List ℝ
  kmat : SqMat
  lmat : SqMat
  Ru : ℝ

/-- A list of numbers of a document, `get_`, lines 700 and 832. -/
def rowAt (j : JTree) (k : String) : Outcome (List ℝ) := (j.at k).bind JTree.toRow

/-- `build_alphas`, lines 687-698: the lengths of the three arrays are compared with each other, the critical temperatures are read without check. -/
def qcprAlphas (Tc : List ℝ) (j : JTree) : Outcome (List AlphaFn) :=
  (rowAt j "Ls").bind fun L => (rowAt j "Ms").bind fun M => (rowAt j "Ns").bind fun N =>
  if L.length ≠ M.length ∨ M.length ≠ N.length then .throws .invalidArgument
  else if Tc.length < L.length then .ub
  else .ok ((List.range L.length).map fun i => .twu (Tc.getD i 0) (L.getD i 0) (M.getD i 0) (N.getD i 0))

/-- The constructor of `QuantumCorrectedPR`, line 703. -/
noncomputable def qcprFactory (j : JTree) : Outcome QCPRrt :=
  (rowAt j "Tcrit / K").bind fun Tc => (rowAt j "pcrit / Pa").bind fun pc =>
  (qcprAlphas Tc j).bind fun al =>
  (rowAt j "As").bind fun As => (rowAt j "Bs").bind fun Bs => (rowAt j "cs / m^3/mol").bind fun cs =>
  ((j.at "kmat").bind buildSquareMatrix).bind fun kmat => ((j.at "lmat").bind buildSquareMatrix).bind fun lmat =>
  (optEntry j "R / J/mol/K" JTree.toDouble).bind fun R =>
  .ok ⟨Tc, pc, al, As, Bs, cs, kmat, lmat, R.getD RCodata2017⟩

namespace QCPRrt
variable (m : QCPRrt)

/-- The parameters of the components that `get_ab` and `get_c` read, lines 716-760. -/
noncomputable def toFin : QCPR (Fin m.alphas.length) where
  Tc i := m.Tc.getD i 0
  pc i := m.pc.getD i 0
  alphas i := m.alphas[i]
  As i := m.As.getD i 0
  Bs i := m.Bs.getD i 0
  cs i := m.cs.getD i 0
  kmat i k := m.kmat.val i k
  lmat i k := m.lmat.val i k
  Ru := m.Ru

/-- Every subscript of `get_ab`, lines 733-750, is inside its array. -/
def abInside : Prop :=
  m.alphas.length ≤ m.Tc.length ∧ m.alphas.length ≤ m.pc.length ∧ m.alphas.length ≤ m.As.length ∧ m.alphas.length ≤ m.Bs.length ∧
    m.alphas.length ≤ m.kmat.n ∧ m.alphas.length ≤ m.lmat.n

open Classical in
/-- `alphar`, lines 762-777, as far as its subscripts; the value is that of `QCPR.alphar`. -/
noncomputable def alphar (T rhoinit : ℝ) (x : List ℝ) : Outcome ℝ :=
  if x.length ≠ m.alphas.length then .throws .stdInvalidArgument
  else if m.cs.length < m.alphas.length then .ub
  else if m.abInside then .ok (m.toFin.alphar T rhoinit fun i => x.getD i 0)
  else .ub

open Classical in
/-- `superanc_rhoLV`, lines 784-809.  The branch for mixtures, lines 791-800, comes after the refusal of everything but a single component.  `molefracs` has one entry. -/
noncomputable def superanc (t : SuperTables) (T : ℝ) (_ifluid : Option ℕ) : Outcome (ℝ × ℝ) :=
  if m.Tc.length ≠ 1 then .throws .stdInvalidArgument
  else if 1 < m.alphas.length ∨ ¬ m.abInside then .ub
  else if m.toFin.get_a T (fun _ => 1) = 0 then .nonFinite
  else
    let a := m.toFin.get_a T fun _ => 1
    let b := m.toFin.get_b T fun _ => 1
    (supercubic t 2 101 (m.Ru * T * b / a)).bind fun l => (supercubic t 2 102 (m.Ru * T * b / a)).bind fun v =>
      if b = 0 then .nonFinite else .ok (l / b, v / b)

end QCPRrt

/-! ## RK-PR -/

/-- The members of `RKPRCismondi2005` as stored, lines 826-829; `a_c` and `b_c` are made from the others. -/
structure RKPRrt where
  delta1 : List ℝ
  Tc : List ℝ
  pc : List ℝ
  k : List ℝ
  kmat : SqMat
  lmat : SqMat
  Ru : ℝ

/-- The constructor of `RKPRCismondi2005`, line 859, with `build_ac` and `build_bc`, lines 839-856, which read the critical temperatures and pressures without check. -/
noncomputable def rkprFactory (j : JTree) : Outcome RKPRrt :=
  (rowAt j "delta_1").bind fun d => (rowAt j "Tcrit / K").bind fun Tc => (rowAt j "pcrit / Pa").bind fun pc => (rowAt j "k").bind fun k =>
  ((j.at "kmat").bind buildSquareMatrix).bind fun kmat => ((j.at "lmat").bind buildSquareMatrix).bind fun lmat =>
  (optEntry j "R / J/mol/K" JTree.toDouble).bind fun R =>
  if Tc.length < d.length ∨ pc.length < d.length then .ub
  else .ok ⟨d, Tc, pc, k, kmat, lmat, R.getD RCodata2017⟩

namespace RKPRrt
variable (m : RKPRrt)

/-- The parameters of the components that `get_ab` reads, lines 872-901. -/
noncomputable def toFin : RKPR (Fin m.delta1.length) where
  delta1 i := m.delta1[i]
  Tc i := m.Tc.getD i 0
  pc i := m.pc.getD i 0
  k i := m.k.getD i 0
  kmat i k := m.kmat.val i k
  lmat i k := m.lmat.val i k
  Ru := m.Ru

open Classical in
/-- `alphar`, lines 903-919, as far as its subscripts; line 910 takes the address of the first entry of `delta_1`. -/
noncomputable def alphar (T rho : ℝ) (x : List ℝ) : Outcome ℝ :=
  if x.length ≠ m.delta1.length then .throws .stdInvalidArgument
  else if m.delta1 = [] ∨ m.k.length < m.delta1.length ∨ m.Tc.length < m.delta1.length ∨ m.kmat.n < m.delta1.length ∨ m.lmat.n < m.delta1.length then .ub
  else .ok (m.toFin.alphar T rho fun i => x.getD i 0)

end RKPRrt

/-! ## Dual numbers in floating point -/

/-- A floating-point number without rounding; zeros have no sign. -/
inductive Flt where
  | fin (x : ℝ)
  | pinf
  | ninf
  | nan

namespace Flt

/-- The infinity of a sign, nothing for zero. -/
noncomputable def ofSign (x : ℝ) : Flt := if 0 < x then pinf else if x < 0 then ninf else nan

/-- Negation. -/
def neg : Flt → Flt
  | fin x => fin (-x)
  | pinf => ninf
  | ninf => pinf
  | nan => nan

/-- Addition. -/
def add : Flt → Flt → Flt
  | fin x, fin y => fin (x + y)
  | nan, _ => nan
  | _, nan => nan
  | pinf, ninf => nan
  | ninf, pinf => nan
  | pinf, _ => pinf
  | ninf, _ => ninf
  | fin _, y => y

/-- Multiplication. -/
noncomputable def mul : Flt → Flt → Flt
  | fin x, fin y => fin (x * y)
  | nan, _ => nan
  | _, nan => nan
  | fin x, pinf => ofSign x
  | fin x, ninf => ofSign (-x)
  | pinf, fin y => ofSign y
  | ninf, fin y => ofSign (-y)
  | pinf, pinf => pinf
  | ninf, ninf => pinf
  | pinf, ninf => ninf
  | ninf, pinf => ninf

/-- Division; the zero is positive. -/
noncomputable def div : Flt → Flt → Flt
  | fin x, fin y => if y = 0 then ofSign x else fin (x / y)
  | nan, _ => nan
  | _, nan => nan
  | fin _, _ => fin 0
  | pinf, fin y => if y < 0 then ninf else pinf
  | ninf, fin y => if y < 0 then pinf else ninf
  | _, _ => nan

/-- The logarithm. -/
noncomputable def log : Flt → Flt
  | fin x => if 0 < x then fin (Real.log x) else if x = 0 then ninf else nan
  | pinf => pinf
  | _ => nan

end Flt

/-- A value and its derivative, `autodiff::Real<1, double>`. -/
structure FDual where
  v : Flt
  d : Flt

namespace FDual

/-- A constant. -/
def const (x : ℝ) : FDual := ⟨.fin x, .fin 0⟩

/-- Negation. -/
def neg (x : FDual) : FDual := ⟨x.v.neg, x.d.neg⟩

/-- Addition. -/
def add (x y : FDual) : FDual := ⟨x.v.add y.v, x.d.add y.d⟩

/-- Multiplication. -/
noncomputable def mul (x y : FDual) : FDual := ⟨x.v.mul y.v, (x.d.mul y.v).add (x.v.mul y.d)⟩

/-- Division with the derivative `(x' - (x/y) y')/y`. -/
noncomputable def div (x y : FDual) : FDual := ⟨x.v.div y.v, (x.d.add ((x.v.div y.v).mul y.d).neg).div y.v⟩

/-- The logarithm. -/
noncomputable def log (x : FDual) : FDual := ⟨x.v.log, x.d.div x.v⟩

end FDual

/-- `Psiminus - a/(R T) Psiplus` of `alphar` on dual numbers, lines 252-256 and 771-776. -/
noncomputable def cubicDual (R a b Delta1 Delta2 T : ℝ) (rho : FDual) : FDual :=
  let psiminus := (((FDual.const 1).add ((FDual.const b).mul rho).neg).log).neg
  let num := ((FDual.const (Delta1 * b)).mul rho).add (FDual.const 1)
  let den := ((FDual.const (Delta2 * b)).mul rho).add (FDual.const 1)
  let psiplus := ((num.div den).log).div (FDual.const (b * (Delta1 - Delta2)))
  psiminus.add ((FDual.const (a / (R * T))).mul psiplus).neg

/-- The shift of the density on dual numbers, line 769. -/
noncomputable def shiftDual (c : ℝ) (rho : FDual) : FDual := (FDual.const 1).div (((FDual.const 1).div rho).add (FDual.const c))

/-- `QuantumCorrectedPR::alphar` on dual numbers of the density, lines 762-777. -/
noncomputable def qcprDual {ι : Type} [Fintype ι] (m : QCPR ι) (T : ℝ) (rho : FDual) (z : ι → ℝ) : FDual :=
  cubicDual m.Ru (m.get_a T z) (m.get_b T z) (1 + Real.sqrt 2) (1 - Real.sqrt 2) T (shiftDual (m.get_c z) rho)

/-- `get_Bnvir(2, T, z)[2]`, `/repo/include/teqp/derivs.hpp` lines 713-752: the derivative of `alphar` along the density at a density of zero. -/
noncomputable def bnvir2 (f : FDual → FDual) : Flt := (f ⟨.fin 0, .fin 1⟩).d

end Teqp.Model
