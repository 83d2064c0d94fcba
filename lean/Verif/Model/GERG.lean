import Verif.Model.GERGTables
import Verif.Model.Reducing
import Verif.Model.Factory
import Mathlib.Analysis.SpecialFunctions.Trigonometric.Deriv
import Mathlib.LinearAlgebra.Matrix.Determinant.Basic
import Mathlib.LinearAlgebra.Matrix.Notation

/-! # GERG-2004 and GERG-2008 (`/repo/include/teqp/models/GERG/GERG.hpp`)

The functions of the two name spaces take the version as an argument. -/

set_option autoImplicit false

namespace Teqp.Model
open Finset

/-- The two name spaces (`GERG.hpp` lines 427 and 958). -/
inductive GVer where
  | v2004
  | v2008
  deriving DecidableEq, Repr

/-! ## Look-ups -/

/-- The component of a name. -/
def GFluid.ofName (s : String) : Option GFluid := gergNames08.find? fun f => f.name == s

/-- `data_map.find(name)` in a table keyed by components. -/
def gFind {α : Type} (tab : List (GFluid × α)) (f : GFluid) : Option α :=
  (tab.find? fun e => e.1 == f).map (·.2)

/-- `data.find(std::make_pair(a, b))` in a table keyed by pairs of components. -/
def gFindPair {α : Type} (tab : List ((GFluid × GFluid) × α)) (a b : GFluid) : Option α :=
  (tab.find? fun e => e.1 == (a, b)).map (·.2)

/-- `value` of a look-up that throws `std::invalid_argument` when nothing is found. -/
def gOrThrow {α : Type} : Option α → Outcome α
  | some a => .ok a
  | none => .throws .stdInvalidArgument

/-- `get_pure_info` of the two versions (`GERG.hpp` lines 434-465 and 964-986): GERG-2008 falls back to
GERG-2004.  Units of the table. -/
def gergInfo : GVer → GFluid → Option GInfo
  | .v2004, f => gFind gergInfoTable04 f
  | .v2008, f => (gFind gergInfoTable08 f).or (gFind gergInfoTable04 f)

/-- `get_alphaig_coeffs` of the two versions (`GERG.hpp` lines 468-509 and 1122-1152), without the check of the
sizes. -/
def gergAigRaw : GVer → GFluid → Option GAig
  | .v2004, f => gFind gergAigTable04 f
  | .v2008, f => (gFind gergAigTable08 f).or (gFind gergAigTable04 f)

/-- `GERG2004::get_pure_coeffs` (`GERG.hpp` lines 511-591). -/
def gergPure04 (f : GFluid) : Option GPure :=
  match gFind gergMain04 f with
  | some n => some (gergMainShape n)
  | none =>
    match gFind gergMne04 f with
    | some n => some (gergMneShape n)
    | none =>
      if f = .carbonDioxide then some gergPure_carbonDioxide
      else if f = .hydrogen then some gergPure_hydrogen
      else if f = .water then some gergPure_water
      else if f = .helium then some gergPure_helium
      else none

/-- `get_pure_coeffs` of the two versions (`GERG.hpp` lines 511-591 and 1094-1120). -/
def gergPure : GVer → GFluid → Option GPure
  | .v2004, f => gergPure04 f
  | .v2008, f =>
    match gFind gergMain08 f with
    | some n => some (gergMainShape n)
    | none => gergPure04 f

/-- The parameters of a pair found in reverse order (`GERG.hpp` lines 759-762 and 1084-1087). -/
def GBetas.back (g : GBetas) : GBetas := { g with betaT := 1 / g.betaT, betaV := 1 / g.betaV }

/-- One table of pairs, searched in both orders (`GERG.hpp` lines 753-764 and 1078-1089). -/
def gergBetasIn (tab : List ((GFluid × GFluid) × GBetas)) (a b : GFluid) : Option GBetas :=
  (gFindPair tab a b).or ((gFindPair tab b a).map GBetas.back)

/-- `get_betasgammas` of the two versions (`GERG.hpp` lines 595-766 and 992-1092). -/
def gergBetas : GVer → GFluid → GFluid → Option GBetas
  | .v2004, a, b => gergBetasIn gergBetasTable04 a b
  | .v2008, a, b => (gergBetasIn gergBetasTable08 a b).or (gergBetasIn gergBetasTable04 a b)

/-- `get_Fij` with `ok_missing` (`GERG.hpp` lines 768-802; GERG-2008 uses it too, line 989). -/
def gergF (a b : GFluid) : Option ℚ := (gFindPair gergFTable a b).or (gFindPair gergFTable b a)

/-- Membership of a pair in a set of sorted pairs (`GERG.hpp` lines 807-808). -/
def sortedEq (p : GFluid × GFluid) (a b : GFluid) : Bool := p == (a, b) || p == (b, a)

/-- `get_departurecoeffs` (`GERG.hpp` lines 805-900; GERG-2008 uses it too, line 990). -/
def gergDep (a b : GFluid) : Option GDep :=
  match gergDepTable.find? fun e => sortedEq e.1 a b with
  | some e => some e.2
  | none => if gergGeneralized.any fun p => sortedEq p a b then some gergDepGeneral else none

/-! ## Pure fluids and departure functions -/

/-- One term of `GERG200XPureFluidEOS`. -/
structure GTerm where
  n : ℚ
  t : ℚ
  d : ℕ
  c : ℕ
  l : ℕ
  deriving DecidableEq

/-- The terms addressed by the common index `i` (`GERG.hpp` lines 111-120). -/
def zipTerms : List ℚ → List ℚ → List ℕ → List ℕ → List ℕ → List GTerm
  | n :: ns, t :: ts, d :: ds, c :: cs, l :: ls => ⟨n, t, d, c, l⟩ :: zipTerms ns ts ds cs ls
  | _, _, _, _, _ => []

/-- The terms of a pure fluid. -/
def GPure.terms (p : GPure) : List GTerm := zipTerms p.n p.t p.d p.c p.l

/-- The loop over `n` stays inside the other arrays. -/
def GPure.inBounds (p : GPure) : Bool :=
  p.n.length ≤ p.t.length && p.n.length ≤ p.d.length && p.n.length ≤ p.c.length && p.n.length ≤ p.l.length

/-- One term at zero density (`GERG.hpp` line 112). -/
noncomputable def GTerm.zeroBranch (x : GTerm) (tau delta : ℝ) : ℝ :=
  x.n * Real.exp (x.t * Real.log tau - x.c * delta ^ x.l) * delta ^ x.d

/-- One term at other densities (`GERG.hpp` line 118). -/
noncomputable def GTerm.logBranch (x : GTerm) (tau delta : ℝ) : ℝ :=
  x.n * Real.exp (x.t * Real.log tau + x.d * Real.log delta - x.c * delta ^ x.l)

/-- `GERG200XPureFluidEOS::alphar` (`GERG.hpp` lines 103-122): the logarithms of a non-positive `tau` or of a
negative `delta` are not finite. -/
noncomputable def GPure.alphar (p : GPure) (tau delta : ℝ) : Outcome ℝ :=
  if p.l = [] ∧ p.n ≠ [] then .throws .stdInvalidArgument
  else if ¬ p.inBounds then .ub
  else if tau ≤ 0 ∨ delta < 0 then .nonFinite
  else if delta = 0 then .ok ((p.terms.map fun x => x.zeroBranch tau delta).sum)
  else .ok ((p.terms.map fun x => x.logBranch tau delta).sum)

/-- One term of `GERG200XDepartureFunction`. -/
structure GDepTerm where
  n : ℚ
  t : ℚ
  d : ℕ
  eta : ℚ
  beta : ℚ
  gamma : ℚ
  epsilon : ℚ
  deriving DecidableEq

/-- The terms addressed by the common index `i` (`GERG.hpp` lines 263-272). -/
def zipDep : List ℚ → List ℚ → List ℕ → List ℚ → List ℚ → List ℚ → List ℚ → List GDepTerm
  | n :: ns, t :: ts, d :: ds, e :: es, b :: bs, g :: gs, p :: ps =>
    ⟨n, t, d, e, b, g, p⟩ :: zipDep ns ts ds es bs gs ps
  | _, _, _, _, _, _, _ => []

/-- The terms of a departure function. -/
def GDep.terms (p : GDep) : List GDepTerm := zipDep p.n p.t p.d p.eta p.beta p.gamma p.epsilon

/-- The loop over `n` stays inside the other arrays. -/
def GDep.inBounds (p : GDep) : Bool :=
  p.n.length ≤ p.t.length && p.n.length ≤ p.d.length && p.n.length ≤ p.eta.length &&
    p.n.length ≤ p.beta.length && p.n.length ≤ p.gamma.length && p.n.length ≤ p.epsilon.length

/-- One term at zero density (`GERG.hpp` line 264). -/
noncomputable def GDepTerm.zeroBranch (x : GDepTerm) (tau delta : ℝ) : ℝ :=
  x.n * Real.exp (x.t * Real.log tau - x.eta * ((delta - x.epsilon) * (delta - x.epsilon))
    - x.beta * (delta - x.gamma)) * delta ^ x.d

/-- One term at other densities (`GERG.hpp` line 270). -/
noncomputable def GDepTerm.logBranch (x : GDepTerm) (tau delta : ℝ) : ℝ :=
  x.n * Real.exp (x.t * Real.log tau + x.d * Real.log delta
    - x.eta * ((delta - x.epsilon) * (delta - x.epsilon)) - x.beta * (delta - x.gamma))

/-- `GERG200XDepartureFunction::alphar` (`GERG.hpp` lines 257-275). -/
noncomputable def GDep.alphar (p : GDep) (tau delta : ℝ) : Outcome ℝ :=
  if ¬ p.inBounds then .ub
  else if tau ≤ 0 ∨ delta < 0 then .nonFinite
  else if delta = 0 then .ok ((p.terms.map fun x => x.zeroBranch tau delta).sum)
  else .ok ((p.terms.map fun x => x.logBranch tau delta).sum)

/-! ## Construction of a mixture -/

/-- A loop `for (i = 0; i < n; ++i)` that evaluates `f(i)` and stores the results; the first exception ends it. -/
def finLoop {α : Type} : {n : ℕ} → (Fin n → Outcome α) → Outcome (Fin n → α)
  | 0, _ => .ok Fin.elim0
  | _ + 1, f => (f 0).bind fun a => (finLoop fun i => f i.succ).bind fun g => .ok (Fin.cons a g)

/-- The component of a name; all look-ups refuse an unknown name in the same way, `get_pure_info` first
(`GERG.hpp` lines 458-460). -/
def gFluidOf (s : String) : Outcome GFluid := gOrThrow (GFluid.ofName s)

/-- `GERG200XReducing`, `GERG200XCorrespondingStatesTerm` and `GERG200XDepartureTerm` of one mixture
(`GERG.hpp` lines 125-126, 175-178, 208-226, 277-324). -/
structure GMix (n : ℕ) where
  info : Fin n → GInfo
  betas : Fin n → Fin n → GBetas
  eos : Fin n → GPure
  F : Fin n → Fin n → ℚ
  dep : Fin n → Fin n → GDep

/-- The default entry of `Fmat`, zero (`GERG.hpp` lines 289-300): the matrix above the diagonal, mirrored. -/
def gFmat {n : ℕ} (fl : Fin n → GFluid) (i j : Fin n) : ℚ :=
  if i < j then (gergF (fl i) (fl j)).getD 0 else if j < i then (gergF (fl j) (fl i)).getD 0 else 0

/-- The constructors of `GERG2004ResidualModel` and `GERG2008ResidualModel` (`GERG.hpp` lines 907 and 1160):
critical data of all components (lines 138-148), parameters of the pairs above the diagonal (lines 155-157),
coefficients of the pure fluids (lines 215-221), departure coefficients wherever `Fmat` is not zero (lines
303-318). -/
def gergBuild (v : GVer) {n : ℕ} (names : Fin n → String) : Outcome (GMix n) :=
  (finLoop fun i => gFluidOf (names i)).bind fun fl =>
  (finLoop fun i => gOrThrow (gergInfo v (fl i))).bind fun info =>
  (finLoop fun i => finLoop fun j =>
    if i < j then gOrThrow (gergBetas v (fl i) (fl j)) else .ok ⟨1, 1, 1, 1⟩).bind fun betas =>
  (finLoop fun i => gOrThrow (gergPure v (fl i))).bind fun eos =>
  (finLoop fun i => finLoop fun j =>
    if i ≠ j ∧ gFmat fl i j ≠ 0 then gOrThrow (gergDep (fl i) (fl j)) else .ok {}).bind fun dep =>
  .ok ⟨info, betas, eos, gFmat fl, dep⟩

namespace GMix
variable {n : ℕ} (m : GMix n)

/-- `Tc_K` (`GERG.hpp` line 143). -/
noncomputable def Tc (i : Fin n) : ℝ := (m.info i).Tc

/-- `vc_m3mol` (`GERG.hpp` line 144; the factor 1000 of lines 462 and 979). -/
noncomputable def vc (i : Fin n) : ℝ := 1 / ((m.info i).rhoc * 1000)

/-- The matrix `betaT` (`GERG.hpp` line 158); the diagonal is not set and never read. -/
noncomputable def betaT (i j : Fin n) : ℝ :=
  if i < j then (m.betas i j).betaT else 1 / (m.betas j i).betaT

/-- The matrix `gammaT` (`GERG.hpp` line 159). -/
noncomputable def gammaT (i j : Fin n) : ℝ := if i < j then (m.betas i j).gammaT else (m.betas j i).gammaT

/-- The matrix `betaV` (`GERG.hpp` line 160). -/
noncomputable def betaV (i j : Fin n) : ℝ :=
  if i < j then (m.betas i j).betaV else 1 / (m.betas j i).betaV

/-- The matrix `gammaV` (`GERG.hpp` line 161). -/
noncomputable def gammaV (i j : Fin n) : ℝ := if i < j then (m.betas i j).gammaV else (m.betas j i).gammaV

/-- The matrix `YT` off the diagonal (`GERG.hpp` lines 163-164). -/
noncomputable def YT (i j : Fin n) : ℝ := m.betaT i j * m.gammaT i j * Real.sqrt (m.Tc i * m.Tc j)

/-- The matrix `Yv` off the diagonal (`GERG.hpp` lines 165-166). -/
noncomputable def Yv (i j : Fin n) : ℝ :=
  1 / 8 * m.betaV i j * m.gammaV i j * (cbrt (m.vc i) + cbrt (m.vc j)) ^ 3

/-- `GERG200XReducing::Y` (`GERG.hpp` lines 180-196): a pair of zero denominator is left out. -/
noncomputable def Y (z Yc : Fin n → ℝ) (beta Yij : Fin n → Fin n → ℝ) : ℝ :=
  ∑ i, z i * z i * Yc i +
    ∑ i, ∑ j ∈ univ.filter (i < ·),
      if beta i j ^ 2 * z i + z j ≠ 0 then
        2 * z i * z j * (z i + z j) / (beta i j ^ 2 * z i + z j) * Yij i j
      else 0

/-- `get_Tr` (`GERG.hpp` lines 198-201). -/
noncomputable def Tr (z : Fin n → ℝ) : ℝ := Y z m.Tc m.betaT m.YT

/-- The reducing volume; `get_rhor` is its reciprocal (`GERG.hpp` lines 203-206). -/
noncomputable def vr (z : Fin n → ℝ) : ℝ := Y z m.vc m.betaV m.Yv

/-- `GERG200XCorrespondingStatesTerm::alphar` (`GERG.hpp` lines 228-240) for the right number of fractions. -/
noncomputable def corr (tau delta : ℝ) (z : Fin n → ℝ) : Outcome ℝ :=
  (finLoop fun i => (m.eos i).alphar tau delta).bind fun a => .ok (∑ i, z i * a i)

/-- `GERG200XDepartureTerm::alphar` (`GERG.hpp` lines 322-340) for the right number of fractions. -/
noncomputable def depart (tau delta : ℝ) (z : Fin n → ℝ) : Outcome ℝ :=
  (finLoop fun i => finLoop fun j =>
    if i < j ∧ m.F i j ≠ 0 then
      ((m.dep i j).alphar tau delta).bind fun a => .ok (z i * z j * m.F i j * a)
    else .ok 0).bind fun t => .ok (∑ i, ∑ j, t i j)

/-- `alphar` (`GERG.hpp` lines 914-924 and 1174-1179) for the right number of fractions.  A zero reducing volume
(all fractions zero) or a zero temperature makes an intermediate infinite. -/
noncomputable def alphar (T rho : ℝ) (z : Fin n → ℝ) : Outcome ℝ :=
  if T = 0 ∨ m.vr z = 0 then .nonFinite
  else
    (m.corr (m.Tr z / T) (rho / (1 / m.vr z)) z).bind fun a =>
    (m.depart (m.Tr z / T) (rho / (1 / m.vr z)) z).bind fun b => .ok (a + b)

/-- `alphar` with what happens for another number of mole fractions: GERG-2008 checks first (`GERG.hpp` lines
1171-1173); GERG-2004 evaluates the reducing functions first (line 918), which index `Yc` by the number of
mole fractions, and checks in `corr` (lines 232-234). -/
noncomputable def alpharV (v : GVer) (T rho : ℝ) (z : List ℝ) : Outcome ℝ :=
  if h : z.length = n then m.alphar T rho fun i => z[i]
  else if v = .v2004 ∧ n < z.length then .ub
  else .throws .stdInvalidArgument

/-- The gas constant of all four models (`GERG.hpp` lines 911, 936, 1164, 1191). -/
noncomputable def R : ℝ := 8.314472

end GMix

/-! ## Ideal gas -/

/-- `AlphaigCoeffs` after padding (`GERG.hpp` lines 36-38, 499-503): `n0[1..7]` and `theta0[4..7]`. -/
structure GIdeal where
  n1 : ℝ
  n2 : ℝ
  n3 : ℝ
  n4 : ℝ
  n5 : ℝ
  n6 : ℝ
  n7 : ℝ
  th4 : ℝ
  th5 : ℝ
  th6 : ℝ
  th7 : ℝ

/-- The check of the sizes and the padding (`GERG.hpp` lines 493-504 and 1136-1147). -/
noncomputable def GAig.pad (a : GAig) : Outcome GIdeal :=
  match a.n, a.theta with
  | [n1, n2, n3, n4, n5, n6, n7], [t4, t5, t6, t7] => .ok ⟨n1, n2, n3, n4, n5, n6, n7, t4, t5, t6, t7⟩
  | _, _ => .throws .stdInvalidArgument

namespace GIdeal

/-- The two equations of `recalc_integration_constants` (`GERG.hpp` lines 50-76) and their solution by the
parameter `solve`, which stands for `colPivHouseholderQr().solve`. -/
noncomputable def recalc (solve : Matrix (Fin 2) (Fin 2) ℝ → (Fin 2 → ℝ) → Fin 2 → ℝ) (c : GIdeal)
    (T Tci rho rhoci r : ℝ) : Fin 2 → ℝ :=
  let A00 : ℝ := Real.log (rho / rhoci) + r * (c.n3 * Real.log (Tci / T)
    + (if c.n4 ≠ 0 then c.n4 * Real.log |Real.sinh (c.th4 * Tci / T)| else 0)
    + (if c.n6 ≠ 0 then c.n6 * Real.log |Real.sinh (c.th6 * Tci / T)| else 0)
    - (if c.n5 ≠ 0 then c.n5 * Real.log |Real.cosh (c.th5 * Tci / T)| else 0)
    - (if c.n7 ≠ 0 then c.n7 * Real.log |Real.cosh (c.th7 * Tci / T)| else 0))
  let A10 : ℝ := r * (c.n3
    + (if c.n4 ≠ 0 then c.n4 * c.th4 * Tci / T / Real.tanh (c.th4 * Tci / T) else 0)
    + (if c.n6 ≠ 0 then c.n6 * c.th6 * Tci / T / Real.tanh (c.th6 * Tci / T) else 0)
    - c.n5 * c.th5 * Tci / T * Real.tanh (c.th5 * Tci / T) - c.n7 * c.th7 * Tci / T * Real.tanh (c.th7 * Tci / T))
  solve !![0, r * Tci / T; 0 - r, r * Tci / T - r * Tci / T] ![-1 - A10, -A10 + A00]

/-- The ratio `Rstar/R` (`GERG.hpp` lines 350-351). -/
noncomputable def ratio : ℝ := 8.314510 / 8.314472

/-- The density of the reference state (`GERG.hpp` line 379). -/
noncomputable def rho0 : ℝ := 101325 / (8.314472 * 298.15)

/-- `get_coeffs` for one component (`GERG.hpp` lines 374-384): `n0[1]` and `n0[2]` are replaced. -/
noncomputable def reset (solve : Matrix (Fin 2) (Fin 2) ℝ → (Fin 2 → ℝ) → Fin 2 → ℝ) (c : GIdeal)
    (Tci rhoci : ℝ) : GIdeal :=
  { c with
    n1 := recalc solve c 298.15 Tci rho0 rhoci ratio 0
    n2 := recalc solve c 298.15 Tci rho0 rhoci ratio 1 }

/-- `alphaig_pure` (`GERG.hpp` lines 398-411). -/
noncomputable def pure (c : GIdeal) (Tci rhoci T rho : ℝ) : ℝ :=
  Real.log (rho / rhoci) + ratio * (c.n1 + c.n2 * Tci / T + c.n3 * Real.log (Tci / T)
    + (if c.th4 ≠ 0 then c.n4 * Real.log |Real.sinh (c.th4 * Tci / T)| else 0)
    + (if c.th6 ≠ 0 then c.n6 * Real.log |Real.sinh (c.th6 * Tci / T)| else 0)
    - (if c.th5 ≠ 0 then c.n5 * Real.log |Real.cosh (c.th5 * Tci / T)| else 0)
    - (if c.th7 ≠ 0 then c.n7 * Real.log |Real.cosh (c.th7 * Tci / T)| else 0))

end GIdeal

/-- `GERG200XAlphaig` of a mixture (`GERG.hpp` lines 343-389). -/
structure GIdealMix (n : ℕ) where
  Tc : Fin n → ℝ
  rhoc : Fin n → ℝ
  coeffs : Fin n → GIdeal

/-- The constructors of the ideal-gas models (`GERG.hpp` lines 387-392, 932, 1187). -/
noncomputable def gergIdealBuild (v : GVer) (solve : Matrix (Fin 2) (Fin 2) ℝ → (Fin 2 → ℝ) → Fin 2 → ℝ) {n : ℕ}
    (names : Fin n → String) : Outcome (GIdealMix n) :=
  (finLoop fun i => gFluidOf (names i)).bind fun fl =>
  (finLoop fun i => gOrThrow (gergInfo v (fl i))).bind fun info =>
  (finLoop fun i => (gOrThrow (gergAigRaw v (fl i))).bind GAig.pad).bind fun c =>
  .ok ⟨fun i => (info i).Tc, fun i => (info i).rhoc * 1000,
    fun i => (c i).reset solve (info i).Tc ((info i).rhoc * 1000)⟩

/-- `alphaig` (`GERG.hpp` lines 413-424) for the right number of fractions: components of non-positive fraction
are left out.  Logarithms of non-positive temperatures or densities are not finite. -/
noncomputable def GIdealMix.alphaig {n : ℕ} (m : GIdealMix n) (T rho : ℝ) (x : Fin n → ℝ) : Outcome ℝ :=
  if (∃ i, 0 < x i) ∧ (T ≤ 0 ∨ rho ≤ 0) then .nonFinite
  else .ok (∑ i, if 0 < x i then x i * ((m.coeffs i).pure (m.Tc i) (m.rhoc i) T rho + Real.log (x i)) else 0)

/-- `alphar` of the ideal-gas models (`GERG.hpp` lines 939-948 and 1194-1203). -/
noncomputable def GIdealMix.alphaigV {n : ℕ} (m : GIdealMix n) (T rho : ℝ) (x : List ℝ) : Outcome ℝ :=
  if h : x.length = n then m.alphaig T rho fun i => x[i] else .throws .stdInvalidArgument

/-! ## From JSON (`/repo/interface/CPP/model_factory_GERG.cpp`) -/

/-- `spec.at("names")` converted to a vector of names (`model_factory_GERG.cpp` lines 8-19). -/
def gergNamesOf (spec : JTree) : Outcome (List String) :=
  (spec.at "names").bind fun j =>
    match j with
    | .arr xs => mapOutcome JTree.toStr xs
    | _ => .throws .jsonError

/-- `make_GERG2004resid`, `make_GERG2008resid` (`model_factory_GERG.cpp` lines 8-13). -/
def gergFactory (v : GVer) (spec : JTree) : Outcome (Σ n, GMix n) :=
  (gergNamesOf spec).bind fun l => (gergBuild v fun i : Fin l.length => l[i]).bind fun m => .ok ⟨l.length, m⟩

end Teqp.Model
