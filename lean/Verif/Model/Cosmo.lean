import Verif.Model.Activity
import Verif.Model.CPA
import Mathlib.Analysis.SpecialFunctions.Log.Basic
import Mathlib.Data.Fintype.Prod
import Mathlib.Data.Fintype.Basic

/-! # COSMO-SAC

`/repo/include/teqp/models/activity/COSMOSAC.hpp`, to which all line numbers refer unless a file is named.  Sizes that Eigen only checks by
assertions count as undefined behaviour.  The charge densities of the documents (`m_sigma`, line 18) are stored and never used; they are left out
of the data. -/

set_option autoImplicit false

namespace Teqp.Model
open Finset

/-- `profile_type`, line 69. -/
inductive CType where
  | nhb
  | oh
  | ot
  deriving DecidableEq

/-- The list of line 220. -/
instance : Fintype CType := ⟨{.nhb, .oh, .ot}, fun x => by cases x <;> simp⟩

/-- `FluidSigmaProfiles`, lines 33-37: the arrays `m_psigmaA`. -/
structure CosmoFluid where
  nhb : List ℝ
  oh : List ℝ
  ot : List ℝ

/-- The array of a type, lines 108-115. -/
def CosmoFluid.get (f : CosmoFluid) : CType → List ℝ
  | .nhb => f.nhb
  | .oh => f.oh
  | .ot => f.ot

/-- `COSMO3Constants`, lines 50-62. -/
structure CosmoConsts where
  aeff : ℝ := 7.25
  cOHOH : ℝ := 4013.78
  cOTOT : ℝ := 932.31
  cOHOT : ℝ := 3016.43
  AES : ℝ := 6525.69
  BES : ℝ := 1.4859e8
  R : ℝ := 1.38064903e-23 * 6.022140758e23 / 4184
  tol : ℝ := 1e-8
  fast : Bool := true

/-- A segment: its type and its place among the 51 charge densities. -/
abbrev CSeg := CType × Fin 51

/-! ## The window -/

open Classical in
/-- `std::abs(psigma(ii)) > 1e-16` with `psigma = psigmaA/A_i`, lines 29 and 95-96: for a zero area the quotient is infinite or not a number. -/
noncomputable def cosmoSeen (A p : ℝ) : Bool := if A = 0 then decide (p ≠ 0) else decide (1e-16 < |p / A|)

/-- The first loop, line 95: the first entry that counts, zero when there is none. -/
noncomputable def cosmoLeft (A : ℝ) (l : List ℝ) : ℕ := (l.findIdx? (cosmoSeen A)).getD 0

/-- The second loop, line 96, from the index `ii` downwards. -/
noncomputable def cosmoScan (A : ℝ) (l : List ℝ) (left : ℕ) : ℕ → Option ℕ
  | 0 => none
  | ii + 1 => if left < ii + 1 then (if cosmoSeen A (l.getD (ii + 1) 0) then some (ii + 1) else cosmoScan A l left ii) else none

/-- `iright`, lines 94-96: the size of the array when the loop finds nothing. -/
noncomputable def cosmoRight (A : ℝ) (l : List ℝ) : ℕ := (cosmoScan A l (cosmoLeft A l) (l.length - 1)).getD l.length

/-- `get_nonzero_bounds`, lines 88-101: the smallest of the left and the largest of the right ends; only the profiles `nhb` are looked at. -/
noncomputable def cosmoBounds : List (CosmoFluid × ℝ) → ℕ × ℕ → ℕ × ℕ
  | [], lr => lr
  | (f, A) :: fs, (l, r) =>
    cosmoBounds fs (if cosmoLeft A f.nhb < l then cosmoLeft A f.nhb else l, if r < cosmoRight A f.nhb then cosmoRight A f.nhb else r)

/-- The members of `COSMO3`, lines 73-78; the right end `iR` is kept instead of the width `w = iR - iL + 1`. -/
structure Cosmo where
  A : List ℝ
  V : List ℝ
  fluids : List CosmoFluid
  c : CosmoConsts
  iL : ℕ
  iR : ℕ

/-- The constructor, lines 80-85: areas are indexed by the number of profiles. -/
noncomputable def Cosmo.make (A V : List ℝ) (fluids : List CosmoFluid) (c : CosmoConsts) : Outcome Cosmo :=
  if A.length < fluids.length then .ub
  else .ok ⟨A, V, fluids, c, (cosmoBounds (fluids.zip A) (51, 0)).1, (cosmoBounds (fluids.zip A) (51, 0)).2⟩

/-! ## Exchange energies -/

/-- `get_c_hb`, lines 127-147. -/
def CosmoConsts.chb (c : CosmoConsts) (t s : CType) : ℝ :=
  if t = s then (if t = .oh then c.cOHOH else if t = .ot then c.cOTOT else 0)
  else if (t = .oh ∧ s = .ot) ∨ (t = .ot ∧ s = .oh) then c.cOHOT
  else 0

/-- `sigma_m`, lines 150 and 155. -/
noncomputable def cosmoSigma (m : Fin 51) : ℝ := -0.025 + 2 * 0.025 / 50 * (m : ℕ)

open Classical in
/-- `get_DELTAW` and, inside of the window, `get_DELTAW_fast`, lines 149-179. -/
noncomputable def CosmoConsts.deltaW (c : CosmoConsts) (T : ℝ) (a b : CSeg) : ℝ :=
  (c.AES + c.BES / (T * T)) * (cosmoSigma a.2 + cosmoSigma b.2) ^ 2
    - (if 0 ≤ cosmoSigma a.2 * cosmoSigma b.2 then 0 else c.chb a.1 b.1) * (cosmoSigma a.2 - cosmoSigma b.2) ^ 2

/-- The matrix `exp(-DELTAW/(R*T))`, lines 227 and 258. -/
noncomputable def CosmoConsts.K (c : CosmoConsts) (T : ℝ) (a b : CSeg) : ℝ := Real.exp (-c.deltaW T a b / (c.R * T))

/-! ## Segment activity coefficients -/

section
variable {ι : Type} [Fintype ι]

/-- The sum of line 229 and of lines 265-269 over the segments of the window. -/
noncomputable def segSum (K : ι → ι → ℝ) (W : ι → Bool) (p G : ι → ℝ) (m : ι) : ℝ := ∑ n ∈ univ.filter (W · = true), K m n * p n * G n

/-- `Gammanew`, lines 229 and 264-270: one outside of the window. -/
noncomputable def segNew (K : ι → ι → ℝ) (W : ι → Bool) (p G : ι → ℝ) (m : ι) : ℝ := if W m then 1 / segSum K W p G m else 1

/-- `Gamma`, lines 230 and 271-273. -/
noncomputable def segStep (K : ι → ι → ℝ) (W : ι → Bool) (p G : ι → ℝ) (m : ι) : ℝ := if W m then (G m + segNew K W p G m) / 2 else G m

open Classical in
/-- The loops of lines 228-243 and 263-289 with `k` passes left after the present one.  A zero divisor makes the values infinite or not a number; what
the test then does depends on the treatment of such values by Eigen's `maxCoeff`, and this outcome is not finite here.  The exception is
`std::invalid_argument`. -/
noncomputable def segLoop (K : ι → ι → ℝ) (W : ι → Bool) (p : ι → ℝ) (tol : ℝ) : ℕ → (ι → ℝ) → Outcome (ι → ℝ)
  | k, G =>
    if ∃ m, W m = true ∧ (segSum K W p G m = 0 ∨ segStep K W p G m = 0) then .nonFinite
    else if ∀ m, |(segStep K W p G m - segNew K W p G m) / segStep K W p G m| < tol then .ok (segStep K W p G)
    else match k with
      | 0 => .throws .stdInvalidArgument
      | k + 1 => segLoop K W p tol k (segStep K W p G)

end

namespace Cosmo
variable (m : Cosmo)

/-- The segments `ileft ≤ m < ileft + w` of the fast branch, lines 258 and 264-273; all segments in the slow one. -/
def window (s : CSeg) : Bool := !m.c.fast || (decide (m.iL ≤ (s.2 : ℕ)) && decide ((s.2 : ℕ) ≤ m.iR))

/-- `get_Gamma`, lines 203-297, for 153 charge densities.  The loops of `get_DELTAW_fast` (lines 169-170) write the entries up to the index
`ileft + w = iR + 1` of a matrix of size 51; without fluids the width is negative. -/
noncomputable def gamma (T : ℝ) (p : CSeg → ℝ) : Outcome (CSeg → ℝ) :=
  if m.c.fast ∧ (50 ≤ m.iR ∨ m.iR < m.iL) then .ub
  else if T = 0 ∨ m.c.R = 0 then .nonFinite
  else segLoop (m.c.K T) m.window p m.c.tol 500 (fun _ => 1)

open Classical in
/-- The logarithms of the segment activity coefficients, lines 310 and 331. -/
noncomputable def lnGamma (T : ℝ) (p : CSeg → ℝ) : Outcome (CSeg → ℝ) :=
  (m.gamma T p).bind fun G => if ∃ s, G s ≤ 0 then .nonFinite else .ok fun s => Real.log (G s)

/-- The area of a fluid. -/
def area (i : ℕ) : ℝ := m.A.getD i 0

/-- The three arrays of a fluid after each other, lines 308 and 327. -/
def pA (i : ℕ) (s : CSeg) : ℝ := ((m.fluids.getD i ⟨[], [], []⟩).get s.1).getD s.2 0

/-- The arrays of a fluid have the length 51 that is assumed in lines 105, 308 and 326. -/
def fits (i : ℕ) : Prop := ∀ t, ((m.fluids.getD i ⟨[], [], []⟩).get t).length = 51

/-- `xA`, line 116. -/
noncomputable def xA (x : List ℝ) : ℝ := ∑ i ∈ range x.length, el x i * m.area i

/-- `get_psigma_mix`, lines 104-120, for the three types. -/
noncomputable def pMix (x : List ℝ) (s : CSeg) : ℝ := (∑ i ∈ range x.length, el x i * m.pA i s) / m.xA x

/-- `get_lngamma_resid(i, T, lnGamma_mix)`, lines 303-312. -/
noncomputable def residOne (T : ℝ) (L : CSeg → ℝ) (i : ℕ) : Outcome ℝ :=
  if m.area i = 0 then .nonFinite
  else (m.lnGamma T fun s => m.pA i s / m.area i).bind fun Li =>
    .ok (m.area i / m.c.aeff * ∑ s, m.pA i s / m.area i * (L s - Li s))

open Classical in
/-- `get_lngamma_resid(T, molefracs)`, lines 321-336. -/
noncomputable def resid (T : ℝ) (x : List ℝ) : Outcome (List ℝ) :=
  if m.fluids.length < x.length ∨ m.A.length < x.length ∨ ∃ i < x.length, ¬ m.fits i then .ub
  else if m.xA x = 0 ∨ m.c.aeff = 0 then .nonFinite
  else (m.lnGamma T (m.pMix x)).bind fun L => mapOutcome (m.residOne T L) (List.range x.length)

/-- `operator()`, lines 397-400. -/
noncomputable def eval (T : ℝ) (x : List ℝ) : Outcome ℝ :=
  (m.resid T x).bind fun g => .ok (∑ i ∈ range x.length, el x i * el g i)

/-! ## The combinatorial part -/

/-- `q`, line 351. -/
noncomputable def q (i : ℕ) : ℝ := m.area i / 79.53
/-- `r`, line 352. -/
noncomputable def r (i : ℕ) : ℝ := m.V.getD i 0 / 66.69
/-- `l`, line 353. -/
noncomputable def l (i : ℕ) : ℝ := 10 / 2 * (m.r i - m.q i) - (m.r i - 1)
/-- The product of lines 354, 356 and 361. -/
noncomputable def dot (x : List ℝ) (y : ℕ → ℝ) : ℝ := ∑ i ∈ range x.length, el x i * y i

open Classical in
/-- `calc_lngamma_comb`, lines 347-362, with the constants of lines 39-42.  Arrays of different sizes are subtracted in line 353; `contiguous_dotproduct`
compares the sizes of its arguments. -/
noncomputable def comb (x : List ℝ) : Outcome (List ℝ) :=
  if m.A = [] ∨ m.V = [] ∨ m.A.length ≠ m.V.length then .ub
  else if x.length ≠ m.A.length then .throws .invalidArgument
  else if dot x m.r = 0 ∨ dot x m.q = 0 ∨ ∃ i < x.length, m.r i / dot x m.r ≤ 0 ∨ m.q i / dot x m.q / (m.r i / dot x m.r) ≤ 0 then .nonFinite
  else .ok ((List.range x.length).map fun i =>
    Real.log (m.r i / dot x m.r) + 10 / 2 * m.q i * Real.log (m.q i / dot x m.q / (m.r i / dot x m.r)) + m.l i - m.r i / dot x m.r * dot x m.l)

end Cosmo

/-! ## From JSON (`/repo/include/teqp/models/activity/activity_models.hpp`) -/

/-- One profile, lines 169-174: both arrays are read; the address of the first element of an empty vector is taken (`COSMOSAC.hpp` line 24). -/
noncomputable def cosmoProfile (j : JTree) : Outcome (List ℝ) :=
  ((j.at "sigma / e/A^2").bind JTree.toRow).bind fun s =>
  ((j.at "p(sigma)*A / A^2").bind JTree.toRow).bind fun p =>
  if s = [] ∨ p = [] then .ub else .ok p

/-- One fluid, lines 168-178. -/
noncomputable def cosmoFluid (j : JTree) : Outcome CosmoFluid :=
  ((j.at "nhb").bind cosmoProfile).bind fun a =>
  ((j.at "oh").bind cosmoProfile).bind fun b =>
  ((j.at "ot").bind cosmoProfile).bind fun c => .ok ⟨a, b, c⟩

/-- `j.value(key, default)` for an object; other documents throw. -/
def valueOr {α : Type} (j : JTree) (k : String) (conv : JTree → Outcome α) (dflt : α) : Outcome α :=
  match j with
  | .obj _ => if j.contains k then (j.at k).bind conv else .ok dflt
  | _ => .throws .jsonError

/-- The constants, lines 180-186. -/
noncomputable def cosmoConsts (j : JTree) : Outcome CosmoConsts :=
  if j.contains "constants" then
    (j.at "constants").bind fun k =>
    (valueOr k "A_ES / kcal A^4 /(mol e^2)" JTree.toDouble ({} : CosmoConsts).AES).bind fun a =>
    (valueOr k "B_ES / kcal A^4 K^2/(mol e^2)" JTree.toDouble ({} : CosmoConsts).BES).bind fun b =>
    (valueOr k "fast_Gamma" JTree.toBool ({} : CosmoConsts).fast).bind fun f => .ok { AES := a, BES := b, fast := f }
  else .ok {}

/-- The branch for COSMO-SAC, lines 163-190. -/
noncomputable def cosmoFactory (j : JTree) : Outcome Cosmo :=
  ((j.at "A_COSMOSAC / A^2").bind JTree.toRow).bind fun A =>
  ((j.at "V_COSMOSAC / A^3").bind JTree.toRow).bind fun V =>
  ((j.at "profiles").bind fun p => mapOutcome cosmoFluid p.items).bind fun fl =>
  (cosmoConsts j).bind fun c => Cosmo.make A V fl c

/-- `ares_model_factory`, lines 146-194, with the COSMO-SAC model in place. -/
noncomputable def aresFactoryFull (j : JTree) : Outcome ActivityModel :=
  aresFactory (fun j => (cosmoFactory j).bind fun m => .ok m.eval) j

end Teqp.Model
