import Verif.Model.JsonInt
import Mathlib.Analysis.SpecialFunctions.Log.Basic
import Mathlib.Analysis.SpecialFunctions.Exp
import Mathlib.Analysis.Real.Sqrt
import Mathlib.Algebra.BigOperators.Group.Finset.Basic
import Mathlib.Algebra.DualNumber
import Mathlib.Data.List.Sort
import Mathlib.Data.List.Dedup

/-! # Association

`/repo/include/teqp/models/association/association.hpp` and `association_types.hpp`, for the CR1 rule (the
Dufal rule only enters through the strengths, see `Verif.Model.Dufal`).

The solver is written for a scalar type `S`, as in the code: real numbers, or dual numbers (a value and a
derivative) as in automatic differentiation. -/

set_option autoImplicit false

namespace Teqp.Model
open Finset

/-- A scalar type of the code: conversion from `double`, the value without derivatives (`getbaseval`), and
the functions used. -/
class ADScalar (S : Type) [CommRing S] where
  ofR : ℝ → S
  base : S → ℝ
  inv : S → S
  sqrt : S → S
  log : S → S

noncomputable instance : ADScalar ℝ where
  ofR := id
  base := id
  inv x := x⁻¹
  sqrt := Real.sqrt
  log := Real.log

/-- Dual numbers: the derivative of `f x` is `f' x` times the derivative of `x`. -/
noncomputable instance : ADScalar (DualNumber ℝ) where
  ofR x := TrivSqZeroExt.inl x
  base x := x.fst
  inv x := TrivSqZeroExt.inl (x.fst⁻¹) + TrivSqZeroExt.inr (-x.snd / x.fst ^ 2)
  sqrt x := TrivSqZeroExt.inl (Real.sqrt x.fst) + TrivSqZeroExt.inr (x.snd / (2 * Real.sqrt x.fst))
  log x := TrivSqZeroExt.inl (Real.log x.fst) + TrivSqZeroExt.inr (x.snd / x.fst)

/-- `radial_dists`, `/repo/include/teqp/models/association/association_types.hpp` line 20. -/
inductive RadialDist where
  | CS
  | KG
  deriving DecidableEq, Repr

/-- `get_radial_dist`, `association_types.hpp` lines 22-28. -/
def getRadialDist (s : String) : Outcome RadialDist :=
  if s = "CS" then .ok .CS else if s = "KG" then .ok .KG else .throws .stdInvalidArgument

/-- `AssociationOptions`, `/repo/include/teqp/models/association/association.hpp` lines 28-38; `site_order` is
never read and `Delta_rule` is CR1.  `radialDist = none` is the indeterminate value of a member without an
initialiser. -/
structure AssocOptions where
  partners : List (String × List String) := []
  radialDist : Option RadialDist := none
  mask : List Bool := []
  allowExplicit : Bool := true
  alpha : ℝ := 1/2
  rtol : ℝ := 1e-12
  atol : ℝ := 1e-12
  maxIters : ℤ := 100

/-- An entry of the index mapper, `association.hpp` lines 63-73: the component, the name and the multiplicity
of a unique site. -/
structure AssocSite where
  comp : ℕ
  name : String
  count : ℕ
  deriving DecidableEq

/-- The unique sites of a molecule in the order of a `std::set`, `association.hpp` line 92. -/
def uniqueSites (mol : List String) : List String := mol.dedup.insertionSort (· ≤ ·)

/-- The loop of `make_mapper` from component `i` on, `association.hpp` lines 86-112. -/
def mapSites : ℕ → List (List String) → List AssocSite
  | _, [] => []
  | i, mol :: mols => (uniqueSites mol).map (fun s => ⟨i, s, mol.count s⟩) ++ mapSites (i + 1) mols

/-- `make_mapper`, `association.hpp` lines 75-117: the arrays hold 1000 site kinds, more are written out of
bounds. -/
def makeMapper (molecules : List (List String)) : Outcome (List AssocSite) :=
  if 1000 < (mapSites 0 molecules).length then .ub else .ok (mapSites 0 molecules)

/-- `get_DIJ`, `association.hpp` lines 123-142. -/
def getDIJ (o : AssocOptions) (I J : AssocSite) : Outcome ℕ :=
  if o.mask ≠ [] ∧ I.comp = J.comp ∧ o.mask.getD I.comp true = false then .ok 0
  else if o.partners = [] then .ok J.count
  else match o.partners.lookup I.name with
    | none => .throws .stdOutOfRange
    | some l => if J.name ∈ l then .ok J.count else .ok 0

/-- `make_D`, `association.hpp` lines 121-154, row by row. -/
def makeD (o : AssocOptions) (ncomp : ℕ) (sites : List AssocSite) : Outcome (List (List ℕ)) :=
  if o.mask ≠ [] ∧ o.mask.length ≠ ncomp then .throws .invalidArgument
  else mapOutcome (fun I => mapOutcome (getDIJ o I) sites) sites

/-! ## The solver -/

section solver
variable {S : Type} [CommRing S] [ADScalar S] {n : ℕ}
open ADScalar

/-- One damped substitution, `association.hpp` line 421.  A vanishing denominator is not treated here. -/
def massStep (α : ℝ) (K : Fin n → Fin n → S) (X : Fin n → S) (i : Fin n) : S :=
  ofR α * X i + ofR (1 - α) * inv (1 + ∑ j, K i j * X j)

/-- The iteration, `association.hpp` lines 419-431: on convergence the array before the last substitution is
kept. -/
noncomputable def ssLoop (α rtol atol : ℝ) (K : Fin n → Fin n → S) : ℕ → (Fin n → S) → (Fin n → S)
  | 0, X => X
  | k + 1, X =>
    let Xn := massStep α K X
    if ∀ i, |base (Xn i - X i)| < base (ofR rtol * Xn i + ofR atol) then X
    else ssLoop α rtol atol K k Xn

/-- The closed form for the first site, `association.hpp` lines 405-413: the positive one of the two roots; the
initial value stays when there is no such root, in particular when `kappa_A` is zero (division by zero) or
the radicand is negative. -/
noncomputable def explicitX0 (κA κB X0 : S) : S :=
  let rad := κA * κA - ofR 2 * κA * κB + ofR 2 * κA + κB * κB + ofR 2 * κB + 1
  let XA1 := (κA - κB - sqrt rad - 1) * inv (ofR 2 * κA)
  let XA2 := (κA - κB + sqrt rad - 1) * inv (ofR 2 * κA)
  if base κA = 0 ∨ base rad < 0 then X0
  else if base XA1 < 0 ∧ 0 < base XA2 then XA2
  else if 0 < base XA1 ∧ base XA2 < 0 then XA1
  else X0

/-- The matrix `rDDX`, `association.hpp` lines 391-394. -/
def rDDX (rho NA : S) (Delta : Fin n → Fin n → S) (D : Fin n → Fin n → ℕ) (xj : Fin n → S) (I J : Fin n) : S :=
  rho * NA * (Delta I J * ofR (D I J : ℝ)) * xj J

/-- The branch condition of `association.hpp` line 400. -/
def useExplicit (o : AssocOptions) (ncomp : ℕ) (K : Fin n → Fin n → S) : Prop :=
  o.allowExplicit = true ∧ ncomp = 1 ∧ n = 2 ∧ ∀ i, base (K i i) = 0

open Classical in
/-- `successive_substitution`, `association.hpp` lines 370-433, after the check of the size of `X_init`. -/
noncomputable def assocSolve (o : AssocOptions) (ncomp : ℕ) (rho NA : S) (Delta : Fin n → Fin n → S)
    (D : Fin n → Fin n → ℕ) (count : Fin n → ℕ) (xj : Fin n → S) (X : Fin n → S) : Fin n → S :=
  let K := rDDX rho NA Delta D xj
  if h : useExplicit o ncomp K then
    have h2 : n = 2 := h.2.2.1
    let i0 : Fin n := ⟨0, by omega⟩
    let i1 : Fin n := ⟨1, by omega⟩
    let κA := rho * NA * ofR (count i0 : ℝ) * Delta i0 i1
    let κB := rho * NA * ofR (count i1 : ℝ) * Delta i0 i1
    let X0 := explicitX0 κA κB (X i0)
    fun i => if i = i0 then X0 else inv (1 + κA * X0)
  else ssLoop o.alpha o.rtol o.atol K o.maxIters.toNat X

/-- The sum of `Association::alphar`, `association.hpp` lines 449-460: over the components, and for each over
its unique sites. -/
noncomputable def assocSum (x : List S) (comp count : Fin n → ℕ) (X : Fin n → S) : S :=
  ∑ i ∈ range x.length, x.getD i 0 *
    ∑ I : Fin n, if comp I = i then (log (X I) - X I * ofR (1/2) + ofR (1/2)) * ofR (count I : ℝ) else 0

end solver

/-! ## Strengths by the CR1 rule -/

/-- `CanonicalData`, `/repo/include/teqp/models/association/association_types.hpp` lines 40-45. -/
structure CanonicalData where
  b : List ℝ
  beta : List ℝ
  epsilon : List ℝ
  radialDist : Option RadialDist

/-- The radial distribution function, `association.hpp` lines 285-297. -/
noncomputable def assocG (d : RadialDist) (eta : ℝ) : ℝ :=
  match d with
  | .CS => (2 - eta) / (2 * (1 - eta) * (1 - eta) * (1 - eta))
  | .KG => 1 / (1 - 1.9 * eta)

/-- The CR1 strength of two components, `association.hpp` lines 346-352, for a given radial distribution
value. -/
noncomputable def cr1Delta (R NA T g : ℝ) (d : CanonicalData) (i j : ℕ) : ℝ :=
  g * ((d.b.getD i 0 + d.b.getD j 0) / 2) * Real.sqrt (d.beta.getD i 0 * d.beta.getD j 0) *
    (Real.exp ((d.epsilon.getD i 0 + d.epsilon.getD j 0) / 2 / (R * T)) - 1) / NA

open Classical in
/-- `get_Delta` for the CR1 rule, `association.hpp` lines 275-366: an indeterminate radial distribution and arrays
of the wrong size are undefined behaviour; a vanishing denominator or a root of a negative number gives a
result that is not finite. -/
noncomputable def getDelta (R NA T rho : ℝ) (x : List ℝ) (d : CanonicalData) (sites : List AssocSite) :
    Outcome (ℕ → ℕ → ℝ) :=
  if d.b.length ≠ x.length ∨ d.beta.length ≠ x.length ∨ d.epsilon.length ≠ x.length ∨
      ∃ s ∈ sites, x.length ≤ s.comp then .ub
  else match d.radialDist with
    | none => .ub
    | some rd =>
      let eta := (∑ i ∈ range x.length, x.getD i 0 * d.b.getD i 0) * rho / 4
      if R * T = 0 ∨ (match rd with | .CS => 1 - eta = 0 | .KG => 1 - 1.9 * eta = 0) ∨
          ∃ i < x.length, ∃ j < x.length, d.beta.getD i 0 * d.beta.getD j 0 < 0 then .nonFinite
      else .ok (cr1Delta R NA T (assocG rd eta) d)

/-! ## The class -/

/-- `Association` with the CR1 rule, `association.hpp` lines 171-175. -/
structure AssocModel where
  opts : AssocOptions
  ncomp : ℕ
  sites : List AssocSite
  D : List (List ℕ)
  data : CanonicalData

/-- The constructors, `association.hpp` lines 177-183. -/
def AssocModel.make (d : CanonicalData) (molecules : List (List String)) (o : AssocOptions) : Outcome AssocModel :=
  (makeMapper molecules).bind fun sites =>
  (makeD o molecules.length sites).bind fun D => .ok ⟨o, molecules.length, sites, D, d⟩

/-- The matrix entry used by the solver. -/
def AssocModel.Dmat (a : AssocModel) (I J : Fin a.sites.length) : ℕ := (a.D.getD I []).getD J 0

/-- The fractions of sites that are not bonded, started from `X_init`. -/
noncomputable def AssocModel.fractions (a : AssocModel) (R NA T rho : ℝ) (x : List ℝ) (X : List ℝ) :
    Outcome (Fin a.sites.length → ℝ) :=
  if X.length ≠ a.sites.length then .throws .invalidArgument
  else (getDelta R NA T rho x a.data a.sites).bind fun Δ =>
    .ok (assocSolve a.opts x.length rho NA (fun I J => Δ (a.sites.get I).comp (a.sites.get J).comp) a.Dmat
      (fun I => (a.sites.get I).count) (fun I => x.getD (a.sites.get I).comp 0) (fun I => X.getD I 0))

/-- `Association::alphar`, `association.hpp` lines 438-461; the logarithm of a fraction that is not positive is
not finite. -/
noncomputable def AssocModel.alphar (a : AssocModel) (R NA T rho : ℝ) (x : List ℝ) : Outcome ℝ :=
  if x.length ≠ a.ncomp then .throws .invalidArgument
  else (a.fractions R NA T rho x (List.replicate a.sites.length 1)).bind fun X =>
    if ∃ I, X I ≤ 0 then .nonFinite
    else .ok (assocSum x (fun I => (a.sites.get I).comp) (fun I => (a.sites.get I).count) X)

/-! ## Options from JSON -/

/-- Reads an optional number. -/
noncomputable def optDouble (j : JTree) (k : String) (dflt : ℝ) : Outcome ℝ :=
  if j.contains k then (j.at k).bind JTree.toDouble else .ok dflt

/-- One line of `from_json` for an `int`, `association.hpp` line 43. -/
noncomputable def optInt (j : JTree) (k : String) (dflt : ℤ) : Outcome ℤ :=
  if j.contains k then (j.at k).bind JTree.toInt else .ok dflt

/-- `from_json`, `association.hpp` lines 39-44, into a value-initialised object (which is how the JSON library
creates it): the radial distribution becomes the enumerator with value zero, `CS`. -/
noncomputable def assocOptsFromJson (j : JTree) : Outcome AssocOptions :=
  (optDouble j "alpha" (1/2)).bind fun α =>
  (optDouble j "rtol" 1e-12).bind fun rtol =>
  (optDouble j "atol" 1e-12).bind fun atol =>
  (optInt j "max_iters" 100).bind fun mi =>
  .ok { radialDist := some .CS, alpha := α, rtol := rtol, atol := atol, maxIters := mi }

/-- Conversion to `std::vector<bool>`. -/
def JTree.toBools : JTree → Outcome (List Bool)
  | .arr xs => mapOutcome JTree.toBool xs
  | _ => .throws .jsonError

/-- Copies the mask of the options, `association.hpp` lines 164-166. -/
def copyMask (j : JTree) (o : AssocOptions) : Outcome AssocOptions :=
  match j.at "options" with
  | .ok jo => if jo.contains "self_association_mask" then
      ((jo.at "self_association_mask").bind JTree.toBools).bind fun m => .ok { o with mask := m }
    else .ok o
  | _ => .ok o

/-- `get_association_options`, `association.hpp` lines 159-169. -/
noncomputable def getAssocOptions (j : JTree) : Outcome AssocOptions :=
  if j.contains "options" then
    ((j.at "options").bind assocOptsFromJson).bind (copyMask j)
  else .ok {}

/-- Conversion to `std::vector<std::string>`. -/
def JTree.toStrs : JTree → Outcome (List String)
  | .arr xs => mapOutcome JTree.toStr xs
  | _ => .throws .jsonError

/-- Conversion to `std::map<std::string, std::vector<std::string>>`. -/
def JTree.toStrsMap : JTree → Outcome (List (String × List String))
  | .obj fs => mapOutcome (fun p => (JTree.toStrs p.2).bind fun l => .ok (p.1, l)) fs
  | _ => .throws .jsonError

/-- `get_interaction_partners`, `association.hpp` lines 194-223; `types` are the unique site types. -/
def getPartners (types : List String) (j : JTree) : Outcome (List (String × List String)) :=
  let dflt := types.map fun s => (s, types.filter fun s2 => s != s2)
  match j.at "options" with
  | .ok jo => if jo.contains "interaction_partners" then
      ((jo.at "interaction_partners").bind JTree.toStrsMap).bind fun ps =>
      if ∀ p ∈ ps, p.1 ∈ types ∧ ∀ q ∈ p.2, q ∈ types then .ok ps else .throws .invalidArgument
    else .ok dflt
  | _ => .ok dflt

/-- The sites of all molecules, `j.at("molecule_sites")`. -/
def moleculeSites (j : JTree) : Outcome (List (List String)) :=
  (j.at "molecule_sites").bind fun v => match v with
    | .arr xs => mapOutcome JTree.toStrs xs
    | _ => .throws .jsonError

end Teqp.Model
