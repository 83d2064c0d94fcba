import Verif.Model.Assoc

/-! # Cubic plus association

`/repo/include/teqp/models/CPA.hpp`: the closed-form site fractions, the cubic part and the factory. -/

set_option autoImplicit false

namespace Teqp.Model
open Finset

/-- `association_classes`, `/repo/include/teqp/models/association/association_types.hpp` line 7. -/
inductive AssocClass where
  | notSet
  | a1A
  | a2B
  | a3B
  | a4C
  | notAssociating
  deriving DecidableEq, Repr

/-- `get_association_classes`, `association_types.hpp` lines 9-18. -/
def getAssocClass (s : String) : Outcome AssocClass :=
  if s = "1A" then .ok .a1A else if s = "2B" then .ok .a2B else if s = "3B" then .ok .a3B
  else if s = "4C" then .ok .a4C else .throws .stdInvalidArgument

open Classical in
/-- `get_DeltaAB_pure`, `/repo/include/teqp/models/CPA.hpp` lines 27-61; a vanishing denominator gives a result
that is not finite. -/
noncomputable def cpaDelta (d : RadialDist) (eps beta b RT rho : ℝ) : Outcome ℝ :=
  let eta := rho / 4 * b
  Outcome.bind (match d with
    | .CS => if 1 - eta = 0 then .nonFinite else .ok ((2 - eta) / (2 * ((1 - eta) * ((1 - eta) * (1 - eta)))))
    | .KG => if 1 - 1.9 * eta = 0 then .nonFinite else .ok (1 / (1 - 1.9 * eta))) fun g =>
  if RT = 0 then .nonFinite else .ok (g * (Real.exp (eps / RT) - 1) * b * beta)

open Classical in
/-- The closed forms `(p + sqrt(r))/q` of `XA_calc_pure`. -/
noncomputable def cpaRoot (p r q : ℝ) : Outcome ℝ :=
  if r < 0 ∨ q = 0 then .nonFinite else .ok ((p + Real.sqrt r) / q)

/-- `XA_calc_pure`, `CPA.hpp` lines 68-113: an array with `N` rows of ones, the first of which are overwritten.
Rows beyond the array are written out of bounds. -/
noncomputable def xaPure (N : ℕ) (c : AssocClass) (d : RadialDist) (eps beta b RT rho : ℝ) : Outcome (List ℝ) :=
  (cpaDelta d eps beta b RT rho).bind fun Δ =>
  let put (xs : List ℝ) : Outcome (List ℝ) :=
    if N < xs.length then .ub else .ok (xs ++ List.replicate (N - xs.length) 1)
  match c with
  | .a1A => (cpaRoot (-1) (1 + 4 * rho * Δ) (2 * rho * Δ)).bind fun X => put [X]
  | .a2B => (cpaRoot (-1) (1 + 4 * rho * Δ) (2 * rho * Δ)).bind fun X => put [X, X]
  | .a3B => (cpaRoot (-(1 - rho * Δ)) ((1 + rho * Δ) * (1 + rho * Δ) + 4 * rho * Δ) (4 * rho * Δ)).bind fun X =>
      put [X, X, 2 * X - 1]
  | .a4C => (cpaRoot (-1) (1 + 8 * rho * Δ) (4 * rho * Δ)).bind fun X => put [X, X, X, X]
  | .notAssociating => put [1, 1, 1, 1]
  | .notSet => .throws .stdInvalidArgument

/-- The number of sites of a class, `CPA.hpp` lines 191-199. -/
def cpaSites : AssocClass → Outcome ℕ
  | .a1A => .ok 1
  | .a2B => .ok 2
  | .a3B => .ok 3
  | .a4C => .ok 4
  | _ => .throws .stdInvalidArgument

/-- `CPAAssociation`, `CPA.hpp` lines 181-187. -/
structure CPAAssoc where
  classes : List AssocClass
  dist : RadialDist
  eps : List ℝ
  beta : List ℝ
  b : List ℝ
  nSites : List ℕ
  R : ℝ

/-- The constructor, `CPA.hpp` lines 189-209. -/
def CPAAssoc.make (classes : List AssocClass) (dist : RadialDist) (eps beta b : List ℝ) (R : ℝ) : Outcome CPAAssoc :=
  (mapOutcome cpaSites classes).bind fun ns => .ok ⟨classes, dist, eps, beta, b, ns, R⟩

open Classical in
/-- The loop of `CPAAssociation::alphar` from component `i` on, `CPA.hpp` lines 240-246: the array of fractions
has a single column, so any component but the first reads out of bounds. -/
noncomputable def cpaLoop (XA : List ℝ) (ns : List ℕ) : ℕ → List ℝ → ℝ → Outcome ℝ
  | _, [], acc => .ok acc
  | 0, xi :: xs, acc =>
    if ∃ X ∈ XA, X ≤ 0 then .nonFinite
    else match ns.head? with
      | none => .ub
      | some N => cpaLoop XA ns 1 xs (acc + xi * (XA.map fun X => Real.log X - X / 2).sum + xi * ((N : ℕ) : ℝ) / 2)
  | _ + 1, _ :: _, _ => .ub

/-- `CPAAssociation::alphar`, `CPA.hpp` lines 229-247. -/
noncomputable def CPAAssoc.alphar (a : CPAAssoc) (T rho : ℝ) (x : List ℝ) : Outcome ℝ :=
  if a.b.length ≠ x.length then .ub
  else
    let b := ∑ i ∈ range x.length, a.b.getD i 0 * x.getD i 0
    match a.classes[0]?, a.eps[0]?, a.beta[0]?, a.nSites[0]? with
    | some c, some e, some be, some N =>
      (xaPure N c a.dist e be b (a.R * T) rho).bind fun XA => cpaLoop XA a.nSites 0 x 0
    | _, _, _, _ => .ub

/-! ## The cubic part -/

/-- `cubic_flag`, `CPA.hpp` line 115. -/
inductive CubicFlag where
  | notSet
  | PR
  | SRK
  deriving DecidableEq, Repr

/-- `get_cubic_flag`, `CPA.hpp` lines 116-122. -/
def getCubicFlag (s : String) : Outcome CubicFlag :=
  if s = "PR" then .ok .PR else if s = "SRK" then .ok .SRK else .throws .stdInvalidArgument

/-- `CPACubic`, `CPA.hpp` lines 125-131. -/
structure CPACubic where
  a0 : List ℝ
  b : List ℝ
  c1 : List ℝ
  Tc : List ℝ
  d1 : ℝ
  d2 : ℝ
  R : ℝ
  kmat : Option (List (List ℝ))

/-- The constructor, `CPA.hpp` lines 131-140. -/
noncomputable def CPACubic.make (flag : CubicFlag) (a0 b c1 Tc : List ℝ) (R : ℝ) (kmat : Option (List (List ℝ))) :
    Outcome CPACubic :=
  match flag with
  | .PR => .ok ⟨a0, b, c1, Tc, 1 + Real.sqrt 2, 1 - Real.sqrt 2, R, kmat⟩
  | .SRK => .ok ⟨a0, b, c1, Tc, 1, 0, R, kmat⟩
  | .notSet => .throws .stdInvalidArgument

/-- `get_ai`, `CPA.hpp` lines 147-150. -/
noncomputable def CPACubic.ai (c : CPACubic) (T : ℝ) (i : ℕ) : ℝ :=
  c.a0.getD i 0 * ((1 + c.c1.getD i 0 * (1 - Real.sqrt (T / c.Tc.getD i 0))) *
    (1 + c.c1.getD i 0 * (1 - Real.sqrt (T / c.Tc.getD i 0))))

/-- `kij`, `CPA.hpp` line 161. -/
def CPACubic.kij (c : CPACubic) (i j : ℕ) : ℝ :=
  match c.kmat with
  | some k => (k.getD i []).getD j 0
  | none => 0

/-- The mixture parameter `a` of `get_ab`, `CPA.hpp` lines 152-167. -/
noncomputable def CPACubic.amix (c : CPACubic) (T : ℝ) (x : List ℝ) : ℝ :=
  ∑ i ∈ range x.length, ∑ j ∈ range x.length,
    x.getD i 0 * x.getD j 0 * ((1 - c.kij i j) * Real.sqrt (c.ai T i * c.ai T j))

/-- The mixture parameter `b` of `get_ab`, `CPA.hpp` lines 152-167. -/
noncomputable def CPACubic.bmix (c : CPACubic) (x : List ℝ) : ℝ :=
  ∑ i ∈ range x.length, x.getD i 0 * c.b.getD i 0

/-- The formula of `CPACubic::alphar`, `CPA.hpp` lines 169-177. -/
noncomputable def cpaCubicForm (d1 d2 R T a b rho : ℝ) : ℝ :=
  -Real.log (1 - b * rho) -
    a / R / T * Real.log ((d1 * b * rho + 1) / (d2 * b * rho + 1)) / b / (d1 - d2)

open Classical in
/-- `CPACubic::alphar`, `CPA.hpp` lines 169-177: arrays that are too short are read out of bounds; roots of negative
numbers, logarithms of numbers that are not positive and vanishing denominators are not finite. -/
noncomputable def CPACubic.alphar (c : CPACubic) (T rho : ℝ) (x : List ℝ) : Outcome ℝ :=
  if c.a0.length < x.length ∨ c.b.length < x.length ∨ c.c1.length < x.length ∨ c.Tc.length < x.length ∨
      (∃ k, c.kmat = some k ∧ (k.length < x.length ∨ ∃ i < x.length, (k.getD i []).length < x.length)) then .ub
  else if (∃ i < x.length, c.Tc.getD i 0 = 0 ∨ T / c.Tc.getD i 0 < 0 ∨
      ∃ j < x.length, c.ai T i * c.ai T j < 0) then .nonFinite
  else
    let a := c.amix T x
    let b := c.bmix x
    if c.R = 0 ∨ T = 0 ∨ b = 0 ∨ c.d1 = c.d2 ∨ 1 - b * rho ≤ 0 ∨ c.d2 * b * rho + 1 = 0 ∨
        (c.d1 * b * rho + 1) / (c.d2 * b * rho + 1) ≤ 0 then .nonFinite
    else .ok (cpaCubicForm c.d1 c.d2 c.R T a b rho)

/-! ## The model and its factory -/

/-- `AssociationVariantWrapper`, `CPA.hpp` lines 283-299. -/
inductive CPAAssocVariant where
  | old (a : CPAAssoc)
  | new (a : AssocModel)

/-- `CPAEOS`, `CPA.hpp` lines 249-265. -/
structure CPAEOS where
  cubic : CPACubic
  assoc : CPAAssocVariant

/-- `AssociationVariantWrapper::alphar`, `CPA.hpp` lines 289-292.  The general class uses its own gas constant `R0` and
Avogadro's number. -/
noncomputable def CPAAssocVariant.alphar (R0 NA : ℝ) (v : CPAAssocVariant) (T rho : ℝ) (x : List ℝ) : Outcome ℝ :=
  match v with
  | .old a => a.alphar T rho x
  | .new a => a.alphar R0 NA T rho x

/-- `CPAEOS::alphar`, `CPA.hpp` lines 267-280. -/
noncomputable def CPAEOS.alphar (R0 NA : ℝ) (m : CPAEOS) (T rho : ℝ) (x : List ℝ) : Outcome ℝ :=
  if x.length ≠ m.cubic.a0.length then .throws .invalidArgument
  else (m.cubic.alphar T rho x).bind fun c =>
    (m.assoc.alphar R0 NA T rho x).bind fun a => .ok (c + a)

/-- `j[key]` for a constant document: a missing key is undefined behaviour. -/
def JTree.atConst (j : JTree) (k : String) : Outcome JTree :=
  match j with
  | .obj fs => match fs.lookup k with
    | some v => .ok v
    | none => .ub
  | _ => .throws .jsonError

/-- The elements that a loop over a JSON value visits; `size()` is their number. -/
def JTree.items : JTree → List JTree
  | .null => []
  | .arr xs => xs
  | .obj fs => fs.map Prod.snd
  | j => [j]

/-- `p[key]` for a document that is not constant, converted to `double`: a missing key is inserted as null, whose
conversion throws, just like `p.at(key)`. -/
def numAt (k : String) (p : JTree) : Outcome ℝ := (p.at k).bind JTree.toDouble

/-- The interaction matrix of `build_cubic`, `CPA.hpp` lines 304-321. -/
noncomputable def cpaKmat (j : JTree) (N : ℕ) : Outcome (List (List ℝ)) :=
  if j.contains "kmat" then
    ((j.at "kmat").bind JTree.toRows).bind fun k =>
    if k.length ≠ N ∨ ∃ r ∈ k, r.length ≠ N then .throws .invalidArgument else .ok k
  else .ok (List.replicate N (List.replicate N 0))

/-- `build_cubic`, `CPA.hpp` lines 302-333; the arguments of the constructor are evaluated from left to right. -/
noncomputable def cpaBuildCubic (j : JTree) : Outcome CPACubic :=
  (j.atConst "pures").bind fun pures =>
  (cpaKmat j pures.items.length).bind fun k =>
  (mapOutcome (numAt "a0i / Pa m^6/mol^2") pures.items).bind fun a0 =>
  (mapOutcome (numAt "bi / m^3/mol") pures.items).bind fun b =>
  (mapOutcome (numAt "c1") pures.items).bind fun c1 =>
  (mapOutcome (numAt "Tc / K") pures.items).bind fun Tc =>
  (((j.atConst "cubic").bind JTree.toStr).bind getCubicFlag).bind fun flag =>
  ((j.atConst "R_gas / J/mol/K").bind JTree.toDouble).bind fun R =>
  CPACubic.make flag a0 b c1 Tc R (some k)

/-- `j.at("radial_dist")` as radial distribution. -/
def requestedDist (j : JTree) : Outcome RadialDist :=
  ((j.at "radial_dist").bind JTree.toStr).bind getRadialDist

/-- The condition of the branch at `CPA.hpp` line 337. -/
def cpaOldStyle (pures : JTree) : Outcome Bool :=
  if pures.items.length = 1 then
    match pures with
    | .arr (p :: _) => .ok (p.contains "class")
    | _ => .throws .jsonError
  else .ok false

/-- The old branch of `build_assoc_pure`, `CPA.hpp` lines 338-352. -/
def cpaBuildOld (j : JTree) (ps : List JTree) : Outcome CPAAssoc :=
  (requestedDist j).bind fun dist =>
  (mapOutcome (numAt "epsABi / J/mol") ps).bind fun eps =>
  (mapOutcome (numAt "betaABi") ps).bind fun beta =>
  (mapOutcome (numAt "bi / m^3/mol") ps).bind fun b =>
  (mapOutcome (fun p => ((p.at "class").bind JTree.toStr).bind getAssocClass) ps).bind fun classes =>
  ((j.atConst "R_gas / J/mol/K").bind JTree.toDouble).bind fun R =>
  CPAAssoc.make classes dist eps beta b R

/-- The options of the new branch, `CPA.hpp` lines 356-364: the assignment at line 359 replaces all of them. -/
noncomputable def cpaOptions (j : JTree) : Outcome AssocOptions :=
  (requestedDist j).bind fun dist =>
  Outcome.bind (if j.contains "options" then (j.at "options").bind assocOptsFromJson
    else .ok { radialDist := some dist }) fun o => copyMask j o

/-- The new branch of `build_assoc_pure`, `CPA.hpp` lines 353-405. -/
noncomputable def cpaBuildNew (j : JTree) (ps : List JTree) : Outcome AssocModel :=
  (cpaOptions j).bind fun o =>
  (mapOutcome (numAt "epsABi / J/mol") ps).bind fun eps =>
  (mapOutcome (numAt "betaABi") ps).bind fun beta =>
  (mapOutcome (numAt "bi / m^3/mol") ps).bind fun b =>
  (mapOutcome (fun p => (p.at "sites").bind JTree.toStrs) ps).bind fun mols =>
  (getPartners (uniqueSites mols.flatten) j).bind fun partners =>
  AssocModel.make ⟨b, beta, eps, o.radialDist⟩ mols { o with partners := partners }

/-- `CPAfactory`, `CPA.hpp` lines 301-408; the cubic part is built first. -/
noncomputable def cpaFactory (j : JTree) : Outcome CPAEOS :=
  (cpaBuildCubic j).bind fun cubic =>
  (j.atConst "pures").bind fun pures =>
  (cpaOldStyle pures).bind fun old =>
  if old then (cpaBuildOld j pures.items).bind fun a => .ok ⟨cubic, .old a⟩
  else (cpaBuildNew j pures.items).bind fun a => .ok ⟨cubic, .new a⟩

end Teqp.Model
