import Verif.Model.Reducing
import Verif.Model.EosTerms

/-! # Multi-fluid mixture models (`/repo/include/teqp/models/multifluid.hpp`)

Sums that contain a factor zero are zero here; in floating point `0 * inf` is not a number. -/

set_option autoImplicit false

namespace Teqp.Model
open Finset

/-- A multi-fluid model (`multifluid.hpp` lines 48-55, 80-86, 118-133, 150) of `n` components: reducing
functions, residual terms of the pure fluids, weights and residual terms of the departure functions, and
gas constants (`multifluid_gas_constant.hpp` lines 9-26; `none` for the CODATA value, lines 28-34). -/
structure MultiFluid (n : ℕ) where
  Tr : (Fin n → ℝ) → ℝ
  rhor : (Fin n → ℝ) → ℝ
  eos : Fin n → List ResTerm
  F : Fin n → Fin n → ℝ
  func : Fin n → Fin n → List ResTerm
  Rvals : Option (Fin n → ℝ)

namespace MultiFluid
variable {n : ℕ} (m : MultiFluid n)

/-- `CorrespondingStatesContribution::alphar` (`multifluid.hpp` lines 59-68). -/
noncomputable def corr (tau delta : ℝ) (z : Fin n → ℝ) : ℝ := ∑ i, z i * containerAlphar (m.eos i) tau delta

/-- `DepartureContribution::alphar` (`multifluid.hpp` lines 91-102). -/
noncomputable def dep (tau delta : ℝ) (z : Fin n → ℝ) : ℝ :=
  ∑ i, ∑ j ∈ univ.filter (i < ·), z i * z j * m.F i j * containerAlphar (m.func i j) tau delta

/-- `MultiFluid::alphar_taudelta` (`multifluid.hpp` lines 179-191) for mole fractions of the right number:
pure fluids use `alphari` (lines 70-73) and no mole fractions. -/
noncomputable def alphar_taudelta (tau delta : ℝ) (z : Fin n → ℝ) : ℝ :=
  if h : n = 1 then containerAlphar (m.eos ⟨0, by omega⟩) tau delta
  else m.corr tau delta z + m.dep tau delta z

/-- `MultiFluid::alphar` (`multifluid.hpp` lines 162-177) for mole fractions of the right number. -/
noncomputable def alphar (T rho : ℝ) (z : Fin n → ℝ) : ℝ :=
  m.alphar_taudelta (m.Tr z / T) (rho / m.rhor z) z

/-- `MultiFluid::alphar` with its check of the number of mole fractions (`multifluid.hpp` lines 167-169). -/
noncomputable def alpharV (T rho : ℝ) (z : List ℝ) : Outcome ℝ :=
  if h : z.length = n then .ok (m.alphar T rho fun i => z[i]) else .throws .invalidArgument

/-- `MultiFluidAdapter::alphar` of a mutant (`multifluid_mutant.hpp` lines 51-62) for mole fractions of the
right number: no short cut for pure fluids. -/
noncomputable def mutantAlphar (T rho : ℝ) (z : Fin n → ℝ) : ℝ :=
  m.corr (m.Tr z / T) (rho / m.rhor z) z + m.dep (m.Tr z / T) (rho / m.rhor z) z

/-- The same for any number of mole fractions: nothing is checked, and too many of them index past the end of
the arrays.  Too few evaluate sums over the first components; the reducing functions then see the
remaining fractions as zero. -/
noncomputable def mutantAlpharV (T rho : ℝ) (z : List ℝ) : Outcome ℝ :=
  if n < z.length then .ub else .ok (m.mutantAlphar T rho fun i => z.getD i 0)

/-- `R` (`multifluid.hpp` lines 130-133; `multifluid_gas_constant.hpp` lines 15-24 and 29-32). -/
noncomputable def R (Rcodata : ℝ) (z : Fin n → ℝ) : ℝ :=
  match m.Rvals with
  | some R => ∑ i, z i * R i
  | none => Rcodata

/-- `R` for any number of mole fractions: `Rvals[i]` past the end is undefined behaviour. -/
noncomputable def RV (Rcodata : ℝ) (z : List ℝ) : Outcome ℝ :=
  match m.Rvals with
  | some _ => if n < z.length then .ub else .ok (m.R Rcodata fun i => z.getD i 0)
  | none => .ok Rcodata

/-- `MultiFluid::get_BIP` (`multifluid.hpp` lines 140-148), with `red` the reducing function. -/
noncomputable def getBIP (red : RedFn n) (i j : ℕ) (key : String) : Outcome ℝ :=
  if key = "F" ∨ key = "Fij" then
    if h : i < n ∧ j < n then .ok (m.F ⟨i, h.1⟩ ⟨j, h.2⟩) else red.getBIP i j key
  else red.getBIP i j key

end MultiFluid

/-! ## Building a mixture -/

/-- A double loop over `i < j` that fills `(i, j)` and `(j, i)` with the same value. -/
def symLoop {α : Type} (f : ℕ → ℕ → Outcome α) : List (ℕ × ℕ) → (ℕ → ℕ → α) → Outcome (ℕ → ℕ → α)
  | [], M => .ok M
  | (i, j) :: ps, M => (f i j).bind fun v =>
    symLoop f ps fun a b => if (a = i ∧ b = j) ∨ (a = j ∧ b = i) then v else M a b

/-- The weight of a pair (`multifluid_reducing.hpp` lines 159-167). -/
noncomputable def pairF (col : List BIPEntry) (ids : ℕ → String) (flags : BIPFlags) (i j : ℕ) : Outcome ℝ :=
  (getBIPdep col (ids i) (ids j) flags).bind fun r => optAt r.1.F

/-- `get_F_matrix` (`multifluid_reducing.hpp` lines 152-171). -/
noncomputable def getFMatrix (col : List BIPEntry) (N : ℕ) (ids : ℕ → String) (flags : BIPFlags) :
    Outcome (ℕ → ℕ → ℝ) := symLoop (pairF col ids flags) (upperPairs N) fun _ _ => 0

/-- An entry of the departure collection: its name, its fields, and the field `Npower`. -/
structure DepEntry where
  name : String
  doc : JObj
  Npower : ℤ := 0

/-- The departure function of a name (`multifluid.hpp` lines 480-485): the first entry of that name. -/
noncomputable def depByName (deps : List DepEntry) (name : String) : Outcome (List ResTerm) :=
  match deps.find? (fun e => e.name = name) with
  | some e => buildDeparture e.doc e.Npower
  | none => .throws .stdInvalidArgument

/-- The departure function of a pair (`multifluid.hpp` lines 494-508). -/
noncomputable def pairDep (deps : List DepEntry) (col : List BIPEntry) (ids : ℕ → String) (flags : BIPFlags)
    (i j : ℕ) : Outcome (List ResTerm) :=
  (getBIPdep col (ids i) (ids j) flags).bind fun r =>
  match r.1.function with
  | none => .ok [.null]
  | some name =>
    if name = "" then .ok [.null]
    else if deps = [] then .throws .invalidArgument
    else depByName deps name

/-- `get_departure_function_matrix` (`multifluid.hpp` lines 473-514); the diagonal keeps no terms. -/
noncomputable def getDepMatrix (deps : List DepEntry) (col : List BIPEntry) (N : ℕ) (ids : ℕ → String)
    (flags : BIPFlags) : Outcome (ℕ → ℕ → List ResTerm) :=
  symLoop (pairDep deps col ids flags) (upperPairs N) fun _ _ => []

/-- What is read of a pure fluid: identifier, reducing state, gas constant, terms. -/
structure PureData where
  id : String
  Tc : ℝ
  vc : ℝ
  R : ℝ
  terms : List ResTerm

/-- The fluids as a list that is empty past its end. -/
noncomputable def getPure {n : ℕ} (pures : Fin n → PureData) (i : ℕ) : PureData :=
  if h : i < n then pures ⟨i, h⟩ else ⟨"", 0, 0, 0, []⟩

/-- The model made of its parts (`multifluid.hpp` lines 916-935). -/
noncomputable def assemble {n : ℕ} (pures : Fin n → PureData) (F : ℕ → ℕ → ℝ) (D : ℕ → ℕ → List ResTerm)
    (red : RedFn n) (codata : Bool) : MultiFluid n where
  Tr := red.Tr
  rhor := red.rhor
  eos i := (pures i).terms
  F i j := F i j
  func i j := D i j
  Rvals := if codata then none else some fun i => (pures i).R

/-- `_build_multifluid_model` (`multifluid.hpp` lines 891-938) after the identifiers have been chosen. -/
noncomputable def buildMixture {n : ℕ} (pures : Fin n → PureData) (col : List BIPEntry) (deps : List DepEntry)
    (flags : BIPFlags) (codata : Bool) : Outcome (MultiFluid n) :=
  (getFMatrix col n (fun i => (getPure pures i).id) flags).bind fun F =>
  (getDepMatrix deps col n (fun i => (getPure pures i).id) flags).bind fun D =>
  (getBIPMatrices col n (fun i => (getPure pures i).id) flags (fun i => (getPure pures i).Tc)
    fun i => (getPure pures i).vc).bind fun M =>
  .ok (assemble pures F D
    (RedFn.ofBIP n M (fun i => (getPure pures i).Tc) fun i => (getPure pures i).vc) codata)

end Teqp.Model
