import Verif.Model.MultiFluid
import Verif.Model.CPA

/-! # Mutants built from documents (`/repo/include/teqp/models/multifluid_mutant.hpp` lines 65-153) -/

set_option autoImplicit false

namespace Teqp.Model

/-- `jj[std::to_string(i)][std::to_string(j)]` of a constant document (`multifluid_mutant.hpp` line 83). -/
def mutEntryC (j : JTree) (i k : ℕ) : Outcome JTree :=
  (j.atConst (toString i)).bind fun row => row.atConst (toString k)

/-- `jj.at(std::to_string(i)).at(std::to_string(j)).at("BIP")` (`multifluid_mutant.hpp` lines 107-109 and 131-132). -/
def mutBIPDoc (j : JTree) (i k : ℕ) : Outcome JTree :=
  ((j.at (toString i)).bind fun row => row.at (toString k)).bind fun e => e.at "BIP"

/-- A number in an object. -/
def JTree.numAt (j : JTree) (k : String) : Outcome ℝ := (j.at k).bind JTree.toDouble

/-- The weight and the departure function of a pair (`multifluid_mutant.hpp` lines 83-91); `dep` is
`build_departure_function`, called twice with the same document. -/
def mutDeparture (dep : JTree → Outcome (List ResTerm)) (j : JTree) (i k : ℕ) : Outcome (ℝ × List ResTerm) :=
  (mutEntryC j i k).bind fun e => (e.at "departure").bind fun d => (e.at "BIP").bind fun b =>
    (b.numAt "Fij").bind fun F => (dep d).bind fun t => .ok (F, t)

/-- The parameters of a pair for the invariant reducing function (`multifluid_mutant.hpp` lines 107-119). -/
def mutPairInv (j : JTree) (i k : ℕ) : Outcome MutBIP :=
  (mutBIPDoc j i k).bind fun b => (b.numAt "phiT").bind fun pT => (b.numAt "lambdaT").bind fun lT =>
    (b.numAt "phiV").bind fun pV => (b.numAt "lambdaV").bind fun lV =>
      .ok { phiT := pT, lambdaT := lT, phiV := pV, lambdaV := lV }

/-- The parameters of a pair for the other reducing function (`multifluid_mutant.hpp` lines 131-139). -/
def mutPairGERG (j : JTree) (i k : ℕ) : Outcome MutBIP :=
  (mutBIPDoc j i k).bind fun b => (b.numAt "betaT").bind fun bT => (b.numAt "betaV").bind fun bV =>
    (b.numAt "gammaT").bind fun gT => (b.numAt "gammaV").bind fun gV =>
      .ok { betaT := bT, gammaT := gT, betaV := bV, gammaV := gV }

/-- The type of the reducing function (`multifluid_mutant.hpp` line 145). -/
def mutType (j : JTree) : Outcome String :=
  (mutBIPDoc j 0 1).bind fun b => if b.contains "type" then (b.at "type").bind JTree.toStr else .ok ""

/-- `get_reducing` (`multifluid_mutant.hpp` lines 97-144): the reducing temperature and density. -/
noncomputable def mutReducing {n : ℕ} (Tc vc : Fin n → ℝ) (j : JTree) (ty : String) :
    Outcome (((Fin n → ℝ) → ℝ) × ((Fin n → ℝ) → ℝ)) :=
  if ty = "invariant" then
    (symLoop (mutPairInv j) (upperPairs n) fun _ _ => {}).bind fun P =>
      .ok ((mutantInvariant Tc vc fun i k => P i k).Tr, (mutantInvariant Tc vc fun i k => P i k).rhor)
  else
    (symLoop (mutPairGERG j) (upperPairs n) fun _ _ => {}).bind fun P =>
      .ok ((mutantGERG Tc vc fun i k => P i k).Tr, (mutantGERG Tc vc fun i k => P i k).rhor)

/-- `build_multifluid_mutant` (`multifluid_mutant.hpp` lines 65-153): the base model with other reducing and
departure functions, from the critical parameters of its reducing function and the document.  The document that is
kept as text (line 151) is left out. -/
noncomputable def mutantBuild {n : ℕ} (dep : JTree → Outcome (List ResTerm)) (m : MultiFluid n) (Tc vc : Fin n → ℝ)
    (j : JTree) : Outcome (MultiFluid n) :=
  (symLoop (mutDeparture dep j) (upperPairs n) fun _ _ => (0, [.null])).bind fun D =>
    (mutType j).bind fun ty => (mutReducing Tc vc j ty).bind fun r =>
      .ok { Tr := r.1, rhor := r.2, eos := m.eos, F := fun i k => (D i k).1, func := fun i k => (D i k).2,
            Rvals := m.Rvals }

/-- `MultiFluidInvariantReducingFunction::get_BIP` (`multifluid_reducing.hpp` lines 310-325). -/
noncomputable def InvFn.getBIP {n : ℕ} (r : InvFn n) (i j : ℕ) (key : String) : Outcome ℝ :=
  let mat : Outcome (Fin n → Fin n → ℝ) :=
    if key = "phiT" then .ok r.phiT else if key = "lambdaT" then .ok r.lambdaT
    else if key = "phiV" then .ok r.phiV else if key = "lambdaV" then .ok r.lambdaV
    else .throws .stdInvalidArgument
  mat.bind fun m => if h : i < n ∧ j < n then .ok (m ⟨i, h.1⟩ ⟨j, h.2⟩) else .throws .stdInvalidArgument

/-- `ReducingTermContainer::get_BIP` (`multifluid_reducing.hpp` lines 351-353): that of the function it holds. -/
noncomputable def redGetBIP {n : ℕ} (r : RedFn n ⊕ InvFn n) (i j : ℕ) (key : String) : Outcome ℝ :=
  match r with
  | .inl r => r.getBIP i j key
  | .inr r => r.getBIP i j key

/-- `MultiFluidAdapter::get_BIP` (`multifluid_mutant.hpp` lines 32-40): a weight out of range is looked up among the
parameters of the reducing function. -/
noncomputable def mutantGetBIP {n : ℕ} (F : Fin n → Fin n → ℝ) (r : RedFn n ⊕ InvFn n) (i j : ℕ) (key : String) : Outcome ℝ :=
  if h : (key = "F" ∨ key = "Fij") ∧ i < n ∧ j < n then .ok (F ⟨i, h.2.1⟩ ⟨j, h.2.2⟩) else redGetBIP r i j key

end Teqp.Model
