import Verif.Basic
import Mathlib.Analysis.SpecialFunctions.Pow.Real
import Mathlib.Algebra.BigOperators.Fin

/-! # Multi-fluid reducing functions (`/repo/include/teqp/models/multifluid_reducing.hpp`) -/

set_option autoImplicit false

namespace Teqp.Model

/-! ## Binary interaction parameters -/

/-- One entry of the binary-pair collection: the fields that the code reads; `none` means that the
field is absent. -/
structure BIPEntry where
  hash1 : Option String := none
  hash2 : Option String := none
  name1 : Option String := none
  name2 : Option String := none
  cas1 : Option String := none
  cas2 : Option String := none
  betaT : Option ℝ := none
  gammaT : Option ℝ := none
  betaV : Option ℝ := none
  gammaV : Option ℝ := none
  xi : Option ℝ := none
  zeta : Option ℝ := none
  F : Option ℝ := none
  function : Option String := none

/-- The two flags that the look-up reads. -/
structure BIPFlags where
  forceEstimate : Bool := false
  estimate : Option String := none

/-- The Lorentz-Berthelot entry (`multifluid_reducing.hpp` lines 20-22). -/
noncomputable def lorentzBerthelot : BIPEntry :=
  { betaT := some 1, gammaT := some 1, betaV := some 1, gammaV := some 1, F := some 0 }

/-- The estimation scheme (`multifluid_reducing.hpp` lines 18-28 and 71-81): a missing scheme makes
`flags.at("estimate")` throw. -/
noncomputable def estimateBIP (scheme : Option String) : Outcome (BIPEntry × Bool) :=
  match scheme with
  | none => .throws .jsonError
  | some "Lorentz-Berthelot" => .ok (lorentzBerthelot, false)
  | some _ => .throws .stdInvalidArgument

/-- `el.at(key)` of a string field. -/
def optAt {α : Type} (x : Option α) : Outcome α :=
  match x with
  | some s => .ok s
  | none => .throws .jsonError

/-- The comparison made in each pass: `some false` for a match in the given order, `some true` for a match
in reverse order. -/
def orderedMatch (a b s1 s2 : String) : Option Bool :=
  if a = s1 ∧ b = s2 then some false else if a = s2 ∧ b = s1 then some true else none

/-- Pass 0 over the hashes (`multifluid_reducing.hpp` lines 35-46); `a`, `b` are already upper case. -/
def hashPass (a b : String) : List BIPEntry → Outcome (Option (BIPEntry × Bool))
  | [] => .ok none
  | el :: els =>
    if el.hash1.isNone then hashPass a b els
    else (optAt el.hash1).bind fun h1 => (optAt el.hash2).bind fun h2 =>
      match orderedMatch a b h1.toUpper h2.toUpper with
      | some s => .ok (some (el, s))
      | none => hashPass a b els

/-- Pass 1 over the names (`multifluid_reducing.hpp` lines 47-57). -/
def namePass (a b : String) : List BIPEntry → Outcome (Option (BIPEntry × Bool))
  | [] => .ok none
  | el :: els =>
    (optAt el.name1).bind fun n1 => (optAt el.name2).bind fun n2 =>
      match orderedMatch a b n1.toUpper n2.toUpper with
      | some s => .ok (some (el, s))
      | none => namePass a b els

/-- Pass 2 over the CAS numbers, case sensitive (`multifluid_reducing.hpp` lines 58-68). -/
def casPass (a b : String) : List BIPEntry → Outcome (Option (BIPEntry × Bool))
  | [] => .ok none
  | el :: els =>
    (optAt el.cas1).bind fun n1 => (optAt el.cas2).bind fun n2 =>
      match orderedMatch a b n1 n2 with
      | some s => .ok (some (el, s))
      | none => casPass a b els

/-- `get_BIPdep` (`multifluid_reducing.hpp` lines 9-85) for an array of objects. -/
noncomputable def getBIPdep (col : List BIPEntry) (id0 id1 : String) (flags : BIPFlags) :
    Outcome (BIPEntry × Bool) :=
  if flags.forceEstimate then estimateBIP flags.estimate
  else
    (hashPass id0.toUpper id1.toUpper col).bind fun r0 =>
    match r0 with
    | some r => .ok r
    | none =>
      (namePass id0.toUpper id1.toUpper col).bind fun r1 =>
      match r1 with
      | some r => .ok r
      | none =>
        (casPass id0 id1 col).bind fun r2 =>
        match r2 with
        | some r => .ok r
        | none =>
          if flags.estimate.isSome then estimateBIP flags.estimate else .throws .stdInvalidArgument

/-- The four parameters of a pair. -/
structure BIP where
  betaT : ℝ
  gammaT : ℝ
  betaV : ℝ
  gammaV : ℝ

/-- The parameters taken from an entry (`multifluid_reducing.hpp` lines 91-109).  `1.0 / beta` of a zero
`beta` is not finite. -/
noncomputable def bipOfEntry (el : BIPEntry) (swap : Bool) (Tc0 Tc1 vc0 vc1 : ℝ) : Outcome BIP :=
  match el.betaT, el.gammaT, el.betaV, el.gammaV with
  | some bT, some gT, some bV, some gV =>
      if swap then
        if bT = 0 ∨ bV = 0 then .nonFinite else .ok ⟨1 / bT, gT, 1 / bV, gV⟩
      else .ok ⟨bT, gT, bV, gV⟩
  | _, _, _, _ =>
    match el.xi, el.zeta with
    | some xi, some zeta =>
      .ok ⟨1, 0.5 * (Tc0 + Tc1 + xi) / (2 * Real.sqrt (Tc0 * Tc1)), 1,
        4 * (vc0 + vc1 + zeta) /
          (0.25 * (1 / (1 / vc0) ^ (1 / 3 : ℝ) + 1 / (1 / vc1) ^ (1 / 3 : ℝ)) ^ 3)⟩
    | _, _ => .throws .stdInvalidArgument

/-- `get_binary_interaction_double` (`multifluid_reducing.hpp` lines 88-111). -/
noncomputable def getBinaryInteraction (col : List BIPEntry) (id0 id1 : String) (flags : BIPFlags)
    (Tc0 Tc1 vc0 vc1 : ℝ) : Outcome BIP :=
  (getBIPdep col id0 id1 flags).bind fun r => bipOfEntry r.1 r.2 Tc0 Tc1 vc0 vc1

/-- The entries of a pair `(i, j)`, `i < j`, written below the diagonal (`multifluid_reducing.hpp` lines
125-128). -/
noncomputable def BIP.flip (p : BIP) : BIP := ⟨1 / p.betaT, p.gammaT, 1 / p.betaV, p.gammaV⟩

/-- The pairs visited by the double loop `i < j` (`multifluid_reducing.hpp` lines 122-123). -/
def upperPairs (N : ℕ) : List (ℕ × ℕ) :=
  (List.range N).flatMap fun i => ((List.range N).filter (i < ·)).map fun j => (i, j)

/-- The body of the double loop of `get_BIP_matrices` (`multifluid_reducing.hpp` lines 122-130). -/
noncomputable def bipLoop (col : List BIPEntry) (ids : ℕ → String) (flags : BIPFlags)
    (Tc vc : ℕ → ℝ) : List (ℕ × ℕ) → (ℕ → ℕ → BIP) → Outcome (ℕ → ℕ → BIP)
  | [], M => .ok M
  | (i, j) :: ps, M =>
    (getBinaryInteraction col (ids i) (ids j) flags (Tc i) (Tc j) (vc i) (vc j)).bind fun p =>
      if p.betaT = 0 ∨ p.betaV = 0 then .nonFinite
      else bipLoop col ids flags Tc vc ps fun a b =>
        if a = i ∧ b = j then p else if a = j ∧ b = i then p.flip else M a b

/-- `get_BIP_matrices` (`multifluid_reducing.hpp` lines 115-132). -/
noncomputable def getBIPMatrices (col : List BIPEntry) (N : ℕ) (ids : ℕ → String) (flags : BIPFlags)
    (Tc vc : ℕ → ℝ) : Outcome (ℕ → ℕ → BIP) :=
  bipLoop col ids flags Tc vc (upperPairs N) fun _ _ => ⟨0, 0, 0, 0⟩

/-! ## Reducing functions -/

/-- `cbrt`, also of negative numbers. -/
noncomputable def cbrt (x : ℝ) : ℝ := SignType.sign x * |x| ^ (1 / 3 : ℝ)

/-- One term of the double sum in `MultiFluidReducingFunction::Y` (`multifluid_reducing.hpp` lines
213-236).  The branch for a vanishing denominator is for `double` mole fractions. -/
noncomputable def redTerm (zi zj beta Yij : ℝ) : ℝ :=
  if beta * beta * zi + zj ≠ 0 then zi * zj * (zi + zj) / (beta * beta * zi + zj) * Yij
  else Yij * (zi * zj + zi * zi * (1 - beta * beta))

/-- `MultiFluidReducingFunction::Y` (`multifluid_reducing.hpp` lines 204-240). -/
noncomputable def redY {n : ℕ} (z Yc : Fin n → ℝ) (beta Yij : Fin n → Fin n → ℝ) : ℝ :=
  ∑ i, z i ^ 2 * Yc i + ∑ i, ∑ j ∈ Finset.univ.filter (i < ·), redTerm (z i) (z j) (beta i j) (Yij i j)

/-- `MultiFluidReducingFunction`: its parameters (`multifluid_reducing.hpp` lines 174-187). -/
structure RedFn (n : ℕ) where
  betaT : Fin n → Fin n → ℝ
  gammaT : Fin n → Fin n → ℝ
  betaV : Fin n → Fin n → ℝ
  gammaV : Fin n → Fin n → ℝ
  Tc : Fin n → ℝ
  vc : Fin n → ℝ

/-- The reducing function of a mixture from the pair matrices (`multifluid.hpp` lines 914 and 928). -/
def RedFn.ofBIP (n : ℕ) (M : ℕ → ℕ → BIP) (Tc vc : ℕ → ℝ) : RedFn n where
  betaT i j := (M i j).betaT
  gammaT i j := (M i j).gammaT
  betaV i j := (M i j).betaV
  gammaV i j := (M i j).gammaV
  Tc i := Tc i
  vc i := vc i

/-- The matrix `YT` built in the constructor (`multifluid_reducing.hpp` lines 193-196). -/
noncomputable def RedFn.YT {n : ℕ} (r : RedFn n) (i j : Fin n) : ℝ :=
  if i = j then 0 else 2 * r.betaT i j * r.gammaT i j * Real.sqrt (r.Tc i * r.Tc j)

/-- The matrix `Yv` built in the constructor (`multifluid_reducing.hpp` lines 197-198). -/
noncomputable def RedFn.Yv {n : ℕ} (r : RedFn n) (i j : Fin n) : ℝ :=
  if i = j then 0
  else 2 * 1 / 8 * r.betaV i j * r.gammaV i j * (cbrt (r.vc i) + cbrt (r.vc j)) ^ 3

/-- `get_Tr` (`multifluid_reducing.hpp` line 242). -/
noncomputable def RedFn.Tr {n : ℕ} (r : RedFn n) (z : Fin n → ℝ) : ℝ := redY z r.Tc r.betaT r.YT

/-- `get_rhor` (`multifluid_reducing.hpp` line 243). -/
noncomputable def RedFn.rhor {n : ℕ} (r : RedFn n) (z : Fin n → ℝ) : ℝ :=
  1 / redY z r.vc r.betaV r.Yv

/-- `MultiFluidInvariantReducingFunction::Y` (`multifluid_reducing.hpp` lines 294-306). -/
noncomputable def invY {n : ℕ} (z : Fin n → ℝ) (phi lambda Yij : Fin n → Fin n → ℝ) : ℝ :=
  ∑ i, z i * (∑ j, z j * phi i j * Yij i j + (∑ j, z j * cbrt (lambda i j) * cbrt (Yij i j)) ^ 3)

/-- `MultiFluidInvariantReducingFunction`: its parameters (`multifluid_reducing.hpp` lines 264-276). -/
structure InvFn (n : ℕ) where
  phiT : Fin n → Fin n → ℝ
  lambdaT : Fin n → Fin n → ℝ
  phiV : Fin n → Fin n → ℝ
  lambdaV : Fin n → Fin n → ℝ
  Tc : Fin n → ℝ
  vc : Fin n → ℝ

/-- `get_Tr` of the invariant form (`multifluid_reducing.hpp` lines 285-286, 307). -/
noncomputable def InvFn.Tr {n : ℕ} (r : InvFn n) (z : Fin n → ℝ) : ℝ :=
  invY z r.phiT r.lambdaT fun i j => Real.sqrt (r.Tc i * r.Tc j)

/-- `get_rhor` of the invariant form (`multifluid_reducing.hpp` lines 287-288, 308). -/
noncomputable def InvFn.rhor {n : ℕ} (r : InvFn n) (z : Fin n → ℝ) : ℝ :=
  1 / invY z r.phiV r.lambdaV fun i j => 1 / 8 * (cbrt (r.vc i) + cbrt (r.vc j)) ^ 3

/-- `get_BIP` (`multifluid_reducing.hpp` lines 245-261): the matrix of a name, and the bound check. -/
noncomputable def RedFn.getBIP {n : ℕ} (r : RedFn n) (i j : ℕ) (key : String) : Outcome ℝ :=
  let mat : Outcome (Fin n → Fin n → ℝ) :=
    if key = "betaT" then .ok r.betaT else if key = "gammaT" then .ok r.gammaT
    else if key = "betaV" then .ok r.betaV else if key = "gammaV" then .ok r.gammaV
    else .throws .stdInvalidArgument
  mat.bind fun m => if h : i < n ∧ j < n then .ok (m ⟨i, h.1⟩ ⟨j, h.2⟩) else .throws .stdInvalidArgument

/-! ## Mutant models (`/repo/include/teqp/models/multifluid_mutant.hpp`) -/

/-- Parameters of one pair in the mutation document: the `BIP` objects of the two reducing functions
(`multifluid_mutant.hpp` lines 110-120 and 133-139). -/
structure MutBIP where
  phiT : ℝ := 0
  lambdaT : ℝ := 0
  phiV : ℝ := 0
  lambdaV : ℝ := 0
  betaT : ℝ := 1
  gammaT : ℝ := 1
  betaV : ℝ := 1
  gammaV : ℝ := 1

/-- The matrices of the invariant branch of `build_multifluid_mutant` (`multifluid_mutant.hpp` lines
100-122): `Zero(N, N)`, symmetric `phi`, antisymmetric `lambda`, nothing on the diagonal. -/
def mutantInvariant {n : ℕ} (Tc vc : Fin n → ℝ) (p : Fin n → Fin n → MutBIP) : InvFn n where
  phiT i j := if i < j then (p i j).phiT else if j < i then (p j i).phiT else 0
  lambdaT i j := if i < j then (p i j).lambdaT else if j < i then -(p j i).lambdaT else 0
  phiV i j := if i < j then (p i j).phiV else if j < i then (p j i).phiV else 0
  lambdaV i j := if i < j then (p i j).lambdaV else if j < i then -(p j i).lambdaV else 0
  Tc := Tc
  vc := vc

/-- The matrices of the other branch (`multifluid_mutant.hpp` lines 124-142). -/
noncomputable def mutantGERG {n : ℕ} (Tc vc : Fin n → ℝ) (p : Fin n → Fin n → MutBIP) : RedFn n where
  betaT i j := if i < j then (p i j).betaT else if j < i then 1 / (p j i).betaT else 0
  gammaT i j := if i < j then (p i j).gammaT else if j < i then (p j i).gammaT else 0
  betaV i j := if i < j then (p i j).betaV else if j < i then 1 / (p j i).betaV else 0
  gammaV i j := if i < j then (p i j).gammaV else if j < i then (p j i).gammaV else 0
  Tc := Tc
  vc := vc

end Teqp.Model
