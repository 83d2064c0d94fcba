import Verif.Model.CPA
import Mathlib.Analysis.SpecialFunctions.Pow.Real
import Mathlib.Analysis.SpecialFunctions.Log.Basic
import Mathlib.Analysis.SpecialFunctions.ExpDeriv
import Mathlib.Analysis.Complex.Trigonometric

/-! # Potentials in simulation units: exp-6 (Kataoka), Mie (Pohl and others) and Mie by a neural network (Chaparro and Müller)

`/repo/include/teqp/models/model_potentials/exp6.hpp` and `/repo/include/teqp/models/mie/mie.hpp`. -/

set_option autoImplicit false

namespace Teqp.Model
open Finset

/-! ## exp-6 -/

/-- A row of the table of `Kataoka1992`. -/
structure KataokaRow where
  p : ℕ
  q : ℝ
  r : ℝ
  A : ℝ

/-- `c`, `exp6.hpp` lines 22-98. -/
noncomputable def kataokaTab : List KataokaRow := [
    ⟨1, 0, -0.5, -0.6850148⟩, ⟨1, 0.25, -0.5, 0.4524021⟩, ⟨1, 1, -0.5, -0.9978102⟩, ⟨1, 2, -0.5, -1.7569237⟩,
    ⟨1, 3, -0.5, 0.5178725⟩, ⟨1, 0, 0, 0.9798958⟩, ⟨1, 0.25, 0, 2.0371027⟩, ⟨1, 1, 0, -5.3831902⟩,
    ⟨1, 2, 0, 2.5157204⟩, ⟨1, 3, 0, -1.3160448⟩, ⟨1, 0, 1.5, 0.1106332⟩, ⟨1, 0.25, 1.5, 0.0221654⟩,
    ⟨1, 1, 1.5, -0.0927995⟩, ⟨1, 2, 1.5, 0.0685976⟩, ⟨1, 3, 1.5, 0.0455256⟩, ⟨2, 0, -0.5, 3.2473965⟩,
    ⟨2, 0.25, -0.5, -7.1216450⟩, ⟨2, 1, -0.5, 6.3146334⟩, ⟨2, 2, -0.5, 3.9169369⟩, ⟨2, 3, -0.5, -5.7430820⟩,
    ⟨2, 0, 0, -2.6474066⟩, ⟨2, 0.25, 0, 6.5439167⟩, ⟨2, 1, 0, -4.2844410⟩, ⟨2, 2, 0, -0.1870927⟩,
    ⟨2, 3, 0, -0.6190643⟩, ⟨2, 0, 1.5, 1.1307259⟩, ⟨2, 0.25, 1.5, -2.2454348⟩, ⟨2, 1, 1.5, 0.9304036⟩,
    ⟨2, 2, 1.5, 0.8111790⟩, ⟨2, 3, 1.5, -0.6701541⟩, ⟨3, 0, -0.5, -5.2004805⟩, ⟨3, 0.25, -0.5, 9.9220171⟩,
    ⟨3, 1, -0.5, -8.3147421⟩, ⟨3, 2, -0.5, -10.7043695⟩, ⟨3, 3, -0.5, 16.3647919⟩, ⟨3, 0, 0, 0.4470198⟩,
    ⟨3, 0.25, 0, 1.8149662⟩, ⟨3, 1, 0, -6.1030884⟩, ⟨3, 2, 0, -6.6081009⟩, ⟨3, 3, 0, 12.0017595⟩,
    ⟨3, 0, 1.5, -2.4980745⟩, ⟨3, 0.25, 1.5, 6.4317245⟩, ⟨3, 1, 1.5, -0.2996140⟩, ⟨3, 2, 1.5, -4.2253304⟩,
    ⟨3, 3, 1.5, 1.9814978⟩, ⟨4, 0, -0.5, 1.3786678⟩, ⟨4, 0.25, -0.5, -3.8790855⟩, ⟨4, 1, -0.5, 1.2802448⟩,
    ⟨4, 2, -0.5, 15.9196701⟩, ⟨4, 3, -0.5, -17.1450195⟩, ⟨4, 0, 0, 1.8664589⟩, ⟨4, 0.25, 0, -2.6899223⟩,
    ⟨4, 1, 0, 10.8094797⟩, ⟨4, 2, 0, 6.9019051⟩, ⟨4, 3, 0, -18.3938751⟩, ⟨4, 0, 1.5, 3.4184790⟩,
    ⟨4, 0.25, 1.5, -8.8453131⟩, ⟨4, 1, 1.5, -2.0526648⟩, ⟨4, 2, 1.5, 6.2798786⟩, ⟨4, 3, 1.5, -2.0717278⟩,
    ⟨5, 0, -0.5, 1.0566063⟩, ⟨5, 0.25, -0.5, -1.1453161⟩, ⟨5, 1, -0.5, 1.9671011⟩, ⟨5, 2, -0.5, -7.9601946⟩,
    ⟨5, 3, -0.5, 6.1615953⟩, ⟨5, 0, 0, -1.5089417⟩, ⟨5, 0.25, 0, 1.0174732⟩, ⟨5, 1, 0, -2.4891043⟩,
    ⟨5, 2, 0, -2.3425989⟩, ⟨5, 3, 0, 8.2107668⟩, ⟨5, 0, 1.5, -1.7408895⟩, ⟨5, 0.25, 1.5, 5.0178003⟩,
    ⟨5, 1, 1.5, 1.4885798⟩, ⟨5, 2, 1.5, -3.0418901⟩, ⟨5, 3, 1.5, 0.7206789⟩]

/-- `alphastar`, line 104. -/
noncomputable def kataokaStar (alpha : ℝ) : ℝ := (alpha - 8) / 10
/-- `get_alpha`, lines 111-113. -/
noncomputable def kataokaGet (alpha : ℝ) : ℝ := kataokaStar alpha * 10 + 8

open Classical in
/-- `alphar`, lines 121-132: a power `-1/2` of a steepness that is not above eight is infinite or not a number, and so are the powers of a temperature that is not
positive. -/
noncomputable def kataokaAlphar (alpha T rho : ℝ) : Outcome ℝ :=
  if kataokaStar alpha ≤ 0 ∨ T ≤ 0 then .nonFinite
  else .ok (kataokaTab.map fun e => e.A * rho ^ e.p * T ^ (-e.q) * kataokaStar alpha ^ e.r).sum

/-! ## Mie fluids with attractive exponent six -/

/-- `c1_pol`, `mie.hpp` line 19. -/
noncomputable def pohlC1pol : List ℝ := [-0.0192944, 1.38, -2.2653, 1.6291, -1.974, 0.40412]
/-- Line 20. -/
noncomputable def pohlC1exp : List ℝ := [0.1845, -0.3227, 1.1351, 2.232, -2.344, -0.4238]
/-- Line 21. -/
noncomputable def pohlC1gbs : List ℝ := [-4.367, 0.0371, 1.3895, 2.835]
/-- Line 22. -/
noncomputable def pohlC2pol : List ℝ := [0.26021, -5.525, 8.329, -19.492, 25.8, -3.8133]
/-- Line 23. -/
noncomputable def pohlC2exp : List ℝ := [-5.05, 2.7842, -9.523, -30.383, 17.902, 2.2264]
/-- Line 24. -/
noncomputable def pohlC2gbs : List ℝ := [48.445, -5.506, -11.643, -24.36]
/-- Line 25. -/
noncomputable def pohlTpol : List ℝ := [1, 0.236, 0.872, 0.313, 0.407, 0.703]
/-- Line 26. -/
noncomputable def pohlTexp : List ℝ := [1.78, 2.99, 2.866, 1.2, 3.06, 1.073]
/-- Line 27. -/
noncomputable def pohlTgbs : List ℝ := [1.5, 1.03, 4.02, 1.57]
/-- Line 28. -/
def pohlDpol : List ℕ := [4, 1, 1, 2, 2, 3]
/-- Line 29. -/
def pohlDexp : List ℕ := [1, 1, 3, 2, 2, 5]
/-- Line 30. -/
def pohlDgbs : List ℕ := [2, 3, 2, 2]
/-- Line 31. -/
def pohlP : List ℕ := [1, 2, 2, 1, 2, 1]
/-- Line 32. -/
noncomputable def pohlEta : List ℝ := [0.362, 0.313, 1.17, 0.957]
/-- Line 33. -/
noncomputable def pohlBeta : List ℝ := [0.0761, 0.143, 0.63, 1.32]
/-- Line 34. -/
noncomputable def pohlGam : List ℝ := [1.55, -0.0826, 1.505, 1.07]
/-- Line 35. -/
noncomputable def pohlEps : List ℝ := [-1, -1, -0.195, -0.287]

/-- `Tc`, line 47. -/
noncomputable def pohlTc (lam : ℝ) : ℝ := 0.668 + 6.84 / lam + 145 / lam ^ 3
/-- `rhoc`, line 48: a decimal logarithm. -/
noncomputable def pohlRhoc (lam : ℝ) : ℝ := 0.2516 + 0.049 * (Real.log lam / Real.log 10)

/-- A coefficient, lines 44-46. -/
noncomputable def pohlN (c1 c2 : List ℝ) (lam : ℝ) (i : ℕ) : ℝ := c1.getD i 0 + c2.getD i 0 / lam

/-- The sums of lines 62-64. -/
noncomputable def pohlSum (lam tau delta : ℝ) : ℝ :=
  (∑ i ∈ range 6, pohlN pohlC1pol pohlC2pol lam i * tau ^ pohlTpol.getD i 0 * delta ^ pohlDpol.getD i 0)
  + (∑ i ∈ range 6, pohlN pohlC1exp pohlC2exp lam i * tau ^ pohlTexp.getD i 0 * delta ^ pohlDexp.getD i 0 * Real.exp (-delta ^ pohlP.getD i 0))
  + ∑ i ∈ range 4, pohlN pohlC1gbs pohlC2gbs lam i * tau ^ pohlTgbs.getD i 0 * delta ^ pohlDgbs.getD i 0
      * Real.exp (-pohlEta.getD i 0 * (delta - pohlEps.getD i 0) ^ 2 - pohlBeta.getD i 0 * (tau - pohlGam.getD i 0) ^ 2)

open Classical in
/-- `alphar`, lines 58-66.  The exponent is not checked by the constructor (lines 43-49); the powers of the reduced temperature need it positive. -/
noncomputable def pohlAlphar (lam T rho : ℝ) : Outcome ℝ :=
  if lam ≤ 0 ∨ T = 0 ∨ pohlTc lam / T ≤ 0 ∨ pohlRhoc lam = 0 then .nonFinite
  else .ok (pohlSum lam (pohlTc lam / T) (rho / pohlRhoc lam))

/-! ## The neural network for Mie fluids -/

/-- `c_alpha`, line 85. -/
noncomputable def mieC (r a : ℝ) : ℝ := r / (r - a) * (r / a) ^ (a / (r - a))
/-- `alpha_helper`, lines 84-88. -/
noncomputable def mieAlpha (r a : ℝ) : ℝ := mieC r a * (1 / (a - 3) - 1 / (r - 3))

/-- A layer: its kernel and bias with as many inputs and outputs as they have; the matrices themselves are data of `/repo/src/data/FEANN.cpp` and
kept as parameters. -/
structure Layer where
  nin : ℕ
  nout : ℕ
  K : ℕ → ℕ → ℝ
  b : ℕ → ℝ

/-- One layer, lines 110-120: the hyperbolic tangent of an affine map. -/
noncomputable def Layer.apply (l : Layer) (x : ℕ → ℝ) (j : ℕ) : ℝ := Real.tanh ((∑ i ∈ range l.nin, x i * l.K i j) + l.b j)

/-- The layers in order, then the last kernel without bias, lines 110-124. -/
noncomputable def feannForward (ls : List Layer) (nlast : ℕ) (last : ℕ → ℝ) (x : ℕ → ℝ) : ℝ :=
  ∑ i ∈ range nlast, (ls.foldl (fun x l => l.apply x) x) i * last i

/-- The input, lines 107-108. -/
noncomputable def feannInput (alpha rho T : ℝ) (i : ℕ) : ℝ := if i = 0 then alpha else if i = 1 then rho else 1 / T

open Classical in
/-- `alphar`, lines 102-127, with the weights as parameters; the exponents are not checked by the constructor (line 91). -/
noncomputable def feannAlphar (ls : List Layer) (nlast : ℕ) (last : ℕ → ℝ) (r a T rho : ℝ) : Outcome ℝ :=
  if r = a ∨ a = 0 ∨ r = 3 ∨ a = 3 ∨ r / a ≤ 0 ∨ T = 0 then .nonFinite
  else .ok ((feannForward ls nlast last (feannInput (mieAlpha r a) rho T) - feannForward ls nlast last (feannInput (mieAlpha r a) 0 T)) / T)

end Teqp.Model
