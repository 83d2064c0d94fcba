import Verif.Basic
import Mathlib.Analysis.SpecialFunctions.Sqrt
import Mathlib.Data.Real.Basic

/-! # Finite differences (`/repo/include/teqp/math/finite_derivs.hpp`) and quadrature
(`/repo/include/teqp/math/quadrature.hpp`) -/

set_option autoImplicit false

namespace Teqp.Model

/-! ## Finite differences -/

/-- The static map `CentralDiffCoeffs` (`math/finite_derivs.hpp` lines 36-52): offsets and coefficients for
`(Nderiv, Norder)`.  `[]` stands for the default-constructed entry that `operator[]` inserts for a
missing key (line 54). -/
def centralDiffCoeffs : ℕ → ℕ → List (Int × ℚ)
  | 1, 2 => [(-1, -1 / 2), (1, 1 / 2)]
  | 1, 4 => [(-2, 1 / 12), (-1, -2 / 3), (1, 2 / 3), (2, -1 / 12)]
  | 1, 6 => [(-3, -1 / 60), (-2, 3 / 20), (-1, -3 / 4), (1, 3 / 4), (2, -3 / 20), (3, 1 / 60)]
  | 2, 2 => [(-1, 1), (0, -2), (1, 1)]
  | 2, 4 => [(-2, -1 / 12), (-1, 4 / 3), (0, -5 / 2), (1, 4 / 3), (2, -1 / 12)]
  | 2, 6 => [(-3, 1 / 90), (-2, -3 / 20), (-1, 3 / 2), (0, -49 / 18), (1, 3 / 2), (2, -3 / 20),
      (3, 1 / 90)]
  | 3, 2 => [(-2, -1 / 2), (-1, 1), (0, 0), (1, -1), (2, 1 / 2)]
  | 3, 4 => [(-3, 1 / 8), (-2, -1), (-1, 13 / 8), (0, 0), (1, -13 / 8), (2, 1), (3, -1 / 8)]
  | 3, 6 => [(-4, -7 / 240), (-3, 3 / 10), (-2, -169 / 120), (-1, 61 / 30), (0, 0), (1, -61 / 30),
      (2, 169 / 120), (3, -3 / 10), (4, 7 / 240)]
  | 4, 2 => [(-2, 1), (-1, -4), (0, 6), (1, -4), (2, 1)]
  | 4, 4 => [(-3, -1 / 6), (-2, 2), (-1, -13 / 2), (0, 28 / 3), (1, -13 / 2), (2, 2), (3, -1 / 6)]
  | 4, 6 => [(-4, 7 / 240), (-3, -2 / 5), (-2, 169 / 60), (-1, -122 / 15), (0, 91 / 8), (1, -122 / 15),
      (2, 169 / 60), (3, -2 / 5), (4, 7 / 240)]
  | _, _ => []

/-- `centered_diff<Nderiv, Norder>` (`math/finite_derivs.hpp` lines 21-68).  The size comparison of lines
59-61 cannot fail because offsets and coefficients are paired here.  A step of zero divides by zero at line 66. -/
noncomputable def centeredDiff (Nderiv Norder : ℕ) (f : ℝ → ℝ) (x h : ℝ) : Outcome ℝ :=
  if (centralDiffCoeffs Nderiv Norder).length = 0 then .throws .stdInvalidArgument
  else if h = 0 then .nonFinite
  else .ok (((centralDiffCoeffs Nderiv Norder).map fun p => (p.2 : ℝ) * f (x + h * p.1)).sum /
    h ^ Nderiv)

/-- `centered_diff_xy` (`math/finite_derivs.hpp` lines 70-73). -/
noncomputable def centeredDiffXY (f : ℝ → ℝ → ℝ) (x y dx dy : ℝ) : ℝ :=
  (f (x + dx) (y + dy) - f (x + dx) (y - dy) - f (x - dx) (y + dy) + f (x - dx) (y - dy)) /
    (4 * dx * dy)

/-- `gradient_forward` (`math/finite_derivs.hpp` lines 75-84), component `i`. -/
noncomputable def gradientForward {ι : Type} [DecidableEq ι] (f : (ι → ℝ) → ℝ) (x : ι → ℝ) (h : ℝ)
    (i : ι) : ℝ :=
  (f (Function.update x i (x i + h)) - f x) / h

/-! ## Quadrature -/

/-- The 7-point table (`quadrature.hpp` lines 36-38), nodes and weights times `10^16`. -/
def gl7 : List (Int × Int) :=
  [(0, 4179591836734694), (4058451513773972, 3818300505051189), (-4058451513773972, 3818300505051189),
   (-7415311855993945, 2797053914892766), (7415311855993945, 2797053914892766), (-9491079123427585, 1294849661688697),
   (9491079123427585, 1294849661688697)]

/-- The 10-point table (`quadrature.hpp` lines 41-43), nodes and weights times `10^16`. -/
def gl10 : List (Int × Int) :=
  [(-1488743389816312, 2955242247147529), (1488743389816312, 2955242247147529), (-4333953941292472, 2692667193099963),
   (4333953941292472, 2692667193099963), (-6794095682990244, 2190863625159820), (6794095682990244, 2190863625159820),
   (-8650633666889845, 1494513491505806), (8650633666889845, 1494513491505806), (-9739065285171717, 666713443086881),
   (9739065285171717, 666713443086881)]

/-- The 15-point table (`quadrature.hpp` lines 46-48), nodes and weights times `10^16`. -/
def gl15 : List (Int × Int) :=
  [(0, 2025782419255613), (-2011940939974345, 1984314853271116), (2011940939974345, 1984314853271116),
   (-3941513470775634, 1861610000155622), (3941513470775634, 1861610000155622), (-5709721726085388, 1662692058169939),
   (5709721726085388, 1662692058169939), (-7244177313601701, 1395706779261543), (7244177313601701, 1395706779261543),
   (-8482065834104272, 1071592204671719), (8482065834104272, 1071592204671719), (-9372733924007060, 703660474881081),
   (9372733924007060, 703660474881081), (-9879925180204854, 307532419961173), (9879925180204854, 307532419961173)]

/-- The 30-point table (`quadrature.hpp` lines 51-54), nodes and weights times `10^16`. -/
def gl30 : List (Int × Int) :=
  [(-514718425553177, 1028526528935588), (514718425553177, 1028526528935588), (-1538699136085835, 1017623897484055),
   (1538699136085835, 1017623897484055), (-2546369261678899, 995934205867953), (2546369261678899, 995934205867953),
   (-3527047255308781, 963687371746443), (3527047255308781, 963687371746443), (-4470337695380892, 921225222377861),
   (4470337695380892, 921225222377861), (-5366241481420199, 868997872010830), (5366241481420199, 868997872010830),
   (-6205261829892429, 807558952294202), (6205261829892429, 807558952294202), (-6978504947933158, 737559747377052),
   (6978504947933158, 737559747377052), (-7677774321048262, 659742298821805), (7677774321048262, 659742298821805),
   (-8295657623827684, 574931562176191), (8295657623827684, 574931562176191), (-8825605357920527, 484026728305941),
   (8825605357920527, 484026728305941), (-9262000474292743, 387991925696271), (9262000474292743, 387991925696271),
   (-9600218649683075, 287847078833234), (9600218649683075, 287847078833234), (-9836681232797472, 184664683110910),
   (9836681232797472, 184664683110910), (-9968934840746495, 79681924961666), (9968934840746495, 79681924961666)]

/-- A decimal table as nodes and weights. -/
noncomputable def decimalRule (t : List (Int × Int)) : List (ℝ × ℝ) :=
  t.map fun p => ((p.1 : ℝ) / 10 ^ 16, (p.2 : ℝ) / 10 ^ 16)

/-- The static map `xw` (`quadrature.hpp` lines 19-56): nodes and weights of the `N`-point rule, `none`
for a missing key. -/
noncomputable def quadRule : ℕ → Option (List (ℝ × ℝ))
  | 3 => some [(0, 8 / 9), (Real.sqrt (3 / 5), 5 / 9), (-Real.sqrt (3 / 5), 5 / 9)]
  | 4 =>
    let p := Real.sqrt (3 / 7 - 2 / 7 * Real.sqrt (6 / 5))
    let q := Real.sqrt (3 / 7 + 2 / 7 * Real.sqrt (6 / 5))
    some [(p, (18 + Real.sqrt 30) / 36), (-p, (18 + Real.sqrt 30) / 36),
      (q, (18 - Real.sqrt 30) / 36), (-q, (18 - Real.sqrt 30) / 36)]
  | 5 =>
    let p := 1 / 3 * Real.sqrt (5 - 2 * Real.sqrt (10 / 7))
    let q := 1 / 3 * Real.sqrt (5 + 2 * Real.sqrt (10 / 7))
    some [(0, 128 / 225), (p, (322 + 13 * Real.sqrt 70) / 900), (-p, (322 + 13 * Real.sqrt 70) / 900),
      (q, (322 - 13 * Real.sqrt 70) / 900), (-q, (322 - 13 * Real.sqrt 70) / 900)]
  | 7 => some (decimalRule gl7)
  | 10 => some (decimalRule gl10)
  | 15 => some (decimalRule gl15)
  | 30 => some (decimalRule gl30)
  | _ => none

/-- `quad<N>` (`quadrature.hpp` lines 15-70).  A missing `N` compiles; `xw.at(N)` throws. -/
noncomputable def quad (N : ℕ) (F : ℝ → ℝ) (a b : ℝ) : Outcome ℝ :=
  match quadRule N with
  | none => .throws .stdOutOfRange
  | some t => .ok ((b - a) / 2 * (t.map fun p => p.2 * F ((b - a) / 2 * p.1 + (a + b) / 2)).sum)

end Teqp.Model
