import Verif.Model.Components

/-! # The Lennard-Jones fluid of Thol et al. (`/repo/include/teqp/models/mie/lennardjones.hpp`)

The document inside `build_LJ126_TholJPCRD2016` and its passage through `build_multifluid_JSONstr`.  The text is
taken as parsed: names, numbers and arrays.  Entries that are not read (bibliography, units, limits) are left
out. -/

set_option autoImplicit false

namespace Teqp.Model

/-- Line 35. -/
def ljtPd : List ℚ := [4, 1, 1, 2, 2, 3, 1, 1, 3, 2, 2, 5]
/-- Line 36. -/
def ljtPl : List ℚ := [0, 0, 0, 0, 0, 0, 1, 2, 2, 1, 2, 1]
/-- Line 37. -/
def ljtPn : List ℚ := [0.52080730e-2, 0.21862520e+1, -0.21610160e+1, 0.14527000e+1, -0.20417920e+1, 0.18695286e+0, -0.62086250e+0,
  -0.56883900e+0, -0.80055922e+0, 0.10901431e+0, -0.49745610e+0, -0.90988445e-1]
/-- Line 38. -/
def ljtPt : List ℚ := [1.000, 0.320, 0.505, 0.672, 0.843, 0.898, 1.205, 1.786, 2.770, 1.786, 2.590, 1.294]
/-- Line 42. -/
def ljtGbeta : List ℚ := [0.625, 0.638, 3.91, 0.156, 0.157, 0.153, 1.16, 1.73, 383, 0.112, 0.119]
/-- Line 43. -/
def ljtGd : List ℚ := [1, 1, 2, 3, 3, 2, 1, 2, 3, 1, 1]
/-- Line 44. -/
def ljtGepsilon : List ℚ := [0.2053, 0.409, 0.6, 1.203, 1.829, 1.397, 1.39, 0.539, 0.934, 2.369, 2.43]
/-- Line 45. -/
def ljtGeta : List ℚ := [2.067, 1.522, 8.82, 1.722, 0.679, 1.883, 3.925, 2.461, 28.2, 0.753, 0.82]
/-- Line 46. -/
def ljtGgamma : List ℚ := [0.71, 0.86, 1.94, 1.48, 1.49, 1.945, 3.02, 1.11, 1.17, 1.33, 0.24]
/-- Line 47. -/
def ljtGn : List ℚ := [-0.14667177e+1, 0.18914690e+1, -0.13837010e+0, -0.38696450e+0, 0.12657020e+0, 0.60578100e+0, 0.11791890e+1,
  -0.47732679e+0, -0.99218575e+1, -0.57479320e+0, 0.37729230e-2]
/-- Line 48. -/
def ljtGt : List ℚ := [2.830, 2.548, 4.650, 1.385, 1.460, 1.351, 0.660, 1.496, 1.830, 1.616, 4.970]

/-- An array of the document. -/
noncomputable def ratArr (l : List ℚ) : JVal := .arr (l.map fun q : ℚ => (q : ℝ))

/-- The first entry of `alphar` (lines 34-40). -/
noncomputable def ljtPower : JObj := [("d", ratArr ljtPd), ("l", ratArr ljtPl), ("n", ratArr ljtPn), ("t", ratArr ljtPt),
  ("type", .str "ResidualHelmholtzPower")]

/-- The second entry of `alphar` (lines 41-50). -/
noncomputable def ljtGauss : JObj := [("beta", ratArr ljtGbeta), ("d", ratArr ljtGd), ("epsilon", ratArr ljtGepsilon), ("eta", ratArr ljtGeta),
  ("gamma", ratArr ljtGgamma), ("n", ratArr ljtGn), ("t", ratArr ljtGt), ("type", .str "ResidualHelmholtzGaussian")]

/-- `INFO` (lines 61-65). -/
def ljtInfo : FluidInfo := { name := "LennardJones", cas := "N/A", refprop := "LJF" }

/-- `build_multifluid_JSONstr({contents}, "{}", "{}")` (lines 13-71; `multifluid.hpp` lines 891-953): reducing state
(lines 23-25), terms, gas constant (line 52), identifier, mixture of one component without collections.  The
empty objects behave as empty collections. -/
noncomputable def ljtBuild : Outcome (MultiFluid 1) :=
  (getEOSTerms [ljtPower, ljtGauss]).bind fun ts =>
  (selectIdentifier [] {} (collectIdentifiers [ljtInfo])).bind fun key =>
  match ((collectIdentifiers [ljtInfo]).lookup key).bind (·.head?) with
  | none => .ub
  | some id => buildMixture (fun _ => ⟨id, 1.32, 1 / 0.31, 1, ts⟩) [] [] {} false

end Teqp.Model
