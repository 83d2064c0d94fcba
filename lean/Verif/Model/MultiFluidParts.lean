import Verif.Model.MultiFluid
import Verif.Model.CApi

/-!
# The parts of a multi-fluid model that callers can evaluate on their own

`/repo/include/teqp/models/multifluid.hpp` lines 104-115, 150-160, 179-198 and the Python method
`/repo/interface/pybind11_wrapper.cpp` line 118.
-/

set_option autoImplicit false

namespace Teqp.Model

namespace MultiFluid
variable {n : ℕ} (m : MultiFluid n)

/-- `DepartureContribution::get_alpharij` (`multifluid.hpp` lines 105-115).  The first check, for negative
unsigned numbers, never fires and is left out. -/
noncomputable def getAlpharij (i j : ℕ) (tau delta : ℝ) : Outcome ℝ :=
  if h : n ≤ i ∨ n ≤ j then .throws .invalidArgument
  else .ok (containerAlphar (m.func ⟨i, by omega⟩ ⟨j, by omega⟩) tau delta)

/-- The Python method `get_alpharij` (`pybind11_wrapper.cpp` line 118): signed numbers become `std::size_t`. -/
noncomputable def pyAlpharij (i j : ℤ) (tau delta : ℝ) : Outcome ℝ :=
  m.getAlpharij (sizeT i) (sizeT j) tau delta

/-- `MultiFluid::alphar_taudeltai` (`multifluid.hpp` lines 194-198 and 70-73): `EOSs[i]` is not checked. -/
noncomputable def alpharTaudeltai (tau delta : ℝ) (i : ℕ) : Outcome ℝ :=
  if h : i < n then .ok (containerAlphar (m.eos ⟨i, h⟩) tau delta) else .ub

/-- `MultiFluid::alphar_taudelta` with its check of the number of mole fractions (`multifluid.hpp` lines 179-191). -/
noncomputable def alpharTaudeltaV (tau delta : ℝ) (z : List ℝ) : Outcome ℝ :=
  if h : z.length = n then .ok (m.alphar_taudelta tau delta fun i => z[i]) else .throws .invalidArgument

/-- `MultiFluid::alphar` of temperature and molar densities (`multifluid.hpp` lines 152-160).  Densities divided
by a total of zero are not finite; the number of them is checked first. -/
noncomputable def alpharRho (T : ℝ) (rhovec : List ℝ) (rhotot : Option ℝ) : Outcome ℝ :=
  let r := rhotot.getD rhovec.sum
  if r = 0 ∧ rhovec.length = n then .nonFinite else m.alpharV T r (rhovec.map (· / r))

end MultiFluid

end Teqp.Model
