import Verif.Model.SAFTVRMie

/-! # The SAFT-VR-Mie report

`get_core_calcs` of `SAFTVRMieNonpolarMixture` and `SAFTVRMieMixture` (`/repo/include/teqp/models/saftvrmie.hpp` lines 848-880 and
1021-1053), which write the structure of lines 610-638 into a JSON document. -/

set_option autoImplicit false

namespace Teqp.Model
open Finset

/-- The JSON document, `saftvrmie.hpp` lines 864-878. -/
structure SVRReport (n : ℕ) where
  dmat : Fin n → Fin n → ℝ
  rhos : ℝ
  rhoN : ℝ
  mbar : ℝ
  xs : Fin n → ℝ
  zeta : Fin 4 → ℝ
  zetaX : ℝ
  zetaBar : ℝ
  mono : ℝ
  a1 : ℝ
  a2 : ℝ
  a3 : ℝ
  chain : ℝ

open Classical in
/-- `get_core_calcs`, `saftvrmie.hpp` lines 395-638 and 848-880. -/
noncomputable def SVR.report {n : ℕ} (p : SVR n) (NA EPS T rho : ℝ) (x : List ℝ) : Outcome (SVRReport n) :=
  if h : x.length = n then
    (finLoop fun i => p.dii EPS i T).bind fun d =>
    let xv : Fin n → ℝ := fun i => x.get (i.cast h.symm)
    let r := p.rhos NA rho xv
    let z := p.zetaX d xv r
    let zb := p.zetaBar xv r
    if p.Fine d T r xv then .ok {
      dmat := SVR.dIJ d
      rhos := r
      rhoN := rho * NA
      mbar := p.mbar xv
      xs := p.xs xv
      zeta := fun l => p.D d xv l * r
      zetaX := z
      zetaBar := zb
      mono := p.mono d T r xv
      a1 := p.pairSum xv fun i j => (p.pair i j).a1 (SVR.dIJ d i j) z r
      a2 := p.pairSum xv fun i j => (p.pair i j).a2 (SVR.dIJ d i j) z zb r
      a3 := p.pairSum xv fun i j => (p.pair i j).a3 zb
      chain := p.chain d T r xv }
    else .nonFinite
  else .throws .invalidArgument

end Teqp.Model
