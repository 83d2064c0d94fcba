import Verif.Model.CPA
import Verif.Model.Dufal

/-! # The association report

`Association::get_assoc_calcs` (`/repo/include/teqp/models/association/association.hpp` lines 470-518),
`CPAAssociation::get_assoc_calcs` (`/repo/include/teqp/models/CPA.hpp` lines 210-227) and the wrapper that selects between them
(`CPA.hpp` lines 293-295).  Python reaches them for CPA, the generic SAFT model and the multi-fluid model with association
(`/repo/interface/pybind11_wrapper.cpp` lines 305-322). -/

set_option autoImplicit false

namespace Teqp.Model
open Finset

/-- The JSON document of `Association::get_assoc_calcs`, `association.hpp` lines 506-515, without the note. -/
structure AssocReport where
  compSites : List (ℕ × String)
  siteids : List ((ℕ × String) × ℕ)
  counts : List ℕ
  D : List (List ℕ)
  Delta : List (List ℝ)
  XA : List ℝ
  mask : List Bool

/-- The fields of the report from the strengths and the fractions, `association.hpp` lines 481-515; the maps of
`make_mapper` (lines 100-101) are lists here. -/
noncomputable def mkAssocReport (o : AssocOptions) (sites : List AssocSite) (D : List (List ℕ)) (Δ : ℕ → ℕ → ℝ)
    (X : Fin sites.length → ℝ) : AssocReport where
  compSites := sites.map fun s => (s.comp, s.name)
  siteids := sites.zipIdx.map fun p => ((p.1.comp, p.1.name), p.2)
  counts := sites.map AssocSite.count
  D := D
  Delta := sites.map fun s => sites.map fun t => Δ s.comp t.comp
  XA := List.ofFn X
  mask := o.mask

/-- `Association::get_assoc_calcs` for the CR1 rule: unlike `alphar` the size of the composition is not checked, so
`get_Delta` comes first. -/
noncomputable def AssocModel.report (a : AssocModel) (R NA T rho : ℝ) (x : List ℝ) : Outcome AssocReport :=
  (getDelta R NA T rho x a.data a.sites).bind fun Δ =>
  (a.fractions R NA T rho x (List.replicate a.sites.length 1)).bind fun X =>
  .ok (mkAssocReport a.opts a.sites a.D Δ X)

open Classical in
/-- `Association::get_assoc_calcs` for the Dufal rule; the mole fraction of each site's component is read in
`successive_substitution`, `association.hpp` lines 383-386. -/
noncomputable def DufalModel.report (a : DufalModel) (NA T rho : ℝ) (x : List ℝ) : Outcome AssocReport :=
  (dufalDelta NA T rho x a.data a.sites).bind fun Δ =>
  if ∃ s ∈ a.sites, x.length ≤ s.comp then .ub
  else (a.fractions NA T rho x).bind fun X => .ok (mkAssocReport a.opts a.sites a.D Δ X)

/-- The JSON document of `CPAAssociation::get_assoc_calcs`, `CPA.hpp` lines 222-226, without the note. -/
structure CPAReport where
  bmix : ℝ
  XA : List ℝ

/-- `CPAAssociation::get_assoc_calcs`, `CPA.hpp` lines 210-227. -/
noncomputable def CPAAssoc.report (a : CPAAssoc) (T rho : ℝ) (x : List ℝ) : Outcome CPAReport :=
  if a.b.length ≠ x.length then .ub
  else
    let b := ∑ i ∈ range x.length, a.b.getD i 0 * x.getD i 0
    match a.classes[0]?, a.eps[0]?, a.beta[0]?, a.nSites[0]? with
    | some c, some e, some be, some N =>
      (xaPure N c a.dist e be b (a.R * T) rho).bind fun XA => .ok ⟨b, XA⟩
    | _, _, _, _ => .ub

/-- `AssociationVariantWrapper::get_assoc_calcs`, `CPA.hpp` lines 293-295. -/
noncomputable def CPAAssocVariant.report (R0 NA : ℝ) (v : CPAAssocVariant) (T rho : ℝ) (x : List ℝ) :
    Outcome (CPAReport ⊕ AssocReport) :=
  match v with
  | .old a => (a.report T rho x).bind fun r => .ok (.inl r)
  | .new a => (a.report R0 NA T rho x).bind fun r => .ok (.inr r)

end Teqp.Model
