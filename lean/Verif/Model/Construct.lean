import Verif.Model.Material
import Verif.Model.Cfl
import Verif.Model.ScatterPlan
/-!
# Model of the constructors of `DGOperator`, `Poisson` and `Elasticity`

The tables of the reference element, the preparation of all elements and facets of a rank, the exchange of the volumes between the
ranks and the preparation of penalty and time step, put together from the functions modelled elsewhere.  `D + 1` is the dimension of
the domain.  Exact real arithmetic in place of `double`.  Arrays are lists; an access outside of an array gives 0.
-/
namespace Tandem.Construct
open RefElement Error CurvilinearBuild
open Tandem.DGTopo (View FacetInfo facetInfo)
open Tandem.Poisson (Method)

noncomputable section
variable {D : ℕ}

/-- What is fixed when the operators are constructed: `PolynomialDegree`, the rules `volRule` and `fctRule`
(src/form/DGCurvilinearCommon.cpp lines 15-16), the rule of the mass matrices of the reference elements, and the nodes of
`WarpAndBlendFactory` for `PolynomialDegree` (app/localoperator/Poisson.cpp lines 30-31, app/localoperator/Elasticity.cpp lines 30-31). -/
structure Options (D : ℕ) where
  p : ℕ
  volRule : Rule (D + 1)
  fctRule : Rule D
  massRule : Rule (D + 1)
  nodes : List (Fin (D + 1) → ℝ)
  method : Method

/-- `cl_->facetParam(f, fctRule.points())`, app/localoperator/Poisson.cpp line 44 and app/localoperator/Elasticity.cpp line 48. -/
def facetPoints (o : Options D) (l : ℕ) : List (Fin (D + 1) → ℝ) :=
  if h : l < D + 2 then o.fctRule.points.map (Curvilinear.facetParam ⟨l, h⟩) else []

/-- `matE_q_T[l]`, app/localoperator/Poisson.cpp line 49 and app/localoperator/Elasticity.cpp line 53. -/
def facetMatE (o : Options D) (l : ℕ) (q : Fin o.fctRule.points.length) (t : Fin (nbf (D + 1) o.p)) : ℝ :=
  (nodalBasis o.p o.nodes (facetPoints o l) (Equiv.swap 0 1)).val ![q.val, t.val]

/-- The tables of `Poisson`, app/localoperator/Poisson.cpp lines 35-57: `space_` is a modal element. -/
def poissonRef (o : Options D) :
    Poisson.Ref (D + 1) (nbf (D + 1) o.p) (nbf (D + 1) o.p) o.volRule.points.length o.fctRule.points.length :=
  ⟨fun k q => (modalBasis o.p o.volRule.points 1).val ![k.val, q.val],
   fun k e q => (modalGradient o.p o.volRule.points 1).val ![k.val, e.val, q.val],
   Material.matE o.p o.nodes o.volRule.points,
   fun q => o.volRule.weights.getD q.val 0,
   fun l k q => (modalBasis o.p (facetPoints o l) 1).val ![k.val, q.val],
   fun l k e q => (modalGradient o.p (facetPoints o l) 1).val ![k.val, e.val, q.val],
   facetMatE o,
   fun q => o.fctRule.weights.getD q.val 0,
   fun k l => modalInvMass o.p o.massRule k l⟩

/-- The tables of `Elasticity`, app/localoperator/Elasticity.cpp lines 37-65: `space_` is a nodal element. -/
def elasticityRef (o : Options D) :
    Elasticity.Ref (D + 1) (nbf (D + 1) o.p) (nbf (D + 1) o.p) o.volRule.points.length o.fctRule.points.length :=
  ⟨fun k q => (nodalBasis o.p o.nodes o.volRule.points 1).val ![k.val, q.val],
   fun k e q => (nodalGradient o.p o.nodes o.volRule.points 1).val ![k.val, e.val, q.val],
   Material.matE o.p o.nodes o.volRule.points,
   fun q => o.volRule.weights.getD q.val 0,
   fun l k q => (nodalBasis o.p o.nodes (facetPoints o l) 1).val ![k.val, q.val],
   fun l k e q => (nodalGradient o.p o.nodes (facetPoints o l) 1).val ![k.val, e.val, q.val],
   facetMatE o,
   fun q => o.fctRule.weights.getD q.val 0,
   fun k l => nodalInvMass o.p o.nodes o.massRule k l⟩

/-- The part of `FacetInfo` that `prepare_bndskl` uses, src/form/DGCurvilinearCommon.cpp lines 78-100; `none`: a local number is out of
bounds. -/
def facetOf (i : FacetInfo) : Option (Facet D) :=
  if h : i.localNo0 < D + 2 ∧ i.localNo1 < D + 2 then some ⟨![i.up0, i.up1], ![⟨i.localNo0, h.1⟩, ⟨i.localNo1, h.2⟩]⟩ else none

/-- `vol` and `volume_` after the loop over all elements, src/form/DGOperator.h lines 62-67, with
src/form/DGCurvilinearCommon.cpp lines 28-60. -/
def prepareVolumes (o : Options D) (v : View) (b : Built (D + 1)) : List (VolData (D + 1)) :=
  (List.range v.elems.length).map (prepareVolume b.geo o.volRule)

/-- `fct` and `area_` after the loop over the local facets, src/form/DGOperator.h lines 68-81, with
src/form/DGCurvilinearCommon.cpp lines 62-101 (the same for facets inside and on the boundary, src/form/DGCurvilinearCommon.h lines
52-59). -/
def prepareFacets (o : Options D) (v : View) (b : Built (D + 1)) : Option (List (FctData (D + 1))) :=
  (List.range v.numLocalFacets).mapM fun f => do
    let info ← facetInfo v f
    let fc ← facetOf (D := D) info
    return prepareFacet b.geo o.fctRule fc

/-- `volume_` of rank `r` after `end_preparation`, src/form/DGOperator.h line 89 and src/form/DGCurvilinearCommon.cpp lines 103-107:
the owner of an element sends its volume.  `ranks` are views and geometries of all ranks, `plans` their element scatter plans, `buf` the
initial content of the receive buffer and `arrival` the order in which the messages arrive. -/
def volumes (o : Options D) (ranks : List (View × Built (D + 1))) (plans : List ScatterPlan.Plan) (r : ℕ) (buf : List ℝ)
    (arrival : List ScatterPlan.Block) : Option (List ℝ) :=
  ScatterPlan.simpleScatter 1 plans (ranks.map fun p => (prepareVolumes o p.1 p.2).map (·.volume)) r buf arrival

/-- What a rank has after the constructor of `DGOperator<Poisson>`, src/form/DGOperator.h lines 54-105 (the members of the local
operator that the operator functions use). -/
structure PoissonState (D : ℕ) (o : Options D) where
  op : Poisson.Op (D + 1) (nbf (D + 1) o.p) (nbf (D + 1) o.p) o.volRule.points.length o.fctRule.points.length
  area : ℕ → ℝ
  volume : ℕ → ℝ

/-- Constructor of `DGOperator<Poisson>` on rank `r`, src/form/DGOperator.h lines 54-105: `K` is the function of the user, `volume` the
result of the exchange.  `none`: a tag, facet or local number is out of bounds. -/
def poisson (o : Options D) (K : (Fin (D + 1) → ℝ) → ℤ → Fin 1 → ℝ) (v : View) (b : Built (D + 1)) (volume : List ℝ) :
    Option (PoissonState D o) := do
  let vol := prepareVolumes o v b
  let material ← Material.prepareAll v.elems.length (Material.poisson b o.volRule o.p o.nodes K)
  let fct ← prepareFacets o v b
  let area := fun f => (fct[f]?).elim 0 (·.area)
  let volumeAt := fun u => volume.getD u 0
  let KAt := fun u => material.getD u 0
  let penalty ← (List.range v.numLocalFacets).mapM fun f => do
    let info ← facetInfo v f
    return Poisson.preparePenalty (D + 1) (o.p - 1) area volumeAt KAt f info
  return ⟨⟨poissonRef o, o.method, fun u q => (vol[u]?).elim 0 (·.absDetJ q.val), fun u i j q => (vol[u]?).elim 0 (·.jInv q.val i j), KAt,
    fun f s i j q => (fct[f]?).elim 0 fun d => if s = 0 then d.jInv0 q.val i j else d.jInv1 q.val i j,
    fun f i q => (fct[f]?).elim 0 (·.normal q.val i), fun f => penalty.getD f 0⟩, area, volumeAt⟩

/-- What a rank has after the constructor of `DGOperator<Elasticity>`, src/form/DGOperator.h lines 54-105; `dts` is `cfl_dt_`. -/
structure ElasticityState (D : ℕ) (o : Options D) where
  op : Elasticity.Op (D + 1) (nbf (D + 1) o.p) (nbf (D + 1) o.p) o.volRule.points.length o.fctRule.points.length
  area : ℕ → ℝ
  volume : ℕ → ℝ
  dts : List ℝ

/-- Constructor of `DGOperator<Elasticity>` on rank `r`, src/form/DGOperator.h lines 54-105 with `prepare_cfl` (lines 99-104); `none`: a
tag, facet, local number or the degree in the table of `grad_constant` is out of bounds. -/
def elasticity (o : Options D) (lam mu : (Fin (D + 1) → ℝ) → ℤ → Fin 1 → ℝ) (rho : Option ((Fin (D + 1) → ℝ) → ℤ → Fin 1 → ℝ))
    (v : View) (b : Built (D + 1)) (volume : List ℝ) : Option (ElasticityState D o) := do
  let vol := prepareVolumes o v b
  let material ← Material.prepareAll v.elems.length (Material.elasticity b o.volRule o.p o.nodes lam mu rho)
  let fct ← prepareFacets o v b
  let area := fun f => (fct[f]?).elim 0 (·.area)
  let volumeAt := fun u => volume.getD u 0
  let lamAt := fun u => (material.getD u 0).1
  let muAt := fun u => (material.getD u 0).2.1
  let rhoInvAt := fun u => (material.getD u 0).2.2
  let penalty ← (List.range v.numLocalFacets).mapM fun f => do
    let info ← facetInfo v f
    return Elasticity.preparePenalty (D + 1) (o.p - 1) area volumeAt lamAt muAt f info
  let op : Elasticity.Op (D + 1) (nbf (D + 1) o.p) (nbf (D + 1) o.p) o.volRule.points.length o.fctRule.points.length :=
    ⟨elasticityRef o, o.method, fun u q => (vol[u]?).elim 0 (·.absDetJ q.val), fun u i j q => (vol[u]?).elim 0 (·.jInv q.val i j),
    lamAt, muAt, rhoInvAt,
    fun f s i j q => (fct[f]?).elim 0 fun d => if s = 0 then d.jInv0 q.val i j else d.jInv1 q.val i j,
    fun f i q => (fct[f]?).elim 0 (·.normal q.val i), fun f => penalty.getD f 0⟩
  let C_N ← Cfl.gradConstant (D + 1) o.p
  let dts ← Cfl.prepareCfl v o.p C_N area volumeAt op
  return ⟨op, area, volumeAt, dts⟩

end
end Tandem.Construct
