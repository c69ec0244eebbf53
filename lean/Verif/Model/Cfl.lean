import Verif.Model.Elasticity
/-!
# Model of the time step bound of the fully dynamic solver

`prepare_cfl` (app/localoperator/Elasticity.cpp), `grad_constant` (src/form/InverseInequality.h), `local_cfl_time_step`
(src/form/DGOperator.h) and `cfl_time_step` (app/form/SeasFDOperator.cpp).  Exact arithmetic over ℝ in place of `double`.
-/
namespace Tandem.Cfl
open Tandem.DGTopo (SideInfo View neighbourInfo)
open Tandem.Elasticity (stiffnessBounds inverseDensityUpperBound Op)
open Tandem.Poisson (traceConstant)

/-- `C` of `InverseInequality<2>::grad_constant`, src/form/InverseInequality.h lines 51-53. -/
def gradTable2 : List ℚ := [0, 6, 22.5, 56.8879, 119.8047, 224.1195, 385.2210, 620.8674, 951.2557, 1399.0115, 1989.1818]

/-- `C` of `InverseInequality<3>::grad_constant`, src/form/InverseInequality.h lines 63-65. -/
def gradTable3 : List ℚ := [0, 10, 31.5, 73.7490, 148.4089, 269.5513, 452.0694, 717.7792, 1085.8205, 1587.8353, 2245.8720]

/-- `grad_constant`, src/form/InverseInequality.h lines 47-74; `none`: not declared for this dimension, or the exception (at
compile time) for `N > 10`. -/
noncomputable def gradConstant (D N : Nat) : Option ℝ :=
  match D with
  | 2 => gradTable2[N]?.map (fun c : ℚ => (c : ℝ))
  | 3 => gradTable3[N]?.map (fun c : ℚ => 4 * (c : ℝ))
  | _ => none

/-- One iteration of the loop of `prepare_cfl`, app/localoperator/Elasticity.cpp lines 298-307; the state is `l_max` and
`bnd_area`. -/
noncomputable def cflFacet (c_N : ℝ) (area volume penalty : Nat → ℝ) (elNo : Nat) (s : ℝ × ℝ) (info : SideInfo) : ℝ × ℝ :=
  let isSkeletonFace : Bool := elNo ≠ info.lid
  let gamma : ℝ := if isSkeletonFace then 2 else 1
  (s.1 + gamma * penalty info.fctNo * c_N * area info.fctNo / volume elNo, s.2 + area info.fctNo)

/-- `l_max` of `prepare_cfl`, app/localoperator/Elasticity.cpp lines 294-314: `p` is `PolynomialDegree`, `C_N` the value of
`grad_constant(PolynomialDegree)`, `info` the `NumFacets` neighbours of the element. -/
noncomputable def lMax {Nbm : Nat} (dim p : Nat) (C_N : ℝ) (area volume penalty : Nat → ℝ) (lam mu rhoInv : Fin Nbm → ℝ) (elNo : Nat)
    (info : List SideInfo) : ℝ :=
  let s := info.foldl (cflFacet (traceConstant dim p) area volume penalty elNo) (0, 0)
  let c := stiffnessBounds dim lam mu
  let ir1 := inverseDensityUpperBound rhoInv
  let h_1 := s.2 / volume elNo
  (s.1 + c.2 * ir1 * C_N * h_1 * h_1) * 2

/-- `cfl_dt_[elNo]`, app/localoperator/Elasticity.cpp line 314. -/
noncomputable def cflDt {Nbm : Nat} (dim p : Nat) (C_N : ℝ) (area volume penalty : Nat → ℝ) (lam mu rhoInv : Fin Nbm → ℝ) (elNo : Nat)
    (info : List SideInfo) : ℝ := 1 / √(lMax dim p C_N area volume penalty lam mu rhoInv elNo info)

/-- `prepare_cfl` for all own elements, src/form/DGOperator.h lines 99-104; `none`: a neighbour is not set. -/
noncomputable def prepareCfl {dim Nbf Nbm Nq nq : Nat} (v : View) (p : Nat) (C_N : ℝ) (area volume : Nat → ℝ) (o : Op dim Nbf Nbm Nq nq) : Option (List ℝ) := do
  let tbl ← neighbourInfo v (dim + 1)
  (List.range v.numLocal).mapM (fun u => do
    let row ← tbl[u]?
    let infos ← row.mapM id
    return cflDt dim p C_N area volume o.penalty_ (o.lam u) (o.mu u) (o.rhoInv u) u infos)

/-- `local_cfl_time_step`, src/form/DGOperator.h lines 262-270: `dmax` is the greatest `double`. -/
noncomputable def localStep (dmax : ℝ) (dts : List ℝ) : ℝ := dts.foldl min dmax

/-- `cfl_time_step`, app/form/SeasFDOperator.cpp lines 25-30: `MPI_Allreduce` with `MPI_MIN` over the ranks. -/
noncomputable def globalStep (locals : List ℝ) : Option ℝ :=
  match locals with
  | [] => none
  | d :: ds => some (ds.foldl min d)

end Tandem.Cfl
