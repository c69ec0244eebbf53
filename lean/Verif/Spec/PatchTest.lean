import Verif.Spec.Construct
import Mathlib.Algebra.MvPolynomial.PDeriv
/-! # Specification of piecewise polynomial solutions of boundary value problems (C101) -/
namespace Tandem.Spec
open MvPolynomial

/-- The point of a simplex with vertices `vs` (numbers) and coordinates `x` of the vertices at the parameters `χ`: the parameters are the
weights of all vertices but the first. -/
def plexPoint {n m : ℕ} (x : ℕ → Fin n → ℝ) (vs : List ℕ) (χ : Fin m → ℝ) : Fin n → ℝ := fun i =>
  (1 - ∑ d, χ d) * x (vs.getD 0 0) i + ∑ d : Fin m, χ d * x (vs.getD (d + 1) 0) i

/-- `n` is perpendicular to the facet with the vertices `f`. -/
def PerpTo {n : ℕ} (x : ℕ → Fin n → ℝ) (f : List ℕ) (nrm : Fin n → ℝ) : Prop :=
  ∀ a ∈ f, ∀ b ∈ f, ∑ i, nrm i * (x a i - x b i) = 0

/-- `n` is the unit normal of the facet `f` of the element `e` that points out of the element. -/
def OuterUnit {n : ℕ} (x : ℕ → Fin n → ℝ) (e f : List ℕ) (nrm : Fin n → ℝ) : Prop :=
  PerpTo x f nrm ∧ ∑ i, nrm i * nrm i = 1 ∧ ∀ a ∈ e, a ∉ f → ∀ b ∈ f, ∑ i, nrm i * (x a i - x b i) < 0

/-- `- div (k grad U)` at a point, for constant `k`. -/
noncomputable def poissonForce {n : ℕ} (k : ℝ) (U : MvPolynomial (Fin n) ℝ) (y : Fin n → ℝ) : ℝ :=
  - ∑ i, eval y (pderiv i (C k * pderiv i U))

/-- `k grad U · n` at a point. -/
noncomputable def poissonFlux {n : ℕ} (k : ℝ) (U : MvPolynomial (Fin n) ℝ) (nrm y : Fin n → ℝ) : ℝ :=
  ∑ i, nrm i * (k * eval y (pderiv i U))

/-- The stress `lam (div U) I + mu (grad U + (grad U)^T)` of a displacement, for constant `lam` and `mu`. -/
noncomputable def stress {n : ℕ} (lam mu : ℝ) (U : Fin n → MvPolynomial (Fin n) ℝ) (p i : Fin n) : MvPolynomial (Fin n) ℝ :=
  (if p = i then C lam * ∑ j, pderiv j (U j) else 0) + C mu * (pderiv i (U p) + pderiv p (U i))

/-- Component `p` of `- div stress` at a point. -/
noncomputable def elasticForce {n : ℕ} (lam mu : ℝ) (U : Fin n → MvPolynomial (Fin n) ℝ) (p : Fin n) (y : Fin n → ℝ) : ℝ :=
  - ∑ i, eval y (pderiv i (stress lam mu U p i))

/-- Component `p` of the traction at a point. -/
noncomputable def elasticTraction {n : ℕ} (lam mu : ℝ) (U : Fin n → MvPolynomial (Fin n) ℝ) (nrm : Fin n → ℝ) (p : Fin n) (y : Fin n → ℝ) : ℝ :=
  ∑ i, nrm i * eval y (stress lam mu U p i)

section
open Tandem.DGTopo (View facetInfo)
variable {D : ℕ}

/-- On the rank with view `v`, the polynomials `U` (one for each element) solve Poisson's equation with the data `dat` and the coefficient
`k` (a number for each region): in the elements, with the prescribed jumps and without jump of the flux on facets inside (slip on faults,
boundary condition 3; prescribed jump, 5), and with the prescribed values on the boundary (half of the slip on faults; 0 for the other
conditions) or without flux (natural boundary, 1).  All conditions are asked for at the points of the quadrature only. -/
structure PoissonSolution (v : View) (d : Domain (D + 1)) (o : Construct.Options D) (k : ℤ → ℝ)
    (dat : Poisson.Data o.volRule.points.length o.fctRule.points.length) (U : List ℕ → MvPolynomial (Fin (D + 1)) ℝ) : Prop where
  degree : ∀ e, (U e).totalDegree ≤ o.p
  force : ∀ u e, v.elems[u]? = some e → ∀ q : Fin o.volRule.points.length,
    dat.force u q = poissonForce (k (d.region e)) (U e) (plexPoint d.x e o.volRule.points[q])
  inside : ∀ i info f e0 e1, facetInfo v i = some info → v.facets[i]? = some f → v.elems[info.up0]? = some e0 → v.elems[info.up1]? = some e1 →
    info.up0 ≠ info.up1 → ∀ q : Fin o.fctRule.points.length,
      (eval (plexPoint d.x f o.fctRule.points[q]) (U e0) - eval (plexPoint d.x f o.fctRule.points[q]) (U e1) =
        if info.bc = 3 then dat.slip i false q else if info.bc = 5 then dat.dirichlet i false q else 0) ∧
      ∀ n, PerpTo d.x f n → poissonFlux (k (d.region e0)) (U e0) n (plexPoint d.x f o.fctRule.points[q]) =
        poissonFlux (k (d.region e1)) (U e1) n (plexPoint d.x f o.fctRule.points[q])
  boundary : ∀ i info f e, facetInfo v i = some info → v.facets[i]? = some f → v.elems[info.up0]? = some e → info.up0 = info.up1 →
    ∀ q : Fin o.fctRule.points.length,
      if info.bc = 1 then ∀ n, PerpTo d.x f n → poissonFlux (k (d.region e)) (U e) n (plexPoint d.x f o.fctRule.points[q]) = 0
      else eval (plexPoint d.x f o.fctRule.points[q]) (U e) =
        if info.bc = 3 then dat.slip i true q / 2 else if info.bc = 5 then dat.dirichlet i true q else 0

/-- The same for elasticity, with a displacement and a traction instead of a number and its flux; data that is not given counts as 0. -/
structure ElasticSolution (v : View) (d : Domain (D + 1)) (o : Construct.Options D) (lam mu : ℤ → ℝ)
    (dat : Elasticity.Data (D + 1) o.volRule.points.length o.fctRule.points.length)
    (U : List ℕ → Fin (D + 1) → MvPolynomial (Fin (D + 1)) ℝ) : Prop where
  degree : ∀ e p, (U e p).totalDegree ≤ o.p
  force : ∀ u e, v.elems[u]? = some e → ∀ p (q : Fin o.volRule.points.length),
    (dat.force.map fun F => F u p q).getD 0 = elasticForce (lam (d.region e)) (mu (d.region e)) (U e) p (plexPoint d.x e o.volRule.points[q])
  inside : ∀ i info f e0 e1, facetInfo v i = some info → v.facets[i]? = some f → v.elems[info.up0]? = some e0 → v.elems[info.up1]? = some e1 →
    info.up0 ≠ info.up1 → ∀ p (q : Fin o.fctRule.points.length),
      (eval (plexPoint d.x f o.fctRule.points[q]) (U e0 p) - eval (plexPoint d.x f o.fctRule.points[q]) (U e1 p) =
        if info.bc = 3 then (dat.slip.map fun s => s i false p q).getD 0
        else if info.bc = 5 then (dat.dirichlet.map fun g => g i false p q).getD 0 else 0) ∧
      ∀ n, PerpTo d.x f n → elasticTraction (lam (d.region e0)) (mu (d.region e0)) (U e0) n p (plexPoint d.x f o.fctRule.points[q]) =
        elasticTraction (lam (d.region e1)) (mu (d.region e1)) (U e1) n p (plexPoint d.x f o.fctRule.points[q])
  boundary : ∀ i info f e, facetInfo v i = some info → v.facets[i]? = some f → v.elems[info.up0]? = some e → info.up0 = info.up1 →
    ∀ p (q : Fin o.fctRule.points.length),
      if info.bc = 1 then ∀ n, PerpTo d.x f n → elasticTraction (lam (d.region e)) (mu (d.region e)) (U e) n p (plexPoint d.x f o.fctRule.points[q]) = 0
      else eval (plexPoint d.x f o.fctRule.points[q]) (U e p) =
        if info.bc = 3 then (dat.slip.map fun s => s i true p q).getD 0 / 2
        else if info.bc = 5 then (dat.dirichlet.map fun g => g i true p q).getD 0 else 0

/-- The data of Poisson's equation for one polynomial `U` on the whole domain and the constant coefficient `k`: its values on the boundary (twice
its values on faults on the boundary, because half of the slip is prescribed there), no jumps inside. -/
noncomputable def poissonPatchData (v : View) (d : Domain (D + 1)) (o : Construct.Options D) (k : ℝ) (U : MvPolynomial (Fin (D + 1)) ℝ) :
    Poisson.Data o.volRule.points.length o.fctRule.points.length where
  force u q := poissonForce k U (plexPoint d.x (v.elems.getD u []) o.volRule.points[q])
  slip i bnd q := if bnd then 2 * eval (plexPoint d.x (v.facets.getD i []) o.fctRule.points[q]) U else 0
  dirichlet i bnd q := if bnd then eval (plexPoint d.x (v.facets.getD i []) o.fctRule.points[q]) U else 0

/-- The same for elasticity. -/
noncomputable def elasticPatchData (v : View) (d : Domain (D + 1)) (o : Construct.Options D) (lam mu : ℝ) (U : Fin (D + 1) → MvPolynomial (Fin (D + 1)) ℝ) :
    Elasticity.Data (D + 1) o.volRule.points.length o.fctRule.points.length where
  force := some fun u p q => elasticForce lam mu U p (plexPoint d.x (v.elems.getD u []) o.volRule.points[q])
  slip := some fun i bnd p q => if bnd then 2 * eval (plexPoint d.x (v.facets.getD i []) o.fctRule.points[q]) (U p) else 0
  dirichlet := some fun i bnd p q => if bnd then eval (plexPoint d.x (v.facets.getD i []) o.fctRule.points[q]) (U p) else 0

/-- `f` is a facet on the boundary: the facet of one element only. -/
def OnBoundary (P : ℕ) (elems : ℕ → List (List ℕ)) (f : List ℕ) : Prop :=
  ∃ e, InElems P elems e ∧ IsFacet e f ∧ ∀ e', InElems P elems e' → IsFacet e' f → e' = e

end

end Tandem.Spec
