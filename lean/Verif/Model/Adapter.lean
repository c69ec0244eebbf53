import Verif.Model.Curvilinear
import Verif.Model.Poisson
/-!
# Model of `app/localoperator/AdapterBase.cpp`, `PoissonAdapter.cpp`, `ElasticityAdapter.cpp`,
`app/form/AdapterOperator.h` and their kernels

The adapter translates between the unknowns of the fault (slip and traction in the coordinates of the
fault) and the boundary data of the volume problem.  Exact real arithmetic; `inverse` is the inverse of
a matrix.  The generated kernels are the sums written in `app/kernels/*_adapter.py`.
-/
namespace Tandem.Adapter
open Curvilinear Matrix

noncomputable section
variable {D nq nbf : ℕ}

/-- One entry of `fault_` (all quadrature points of a fault facet), app/localoperator/AdapterBase.h
lines 59-80; `basis q o` is column `o` of `fault_basis_q` at point `q`. -/
structure Fault (D nq : ℕ) where
  flipped : Fin nq → Bool
  normal : Fin nq → Fin D → ℝ
  nl : Fin nq → ℝ
  basis : Fin nq → Fin D → Fin D → ℝ

/-- The loop over the quadrature points in `AdapterBase::prepare`,
app/localoperator/AdapterBase.cpp lines 62-75, at one point: `n` is the normal of element 0; `none`:
throws. -/
def orient (tol : ℝ) (refNormal n : Fin D → ℝ) : Option (Bool × (Fin D → ℝ)) :=
  let c := dot refNormal n
  if |c| < tol then none
  else if c < 0 then some (true, -n) else some (false, n)

/-- `AdapterBase::prepare` at one quadrature point, app/localoperator/AdapterBase.cpp lines 62-85:
whether the sign is flipped, normal, length and fault basis.  `facetBasis` is `Curvilinear::facetBasis`
for the given `up`. -/
def preparePoint (tol : ℝ) (facetBasis : (Fin D → ℝ) → Option (Fin D → Fin D → ℝ))
    (refNormal n : Fin D → ℝ) : Option (Bool × (Fin D → ℝ) × ℝ × (Fin D → Fin D → ℝ)) := do
  let (fl, n') ← orient tol refNormal n
  let b ← facetBasis n'
  some (fl, n', norm n, if fl then fun o p => b o p * (-1) else b)

/-- `AdapterBase::prepare`, app/localoperator/AdapterBase.cpp lines 44-85: all points; `none`: throws at
some point. -/
def prepare (tol : ℝ) (facetBasis : (Fin D → ℝ) → Option (Fin D → Fin D → ℝ))
    (refNormal : Fin D → ℝ) (n : Fin nq → Fin D → ℝ) : Option (Fault D nq) :=
  if h : ∀ q, (preparePoint tol facetBasis refNormal (n q)).isSome then
    let r := fun q => (preparePoint tol facetBasis refNormal (n q)).get (h q)
    some ⟨fun q => (r q).1, fun q => (r q).2.1, fun q => (r q).2.2.1, fun q => (r q).2.2.2⟩
  else none

/-- `m`, app/localoperator/AdapterBase.cpp lines 87-95. -/
def mass (w nl : Fin nq → ℝ) (e_q : Fin nbf → Fin nq → ℝ) : Matrix (Fin nbf) (Fin nbf) ℝ :=
  Matrix.of fun i j => ∑ q, w q * nl q * e_q i q * e_q j q

/-- `MInv`, app/localoperator/AdapterBase.cpp line 96. -/
def massInv (w nl : Fin nq → ℝ) (e_q : Fin nbf → Fin nq → ℝ) : Matrix (Fin nbf) (Fin nbf) ℝ :=
  (mass w nl e_q)⁻¹

/-! ## Elasticity -/

/-- `copy_slip`, app/kernels/elasticity_adapter.py lines 14-17. -/
def copySlip (n : Fin D) (o : Fin (D + 1)) : ℝ := if o.val = n.val + 1 then 1 else 0

/-- `Adapter<Elasticity>::slip`, app/localoperator/ElasticityAdapter.cpp lines 36-49, kernel
`evaluate_slip`, app/kernels/elasticity_adapter.py lines 21-23. -/
def elSlip (ft : Fault (D + 1) nq) (e_q : Fin nbf → Fin nq → ℝ) (slip : Fin nbf → Fin D → ℝ) :
    Fin (D + 1) → Fin nq → ℝ := fun p q =>
  ∑ l, ∑ o, ∑ n, e_q l q * ft.basis q o p * slip l n * copySlip n o

/-- `Adapter<Elasticity>::traction`, app/localoperator/ElasticityAdapter.cpp lines 19-34, kernel
`evaluate_traction`, app/kernels/elasticity_adapter.py lines 27-28; `e_q_T` is the transpose of `e_q`. -/
def elTraction (ft : Fault D nq) (w : Fin nq → ℝ) (e_q : Fin nbf → Fin nq → ℝ)
    (traction_q : Fin D → Fin nq → ℝ) : Fin nbf → Fin D → ℝ := fun k p =>
  ∑ l, ∑ q, ∑ o, massInv w ft.nl e_q l k * e_q l q * w q * ft.nl q * traction_q o q * ft.basis q p o

/-- `moment_rate`, app/localoperator/ElasticityAdapter.cpp lines 51-64 and PoissonAdapter.cpp lines
57-70, kernel `evaluate_moment_rate`, app/kernels/elasticity_adapter.py lines 33-35 and
poisson_adapter.py lines 23-25. -/
def momentRate (w nl : Fin nq → ℝ) (e_q : Fin nbf → Fin nq → ℝ) (slipRate : Fin nbf → Fin D → ℝ)
    (mu : Fin nq → ℝ) : Fin D → ℝ := fun p =>
  ∑ q, ∑ l, w q * e_q l q * slipRate l p * nl q * mu q

/-! ## Poisson -/

/-- `Adapter<Poisson>::slip`, app/localoperator/PoissonAdapter.cpp lines 36-55, kernel `evaluate_slip`,
app/kernels/poisson_adapter.py line 13. -/
def poSlip (ft : Fault D nq) (e_q : Fin nbf → Fin nq → ℝ) (slip : Fin nbf → ℝ) : Fin nq → ℝ := fun q =>
  let s := ∑ p, e_q p q * slip p
  if ft.flipped q then -s else s

/-- The second half of the block that `Adapter<Poisson>::traction` writes,
app/localoperator/PoissonAdapter.cpp lines 21-34, kernel `evaluate_traction`,
app/kernels/poisson_adapter.py lines 18-19. -/
def poTraction (ft : Fault D nq) (w : Fin nq → ℝ) (e_q : Fin nbf → Fin nq → ℝ)
    (grad_u : Fin D → Fin nq → ℝ) : Fin nbf → ℝ := fun p =>
  ∑ r, ∑ q, ∑ k, massInv w ft.nl e_q r p * e_q r q * w q * grad_u k q * ft.normal q k

/-- `Adapter<Poisson>::traction`, app/localoperator/PoissonAdapter.cpp lines 21-34: the block, its first
half is zero. -/
def poTractionBlock (ft : Fault D nq) (w : Fin nq → ℝ) (e_q : Fin nbf → Fin nq → ℝ)
    (grad_u : Fin D → Fin nq → ℝ) (i : ℕ) : ℝ :=
  if h : nbf ≤ i ∧ i - nbf < nbf then poTraction ft w e_q grad_u ⟨i - nbf, h.2⟩ else 0

/-- `AdapterOperator::compute_moment_rates`, app/form/AdapterOperator.h lines 82-98, the entries of one
fault facet: `block` is `slip_rates.subtensor(slice{}, faultNo)`, read as a matrix of `nbf` rows; the
last of the `D + 1` components is dropped. -/
def computeMomentRate (w nl : Fin nq → ℝ) (e_q : Fin nbf → Fin nq → ℝ) (block : ℕ → ℝ)
    (mu : Fin nq → ℝ) (i : Fin D) : ℝ :=
  momentRate (D := D + 1) w nl e_q (fun l p => block (l.val + p.val * nbf)) mu i.castSucc

/-- `Poisson::mu_avg`, app/localoperator/Poisson.cpp lines 723-736: entry `q` of the coefficients (the
arrays are read as far as `q < nq`, whatever the number of coefficients). -/
def poissonMuAvg (K0 K1 : ℕ → ℝ) (q : Fin nq) : ℝ := 0.5 * (K0 q + K1 q)

/-- `Elasticity::mu_avg`, app/localoperator/Elasticity.cpp lines 1020-1033: the precomputed values at the
points. -/
def elasticityMuAvg (mu0 mu1 : Fin nq → ℝ) (q : Fin nq) : ℝ := 0.5 * (mu0 q + mu1 q)

end
end Tandem.Adapter
