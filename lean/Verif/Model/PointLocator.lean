import Verif.Model.SimplexDistance
/-!
# Model of `src/geometry/PointLocator.h` and `PointLocator.cpp`

Exact real arithmetic, except that the division by a zero initial residual follows IEEE 754.
`std::numeric_limits<double>::max()` is `big`, `std::numeric_limits<std::size_t>::max()` is `noNo`.
-/
namespace Tandem.PointLocator
open Curvilinear Matrix Equidistant

noncomputable section
variable {D : ℕ}

/-- What the locator needs of `Curvilinear<D>`: the element map and its Jacobian at one point
(src/geometry/Curvilinear.cpp lines 168-206), the reference nodes, as used in
src/geometry/PointLocator.h lines 45-50 and PointLocator.cpp lines 18-24, 57-62, 80-84. -/
structure Geometry (D : ℕ) where
  X : ℕ → (Fin D → ℝ) → Fin D → ℝ
  J : ℕ → (Fin D → ℝ) → Matrix (Fin D) (Fin D) ℝ
  refNodes : List (Fin D → ℝ)

/-- The parameters of the locator, src/geometry/PointLocator.h lines 30-31 and 84-85. -/
structure Params where
  atol : ℝ
  rtol : ℝ
  bboxFactor : ℝ
  maxIts : ℕ
  big : ℝ

/-- `std::numeric_limits<std::size_t>::max()`, src/geometry/PointLocator.h line 37. -/
def noNo : ℕ := 2 ^ 64 - 1

/-- The default parameters, src/geometry/PointLocator.h lines 30-31. -/
def defaults (big : ℝ) : Params := ⟨1e-10, 1e-9, 1.5, 100, big⟩

/-- One direction of the bounding box of an element, src/geometry/PointLocator.cpp lines 25-37. -/
def bbox (g : Geometry D) (q : Params) (el : ℕ) (d : Fin D) : ℝ × ℝ :=
  let lo := g.refNodes.foldl (fun b xi => min b (g.X el xi d)) q.big
  let hi := g.refNodes.foldl (fun b xi => max b (g.X el xi d)) (-q.big)
  let r := (hi - lo) / 2
  let mid := (hi + lo) / 2
  (mid - q.bboxFactor * r, mid + q.bboxFactor * r)

/-- `PointLocator<D>::inside_bbox`, src/geometry/PointLocator.cpp lines 41-49. -/
def insideBbox (g : Geometry D) (q : Params) (el : ℕ) (p : Fin D → ℝ) : Prop :=
  ∀ d, p d ≥ (bbox g q el d).1 ∧ p d ≤ (bbox g q el d).2

/-- The loops computing `residual2_0` and `residual2`, src/geometry/PointLocator.cpp lines 62-65 and
74-77 (assignments, not sums). -/
def residual2 (F : Fin D → ℝ) : ℝ := (List.finRange D).foldl (fun _ d => F d * F d) 0

/-- The stopping test `residual2 < atol_ + rtol_ * residual2 / residual2_0`,
src/geometry/PointLocator.cpp line 78; for `residual2_0 = 0` the quotient is an infinity or NaN. -/
def converged (q : Params) (r2 r20 : ℝ) : Prop :=
  if r20 = 0 then 0 < q.rtol * r2 else r2 < q.atol + q.rtol * r2 / r20

/-- The Newton iteration of `PointLocator<D>::xInv`, src/geometry/PointLocator.cpp lines 67-99; the first
argument is `max_its_ - it`; `none`: throws.  The LU solve is multiplication with the inverse. -/
def newton (g : Geometry D) (q : Params) (el : ℕ) (p : Fin D → ℝ) (r20 : ℝ) :
    ℕ → (Fin D → ℝ) → Option (Fin D → ℝ)
  | 0, _ => none
  | n + 1, xi =>
    let F := p - g.X el xi
    open Classical in
    if converged q (residual2 F) r20 then some xi
    else newton g q el p r20 n (xi + (g.J el xi)⁻¹ *ᵥ F)

/-- `PointLocator<D>::xInv`, src/geometry/PointLocator.cpp lines 51-101. -/
def xInv (g : Geometry D) (q : Params) (el : ℕ) (p : Fin D → ℝ) : Option (Fin D → ℝ) :=
  newton g q el p (residual2 (p - g.X el (fun _ => 1 / 3))) q.maxIts (fun _ => 1 / 3)

/-- `PointLocatorResult<D>`, src/geometry/PointLocator.h lines 18-23. -/
structure Result (D : ℕ) where
  no : ℕ
  dist : ℝ
  xi : Fin D → ℝ
  x : Fin D → ℝ

/-- One iteration of `PointLocator<D>::locate`, src/geometry/PointLocator.h lines 43-63. -/
def locateStep (g : Geometry D) (q : Params) (p : Fin D → ℝ) (r : Result D) (el : ℕ) :
    Option (Result D) :=
  open Classical in
  if insideBbox g q el p then do
    let xi ← xInv g q el p
    let c ← SimplexDistance.closest q.big (refVertices D) xi
    let x := g.X el c.xi
    let dist := norm (x - p)
    return if dist < r.dist then ⟨el, dist, c.xi, x⟩ else r
  else some r

/-- `PointLocator<D>::locate`, src/geometry/PointLocator.h lines 34-66, over the range `els`. -/
def locate (g : Geometry D) (q : Params) (p : Fin D → ℝ) (els : List ℕ) : Option (Result D) :=
  els.foldlM (locateStep g q p) ⟨noNo, q.big, fun _ => 0, fun _ => 0⟩

/-- `BoundaryPointLocatorResult<D>`, src/geometry/PointLocator.h lines 90-95, in `D + 1` dimensions. -/
structure BndResult (D : ℕ) where
  no : ℕ
  dist : ℝ
  chi : Fin D → ℝ
  x : Fin (D + 1) → ℝ

/-- One iteration of the loop of `BoundaryPointLocator<D>::locate`, src/geometry/PointLocator.cpp
lines 142-161; `closest_` is set up in lines 122-132. -/
def bndStep (g : Geometry (D + 1)) (q : Params) (p : Fin (D + 1) → ℝ) (el : ℕ) (xi : Fin (D + 1) → ℝ)
    (r : BndResult D) (b : ℕ × ℕ × Fin (D + 2)) : Option (BndResult D) := do
  let c ← SimplexDistance.closest q.big (fun i : Fin (D + 1) => refVertices (D + 1) (f2v b.2.2 i)) xi
  let chi : Fin D → ℝ := fun d => c.bary d.succ
  let x := g.X el (facetParam b.2.2 chi)
  let dist := norm (x - p)
  return if dist < r.dist then ⟨b.2.1, dist, chi, x⟩ else r

/-- `BoundaryPointLocator<D>::locate`, src/geometry/PointLocator.cpp lines 134-164.  `els` is the
iteration order of `elNos_` and `bnds` that of the multimap `bnds_` (entries `elNo, (fctNo,
localFaceNo)`); the loop runs from `bnds_.find(closest_elNo)` to `bnds_.end()`. -/
def bndLocate (g : Geometry (D + 1)) (q : Params) (p : Fin (D + 1) → ℝ) (els : List ℕ)
    (bnds : List (ℕ × ℕ × Fin (D + 2))) : Option (BndResult D) := do
  let c ← locate g q p els
  (bnds.dropWhile (fun b => b.1 ≠ c.no)).foldlM (bndStep g q p c.no c.xi)
    ⟨noNo, q.big, fun _ => 0, fun _ => 0⟩

end
end Tandem.PointLocator
