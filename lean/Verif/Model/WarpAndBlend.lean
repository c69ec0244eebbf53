import Verif.Model.Quadrature
import Verif.Model.Curvilinear
/-!
# Model of `src/basis/WarpAndBlend.cpp`, `WarpAndBlend.h`, `GaussLegendre.cpp` and of
`LegendreGaussLobattoPoints` in `src/basis/Nodal.cpp`

Exact real arithmetic in place of `double`; Eigen's QR solve is multiplication by the inverse.  The
matrices with one row per node are modelled row by row.
-/
namespace Tandem.WarpAndBlend
open Functions RefElement Quadrature Curvilinear Equidistant
noncomputable section

/-- `LegendreGaussLobattoPoints`, src/basis/Nodal.cpp lines 18-28. -/
def gllPoints (n a b : ℕ) : List ℝ :=
  -1 :: (gaussJacobi (n - 2) (a + 1) (b + 1)).points.reverse ++ [1]

/-- `std::numeric_limits<double>::epsilon()`, used in src/basis/WarpAndBlend.cpp lines 161 and 216. -/
def epsilon : ℝ := (2 ^ 52)⁻¹

/-- The first table of `warpAndBlendAlpha`, src/basis/WarpAndBlend.cpp lines 28-31. -/
def alphaOpt2 : List ℝ :=
  [0.0000,  0.0000,  1.4152,  0.1001,  0.2751,  0.9800,  1.0999,  1.2832,  1.3648,  1.4773,
   1.4959,  1.5743,  1.5770,  1.6223,  1.6258,  1.64831, 1.76303, 1.92727, 1.92962, 1.91251,
   1.91289, 1.89479, 1.89255, 1.88016, 1.87555, 1.86613, 1.86106, 1.85368, 1.84874, 1.84319]

/-- The second table of `warpAndBlendAlpha`, src/basis/WarpAndBlend.cpp lines 33-35. -/
def alphaOpt3 : List ℝ :=
  [0.0,    0.0,      0.0,      0.1002,   1.1332,  1.5608, 1.3413,
   1.2577, 1.1603,   1.10153,  0.6080,   0.4523,  0.8856, 0.8717,
   0.9655, 0.982344, 0.827846, 0.700081, 0.725887]

/-- `warpAndBlendAlpha`, src/basis/WarpAndBlend.cpp lines 25-43. -/
def alphaTable (D degree : ℕ) : ℝ :=
  let tab := if D = 2 then alphaOpt2 else alphaOpt3
  if degree ≤ tab.length then tab.getD (degree - 1) 0 else 5.0 / 3.0

/-- `eqPoints[i]`, src/basis/WarpAndBlend.cpp line 189. -/
def eqPoint (N i : ℕ) : ℝ := 2 * i / N - 1

/-- `vandermondeT`, src/basis/WarpAndBlend.cpp lines 191-196. -/
def vandT (N : ℕ) : Matrix (Fin (N + 1)) (Fin (N + 1)) ℝ :=
  Matrix.of fun j i => jacobiP j 0 0 (eqPoint N i)

/-- `diff[i]`, src/basis/WarpAndBlend.cpp lines 198-201. -/
def diff (N i : ℕ) : ℝ := (gllPoints (N + 1) 0 0).getD i 0 - eqPoint N i

/-- `warp` before the division, src/basis/WarpAndBlend.cpp lines 206-213, for one point. -/
def warpRaw (N : ℕ) (r : ℝ) : ℝ :=
  let L := Matrix.mulVec (vandT N)⁻¹ fun i => jacobiP i 0 0 r
  ∑ i : Fin (N + 1), L i * diff N i

/-- `Warpfactor::operator()`, src/basis/WarpAndBlend.cpp lines 204-221, for one point. -/
def warpfactor (N : ℕ) (r : ℝ) : ℝ :=
  if |r| < 1 - epsilon then warpRaw N r / (1 - r * r) else warpRaw N r

/-- `equilateralTriangle`, src/basis/WarpAndBlend.h lines 58-60. -/
def equiTri : Fin 3 → Fin 2 → ℝ :=
  ![![-1, -1 / Real.sqrt 3], ![1, -1 / Real.sqrt 3], ![0, 2 / Real.sqrt 3]]

/-- `equilateralTetrahedron`, src/basis/WarpAndBlend.h lines 62-67. -/
def equiTet : Fin 4 → Fin 3 → ℝ :=
  ![![-1, -1 / Real.sqrt 3, -1 / Real.sqrt 6], ![1, -1 / Real.sqrt 3, -1 / Real.sqrt 6],
    ![0, 2 / Real.sqrt 3, -1 / Real.sqrt 6], ![0, 0, 3 / Real.sqrt 6]]

/-- `normalize`, src/geometry/Vector.h lines 59-62. -/
def normalize {D : ℕ} (x : Fin D → ℝ) : Fin D → ℝ := (1 / Curvilinear.norm x) • x

/-- The loop body of `warpAndBlendTriangle` for facet `f`, src/basis/WarpAndBlend.cpp lines 234-246
(facets and missing vertices as in `Curvilinear.f2v`, `missing`: C58). -/
def triFacet (degree : ℕ) (alpha : ℝ) (L : Fin 3 → ℝ) (f : Fin 3) : Fin 2 → ℝ :=
  let f0 := f2v (D := 1) f 0
  let f1 := f2v (D := 1) f 1
  let mv := missing (D := 1) f
  let warp := warpfactor degree (L f1 - L f0)
  let blend := 4 * (L f0 * L f1) * (1 + alpha * alpha * (L mv * L mv))
  let tangent := normalize (equiTri f1 - equiTri f0)
  (warp * blend) • tangent

/-- `warpAndBlendTriangle`, src/basis/WarpAndBlend.cpp lines 223-250, for one row of `L`. -/
def warpTri (degree : ℕ) (alpha : ℝ) (L : Fin 3 → ℝ) : Fin 2 → ℝ :=
  (List.finRange 3).foldl (fun result f => result + triFacet degree alpha L f) 0

/-- The row of `L` for the tuple `i`: src/basis/WarpAndBlend.cpp lines 77-82 and 117-123. -/
def rowL {D : ℕ} (degree : ℕ) (i : Fin D → ℕ) : Fin (D + 1) → ℝ :=
  Fin.cons (1 - ∑ d, (i d : ℝ) / degree) fun d => (i d : ℝ) / degree

/-- `WarpAndBlendFactory<1>::operator()`, src/basis/WarpAndBlend.cpp lines 45-65. -/
def nodes1 (degree : ℕ) : List (Fin 1 → ℝ) :=
  let result : List ℝ := if 0 < degree then gllPoints (degree + 1) 0 0 else [0]
  result.map fun x => generalToRef (D := 1) ![![-1], ![1]] ![x]

/-- `WarpAndBlendFactory<2>::operator()`, src/basis/WarpAndBlend.cpp lines 67-101; `alpha` is the value
of `alphaFun`. -/
def nodes2 (degree : ℕ) (alpha : ℝ) : List (Fin 2 → ℝ) :=
  let result : List (Fin 2 → ℝ) :=
    if 0 < degree then
      (indices 2 degree).map fun i =>
        (∑ k, rowL degree i k • equiTri k) + warpTri degree alpha (rowL degree i)
    else [0]
  result.map fun x => generalToRef (D := 2) equiTri x

/-- The tangents of facet `f`, src/basis/WarpAndBlend.cpp lines 135-139. -/
def tangents (f : Fin 4) : Fin 2 → Fin 3 → ℝ :=
  ![normalized (equiTet (f2v (D := 2) f 1) - equiTet (f2v (D := 2) f 0)),
    normalized (equiTet (f2v (D := 2) f 2)
      - (0.5 : ℝ) • (equiTet (f2v (D := 2) f 1) + equiTet (f2v (D := 2) f 0)))]

/-- The loop body of the tetrahedron for facet `f` and one node, src/basis/WarpAndBlend.cpp
lines 134-171. -/
def tetFacet (degree : ℕ) (alpha : ℝ) (L : Fin 4 → ℝ) (result : Fin 3 → ℝ) (f : Fin 4) :
    Fin 3 → ℝ :=
  let Lface : Fin 3 → ℝ := fun k => L (f2v (D := 2) f k)
  let w := warpTri degree alpha Lface
  let warp := w 0 • tangents f 0 + w 1 • tangents f 1
  let Lm := L (missing (D := 2) f)
  let blend0 := Lface 0 * Lface 1 * Lface 2
  let denom := (Lface 0 + 0.5 * Lm) * (Lface 1 + 0.5 * Lm) * (Lface 2 + 0.5 * Lm)
  let factor := 1 + alpha * alpha * (Lm * Lm)
  let blend := if |denom| < epsilon then 1 else factor * blend0 / denom
  let mask : ℝ := if |denom| < epsilon then 0 else 1
  mask • result + blend • warp

/-- `WarpAndBlendFactory<3>::operator()`, src/basis/WarpAndBlend.cpp lines 103-184; `alpha` is the value
of `alphaFun`. -/
def nodes3 (degree : ℕ) (alpha : ℝ) : List (Fin 3 → ℝ) :=
  let result : List (Fin 3 → ℝ) :=
    if 0 < degree then
      (indices 3 degree).map fun i =>
        (List.finRange 4).foldl (tetFacet degree alpha (rowL degree i)) 0
          + ∑ k, rowL degree i k • equiTet k
    else [0]
  result.map fun x => generalToRef (D := 3) equiTet x

/-- `GaussLegendreFactory::operator()`, src/basis/GaussLegendre.cpp lines 10-24. -/
def gaussLegendreNodes (degree : ℕ) : List (Fin 1 → ℝ) :=
  (gaussJacobi (degree + 1) 0 0).points.map fun x => generalToRef (D := 1) ![![-1], ![1]] ![x]

end
end Tandem.WarpAndBlend
