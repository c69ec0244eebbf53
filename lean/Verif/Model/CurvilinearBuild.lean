import Verif.Model.Error
import Verif.Model.Functions
/-!
# Model of the constructor of `Curvilinear<D>` and of `src/form/DGCurvilinearCommon.{h,cpp}`

Exact real arithmetic in place of `double`.  The arrays of `DGCurvilinearCommon` that have one entry per
quadrature point are functions of the number of the point.  The scatter of the volumes to the ghost
elements (DGCurvilinearCommon.cpp lines 103-107) is `SimpleScatter` (C11).
-/
namespace Tandem.CurvilinearBuild
open RefElement Error

noncomputable section
variable {D : ℕ}

/-- `ElementData`, src/mesh/MeshData.h lines 98-140: `nodes elNo k d` is `nodes_(d, k, elNo)`,
`perElement` is `nodes_.shape(1)`. -/
structure ElementNodes (D : ℕ) where
  conv : Equidistant.Convention
  perElement : ℕ
  nodes : ℕ → ℕ → Fin D → ℝ

/-- The input of the constructor, src/geometry/Curvilinear.cpp lines 32-33, as far as it is used:
`verts elNo` are the entries of the vertex data for the vertices `mesh.downward<0>(element)` (`none`: the
data of the vertices is no `VertexData`). -/
structure MeshIn (D : ℕ) where
  numElements : ℕ
  verts : Option (ℕ → Fin (D + 1) → Fin D → ℝ)
  tags : Option (List ℤ)
  elementData : Option (ElementNodes D)

/-- What the constructor stores: src/geometry/Curvilinear.h lines 85-100. -/
structure Built (D : ℕ) where
  geo : Geo D
  volumeTags : List ℤ
  meshSize : ℝ

/-- The point `vtx` of src/geometry/Curvilinear.cpp lines 91-102. -/
def curvedPoint (verts : Fin (D + 1) → Fin D → ℝ) (nodes : ℕ → Fin D → ℝ) (E : Ten 2) (j : ℕ) : Fin D → ℝ :=
  fun d => ∑ i : Fin (D + 1), verts i d * E.val ![i.val, j]
    + ∑ i ∈ Finset.Ico (D + 1) (E.shape 0), nodes (i - (D + 1)) d * E.val ![i, j]

/-- `eval_basis`, src/geometry/Curvilinear.cpp lines 59-74; `none`: throws. -/
def evalBasis (refNodes : List (Fin D → ℝ)) (e : ElementNodes D) : Option (Ten 2) :=
  match Functions.numNodesToDegree D (e.perElement + D + 1) (e.perElement + D + 2) with
  | some (some M) => some (nodalBasis M (Equidistant.nodes e.conv D M) refNodes 1)
  | _ => none

/-- Element `elNo`, node `j`: src/geometry/Curvilinear.cpp lines 87-112. -/
def position (transform : (Fin D → ℝ) → Fin D → ℝ) (refNodes : List (Fin D → ℝ))
    (verts : ℕ → Fin (D + 1) → Fin D → ℝ) (curved : Option (ElementNodes D × Ten 2)) (elNo j : ℕ) :
    Fin D → ℝ :=
  match curved with
  | some (e, E) => transform (curvedPoint (verts elNo) (e.nodes elNo) E j)
  | none => transform (Curvilinear.refToGeneral (verts elNo) (refNodes.getD j 0))

/-- The mesh size, src/geometry/Curvilinear.cpp lines 78, 115-123. -/
def meshSize (transform : (Fin D → ℝ) → Fin D → ℝ) (verts : ℕ → Fin (D + 1) → Fin D → ℝ) (n : ℕ) : ℝ :=
  (List.range n).foldl (fun h el =>
    (List.finRange (D + 1)).foldl (fun h i =>
      (List.finRange (D + 1)).foldl (fun h j =>
        max h (Curvilinear.norm (transform (verts el i) - transform (verts el j)))) h) h) 0

/-- Volume tags, src/geometry/Curvilinear.cpp lines 46-58. -/
def volumeTags (tags : Option (List ℤ)) (n : ℕ) : List ℤ :=
  match tags with
  | some t => t
  | none => List.replicate n (-1)

/-- Constructor of `Curvilinear<D>`, src/geometry/Curvilinear.cpp lines 31-124 (the reference normals,
lines 126-158, are `Curvilinear.refNormal`); `refNodes` are the nodes of the reference element of degree
`degree`; `none`: throws. -/
def build (m : MeshIn D) (transform : (Fin D → ℝ) → Fin D → ℝ) (degree : ℕ)
    (refNodes : List (Fin D → ℝ)) : Option (Built D) :=
  match m.verts, m.elementData with
  | none, _ => none
  | some verts, none =>
    some ⟨⟨degree, refNodes, position transform refNodes verts none⟩, volumeTags m.tags m.numElements,
      meshSize transform verts m.numElements⟩
  | some verts, some e =>
    match evalBasis refNodes e with
    | none => none
    | some E => some ⟨⟨degree, refNodes, position transform refNodes verts (some (e, E))⟩,
        volumeTags m.tags m.numElements, meshSize transform verts m.numElements⟩

/-- `getVolumeTag`, src/geometry/Curvilinear.cpp lines 167-172; `none`: out of bounds. -/
def getVolumeTag (b : Built D) (elNo : ℕ) : Option ℤ := b.volumeTags[elNo]?

/-- The entries of `vol[elNo]` and `volume_[elNo]`, src/form/DGCurvilinearCommon.h lines 148-181. -/
structure VolData (D : ℕ) where
  absDetJ : ℕ → ℝ
  jInv : ℕ → Matrix (Fin D) (Fin D) ℝ
  coords : ℕ → Fin D → ℝ
  volume : ℝ

/-- `prepare_volume`, src/form/DGCurvilinearCommon.cpp lines 40-60. -/
def prepareVolume (g : Geo D) (rule : Rule D) (elNo : ℕ) : VolData D :=
  let J := jacobian g elNo (geoGrad g rule.points)
  ⟨fun q => |(J q).det|, fun q => (J q)⁻¹, geoMap g elNo (geoBasis g rule.points),
    ∑ q ∈ Finset.range rule.points.length, rule.weights.getD q 0 * |(J q).det|⟩

/-- The part of `FacetInfo` used here, src/form/FacetInfo.h.
There: lines 19-25. -/
structure Facet (D : ℕ) where
  up : Fin 2 → ℕ
  localNo : Fin 2 → Fin (D + 2)

/-- The entries of `fct[fctNo]` and `area_[fctNo]`, src/form/DGCurvilinearCommon.h lines 155-181. -/
structure FctData (D : ℕ) where
  jInv0 : ℕ → Matrix (Fin D) (Fin D) ℝ
  jInv1 : ℕ → Matrix (Fin D) (Fin D) ℝ
  normal : ℕ → Fin D → ℝ
  unitNormal : ℕ → Fin D → ℝ
  normalLength : ℕ → ℝ
  coords : ℕ → Fin D → ℝ
  area : ℝ

/-- `prepare_bndskl`, src/form/DGCurvilinearCommon.cpp lines 62-101; the points of the facet are those of
lines 21-25. -/
def prepareFacet (g : Geo (D + 1)) (rule : Rule D) (info : Facet D) : FctData (D + 1) :=
  let points := fun s => rule.points.map (Curvilinear.facetParam (info.localNo s))
  let J0 := jacobian g (info.up 0) (geoGrad g (points 0))
  let J1 := jacobian g (info.up 1) (geoGrad g (points 1))
  let n := fun q => Curvilinear.normal (info.localNo 0) (J0 q)
  ⟨fun q => (J0 q)⁻¹, fun q => (J1 q)⁻¹, n, fun q => Curvilinear.normalized (n q),
    fun q => Curvilinear.norm (n q), geoMap g (info.up 0) (geoBasis g (points 0)),
    ∑ q ∈ Finset.range rule.points.length, rule.weights.getD q 0 * Curvilinear.norm (n q)⟩

/-- `make_volume_functional` without region, src/form/DGCurvilinearCommon.h lines 63-75: entry `(p, q)`. -/
def volumeFunctional {Q : ℕ} (fun_ : (Fin D → ℝ) → Fin Q → ℝ) (v : VolData D) (p : Fin Q) (q : ℕ) : ℝ :=
  fun_ (v.coords q) p

/-- `make_volume_functional` with region, src/form/DGCurvilinearCommon.h lines 77-91: entry `(p, q)`;
`none`: the tag is out of bounds. -/
def volumeFunctionalRegion {Q : ℕ} (fun_ : (Fin D → ℝ) → ℤ → Fin Q → ℝ) (b : Built D) (v : VolData D)
    (elNo : ℕ) (p : Fin Q) (q : ℕ) : Option ℝ :=
  (getVolumeTag b elNo).map fun tag => fun_ (v.coords q) tag p

/-- `make_facet_functional` without reference normal, src/form/DGCurvilinearCommon.h lines 93-105. -/
def facetFunctional {Q : ℕ} (fun_ : (Fin D → ℝ) → Fin Q → ℝ) (v : FctData D) (p : Fin Q) (q : ℕ) : ℝ :=
  fun_ (v.coords q) p

/-- `make_facet_functional` with reference normal, src/form/DGCurvilinearCommon.h lines 106-126. -/
def facetFunctionalRef {Q : ℕ} (fun_ : (Fin D → ℝ) → Fin Q → ℝ) (refNormal : Fin D → ℝ) (v : FctData D)
    (isBoundary : Bool) (p : Fin Q) (q : ℕ) : ℝ :=
  if !isBoundary && decide (Curvilinear.dot refNormal (v.normal q) < 0) then -1 * fun_ (v.coords q) p
  else fun_ (v.coords q) p

end
end Tandem.CurvilinearBuild
