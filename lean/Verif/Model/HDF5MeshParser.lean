import Verif.Model.MeshBuilder
import Verif.Model.GMSHParser
/-!
# Model of `src/io/HDF5MeshParser.cpp`

The datasets of the file are given as the flat arrays that `readDataset` returns (lines 25-64); the
HDF5 library is not modelled.  Node numbers are naturals (a negative number in the file is an access
out of bounds in the builder).  `boundary` and `group` hold 32-bit numbers.
-/
namespace Tandem.HDF5MeshParser

/-- The datasets, src/io/HDF5MeshParser.cpp lines 68, 87, 95, 98; `none`: `readDataset` failed. -/
structure File where
  geometry : Option (List ℝ)
  connect : Option (List ℕ)
  boundary : Option (List ℕ)
  group : Option (List ℕ)

/-- Result of the parser: `false` with an error message, or the calls of the builder; `ub`: an access
out of bounds;
src/io/HDF5MeshParser.cpp lines 199-220. -/
inductive Res (α : Type) | fails | ub | ok (a : α)

/-- The first `n` tuples of `k` consecutive entries, src/io/HDF5MeshParser.cpp lines 75-82, 107-113. -/
def chunks {α : Type} (k : ℕ) (l : List α) : List (List α) :=
  (List.range (l.length / k)).map fun i => (l.drop (i * k)).take k

/-- `SVERT_SEISSOL`, src/io/HDF5MeshParser.cpp lines 123-124. -/
def svert : List (List ℕ) := [[0, 2, 1], [0, 1, 3], [1, 2, 3], [0, 3, 2]]

/-- `faceTag`, src/io/HDF5MeshParser.cpp line 156. -/
def faceTag (boundaryCondition face : ℕ) : ℕ := (boundaryCondition >>> (8 * face)) &&& 0xFF

/-- `faceNodes`, src/io/HDF5MeshParser.cpp lines 159-161. -/
def faceNodes (tet : List ℕ) (face : ℕ) : List ℕ := (svert.getD face []).map fun i => tet.getD i 0

/-- State of the loop: `seen`, `lowerDimensionalElements_`, `boundary_`;
src/io/HDF5MeshParser.cpp line 140, src/io/HDF5MeshParser.h lines 22, 25. -/
structure Faces where
  seen : List (List ℕ)
  elements : List (List ℕ)
  tags : List ℕ

/-- One face, src/io/HDF5MeshParser.cpp lines 153-173. -/
def addFace (s : Faces) (tet : List ℕ) (bc face : ℕ) : Faces :=
  let key := Simplex.sort (faceNodes tet face)
  if s.seen.contains key then s
  else ⟨key :: s.seen, s.elements ++ [faceNodes tet face], s.tags ++ [faceTag bc face]⟩

/-- The loops of `retrieveLowerDimensionalElements`, src/io/HDF5MeshParser.cpp lines 143-175, over the
elements with their entry of `boundaryData_`. -/
def retrieve : Faces → List (List ℕ × ℕ) → Faces
  | s, [] => s
  | s, (tet, bc) :: r => retrieve ((List.range 4).foldl (fun s face => addFace s tet bc face) s) r

/-- `addAllElements`, src/io/HDF5MeshParser.cpp lines 179-197: the calls of `addElement`; `none`:
`groupTags_[i]` is out of bounds. -/
def addAllElements (f : Faces) (tets : List (List ℕ)) (group : List ℕ) :
    Option (List MeshBuilder.FileElement) :=
  if group.length < tets.length then none
  else some (
    (List.zipWith (fun n (t : ℕ) => ⟨2, (t : ℤ), n.take (GMSHParser.numNodes.getD 1 0)⟩) f.elements f.tags)
    ++ List.zipWith (fun n (g : ℕ) => ⟨4, (g : ℤ), n.take (GMSHParser.numNodes.getD 3 0)⟩) tets group)

/-- `parseFile`, src/io/HDF5MeshParser.cpp lines 199-220, with `parseElements` (93-115), `parseNodes`
(66-84) and `readBoundaryData` (86-91): the vertices and the elements passed to the builder. -/
def parseFile (file : File) : Res (List (List ℝ) × List MeshBuilder.FileElement) :=
  match file.connect with
  | none => .fails
  | some connect =>
    let group := file.group.getD (List.replicate (connect.length / 4) 0)
    let tets := chunks 4 connect
    match file.geometry with
    | none => .fails
    | some geometry =>
      match file.boundary with
      | none => .fails
      | some boundary =>
        if boundary.length ≠ tets.length then .fails
        else
          match addAllElements (retrieve ⟨[], [], []⟩ (tets.zip boundary)) tets group with
          | none => .ub
          | some es => .ok (chunks 3 geometry, es)

end Tandem.HDF5MeshParser
