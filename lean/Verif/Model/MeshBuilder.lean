import Verif.Model.NodePermutation
import Verif.Model.Functions
import Verif.Model.Simplex
/-!
# Model of `src/io/GlobalSimplexMeshBuilder.cpp` and `.h`

One rank.  Node and vertex numbers are naturals (the GMSH parser passes only numbers `≥ 0`); matrices
are functions with their two extents; `ub` is an access out of bounds, or an assertion that only
debug builds check.
-/
namespace Tandem.MeshBuilder
open Equidistant

/-- `BC`, src/form/BC.h line 6. -/
inductive BC | None | Natural | Fault | Dirichlet
  deriving DecidableEq, Repr

/-- Outcome of a builder function: result, `std::runtime_error` (src/io/GlobalSimplexMeshBuilder.cpp
lines 52, 107, 120, 123), or undefined behaviour. -/
inductive Res (α : Type) | ok (a : α) | throws | ub

/-- `GMSHSimplexType<D>::types`, src/io/GlobalSimplexMeshBuilder.h lines 16-28. -/
def simplexTypes : ℕ → List ℤ
  | 0 => [15]
  | 1 => [1, 8, 26, 27, 28, 62, 63, 64, 65, 66]
  | 2 => [2, 9, 21, 23, 25, 42, 43, 44, 45, 46]
  | 3 => [4, 11, 29, 30, 31, 71, 72, 73, 74, 75]
  | _ => []

/-- `is_gmsh_simplex`, src/io/GlobalSimplexMeshBuilder.h lines 30-33. -/
def isSimplex (D : ℕ) (type : ℤ) : Bool := (simplexTypes D).contains type

/-- `is_lower_dimensional_gmsh_simplex`, src/io/GlobalSimplexMeshBuilder.h lines 35-46. -/
def isLower : ℕ → ℤ → Bool
  | 0, _ => false
  | D + 1, type => isSimplex D type || isLower D type

/-- The `switch` on the boundary tag, src/io/GlobalSimplexMeshBuilder.cpp lines 81-98; the flag says
that `unknownBC` is incremented. -/
def bcOfTag (tag : ℤ) : BC × Bool :=
  if tag = 0 then (.None, false)
  else if tag = 5 then (.Dirichlet, false)
  else if tag = 3 then (.Fault, false)
  else if tag = 1 then (.Natural, false)
  else (.None, true)

/-- Insertion of index `a` into a list of indices ordered by `key`; part of the model of `std::sort`
with a comparator, src/io/GlobalSimplexMeshBuilder.cpp lines 66-67. -/
def insertBy (key : ℕ → ℕ) (a : ℕ) : List ℕ → List ℕ
  | [] => [a]
  | b :: l => if key a < key b then a :: b :: l else b :: insertBy key a l

/-- The permutation `p` that sorts the vertices, src/io/GlobalSimplexMeshBuilder.cpp lines 64-67
(`std::sort`; unique if the vertices are distinct). -/
def argsort (elem : List ℕ) : List ℕ :=
  (List.range elem.length).reverse.foldr (fun a l => insertBy (fun i => elem.getD i 0) a l) []

/-- A permutation given as a list, as the argument of `node_permutation`; src/basis/Util.h line 42. -/
def toPerm (D : ℕ) (p : List ℕ) : Fin (D + 1) → Fin (D + 1) := fun k => Fin.ofNat (D + 1) (p.getD k 0)

noncomputable section

/-- The row of the table written for one permutation, src/io/GlobalSimplexMeshBuilder.cpp
lines 31-36: its column number and its entries; `none`: `P` does not exist. -/
def tableColumn (D : ℕ) (nodes : List (Fin D → ℝ)) (tol : ℝ) (p : List ℕ) : Option (ℕ × List ℕ) :=
  match Combinatorics.permutationToLehmer p, NodePermutation.nodePermutation nodes (toPerm D p) tol with
  | some L, some P => some (Combinatorics.lehmerToInteger L, P)
  | _, _ => none

/-- `preparePermutationTable`, src/io/GlobalSimplexMeshBuilder.cpp lines 20-38: the columns of the
table, as a function of the column number.  `std::next_permutation` visits all permutations; their
order does not matter, as their numbers are distinct.  `tol` is the default argument 1e-15.
`none`: an assertion fails. -/
def permutationTable (D numNodes fuel : ℕ) (tol : ℝ) : Option (ℕ → Option (List ℕ)) :=
  match Functions.numNodesToDegree D numNodes fuel with
  | some (some N) =>
    match (List.range (D + 1)).permutations.mapM (tableColumn D (nodes .GMSH D N) tol) with
    | none => none
    | some cols => some fun np => (cols.find? fun c => c.1 == np).map (·.2)
  | _ => none

/-- The matrix `high_order_nodes`, src/io/GlobalSimplexMeshBuilder.h line 57. -/
structure Matrix where
  rows : ℕ
  cols : ℕ
  get : ℕ → ℕ → ℕ

/-- Members of `GlobalSimplexMeshBuilder<D>`, src/io/GlobalSimplexMeshBuilder.h lines 51-62.
`capacity` is `elements.capacity()` as set by `reserve`. -/
structure Builder (D : ℕ) where
  vertices : List (Fin D → ℝ)
  elements : List (List ℕ)
  capacity : ℕ
  facets : List (List ℕ)
  volumeTags : List ℤ
  bcs : List BC
  highOrder : Matrix
  perms : ℕ → Option (List ℕ)
  ignoredElems : ℕ
  unknownBC : ℕ
  type_ : ℤ

/-- The builder after `setNumVertices`, `setVertex` for all vertices and `setNumElements`,
src/io/GlobalSimplexMeshBuilder.h lines 67-77. -/
def Builder.init {D : ℕ} (vertices : List (Fin D → ℝ)) (numElements : ℕ) : Builder D :=
  ⟨vertices, [], numElements, [], [], [], ⟨0, 0, fun _ _ => 0⟩, fun _ => none, 0, 0, 0⟩

/-- The loop that stores the high-order nodes of one element, src/io/GlobalSimplexMeshBuilder.cpp
lines 70-73. -/
def storeNodes (D : ℕ) (node col : List ℕ) (elNo : ℕ) : List ℕ → Matrix → Option Matrix
  | [], m => some m
  | i :: is, m =>
    match col[i]? with
    | none => none
    | some pi =>
      match node[pi]? with
      | none => none
      | some v =>
        if i - (D + 1) < m.rows ∧ elNo < m.cols then
          storeNodes D node col elNo is
            ⟨m.rows, m.cols, fun r c => if r = i - (D + 1) ∧ c = elNo then v else m.get r c⟩
        else none

/-- The first high-order element makes the table and the matrix,
src/io/GlobalSimplexMeshBuilder.cpp lines 60-63. -/
def prepare (D fuel : ℕ) (tol : ℝ) (b : Builder D) (numNodes : ℕ) : Option (Builder D) :=
  if b.highOrder.rows * b.highOrder.cols = 0 then
    match permutationTable D numNodes fuel tol with
    | none => none
    | some t => some ⟨b.vertices, b.elements, b.capacity, b.facets, b.volumeTags, b.bcs,
        ⟨numNodes - (D + 1), b.capacity, fun _ _ => 0⟩, t, b.ignoredElems, b.unknownBC, b.type_⟩
  else some b

/-- The part of `addElement` for high-order elements, src/io/GlobalSimplexMeshBuilder.cpp
lines 59-74.  `fuel` bounds the search for the degree. -/
def addHighOrder (D fuel : ℕ) (tol : ℝ) (b : Builder D) (node : List ℕ) : Res (Builder D) :=
  if node.length ≤ D + 1 then .ok b
  else
    match prepare D fuel tol b node.length with
    | none => .ub
    | some b =>
      match Combinatorics.permutationToLehmer (argsort (node.take (D + 1))) with
      | none => .ub
      | some L =>
        match b.perms (Combinatorics.lehmerToInteger L) with
        | none => .ub
        | some col =>
          match storeNodes D node col (b.elements.length - 1)
              (List.range' (D + 1) (node.length - (D + 1))) b.highOrder with
          | none => .ub
          | some m => .ok ⟨b.vertices, b.elements, b.capacity, b.facets, b.volumeTags, b.bcs, m,
              b.perms, b.ignoredElems, b.unknownBC, b.type_⟩

/-- `addElement`, src/io/GlobalSimplexMeshBuilder.cpp lines 40-110. -/
def addElement (D fuel : ℕ) (tol : ℝ) (b : Builder D) (type tag : ℤ) (node : List ℕ) :
    Res (Builder D) :=
  if isSimplex D type then
    let t := if b.type_ = 0 then type else b.type_
    if t ≠ type then .throws
    else if node.length < D + 1 then .ub
    else
      addHighOrder D fuel tol ⟨b.vertices, b.elements ++ [Simplex.mk (node.take (D + 1))], b.capacity,
        b.facets, b.volumeTags ++ [tag], b.bcs, b.highOrder, b.perms, b.ignoredElems, b.unknownBC, t⟩
        node
  else if isSimplex (D - 1) type then
    if node.length < D then .ub
    else
      let r := bcOfTag tag
      .ok ⟨b.vertices, b.elements, b.capacity, b.facets ++ [Simplex.mk (node.take D)], b.volumeTags,
        b.bcs ++ [r.1], b.highOrder, b.perms, b.ignoredElems,
        if r.2 then b.unknownBC + 1 else b.unknownBC, b.type_⟩
  else if isLower (D - 1) type then
    .ok ⟨b.vertices, b.elements, b.capacity, b.facets, b.volumeTags, b.bcs, b.highOrder, b.perms,
      b.ignoredElems + 1, b.unknownBC, b.type_⟩
  else .throws

/-- An element of the file: type, tag and nodes, as the parser passes them,
src/io/GMSHParser.cpp line 205. -/
structure FileElement where
  type : ℤ
  tag : ℤ
  nodes : List ℕ

/-- The calls of `addElement` for all elements of the file, src/io/GMSHParser.cpp lines 164-206. -/
def addAll (D fuel : ℕ) (tol : ℝ) : Builder D → List FileElement → Res (Builder D)
  | b, [] => .ok b
  | b, e :: es =>
    match addElement D fuel tol b e.type e.tag e.nodes with
    | .ok b' => addAll D fuel tol b' es
    | .throws => .throws
    | .ub => .ub

end

/-- The state of the renumbering loop: `map` and `new_id`, src/io/GlobalSimplexMeshBuilder.cpp
lines 145-147; `none` is `Invalid`. -/
structure Renum where
  map : ℕ → Option ℕ
  newId : ℕ

/-- One vertex of the loop, src/io/GlobalSimplexMeshBuilder.cpp lines 149-154: the new number. -/
def renumVertex (s : Renum) (e : ℕ) : ℕ × Renum :=
  match s.map e with
  | some i => (i, s)
  | none => (s.newId, ⟨fun x => if x = e then some s.newId else s.map x, s.newId + 1⟩)

/-- The vertices of one element, src/io/GlobalSimplexMeshBuilder.cpp lines 149-154. -/
def renumElement (s : Renum) : List ℕ → List ℕ × Renum
  | [] => ([], s)
  | e :: es =>
    let (i, s1) := renumVertex s e
    let (is, s2) := renumElement s1 es
    (i :: is, s2)

/-- The loop over the elements, src/io/GlobalSimplexMeshBuilder.cpp lines 148-155. -/
def renumElements (s : Renum) : List (List ℕ) → List (List ℕ) × Renum
  | [] => ([], s)
  | e :: es =>
    let (i, s1) := renumElement s e
    let (is, s2) := renumElements s1 es
    (i :: is, s2)

/-- The vertex data and simplices handed to the mesh, src/io/GlobalSimplexMeshBuilder.cpp
lines 126-190. -/
structure MeshData (D : ℕ) where
  elements : List (List ℕ)
  facets : List (List (Option ℕ))
  vertices : ℕ → Option (Fin D → ℝ)
  numVertices : ℕ
  /-- node `j` of element `k` -/
  highOrder : Option (ℕ → ℕ → Option (Fin D → ℝ))
  volumeTags : List ℤ
  bcs : List BC

/-- `new_vertices`, src/io/GlobalSimplexMeshBuilder.cpp lines 163-170: the loop over all old numbers
writes the vertex of old number `old` at `map[old]`; the last one wins. -/
def newVertices {D : ℕ} (vertices : List (Fin D → ℝ)) (s : Renum) (i : ℕ) : Option (Fin D → ℝ) :=
  ((List.range vertices.length).reverse.find? fun old => s.map old == some i).bind fun old =>
    vertices[old]?

/-- `create`, src/io/GlobalSimplexMeshBuilder.cpp lines 112-190, up to the construction of the mesh.
`totalElements`, `totalBcs` and `hoCols` are the results of the two reductions; `ub`: `map[e]` is out
of bounds.  In a facet, `none` is
the number `Invalid`. -/
def create {D : ℕ} (b : Builder D) (totalElements totalBcs hoCols : ℕ) : Res (MeshData D) :=
  if totalElements = 0 then .throws
  else if totalBcs = 0 then .throws
  else if 0 < hoCols then
    if (b.elements ++ b.facets).any (fun e => e.any fun v => decide (b.vertices.length ≤ v)) then .ub
    else
    let r := renumElements ⟨fun _ => none, 0⟩ b.elements
    .ok ⟨r.1, b.facets.map (fun f => f.map r.2.map), newVertices b.vertices r.2, r.2.newId,
      some (fun j k => b.vertices[b.highOrder.get j k]?), b.volumeTags, b.bcs⟩
  else
    .ok ⟨b.elements, b.facets.map (fun f => f.map some), fun i => b.vertices[i]?, b.vertices.length,
      none, b.volumeTags, b.bcs⟩

end Tandem.MeshBuilder
