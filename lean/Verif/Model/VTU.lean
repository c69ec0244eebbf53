/-!
# Model of the VTU writer, src/io/VTUWriter.cpp and src/io/VTUWriter.h

Memory is a list; a read or write outside of it is `none` (undefined behaviour).  Bytes are natural
numbers below 256.  The machine is little endian (the writer records `isBigEndian()` in the file).
zlib's `compress` is a parameter.  File sizes are unbounded naturals: `uint64_t` wrap-around of offsets is
not modelled.
-/
namespace Tandem.VTU

/-- Assignment to an array element, as in src/io/VTUWriter.cpp lines 131, 134; `none` when outside. -/
def store {α : Type} (m : List α) (j : Nat) (v : α) : Option (List α) :=
  if j < m.length then some (m.set j v) else none

section Widen
variable {α : Type}

/-- `adapter.map(elNo, result)`, src/io/VTUWriter.cpp lines 125-126: the adapter fills the
`pointDim × pointsPerElement` matrix that starts at `base`; `vals` are its entries in storage order.
The adapter itself is a parameter. -/
def fill (base : Nat) : List α → List α → Option (List α)
  | [], m => some m
  | v :: vs, m => do
    let m ← store m base v
    fill (base + 1) vs m

/-- The loop of src/io/VTUWriter.cpp lines 130-132; the first argument is `d + 1`, so the loop starts with
`PointDim = 3`. -/
def zeroLoop (zero : α) (base i pd : Nat) : Nat → List α → Option (List α)
  | 0, m => some m
  | d + 1, m =>
    if pd ≤ d then do
      let m ← store m (base + (d + i * 3)) zero
      zeroLoop zero base i pd d m
    else some m

/-- The loop of src/io/VTUWriter.cpp lines 133-135; the first argument is `d + 1`, so the loop starts with
`pointDim`. -/
def copyLoop (base i pd : Nat) : Nat → List α → Option (List α)
  | 0, m => some m
  | d + 1, m => do
    let v ← m[base + (d + i * pd)]?
    let m ← store m (base + (d + i * 3)) v
    copyLoop base i pd d m

/-- The loop of src/io/VTUWriter.cpp lines 129-136; the first argument is `i + 1`. -/
def pointLoop (zero : α) (base pd : Nat) : Nat → List α → Option (List α)
  | 0, m => some m
  | i + 1, m => do
    let m ← zeroLoop zero base i pd 3 m
    let m ← copyLoop base i pd pd m
    pointLoop zero base pd i m

/-- One iteration of the element loop, src/io/VTUWriter.cpp lines 123-138.  With `pointDim = 0` the
unsigned comparison `d >= pointDim` never fails: the loop runs off the array (`none`). -/
def element (zero : α) (ppe pd : Nat) (vals : Nat → List α) (elNo : Nat) (m : List α) :
    Option (List α) := do
  let base := elNo * ppe * 3
  let m ← fill base (vals elNo) m
  if pd = 0 ∧ 0 < ppe then none else
  if pd < 3 then pointLoop zero base pd ppe m else return m

/-- The vertex array of one rank, src/io/VTUWriter.cpp lines 122-139 (zero-initialised by the
`std::vector` constructor). -/
def vertices (zero : α) (numElements ppe pd : Nat) (vals : Nat → List α) : Option (List α) :=
  (List.range numElements).foldlM (fun m e => element zero ppe pd vals e m)
    (List.replicate (numElements * ppe * 3) zero)

end Widen

/-- Conversion of an unsigned number to `int32_t`, as in src/io/VTUWriter.cpp lines 150 and 155. -/
def toInt32 (n : Nat) : Int := Int.bmod n (2 ^ 32)

/-- `connectivity`, src/io/VTUWriter.cpp lines 149-150. -/
def connectivity (numElements ppe : Nat) : List Int :=
  (List.range (numElements * ppe)).map toInt32

/-- `offsets`, src/io/VTUWriter.cpp lines 153-155. -/
def offsets (numElements ppe : Nat) : List Int :=
  (List.range numElements).map (fun n => toInt32 (ppe * (n + 1)))

/-- `gather`, src/io/VTUWriter.h lines 148-150 (`GatherV` to rank 0 of the node's communicator): the
arrays of the ranks, in rank order. -/
def gather {α : Type} (perRank : List (List α)) : List α := perRank.flatten

/-- `gathered_num_elements_`, src/io/VTUWriter.cpp lines 144-146. -/
def gatheredNumElements (perRank : List Nat) : Nat := perRank.sum

/-- The array of quantity `p` of one rank in `addPointData`, src/io/VTUWriter.cpp lines 169-179:
`data(i, elNo, p) = result(i, p)` with the first index fastest; `value e i` is the value of the quantity
in element `e` at reference node `i`. -/
def pointDataOf {α : Type} (numElements ppe : Nat) (value : Nat → Nat → α) : List α :=
  (List.range numElements).flatMap (fun e => (List.range ppe).map (fun i => value e i))

/-- The `k` bytes of a number in memory (little endian), for the `memcpy` of the headers,
src/io/VTUWriter.cpp lines 61 and 66. -/
def leBytes : Nat → Nat → List Nat
  | 0, _ => []
  | k + 1, n => n % 256 :: leBytes k (n / 256)

/-- `VTKDataArray`, src/io/VTUWriter.h lines 29-63. -/
structure DataArray where
  type : String
  name : String
  components : Nat
  appended : List Nat
deriving DecidableEq

/-- `make_appended`, src/io/VTUWriter.cpp lines 39-70.  `zlib`: `none` without compression, otherwise
zlib's `compress`.  The `nullptr` check (lines 40-47) only concerns empty arrays. -/
def makeAppended (zlib : Option (List Nat → List Nat)) (data : List Nat) : List Nat :=
  match zlib with
  | some compress =>
    leBytes 8 1 ++ leBytes 8 data.length ++ leBytes 8 data.length ++
      leBytes 8 (compress data).length ++ compress data
  | none => leBytes 8 data.length ++ data

/-- What the user hands to a `VTKDataArray` constructor: type, name, number of components and the bytes
of the data, src/io/VTUWriter.h lines 35-51. -/
structure Input where
  type : String
  name : String
  components : Nat
  bytes : List Nat
deriving DecidableEq

/-- The constructors of `VTKDataArray`, src/io/VTUWriter.h lines 35-51. -/
def mkArray (zlib : Option (List Nat → List Nat)) (i : Input) : DataArray :=
  ⟨i.type, i.name, i.components, makeAppended zlib i.bytes⟩

/-- The attributes of a `DataArray` XML element, src/io/VTUWriter.cpp lines 26-31. -/
structure ArrayXML where
  type : String
  name : String
  components : Nat
  offset : Nat
deriving DecidableEq

/-- `VTKDataArray::make_xml`, src/io/VTUWriter.cpp lines 25-33: the element and the next offset. -/
def DataArray.makeXml (a : DataArray) (offset : Nat) : ArrayXML × Nat :=
  (⟨a.type, a.name, a.components, offset⟩, offset + a.appended.length)

/-- A loop `for (auto const& a : arrays) offset = a.make_xml(node, offset)`, as in
src/io/VTUWriter.cpp lines 246-248, 253-255, 282-284. -/
def makeXmls : List DataArray → Nat → List ArrayXML × Nat
  | [], offset => ([], offset)
  | a :: as, offset =>
    let (x, offset) := a.makeXml offset
    let (xs, offset) := makeXmls as offset
    (x :: xs, offset)

/-- `VTUPiece`, src/io/VTUWriter.h lines 110-160. -/
structure Piece where
  numPoints : Nat
  numCells : Nat
  points : DataArray
  connectivity : DataArray
  offsets : DataArray
  types : DataArray
  pointData : List DataArray
  cellData : List DataArray

/-- The XML of a piece, src/io/VTUWriter.cpp lines 229-259. -/
structure PieceXML where
  numberOfPoints : Nat
  numberOfCells : Nat
  points : List ArrayXML
  cells : List ArrayXML
  cellData : List ArrayXML
  pointData : List ArrayXML

/-- `VTUPiece::make_xml`, src/io/VTUWriter.cpp lines 229-259 (an empty `CellData` or `PointData` node is
not created). -/
def Piece.makeXml (p : Piece) (offset : Nat) : PieceXML × Nat :=
  let (pts, offset) := makeXmls [p.points] offset
  let (con, offset) := p.connectivity.makeXml offset
  let (off, offset) := p.offsets.makeXml offset
  let (typ, offset) := p.types.makeXml offset
  let (cd, offset) := makeXmls p.cellData offset
  let (pd, offset) := makeXmls p.pointData offset
  (⟨p.numPoints, p.numCells, pts, [con, off, typ], cd, pd⟩, offset)

/-- `VTUPiece::write_appended`, src/io/VTUWriter.cpp lines 261-272. -/
def Piece.writeAppended (p : Piece) : List Nat :=
  p.points.appended ++ p.connectivity.appended ++ p.offsets.appended ++ p.types.appended ++
    (p.cellData.map (·.appended)).flatten ++ (p.pointData.map (·.appended)).flatten

/-- The pieces' part of `VTUWriter::make_xml`, src/io/VTUWriter.cpp lines 276-278. -/
def piecesXml : List Piece → Nat → List PieceXML × Nat
  | [], offset => ([], offset)
  | p :: ps, offset =>
    let (x, offset) := p.makeXml offset
    let (xs, offset) := piecesXml ps offset
    (x :: xs, offset)

/-- `VTUWriter`'s state, src/io/VTUWriter.h lines 102-103. -/
structure Writer where
  fieldData : List DataArray
  pieces : List Piece

/-- `VTUWriter::make_xml`, src/io/VTUWriter.cpp lines 274-287: pieces, field data, end offset. -/
def Writer.makeXml (w : Writer) (offset : Nat) : List PieceXML × List ArrayXML × Nat :=
  let (ps, offset) := piecesXml w.pieces offset
  let (fd, offset) := makeXmls w.fieldData offset
  (ps, fd, offset)

/-- `VTUWriter::write_appended`, src/io/VTUWriter.cpp lines 289-296. -/
def Writer.writeAppended (w : Writer) : List Nat :=
  (w.pieces.map Piece.writeAppended).flatten ++ (w.fieldData.map (·.appended)).flatten

/-- The number of the file a rank writes, src/io/VTUWriter.cpp lines 303-311: `MPI_Scan` of the
`is_writer` flags, minus one; `none` on a rank that does not write. -/
def writerNo (isWriter : List Bool) (rank : Nat) : Option Nat :=
  if isWriter[rank]? = some true then some ((isWriter.take (rank + 1)).count true - 1) else none

/-- `formatName`, src/io/VTUWriter.cpp lines 313-317. -/
def formatName (base : String) (k : Nat) : String := base ++ "_" ++ toString k ++ ".vtu"

/-- The files written: for each writing rank its file name, src/io/VTUWriter.cpp lines 311-320. -/
def filesWritten (base : String) (isWriter : List Bool) : List String :=
  (List.range isWriter.length).filterMap (fun r => (writerNo isWriter r).map (formatName base))

/-- The `Source` attributes of the pieces in the `.pvtu` file, src/io/VTUWriter.cpp lines 305, 371-374. -/
def pvtuSources (base : String) (isWriter : List Bool) : List String :=
  (List.range (isWriter.count true)).map (formatName base)

/-- The ranks that write the `.pvtu` file, src/io/VTUWriter.cpp line 352. -/
def pvtuWriters (isWriter : List Bool) : List Nat :=
  (List.range isWriter.length).filter (fun r => writerNo isWriter r == some 0)

end Tandem.VTU
