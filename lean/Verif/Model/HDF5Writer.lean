/-!
# Model of src/io/HDF5Writer.cpp, of the users of it in app/tandem/Writer.h and
src/io/HDF5ProbeWriter.cpp, and of `getVertices` in src/io/HDF5Adapter.h

A data set is a current extent and a function from index tuples to values.  The HDF5 library is modelled
by the functions `setExtent` and `writeSlab` (semantics of the HDF5 reference manual); all ranks are
modelled together.
-/
namespace Tandem.HDF5Writer

/-- What may go wrong: an exception of the writer, or an access outside of the user's buffer;
src/io/HDF5Writer.cpp lines 38, 51, 74, 89. -/
inductive Err
  | exception
  | outOfBounds
deriving DecidableEq, Repr

/-- A data set, src/io/HDF5Writer.cpp lines 47-82. -/
structure Dataset (α : Type) where
  dims : List Nat
  data : List Nat → α

variable {α : Type}

/-- An index tuple lies in a block given by its start and its extent: the hyperslab of
src/io/HDF5Writer.cpp line 124. -/
def inSlab : List Nat → List Nat → List Nat → Bool
  | [], [], [] => true
  | s :: ss, c :: cs, i :: is => decide (s ≤ i ∧ i < s + c) && inSlab ss cs is
  | _, _, _ => false

/-- Row-major position of an index tuple in a block, for the memory space of src/io/HDF5Writer.cpp
line 132. -/
def slabPos : List Nat → List Nat → List Nat → Nat → Nat
  | s :: ss, c :: cs, i :: is, acc => slabPos ss cs is (acc * c + (i - s))
  | _, _, _, acc => acc

/-- `H5Dset_extent`, src/io/HDF5Writer.cpp line 111: new positions hold the fill value. -/
def setExtent (fill : α) (d : Dataset α) (dims : List Nat) : Dataset α :=
  ⟨dims, fun i => if inSlab (List.replicate d.dims.length 0) d.dims i then d.data i else fill⟩

/-- `H5Sselect_hyperslab`, `H5Screate_simple`, `H5Dwrite` of one rank, src/io/HDF5Writer.cpp lines
123-144: an exception when the block is not within the extent, an out-of-bounds read when the buffer is
shorter than the block. -/
def writeSlab (d : Dataset α) (start count : List Nat) (buf : List α) : Except Err (Dataset α) :=
  if ((List.zipWith (· + ·) start count).zip d.dims).all (fun p => p.1 ≤ p.2) then
    if count.foldl (· * ·) 1 ≤ buf.length then
      .ok ⟨d.dims, fun i => if inSlab start count i then buf.getD (slabPos start count i 0) (d.data i)
        else d.data i⟩
    else .error .outOfBounds
  else .error .exception

/-- The offset of a rank in `calculateOffsets` (`MPI_Exscan`), src/io/HDF5Writer.cpp lines 158-161. -/
def offsetOf (locals : List Nat) (rank : Nat) : Nat := (locals.take rank).sum

/-- The total of `calculateOffsets` (`MPI_Allreduce`), src/io/HDF5Writer.cpp lines 155-156. -/
def totalOf (locals : List Nat) : Nat := locals.sum

/-- The extent of a new data set, src/io/HDF5Writer.cpp lines 53-63; `dims` are the dimensions given by the
ranks (equal up to the glue dimension; the entry of rank 0 is used). -/
def createDims (dims : List (List Nat)) (glue : Nat) (distributed : Bool) : List Nat :=
  let d0 := dims.getD 0 []
  if distributed then d0.set glue (totalOf (dims.map (·.getD glue 0))) else d0

/-- `createExtendibleDataset`, src/io/HDF5Writer.cpp lines 47-82; the file is a list of names of data
sets: creating an existing one is an exception. -/
def create (fill : α) (names : List String) (name : String) (dims : List (List Nat)) (glue : Nat)
    (distributed : Bool) : Except Err (List String × Dataset α) :=
  if name ∈ names then .error .exception
  else .ok (name :: names, ⟨createDims dims glue distributed, fun _ => fill⟩)

/-- The names of the data sets in the file after the constructor, src/io/HDF5Writer.cpp lines 20-33. -/
def openNames (checkpointEnabled : Bool) (existing : Option (List String)) : List String :=
  if checkpointEnabled then existing.getD [] else []

/-- One rank's arguments of `writeToDataset`: dimensions and buffer, src/io/HDF5Writer.cpp lines 84-86. -/
structure RankData (α : Type) where
  dims : List Nat
  buf : List α

/-- The block a rank writes, src/io/HDF5Writer.cpp lines 97-107 and 122. -/
def slabOf (ranks : List (RankData α)) (current : List Nat) (timestep glue ext : Nat)
    (distributed : Bool) (r : Nat) (x : RankData α) : List Nat × List Nat :=
  let start := List.replicate current.length 0
  let start := if distributed then
    start.set glue (offsetOf (ranks.map (fun y => y.dims.getD glue 0)) r) else start
  let count := x.dims
  let (start, count) :=
    if current.getD ext 0 ≤ timestep then (start.set ext timestep, count.set ext 1)
    else (start, count)
  let count := if distributed then count.set glue (x.dims.getD glue 0) else count
  (start, count)

/-- `writeToDataset` on all ranks, src/io/HDF5Writer.cpp lines 84-150; `order` is the order in which the
ranks' blocks reach the file. -/
def writeToDataset (fill : α) (d : Dataset α) (timestep : Nat) (ranks : List (RankData α)) (glue ext : Nat)
    (distributed : Bool) (order : List Nat) : Except Err (Dataset α) :=
  let d' := if d.dims.getD ext 0 ≤ timestep then setExtent fill d (d.dims.set ext (timestep + 1)) else d
  order.foldlM (fun d' r =>
    match ranks[r]? with
    | none => .ok d'
    | some x =>
      let s := slabOf ranks d.dims timestep glue ext distributed r x
      writeSlab d' s.1 s.2 x.buf) d'

/-- One output of a time series of per-rank data with `n r` entries of `Q` quantities each: the calls in
app/tandem/Writer.h lines 283-285 and src/io/HDF5ProbeWriter.cpp lines 215-216. -/
def writeStep (fill : α) (Q : Nat) (ns : List Nat) (order : List Nat) (d : Dataset α)
    (step : Nat) (bufs : Nat → List α) : Except Err (Dataset α) :=
  writeToDataset fill d step
    ((List.range ns.length).map (fun r => ⟨[ns.getD r 0, step + 1, Q], bufs r⟩)) 0 1 true order

/-- The time series data set when created: app/tandem/Writer.h lines 277-281,
src/io/HDF5ProbeWriter.cpp lines 194-202. -/
def newSeries (fill : α) (Q : Nat) (ns : List Nat) : Dataset α :=
  ⟨createDims ((List.range ns.length).map (fun r => [ns.getD r 0, 1, Q])) 0 true, fun _ => fill⟩

/-- A sequence of outputs (step number and data of every rank), with arbitrary orders of arrival.
The calls of app/tandem/Writer.h lines 283-285, one per output. -/
def writeSeries (fill : α) (Q : Nat) (ns : List Nat) :
    List (Nat × List Nat × (Nat → List α)) → Dataset α → Except Err (Dataset α)
  | [], d => .ok d
  | (step, order, bufs) :: rest, d => do
    let d ← writeStep fill Q ns order d step bufs
    writeSeries fill Q ns rest d

/-- The step numbers of a `Writer`, app/tandem/Writer.h lines 60-64 and 82, for `n` outputs. -/
def writerSteps (n : Nat) : List Nat := List.range n

/-- The step numbers of a `MomentRateWriter` on a new file, app/tandem/Writer.h lines 336-342: the first
call of `increase_step` is ignored. -/
def momentRateSteps : Nat → List Nat
  | 0 => []
  | n + 1 => 0 :: List.range n

/-- `CurvilinearBoundaryHDF5Adapter::getVertices`, src/io/HDF5Adapter.h lines 104-120: `vals e` are the
`D × numBasisNodes` coordinates of facet `e` in storage order; `none`: a write outside of the vector. -/
def getVertices (zero : α) (D numElements numBasisNodes : Nat) (vals : Nat → List α) : Option (List α) :=
  (List.range numElements).foldlM (fun m e =>
      if e * D * D + (vals e).length ≤ m.length then
        some (m.take (e * D * D) ++ vals e ++ m.drop (e * D * D + (vals e).length))
      else none)
    (List.replicate (D * numElements * numBasisNodes) zero)

/-- `max_length_local`, src/io/HDF5ProbeWriter.cpp lines 90-93. -/
def maxLength (names : List (List Char)) : Nat := names.foldl (fun m n => max n.length m) 1

/-- `max_length_global`, src/io/HDF5ProbeWriter.cpp line 95. -/
def maxLengthGlobal (perRank : List (List (List Char))) : Nat :=
  perRank.foldl (fun m names => max (maxLength names) m) 0

/-- `std::string::resize(n, ' ')`, src/io/HDF5ProbeWriter.cpp line 100. -/
def resize (n : Nat) (name : List Char) : List Char := (name ++ List.replicate (n - name.length) ' ').take n

/-- `probe_names` of one rank, src/io/HDF5ProbeWriter.cpp lines 97-102. -/
def probeNames (names : List (List Char)) : List Char :=
  (names.map (resize (maxLength names))).flatten

/-- What `H5Dwrite` takes as the name of probe `k` of a rank, src/io/HDF5ProbeWriter.cpp lines 121-127: the
`k`-th piece of `max_length_global` characters of the rank's buffer; `none`: behind the buffer. -/
def writtenName (perRank : List (List (List Char))) (rank k : Nat) : Option (List Char) :=
  let size := maxLengthGlobal perRank
  let buf := probeNames (perRank.getD rank [])
  if k * size + size ≤ buf.length then some ((buf.drop (k * size)).take size) else none

end Tandem.HDF5Writer
