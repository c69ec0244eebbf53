/-!
# Specification: how a VTK reader interprets the appended section of a `.vtu` file

Format description of VTK's XML files ("raw" encoding, `header_type="UInt64"`, little endian).
Nothing here refers to the model of the writer.
-/
namespace Tandem.Spec

/-- `len` bytes at position `off`, if they are there. -/
def bytesAt (buf : List Nat) (off len : Nat) : Option (List Nat) :=
  if off + len ≤ buf.length then some ((buf.drop off).take len) else none

/-- The number with the given little-endian bytes. -/
def ofBytes : List Nat → Nat
  | [] => 0
  | b :: bs => b + 256 * ofBytes bs

/-- The 64-bit number at position `off`. -/
def u64At (buf : List Nat) (off : Nat) : Option Nat := (bytesAt buf off 8).map ofBytes

/-- An uncompressed array: its size in bytes, then the bytes. -/
def readRaw (buf : List Nat) (off : Nat) : Option (List Nat) := do
  let size ← u64At buf off
  bytesAt buf (off + 8) size

/-- Compressed blocks: sizes before and after compression are given. -/
def readBlocks (uncompress : List Nat → Option (List Nat)) (buf : List Nat) :
    List (Nat × Nat) → Nat → Option (List Nat)
  | [], _ => some []
  | (usize, csize) :: rest, off => do
    let c ← bytesAt buf off csize
    let u ← uncompress c
    if u.length ≠ usize then none else
    let us ← readBlocks uncompress buf rest (off + csize)
    return u ++ us

/-- A compressed array: number of blocks, size of a block, size of the last block if it is partial (or
zero), compressed sizes of the blocks, then the compressed blocks. -/
def readCompressed (uncompress : List Nat → Option (List Nat)) (buf : List Nat) (off : Nat) :
    Option (List Nat) := do
  let n ← u64At buf off
  let blockSize ← u64At buf (off + 8)
  let last ← u64At buf (off + 16)
  let csizes ← (List.range n).mapM (fun k => u64At buf (off + 24 + 8 * k))
  let usizes := (List.range n).map (fun k => if k + 1 = n ∧ last ≠ 0 then last else blockSize)
  readBlocks uncompress buf (usizes.zip csizes) (off + 24 + 8 * n)

/-- Reading an array of the file; `unzip` is `none` for a file without compressor attribute. -/
def readArray (unzip : Option (List Nat → Option (List Nat))) (buf : List Nat) (off : Nat) :
    Option (List Nat) :=
  match unzip with
  | none => readRaw buf off
  | some uncompress => readCompressed uncompress buf off

/-- The point numbers of cell `c`: VTK stores the end of each cell's range in `offsets`. -/
def cellPoints (connectivity offsets : List Int) (c : Nat) : List Int :=
  let start : Int := if c = 0 then 0 else offsets.getD (c - 1) 0
  let stop : Int := offsets.getD c 0
  (connectivity.drop start.toNat).take (stop - start).toNat

end Tandem.Spec
