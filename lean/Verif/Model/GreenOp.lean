/-
Model of the discrete Green's function operator and its checkpoints:
`app/form/SeasQDDiscreteGreenOperator.h/.cpp`.

Conventions and simplifications:
* All ranks act collectively; a job with communicator size `p` distributes the fault facets over its ranks as
  the list of lists `ranks` (rank by rank, in local order).
* A facet is an opaque label `L` (in the code: the tuple of its vertex numbers, which does not depend on the
  partition).
* The linear solve followed by the traction evaluation (`base::solve`, `base::update_traction`) is an arbitrary
  function from slip fields to traction fields on the facets. It does not depend on the partition
  (idealisation: the result of the linear solver does).
* A PETSc matrix is a function of two indices; entries outside its size mean nothing. Scalars are
  elements of an arbitrary semiring.
* The file system: a file between opening and closing is `partialFile`; a crash stops the job between two
  micro-operations; `rename` and `remove` are atomic.
-/
import Mathlib.Algebra.BigOperators.Group.Finset.Basic
import Mathlib.Algebra.Ring.Defs

namespace Tandem.GreenOp

/-! ### Index ranges -/

/-- `MPI_Scan` with `MPI_SUM` (inclusive prefix sum over the ranks), as called in
`app/form/SeasQDDiscreteGreenOperator.cpp` lines 26 and 28. -/
def scan (xs : List Nat) (r : Nat) : Nat := (xs.take (r + 1)).sum

/-- The members of `GreensFunctionIndices`, `app/form/SeasQDDiscreteGreenOperator.h` lines 20-33. -/
structure Indices where
  slipBlockSize : Nat
  numLocal : Nat
  mBs : Nat
  m : Nat
  n : Nat
  mbOffset : Nat
  nbOffset : Nat

/-- The constructor of `GreensFunctionIndices` on rank `r`,
`app/form/SeasQDDiscreteGreenOperator.cpp` lines 15-30; `sizes` are the numbers of local fault facets of all
ranks. -/
def indices (tractionBlock slipBlock : Nat) (sizes : List Nat) (r : Nat) : Indices :=
  let numLocal := sizes.getD r 0
  let m := numLocal * tractionBlock
  let n := numLocal * slipBlock * 1
  ⟨slipBlock, numLocal, tractionBlock, m, n, scan sizes r - numLocal,
    scan (sizes.map (· * slipBlock * 1)) r - n⟩

/-- The local-to-global map of `PetscVector::PetscVector`, `app/common/PetscVector.cpp` lines 20-28: global block
number of local block `el` on rank `r`. -/
def petscVectorL2G (numLocalElems : List Nat) (r el : Nat) : Nat :=
  (scan numLocalElems r - numLocalElems.getD r 0) + el

/-- The first entry owned by rank `r`, as PETSc lays out a vector with the given local sizes: `VecSetSizes(x_,
localRows, PETSC_DECIDE)`, `app/common/PetscVector.cpp` lines 12-14. -/
def petscOwnershipStart (numLocalElems : List Nat) (blockSize r : Nat) : Nat :=
  ((numLocalElems.map (· * blockSize)).take r).sum

/-- All pairs (facet, global facet number `mb_offset + bndNo`) over all ranks and local fault facets: the index
set of the loops in `app/form/SeasQDDiscreteGreenOperator.cpp` lines 398-408 and 540-546. -/
def globalBlocks {L : Type} (ranks : List (List L)) : List (L × Nat) :=
  (List.range ranks.length).flatMap fun r =>
    (ranks.getD r []).zipIdx (indices 0 0 (ranks.map List.length) r).mbOffset

/-! ### Matrices -/

/-- A dense or sparse PETSc matrix: its entries, `app/form/SeasQDDiscreteGreenOperator.h` line 79. -/
abbrev Mat (K : Type) := Nat → Nat → K

section
variable {K : Type} [Semiring K] {L : Type} [DecidableEq L]

/-- `MatSetValue(..., INSERT_VALUES)`, used in `app/form/SeasQDDiscreteGreenOperator.cpp` lines 405-406. -/
def setEntry (P : Mat K) (i j : Nat) (v : K) : Mat K :=
  fun i' j' => if i' = i ∧ j' = j then v else P i' j'

/-- `MatMatMult`, used in `app/form/SeasQDDiscreteGreenOperator.cpp` lines 483-484; `k` is the common size. -/
def matMul (k : Nat) (A B : Mat K) : Mat K :=
  fun i j => ∑ l ∈ Finset.range k, A i l * B l j

/-- `MatMult`, used in `app/form/SeasQDDiscreteGreenOperator.cpp` lines 125 and 641. -/
def matVec (k : Nat) (A : Mat K) (x : Nat → K) : Nat → K :=
  fun i => ∑ l ∈ Finset.range k, A i l * x l

/-- The map of `create_permutation_redundant_IS`,
`app/form/SeasQDDiscreteGreenOperator.cpp` lines 330-340: facet to position in the file, the last one
if a facet occurs twice; then the look-up of lines 342-346, which throws (`none`) if there is none.
Simplification: the flat array of vertex numbers is a list of facets. -/
def permIndex (labels : List L) (a : L) : Option Nat :=
  (labels.zipIdx.foldl (fun (m : L → Option Nat) (e : L × Nat) => fun b => if b = e.1 then some e.2 else m b)
    (fun _ => none)) a

/-- The entries (row, column) that `create_permutation_matrix` sets,
`app/form/SeasQDDiscreteGreenOperator.cpp` lines 398-408; `perm` is `fault_map_index`. -/
def permEntries (bs : Nat) (swap : Bool) (perm : List (Nat × Nat)) : List (Nat × Nat) :=
  perm.flatMap fun e =>
    let from' := if swap then e.2 else e.1
    let to' := if swap then e.1 else e.2
    (List.range bs).map fun d => (bs * from' + d, bs * to' + d)

/-- `create_permutation_matrix`, `app/form/SeasQDDiscreteGreenOperator.cpp` lines 389-412. -/
def permMat (bs : Nat) (swap : Bool) (perm : List (Nat × Nat)) : Mat K :=
  (permEntries bs swap perm).foldl (fun P e => setEntry P e.1 e.2 1) (fun _ _ => 0)

/-- `create_permutation_redundant_IS`, `app/form/SeasQDDiscreteGreenOperator.cpp` lines 305-362: the pairs
(global number `mb_offset + bndNo`, `fault_map_index[bndNo]`) over all ranks; `none` if some rank throws. -/
def permutation (labels : List L) (ranks : List (List L)) : Option (List (Nat × Nat)) :=
  (globalBlocks ranks).mapM fun b => (permIndex labels b.1).map fun to' => (b.2, to')

/-! ### Assembly -/

/-- What is fixed for all jobs: the physics (slip field to traction field, for zero and non-zero external
boundary data), block sizes and the distribution of the fault facets in a job with `p` ranks.
`app/form/SeasQDDiscreteGreenOperator.cpp` lines 15-30, 131-150 and 532-537. -/
structure Env (K L : Type) where
  response : (L → Nat → K) → L → Nat → K
  boundary : L → Nat → K
  br : Nat
  bc : Nat
  ranks : Nat → List (List L)

/-- The numbers of local facets of the ranks of a job (`num_local_elements`),
`app/form/SeasQDDiscreteGreenOperator.cpp` line 17. -/
def Env.sizes (env : Env K L) (p : Nat) : List Nat := (env.ranks p).map List.length

/-- Total number of fault facets, `num_global_elements`, `app/form/SeasQDDiscreteGreenOperator.cpp` line 379. -/
def Env.facets (env : Env K L) (p : Nat) : Nat := (env.sizes p).sum

/-- Number of Green's functions, `VecGetSize(S_)`, `app/form/SeasQDDiscreteGreenOperator.cpp` lines 167-171. -/
def Env.nGf (env : Env K L) (p : Nat) : Nat := env.facets p * env.bc

/-- The slip vector of Green's function `i`: every rank with `nb_offset <= i < nb_offset + m` inserts a one,
`app/form/SeasQDDiscreteGreenOperator.cpp` lines 525-531. -/
def unitSlip (env : Env K L) (p i : Nat) : Nat → K :=
  (List.range (env.ranks p).length).foldl
    (fun S r =>
      let ind := indices env.br env.bc (env.sizes p) r
      if ind.nbOffset ≤ i ∧ i < ind.nbOffset + ind.m then (fun j => if j = i then 1 else S j) else S)
    (fun _ => 0)

/-- The slip field a block vector stands for: block `mb_offset + bndNo` belongs to that fault facet;
`app/form/SeasQDDiscreteGreenOperator.cpp` lines 533-536 (scatter and composite view; C18). -/
def slipField (env : Env K L) (p : Nat) (S : Nat → K) : L → Nat → K := fun a e =>
  match (globalBlocks (env.ranks p)).find? (fun b => b.1 = a) with
  | some b => if e < env.bc then S (env.bc * b.2 + e) else 0
  | none => 0

/-- `MatSetValuesBlocked` of one traction block, block row `g`, column `i`,
`app/form/SeasQDDiscreteGreenOperator.cpp` lines 541-545 (row block size `m_bs`, column block size 1). -/
def setBlock (br : Nat) (G : Mat K) (g i : Nat) (block : Nat → K) : Mat K :=
  fun I J => if J = i ∧ br * g ≤ I ∧ I < br * g + br then block (I - br * g) else G I J

/-- One pass of the loop over the Green's functions, `app/form/SeasQDDiscreteGreenOperator.cpp` lines 525-547. -/
def computeColumn (env : Env K L) (p : Nat) (G : Mat K) (i : Nat) : Mat K :=
  let t := env.response (slipField env p (unitSlip env p i))
  (globalBlocks (env.ranks p)).foldl (fun G b => setBlock env.br G b.2 i (t b.1)) G

/-! ### Files -/

/-- Content of a file. `app/form/SeasQDDiscreteGreenOperator.cpp` lines 211-227: opened with
`FILE_MODE_WRITE` (truncated), complete when the viewer is destroyed. -/
inductive File (α : Type) where
  | absent
  | partialFile
  | complete (a : α)

/-- `gf_mat.bin`: communicator size, number of computed functions, matrix;
`app/form/SeasQDDiscreteGreenOperator.cpp` lines 215-222. -/
structure MatFile (K : Type) where
  commsize : Nat
  current : Nat
  mat : Mat K

/-- The files in the checkpoint directory, with the `.tmp` and `.bu` versions,
`app/form/SeasQDDiscreteGreenOperator.h` lines 71-73 and `.cpp` lines 174-177. -/
structure FS (K L : Type) where
  mat : File (MatFile K)
  matTmp : File (MatFile K)
  matBu : File (MatFile K)
  lab : File (List L)
  labTmp : File (List L)
  labBu : File (List L)
  vec : File (Nat → K)

/-- The directory before the first job (`app/form/SeasQDDiscreteGreenOperator.cpp` lines 52-57). -/
def FS.empty : FS K L := ⟨.absent, .absent, .absent, .absent, .absent, .absent, .absent⟩

/-- `fs::exists`, `app/form/SeasQDDiscreteGreenOperator.cpp` lines 180 and 182. -/
def File.exists' {α : Type} : File α → Bool
  | .absent => false
  | _ => true

/-- Micro-operations of `write_discrete_greens_operator`, `write_facet_labels_IS`, `back_up_file` and
`write_discrete_greens_traction`, `app/form/SeasQDDiscreteGreenOperator.cpp` lines 174-199, 201-240, 242-284 and
609-621. -/
inductive Op (K L : Type) where
  | openMatTmp | closeMatTmp (c : MatFile K) | rmMatBu | mvMatBu | mvMatTmp
  | openLabTmp | closeLabTmp (l : List L) | rmLabBu | mvLabBu | mvLabTmp
  | openVec | closeVec (v : Nat → K)

/-- Effect of one micro-operation. `rm..`: remove the backup if file and backup exist (lines 180-184);
`mv..Bu`: rename the file to the backup if it exists (lines 180, 185); `mv..Tmp`: rename the temporary file to the
file (line 194; a missing temporary file is only reported).
`app/form/SeasQDDiscreteGreenOperator.cpp` lines 174-199. -/
def FS.apply (fs : FS K L) : Op K L → FS K L
  | .openMatTmp => { fs with matTmp := .partialFile }
  | .closeMatTmp c => { fs with matTmp := .complete c }
  | .rmMatBu => if fs.mat.exists' && fs.matBu.exists' then { fs with matBu := .absent } else fs
  | .mvMatBu => if fs.mat.exists' then { fs with matBu := fs.mat, mat := .absent } else fs
  | .mvMatTmp => if fs.matTmp.exists' then { fs with mat := fs.matTmp, matTmp := .absent } else fs
  | .openLabTmp => { fs with labTmp := .partialFile }
  | .closeLabTmp l => { fs with labTmp := .complete l }
  | .rmLabBu => if fs.lab.exists' && fs.labBu.exists' then { fs with labBu := .absent } else fs
  | .mvLabBu => if fs.lab.exists' then { fs with labBu := fs.lab, lab := .absent } else fs
  | .mvLabTmp => if fs.labTmp.exists' then { fs with lab := fs.labTmp, labTmp := .absent } else fs
  | .openVec => { fs with vec := .partialFile }
  | .closeVec v => { fs with vec := .complete v }

/-- `write_discrete_greens_operator` with `write_facet_labels_IS`,
`app/form/SeasQDDiscreteGreenOperator.cpp` lines 201-284. -/
def writeOps (c : MatFile K) (labels : List L) : List (Op K L) :=
  [.openMatTmp, .closeMatTmp c, .rmMatBu, .mvMatBu, .mvMatTmp,
    .openLabTmp, .closeLabTmp labels, .rmLabBu, .mvLabBu, .mvLabTmp]

/-- The facet labels written by a job with `p` ranks: the parallel index set, rank after rank,
`app/form/SeasQDDiscreteGreenOperator.cpp` lines 255-266. -/
def Env.labels (env : Env K L) (p : Nat) : List L := (env.ranks p).flatten

/-- Result of looking for and loading a checkpoint of the operator:
number of computed functions, matrix and, if `repartition_gfs_`, the permutation;
app/form/SeasQDDiscreteGreenOperator.cpp lines 432-491. -/
structure Loaded (K : Type) where
  current : Nat
  mat : Mat K
  perm : Option (List (Nat × Nat))

/-- `MatCreateDense` (zero) and, if the file exists, `load_discrete_greens_operator`:
`app/form/SeasQDDiscreteGreenOperator.cpp` lines 432-491 and 585-596. `none` is an error (truncated or missing
file, facet not found). -/
def load (env : Env K L) (p : Nat) (fs : FS K L) : Option (Loaded K) :=
  match fs.mat with
  | .absent => some ⟨0, fun _ _ => 0, none⟩
  | .partialFile => none
  | .complete c =>
    if p ≠ c.commsize then
      match fs.lab with
      | .complete labels =>
        match permutation labels (env.ranks p) with
        | some perm =>
          let R : Mat K := permMat env.br false perm
          let C : Mat K := permMat env.bc true perm
          let GC := matMul (env.nGf p) c.mat C
          some ⟨c.current, matMul (env.facets p * env.br) R GC, some perm⟩
        | none => none
      | _ => none
    else some ⟨c.current, c.mat, none⟩

/-- `partial_assemble_discrete_greens_function` from function `i` on, `rem` functions left; `due i` says whether
the time since the last checkpoint exceeds the limit after function `i`.
`app/form/SeasQDDiscreteGreenOperator.cpp` lines 493-578. -/
def assemble (env : Env K L) (p : Nat) (due : Nat → Bool) : Nat → Nat → Mat K → List (Op K L) × Mat K
  | 0, _, G => ([], G)
  | rem + 1, i, G =>
    let G' := computeColumn env p G i
    let ops := if due i then writeOps ⟨p, i + 1, G'⟩ (env.labels p) else []
    let (ops', G'') := assemble env p due rem (i + 1) G'
    (ops ++ ops', G'')

/-- `get_discrete_greens_function`, `app/form/SeasQDDiscreteGreenOperator.cpp` lines 580-607, with
checkpoints enabled: the file operations, the operator, and the permutation left in `is_perm_`. -/
def greens (env : Env K L) (p : Nat) (due : Nat → Bool) (fs : FS K L) :
    Option (List (Op K L) × Mat K × Option (List (Nat × Nat))) :=
  (load env p fs).map fun l =>
    let (ops, G) := assemble env p due (env.nGf p - l.current) l.current l.mat
    let fin := if l.current ≠ env.nGf p then writeOps ⟨p, env.nGf p, G⟩ (env.labels p) else []
    (ops ++ fin, G, l.perm)

/-- `compute_boundary_traction` in the numbering of a job with `p` ranks,
`app/form/SeasQDDiscreteGreenOperator.cpp` lines 129-150. -/
def boundaryVec (env : Env K L) (p : Nat) : Nat → K :=
  (globalBlocks (env.ranks p)).foldl
    (fun v b => fun I => if env.br * b.2 ≤ I ∧ I < env.br * b.2 + env.br then
      env.boundary b.1 (I - env.br * b.2) else v I)
    (fun _ => 0)

/-- `get_boundary_traction`, `app/form/SeasQDDiscreteGreenOperator.cpp` lines 609-662; `none` is an error
(truncated file). -/
def traction (env : Env K L) (p : Nat) (perm : Option (List (Nat × Nat))) (fs : FS K L) :
    Option (List (Op K L) × (Nat → K)) :=
  match fs.vec with
  | .absent => some ([.openVec, .closeVec (boundaryVec env p)], boundaryVec env p)
  | .partialFile => none
  | .complete v =>
    match perm with
    | some q => some ([], matVec (env.facets p * env.br) (permMat env.br false q) v)
    | none => some ([], v)

/-- What a job does before time stepping: its constructor and `set_boundary`
(`app/form/SeasQDDiscreteGreenOperator.cpp` lines 32-93). The operator is always produced before the boundary
traction; the second component is `none` if loading the traction fails. -/
structure JobResult (K L : Type) where
  ops : List (Op K L)
  G : Mat K
  t : Option (Nat → K)

/-- Constructor and `set_boundary`, `app/form/SeasQDDiscreteGreenOperator.cpp` lines 32-93. The traction file is
not touched by the operator part, so it is looked up in `fs`. -/
def job (env : Env K L) (p : Nat) (due : Nat → Bool) (fs : FS K L) : Option (JobResult K L) :=
  (greens env p due fs).map fun (ops, G, perm) =>
    match traction env p perm fs with
    | some (ops', t) => ⟨ops ++ ops', G, some t⟩
    | none => ⟨ops, G, none⟩

/-- A started job: number of ranks, checkpoint schedule and the number of file operations it
performs before it dies (any number not below the total: it is not interrupted). The file operations are those of
`app/form/SeasQDDiscreteGreenOperator.cpp` lines 174-284 and 609-621. -/
structure Started where
  p : Nat
  due : Nat → Bool
  stop : Nat

/-- The directory after a job was started and died or finished
(`app/form/SeasQDDiscreteGreenOperator.cpp` lines 580-607 and 650-662). -/
def after (env : Env K L) (fs : FS K L) (j : Started) : FS K L :=
  match job env j.p j.due fs with
  | some r => (r.ops.take j.stop).foldl FS.apply fs
  | none => fs

/-- The directory after a sequence of jobs, starting from an empty directory
(`app/form/SeasQDDiscreteGreenOperator.cpp` lines 32-78 executed once per job). -/
def history (env : Env K L) (js : List Started) : FS K L := js.foldl (after env) FS.empty

end

end Tandem.GreenOp
