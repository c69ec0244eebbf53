/-
Model of the time-stepper checkpoints: `app/common/ts_util.c` (`ts_checkpoint_*`) and the loading side in
`app/common/PetscTimeSolver.h` (`solve`).

The file system is a map from names to files; opening a file for writing truncates it, and a file between
opening and closing is `partial`. A crash stops the program between two of these micro-operations; what was
closed before survives (a crash of the program, not of the operating system). All ranks write collectively; the
operations are listed in program order.
-/
namespace Tandem.TSCheckpoint

/-- Content of a file: it does not exist, is being written, or was written completely with content `a`
(`PetscViewerBinaryOpen(..., FILE_MODE_WRITE)` ... `PetscViewerDestroy`, `app/common/ts_util.c` lines 771-796). -/
inductive File (α : Type) where
  | absent
  | partialFile
  | complete (a : α)
deriving DecidableEq

/-- A checkpoint: content of `ts.bin`, `ts_impl.bin`, `state.vec` and `checkpoint_info.csv`
(`app/common/ts_util.c` lines 771-814). -/
structure Snap (A B C : Type) where
  ts : A
  impl : B
  vec : C
  step : Nat
deriving DecidableEq

/-- One checkpoint directory, `app/common/ts_util.c` lines 771-814. -/
structure Dir (A B C : Type) where
  made : Bool
  ts : File A
  impl : File B
  vec : File C
  info : File Nat

/-- The checkpoint directories (`step<i>` or `chkpnt<i>`, by `i`; only one of the two families is used in a run)
and `last_checkpoint.txt`, of which only the first line, the name of a directory, is used
(`app/common/ts_util.c` lines 676-705 and 816-843). -/
structure FS (A B C : Type) where
  dirs : Nat → Dir A B C
  last : File Nat

/-- An empty save directory.
Before the first checkpoint of app/common/ts_util.c lines 676-705. -/
def FS.empty {A B C : Type} : FS A B C :=
  ⟨fun _ => ⟨false, .absent, .absent, .absent, .absent⟩, .absent⟩

/-- Micro-operations of `ts_checkpoint_create_path` and `ts_checkpoint_write`,
`app/common/ts_util.c` lines 703 and 771-843. -/
inductive Op (A B C : Type) where
  | mkdir (i : Nat)
  | openTs (i : Nat) | closeTs (i : Nat) (a : A)
  | openImpl (i : Nat) | closeImpl (i : Nat) (b : B)
  | openVec (i : Nat) | closeVec (i : Nat) (c : C)
  | openInfo (i : Nat) | closeInfo (i : Nat) (n : Nat)
  | openLast | closeLast (i : Nat)

variable {A B C : Type}

/-- Change one directory; the effect of the file operations of `app/common/ts_util.c` lines 771-814. -/
def FS.modify (fs : FS A B C) (i : Nat) (f : Dir A B C → Dir A B C) : FS A B C :=
  { fs with dirs := fun j => if j = i then f (fs.dirs j) else fs.dirs j }

/-- Effect of one micro-operation (`app/common/ts_util.c` lines 703 and 771-843). `mkdir` of an existing
directory succeeds and keeps its content (`recursive_mkdir`, lines 14-136, `EEXIST`). -/
def FS.apply (fs : FS A B C) : Op A B C → FS A B C
  | .mkdir i => fs.modify i (fun d => { d with made := true })
  | .openTs i => fs.modify i (fun d => { d with ts := .partialFile })
  | .closeTs i a => fs.modify i (fun d => { d with ts := .complete a })
  | .openImpl i => fs.modify i (fun d => { d with impl := .partialFile })
  | .closeImpl i b => fs.modify i (fun d => { d with impl := .complete b })
  | .openVec i => fs.modify i (fun d => { d with vec := .partialFile })
  | .closeVec i c => fs.modify i (fun d => { d with vec := .complete c })
  | .openInfo i => fs.modify i (fun d => { d with info := .partialFile })
  | .closeInfo i n => fs.modify i (fun d => { d with info := .complete n })
  | .openLast => { fs with last := .partialFile }
  | .closeLast i => { fs with last := .complete i }

/-- Program order of one checkpoint into directory `i`: `ts_checkpoint_create_path` (line 703) and
`ts_checkpoint_write`, `app/common/ts_util.c` lines 771-843. -/
def writeOps (i : Nat) (s : Snap A B C) : List (Op A B C) :=
  [.mkdir i, .openTs i, .closeTs i s.ts, .openImpl i, .closeImpl i s.impl, .openVec i, .closeVec i s.vec,
    .openInfo i, .closeInfo i s.step, .openLast, .closeLast i]

/-- `TSCheckPointStorageType` without `NONE` (with `NONE` no checkpoint is ever written),
`app/common/ts_util.c` lines 654-658 and 968-980. -/
inductive Mode where
  | unlimited
  | limited
deriving DecidableEq

/-- Configuration, `app/common/ts_util.c` lines 933-938. -/
structure Config where
  mode : Mode
  limitedSize : Nat
  freqStep : Nat
  freqCpuMinutes : Rat
  freqTime : Rat

/-- The counters of `_TSCheckPoint`, `app/common/ts_util.c` lines 663-673. -/
structure Counters where
  n : Nat
  cpuLast : Rat
  timeLast : Rat

/-- `PetscCalloc1` and `PetscTime(&tsc->cputime_last)`, `app/common/ts_util.c` lines 933 and 958. -/
def Counters.new (now : Rat) : Counters := ⟨0, now, 0⟩

/-- What `ts_checkpoint` sees after a time step: `app/common/ts_util.c` lines 719, 727, 735 and the data to
save. -/
structure StepInfo (A B C : Type) where
  cpu : Rat
  time : Rat
  snap : Snap A B C

/-- `ts_checkpoint_test`, `app/common/ts_util.c` lines 707-751. `step % 0` is undefined behaviour in C; the
configuration requires a positive frequency. -/
def test (cfg : Config) (c : Counters) (x : StepInfo A B C) : Bool × Counters :=
  let g1 := decide (x.cpu - c.cpuLast ≥ cfg.freqCpuMinutes * 60)
  let c1 := if g1 then { c with cpuLast := x.cpu } else c
  let g2 := decide (x.snap.step % cfg.freqStep = 0)
  let g3 := decide (x.time - c1.timeLast ≥ cfg.freqTime)
  let c2 := if g3 then { c1 with timeLast := x.time } else c1
  (g1 || g2 || g3, c2)

/-- `fileindex`, `app/common/ts_util.c` lines 684-689. -/
def fileIndex (cfg : Config) (n step : Nat) : Nat :=
  match cfg.mode with
  | .unlimited => step
  | .limited => n % cfg.limitedSize

/-- `ts_checkpoint` after every time step, `app/common/ts_util.c` lines 890-918 with `cp->n++` of line 847: the
directories written to, with what, over a run. -/
def checkpoints (cfg : Config) : Counters → List (StepInfo A B C) → List (Nat × Snap A B C)
  | _, [] => []
  | c, x :: xs =>
    match test cfg c x with
    | (true, c') => (fileIndex cfg c'.n x.snap.step, x.snap) :: checkpoints cfg { c' with n := c'.n + 1 } xs
    | (false, c') => checkpoints cfg c' xs

/-- All micro-operations of a run (`app/common/ts_util.c` lines 890-918); a crash executes a prefix. -/
def runOps (cks : List (Nat × Snap A B C)) : List (Op A B C) :=
  cks.flatMap (fun p => writeOps p.1 p.2)

/-- `ts_checkpoint_load`, `app/common/ts_util.c` lines 851-888: reads `ts.bin`, `ts_impl.bin` and `state.vec`;
a missing or truncated file is an error. -/
def load (fs : FS A B C) (i : Nat) : Option (A × B × C) :=
  match (fs.dirs i).ts, (fs.dirs i).impl, (fs.dirs i).vec with
  | .complete a, .complete b, .complete c => some (a, b, c)
  | _, _, _ => none

/-- Restart from `last_checkpoint.txt`, `app/common/PetscTimeSolver.h` lines 66-96: the first line must be
there and name an existing directory, otherwise an exception is thrown (`none`). -/
def restart (fs : FS A B C) : Option (A × B × C) :=
  match fs.last with
  | .complete i => if (fs.dirs i).made then load fs i else none
  | _ => none

end Tandem.TSCheckpoint
