import Verif.Model.VTU
import Verif.Model.Monitor
/-!
# Model of a series of VTU/PVD outputs

`FaultWriter` and `DomainWriter` of app/tandem/Writer.h, `PVDWriter` (src/io/PVDWriter.cpp) and
`VTUWriter::write` (src/io/VTUWriter.cpp), as programs of the ranks on a common file system, with all
interleavings that the collective calls allow.  A crash is the end of the execution in any state.

Simplifications: a file is missing, being written (`broken`: between `fopen` and `fclose`) or has a
content; file names are relative to the directory of the prefix (`PVDWriter::addTimestep`, lines 21-24,
makes them so); opening never fails; of the collective calls only the `MPI_Allreduce` of
`VTUWriter::write` is used to order the ranks.
-/
namespace Tandem.OutputSeries

variable {τ Δ : Type}

/-- What is in a file: a piece with time and data of a step (`static` output has no time), the list of pieces of a `.pvtu` file
(src/io/VTUWriter.cpp lines 371-374), the data sets of a `.pvd` file (src/io/PVDWriter.cpp lines 25-29), or a file that is not
finished. -/
inductive File (τ Δ : Type) where
  | piece (time : Option τ) (data : Δ)
  | index (sources : List String)
  | series (entries : List (τ × String))
  | broken

/-- One call of `FaultWriter::write`, `DomainWriter::write` (app/tandem/Writer.h lines 135-155 and 204-223) or
`write_static` (lines 157-164 and 225-232): prefix, output step and time (`none` for static output),
and the data of every writing rank. -/
structure Job (τ Δ : Type) where
  pre : String
  when_ : Option (Nat × τ)
  data : Nat → Δ

/-- `name()`, app/tandem/Writer.h lines 73-77, and the base name of the static output, line 163. -/
def Job.base (j : Job τ Δ) : String :=
  match j.when_ with
  | some (step, _) => j.pre ++ "_" ++ toString step
  | none => j.pre ++ "-static"

/-- `pvtuFileName`, src/io/VTUWriter.h line 80. -/
def pvtuName (base : String) : String := base ++ ".pvtu"

/-- The name of the `.pvd` file, src/io/PVDWriter.cpp line 33. -/
def pvdName (pre : String) : String := pre ++ ".pvd"

/-- The entry that `addTimestep` adds for an output, app/tandem/Writer.h line 152, src/io/PVDWriter.cpp lines 20-30. -/
def Job.entry (j : Job τ Δ) : Option (τ × String) := j.when_.map fun w => (w.2, pvtuName j.base)

/-- The data sets in the document of the `PVDWriter` with prefix `pre` after these outputs: every writer
has a document of its own (app/tandem/Writer.h line 167), to which `addTimestep` appends, src/io/PVDWriter.cpp lines 25-29. -/
def entries (pre : String) (js : List (Job τ Δ)) : List (τ × String) :=
  js.filterMap fun j => if j.pre = pre then j.entry else none

/-- What a rank does, in the order of its program: calling and leaving the collective operation (src/io/VTUWriter.cpp lines 306-308) and
changing a file (lines 320, 357, 362 and 379; src/io/PVDWriter.cpp line 34). -/
inductive Act (τ Δ : Type) where
  | enter (k : Nat)
  | leave (k : Nat)
  | put (name : String) (f : File τ Δ)

/-- Opening a file for writing, which empties it, and closing it with its content: src/io/VTUWriter.cpp lines 320 and
357, 355 and 378; `SaveFile`, src/io/PVDWriter.cpp line 34. -/
def save (name : String) (f : File τ Δ) : List (Act τ Δ) := [.put name .broken, .put name f]

/-- The actions of rank `r` in output number `k` of the run, `j`; `done` are the outputs before it.  The collective call
(src/io/VTUWriter.cpp line 308), the piece of a writing rank (311-357), the `.pvtu` file of the
first writing rank (359-379), and on rank 0 the `.pvd` file (app/tandem/Writer.h lines 151-154). -/
def actions (isWriter : List Bool) (k : Nat) (done : List (Job τ Δ)) (j : Job τ Δ) (r : Nat) : List (Act τ Δ) :=
  [.enter k, .leave k] ++
  (match VTU.writerNo isWriter r with
    | some w => save (VTU.formatName j.base w) (.piece (j.when_.map (·.2)) (j.data w)) ++
        (if w = 0 then save (pvtuName j.base) (.index (VTU.pvtuSources j.base isWriter)) else [])
    | none => []) ++
  (if r = 0 ∧ j.when_.isSome then save (pvdName j.pre) (.series (entries j.pre (done ++ [j]))) else [])

/-- The program of rank `r` for the outputs of the run, in the order of the calls (`Monitor::write_static` first, app/tandem/SEAS.cpp
line 265; then the calls of the time steps): app/tandem/Monitor.cpp lines 33-62. -/
def program (isWriter : List Bool) (jobs : List (Job τ Δ)) (r : Nat) : List (Act τ Δ) :=
  (List.range jobs.length).flatMap fun k =>
    match jobs[k]? with
    | some j => actions isWriter k (jobs.take k) j r
    | none => []

/-- The state of the parallel program: per rank what it has done and what is left, and the files.
(src/io/VTUWriter.cpp lines 298-382) -/
structure State (τ Δ : Type) where
  done : Nat → List (Act τ Δ)
  rest : Nat → List (Act τ Δ)
  fs : String → Option (File τ Δ)

/-- The effect of an action on the files, src/io/VTUWriter.cpp lines 320-379, src/io/PVDWriter.cpp line 34. -/
def Act.effect (a : Act τ Δ) (fs : String → Option (File τ Δ)) : String → Option (File τ Δ) :=
  match a with
  | .put name f => fun x => if x = name then some f else fs x
  | _ => fs

/-- One step of rank `r`: its next action.  `MPI_Allreduce` (src/io/VTUWriter.cpp line 308) returns on a
rank only after all ranks have called it. -/
inductive Step (numRanks : Nat) : State τ Δ → State τ Δ → Prop where
  | act (s : State τ Δ) (r : Nat) (a : Act τ Δ) (rest : List (Act τ Δ)) (hr : r < numRanks) (h : s.rest r = a :: rest)
      (hs : ∀ k, a = .leave k → ∀ q, q < numRanks → .enter k ∈ s.done q) :
      Step numRanks s
        ⟨fun q => if q = r then s.done q ++ [a] else s.done q, fun q => if q = r then rest else s.rest q, a.effect s.fs⟩

/-- The state in which a run with these outputs starts on the given files, src/io/VTUWriter.cpp lines 298-382. -/
def start (isWriter : List Bool) (jobs : List (Job τ Δ)) (fs : String → Option (File τ Δ)) : State τ Δ :=
  ⟨fun _ => [], program isWriter jobs, fs⟩

/-- The states a run can reach, under all schedules, src/io/VTUWriter.cpp lines 298-382. -/
inductive Reachable (numRanks : Nat) (s₀ : State τ Δ) : State τ Δ → Prop where
  | refl : Reachable numRanks s₀ s₀
  | step (s t : State τ Δ) : Reachable numRanks s₀ s → Step numRanks s t → Reachable numRanks s₀ t

/-- The outputs of one writer over a run: `is_write_required`, `write` and `increase_step`
(app/tandem/Monitor.cpp lines 35-62; `Monitor.Writer.run`); the writer is made anew at every start of the
program, with step number 0 (app/tandem/Writer.h line 82), also if the program resumes from a checkpoint. -/
def jobsOf {K : Type} [Field K] [LinearOrder K] (w : Monitor.Writer K) (pre : String) (hist : List (K × K))
    (data : Nat → Nat → Δ) : List (Job K Δ) :=
  (w.run hist).1.map fun o => ⟨pre, some (o.1, o.2.1), data o.1⟩

end Tandem.OutputSeries
