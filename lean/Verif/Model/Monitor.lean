/-
Model of the time-dependent output logic of the SEAS application:
`app/tandem/AdaptiveOutputStrategy.h`, `app/tandem/Writer.h` (class `Writer` and the step counting of
`MomentRateWriter`), `app/tandem/Monitor.h/.cpp` (`Monitor`, `MonitorQD`),
`app/form/SeasQDOperator.cpp`, `app/form/SeasQDDiscreteGreenOperator.cpp` (`update_internal_state`,
`rhs`) and `app/form/FrictionOperator.h` (what `rhs` and `init` leave behind).

Real numbers are elements of an ordered field, so rounding is outside the model.
`lowest` stands for `std::numeric_limits<double>::lowest()`, `huge` for `max()`.
One rank is modelled; `MPI_Allreduce(MAX)` of one value is the value.
-/
import Mathlib.Algebra.Order.Field.Basic
import Mathlib.Algebra.Order.Group.Abs

namespace Tandem.Monitor

variable {K : Type} [Field K] [LinearOrder K]

/-- The four members of `AdaptiveOutputInterval`, `app/tandem/AdaptiveOutputStrategy.h` lines 10-13
and 22-25. -/
structure Interval (K : Type) where
  atol : K
  rtol : K
  tMin : K
  tMax : K

/-- `lte >= 1.0` with `lte = |VMax - last_VMax| / tol`,
`app/tandem/AdaptiveOutputStrategy.h` lines 16-18. Division by a zero tolerance follows IEEE: `x/0 = inf`
passes the test, `0/0 = NaN` does not. -/
def lteGeOne (num tol : K) : Bool :=
  if tol = 0 then decide (num ≠ 0) else decide (1 ≤ num / tol)

/-- `AdaptiveOutputInterval::operator()`, `app/tandem/AdaptiveOutputStrategy.h` lines 15-19. -/
def Interval.due (oi : Interval K) (delta lastV V : K) : Bool :=
  let tol := oi.atol + max lastV V * oi.rtol
  decide (oi.tMax < delta) || (decide (oi.tMin < delta) && lteGeOne |V - lastV| tol)

/-- `DataLevel`, `app/tandem/Writer.h` lines 33-38. -/
inductive Level where
  | scalar | boundary | volume | momentRate
deriving DecidableEq

/-- The counters of `Writer` (`app/tandem/Writer.h` lines 82-84); `gotFirst` is
`MomentRateWriter::received_first_step_` (line 349), which the other writers do not have. -/
structure Writer (K : Type) where
  oi : Interval K
  level : Level
  step : Nat
  lastTime : K
  lastV : K
  gotFirst : Bool

/-- Constructors of the writers with the member initialisers of `Writer`
(`app/tandem/Writer.h` lines 42 and 82-84). -/
def Writer.new (lowest : K) (oi : Interval K) (level : Level) : Writer K :=
  ⟨oi, level, 0, lowest, 0, false⟩

/-- `Writer::is_write_required`, `app/tandem/Writer.h` lines 49-52. -/
def Writer.required (w : Writer K) (time V : K) : Bool :=
  w.oi.due (time - w.lastTime) w.lastV V

/-- `Writer::increase_step`, `app/tandem/Writer.h` lines 60-64, overridden by
`MomentRateWriter::increase_step`, lines 336-342. -/
def Writer.increase (w : Writer K) (time V : K) : Writer K :=
  if w.level = .momentRate ∧ w.gotFirst = false then { w with gotFirst := true }
  else { w with step := w.step + 1, lastTime := time, lastV := V }

/-- The part of the writer loop of `MonitorQD::monitor` that concerns one writer
(`app/tandem/Monitor.cpp` lines 35-36 and 60-61): the step number handed to `write`, if any, and the
writer afterwards. -/
def Writer.visit (w : Writer K) (time V : K) : Option Nat × Writer K :=
  if w.required time V then (some w.step, w.increase time V) else (none, w)

/-- One writer over a sequence of monitor calls `(time, VMax)`; the list of outputs
`(step number, time, VMax)`. `app/tandem/Monitor.cpp` lines 35-62. -/
def Writer.run (w : Writer K) : List (K × K) → List (Nat × K × K) × Writer K
  | [] => ([], w)
  | (t, V) :: rest =>
    match w.visit t V with
    | (some k, w') => let (o, w'') := w'.run rest; ((k, t, V) :: o, w'')
    | (none, w') => w'.run rest

/-- `last_time_`, `dt_min_`, `dt_max_` of `Monitor`, `app/tandem/Monitor.h` lines 46-48. -/
structure Limits (K : Type) where
  lastTime : K
  dtMin : K
  dtMax : K

/-- Member initialisers, `app/tandem/Monitor.h` lines 46-48. -/
def Limits.new (lowest huge : K) : Limits K := ⟨lowest, huge, lowest⟩

/-- `Monitor::update_dt_limits`, `app/tandem/Monitor.cpp` lines 11-18. -/
def Limits.update (lowest : K) (l : Limits K) (time : K) : Limits K :=
  if l.lastTime ≠ lowest then
    ⟨time, min l.dtMin (time - l.lastTime), max l.dtMax (time - l.lastTime)⟩
  else { l with lastTime := time }

/-! ### The operator behind the monitor -/

/-- What the quasi-dynamic operators compute, as functions of the time and the state vector.
`solve` is the linear solve with the slip of the state as boundary data
(`app/form/SeasQDOperator.cpp` lines 57-67), `trac` the evaluation of the traction
(lines 69-74), `green` the dense Green's function product
(`app/form/SeasQDDiscreteGreenOperator.cpp` lines 115-127), `vmax`, `moment` what
`FrictionOperator::rhs` stores (`app/form/FrictionOperator.h` lines 95-116), `init` the state
`FrictionOperator::init` produces (lines 60-87), `fault` the output of `FrictionOperator::state`
(lines 158-181). Ghost exchange is the identity here (C18). -/
structure Physics (K S U R M B : Type) where
  solve : K → S → U
  trac : U → S → R
  green : K → S → R
  vmax : K → R → S → K
  moment : K → R → S → M
  init : K → R → S → S
  vmaxInit : K → R → S → K
  fault : K → R → S → B
  noMoment : M

/-- Fields kept between calls: `linear_solver_.x()`, `traction_` (`app/form/SeasQDOperator.h` lines
96 and 109), `VMax_` and `moment_rate_` (`app/form/FrictionOperator.h` lines 234-235). -/
structure Cache (K U R M : Type) where
  disp : U
  traction : R
  vmax : K
  moment : M

/-- The two quasi-dynamic operator classes, `app/tandem/SEAS.cpp` lines 367-373. -/
inductive OpKind where
  | qd | green
deriving DecidableEq

variable {S U R M B : Type}

/-- `SeasQDOperator::initial_condition`, `app/form/SeasQDOperator.cpp` lines 24-32, and
`SeasQDDiscreteGreenOperator::initial_condition`, `app/form/SeasQDDiscreteGreenOperator.h` lines
51-57. `s0` is the state after `pre_init`. The displacement of the Green operator is whatever the last
solve for a Green's function left, `u0`. Returns the initial state and the cache. -/
def initial (k : OpKind) (P : Physics K S U R M B) (u0 : U) (s0 : S) : S × Cache K U R M :=
  match k with
  | .qd =>
    let u := P.solve 0 s0
    let r := P.trac u s0
    (P.init 0 r s0, ⟨u, r, P.vmaxInit 0 r s0, P.noMoment⟩)
  | .green =>
    let r := P.green 0 s0
    (P.init 0 r s0, ⟨u0, r, P.vmaxInit 0 r s0, P.noMoment⟩)

/-- `SeasQDOperator::rhs`, `app/form/SeasQDOperator.cpp` lines 34-40 and
`SeasQDDiscreteGreenOperator::rhs`, `app/form/SeasQDDiscreteGreenOperator.h` lines 59-63 (the effect on
the members; the result vector belongs to the integrator). -/
def rhs (k : OpKind) (P : Physics K S U R M B) (c : Cache K U R M) (t : K) (s : S) : Cache K U R M :=
  match k with
  | .qd =>
    let u := P.solve t s
    let r := P.trac u s
    ⟨u, r, P.vmax t r s, P.moment t r s⟩
  | .green =>
    let r := P.green t s
    ⟨c.disp, r, P.vmax t r s, P.moment t r s⟩

/-- `update_internal_state`, `app/form/SeasQDOperator.cpp` lines 42-55 and
`app/form/SeasQDDiscreteGreenOperator.cpp` lines 95-113. -/
def updateInternal (k : OpKind) (P : Physics K S U R M B) (c : Cache K U R M) (t : K) (s : S)
    (changed needTraction needDisp : Bool) : Cache K U R M :=
  match k with
  | .qd =>
    if changed && (needTraction || needDisp) then
      let c' := { c with disp := P.solve t s }
      if needTraction then { c' with traction := P.trac c'.disp s } else c'
    else c
  | .green =>
    let c' := if changed && needTraction then { c with traction := P.green t s } else c
    if needDisp then { c' with disp := P.solve t s } else c'

/-- The data handed to `Writer::write`: the four branches of the switch,
`app/tandem/Monitor.cpp` lines 37-59. -/
inductive Payload (K U B M : Type) where
  | scalar (v : K)
  | fault (b : B)
  | volume (u : U)
  | moment (m : M)

/-- The switch over `DataLevel`, `app/tandem/Monitor.cpp` lines 37-59. -/
def payload (P : Physics K S U R M B) (c : Cache K U R M) (t : K) (s : S) (V : K) :
    Level → Payload K U B M
  | .scalar => .scalar V
  | .boundary => .fault (P.fault t c.traction s)
  | .volume => .volume c.disp
  | .momentRate => .moment c.moment

/-- One call of `write` (`app/tandem/Monitor.cpp` lines 39-56): which writer, which step number, which
time and what data. -/
structure Record (K U B M : Type) where
  writer : Nat
  step : Nat
  time : K
  data : Payload K U B M

/-- The second loop over the writers, `app/tandem/Monitor.cpp` lines 35-63. -/
def writeAll (P : Physics K S U R M B) (c : Cache K U R M) (t : K) (s : S) (V : K) :
    Nat → List (Writer K) → List (Record K U B M) × List (Writer K)
  | _, [] => ([], [])
  | i, w :: ws =>
    let (o, ws') := writeAll P c t s V (i + 1) ws
    match w.visit t V with
    | (some k, w') => (⟨i, k, t, payload P c t s V w.level⟩ :: o, w' :: ws')
    | (none, w') => (o, w' :: ws')

/-- `MonitorQD::monitor` without `update_dt_limits`, `app/tandem/Monitor.cpp` lines 20-64. -/
def monitor (k : OpKind) (fsal : Bool) (P : Physics K S U R M B)
    (c : Cache K U R M) (ws : List (Writer K)) (t : K) (s : S) :
    List (Record K U B M) × Cache K U R M × List (Writer K) :=
  if ws.isEmpty then ([], c, ws)
  else
    let V := c.vmax
    let needTraction := ws.any (fun w => w.required t V && decide (w.level = .boundary))
    let needDisp := ws.any (fun w => w.required t V && decide (w.level = .volume))
    let c' := updateInternal k P c t s (!fsal) needTraction needDisp
    let (o, ws') := writeAll P c' t s V 0 ws
    (o, c', ws')

/-- What the time integrator does with the operator: right-hand-side evaluations (stages, also of rejected
steps) and monitor calls, `app/common/PetscTimeSolver.h` lines 116-151. -/
inductive Event (K S : Type) where
  | rhs (t : K) (s : S)
  | monitor (t : K) (s : S)

/-- A run of the integrator (callbacks of `app/common/PetscTimeSolver.h` lines 116-151 in the given
order): the records written, and the final cache and writers. -/
def run (k : OpKind) (fsal : Bool) (P : Physics K S U R M B) :
    Cache K U R M → List (Writer K) → List (Event K S) →
      List (Record K U B M) × Cache K U R M × List (Writer K)
  | c, ws, [] => ([], c, ws)
  | c, ws, .rhs t s :: es => run k fsal P (rhs k P c t s) ws es
  | c, ws, .monitor t s :: es =>
    let (o, c', ws') := monitor k fsal P c ws t s
    let (o', c'', ws'') := run k fsal P c' ws' es
    (o ++ o', c'', ws'')

end Tandem.Monitor
