/-
Model of `format_time`, app/common/PetscLoggingUtils.h lines 33-70: how the custom monitor of the time
integrator prints the simulation time and the time step.

Arithmetic is exact (`PetscReal` as rational numbers); the range of `PetscInt` is not modelled. Only the text of
the seconds, which `operator<<(double)` rounds to six digits, is left abstract.
-/
import Mathlib.Data.Rat.Floor
import Mathlib.Algebra.Order.Floor.Ring
import Mathlib.Tactic.Linarith
import Mathlib.Tactic.Ring
import Mathlib.Tactic.NormNum
import Mathlib.Tactic.FieldSimp

namespace Tandem.LogTime

/-- The unit letters printed behind the numbers, app/common/PetscLoggingUtils.h lines 52-66. -/
inductive TimeUnit where
  | y | d | h | m | s
deriving DecidableEq, Repr

/-- The cast `(PetscInt)(x)`: rounds towards zero. app/common/PetscLoggingUtils.h lines 39-48. -/
def toInt (x : ℚ) : ℤ := if 0 ≤ x then ⌊x⌋ else ⌈x⌉

/-- The five numbers of `format_time`, app/common/PetscLoggingUtils.h lines 38-49. -/
structure Split where
  years : ℤ
  days : ℤ
  hours : ℤ
  minutes : ℤ
  seconds : ℚ

/-- `format_time`, app/common/PetscLoggingUtils.h lines 38-49. -/
def split (t : ℚ) : Split :=
  let years := toInt (t / (60 * 60 * 24 * (36525 / 100)))
  let t1 := t - years * 60 * 60 * 24 * (36525 / 100)
  let days := toInt (t1 / (60 * 60 * 24))
  let t2 := t1 - days * 60 * 60 * 24
  let hours := toInt (t2 / (60 * 60))
  let t3 := t2 - hours * 60 * 60
  let minutes := toInt (t3 / 60)
  ⟨years, days, hours, minutes, t3 - minutes * 60⟩

/-- Years to minutes, written if positive, in the order of writing; app/common/PetscLoggingUtils.h lines
53-64. -/
def largeUnits (p : Split) : List (ℚ × TimeUnit) :=
  (if 0 < p.years then [((p.years : ℚ), TimeUnit.y)] else [])
    ++ (if 0 < p.days then [((p.days : ℚ), TimeUnit.d)] else [])
    ++ (if 0 < p.hours then [((p.hours : ℚ), TimeUnit.h)] else [])
    ++ (if 0 < p.minutes then [((p.minutes : ℚ), TimeUnit.m)] else [])

/-- All pieces: the seconds follow if they are positive or nothing was written before;
app/common/PetscLoggingUtils.h lines 53-67. -/
def pieces (t : ℚ) : List (ℚ × TimeUnit) :=
  if 0 < (split t).seconds ∨ largeUnits (split t) = [] then
    largeUnits (split t) ++ [((split t).seconds, TimeUnit.s)]
  else largeUnits (split t)

/-- What follows the number: the letter and, except behind the seconds, a blank;
app/common/PetscLoggingUtils.h lines 54, 57, 60, 63 and 66. -/
def unitText : TimeUnit → String
  | .y => "y "
  | .d => "d "
  | .h => "h "
  | .m => "m "
  | .s => "s"

/-- The text of one piece, app/common/PetscLoggingUtils.h lines 54, 57, 60, 63 and 66. `num` is `operator<<` for
the number. -/
def pieceText (num : ℚ → String) (p : ℚ × TimeUnit) : String := num p.1 ++ unitText p.2

/-- `format_time`, app/common/PetscLoggingUtils.h lines 33-70. -/
def formatTime (num : ℚ → String) (t : ℚ) : String := String.join ((pieces t).map (pieceText num))

end Tandem.LogTime
