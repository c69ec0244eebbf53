/-
Specification for C49: what a printed duration means.
-/
import Verif.Model.LogTime

namespace Tandem.Spec
open Tandem.LogTime

/-- Length of the units in seconds; a year has 365.25 days. -/
def unitSeconds : TimeUnit → ℚ
  | .y => 31557600
  | .d => 86400
  | .h => 3600
  | .m => 60
  | .s => 1

/-- The duration a list of "number unit" pieces stands for. -/
def durationOf (l : List (ℚ × TimeUnit)) : ℚ := (l.map (fun p => p.1 * unitSeconds p.2)).sum

/-- The length in seconds of the unit a letter stands for. -/
def letterSeconds : Char → Option ℚ
  | 'y' => some 31557600
  | 'd' => some 86400
  | 'h' => some 3600
  | 'm' => some 60
  | 's' => some 1
  | _ => none

/-- Reading a text: numbers, each followed by the letter of a unit; blanks are skipped. `val` reads a
number, `w` are the characters of the number so far. -/
def readDuration (val : List Char → ℚ) (w : List Char) : List Char → ℚ
  | [] => 0
  | c :: cs =>
    match letterSeconds c with
    | some u => val w * u + readDuration val [] cs
    | none => if c = ' ' then readDuration val w cs else readDuration val (w ++ [c]) cs

/-- A duration as a person would write it: from large to small units, no unit twice, everything but the seconds a
whole number, no superfluous zero, and what follows a unit amounts to less than one of it. -/
def WellWritten : List (ℚ × TimeUnit) → Prop
  | [] => True
  | p :: l =>
    0 < p.1 ∧ (p.2 ≠ .s → ∃ n : ℕ, p.1 = n) ∧ (∀ q ∈ l, unitSeconds q.2 < unitSeconds p.2) ∧
      durationOf l < unitSeconds p.2 ∧ WellWritten l

/-- The numbers that can stand before the unit: less than the next larger unit. -/
def belowNext : ℚ × TimeUnit → Prop
  | (_, .y) => True
  | (x, .d) => x < 366
  | (x, .h) => x < 24
  | (x, .m) => x < 60
  | (x, .s) => x < 60

end Tandem.Spec
