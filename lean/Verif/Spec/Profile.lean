import Verif.Model.Profile
/-! # What the table of a profile says (C105) -/
namespace Tandem.Spec
open Profile

/-- The statistics of the values of all ranks: least and greatest value, arithmetic mean, and a median: at most half of the
values are below it and at most half are above it. -/
structure IsSummary (values : List ℚ) (s : Summary) : Prop where
  min : s.min ∈ values ∧ ∀ x ∈ values, s.min ≤ x
  max : s.max ∈ values ∧ ∀ x ∈ values, x ≤ s.max
  mean : s.mean * values.length = values.sum
  below : 2 * (values.filter (· < s.median)).length ≤ values.length
  above : 2 * (values.filter (s.median < ·)).length ≤ values.length

/-- The calls for region `i` are a sequence of intervals from `a` to `b`, with `f` operations each. -/
def Intervals (i : ℕ) (es : List Event) (I : List (ℤ × ℤ × ℕ)) : Prop :=
  es.filter (fun e => e.region = i) = I.flatMap fun x => [.begin i x.1, .stop i x.2.1 x.2.2]

end Tandem.Spec
