import Verif.Model.Schema
/-!
# What it means for a configuration node to describe a value (property C12)
-/
namespace Tandem.Spec
open Tandem.Schema

/-- The fields of a table schema as a list. -/
def fieldList {α L : Type} : Fields α L → List (String × Kind L × Schema α L)
  | .nil => []
  | .cons k d s r => (k, d, s) :: fieldList r

mutual
/-- `Reads s n v`: the node `n` is a valid description of the value `v` according to schema `s`. -/
inductive Reads {α L : Type} : Schema α L → Node α → Val L → Prop
  | value {conv fs valid a x} : conv a = some x → valid x = true →
      Reads (.value conv fs valid) (.leaf a) (.leaf x)
  | array {of mn mx valid l vs} : mn ≤ l.length → l.length ≤ mx → ReadsAll of l vs →
      valid vs = true → Reads (.array of mn mx valid) (.arr l) (.arr vs)
  | table {fs valid n vs} : ReadsFields fs n vs → valid vs = true →
      Reads (.table fs valid) n (.recd vs)
/-- Entry by entry. -/
inductive ReadsAll {α L : Type} : Schema α L → List (Node α) → List (Val L) → Prop
  | nil {s} : ReadsAll s [] []
  | cons {s n ns v vs} : Reads s n v → ReadsAll s ns vs → ReadsAll s (n :: ns) (v :: vs)
/-- Field by field: a present key must be readable; a missing key gives the default, or nothing for
an optional field, and is not allowed for a required field. -/
inductive ReadsFields {α L : Type} : Fields α L → Node α → List (Option (Val L)) → Prop
  | nil {n} : ReadsFields .nil n []
  | present {k d s r n m v vs} : n.get k = some m → Reads s m v → ReadsFields r n vs →
      ReadsFields (.cons k d s r) n (some v :: vs)
  | default {k s r n v vs} : n.get k = none → ReadsFields r n vs →
      ReadsFields (.cons k (.default v) s r) n (some v :: vs)
  | optional {k s r n vs} : n.get k = none → ReadsFields r n vs →
      ReadsFields (.cons k .optional s r) n (none :: vs)
end

end Tandem.Spec
