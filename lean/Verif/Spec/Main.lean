import Verif.Model.Main
import Verif.Spec.Schema
/-!
# Vocabulary for property C53: starting the program
-/
namespace Tandem.Spec
open Tandem.Schema Tandem.Main

/-- Ignoring case. -/
def lowerCase (v : List Char) : List Char := v.map Char.toLower

/-- The keywords of the documentation, in the order in which they are tried. -/
def modeWords : List (String × Mode) :=
  [("QuasiDynamic", .quasiDynamic), ("QD", .quasiDynamic),
   ("QuasiDynamicDiscreteGreen", .quasiDynamicDiscreteGreen), ("QDGreen", .quasiDynamicDiscreteGreen),
   ("FullyDynamic", .fullyDynamic), ("FD", .fullyDynamic)]
def opWords : List (String × OpType) :=
  [("poisson", .poisson), ("elastic", .elasticity), ("elasticity", .elasticity)]
def mgWords : List (String × MG) :=
  [("TwoLevel", .twoLevel), ("Logarithmic", .logarithmic), ("Full", .full)]
def storageWords : List (String × Storage) :=
  [("none", .none), ("limited", .limited), ("unlimited", .unlimited)]
def tableWords : List (String × TableType) := [("Tecplot", .tecplot), ("CSV", .csv)]

/-- The first word of which `v` is a beginning, ignoring case. -/
def abbreviated {β : Type} (words : List (String × β)) (v : List Char) : Option β :=
  (words.find? (fun p => decide (lowerCase v <+: lowerCase p.1.toList))).map Prod.snd

/-- The names a path consists of; `.` and `..` are names. -/
def names (p : List Char) : List (List Char) := (p.splitOn '/').filter (fun s => decide (s ≠ []))

/-- The names on the way from the root to the object denoted by a path in a process with current
directory `cwd`. -/
def location (cwd : List (List Char)) (p : List Char) : List (List Char) :=
  if p.head? = some '/' then names p else cwd ++ names p

/-- What a member holds after the command line was applied: `r` is the final value, `o` the option given
on the command line, `fromFile` the value after reading the file. -/
def AfterCmdLine {α L : Type} (s : Schema α L) (o : Option (List Char))
    (fromFile r : Option (Val L)) : Prop :=
  match s, o with
  | .value _ fromStr valid, some t => ∃ x, fromStr t = some x ∧ valid x = true ∧ r = some (.leaf x)
  | _, _ => r = fromFile

/-- The member that belongs to a key (first field with that key). -/
def memberOf {α L : Type} : Fields α L → List (Option (Val L)) → String → Option (Val L)
  | .cons k _ _ r, v :: vs, key => if k = key then v else memberOf r vs key
  | _, _, _ => none

/-- The constraints documented for an output section. -/
def GoodOutput (e : Env α) (fs : Fields α Leaf) (o : Option (Val Leaf)) : Prop :=
  ∀ v, o = some v → ∃ vs prefix' atol rtol tmin tmax, v = .recd vs ∧
    memberOf fs vs "prefix" = some (.leaf (.str prefix')) ∧
    memberOf fs vs "atol" = some (.leaf (.real atol)) ∧
    memberOf fs vs "rtol" = some (.leaf (.real rtol)) ∧
    memberOf fs vs "t_min" = some (.leaf (.real tmin)) ∧
    memberOf fs vs "t_max" = some (.leaf (.real tmax)) ∧
    ('/' ∈ prefix' → e.exist (parentPath prefix') = true) ∧
    0 ≤ atol ∧ 0 ≤ rtol ∧ 0 ≤ tmin ∧ 0 < tmax

end Tandem.Spec
