import Verif.Spec.Lua
import Verif.Model.Scenario
/-! # Specification of scenarios (C88)

What a function of the program must do, in terms of the script. -/
namespace Tandem.Spec
open Lua Scenario
variable {N σ : Type}

/-- The program's function calls the method of the table with the table itself and the `Din` given
numbers, and takes `n` results; it leaves nothing on the interpreter's stack. -/
def CallsMethod (I : Interp N σ) (table method : String) (Din n : Nat) (F : Fn N σ) : Prop :=
  ∀ (x : List N) (L : State N σ), x.length = Din → IsTable (I.global L.script table) →
    LuaCall I L.script (I.field L.script (I.global L.script table) method)
      (I.global L.script table :: x.map Val.number) n (F x L).1.script (F x L).2 ∧
    ((F x L).2.isOk = true → (F x L).1.stack = L.stack)

/-- As `CallsMethod`; the tag of the region is the last argument. -/
def CallsTagged (I : Interp N σ) (table method : String) (Din n : Nat) (F : TagFn N σ) : Prop :=
  ∀ (x : List N) (tag : Int) (L : State N σ), x.length = Din → IsTable (I.global L.script table) →
    LuaCall I L.script (I.field L.script (I.global L.script table) method)
      (I.global L.script table :: x.map Val.number ++ [.integer tag]) n (F x tag L).1.script (F x tag L).2 ∧
    ((F x tag L).2.isOk = true → (F x tag L).1.stack = L.stack)

/-- As `CallsMethod`, with the time as last argument after the `D` coordinates. -/
def CallsAtTime (I : Interp N σ) (table method : String) (D n : Nat) (time : N) (F : Fn N σ) : Prop :=
  ∀ (x : List N) (L : State N σ), x.length = D → IsTable (I.global L.script table) →
    LuaCall I L.script (I.field L.script (I.global L.script table) method)
      (I.global L.script table :: x.map Val.number ++ [.number time]) n (F x L).1.script (F x L).2 ∧
    ((F x L).2.isOk = true → (F x L).1.stack = L.stack)

/-- The scenario (in script state `s`) has the member. -/
def Has (I : Interp N σ) (s : σ) (table name : String) : Prop := I.field s (I.global s table) name ≠ .nil

/-- An optional function: the script's method if it has one, otherwise the given default. -/
def OptionalMethod (I : Interp N σ) (s : σ) (table name : String) (Din n : Nat) (dflt : List N → List N)
    (F : Fn N σ) : Prop :=
  (Has I s table name → CallsMethod I table name Din n F) ∧
  (¬Has I s table name → ∀ x L, F x L = (L, .ok (dflt x)))

/-- An optional material function: the script's method if it has one, otherwise the given constant. -/
def OptionalTagged (I : Interp N σ) (s : σ) (table name : String) (Din : Nat) (dflt : N) (F : TagFn N σ) : Prop :=
  (Has I s table name → CallsTagged I table name Din 1 F) ∧
  (¬Has I s table name → ∀ x tag L, F x tag L = (L, .ok [dflt]))

/-- An option that is set exactly if the script has the method. -/
def MaybeMethod {α : Type} (I : Interp N σ) (s : σ) (table name : String) (P : α → Prop) (F : Option α) : Prop :=
  (Has I s table name → ∃ f, F = some f ∧ P f) ∧ (¬Has I s table name → F = none)

/-- Calling the method returns the numbers `v` and does not change the script. -/
def Returns (I : Interp N σ) (s : σ) (table method : String) (args : List (Val N)) (v : List N) : Prop :=
  ∃ rs, I.call s (I.field s (I.global s table) method) (I.global s table :: args) = (s, .ok rs) ∧
    ∀ d, (h : d < v.length) → CountsAs I (rs.getD d .nil) v[d]

/-- The functions common to the scenarios of the static solver. -/
def BaseOk (I : Interp N σ) (s : σ) (sc : String) (D Q : Nat) (n : List N) (S : Base N σ) : Prop :=
  S.ref_normal = n ∧
  OptionalMethod I s sc "warp" D D id S.warp ∧
  MaybeMethod I s sc "force" (CallsMethod I sc "force" D Q) S.force ∧
  MaybeMethod I s sc "boundary" (CallsMethod I sc "boundary" D Q) S.boundary ∧
  MaybeMethod I s sc "slip" (CallsMethod I sc "slip" D Q) S.slip ∧
  MaybeMethod I s sc "solution" (CallsMethod I sc "solution" D Q) S.solution ∧
  MaybeMethod I s sc "solution_jacobian" (CallsMethod I sc "solution_jacobian" D (Q * D)) S.solution_jacobian

/-- What `param_fun` needs of an optional parameter: the method returns the numbers, or the script does
not have it and they are the default. -/
def Gives (I : Interp N σ) (s : σ) (sc name : String) (dflt : List N) (x v : List N) : Prop :=
  (Has I s sc name ∧ Returns I s sc name (x.map Val.number) v) ∨ (¬Has I s sc name ∧ v = dflt)

end Tandem.Spec
