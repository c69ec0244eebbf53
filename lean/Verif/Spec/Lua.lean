import Verif.Model.Lua
/-! # Specification of a call from the program into the script (C52)

Written in terms of the interpreter only; there is no stack here. -/
namespace Tandem.Spec
open Lua
variable {N σ : Type}

/-- The Lua value `v` counts as the number `x`: it is a number, or a string that Lua converts. -/
def CountsAs (I : Interp N σ) (v : Val N) (x : N) : Prop :=
  v = .number x ∨ (∃ i, v = .integer i ∧ x = I.ofInt i) ∨ ∃ s, v = .string s ∧ I.ofString s = some x

/-- The Lua value is a table. -/
def IsTable (v : Val N) : Prop := ∃ id, v = .table id

/-- What a call of the Lua value `f` with arguments `args` in state `s` that expects `n` numbers must
do: the error of the script is passed on; otherwise the first `n` returned values (a missing one is
`nil`) must be numbers, and the result consists of these, in this order; the first one that is not is
reported. -/
def LuaCall (I : Interp N σ) (s : σ) (f : Val N) (args : List (Val N)) (n : Nat) :
    σ → Except (Error N) (List N) → Prop := fun s' res =>
  s' = (I.call s f args).1 ∧
  match (I.call s f args).2 with
  | .error e => res = .error (.script e)
  | .ok rs =>
    (∃ v : List N, v.length = n ∧ res = .ok v ∧
      ∀ d, (h : d < v.length) → CountsAs I (rs.getD d .nil) v[d]) ∨
    (∃ d < n, (¬∃ x, CountsAs I (rs.getD d .nil) x) ∧ (∀ d' < d, ∃ x, CountsAs I (rs.getD d' .nil) x) ∧
      res = .error (.notANumber d))

end Tandem.Spec
