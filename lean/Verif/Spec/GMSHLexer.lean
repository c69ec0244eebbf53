import Verif.Model.GMSHLexer
/-!
# What the text of a token stream looks like (independent of the lexer's loops)
-/
namespace Tandem.Spec
open Tandem.GMSHLexer Tandem.Hash

/-- A printed token. -/
inductive PTok where
  /-- `$name` -/
  | sect (name : List Char)
  /-- a number -/
  | num (text : List Char)
  /-- a quoted string -/
  | str (content : List Char)

/-- Its characters. -/
def PTok.text : PTok → List Char
  | .sect n => '$' :: n
  | .num t => t
  | .str c => '"' :: (c ++ ['"'])

/-- What may be printed. -/
def PTok.Ok : PTok → Prop
  | .sect n => ∀ c ∈ n, isAlpha c = true
  | .num t => t ≠ [] ∧ t.length < 128 ∧ ∀ c ∈ t, isNumber c = true
  | .str c => '"' ∉ c

/-- What the reader is expected to report. -/
def PTok.meaning : PTok → Tok
  | .sect n => dispatch (running (n.map byte))
  | .num t => if t.any mustBeReal then .real t else .integer (strtol t)
  | .str _ => .string

/-- A stream of tokens, each followed by its separator. -/
def layout (ts : List (PTok × List Char)) : List Char := ts.flatMap (fun p => p.1.text ++ p.2)

/-- Separators are non-empty white space; the last one is a single character. -/
def SepOk : List (PTok × List Char) → Prop
  | [] => True
  | [p] => ∃ c, p.2 = [c] ∧ isSpace c = true
  | p :: q :: r => p.2 ≠ [] ∧ (∀ c ∈ p.2, isSpace c = true) ∧ SepOk (q :: r)

/-- Some calls for a token, none of which reports end-of-file, lead from one state of the reader to another. -/
inductive Calls : St → St → Prop
  | none (s : St) : Calls s s
  | call {s s1 s2 : St} (k : Nat) (t : Tok) : getToken k s = .tok t s1 → t ≠ .eof → Calls s1 s2 → Calls s s2

/-- The next call never returns, or it and all later ones report the same unknown token. -/
def Stuck (s : St) : Prop := (∀ k, getToken k s = .outOfFuel) ∨ (∀ k, 0 < k → getToken k s = .tok .unknownToken s)

end Tandem.Spec
