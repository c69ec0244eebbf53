import Verif.Model.Hash
/-!
# Model of `src/io/GMSHLexer.cpp` / `.h`

The stream is the list of characters not yet extracted plus one flag for "`eofbit` or `failbit` is
set".  `std::istream::get(char&)` on an exhausted stream sets the flag and leaves the variable
unchanged (C++11 [istream.unformatted]); `peek()` on an exhausted stream sets `eofbit`.

Character classes are those of the "C" locale; characters outside ASCII belong to no class (the C
standard makes `isspace` of a negative `char` undefined, the usual table implementations return 0).

Loops take a fuel argument; running out of fuel for *every* fuel is non-termination.
-/
namespace Tandem.GMSHLexer
open Tandem.Hash

/-- `isspace` in the "C" locale.
Used in src/io/GMSHLexer.cpp line 31. -/
def isSpace (c : Char) : Bool :=
  c = ' ' || c = '\t' || c = '\n' || c = '\r' || c = '\x0b' || c = '\x0c'

/-- `isalpha` in the "C" locale.
Used in src/io/GMSHLexer.cpp lines 34-38. -/
def isAlpha (c : Char) : Bool :=
  (decide ('a' ≤ c) && decide (c ≤ 'z')) || (decide ('A' ≤ c) && decide (c ≤ 'Z'))

/-- `isdigit`.
Used in src/io/GMSHLexer.cpp line 70. -/
def isDigit (c : Char) : Bool := decide ('0' ≤ c) && decide (c ≤ '9')

/-- `mustbereal`, src/io/GMSHLexer.cpp line 68. -/
def mustBeReal (c : Char) : Bool := c = '.' || c = 'e' || c = 'E'

/-- `isnumber`, src/io/GMSHLexer.cpp lines 69-71. -/
def isNumber (c : Char) : Bool := isDigit c || c = '+' || c = '-' || mustBeReal c

/-- `enum class GMSHToken`, src/io/GMSHLexer.h lines 9-22, together with the value that
`getInteger()` / `getReal()` report for it.  For reals the text handed to `strtod` is kept. -/
inductive Tok where
  | eof
  | integer (v : Int)
  | real (text : List Char)
  | string
  | meshFormat | endMeshFormat | nodes | endNodes | elements | endElements
  | unknownSection
  | unknownToken
deriving Repr, DecidableEq

/-- Members of `GMSHLexer`, src/io/GMSHLexer.h lines 31-36, and the state of `*in`. -/
structure St where
  last : Char
  rest : List Char
  bad : Bool
  line : Nat
  col : Nat
deriving Repr, DecidableEq

/-- A lexer with `lastChar = ' '` after `setIStream` on a stream with the given content,
src/io/GMSHLexer.h lines 34-36, 43-46. -/
def start (text : List Char) : St := { last := ' ', rest := text, bad := false, line := 1, col := 1 }

/-- `in->get(lastChar)`;
src/io/GMSHLexer.cpp line 12. -/
def get (s : St) : St :=
  match s.rest with
  | c :: r => { s with last := c, rest := r }
  | [] => { s with bad := true }

/-- `GMSHLexer::advance`, src/io/GMSHLexer.cpp lines 11-20. -/
def advance (s : St) : St :=
  let s := get s
  if s.last = '\n' || s.last = '\r' then { s with line := s.line + 1, col := 1 }
  else { s with col := s.col + 1 }

/-- Result of `getToken`;
src/io/GMSHLexer.cpp lines 22-103. -/
inductive Res where
  | tok (t : Tok) (s : St)
  /-- `std::runtime_error` -/
  | throw
  /-- the given fuel does not suffice -/
  | outOfFuel
deriving Repr, DecidableEq

/-- `while (isspace(lastChar)) advance();`, src/io/GMSHLexer.cpp lines 31-33. -/
def skipSpace : Nat → St → Option St
  | 0, _ => none
  | f + 1, s => if isSpace s.last then skipSpace f (advance s) else some s

/-- The loop over the section name, src/io/GMSHLexer.cpp lines 38-41. -/
def ident : Nat → St → BitVec 64 → Option (St × BitVec 64)
  | 0, _, _ => none
  | f + 1, s, h =>
    if isAlpha s.last then ident f (advance s) (fnv1aStep h (byte s.last)) else some (s, h)

/-- The keyword table in source order, src/io/GMSHLexer.cpp lines 43-62. -/
def keywords : List (String × Tok) :=
  [("MeshFormat", .meshFormat), ("EndMeshFormat", .endMeshFormat), ("Nodes", .nodes),
   ("EndNodes", .endNodes), ("Elements", .elements), ("EndElements", .endElements)]

/-- `switch (hash)`, src/io/GMSHLexer.cpp lines 42-65. -/
def dispatch (h : BitVec 64) : Tok :=
  match keywords.find? (fun kw => fnv1a (bytes kw.1) = some h) with
  | some kw => kw.2
  | none => .unknownSection

/-- `MaxNumberLength`, src/io/GMSHLexer.h line 41. -/
def maxNumberLength : Nat := 128

/-- The do-while loop over the characters of a number, src/io/GMSHLexer.cpp lines 77-82.
`room` is `MaxNumberLength - pos`, `acc` the reversed buffer. The loop body is executed at least
once. -/
def number : Nat → St → List Char → St × List Char
  | 0, s, acc => (s, acc)
  | room + 1, s, acc =>
    let acc := s.last :: acc
    let s' := advance s
    if isNumber s'.last && decide (0 < room) then number room s' acc else (s', acc)

/-- Value of a digit character.
Part of `strtol`, src/io/GMSHLexer.cpp line 91. -/
def digitVal (c : Char) : Nat := c.toNat - '0'.toNat

/-- Digits up to the first non-digit.
Part of `strtol`, src/io/GMSHLexer.cpp line 91. -/
def digitsVal (l : List Char) : Nat := (l.takeWhile isDigit).foldl (fun v c => 10 * v + digitVal c) 0

/-- Clamp to `long` (what `strtol` does on range errors).
Part of `strtol`, src/io/GMSHLexer.cpp line 91. -/
def clampLong (v : Int) : Int := max (-(2 ^ 63)) (min (2 ^ 63 - 1) v)

/-- `std::strtol(buf, 0, 10)` on a buffer without leading white space, used at
src/io/GMSHLexer.cpp line 91. -/
def strtol : List Char → Int
  | '-' :: l => clampLong (-(digitsVal l : Int))
  | '+' :: l => clampLong (digitsVal l)
  | l => clampLong (digitsVal l)

/-- The do-while loop over a quoted string, src/io/GMSHLexer.cpp lines 96-98. -/
def quoted : Nat → St → Option St
  | 0, _ => none
  | f + 1, s => let s := advance s; if s.last = '"' then some s else quoted f s

/-- `GMSHLexer::getToken`, src/io/GMSHLexer.cpp lines 22-103 (for `in != nullptr`). -/
def getToken (fuel : Nat) (s : St) : Res :=
  if s.bad || s.rest.isEmpty then .tok .eof { s with bad := true } else
  match skipSpace fuel s with
  | none => .outOfFuel
  | some s =>
    if s.last = '$' then
      match ident fuel (advance s) fnv1a0 with
      | none => .outOfFuel
      | some (s, h) => .tok (dispatch h) s
    else if isNumber s.last then
      let (s, acc) := number maxNumberLength s []
      if acc.length = maxNumberLength then .throw
      else if acc.reverse.any mustBeReal then .tok (.real acc.reverse) s
      else .tok (.integer (strtol acc.reverse)) s
    else if s.last = '"' then
      match quoted fuel s with
      | none => .outOfFuel
      | some s => .tok .string (advance s)
    else .tok .unknownToken s

/-- Result of asking for tokens until `eof`.
The caller is `getNextToken`, src/io/GMSHParser.h lines 27-30. -/
inductive AllRes where
  | toks (l : List Tok)
  | throw
  | outOfFuel
deriving Repr, DecidableEq

/-- All tokens up to and excluding the first `eof`: the sequence of `getNextToken` calls the parser
makes (src/io/GMSHParser.h lines 27-30); `fuel` bounds both the number of calls and the length of
the loops. -/
def lexAll (fuel : Nat) : Nat → St → AllRes
  | 0, _ => .outOfFuel
  | n + 1, s =>
    match getToken fuel s with
    | .tok .eof _ => .toks []
    | .tok t s' =>
      match lexAll fuel n s' with
      | .toks l => .toks (t :: l)
      | r => r
    | .throw => .throw
    | .outOfFuel => .outOfFuel

end Tandem.GMSHLexer
