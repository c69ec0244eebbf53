import Verif.Model.GMSHLexer
/-!
# Model of `src/io/GMSHParser.cpp`

The parser asks the lexer for one token at a time.  The model parses the list of tokens the lexer
delivers (`GMSHLexer.lexAll`), end-of-file being the empty list; so a lexer that throws or hangs is
not part of this model (see property C34).  `double` values are kept as the token they came from
(`Num`); the version test `2.0 <= version < 3.0` is a parameter.  The calls on the `MeshBuilder` are
recorded in order.
-/
namespace Tandem.GMSHParser
open Tandem.GMSHLexer

/-- A number token: what `getNumber` returns, src/io/GMSHParser.cpp lines 26-33. -/
inductive Num where
  | int (v : Int)
  | real (text : List Char)
deriving Repr, DecidableEq

/-- `getNumber`, src/io/GMSHParser.cpp lines 26-33. -/
def getNumber : Tok → Option Num
  | .integer v => some (.int v)
  | .real t => some (.real t)
  | _ => none

/-- Calls on `MeshBuilder`, src/io/MeshParser.h lines 12-19. -/
inductive Call where
  | setNumVertices (n : Nat)
  | setVertex (id : Int) (x : List Num)
  | setNumElements (n : Nat)
  | addElement (type tag : Int) (nodes : List Int)
deriving Repr, DecidableEq

/-- Parser state: the tokens from the current one on (`curTok` is the head, `eof` if empty), the
builder calls so far, and the number of logged errors;
src/io/GMSHParser.h lines 18-30. -/
structure St where
  toks : List Tok
  calls : List Call
  errors : Nat
deriving Repr, DecidableEq

/-- `curTok`;
src/io/GMSHParser.h line 22. -/
def cur (s : St) : Tok := s.toks.headD .eof

/-- `getNextToken`, src/io/GMSHParser.h lines 27-30.  After end-of-file the lexer keeps returning
end-of-file. -/
def next (s : St) : St := { s with toks := s.toks.tail }

/-- `logError`, `logErrorAnnotated`, src/io/GMSHParser.cpp lines 11-24. -/
def logError (s : St) : St := { s with errors := s.errors + 1 }

/-- Record a builder call;
src/io/GMSHParser.cpp lines 119, 140, 162 and 205. -/
def call (s : St) (c : Call) : St := { s with calls := s.calls ++ [c] }

/-- `parseMeshFormat`, src/io/GMSHParser.cpp lines 91-111.  `none`: an error was logged and `0.0`
returned. -/
def parseMeshFormat (s : St) : Option Num × St :=
  if cur s ≠ .meshFormat then (none, logError s) else
  let s := next s
  match getNumber (cur s) with
  | none => (none, logError s)
  | some version =>
    let s := next s
    if cur s ≠ .integer 0 then (none, logError s) else
    let s := next s
    let s := next s
    if cur s ≠ .endMeshFormat then (none, logError s) else
    (some version, next s)

/-- The inner loop over the `k` remaining coordinates, src/io/GMSHParser.cpp lines 131-139. -/
def coords : Nat → St → Option (List Num) × St
  | 0, s => (some [], s)
  | k + 1, s =>
    let s := next s
    match getNumber (cur s) with
    | none => (none, logError s)
    | some c =>
      match coords k s with
      | (some cs, s) => (some (c :: cs), s)
      | (none, s) => (none, s)

/-- The loop over the `k` remaining nodes, src/io/GMSHParser.cpp lines 121-141. -/
def nodeLoop (numVertices : Nat) : Nat → St → Bool × St
  | 0, s => (true, s)
  | k + 1, s =>
    let s := next s
    match cur s with
    | .integer id =>
      if id < 1 ∨ id > numVertices then (false, logError s) else
      match coords 3 s with
      | (none, s) => (false, s)
      | (some x, s) => nodeLoop numVertices k (call s (.setVertex (id - 1) x))
    | _ => (false, logError s)

/-- `parseNodes`, src/io/GMSHParser.cpp lines 113-148. -/
def parseNodes (s : St) : Bool × St :=
  let s := next s
  match cur s with
  | .integer n =>
    if n < 0 then (false, logError s) else
    let s := call s (.setNumVertices n.toNat)
    match nodeLoop n.toNat n.toNat s with
    | (false, s) => (false, s)
    | (true, s) =>
      let s := next s
      if cur s ≠ .endNodes then (false, logError s) else (true, next s)
  | _ => (false, logError s)

/-- `MeshParser::NumNodes`, src/io/MeshParser.h lines 34-163. -/
def numNodes : List Nat :=
  [2, 3, 4, 4, 8, 6, 5, 3, 6, 9, 10, 27, 18, 14, 1, 8,
    20, 15, 13, 9, 10, 12, 15, 15, 21, 4, 5, 6, 20, 35, 56, 22,
    28, 0, 0, 16, 25, 36, 12, 16, 20, 28, 36, 45, 55, 66, 49, 64,
    81, 100, 121, 18, 21, 24, 27, 30, 24, 28, 32, 36, 40, 7, 8, 9,
    10, 11, 0, 0, 0, 0, 84, 120, 165, 220, 286, 34, 40, 46, 52, 58,
    1, 1, 1, 1, 1, 1, 40, 75, 64, 125, 216, 343, 512, 729, 1000, 32,
    44, 56, 68, 80, 92, 104, 126, 196, 288, 405, 550, 24, 33, 42, 51, 60,
    69, 78, 30, 55, 91, 140, 204, 285, 385, 21, 29, 37, 45, 53, 61, 69]

/-- The loop over the `k` remaining tags; `i` is the loop index, `tag` the variable declared outside
of the element loop, src/io/GMSHParser.cpp lines 183-192. -/
def tagLoop : Nat → Nat → Int → St → Option Int × St
  | 0, _, tag, s => (some tag, s)
  | k + 1, i, tag, s =>
    let s := next s
    match cur s with
    | .integer v => tagLoop k (i + 1) (if i = 0 then v else tag) s
    | _ => (none, logError s)

/-- The loop over the `k` remaining node numbers, src/io/GMSHParser.cpp lines 194-203. -/
def elemNodes : Nat → St → Option (List Int) × St
  | 0, s => (some [], s)
  | k + 1, s =>
    let s := next s
    match cur s with
    | .integer v =>
      if v < 1 then (none, logError s) else
      match elemNodes k s with
      | (some l, s) => (some ((v - 1) :: l), s)
      | (none, s) => (none, s)
    | _ => (none, logError s)

/-- The loop over the `k` remaining elements, src/io/GMSHParser.cpp lines 164-206. -/
def elemLoop : Nat → Int → St → Bool × St
  | 0, _, s => (true, s)
  | k + 1, tag, s =>
    let s := next s
    match cur s with
    | .integer _ =>
      let s := next s
      match cur s with
      | .integer type =>
        if type < 1 ∨ type > numNodes.length then (false, logError s) else
        let s := next s
        match cur s with
        | .integer numTags =>
          if numTags < 0 then (false, logError s) else
          match tagLoop numTags.toNat 0 tag s with
          | (none, s) => (false, s)
          | (some tag, s) =>
            match elemNodes (numNodes.getD (type - 1).toNat 0) s with
            | (none, s) => (false, s)
            | (some nodes, s) => elemLoop k tag (call s (.addElement type tag nodes))
        | _ => (false, logError s)
      | _ => (false, logError s)
    | _ => (false, logError s)

/-- `parseElements`, src/io/GMSHParser.cpp lines 150-214. -/
def parseElements (s : St) : Bool × St :=
  let s := next s
  match cur s with
  | .integer n =>
    if n < 0 then (false, logError s) else
    let s := call s (.setNumElements n.toNat)
    match elemLoop n.toNat (-1) s with
    | (false, s) => (false, s)
    | (true, s) =>
      let s := next s
      if cur s ≠ .endElements then (false, logError s) else (true, next s)
  | _ => (false, logError s)

/-- The section loop of `parse_`, src/io/GMSHParser.cpp lines 72-86.  The results of `parseNodes` and
`parseElements` are ignored, as in the source.  `none`: out of fuel. -/
def sections : Nat → Bool → Bool → St → Option (Bool × Bool × St)
  | 0, _, _, _ => none
  | f + 1, hasNodes, hasElements, s =>
    match cur s with
    | .eof => some (hasNodes, hasElements, s)
    | .nodes => sections f true hasElements (parseNodes s).2
    | .elements => sections f hasNodes true (parseElements s).2
    | _ => sections f hasNodes hasElements (next s)

/-- `parse_`, src/io/GMSHParser.cpp lines 58-89: result, builder calls and number of errors logged.
`supported` is the test `!(version < 2.0 || version >= 3.0)`; the failed version `0.0` is not
supported.  (Not modelled: `sprintf` into a 128 byte buffer with an unbounded `%.1lf`, line 65.) -/
def parse (supported : Num → Bool) (fuel : Nat) (toks : List Tok) : Option (Bool × St) :=
  let s : St := { toks := toks, calls := [], errors := 0 }
  match parseMeshFormat s with
  | (none, s) => some (false, logError s)
  | (some v, s) =>
    if supported v = false then some (false, logError s) else
    match sections fuel false false s with
    | none => none
    | some (hn, he, s) => some (hn && he, s)

end Tandem.GMSHParser
