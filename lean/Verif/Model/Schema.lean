/-!
# Model of `src/util/Schema.h` and `iEquals` of `src/util/SchemaHelper.h`

The C++ schema of a table stores pointers to members; here the result of a table is the list of its
members in the order in which they were added, `none` being a disengaged `std::optional` member.
Conversion functions and validators are arbitrary functions.
-/
namespace Tandem.Schema

/-- A TOML node (`toml::node`, as used in src/util/Schema.h lines 77-102, 200-237, 327-338): a
scalar, an array, or a table (list of key/value pairs, first occurrence counts). -/
inductive Node (α : Type) where
  | leaf (a : α)
  | arr (l : List (Node α))
  | tbl (l : List (String × Node α))

/-- A translated value: src/util/Schema.h, the types `T` of lines 69, 305 and `array_type` of line 185;
`recd` is a struct. -/
inductive Val (L : Type) where
  | leaf (x : L)
  | arr (l : List (Val L))
  | recd (l : List (Option (Val L)))

/-- How a member reacts to a missing key: `Model<U,S>` without / with a default value
(src/util/Schema.h lines 412-424) and `Model<std::optional<U>,S>` (lines 437-446). -/
inductive Kind (L : Type) where
  | required
  | default (v : Val L)
  | optional

mutual
/-- The three schema classes, src/util/Schema.h lines 69-182 (`ValueSchema`: `conv` is
`node.value<T>()` or the converter, `fromStr` is `translate(std::string_view)` before validation),
185-292 (`ArraySchemaCommon` with bounds), 305-362 (`TableSchema`).  `valid` is the validator
(constantly true if none was set).  An array schema without element schema (line 201) is left out. -/
inductive Schema (α L : Type) where
  | value (conv : α → Option L) (fromStr : List Char → Option L) (valid : L → Bool)
  | array (of : Schema α L) (min max : Nat) (valid : List (Val L) → Bool)
  | table (fs : Fields α L) (valid : List (Option (Val L)) → Bool)
/-- `entries_`, src/util/Schema.h line 466. -/
inductive Fields (α L : Type) where
  | nil
  | cons (key : String) (kind : Kind L) (s : Schema α L) (rest : Fields α L)
end

/-- Reasons for an exception, src/util/Schema.h lines 59, 83, 207, 213, 417. -/
inductive Reason where
  | validator | conversion | notArray | arraySize | missing
deriving DecidableEq, Repr

/-- One line `--> key` or `--> entry idx` of the message, src/util/Schema.h lines 226-231, 458-463. -/
inductive Step where
  | key (k : String)
  | entry (i : Nat)
deriving DecidableEq, Repr

/-- An exception: the location lines (outermost first) and the reason, src/util/Schema.h lines
225-232, 333, 454-464. -/
structure Err where
  path : List Step
  reason : Reason
deriving DecidableEq, Repr

/-- `node[key]` of a `toml::node_view`, used at src/util/Schema.h line 331: an empty view unless the
node is a table that contains the key. -/
def Node.get {α : Type} : Node α → String → Option (Node α)
  | .tbl l, k => (l.find? (fun p => p.1 = k)).map Prod.snd
  | _, _ => none

/-- The loop over the entries of an array, src/util/Schema.h lines 221-234. -/
def mapEntries {α L : Type} (f : Node α → Except Err (Val L)) :
    Nat → List (Node α) → Except Err (List (Val L))
  | _, [] => .ok []
  | i, n :: ns =>
    match f n with
    | .error e => .error ⟨.entry i :: e.path, e.reason⟩
    | .ok v =>
      match mapEntries f (i + 1) ns with
      | .error e => .error e
      | .ok vs => .ok (v :: vs)

mutual
/-- `translate(node_view)`, src/util/Schema.h lines 77-102 (values), 200-237 (arrays), 327-338
(tables). -/
def translate {α L : Type} : Schema α L → Node α → Except Err (Val L)
  | .value conv _ valid, n =>
    match n with
    | .leaf a =>
      match conv a with
      | none => .error ⟨[], .conversion⟩
      | some x => if valid x then .ok (.leaf x) else .error ⟨[], .validator⟩
    | _ => .error ⟨[], .conversion⟩
  | .array of min max valid, n =>
    match n with
    | .arr l =>
      if l.length < min ∨ l.length > max then .error ⟨[], .arraySize⟩ else
      match mapEntries (translate of) 0 l with
      | .error e => .error e
      | .ok vs => if valid vs then .ok (.arr vs) else .error ⟨[], .validator⟩
    | _ => .error ⟨[], .notArray⟩
  | .table fs valid, n =>
    match translateFields fs n with
    | .error e => .error e
    | .ok vs => if valid vs then .ok (.recd vs) else .error ⟨[], .validator⟩
/-- The loop over `entries_` and the two `Model::translate`, src/util/Schema.h lines 329-335,
412-424, 442-446. -/
def translateFields {α L : Type} : Fields α L → Node α → Except Err (List (Option (Val L)))
  | .nil, _ => .ok []
  | .cons key kind s rest, n =>
    let r : Except Err (Option (Val L)) :=
      match n.get key with
      | none =>
        match kind with
        | .required => .error ⟨[], .missing⟩
        | .default v => .ok (some v)
        | .optional => .ok none
      | some m =>
        match translate s m with
        | .error e => .error e
        | .ok v => .ok (some v)
    match r with
    | .error e => .error ⟨.key key :: e.path, e.reason⟩
    | .ok v =>
      match translateFields rest n with
      | .error e => .error e
      | .ok vs => .ok (v :: vs)
end

/-- `translate(std::string_view)`, src/util/Schema.h lines 104-144 (values) and 239-241, 340 (arrays
and tables: `std::logic_error`, reported like a conversion error). -/
def translateStr {α L : Type} : Schema α L → List Char → Except Err (Val L)
  | .value _ fromStr valid, s =>
    match fromStr s with
    | none => .error ⟨[], .conversion⟩
    | some x => if valid x then .ok (.leaf x) else .error ⟨[], .validator⟩
  | _, _ => .error ⟨[], .conversion⟩

/-- `TableSchema::set`, src/util/Schema.h lines 342-353: the first entry with this key. -/
def set {α L : Type} : Fields α L → List (Option (Val L)) → String → List Char →
    Except Err (List (Option (Val L)))
  | .cons k _ s rest, v :: vs, key, value =>
    if key = k then
      match translateStr s value with
      | .error e => .error ⟨.key key :: e.path, e.reason⟩
      | .ok x => .ok (some x :: vs)
    else
      match set rest vs key value with
      | .error e => .error e
      | .ok vs => .ok (v :: vs)
  | _, vs, _, _ => .ok vs

/-- Result of the integer branch of `translate(std::string_view)`, src/util/Schema.h lines 124-128. -/
inductive IntRes where
  | ok (v : Int)
  | invalidArgument
  | outOfRange
deriving DecidableEq, Repr

/-- The optional minus sign accepted by `std::from_chars` ([charconv.from.chars]), used at
src/util/Schema.h line 123. -/
def splitSign : List Char → Bool × List Char
  | '-' :: r => (true, r)
  | l => (false, l)

/-- `std::from_chars` for a signed integer type with range `lo ≤ v ≤ hi`: optional minus sign, then
the longest run of decimal digits ([charconv.from.chars]), used at src/util/Schema.h line 123. -/
def fromChars (lo hi : Int) (l : List Char) : IntRes :=
  let neg := (splitSign l).1
  let ds := (splitSign l).2.takeWhile Char.isDigit
  if ds.isEmpty then .invalidArgument
  else
    let m : Int := Nat.ofDigitChars 10 ds 0
    let v := if neg then -m else m
    if lo ≤ v ∧ v ≤ hi then .ok v else .outOfRange

/-- The integer branch, src/util/Schema.h lines 120-128.  The second argument of `from_chars` is
`value.end() + value.size()`, so the range examined has twice the length of the string; `mem` is the
memory from `value.begin()` on. -/
def intFromStr (lo hi : Int) (mem : List Char) (size : Nat) : IntRes :=
  fromChars lo hi (mem.take (size + size))

/-- Three-iterator `std::equal` with the comparison of src/util/SchemaHelper.h lines 51-52; `mem` is
the memory from the beginning of the second range on, reading behind it is undefined (`none`). -/
def equalPrefix : List Char → List Char → Option Bool
  | [], _ => some true
  | _ :: _, [] => none
  | x :: a, y :: r => if x.toLower = y.toLower then equalPrefix a r else some false

/-- `iEquals`, src/util/SchemaHelper.h lines 50-53: `b` is followed in memory by `after`. -/
def iEquals (a b after : List Char) : Option Bool := equalPrefix a (b ++ after)

end Tandem.Schema
