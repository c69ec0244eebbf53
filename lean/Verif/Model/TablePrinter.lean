/-! # Printing of tables

Simplifications: widths are not negative; the text of an item is given (precision and format of numbers are not modelled); the
stream is a list of cells (text with the width of `setw`), ends of lines and rules. -/
namespace Tandem.TablePrinter

/-- What is written to the stream, src/util/TablePrinter.cpp lines 11-26 and 35-40 and src/util/TablePrinter.h lines 37-41. -/
inductive Tok where
  | cell (width : Nat) (text : String)
  | newline
  | rule (width : Nat)
deriving DecidableEq

/-- One pass of the first loop, src/util/TablePrinter.cpp lines 11-20: width and title of the column for which a width is given. -/
def column (names : List String) (wc : Nat × Nat) : Nat × String :=
  match names[wc.2]? with
  | some s => (max wc.1 (1 + s.length), s)
  | none => (max 4 wc.1, toString wc.2)

/-- The loops of the constructor, src/util/TablePrinter.cpp lines 10-25: widths and titles of the columns. (Without any width, line
22 reads the last element of an empty vector; here 0.) -/
def columns (widths : List Nat) (names : List String) : List (Nat × String) :=
  (names.drop widths.length).foldl (fun cols s => cols ++ [(max (cols.getLastD (0, "")).1 (1 + s.length), s)])
    (widths.zipIdx.map (column names))

/-- `separator`, src/util/TablePrinter.cpp lines 35-40. -/
def separator (ws : List Nat) : Tok := .rule ws.sum

/-- The constructor, src/util/TablePrinter.cpp lines 5-28: `widths_` and what is written. -/
def start (widths : List Nat) (names : List String) : List Nat × List Tok :=
  let cols := columns widths names
  (cols.map (·.1), cols.map (fun c => .cell c.1 c.2) ++ [.newline, separator (cols.map (·.1))])

/-- `operator<<`, src/util/TablePrinter.h lines 35-43: `col_` and what is written. -/
def put (ws : List Nat) (col : Nat) (text : String) : Nat × List Tok :=
  let width := ws.getD col 0
  if ws.length ≤ col + 1 then (0, [.cell width text, .newline]) else (col + 1, [.cell width text])

/-- A sequence of `operator<<`, src/util/TablePrinter.h lines 35-43. -/
def putAll (ws : List Nat) (col : Nat) : List String → Nat × List Tok
  | [] => (col, [])
  | s :: ss =>
    let a := put ws col s
    let b := putAll ws a.1 ss
    (b.1, a.2 ++ b.2)

/-- The table of `Profile::print`, src/parallel/Profile.cpp lines 38-62, for the texts of the items of each region and of the total; the
last rule is from the destructor of the printer (src/util/TablePrinter.cpp lines 30-33). -/
def profileTable (regions : List String) (rows : List (List String)) (total : List String) : List Tok :=
  let w1 := 1 + (regions.map String.length).foldl max 0
  let h := start [w1, 10] ["Region", "t_min", "t_median", "t_mean", "t_max", "TFLOP", "GFLOP/s"]
  let a := putAll h.1 0 rows.flatten
  let b := putAll h.1 a.1 total
  h.2 ++ a.2 ++ [separator h.1] ++ b.2 ++ [separator h.1]

end Tandem.TablePrinter
