/-!
# Specification of a table file: lines and fields

Nothing here refers to the model of the writers.
-/
namespace Tandem.Spec

/-- Splitting a text at every occurrence of `c`. -/
def splitOn (c : Char) : List Char → List (List Char)
  | [] => [[]]
  | x :: xs =>
    if x = c then [] :: splitOn c xs
    else match splitOn c xs with
      | [] => [[x]]
      | l :: ls => (x :: l) :: ls

/-- The texts joined by single separators, without a separator at the end. -/
def joinSep (c : Char) : List (List Char) → List Char
  | [] => []
  | [t] => t
  | t :: ts => t ++ c :: joinSep c ts

/-- A text in quotation marks. -/
def quoted (t : List Char) : List Char := '"' :: t ++ ['"']

/-- The title line and the line of column names of a CSV file. -/
def csvHeader (title : List Char) (names : List (List Char)) : List (List Char) :=
  ["# ".toList ++ title, joinSep ',' (names.map quoted)]

/-- The title line and the line of column names of a Tecplot file. -/
def tecplotHeader (title : List Char) (names : List (List Char)) : List (List Char) :=
  ["TITLE = ".toList ++ quoted title, "VARIABLES = ".toList ++ joinSep ',' (names.map quoted)]

/-- The file with the given lines. -/
def ofLines : List (List Char) → List Char
  | [] => []
  | l :: ls => l ++ '\n' :: ofLines ls

end Tandem.Spec
