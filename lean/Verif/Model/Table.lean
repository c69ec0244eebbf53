/-!
# Model of the table writers: src/io/TableWriter.h, src/io/CSVWriter.h, src/io/TecplotWriter.h,
src/io/ScalarWriter.cpp, src/io/ProbeWriter.cpp, src/io/BoundaryProbeWriter.cpp

A value arrives with the text that `operator<<` prints for it (the format of floating point numbers is a
parameter).  Opening and writing files succeeds; the file system is a map from names to contents.
-/
namespace Tandem.Table

/-- An output stream (`std::ofstream` or `std::stringstream`) as used in src/io/CSVWriter.h lines 16, 43,
49-53: the characters, the put position and the fail bit. -/
structure Stream where
  buf : List Char
  pos : Nat
  fail : Bool

/-- Writing a text at the put position (src/io/CSVWriter.h line 16): characters behind it are overwritten;
nothing happens on a failed stream. -/
def Stream.put (s : Stream) (t : List Char) : Stream :=
  if s.fail then s else ⟨s.buf.take s.pos ++ t ++ s.buf.drop (s.pos + t.length), s.pos + t.length, false⟩

/-- `seekp(-k, std::ios::cur)` (src/io/CSVWriter.h line 51, src/io/ProbeWriter.cpp line 66): seeking
before the beginning sets the fail bit. -/
def Stream.seekBack (s : Stream) (k : Nat) : Stream :=
  if s.fail then s else if k ≤ s.pos then ⟨s.buf, s.pos - k, false⟩ else ⟨s.buf, s.pos, true⟩

/-- The two table formats, src/io/CSVWriter.h line 14 and src/io/TecplotWriter.h line 10. -/
inductive Kind
  | csv
  | tecplot
deriving DecidableEq

/-- A table writer: its stream and the current separator, src/io/CSVWriter.h lines 18-21. -/
structure Writer where
  kind : Kind
  sep : Char
  out : Stream

/-- `CSVWriter::open`, src/io/CSVWriter.h lines 34-44: truncate, or position at the end. -/
def Writer.openFile (w : Writer) (content : List Char) (append : Bool) : Writer :=
  if append then ⟨w.kind, w.sep, ⟨content, content.length, false⟩⟩
  else ⟨w.kind, w.sep, ⟨[], 0, false⟩⟩

/-- `out_ << text` for a writer, src/io/CSVWriter.h line 16. -/
def Writer.raw (w : Writer) (t : List Char) : Writer := ⟨w.kind, w.sep, w.out.put t⟩

/-- `add_title`, src/io/CSVWriter.h line 49 and src/io/TecplotWriter.h lines 16-18. -/
def Writer.addTitle (w : Writer) (title : List Char) : Writer :=
  match w.kind with
  | .csv => ((w.raw ['#', ' ']).raw title).raw ['\n']
  | .tecplot => (((w.raw "TITLE = \"".toList).raw title).raw ['"']).raw ['\n']

/-- `endrow`, src/io/CSVWriter.h lines 50-53. -/
def Writer.endrow (w : Writer) : Writer :=
  Writer.raw ⟨w.kind, w.sep, w.out.seekBack 1⟩ ['\n']

/-- `beginheader`, src/io/CSVWriter.h line 54 and src/io/TecplotWriter.h lines 19-22. -/
def Writer.beginHeader (w : Writer) : Writer :=
  match w.kind with
  | .csv => w
  | .tecplot =>
    let w := w.raw "VARIABLES = ".toList
    ⟨w.kind, ',', w.out⟩

/-- `endheader`, src/io/CSVWriter.h line 55 and src/io/TecplotWriter.h lines 23-26. -/
def Writer.endHeader (w : Writer) : Writer :=
  match w.kind with
  | .csv => w.endrow
  | .tecplot =>
    let w := w.endrow
    ⟨w.kind, ' ', w.out⟩

/-- `operator<<` for numbers, src/io/CSVWriter.h lines 16 and 58-73. -/
def Writer.addNumber (w : Writer) (t : List Char) : Writer := (w.raw t).raw [w.sep]

/-- `operator<<` for strings, src/io/CSVWriter.h lines 74-77. -/
def Writer.addString (w : Writer) (t : List Char) : Writer :=
  (((w.raw ['"']).raw t).raw ['"']).raw [w.sep]

/-- `write_header`, src/io/ScalarWriter.cpp lines 9-16; also src/io/ProbeWriter.cpp lines 68-75 and
src/io/BoundaryProbeWriter.cpp lines 69-76: title, "Time", then the names of the columns. -/
def Writer.header (w : Writer) (title : List Char) (names : List (List Char)) : Writer :=
  let w := (w.addTitle title).beginHeader.addString "Time".toList
  (names.foldl Writer.addString w).endHeader

/-- One record: src/io/ScalarWriter.cpp lines 18-37 and the body of the loops in
src/io/ProbeWriter.cpp lines 80-104, src/io/BoundaryProbeWriter.cpp lines 82-106.  `file` is the
content of the file before (`none`: it does not exist), `started` says `time <= 0.0`.  Result: the content
after, and the writer. -/
def Writer.record (w : Writer) (title : List Char) (names : List (List Char)) (started : Bool)
    (time : List Char) (values : List (List Char)) (file : Option (List Char)) : Writer :=
  let w :=
    if started then (w.openFile [] false).header title names
    else match file with
      | some content => w.openFile content true
      | none => (w.openFile [] false).header title names
  ((values.foldl Writer.addNumber (w.addNumber time))).endrow

/-- A probe: file name, title and column names; src/io/ProbeWriter.h lines 37-43. -/
structure Probe where
  file : String
  title : List Char

/-- The file system: contents by name (for `std::filesystem::exists`, src/io/ProbeWriter.cpp line 85). -/
abbrev FS := String → Option (List Char)

/-- `ProbeWriter::write`, src/io/ProbeWriter.cpp lines 78-105 (and src/io/BoundaryProbeWriter.cpp
lines 79-107); `values k` are the values at the `k`-th probe (starting at `k`). -/
def writeProbes (names : List (List Char)) (started : Bool) (time : List Char)
    (values : Nat → List (List Char)) : List Probe → Nat → Writer → FS → Writer × FS
  | [], _, w, fs => (w, fs)
  | p :: ps, k, w, fs =>
    let w := w.record p.title names started time (values k) (fs p.file)
    writeProbes names started time values ps (k + 1) w
      (fun f => if f = p.file then some w.out.buf else fs f)

/-- The title of a probe file, src/io/ProbeWriter.cpp lines 61-68 and src/io/BoundaryProbeWriter.cpp
lines 62-69; `x` are the printed coordinates. -/
def probeTitle (name : List Char) (x : List (List Char)) : List Char :=
  let s : Stream := ⟨[], 0, false⟩
  let s := ((s.put "Station ".toList).put name).put " (x = [".toList
  let s := x.foldl (fun (s : Stream) t => (s.put t).put ", ".toList) s
  ((s.seekBack 2).put "])".toList).buf

end Tandem.Table
