import Verif.Model.Table
import Verif.Spec.Table
/-! # Property C38: table files -/
namespace Tandem.Table
open Tandem.Spec

/-! ## streams positioned at their end -/

/-- The stream with content `b`, positioned at the end. -/
def atEnd (b : List Char) : Stream := ⟨b, b.length, false⟩

theorem put_atEnd (b t : List Char) : (atEnd b).put t = atEnd (b ++ t) := by
  simp [atEnd, Stream.put]

theorem seek_put (b : List Char) (t u : List Char) (h : t.length = u.length) :
    ((atEnd (b ++ t)).seekBack t.length).put u = atEnd (b ++ u) := by
  have hp : t.length ≤ (b ++ t).length := by simp
  simp only [atEnd, Stream.seekBack, Stream.put, hp, if_true, Bool.false_eq_true, if_false]
  have e : (b ++ t).length - t.length = b.length := by simp
  rw [e, ← h]
  congr 1
  · rw [List.take_left, show b.length + t.length = (b ++ t).length by simp, List.drop_length]
    simp
  · simp [h]

theorem raw_atEnd (k : Kind) (c : Char) (b t : List Char) :
    Writer.raw ⟨k, c, atEnd b⟩ t = ⟨k, c, atEnd (b ++ t)⟩ := by
  rw [Writer.raw, put_atEnd]

theorem endrow_atEnd (k : Kind) (c s : Char) (b : List Char) :
    Writer.endrow ⟨k, c, atEnd (b ++ [s])⟩ = ⟨k, c, atEnd (b ++ ['\n'])⟩ := by
  rw [Writer.endrow, Writer.raw]
  have := seek_put b [s] ['\n'] rfl
  simp only [List.length_singleton] at this
  rw [this]

/-- The texts, each followed by the separator. -/
def terminated (c : Char) (ts : List (List Char)) : List Char := ts.flatMap (fun t => t ++ [c])

theorem terminated_eq (c : Char) (ts : List (List Char)) (h : ts ≠ []) :
    terminated c ts = joinSep c ts ++ [c] := by
  induction ts with
  | nil => exact absurd rfl h
  | cons t ts ih =>
    cases ts with
    | nil => simp [terminated, joinSep]
    | cons u us =>
      have := ih (by simp)
      simp only [terminated, List.flatMap_cons] at this ⊢
      rw [this]
      simp [joinSep]

theorem addNumbers_atEnd (k : Kind) (c : Char) (ts : List (List Char)) : ∀ b : List Char,
    ts.foldl Writer.addNumber ⟨k, c, atEnd b⟩ = ⟨k, c, atEnd (b ++ terminated c ts)⟩ := by
  induction ts with
  | nil => intro b; simp [terminated]
  | cons t ts ih =>
    intro b
    rw [List.foldl_cons, Writer.addNumber, raw_atEnd, raw_atEnd, ih]
    simp [terminated]

theorem addStrings_atEnd (k : Kind) (c : Char) (ts : List (List Char)) : ∀ b : List Char,
    ts.foldl Writer.addString ⟨k, c, atEnd b⟩ = ⟨k, c, atEnd (b ++ terminated c (ts.map quoted))⟩ := by
  induction ts with
  | nil => intro b; simp [terminated]
  | cons t ts ih =>
    intro b
    rw [List.foldl_cons, Writer.addString, raw_atEnd, raw_atEnd, raw_atEnd, raw_atEnd, ih]
    simp [terminated, quoted]

/-- The separator of the rows, and the header lines, of the two formats. -/
def rowSep : Kind → Char → Char
  | .csv, c => c
  | .tecplot, _ => ' '

/-- Header lines of a file with column names "Time" and `names`; `c` is the separator of a CSV writer. -/
def headerLines (k : Kind) (c : Char) (title : List Char) (names : List (List Char)) : List (List Char) :=
  match k with
  | .csv => ["# ".toList ++ title, joinSep c (("Time".toList :: names).map quoted)]
  | .tecplot => tecplotHeader title ("Time".toList :: names)

theorem header_atEnd (k : Kind) (c : Char) (hc : c = rowSep k c) (title : List Char)
    (names : List (List Char)) :
    Writer.header ⟨k, c, atEnd []⟩ title names = ⟨k, c, atEnd (ofLines (headerLines k c title names))⟩ := by
  cases k with
  | csv =>
    have := addStrings_atEnd .csv c ("Time".toList :: names) ("# ".toList ++ title ++ ['\n'])
    rw [List.foldl_cons] at this
    rw [Writer.header]
    simp only [Writer.addTitle, Writer.beginHeader, raw_atEnd]
    rw [show ([] ++ ['#', ' '] ++ title ++ ['\n'] : List Char) = "# ".toList ++ title ++ ['\n'] from rfl, this]
    simp only [Writer.endHeader]
    rw [terminated_eq c _ (by simp), ← List.append_assoc, endrow_atEnd]
    simp [headerLines, ofLines]
  | tecplot =>
    obtain rfl : c = ' ' := hc
    have := addStrings_atEnd .tecplot ',' ("Time".toList :: names)
      ([] ++ "TITLE = \"".toList ++ title ++ ['"'] ++ ['\n'] ++ "VARIABLES = ".toList)
    rw [List.foldl_cons] at this
    rw [Writer.header]
    simp only [Writer.addTitle, Writer.beginHeader, raw_atEnd]
    rw [this]
    simp only [Writer.endHeader]
    rw [terminated_eq ',' _ (by simp), ← List.append_assoc, endrow_atEnd]
    simp [headerLines, tecplotHeader, ofLines, quoted]

/-- One record: a fresh file gets header and row; an existing file gets the row at the end. -/
theorem record_spec (k : Kind) (c : Char) (hc : c = rowSep k c) (out : Stream) (title : List Char)
    (names : List (List Char)) (started : Bool) (time : List Char) (values : List (List Char))
    (file : Option (List Char)) :
    Writer.record ⟨k, c, out⟩ title names started time values file =
      ⟨k, c, atEnd ((if started then ofLines (headerLines k c title names) else
        file.getD (ofLines (headerLines k c title names))) ++ joinSep c (time :: values) ++ ['\n'])⟩ := by
  have hrow : ∀ b : List Char, (values.foldl Writer.addNumber (Writer.addNumber ⟨k, c, atEnd b⟩ time)).endrow =
      ⟨k, c, atEnd (b ++ joinSep c (time :: values) ++ ['\n'])⟩ := by
    intro b
    have := addNumbers_atEnd k c (time :: values) b
    rw [List.foldl_cons] at this
    rw [this, terminated_eq c _ (by simp), ← List.append_assoc, endrow_atEnd]
  have hopen : ∀ content, Writer.openFile ⟨k, c, out⟩ content true = ⟨k, c, atEnd content⟩ := fun _ => rfl
  have hnew : Writer.openFile ⟨k, c, out⟩ [] false = ⟨k, c, atEnd []⟩ := rfl
  rw [Writer.record.eq_def]
  cases started with
  | true =>
    simp only [if_true, hnew]
    rw [header_atEnd k c hc, hrow]
  | false =>
    simp only [Bool.false_eq_true, if_false]
    cases file with
    | none =>
      simp only [hnew]
      rw [header_atEnd k c hc, hrow]; rfl
    | some content => simp only [hopen]; rw [hrow]; rfl

/-! ## histories of one file -/

/-- A write call: is the time zero or less, the printed time, the printed values. -/
structure Call where
  started : Bool
  time : List Char
  values : List (List Char)

/-- The history of one file under `ScalarWriter::write` calls; every call may come from a new process
(a new writer with the same format), src/io/ScalarWriter.cpp lines 18-37. -/
def history (k : Kind) (c : Char) (title : List Char) (names : List (List Char)) :
    List Call → Option (List Char) → Option (List Char)
  | [], file => file
  | e :: es, file =>
    history k c title names es
      (some (Writer.record ⟨k, c, ⟨[], 0, false⟩⟩ title names e.started e.time e.values file).out.buf)

theorem ofLines_append (a b : List (List Char)) : ofLines (a ++ b) = ofLines a ++ ofLines b := by
  induction a with
  | nil => rfl
  | cons l ls ih => simp [ofLines, ih]

/-- The line of a record. -/
def row (c : Char) (e : Call) : List Char := joinSep c (e.time :: e.values)

theorem history_append (k : Kind) (c : Char) (hc : c = rowSep k c) (title : List Char)
    (names : List (List Char)) (es : List Call) (h : ∀ e ∈ es, e.started = false) : ∀ content : List Char,
    history k c title names es (some content) = some (content ++ ofLines (es.map (row c))) := by
  induction es with
  | nil => intro content; simp [history, ofLines]
  | cons e es ih =>
    intro content
    rw [history, record_spec k c hc]
    simp only [h e (by simp), Bool.false_eq_true, if_false, Option.getD_some, atEnd]
    rw [ih (fun x hx => h x (by simp [hx]))]
    simp [ofLines, row]

/-- **C38.**  A run that starts (a call with time zero or less, or without a file) truncates the file and
writes one header; all calls of this run and of later restarted runs (times above zero) append one line
each, in order: the file consists of the header lines followed by one line per record, with the values
joined by single separators and none at the end. -/
theorem C38_file (k : Kind) (c : Char) (hc : c = rowSep k c) (title : List Char) (names : List (List Char))
    (before : List Call) (first : Call) (later : List Call) (file : Option (List Char))
    (hfirst : first.started = true ∨ (before = [] ∧ file = none))
    (hlater : ∀ e ∈ later, e.started = false) :
    history k c title names (before ++ first :: later) file =
      some (ofLines (headerLines k c title names ++ (first :: later).map (row c))) := by
  have hsplit : ∀ (es fs : List Call) (f : Option (List Char)),
      history k c title names (es ++ fs) f = history k c title names fs (history k c title names es f) := by
    intro es
    induction es with
    | nil => intro fs f; rfl
    | cons e es ih => intro fs f; simp only [List.cons_append, history]; rw [ih]
  rw [hsplit, history, record_spec k c hc, history_append k c hc title names later hlater]
  have : (if first.started = true then ofLines (headerLines k c title names)
      else (history k c title names before file).getD (ofLines (headerLines k c title names))) =
      ofLines (headerLines k c title names) := by
    rcases hfirst with h | ⟨rfl, rfl⟩
    · simp [h]
    · simp [history]
  simp only [this, atEnd]
  rw [ofLines_append]
  simp [ofLines, row]

/-- A restarted run appends to whatever is in the file: earlier lines stay as they are. -/
theorem C38_restart_appends (k : Kind) (c : Char) (hc : c = rowSep k c) (title : List Char)
    (names : List (List Char)) (es : List Call) (h : ∀ e ∈ es, e.started = false) (content : List Char) :
    history k c title names es (some content) = some (content ++ ofLines (es.map (row c))) :=
  history_append k c hc title names es h content

example : rowSep .csv ',' = ',' ∧ rowSep .tecplot ' ' = ' ' := ⟨rfl, rfl⟩

example : (history .tecplot ' ' "Scalar output".toList ["VMax".toList]
    [⟨true, "0".toList, ["1".toList]⟩, ⟨false, "2".toList, ["3".toList]⟩] (some "old".toList)) =
    some "TITLE = \"Scalar output\"\nVARIABLES = \"Time\",\"VMax\"\n0 1\n2 3\n".toList := by decide +kernel

/-! ## reading back -/

theorem splitOn_ne_nil (c : Char) (t : List Char) : splitOn c t ≠ [] := by
  cases t with
  | nil => simp [splitOn]
  | cons x xs =>
    rw [splitOn]
    split
    · simp
    · split <;> simp

theorem splitOn_append (c : Char) (t rest : List Char) (h : c ∉ t) :
    splitOn c (t ++ c :: rest) = t :: splitOn c rest := by
  induction t with
  | nil => simp [splitOn]
  | cons x xs ih =>
    have hx : x ≠ c := fun e => h (by simp [e])
    rw [List.cons_append, splitOn, if_neg hx, ih (fun hm => h (by simp [hm]))]

theorem splitOn_self (c : Char) (t : List Char) (h : c ∉ t) : splitOn c t = [t] := by
  induction t with
  | nil => rfl
  | cons x xs ih =>
    have hx : x ≠ c := fun e => h (by simp [e])
    rw [splitOn, if_neg hx, ih (fun hm => h (by simp [hm]))]

theorem splitOn_joinSep (c : Char) (ts : List (List Char)) (hne : ts ≠ []) (h : ∀ t ∈ ts, c ∉ t) :
    splitOn c (joinSep c ts) = ts := by
  induction ts with
  | nil => exact absurd rfl hne
  | cons t ts ih =>
    cases ts with
    | nil => exact splitOn_self c t (h t (by simp))
    | cons u us =>
      rw [joinSep, splitOn_append c t _ (h t (by simp)), ih (by simp) (fun x hx => h x (by simp [hx]))]
      simp

theorem splitOn_ofLines (ls : List (List Char)) (h : ∀ l ∈ ls, '\n' ∉ l) :
    splitOn '\n' (ofLines ls) = ls ++ [[]] := by
  induction ls with
  | nil => rfl
  | cons l ls ih =>
    rw [ofLines, splitOn_append _ _ _ (h l (by simp)), ih (fun x hx => h x (by simp [hx]))]
    rfl

theorem not_mem_joinSep (c d : Char) (hcd : d ≠ c) (ts : List (List Char)) (h : ∀ t ∈ ts, d ∉ t) :
    d ∉ joinSep c ts := by
  induction ts with
  | nil => simp [joinSep]
  | cons t ts ih =>
    cases ts with
    | nil => exact h t (by simp)
    | cons u us =>
      rw [joinSep.eq_3 _ _ _ (by simp)]
      simp only [List.mem_append, List.mem_cons, not_or]
      exact ⟨h t (by simp), hcd, ih (fun x hx => h x (by simp [hx]))⟩

theorem not_mem_quoted (t : List Char) (h : '\n' ∉ t) : '\n' ∉ quoted t := by
  simp [quoted, h]

/-- **C38**, reading back: if the printed numbers contain neither separator nor line break, and title and
names contain no line break, then the lines of the file are the header lines and the records, and splitting
a record's line at the separator gives the time and the values. -/
theorem C38_read_back (k : Kind) (c : Char) (hc : c = rowSep k c) (hcn : c ≠ '\n') (title : List Char)
    (names : List (List Char)) (before : List Call) (first : Call) (later : List Call)
    (file : Option (List Char)) (hfirst : first.started = true ∨ (before = [] ∧ file = none))
    (hlater : ∀ e ∈ later, e.started = false)
    (ht : '\n' ∉ title) (hn : ∀ n ∈ names, '\n' ∉ n)
    (hv : ∀ e ∈ first :: later, ∀ t ∈ e.time :: e.values, c ∉ t ∧ '\n' ∉ t) :
    ∃ text, history k c title names (before ++ first :: later) file = some text ∧
      splitOn '\n' text = headerLines k c title names ++ (first :: later).map (row c) ++ [[]] ∧
      (headerLines k c title names).length = 2 ∧
      ∀ e ∈ first :: later, splitOn c (row c e) = e.time :: e.values := by
  refine ⟨_, C38_file k c hc title names before first later file hfirst hlater, ?_, ?_, ?_⟩
  · apply splitOn_ofLines
    intro l hl
    rw [List.mem_append] at hl
    rcases hl with hl | hl
    · have hq : ∀ t ∈ ("Time".toList :: names).map quoted, '\n' ∉ t := by
        intro t hm
        obtain ⟨n, hnm, rfl⟩ := List.mem_map.1 hm
        apply not_mem_quoted
        rcases List.mem_cons.1 hnm with rfl | h
        · decide
        · exact hn n h
      cases k with
      | csv =>
        simp only [headerLines, List.mem_cons, List.not_mem_nil, or_false] at hl
        rcases hl with rfl | rfl
        · rw [List.mem_append]; rintro (h | h)
          · exact absurd h (by decide)
          · exact ht h
        · exact not_mem_joinSep _ _ (Ne.symm hcn) _ hq
      | tecplot =>
        simp only [headerLines, tecplotHeader, List.mem_cons, List.not_mem_nil, or_false] at hl
        rcases hl with rfl | rfl
        · rw [List.mem_append]; rintro (h | h)
          · exact absurd h (by decide)
          · exact not_mem_quoted _ ht h
        · rw [List.mem_append]; rintro (h | h)
          · exact absurd h (by decide)
          · exact not_mem_joinSep _ _ (by decide) _ hq h
    · obtain ⟨e, he, rfl⟩ := List.mem_map.1 hl
      exact not_mem_joinSep _ _ (Ne.symm hcn) _ (fun t htm => (hv e he t htm).2)
  · cases k <;> rfl
  · intro e he
    exact splitOn_joinSep c _ (by simp) (fun t htm => (hv e he t htm).1)

/-! ## probes -/

/-- **C38**, several probes: if the probes of a rank have different files then one `write` call appends to
(or starts) each probe's file exactly that probe's record and touches no other file. -/
theorem C38_probes (k : Kind) (c : Char) (hc : c = rowSep k c) (names : List (List Char)) (started : Bool)
    (time : List Char) (values : Nat → List (List Char)) (ps : List Probe)
    (hnd : (ps.map (·.file)).Nodup) : ∀ (k0 : Nat) (out : Stream) (fs : FS),
    let res := (writeProbes names started time values ps k0 ⟨k, c, out⟩ fs).2
    (∀ i p, ps[i]? = some p → res p.file =
      some ((if started then ofLines (headerLines k c p.title names) else
        (fs p.file).getD (ofLines (headerLines k c p.title names))) ++
        joinSep c (time :: values (k0 + i)) ++ ['\n'])) ∧
    ∀ f, f ∉ ps.map (·.file) → res f = fs f := by
  induction ps with
  | nil => intro k0 out fs; exact ⟨by intro i p h; simp at h, fun f _ => rfl⟩
  | cons p ps ih =>
    intro k0 out fs res
    rw [List.map_cons, List.nodup_cons] at hnd
    have hrec := record_spec k c hc out p.title names started time (values k0) (fs p.file)
    simp only [res, writeProbes]
    rw [hrec]
    obtain ⟨h1, h2⟩ := ih hnd.2 (k0 + 1) (atEnd ((if started then ofLines (headerLines k c p.title names) else
        (fs p.file).getD (ofLines (headerLines k c p.title names))) ++
        joinSep c (time :: values k0) ++ ['\n'])) (fun f => if f = p.file then
        some ((if started then ofLines (headerLines k c p.title names) else
        (fs p.file).getD (ofLines (headerLines k c p.title names))) ++
        joinSep c (time :: values k0) ++ ['\n']) else fs f)
    refine ⟨?_, ?_⟩
    · intro i q hq
      cases i with
      | zero =>
        simp only [List.getElem?_cons_zero, Option.some.injEq] at hq
        subst hq
        have := h2 p.file hnd.1
        simp only [if_true] at this
        exact this
      | succ i =>
        simp only [List.getElem?_cons_succ] at hq
        have hne : q.file ≠ p.file := by
          intro e
          exact hnd.1 (e ▸ List.mem_map_of_mem (List.mem_of_getElem? hq))
        have := h1 i q hq
        simp only [if_neg hne] at this
        rw [show k0 + (i + 1) = k0 + 1 + i by omega]
        exact this
    · intro f hf
      rw [List.map_cons, List.mem_cons, not_or] at hf
      have := h2 f hf.2
      simp only [if_neg hf.1] at this
      exact this

/-- A consequence for users: two probes with the same name (hence the same file) do not both survive a
start: only the last one's record is in the file. -/
theorem C38_same_file_lost (k : Kind) (c : Char) (hc : c = rowSep k c) (names : List (List Char))
    (time : List Char) (values : Nat → List (List Char)) (p q : Probe) (h : p.file = q.file) (out : Stream)
    (fs : FS) :
    (writeProbes names true time values [p, q] 0 ⟨k, c, out⟩ fs).2 p.file =
      some (ofLines (headerLines k c q.title names) ++ joinSep c (time :: values 1) ++ ['\n']) := by
  simp only [writeProbes]
  rw [record_spec k c hc, record_spec k c hc]
  simp [h, atEnd]

/-- The title of a probe file: coordinates joined by ", " in brackets. -/
theorem C38_probe_title (name : List Char) (pre : List (List Char)) (last : List Char) :
    probeTitle name (pre ++ [last]) = "Station ".toList ++ name ++ " (x = [".toList ++
      (pre.map (· ++ ", ".toList)).flatten ++ last ++ "])".toList := by
  have hfold : ∀ (xs : List (List Char)) (b : List Char),
      xs.foldl (fun (s : Stream) t => (s.put t).put ", ".toList) (atEnd b) =
        atEnd (b ++ (xs.map (· ++ ", ".toList)).flatten) := by
    intro xs
    induction xs with
    | nil => intro b; simp
    | cons t xs ih =>
      intro b
      rw [List.foldl_cons, put_atEnd, put_atEnd, ih]
      simp
  have h0 : (⟨[], 0, false⟩ : Stream) = atEnd [] := rfl
  rw [probeTitle]
  simp only [h0, put_atEnd, hfold]
  have := seek_put (([] ++ "Station ".toList ++ name ++ " (x = [".toList) ++
    ((pre.map (· ++ ", ".toList)).flatten ++ last)) ", ".toList "])".toList rfl
  have e : ([] ++ "Station ".toList ++ name ++ " (x = [".toList ++
      ((pre ++ [last]).map (· ++ ", ".toList)).flatten) =
      (([] ++ "Station ".toList ++ name ++ " (x = [".toList) ++
    ((pre.map (· ++ ", ".toList)).flatten ++ last)) ++ ", ".toList := by simp
  rw [e]
  rw [show ", ".toList.length = 2 from rfl] at this
  rw [this]
  simp [atEnd]

example : probeTitle "a".toList ["1".toList, "2".toList] = "Station a (x = [1, 2])".toList := by decide +kernel

end Tandem.Table
