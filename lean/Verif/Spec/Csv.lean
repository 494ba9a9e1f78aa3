import Verif.Model.Csv

/-!
# What a CSV file says

A reader of CSV files as in RFC 4180, with any delimiter and with a line feed at the end of each line: a field that begins with `"` ends at the
next single `"`, and `""` in it is one `"`; no other field may have a `"`.
-/

namespace Mdf

/-- Where the reader is: at the start of a field, in a field without quotes, in a field with quotes, behind a `"` in such a field. -/
inductive CsvMode where
  | start | plain | quoted | closed
deriving DecidableEq, Repr

/-- The state of the reader: the field, the fields of the line, the lines. -/
structure CsvSt where
  mode : CsvMode := .start
  field : Bytes := []
  row : List Bytes := []
  rows : List (List Bytes) := []
deriving DecidableEq, Repr

/-- A sign inside a field that does not end it. -/
def csvInside (s : CsvSt) (c : Byte) : Option CsvSt :=
  match s.mode with
  | .quoted => some (if c = 0x22#8 then { s with mode := .closed } else { s with field := s.field ++ [c] })
  | .start => some (if c = 0x22#8 then { s with mode := .quoted } else { s with mode := .plain, field := [c] })
  | .plain => if c = 0x22#8 then none else some { s with field := s.field ++ [c] }
  | .closed => if c = 0x22#8 then some { s with mode := .quoted, field := s.field ++ [c] } else none

/-- One sign; `none` if it may not be there. -/
def csvStep (d : Byte) (s : CsvSt) (c : Byte) : Option CsvSt :=
  if s.mode = .quoted then csvInside s c
  else if c = d then some ⟨.start, [], s.row ++ [s.field], s.rows⟩
  else if c = 0x0A#8 then some ⟨.start, [], [], s.rows ++ [s.row ++ [s.field]]⟩
  else csvInside s c

/-- The end of the file: at the start of a line, or in a last line without line feed. -/
def csvFinish (s : CsvSt) : Option (List (List Bytes)) :=
  if s.mode = .quoted then none
  else if s.mode = .start ∧ s.row = [] then some s.rows
  else some (s.rows ++ [s.row ++ [s.field]])

/-- The table in a CSV file; `none` if it is not one. -/
def csvRead (d : Byte) (b : Bytes) : Option (List (List Bytes)) := (b.foldlM (csvStep d) {}).bind csvFinish

/-- The title of a column: the name, and the unit in brackets. -/
def columnTitle (name unit : Bytes) : Bytes := if unit = [] then name else name ++ [0x20#8, 0x5B#8] ++ unit ++ [0x5D#8]

/-- The text of a sample; a sample that is not valid has none. -/
def sampleText (o : CsvObs) (i : Nat) : Bytes := if (o.value i).1 = true then (o.value i).2 else []

/-- The columns: the masters, then the others. -/
def mastersFirst (l : List CsvObs) : List CsvObs := l.filter (fun o => o.master) ++ l.filter fun o => !o.master

/-- The table of some channels: titles, and a line for each sample. -/
def channelTable (l : List CsvObs) (n : Nat) : List (List Bytes) :=
  l.map (fun o => columnTitle o.name o.unit) :: (List.range n).map fun i => l.map fun o => sampleText o i

/-- The table with a column of sample numbers in front. -/
def numberedTable (l : List CsvObs) (n : Nat) : List (List Bytes) :=
  ([0x53#8, 0x61#8, 0x6D#8, 0x70#8, 0x6C#8, 0x65#8] :: l.map fun o => columnTitle o.name o.unit) ::
    (List.range n).map fun i => decText i :: l.map fun o => sampleText o i

/-- The table that calls build up: the finished lines and the current one. -/
structure CsvTab where
  done : List (List Bytes) := []
  cur : List Bytes := []
deriving DecidableEq, Repr

/-- The number of columns: that of the first line. -/
def CsvTab.width (t : CsvTab) : Nat := (t.done.headD t.cur).length

/-- The current line is finished, with empty fields up to the number of columns; there is no empty first line. -/
def CsvTab.next (t : CsvTab) : CsvTab :=
  if t.done = [] ∧ t.cur = [] then t else ⟨t.done ++ [t.cur ++ List.replicate (t.width - t.cur.length) []], []⟩

/-- A call: titles only in the first line; a text begins a new line if the current one is full, an integer does not. -/
def CsvTab.call (t : CsvTab) : CsvCall → CsvTab
  | .header n u => if t.done = [] then ⟨[], t.cur ++ [columnTitle n u]⟩ else t
  | .text v =>
    let t' := if t.done ≠ [] ∧ t.width ≤ t.cur.length then t.next else t
    ⟨t'.done, t'.cur ++ [v]⟩
  | .int n => ⟨t.done, t.cur ++ [decText n]⟩
  | .row => t.next

/-- The texts that the writer of the viewer can write: without `"`, or with a comma, a space or a sign outside ASCII too. -/
def PlotText (t : Bytes) : Prop := 0x22#8 ∉ t ∨ ∃ c ∈ t, c = 0x2C#8 ∨ c ≤ 0x20#8 ∨ 0x7F#8 ≤ c

/-- All texts of a call can be written. -/
def PlotCall : CsvCall → Prop
  | .header n u => PlotText (columnTitle n u)
  | .text v => PlotText v
  | .int _ => True
  | .row => True

end Mdf
