import Verif.Model.CommentApi

/-!
# Tables as text

The two writers of CSV files: `/repo/mdf2csv/src/csvwriter.cpp` (a file per channel group) and `/repo/mdfviewer/src/util/csvwriter.cpp` with
its user in `/repo/mdfviewer/src/mdfdocument.cpp` (a file for the plot).

A channel observer is what the writers see of it: whether it is a master, its name and unit, the number of samples, and for each sample the
answer of `GetEngValue` for a text.  `std::endl` is one line feed.  Left out: the name of the file, the temporary file and its renaming,
errors of the file system.
-/

namespace Mdf

/-- The sign `"`. -/
def bQuote : Byte := 0x22#8
/-- The sign `;`. -/
def bSemi : Byte := 0x3B#8
/-- The sign `,`. -/
def bComma : Byte := 0x2C#8
/-- A line feed. -/
def bLine : Byte := 0x0A#8

/-- What the writers use of an `IChannelObserver`. -/
structure CsvObs where
  master : Bool
  name : Bytes
  unit : Bytes
  nof : Nat
  /-- `GetEngValue(sample, text)`: valid, and the text -/
  value : Nat → Bool × Bytes

/-- The name, and the unit in brackets if there is one.  mdf2csv/src/csvwriter.cpp lines 94-97; mdfviewer/src/util/csvwriter.cpp lines
88-92. -/
def csvLabel (name unit : Bytes) : Bytes := name ++ if unit = [] then [] else [0x20#8, 0x5B#8] ++ unit ++ [0x5D#8]

/-! ## mdf2csv -/

/-- The cells of a row, with the delimiter before all but the first.  csvwriter.cpp lines 87-101 and 105-117. -/
def csvCells (d : Byte) : List Bytes → Bytes
  | [] => []
  | [c] => c
  | c :: cs => c ++ d :: csvCells d cs

/-- `CsvText`.  The sign of `char` is ignored (a byte above 127 is no space).  csvwriter.cpp lines 134-144. -/
def csvText (d : Byte) (t : Bytes) : Bytes := if t.any (fun c => c == bQuote || c == d || isSpace c) then bQuote :: t ++ [bQuote] else t

/-- The masters first.  csvwriter.cpp lines 50-73. -/
def csvOrder (l : List (Option CsvObs)) : List CsvObs :=
  (l.filterMap id).filter (·.master) ++ (l.filterMap id).filter fun o => !o.master

/-- A cell of the first line.  csvwriter.cpp lines 94-98. -/
def csvHeadCell (o : CsvObs) : Bytes := bQuote :: csvLabel o.name o.unit ++ [bQuote]

/-- A cell of another line.  csvwriter.cpp lines 107-114. -/
def csvCell (d : Byte) (i : Nat) (o : CsvObs) : Bytes := if (o.value i).1 then csvText d (o.value i).2 else []

/-- What comes of a conversion. -/
inductive CsvEnd where
  /-- no file is written -/ | nothing
  /-- a null pointer is used -/ | crash
  /-- a file -/ | file (b : Bytes)
deriving DecidableEq

/-- The lines of the file.  csvwriter.cpp lines 85-118. -/
def csvFile (d : Byte) (n : Nat) (l : List CsvObs) : Bytes :=
  csvCells d (l.map csvHeadCell) ++ [bLine] ++ (List.range n).flatMap fun i => csvCells d (l.map (csvCell d i)) ++ [bLine]

/-- `CsvWriter::Convert`; the delimiter is `;` (csvwriter.h line 30).  csvwriter.cpp lines 47-132. -/
def csvConvert (l : List (Option CsvObs)) : CsvEnd :=
  if csvOrder l = [] then .nothing
  else
    match l with
    | [] => .nothing
    | none :: _ => .crash
    | some o :: _ => if o.nof = 0 then .nothing else .file (csvFile bSemi o.nof (csvOrder l))

/-! ## mdfviewer -/

/-- `util::plot::CsvWriter`.  mdfviewer/src/util/csvwriter.h lines 188-192. -/
structure CsvW where
  /-- `column_count_` -/ cols : Nat := 0
  /-- `max_columns_` -/ width : Nat := 0
  /-- `row_count_` -/ rows : Nat := 0
  /-- what has been written -/ out : Bytes := []
deriving DecidableEq, Repr

/-- Each `"` twice.  util/csvwriter.cpp lines 104-114. -/
def csvDouble : Bytes → Bytes
  | [] => []
  | c :: t => if c = bQuote then bQuote :: bQuote :: csvDouble t else c :: csvDouble t

/-- `isspace` or not `isprint` in the "C" locale, or a comma.  util/csvwriter.cpp lines 25-31. -/
def csvSpecial (c : Byte) : Bool := isSpace c || !(0x20#8 ≤ c && c ≤ 0x7E#8) || c == bComma

/-- `CheckIfDittoMarkNeeded`.  util/csvwriter.cpp lines 24-38. -/
def csvDitto (t : Bytes) : Bytes := if t.any csvSpecial then bQuote :: t ++ [bQuote] else t

/-- `SaveText`.  util/csvwriter.cpp lines 97-123. -/
def CsvW.save (w : CsvW) (t : Bytes) : CsvW :=
  { w with out := w.out ++ (if w.cols > 0 then [bComma] else []) ++ csvDitto (csvDouble t), cols := w.cols + 1 }

/-- `AddRow`: a comma for each missing column, but not for the first.  util/csvwriter.cpp lines 154-170. -/
def CsvW.row (w : CsvW) : CsvW :=
  if w.cols = 0 ∧ w.rows = 0 then w
  else
    { w with
      out := w.out ++ (List.range' w.cols (w.width - w.cols)).flatMap (fun i => if i > 0 then [bComma] else []) ++ [bLine]
      rows := w.rows + 1
      cols := 0 }

/-- The width is set by the first row.  util/csvwriter.cpp lines 131-133. -/
def CsvW.widen (w : CsvW) : CsvW := if w.rows = 0 then { w with width := max w.cols w.width } else w

/-- `AddColumnHeader`.  util/csvwriter.cpp lines 80-95. -/
def CsvW.header (w : CsvW) (name unit : Bytes) : CsvW := if w.rows ≠ 0 then w else (w.save (csvLabel name unit)).widen

/-- `AddColumnValue` of a text, a truth value or a floating point number (as text).  util/csvwriter.cpp lines 125-152. -/
def CsvW.text (w : CsvW) (t : Bytes) : CsvW := ((if w.rows > 0 ∧ w.cols ≥ w.width then w.row else w).save t).widen

/-- `AddColumnValue` of an integer (here not negative): no new row is begun.  util/csvwriter.h lines 209-216. -/
def CsvW.int (w : CsvW) (n : Nat) : CsvW := (w.save (decText n)).widen

/-- The calls of a user. -/
inductive CsvCall where
  | header (name unit : Bytes)
  | text (t : Bytes)
  | int (n : Nat)
  | row

def CsvW.call (w : CsvW) : CsvCall → CsvW
  | .header n u => w.header n u
  | .text t => w.text t
  | .int n => w.int n
  | .row => w.row

/-- Whether the first column is a master, so that the samples need not be numbered.  mdfdocument.cpp line 58. -/
def plotMaster (l : List CsvObs) : Bool :=
  match l with
  | o :: _ :: _ => o.master
  | _ => false

/-- "Sample" -/
def wSample : Bytes := [0x53#8, 0x61#8, 0x6D#8, 0x70#8, 0x6C#8, 0x65#8]

/-- The calls for one sample.  mdfdocument.cpp lines 70-82. -/
def plotRow (l : List CsvObs) (i : Nat) : List CsvCall :=
  (if plotMaster l then [] else [.int i]) ++ l.map (fun o => .text (if (o.value i).1 then (o.value i).2 else [])) ++ [.row]

/-- The calls that `CreateCsvFile` makes; nothing for an empty list.  mdfdocument.cpp lines 38-85. -/
def plotCalls (l : List CsvObs) : List CsvCall :=
  match l with
  | [] => []
  | o :: _ =>
    (if plotMaster l then [] else [.header wSample []]) ++ l.map (fun o => .header o.name o.unit) ++ [.row] ++
      (List.range o.nof).flatMap (plotRow l)

end Mdf
