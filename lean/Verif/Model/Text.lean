import Verif.Model.Bits

/-!
# Fixed-size text fields

The text fields of the MDF blocks have a fixed number of bytes.  A field is
written with `WriteStr` and read with `ReadStr`.  A file is the list of the bytes
from the read position on.
-/

namespace Mdf

/-- `std::isspace` in the default "C" locale: blank, tab, line feed, vertical tab,
form feed and carriage return.  Used by `/repo/mdflib/src/mdfhelper.cpp` lines 24-35. -/
def isSpace (c : Byte) : Bool := c == 0x20#8 || (0x09#8 ≤ c && c ≤ 0x0D#8)

/-- `LTrim`: removes the blanks at the start.  `/repo/mdflib/src/mdfhelper.cpp` lines 24-28. -/
def lTrim : Bytes → Bytes
  | [] => []
  | c :: s => if isSpace c then lTrim s else c :: s

/-- `RTrim`: removes the blanks at the end.  `/repo/mdflib/src/mdfhelper.cpp` lines 30-35. -/
def rTrim (s : Bytes) : Bytes := (lTrim s.reverse).reverse

/-- `MdfHelper::Trim`.  `/repo/mdflib/src/mdfhelper.cpp` lines 223-226. -/
def trim (s : Bytes) : Bytes := rTrim (lTrim s)

/-- `WriteStr`: one character per byte of the field, zero beyond the text.
`/repo/mdflib/src/mdfblock.cpp` lines 250-256. -/
def writeStr (source : Bytes) : (size : Nat) → Bytes
  | 0 => []
  | size + 1 =>
    match source with
    | [] => 0#8 :: writeStr [] size
    | c :: s => c :: writeStr s size

/-- The loop of `ReadStr`.  A zero ends the text and the position is moved to the end
of the field.  At the end of the file `sbumpc` returns EOF, which is stored as the
character `0xFF`, and the position does not move.
`/repo/mdflib/src/mdfblock.cpp` lines 230-244. -/
def readStrLoop : (size : Nat) → (file acc : Bytes) → Bytes × Bytes
  | 0, file, acc => (acc, file)
  | size + 1, [], acc => readStrLoop size [] (acc ++ [0xFF#8])
  | size + 1, c :: file, acc =>
    if c = 0#8 then (acc, file.drop size) else readStrLoop size file (acc ++ [c])

/-- `ReadStr`: the text and what follows in the file.
`/repo/mdflib/src/mdfblock.cpp` lines 230-248. -/
def readStr (size : Nat) (file : Bytes) : Bytes × Bytes :=
  let r := readStrLoop size file []
  (trim r.1, r.2)

end Mdf
