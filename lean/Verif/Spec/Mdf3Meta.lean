import Verif.Model.Mdf3Meta
import Verif.Spec.Block3

/-! What an MDF 3 file keeps of the values of its blocks. -/

namespace Mdf

/-- What is kept of a text in a field of `n` bytes: the first `n` bytes, up to a zero, without the blanks at both ends. -/
def shown (n : Nat) (s : Bytes) : Bytes := trim ((s.take n).takeWhile (· ≠ 0#8))

/-- A text that is kept as it is. -/
structure TextFits (n : Nat) (s : Bytes) : Prop where
  size : s.length ≤ n
  zero : ∀ c ∈ s, c ≠ 0#8
  head : ∀ c ∈ s.head?, isSpace c = false
  last : ∀ c ∈ s.getLast?, isSpace c = false

/-- The number of bytes of a text of its own block that are kept; the size of the block is told with sixteen bits. -/
def txKept (len : Nat) : Nat := if (len + 5) % 2 ^ 16 < 4 then len else (len + 1) % 2 ^ 16

/-- Between the parameters stand the other bytes of the variant. -/
def mixed3 : List (BitVec 64) → (pad : List (BitVec 64)) → List (BitVec 64)
  | [], _ => []
  | x :: xs, pad => x :: pad.headD 1 :: mixed3 xs pad.tail

def Hd3Vals.seen (v : Hd3Vals) : Hd3Vals :=
  { v with
    date := shown 10 v.date, time := shown 8 v.time, author := shown 32 v.author, department := shown 32 v.department,
    project := shown 32 v.project, subject := shown 32 v.subject, timer := shown 32 v.timer }

def Cn3Vals.seen (v : Cn3Vals) : Cn3Vals := { v with short := shown 32 v.short, desc := shown 128 v.desc }

def Cc3Vals.seen (pad : List (BitVec 64)) (v : Cc3Vals) : Cc3Vals :=
  { v with
    unit := shown 20 v.unit
    params := if ccSingle3 v.type then (mixed3 v.params pad).take v.params.length
      else if ccPair3 v.type then (mixed3 v.params pad).take (2 * (v.params.length / 2)) else []
    formula := if v.type = 10 then shown v.formula.length v.formula else []
    texts := if v.type = 11 then v.texts.map fun t => (t.1, shown 32 t.2) else [] }

/-- What is read of a block: `pad` is what stood in memory next to the parameters of the conversion. -/
def Val3.seen (pad : List (BitVec 64)) : Val3 → Val3
  | .hd v => .hd v.seen
  | .dg v => .dg v
  | .cg v => .cg v
  | .cn v => .cn v.seen
  | .cc v => .cc (v.seen pad)
  | .tx s => .tx (shown (txKept s.length) s)

/-- The values of a conversion fit into a block, and texts into the file. -/
def Val3.Fits : Val3 → Prop
  | .cc v => 46 + 16 * v.params.length < 2 ^ 16 ∧ 46 + 40 * v.texts.length < 2 ^ 16 ∧ v.formula.length < 2 ^ 16
  | .tx s => s.length < 2 ^ 32
  | _ => True

/-- Values that are kept as they are: texts fit into their fields, texts of their own have less than 65531 bytes, and a
conversion has no numeric parameters. -/
def Val3.Clean : Val3 → Prop
  | .hd v => TextFits 10 v.date ∧ TextFits 8 v.time ∧ TextFits 32 v.author ∧ TextFits 32 v.department ∧ TextFits 32 v.project ∧
      TextFits 32 v.subject ∧ TextFits 32 v.timer
  | .dg _ | .cg _ => True
  | .cn v => TextFits 32 v.short ∧ TextFits 128 v.desc
  | .cc v => TextFits 20 v.unit ∧ v.params = [] ∧ (if v.type = 10 then TextFits v.formula.length v.formula else v.formula = []) ∧
      (if v.type = 11 then ∀ t ∈ v.texts, TextFits 32 t.2 else v.texts = [])
  | .tx s => TextFits 65530 s

/-- The objects of the tree have the values `val`; next to the parameters of conversions stands `pad` in memory. -/
def Held3 (I : Nat → Info3) (S : FileSt) (n : Node) (val : Nat → Val3) (pad : Nat → List (BitVec 64)) : Prop :=
  ∀ j ∈ n.ids, I j = (val j).info ∧ (S.st j).body = (val j).write (pad j) ∧ (val j).Fits

/-- The text that is read through a link to a text block. -/
def text3 : List (RTree3 Val3) → Bytes
  | [.mk (.tx s) _] => s
  | _ => []

/-- `Cn3Block::Name` for a channel that was read: the long name is the text of the first of its links to texts. -/
def chanName3 : RTree3 Val3 → Option Bytes
  | .mk (.cn v) (long :: _) => some (getName3 v.short (text3 long))
  | _ => none

/-- The parameters of a conversion that was read. -/
def params3 : RTree3 Val3 → Option (List (BitVec 64))
  | .mk (.cc v) _ => some v.params
  | _ => none

end Mdf
