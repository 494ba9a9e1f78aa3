import Verif.Model.Session
import Verif.Spec.Layout

/-!
What an application may expect of a measurement: the value of a channel in a sample is the last one set before the sample was saved.
-/

namespace Mdf

/-- The value last set on element `i` of channel `k` of group `g` at each `SaveSample` of the group, with the validity given; `none` if
it has not been set.  `cur` is the value set before the calls. -/
def savedAs (g k i : Nat) : (cur : Option (SetVal × Bool)) → List AppCall → List (Option (SetVal × Bool))
  | _, [] => []
  | cur, .set g' k' v valid i' :: cs => savedAs g k i (if g' = g ∧ k' = k ∧ i' = i then some (v, valid) else cur) cs
  | cur, .save g' _ :: cs => if g' = g then cur :: savedAs g k i cur cs else savedAs g k i cur cs
  | cur, .other _ :: cs => savedAs g k i cur cs

/-- The times of the samples saved. -/
def saveTimes : List AppCall → List Nat
  | [] => []
  | .save _ time :: cs => time :: saveTimes cs
  | _ :: cs => saveTimes cs

/-- The calls of a measurement: those before it is started at time `t`, those before the stop is requested, and those after, which save
no samples.  It is started once and not finalised before it is stopped; the file can be opened at the end; the times of the samples do not
go down, and none is older than the pre-trigger time when the measurement is started. -/
structure Recording (t pre : Nat) (c1 c2 c3 : List AppCall) : Prop where
  once : ∀ t', .other (.start t') ∉ c1 ++ c2 ++ c3
  notFinal : .other .finalize ∉ c1 ++ c2
  file : .other (.opened false) ∉ c3
  noSave : ∀ g time, .save g time ∉ c3
  start : 0 < t ∧ pre ≤ t ∧ t < 2 ^ 64
  order : (saveTimes (c1 ++ c2)).Pairwise (· ≤ ·)
  times : ∀ u ∈ saveTimes (c1 ++ c2), u < 2 ^ 64 ∧ t ≤ u + pre
  before : ∀ u ∈ saveTimes c1, u ≤ t

/-- The groups of the data group can be recorded: there are no empty records (C46), the layouts do not overflow (C09), and the channels
are new. -/
structure Ses.Fits (s : Ses) : Prop where
  count : s.groups.length < 2 ^ 64
  layout : ∀ cs ∈ s.groups, LayoutFits cs ∧ 0 < (prepareGroup cs).recordSize ∧ (prepareGroup cs).recordSize ≤ 2 ^ 28 ∧
    ∀ c ∈ cs, c.invalidPos = 0

/-- The value itself, as a channel of the data type shows it. -/
def SetVal.plain (c : Chan) : SetVal → ChanVal
  | .num x =>
    match c.dataType with
    | .unsignedLe | .unsignedBe => .num x.uns.toNat
    | .signedLe | .signedBe => .int x.sgn.toInt
    | .floatLe | .floatBe => .float (if c.bitCount = 32 then x.f32.setWidth 64 else x.f64)
    | _ => .other
  | .text t => .text t.text
  | .bytes b => .bytes b

/-- The value of a channel that has not been set: zero, an empty text, zeros. -/
def Chan.unset (c : Chan) : ChanVal :=
  match c.dataType with
  | .unsignedLe | .unsignedBe => .num 0
  | .signedLe | .signedBe => .int 0
  | .floatLe | .floatBe => .float 0
  | .stringAscii | .stringUtf8 | .stringUtf16Le | .stringUtf16Be => .text []
  | .byteArray | .mimeSample | .mimeStream => .bytes (List.replicate (c.bitCount / 8) 0)
  | _ => .other

/-- What is to be shown: the value, and its validity if the channel has validity bits. -/
def Chan.expected (c : Chan) : Option (SetVal × Bool) → Bool × ChanVal
  | none => (true, c.unset)
  | some (v, valid) => (valid || !c.invalidFlag, v.plain c)

/-- A channel of numbers in the record. -/
def Chan.Numeric (c : Chan) : Prop :=
  (c.dataType = .unsignedLe ∨ c.dataType = .unsignedBe ∨ c.dataType = .signedLe ∨ c.dataType = .signedBe ∨ c.dataType = .floatLe ∨
    c.dataType = .floatBe) ∧ c.type ≠ .variableLength ∧ c.type ≠ .virtualMaster ∧ c.type ≠ .virtualData

/-- A channel of one text or byte array of whole bytes in the record. -/
def Chan.Sized (c : Chan) : Prop :=
  (c.dataType = .stringAscii ∨ c.dataType = .stringUtf8 ∨ c.dataType = .byteArray ∨ c.dataType = .mimeSample ∨
    c.dataType = .mimeStream) ∧ c.arraySize ≤ 1 ∧ 0 < c.bitCount ∧ c.bitCount % 8 = 0 ∧ c.type ≠ .variableLength

/-- A channel of one text or byte array of any length. -/
def Chan.Unsized (c : Chan) : Prop :=
  (c.dataType = .stringAscii ∨ c.dataType = .stringUtf8 ∨ c.dataType = .byteArray ∨ c.dataType = .mimeSample ∨
    c.dataType = .mimeStream) ∧ c.arraySize ≤ 1 ∧ c.bitCount = 64 ∧ c.type = .variableLength

/-- A value the channel can hold: a number in its range, a text of characters that its encoding has (and no zero), short enough; an array
of its length. -/
def SetVal.Suits (c : Chan) : SetVal → Prop
  | .num x =>
    match c.dataType with
    | .unsignedLe | .unsignedBe => x.uns.toNat < 2 ^ c.bitCount
    | .signedLe | .signedBe => -(2 ^ (c.bitCount - 1) : Int) ≤ x.sgn.toInt ∧ x.sgn.toInt < 2 ^ (c.bitCount - 1)
    | .floatLe | .floatBe => True
    | _ => False
  | .text t =>
    (c.dataType = .stringUtf8 ∨ (c.dataType = .stringAscii ∧ ∀ b ∈ t.text, b.toNat < 128)) ∧ 0#8 ∉ t.text ∧
      (if c.type = .variableLength then t.text.length + 1 < 2 ^ 32 else t.text.length < c.bitCount / 8)
  | .bytes b =>
    (c.dataType = .byteArray ∨ c.dataType = .mimeSample ∨ c.dataType = .mimeStream) ∧
      (if c.type = .variableLength then b.length < 2 ^ 32 else b.length = c.bitCount / 8)

end Mdf
