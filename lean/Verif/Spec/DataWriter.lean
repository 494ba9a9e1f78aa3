import Verif.Model.DataWriter
import Verif.Spec.Session

/-!
What an application may expect of the bulk data writer: the record holds what was last given for each channel.
-/

namespace Mdf

/-- The value is one of its C++ type. -/
def CppVal.Typed : CppVal → Prop
  | .int true n x => (n = 1 ∨ n = 2 ∨ n = 4 ∨ n = 8) ∧ -(2 ^ (8 * n - 1) : Int) ≤ x ∧ x < 2 ^ (8 * n - 1)
  | .int false n x => (n = 1 ∨ n = 2 ∨ n = 4 ∨ n = 8) ∧ 0 ≤ x ∧ x < 2 ^ (8 * n)
  | .flt n bits => (n = 4 ∨ n = 8) ∧ bits.toNat < 2 ^ (8 * n)

/-- A number that channels of this data type and size can have: an integer in the range, or a float. -/
def CppVal.Suits (c : Chan) : CppVal → Prop
  | .int _ _ x =>
    ((c.dataType = .unsignedLe ∨ c.dataType = .unsignedBe) ∧ 0 ≤ x ∧ x < 2 ^ c.bitCount) ∨
    ((c.dataType = .signedLe ∨ c.dataType = .signedBe) ∧ -(2 ^ (c.bitCount - 1) : Int) ≤ x ∧ x < 2 ^ (c.bitCount - 1))
  | .flt n _ => (c.dataType = .floatLe ∨ c.dataType = .floatBe) ∧ 8 * n = c.bitCount

/-- The number as the channel shows it. -/
def CppVal.plain (c : Chan) : CppVal → ChanVal
  | .int _ _ x => if c.dataType = .unsignedLe ∨ c.dataType = .unsignedBe then .num x.toNat else .int x
  | .flt _ bits => .float bits

/-- What the calls have given for channel `k`: the last whole record (by `Reset`, or a raw record of the right size), and the value set
since then. -/
def dwGiven (size k : Nat) : (cur : Bytes × Option CppVal) → List DwCall → Bytes × Option CppVal
  | cur, [] => cur
  | _, .reset :: cs => dwGiven size k (List.replicate size 0, none) cs
  | cur, .set l v :: cs => dwGiven size k (if l.index = k then (cur.1, some v) else cur) cs
  | cur, .raw r n :: cs =>
    match r with
    | some r => dwGiven size k (if n = size then (r, none) else cur) cs
    | none => dwGiven size k cur cs

/-- What the channel is to show: the value set, with the validity of the record; else what the record shows. -/
def Chan.dwExpected (c : Chan) : Bytes × Option CppVal → Bool × ChanVal
  | (r, none) => c.channelValue [] r 0
  | (r, some v) => (c.getValid r 0, v.plain c)

/-- The calls of an application that uses the layouts of the writer, and raw records that are as long as it says. -/
structure DwCalls (s : Ses) (g : Nat) (calls : List DwCall) : Prop where
  layout : ∀ l v, .set l v ∈ calls → l ∈ dwLayouts 0 (s.layout g).result
  raw : ∀ r n, .raw (some r) n ∈ calls → r.length = n

end Mdf
