import Verif.Props.Mdf3Meta

/-!
C75, blocks of older versions of the format: which values are read of a block that tells a smaller size.  A value is read if it starts
before the end of the block that the header tells, whether it ends there or not; the others are as in a new object.
-/

set_option linter.unusedSimpArgs false

namespace Mdf

/-- What a header block of `size` bytes holds: the offsets of the values in the block, and what stands for those behind its end. -/
def Hd3Vals.upTo (size : Nat) (v : Hd3Vals) : Hd3Vals where
  nofDg := if 16 < size then v.nofDg else 0
  date := if 18 < size then v.date else [0x30, 0x31, 0x3A, 0x30, 0x31, 0x3A, 0x31, 0x39, 0x37, 0x30]
  time := if 28 < size then v.time else [0x30, 0x30, 0x3A, 0x30, 0x30, 0x3A, 0x30, 0x30]
  author := if 36 < size then v.author else []
  department := if 68 < size then v.department else []
  project := if 100 < size then v.project else []
  subject := if 132 < size then v.subject else []
  stamp := if 164 < size then v.stamp else 0
  utc := if 172 < size then v.utc else 0
  quality := if 174 < size then v.quality else 0
  timer := if 176 < size then v.timer else []

/-- **C75.**  Of a header block the values are read that start before the end it tells, for every size. -/
theorem C75_header_size (size : Nat) (v : Hd3Vals) (t : Bytes) :
    (Hd3Vals.read size (v.write ++ t)).map (·.1) = some (v.seen.upTo size) := by
  have hw : ∀ (a b : Nat), a ≤ b → ¬ a < size → ¬ b < size := fun a b h h' => by omega
  have hm : ∀ (a b : Nat), a ≤ b → b < size → a < size := fun a b h h' => by omega
  simp only [Hd3Vals.read, hd3Steps, stepsWhile, Hd3Vals.write, List.append_assoc, Nat.reduceAdd]
  by_cases h1 : 16 < size
  case neg =>
    simp only [h1, hw 16 18 (by decide) h1, hw 16 28 (by decide) h1, hw 16 36 (by decide) h1, hw 16 68 (by decide) h1,
      hw 16 100 (by decide) h1, hw 16 132 (by decide) h1, hw 16 164 (by decide) h1, hw 16 172 (by decide) h1, hw 16 174 (by decide) h1,
      hw 16 176 (by decide) h1, if_false, Hd3Vals.upTo]
    rfl
  simp only [h1, if_true, bind_assoc, pure_bind, num2_bind]
  by_cases h2 : 18 < size
  case neg =>
    simp only [h1, h2, hw 18 28 (by decide) h2, hw 18 36 (by decide) h2, hw 18 68 (by decide) h2,
      hw 18 100 (by decide) h2, hw 18 132 (by decide) h2, hw 18 164 (by decide) h2, hw 18 172 (by decide) h2, hw 18 174 (by decide) h2,
      hw 18 176 (by decide) h2, if_false, if_true, Hd3Vals.upTo]
    rfl
  simp only [h2, if_true, bind_assoc, pure_bind, str_bind]
  by_cases h3 : 28 < size
  case neg =>
    simp only [h1, h2, h3, hw 28 36 (by decide) h3, hw 28 68 (by decide) h3,
      hw 28 100 (by decide) h3, hw 28 132 (by decide) h3, hw 28 164 (by decide) h3, hw 28 172 (by decide) h3, hw 28 174 (by decide) h3,
      hw 28 176 (by decide) h3, if_false, if_true, Hd3Vals.upTo]
    rfl
  simp only [h3, if_true, bind_assoc, pure_bind, str_bind]
  by_cases h4 : 36 < size
  case neg =>
    simp only [h1, h2, h3, h4, hw 36 68 (by decide) h4, hw 36 100 (by decide) h4, hw 36 132 (by decide) h4, hw 36 164 (by decide) h4,
      hw 36 172 (by decide) h4, hw 36 174 (by decide) h4, hw 36 176 (by decide) h4, if_false, if_true, Hd3Vals.upTo]
    rfl
  simp only [h4, if_true, bind_assoc, pure_bind, str_bind]
  by_cases h5 : 68 < size
  case neg =>
    simp only [h1, h2, h3, h4, h5, hw 68 100 (by decide) h5, hw 68 132 (by decide) h5, hw 68 164 (by decide) h5,
      hw 68 172 (by decide) h5, hw 68 174 (by decide) h5, hw 68 176 (by decide) h5, if_false, if_true, Hd3Vals.upTo]
    rfl
  simp only [h5, if_true, bind_assoc, pure_bind, str_bind]
  by_cases h6 : 100 < size
  case neg =>
    simp only [h1, h2, h3, h4, h5, h6, hw 100 132 (by decide) h6, hw 100 164 (by decide) h6,
      hw 100 172 (by decide) h6, hw 100 174 (by decide) h6, hw 100 176 (by decide) h6, if_false, if_true, Hd3Vals.upTo]
    rfl
  simp only [h6, if_true, bind_assoc, pure_bind, str_bind]
  by_cases h7 : 132 < size
  case neg =>
    simp only [h1, h2, h3, h4, h5, h6, h7, hw 132 164 (by decide) h7,
      hw 132 172 (by decide) h7, hw 132 174 (by decide) h7, hw 132 176 (by decide) h7, if_false, if_true, Hd3Vals.upTo]
    rfl
  simp only [h7, if_true, bind_assoc, pure_bind, str_bind]
  by_cases h8 : 164 < size
  case neg =>
    simp only [h1, h2, h3, h4, h5, h6, h7, h8, hw 164 172 (by decide) h8, hw 164 174 (by decide) h8, hw 164 176 (by decide) h8,
      if_false, if_true, Hd3Vals.upTo]
    rfl
  simp only [h8, if_true, bind_assoc, pure_bind, num8_bind]
  by_cases h9 : 172 < size
  case neg =>
    simp only [h1, h2, h3, h4, h5, h6, h7, h8, h9, hw 172 174 (by decide) h9, hw 172 176 (by decide) h9,
      if_false, if_true, Hd3Vals.upTo]
    rfl
  simp only [h9, if_true, bind_assoc, pure_bind, num2_bind]
  by_cases h10 : 174 < size
  case neg =>
    simp only [h1, h2, h3, h4, h5, h6, h7, h8, h9, h10, hw 174 176 (by decide) h10, if_false, if_true, Hd3Vals.upTo]
    rfl
  simp only [h10, if_true, bind_assoc, pure_bind, num2_bind]
  by_cases h11 : 176 < size
  case neg =>
    simp only [h1, h2, h3, h4, h5, h6, h7, h8, h9, h10, h11, if_false, if_true, Hd3Vals.upTo]
    rfl
  simp only [h11, if_true, bind_assoc, pure_bind, str_bind]
  simp only [h1, h2, h3, h4, h5, h6, h7, h8, h9, h10, h11, if_true, Hd3Vals.upTo]
  rfl

/-- **C75.**  A header block of 164 bytes (before version 3.2): everything up to the subject is read, no time stamp in nanoseconds. -/
theorem C75_header_old (v : Hd3Vals) (t : Bytes) :
    (Hd3Vals.read 164 (v.write ++ t)).map (·.1) = some { v.seen with stamp := 0, utc := 0, quality := 0, timer := [] } :=
  C75_header_size 164 v t

/-- **C75.**  Of a channel block the links and the byte offset are read that start before the end it tells, for every size. -/
theorem C75_channel_size (size : Nat) (v : Cn3Vals) (a b : Nat) (t : Bytes) :
    (Cn3Vals.read size (v.front ++ (leBytes 4 a ++ (leBytes 4 b ++ (putNum (n := 2) v.byte ++ t))))).map (·.1) =
      some ({ v.seen with byte := if 226 < size then v.byte else 0 },
        (if 218 < size then [a % 2 ^ 32] else []) ++ (if 222 < size then [b % 2 ^ 32] else [])) := by
  have hw : ∀ (a b : Nat), a ≤ b → ¬ a < size → ¬ b < size := fun a b h h' => by omega
  simp only [Cn3Vals.read, Cn3Vals.front, List.append_assoc, cn3Steps, stepsWhile, Nat.reduceAdd]
  simp only [bind_assoc, pure_bind, num2_bind, num8_bind, str_bind, bool_bind, link4_bind, BitVec.toNat_ofNat]
  by_cases h1 : 218 < size
  case neg =>
    simp only [h1, hw 218 222 (by decide) h1, hw 218 226 (by decide) h1, if_false]
    rfl
  simp only [h1, if_true, bind_assoc, pure_bind, link4_bind, BitVec.toNat_ofNat]
  by_cases h2 : 222 < size
  case neg =>
    simp only [h2, hw 222 226 (by decide) h2, if_false]
    rfl
  simp only [h2, if_true, bind_assoc, pure_bind, link4_bind, BitVec.toNat_ofNat]
  by_cases h3 : 226 < size
  case neg =>
    simp only [h3, if_false]
    rfl
  simp only [h3, if_true, bind_assoc, pure_bind, num2_bind]
  rfl

/-- **C75.**  Of a channel group block the link to sample reductions is read only if the block tells more than 30 bytes: the link ends at
byte 30, so a block of the size the format asks for has none. -/
theorem C75_group_size (size : Nat) (v : Cg3Vals) (t : Bytes) :
    (Cg3Vals.read size (v.write ++ t)).map (·.1) = some (v, if 30 < size then [0] else []) := by
  simp only [Cg3Vals.read, Cg3Vals.write, List.append_assoc, num2_bind, num4_bind, Nat.reduceAdd]
  by_cases h : 30 < size
  · simp only [h, if_true]
    have hz : putZeros 4 = putNum (n := 4) 0 := by decide
    rw [hz, num4_bind]
    rfl
  · simp only [h, if_false]
    rfl

/-- **C75.**  Of a conversion block that tells 44 bytes or less the parameters are not read. -/
theorem C75_conversion_size (size : Nat) (pad : List (BitVec 64)) (v : Cc3Vals) (t : Bytes) (h : size ≤ 44) :
    (Cc3Vals.read size (v.write pad ++ t)).map (·.1) =
      some { rangeValid := v.rangeValid, min := v.min, max := v.max, unit := shown 20 v.unit, type := v.type } := by
  have h' : ¬ 44 < size := by omega
  simp only [Cc3Vals.read, Cc3Vals.write, List.append_assoc, bool_bind, num8_bind, str_bind, num2_bind, h', if_false]
  rfl

example : (Hd3Vals.read 164 (({ nofDg := 3, author := [0x41], stamp := 77 } : Hd3Vals).write)).map (fun r => (r.1.nofDg, r.1.author, r.1.stamp)) =
    some (3, [0x41], 0) := by decide +kernel

end Mdf
