import Verif.Proof.Channel
import Verif.Props.Bits

/-!
# Properties C05 - C08, C44: channel values in a record

Specification vocabulary: `Verif.Spec.Channel` (`Chan.pos`, `fieldLe`, `fieldBe`, `Chan.validPos`) and
`leNat`, `beNat`, `bitAt` of `Verif.Model.Bits`.  `Res.ub` / `none` is undefined behaviour.
-/

namespace Mdf

/-! ### C05 reading -/

theorem getUnsigned_bitPos_ok (c : Chan) (record : Bytes) (i : Nat) (wt : c.WellTyped)
    (nowrap : (i + 1) * c.bitCount ≤ 2 ^ 63)
    (h : ¬ c.rangeCheck i > record.length) : c.bitPos i + c.bitCount ≤ 8 * record.length := by
  obtain ⟨w1, w2, w3⟩ := wt
  unfold Chan.rangeCheck at h
  have hb : c.bitPos i + c.bitCount < 2 ^ 64 := by
    unfold Chan.bitPos
    rw [Nat.add_mul, Nat.one_mul] at nowrap
    generalize i * c.bitCount = k at *
    omega
  dsimp only at h
  rw [Nat.mod_eq_of_lt hb] at h
  split at h <;> omega

/-- **C05**.  Reading a channel never reads outside the record: whatever the channel settings and the content
and size of the record (up to 256 MiB), the result is a value or a failure, never undefined behaviour.
The array index must not overflow the 64 bit product with the bit count. -/
theorem C05_get_in_bounds (c : Chan) (record : Bytes) (i : Nat) (wt : c.WellTyped)
    (nowrap : (i + 1) * c.bitCount ≤ 2 ^ 63) (small : record.length ≤ 2 ^ 28) :
    c.getUnsigned record i ≠ .ub ∧ c.getSigned record i ≠ .ub ∧ c.getFloatBits record i ≠ .ub := by
  by_cases h : c.rangeCheck i > record.length
  · unfold Chan.getUnsigned Chan.getSigned Chan.getFloatBits
    rw [if_pos h, if_pos h, if_pos h]
    simp
  · have hp := getUnsigned_bitPos_ok c record i wt nowrap h
    have hl := C01_read_le (c.bitPos i) c.bitCount record hp (by omega)
    have hb := C03_read_be (c.bitPos i) c.bitCount record hp (by omega)
    have hany : ∀ le, ∃ v, rawToUnsigned le (c.bitPos i) c.bitCount record = some v := by
      intro le; cases le
      · exact ⟨_, hb⟩
      · exact ⟨_, hl⟩
    refine ⟨?_, ?_, ?_⟩
    · unfold Chan.getUnsigned
      rw [if_neg h, hl, hb]
      split
      · simp [Res.ofUb]
      · split <;> simp [Res.ofUb]
    · unfold Chan.getSigned rawToSigned
      rw [if_neg h]
      obtain ⟨v, hv⟩ := hany (c.dataType == .signedLe)
      rw [hv]; simp [Res.ofUb]
    · unfold Chan.getFloatBits
      rw [if_neg h]
      split
      · rw [rawToFloatBits_eq _ _ _ _ (by omega)]
        obtain ⟨v, hv⟩ := hany (c.dataType == .floatLe)
        rw [hv]; simp [Res.ofUb]
      · simp

/-- **C05** (value).  A little-endian unsigned channel reads the bits at its position if they are inside the
record, and fails if they are not. -/
theorem C05_get_unsigned_le (c : Chan) (record : Bytes) (i : Nat) (hd : c.dataType = .unsignedLe)
    (h32 : 8 * c.byteOffset + c.bitOffset < 2 ^ 32) (h64 : c.pos i + c.bitCount < 2 ^ 64)
    (small : record.length ≤ 2 ^ 28) :
    (c.Inside i record.length →
      c.getUnsigned record i = .ok (BitVec.ofNat 64 (fieldLe record (c.pos i) c.bitCount))) ∧
    (¬ c.Inside i record.length → c.getUnsigned record i = .fail) := by
  have hr := rangeCheck_gt c i record.length h32 h64
  unfold Chan.Inside Chan.getUnsigned
  constructor
  · intro hi
    rw [if_neg (by rw [hr]; omega), bitPos_eq c i h32 h64, C01_read_le _ _ _ hi (by omega), hd]
    simp [Res.ofUb, fieldLe]
  · intro hi
    rw [if_pos (by rw [hr]; omega)]

/-- **C05** (value, big endian). -/
theorem C05_get_unsigned_be (c : Chan) (record : Bytes) (i : Nat) (hd : c.dataType = .unsignedBe)
    (hv : c.type ≠ .variableLength)
    (h32 : 8 * c.byteOffset + c.bitOffset < 2 ^ 32) (h64 : c.pos i + c.bitCount < 2 ^ 64)
    (small : record.length ≤ 2 ^ 28) :
    (c.Inside i record.length →
      c.getUnsigned record i = .ok (BitVec.ofNat 64 (fieldBe record (c.pos i) c.bitCount))) ∧
    (¬ c.Inside i record.length → c.getUnsigned record i = .fail) := by
  have hr := rangeCheck_gt c i record.length h32 h64
  unfold Chan.Inside Chan.getUnsigned
  constructor
  · intro hi
    rw [if_neg (by rw [hr]; omega), bitPos_eq c i h32 h64, if_neg hv, hd]
    dsimp only
    rw [C03_read_be _ _ _ hi (by omega)]
    simp [Res.ofUb, fieldBe]
  · intro hi
    rw [if_pos (by rw [hr]; omega)]

theorem raw_field (o : Order) (le : Bool) (ho : le = (o == .le)) (p n : Nat) (record : Bytes)
    (hi : p + n ≤ 8 * record.length) (small : record.length ≤ 2 ^ 28) :
    rawToUnsigned le p n record = some (BitVec.ofNat 64 (fieldOf o record p n)) := by
  subst ho
  cases o
  · exact C01_read_le _ _ _ hi (by omega)
  · exact C03_read_be _ _ _ hi (by omega)

/-- **C05** (signed value, both byte orders): the field at the channel's position, sign extended. -/
theorem C05_get_signed (o : Order) (c : Chan) (record : Bytes) (i : Nat)
    (hd : c.dataType = match o with | .le => .signedLe | .be => .signedBe)
    (h0 : 0 < c.bitCount) (hb : c.bitCount ≤ 64)
    (h32 : 8 * c.byteOffset + c.bitOffset < 2 ^ 32) (h64 : c.pos i + c.bitCount < 2 ^ 64)
    (small : record.length ≤ 2 ^ 28) :
    (c.Inside i record.length → ∃ r, c.getSigned record i = .ok r ∧
      r.toInt = Int.bmod (fieldOf o record (c.pos i) c.bitCount) (2 ^ c.bitCount)) ∧
    (¬ c.Inside i record.length → c.getSigned record i = .fail) := by
  have hr := rangeCheck_gt c i record.length h32 h64
  unfold Chan.Inside Chan.getSigned
  constructor
  · intro hi
    rw [if_neg (by rw [hr]; omega), bitPos_eq c i h32 h64]
    unfold rawToSigned
    rw [raw_field o _ (by rw [hd]; cases o <;> rfl) _ _ _ hi small]
    refine ⟨_, rfl, ?_⟩
    rw [signedField_toInt _ _ h0 hb, BitVec.toInt_eq_toNat_bmod, BitVec.toNat_setWidth, BitVec.toNat_ofNat]
    have hdvd : 2 ^ c.bitCount ∣ 2 ^ 64 := Nat.pow_dvd_pow 2 hb
    rw [Nat.mod_mod_of_dvd _ hdvd, Int.natCast_emod, Int.emod_bmod]
  · intro hi
    rw [if_pos (by rw [hr]; omega)]

/-- **C05** (float): the bit pattern of the number is the field at the channel's position. -/
theorem C05_get_float (o : Order) (c : Chan) (record : Bytes) (i : Nat)
    (hd : c.dataType = match o with | .le => .floatLe | .be => .floatBe)
    (hb : c.bitCount = 16 ∨ c.bitCount = 32 ∨ c.bitCount = 64)
    (h32 : 8 * c.byteOffset + c.bitOffset < 2 ^ 32) (h64 : c.pos i + c.bitCount < 2 ^ 64)
    (small : record.length ≤ 2 ^ 28) :
    (c.Inside i record.length →
      c.getFloatBits record i = .ok (BitVec.ofNat 64 (fieldOf o record (c.pos i) c.bitCount))) ∧
    (¬ c.Inside i record.length → c.getFloatBits record i = .fail) := by
  have hr := rangeCheck_gt c i record.length h32 h64
  unfold Chan.Inside Chan.getFloatBits
  constructor
  · intro hi
    rw [if_neg (by rw [hr]; omega), bitPos_eq c i h32 h64, if_pos hb, rawToFloatBits_eq _ _ _ _ (by omega),
      raw_field o _ (by rw [hd]; cases o <;> rfl) _ _ _ hi small]
    rfl
  · intro hi
    rw [if_pos (by rw [hr]; omega)]

/-- A 12 bit channel at byte 1, bit 3; used in the examples. -/
def exChan : Chan :=
  { type := .fixedLength, dataType := .unsignedLe, byteOffset := 1, bitOffset := 3, bitCount := 12,
    invalidFlag := true, invalidPos := 2, nofDataBytes := 4, arraySize := 1 }

/-- Non-vacuity of C05: inside, not inside, and the value. -/
example : exChan.WellTyped ∧ (0 + 1) * exChan.bitCount ≤ 2 ^ 63 ∧ exChan.Inside 0 4 ∧ ¬ exChan.Inside 0 2 ∧
    exChan.getUnsigned [0xFF, 0xE0, 0x55, 0x00, 0x00] 0 = .ok 0xABC ∧
    exChan.getUnsigned [0xFF, 0xE0] 0 = .fail := by
  refine ⟨by decide, by decide, by decide, by decide, by decide, by decide⟩

/-- C05 without the no-wrap hypothesis is false: with a huge array index the 64 bit sum wraps, the range check
passes and the read leaves the record. -/
theorem C05_array_index_wrap_ub :
    ({ exChan with byteOffset := 0, bitOffset := 0, bitCount := 64 } : Chan).getUnsigned [1, 2, 3] (2 ^ 58 - 1)
      = .ub := by decide

/-- The byte offset is multiplied in 32 bits: a channel declared at byte 2^29 (outside the record) is not
refused, it reads byte 0 instead. -/
theorem C05_byte_offset_wrap :
    ({ exChan with byteOffset := 2 ^ 29, bitOffset := 0, bitCount := 8 } : Chan).getUnsigned [0x5A] 0
      = .ok 0x5A := by decide

/-! ### C06 writing stays in the buffer -/

theorem setInt_in_bounds (o : Order) (c : Chan) (value : BitVec 64) (valid : Bool) (i : Nat) (buf : Bytes)
    (nowrap : c.byteOffset + c.dataBytes * (i + 1) < 2 ^ 64) :
    ∃ out, c.setInt o (i + 1) value valid i buf = some out ∧ out.length = buf.length := by
  unfold Chan.setInt
  split
  · exact ⟨_, rfl, rfl⟩
  · dsimp only
    split
    · exact ⟨_, rfl, setValid_length ..⟩
    · rename_i h
      split
      · rename_i data hd
        have h2 : c.dataBytes * i ≤ c.dataBytes * (i + 1) := Nat.mul_le_mul_left _ (by omega)
        have h3 : c.dataBytes * (i + 1) = c.dataBytes * i + c.dataBytes := Nat.mul_succ _ _
        have hlen := intBytes_length hd
        have hw := wrBytes_eq_some (buf := c.setValid valid i buf)
          (off := (c.byteOffset + c.dataBytes * i % 2 ^ 64) % 2 ^ 64) (data := data)
          (by rw [setValid_length]; omega)
        exact ⟨_, hw, by rw [wrBytes_length hw, setValid_length]⟩
      · exact ⟨_, rfl, by rw [setValid_length, setValid_length]⟩

/-- **C06**.  Setting a channel value never writes outside the sample buffer and never changes its size,
whatever the channel settings, the array index and the buffer size: the little-endian unsigned and
both signed setters.  (The big-endian unsigned setter is `C06_set_unsigned_be_ub`.) -/
theorem C06_set_int_in_bounds (c : Chan) (value : BitVec 64) (valid : Bool) (i : Nat) (buf : Bytes)
    (nowrap : c.byteOffset + c.dataBytes * (i + 1) < 2 ^ 64) :
    (∃ out, c.setUnsignedLe value valid i buf = some out ∧ out.length = buf.length) ∧
    (∃ out, c.setSignedLe value valid i buf = some out ∧ out.length = buf.length) ∧
    (∃ out, c.setSignedBe value valid i buf = some out ∧ out.length = buf.length) :=
  ⟨setInt_in_bounds .le c value valid i buf nowrap, setInt_in_bounds .le c value valid i buf nowrap,
    setInt_in_bounds .be c value valid i buf nowrap⟩

/-- **C06** for the float setters. -/
theorem C06_set_float_in_bounds (o : Order) (c : Chan) (f32 : BitVec 32) (f64 : BitVec 64) (valid : Bool) (i : Nat)
    (buf : Bytes) (nowrap : c.byteOffset + c.dataBytes * (i + 1) < 2 ^ 64) :
    ∃ out, c.setFloat o f32 f64 valid i buf = some out ∧ out.length = buf.length := by
  unfold Chan.setFloat
  split
  · exact ⟨_, rfl, rfl⟩
  · dsimp only
    split
    · exact ⟨_, rfl, setValid_length ..⟩
    · rename_i h
      split
      · rename_i data hd
        have h2 : c.dataBytes * i ≤ c.dataBytes * (i + 1) := Nat.mul_le_mul_left _ (by omega)
        have h3 : c.dataBytes * (i + 1) = c.dataBytes * i + c.dataBytes := Nat.mul_succ _ _
        have hlen : data.length = c.dataBytes := by
          unfold floatBytes at hd
          split at hd
          · rw [← Option.some.inj hd]; simp [*]
          · split at hd
            · rw [← Option.some.inj hd]; simp [*]
            · exact absurd hd (by simp)
        have hw := wrBytes_eq_some (buf := c.setValid valid i buf)
          (off := (c.byteOffset + c.dataBytes * i % 2 ^ 64) % 2 ^ 64) (data := data)
          (by rw [setValid_length]; omega)
        exact ⟨_, hw, by rw [wrBytes_length hw, setValid_length]⟩
      · exact ⟨_, rfl, by rw [setValid_length, setValid_length]⟩

/-- **C06** is false for the big-endian unsigned setter: its bound check forgets the value itself, so a two byte
value is written at the end of a one byte buffer. -/
theorem C06_set_unsigned_be_ub :
    ({ exChan with dataType := .unsignedBe, byteOffset := 0, bitOffset := 0, bitCount := 16 } : Chan).setUnsignedBe
      0x1234 true 0 [0x00] = none := by decide

/-- **C06** (what holds for the big-endian unsigned setter).  If the value is inside the buffer the write stays
inside.  Missing for the full C06: the case where it is not inside. -/
theorem C06_set_unsigned_be_partial (c : Chan) (value : BitVec 64) (valid : Bool) (i : Nat) (buf : Bytes)
    (fits : c.byteOffset + c.dataBytes * (i + 1) ≤ buf.length) (small : buf.length ≤ 2 ^ 28) :
    ∃ out, c.setUnsignedBe value valid i buf = some out ∧ out.length = buf.length := by
  unfold Chan.setUnsignedBe
  by_cases hne : buf = []
  · unfold Chan.setInt; rw [if_pos hne]; exact ⟨_, rfl, rfl⟩
  have h1 : c.dataBytes * i ≤ c.dataBytes * (i + 1) := Nat.mul_le_mul_left _ (by omega)
  cases hd : intBytes .be c.dataBytes value with
  | some data =>
    rw [setInt_eq .be i c value valid i buf data (by omega) hd hne fits small]
    have h3 : c.dataBytes * (i + 1) = c.dataBytes * i + c.dataBytes := Nat.mul_succ _ _
    have hlen := intBytes_length hd
    have hw := wrBytes_eq_some (buf := c.setValid valid i buf) (off := c.byteOffset + c.dataBytes * i) (data := data)
      (by rw [setValid_length]; omega)
    exact ⟨_, hw, by rw [wrBytes_length hw, setValid_length]⟩
  | none =>
    unfold Chan.setInt
    rw [if_neg hne]
    dsimp only
    rw [if_neg (by omega), hd]
    exact ⟨_, rfl, by rw [setValid_length, setValid_length]⟩

/-- Non-vacuity of C06: a value that does not fit leaves the buffer as it is, except for the validity bit. -/
example : let c : Chan := { exChan with byteOffset := 0, bitOffset := 0, bitCount := 16, nofDataBytes := 1 }
    c.byteOffset + c.dataBytes * (0 + 1) < 2 ^ 64 ∧
    c.setUnsignedLe 0x1234 true 0 [0x77, 0x00] = some [0x34, 0x12] ∧
    c.setUnsignedLe 0x1234 true 1 [0x77, 0x00] = some [0x77, 0x08] := by decide

/-! ### C07 set/get round trip -/

/-- What a successful set means to the user: the buffer keeps its size, the validity of the element is what was
passed (a channel without validity bits is always valid), and no bit outside the value and
its validity bit has changed. -/
def Stored (c : Chan) (i : Nat) (valid : Bool) (buf out : Bytes) : Prop :=
  out.length = buf.length ∧
  (c.validPos i / 8 < buf.length → c.getValid out i = (valid || !c.invalidFlag)) ∧
  ∀ p, (p < c.pos i ∨ c.pos i + c.bitCount ≤ p) → (c.invalidFlag = true → p ≠ c.validPos i) →
    bitAt out p = bitAt buf p

/-- A channel that the writer lays out: whole bytes, inside the data bytes of the record buffer. -/
structure Placed (c : Chan) (i : Nat) (buf : Bytes) : Prop where
  bit0 : c.bitOffset = 0
  size : c.bitCount = 8 ∨ c.bitCount = 16 ∨ c.bitCount = 32 ∨ c.bitCount = 64
  inside : c.Inside i c.nofDataBytes
  data : c.nofDataBytes ≤ buf.length
  small : buf.length ≤ 2 ^ 28
  validPos : c.ValidPosOk i

theorem Placed.bytes {c : Chan} {i : Nat} {buf : Bytes} (h : Placed c i buf) :
    ∃ n, (n = 1 ∨ n = 2 ∨ n = 4 ∨ n = 8) ∧ c.bitCount = 8 * n ∧ c.dataBytes = n ∧
      c.pos i = 8 * (c.byteOffset + n * i) ∧ c.byteOffset + n * (i + 1) ≤ c.nofDataBytes := by
  obtain ⟨n, hn, hc⟩ : ∃ n, (n = 1 ∨ n = 2 ∨ n = 4 ∨ n = 8) ∧ c.bitCount = 8 * n := by
    rcases h.size with e | e | e | e
    · exact ⟨1, by omega, e⟩
    · exact ⟨2, by omega, e⟩
    · exact ⟨4, by omega, e⟩
    · exact ⟨8, by omega, e⟩
  have hp := pos_bytes c n i hc h.bit0
  refine ⟨n, hn, hc, dataBytes_of_bitCount c n hc, hp, ?_⟩
  have := h.inside
  unfold Chan.Inside at this
  rw [hp, hc] at this
  rw [Nat.mul_succ]; omega

theorem setInt_placed (o : Order) (ci : Nat) (c : Chan) (value : BitVec 64) (valid : Bool) (i : Nat) (buf : Bytes)
    (hci : ci ≤ i + 1) (pl : Placed c i buf) :
    ∃ out, c.setInt o ci value valid i buf = some out ∧ Stored c i valid buf out ∧
      (out.drop (c.byteOffset + c.dataBytes * i)).take c.dataBytes =
        orderBytes o c.dataBytes value.toNat := by
  obtain ⟨n, hn, hc, hd, hp, hin⟩ := pl.bytes
  have hdat := pl.data
  have hne : buf ≠ [] := by
    intro e; subst e
    simp only [List.length_nil] at hdat
    rw [Nat.mul_succ] at hin; omega
  have hib : intBytes o c.dataBytes value = some (orderBytes o c.dataBytes value.toNat) := by
    unfold intBytes; rw [hd, if_pos hn]
  have hlen := intBytes_length hib
  rw [setInt_eq o ci c value valid i buf _ hci hib hne (by rw [hd]; omega) pl.small]
  have h3 : n * (i + 1) = n * i + n := Nat.mul_succ _ _
  have hw := wrBytes_eq_some (buf := c.setValid valid i buf) (off := c.byteOffset + c.dataBytes * i)
    (data := orderBytes o c.dataBytes value.toNat)
    (by rw [setValid_length, hlen, hd]; omega)
  refine ⟨_, hw, ?_, ?_⟩
  · obtain ⟨s1, _, s3, s4⟩ := store_spec c valid i buf _ _ _ hw (by rw [hlen, hd]; omega) pl.validPos
    refine ⟨s1, s3, fun p hp1 hp2 => s4 p ?_ hp2⟩
    rw [hlen, hd]
    rw [hp, hc] at hp1
    omega
  · have := wrBytes_slice hw
    conv at this => lhs; arg 1; rw [hlen]
    exact this

theorem fieldLe_bytes (out : Bytes) (off n v : Nat) (hin : off + n ≤ out.length)
    (h : (out.drop off).take n = leBytes n v) : fieldLe out (8 * off) (8 * n) = v % 2 ^ (8 * n) := by
  unfold fieldLe
  rw [leNat_slice out off n hin, h, leNat_leBytes, pow256]

theorem fieldBe_bytes (out : Bytes) (off n v : Nat)
    (h : (out.drop off).take n = beBytes n v) : fieldBe out (8 * off) (8 * n) = v % 2 ^ (8 * n) := by
  unfold fieldBe
  have e1 : 8 * off / 8 = off := by omega
  have e2 : 8 * off % 8 = 0 := by omega
  have e3 : (0 + 8 * n + 7) / 8 = n := by omega
  rw [e1, e2, e3, h, beNat_beBytes, pow256, Nat.pow_zero, Nat.div_one, Nat.mod_mod]

theorem fieldOf_bytes (o : Order) (out : Bytes) (off n v : Nat) (hin : off + n ≤ out.length)
    (h : (out.drop off).take n = orderBytes o n v) : fieldOf o out (8 * off) (8 * n) = v % 2 ^ (8 * n) := by
  cases o
  · exact fieldLe_bytes out off n v hin h
  · exact fieldBe_bytes out off n v h

theorem Placed.get {c : Chan} {i : Nat} {buf : Bytes} (pl : Placed c i buf) :
    8 * c.byteOffset + c.bitOffset < 2 ^ 32 ∧ c.pos i + c.bitCount < 2 ^ 64 ∧ c.Inside i buf.length := by
  obtain ⟨n, hn, hc, hd, hp, hin⟩ := pl.bytes
  have h1 := pl.data
  have h2 := pl.small
  have h3 : n * (i + 1) = n * i + n := Nat.mul_succ _ _
  have h0 := pl.bit0
  unfold Chan.Inside
  refine ⟨by omega, by omega, by omega⟩

/-- **C07** (unsigned, little endian).  A value set on a channel reads back from the sample buffer, truncated to
the size of the channel, with the given validity, for every value, element, channel position and
previous buffer content; nothing else in the buffer changes. -/
theorem C07_unsigned_le_roundtrip (c : Chan) (value : BitVec 64) (valid : Bool) (i : Nat) (buf : Bytes)
    (hd : c.dataType = .unsignedLe) (pl : Placed c i buf) :
    ∃ out, c.setUnsignedLe value valid i buf = some out ∧ Stored c i valid buf out ∧
      c.getUnsigned out i = .ok (BitVec.ofNat 64 (value.toNat % 2 ^ c.bitCount)) := by
  obtain ⟨out, h1, h2, h3⟩ := setInt_placed .le (i + 1) c value valid i buf (by omega) pl
  obtain ⟨n, hn, hc, hdb, hp, hin⟩ := pl.bytes
  obtain ⟨g1, g2, g3⟩ := pl.get
  have hlen := h2.1
  have hsmall := pl.small
  refine ⟨out, h1, h2, ?_⟩
  rw [(C05_get_unsigned_le c out i hd g1 g2 (by omega)).1 (by rw [hlen]; exact g3)]
  rw [hdb] at h3
  have hdat := pl.data
  have h4 : n * (i + 1) = n * i + n := Nat.mul_succ _ _
  rw [hp, hc, fieldLe_bytes out (c.byteOffset + n * i) n value.toNat (by omega) h3]

/-- **C07** (unsigned, big endian). -/
theorem C07_unsigned_be_roundtrip (c : Chan) (value : BitVec 64) (valid : Bool) (i : Nat) (buf : Bytes)
    (hd : c.dataType = .unsignedBe) (ht : c.type ≠ .variableLength) (pl : Placed c i buf) :
    ∃ out, c.setUnsignedBe value valid i buf = some out ∧ Stored c i valid buf out ∧
      c.getUnsigned out i = .ok (BitVec.ofNat 64 (value.toNat % 2 ^ c.bitCount)) := by
  obtain ⟨out, h1, h2, h3⟩ := setInt_placed .be i c value valid i buf (by omega) pl
  obtain ⟨n, hn, hc, hdb, hp, hin⟩ := pl.bytes
  obtain ⟨g1, g2, g3⟩ := pl.get
  have hlen := h2.1
  have hsmall := pl.small
  refine ⟨out, h1, h2, ?_⟩
  rw [(C05_get_unsigned_be c out i hd ht g1 g2 (by omega)).1 (by rw [hlen]; exact g3)]
  rw [hdb] at h3
  rw [hp, hc, fieldBe_bytes out (c.byteOffset + n * i) n value.toNat h3]

/-- **C07** (signed, both byte orders).  A signed value in the range of the channel reads back unchanged. -/
theorem C07_signed_roundtrip (o : Order) (c : Chan) (v : Int) (valid : Bool) (i : Nat) (buf : Bytes)
    (hd : c.dataType = match o with | .le => .signedLe | .be => .signedBe) (pl : Placed c i buf)
    (lo : -(2 ^ (c.bitCount - 1) : Int) ≤ v) (hi : v < 2 ^ (c.bitCount - 1)) :
    ∃ out r, (match o with | .le => c.setSignedLe | .be => c.setSignedBe) (BitVec.ofInt 64 v) valid i buf = some out ∧
      Stored c i valid buf out ∧ c.getSigned out i = .ok r ∧ r.toInt = v := by
  obtain ⟨out, h1, h2, h3⟩ := setInt_placed o (i + 1) c (BitVec.ofInt 64 v) valid i buf (by omega) pl
  obtain ⟨n, hn, hc, hdb, hp, hin⟩ := pl.bytes
  obtain ⟨g1, g2, g3⟩ := pl.get
  have hlen := h2.1
  have hsmall := pl.small
  have hdat := pl.data
  have h4 : n * (i + 1) = n * i + n := Nat.mul_succ _ _
  obtain ⟨r, hr1, hr2⟩ := (C05_get_signed o c out i hd (by omega) (by omega) g1 g2 (by omega)).1 (by rw [hlen]; exact g3)
  refine ⟨out, r, ?_, h2, hr1, ?_⟩
  · cases o <;> exact h1
  rw [hr2]
  rw [hdb] at h3
  have key : fieldOf o out (c.pos i) c.bitCount = (BitVec.ofInt 64 v).toNat % 2 ^ c.bitCount := by
    rw [hp, hc]; exact fieldOf_bytes o out _ n _ (by omega) h3
  rw [key]
  generalize hb : c.bitCount = b at *
  have hb64 : b ≤ 64 := by omega
  obtain ⟨k, rfl⟩ : ∃ k, b = k + 1 := ⟨b - 1, by omega⟩
  simp only [Nat.add_sub_cancel] at lo hi
  have e : Int.bmod (((BitVec.ofInt 64 v).toNat % 2 ^ (k + 1) : Nat) : Int) (2 ^ (k + 1))
      = ((BitVec.ofInt 64 v).setWidth (k + 1)).toInt := by
    rw [BitVec.toInt_eq_toNat_bmod, BitVec.toNat_setWidth]
  rw [e, setWidth_ofInt _ hb64, BitVec.toInt_ofInt]
  have hp : (2 ^ (k + 1) : Nat) = 2 * 2 ^ k := by rw [Nat.pow_succ]; omega
  have hc : ((2 ^ k : Nat) : Int) = (2 : Int) ^ k := by simp
  rw [Int.bmod_eq_of_le] <;> omega

/-- **C07** (floats, both byte orders).  The bit pattern of a 32 or 64 bit float reads back unchanged. -/
theorem C07_float_roundtrip (o : Order) (c : Chan) (f32 : BitVec 32) (f64 : BitVec 64) (valid : Bool) (i : Nat)
    (buf : Bytes) (hd : c.dataType = match o with | .le => .floatLe | .be => .floatBe) (pl : Placed c i buf)
    (hs : c.bitCount = 32 ∨ c.bitCount = 64) :
    ∃ out, c.setFloat o f32 f64 valid i buf = some out ∧ Stored c i valid buf out ∧
      c.getFloatBits out i = .ok (if c.bitCount = 32 then f32.setWidth 64 else f64) := by
  obtain ⟨n, hn, hc, hdb, hp, hin⟩ := pl.bytes
  obtain ⟨g1, g2, g3⟩ := pl.get
  have hsmall := pl.small
  have hdat := pl.data
  have h4 : n * (i + 1) = n * i + n := Nat.mul_succ _ _
  have h5 : n * i ≤ n * (i + 1) := by omega
  -- the value as a 64 bit number, and the same bytes as the integer setter
  let value : BitVec 64 := if c.bitCount = 32 then f32.setWidth 64 else f64
  have hsame : c.setFloat o f32 f64 valid i buf = c.setInt o (i + 1) value valid i buf := by
    have hbb : floatBytes o c.dataBytes f32 f64 = intBytes o c.dataBytes value := by
      unfold floatBytes intBytes
      rw [hdb]
      rcases hs with e | e
      · have hn4 : n = 4 := by omega
        have hv : value.toNat = f32.toNat := by
          have h32 := f32.isLt
          show (if c.bitCount = 32 then f32.setWidth 64 else f64).toNat = _
          rw [if_pos e, BitVec.toNat_setWidth]; omega
        rw [if_pos hn4, if_pos hn, hn4, hv]
      · have hn8 : n = 8 := by omega
        have hv : value = f64 := if_neg (by omega)
        rw [if_neg (by omega), if_pos hn8, if_pos hn, hn8, hv]
    unfold Chan.setFloat Chan.setInt
    dsimp only
    rw [hbb]
  obtain ⟨out, h1, h2, h3⟩ := setInt_placed o (i + 1) c value valid i buf (by omega) pl
  have hlen := h2.1
  refine ⟨out, by rw [hsame]; exact h1, h2, ?_⟩
  rw [(C05_get_float o c out i hd (by omega) g1 g2 (by omega)).1 (by rw [hlen]; exact g3)]
  rw [hdb] at h3
  have key : fieldOf o out (c.pos i) c.bitCount = value.toNat % 2 ^ c.bitCount := by
    rw [hp, hc]; exact fieldOf_bytes o out _ n _ (by omega) h3
  rw [key]
  congr 1
  show _ = value
  apply BitVec.eq_of_toNat_eq
  rw [BitVec.toNat_ofNat]
  have hvlt : value.toNat < 2 ^ c.bitCount := by
    show (if c.bitCount = 32 then f32.setWidth 64 else f64).toNat < _
    have h32 := f32.isLt
    have h64 := f64.isLt
    rcases hs with e | e
    · rw [if_pos e, e, BitVec.toNat_setWidth]; omega
    · rw [if_neg (by omega), e]; exact h64
  have := value.isLt
  rw [Nat.mod_eq_of_lt hvlt, Nat.mod_eq_of_lt this]

/-- **C07** (byte arrays).  A byte array set on a fixed length channel reads back truncated to the length of the
channel or filled up with zeros. -/
theorem C07_byte_array_roundtrip (c : Chan) (value : Bytes) (valid : Bool) (buf : Bytes) (n : Nat)
    (hn : 0 < n) (hc : c.bitCount = 8 * n) (bit0 : c.bitOffset = 0) (inside : c.byteOffset + n ≤ c.nofDataBytes)
    (data : c.nofDataBytes ≤ buf.length) (vp : c.ValidPosOk 0) :
    ∃ out, c.setByteArray value valid buf = some out ∧ Stored c 0 valid buf out ∧
      c.getByteArray out = .ok (value.take n ++ List.replicate (n - value.length) 0) := by
  have hdb := dataBytes_of_bitCount c n hc
  have hbytes : c.bitCount / 8 = n := by omega
  have hrep : (List.replicate n (0 : Byte)).length = n := List.length_replicate
  have hw1 := wrBytes_eq_some (buf := c.setValid valid 0 buf) (off := c.byteOffset) (data := List.replicate n (0 : Byte))
    (by rw [setValid_length, hrep]; omega)
  generalize hmid : (c.setValid valid 0 buf).take c.byteOffset ++ List.replicate n (0 : Byte) ++
    (c.setValid valid 0 buf).drop (c.byteOffset + (List.replicate n (0 : Byte)).length) = mid at hw1
  have hml := wrBytes_length hw1
  rw [setValid_length] at hml
  have hset : c.setByteArray value valid buf = wrBytes mid c.byteOffset (value.take n) := by
    unfold Chan.setByteArray
    simp only [hbytes, if_neg (show ¬ n = 0 by omega), hw1, Option.bind_eq_bind, Option.bind_some]
    split
    · rw [List.take_of_length_le (by omega)]
    · rfl
  have hw2 := wrBytes_eq_some (buf := mid) (off := c.byteOffset) (data := value.take n)
    (by rw [hml, List.length_take]; omega)
  refine ⟨_, by rw [hset]; exact hw2, ?_, ?_⟩
  · have hb : ∀ p, (p < 8 * c.byteOffset ∨ 8 * (c.byteOffset + n) ≤ p) →
        bitAt (mid.take c.byteOffset ++ value.take n ++ mid.drop (c.byteOffset + (value.take n).length)) p
          = bitAt (c.setValid valid 0 buf) p := by
      intro p hp
      apply bitAt_eq_of_byte
      rw [wrBytes_getElem? hw2, if_neg (by rw [List.length_take]; omega), wrBytes_getElem? hw1,
        if_neg (by rw [hrep]; omega)]
    refine ⟨by rw [wrBytes_length hw2, hml], ?_, ?_⟩
    · intro hv
      rw [getValid_eq c 0 _ vp, hb _ (Or.inr (by unfold Chan.validPos; omega)), bitAt_setValid c valid 0 buf vp]
      cases hf : c.invalidFlag <;> simp [hv]
    · intro p hp hq
      have hpos : c.pos 0 = 8 * c.byteOffset := by unfold Chan.pos; omega
      rw [hb p (by omega), bitAt_setValid c valid 0 buf vp, if_neg]
      intro hh; exact hq hh.1 hh.2.2
  · unfold Chan.getByteArray
    rw [hdb, if_neg (by omega), if_pos (by rw [wrBytes_length hw2, hml]; omega)]
    congr 1
    apply List.ext_getElem?
    intro k
    rw [List.getElem?_take]
    by_cases hk : k < n
    · rw [if_pos hk, List.getElem?_drop, wrBytes_getElem? hw2, List.getElem?_append, List.length_take]
      have e : c.byteOffset + k - c.byteOffset = k := by omega
      by_cases hkv : k < value.length
      · rw [if_pos (by omega), if_pos (by omega), e]
      · rw [if_neg (by omega), if_neg (by omega), wrBytes_getElem? hw1, if_pos (by rw [hrep]; omega), e,
          List.getElem?_replicate, List.getElem?_replicate, if_pos hk, if_pos (by omega)]
    · rw [if_neg hk, List.getElem?_eq_none]
      rw [List.length_append, List.length_take, List.length_replicate]; omega

/-- A two byte, two element array channel with validity bits; used in the examples. -/
def exArray : Chan :=
  { type := .fixedLength, dataType := .unsignedLe, byteOffset := 1, bitOffset := 0, bitCount := 16,
    invalidFlag := true, invalidPos := 3, nofDataBytes := 5, arraySize := 2 }

/-- Non-vacuity of C07. -/
example : Placed exArray 1 [0, 1, 2, 3, 4, 0] ∧ Placed { exArray with dataType := .signedBe } 1 [0, 1, 2, 3, 4, 0] ∧
    exArray.setUnsignedLe 0x1ABCD false 1 [0, 1, 2, 3, 4, 0] = some [0, 1, 2, 0xCD, 0xAB, 0x10] ∧
    exArray.getUnsigned [0, 1, 2, 0xCD, 0xAB, 0x10] 1 = .ok 0xABCD ∧
    exArray.getValid [0, 1, 2, 0xCD, 0xAB, 0x10] 1 = false ∧
    exArray.getValid [0, 1, 2, 0xCD, 0xAB, 0x10] 0 = true ∧
    ({ exArray with dataType := .signedBe } : Chan).setSignedBe (BitVec.ofInt 64 (-2)) true 1 [0, 1, 2, 3, 4, 0]
      = some [0, 1, 2, 0xFF, 0xFE, 0] ∧
    exArray.setByteArray [7] true [0, 1, 2, 3, 4, 0] = some [0, 7, 0, 3, 4, 0] := by
  refine ⟨⟨rfl, by decide, by decide, by decide, by decide, by decide⟩,
    ⟨rfl, by decide, by decide, by decide, by decide, by decide⟩, by decide, by decide, by decide, by decide,
    by decide, by decide⟩

/-! ### C08 validity bits -/

/-- **C08**.  Setting the validity of one element changes no other bit of the buffer, so it changes
neither the data bytes nor the validity of any other element or channel, and is what the element then
reports. -/
theorem C08_set_valid (c : Chan) (v : Bool) (i : Nat) (buf : Bytes) (ok : c.ValidPosOk i)
    (hf : c.invalidFlag = true) (hin : c.validPos i / 8 < buf.length) :
    c.getValid (c.setValid v i buf) i = v ∧
    (c.setValid v i buf).length = buf.length ∧
    (∀ k, k < c.nofDataBytes → (c.setValid v i buf)[k]? = buf[k]?) ∧
    (∀ (d : Chan) (j : Nat), d.ValidPosOk j → d.validPos j ≠ c.validPos i →
      d.getValid (c.setValid v i buf) j = d.getValid buf j) := by
  refine ⟨?_, setValid_length .., ?_, ?_⟩
  · rw [getValid_eq c i _ ok, bitAt_setValid c v i buf ok, if_pos ⟨hf, hin, rfl⟩, hf]; simp
  · intro k hk
    rw [setValid_eq c v i buf ok]
    split
    · unfold putBit
      rw [List.getElem?_set, if_neg]
      unfold Chan.validPos; omega
    · rfl
  · intro d j hd hne
    rw [getValid_eq d j _ hd, getValid_eq d j _ hd, bitAt_setValid c v i buf ok, if_neg]
    intro hh; exact hne hh.2.2

/-- **C08** (without validity bits).  A channel without the flag is always valid and setting its validity does
nothing. -/
theorem C08_no_flag (c : Chan) (v : Bool) (i : Nat) (buf : Bytes) (hf : c.invalidFlag = false) :
    c.getValid buf i = true ∧ c.setValid v i buf = buf := by
  unfold Chan.getValid Chan.setValid
  simp [hf]

/-- A sequence of `SetValid` calls on channels of one group. -/
def setValids (ops : List (Chan × Nat × Bool)) (buf : Bytes) : Bytes :=
  ops.foldl (fun b op => op.1.setValid op.2.2 op.2.1 b) buf

/-- **C08** (histories).  After any sequence of calls an element reports the last validity set for its own bit, or what
it was before if there is none. -/
theorem C08_set_valid_sequence (ops : List (Chan × Nat × Bool)) (buf : Bytes) (d : Chan) (j : Nat)
    (hd : d.ValidPosOk j) (hf : d.invalidFlag = true) (hin : d.validPos j / 8 < buf.length)
    (hops : ∀ op ∈ ops, op.1.ValidPosOk op.2.1 ∧ op.1.invalidFlag = true) :
    d.getValid (setValids ops buf) j =
      ((ops.filter fun op => op.1.validPos op.2.1 = d.validPos j).getLast?.map (·.2.2)).getD (d.getValid buf j) := by
  induction ops generalizing buf with
  | nil => simp [setValids]
  | cons op ops ih =>
    obtain ⟨o1, o2⟩ := hops op (by simp)
    have hlen := setValid_length op.1 op.2.2 op.2.1 buf
    have := ih (op.1.setValid op.2.2 op.2.1 buf) (by rw [hlen]; exact hin)
      (fun x hx => hops x (List.mem_cons_of_mem _ hx))
    change d.getValid (setValids ops (op.1.setValid op.2.2 op.2.1 buf)) j = _
    rw [this, List.filter_cons]
    by_cases he : op.1.validPos op.2.1 = d.validPos j
    · simp only [he, decide_true, if_true]
      have hv : d.getValid (op.1.setValid op.2.2 op.2.1 buf) j = op.2.2 := by
        rw [getValid_eq d j _ hd, bitAt_setValid op.1 _ _ _ o1, if_pos ⟨o2, by rw [he]; exact hin, he.symm⟩, hf]
        simp
      rw [hv, List.getLast?_cons]
      cases (ops.filter fun op => decide (op.1.validPos op.2.1 = d.validPos j)).getLast? <;> simp
    · simp only [he, decide_false, Bool.false_eq_true, if_false]
      have hv : d.getValid (op.1.setValid op.2.2 op.2.1 buf) j = d.getValid buf j := by
        rw [getValid_eq d j _ hd, getValid_eq d j _ hd, bitAt_setValid op.1 _ _ _ o1, if_neg]
        intro hh; exact he hh.2.2.symm
      rw [hv]

/-- Non-vacuity of C08. -/
example : exArray.ValidPosOk 1 ∧ exArray.validPos 1 / 8 < 6 ∧ exArray.validPos 0 ≠ exArray.validPos 1 ∧
    exArray.setValid false 1 [0, 1, 2, 3, 4, 0xA0] = [0, 1, 2, 3, 4, 0xB0] ∧
    setValids [(exArray, 1, false), (exArray, 0, false), (exArray, 1, true)] [0, 1, 2, 3, 4, 0xA0]
      = [0, 1, 2, 3, 4, 0xA8] := by decide

/-! ### C44 byte order buffers -/

/-- **C44**.  The little- and big-endian buffers hold the number in base 256 with the least (most) significant byte
first, and reading a buffer back gives the number, for numbers of any size. -/
theorem C44_byte_order (n v : Nat) :
    leNat (leBytes n v) = v % 256 ^ n ∧ beNat (beBytes n v) = v % 256 ^ n ∧
    beBytes n v = (leBytes n v).reverse ∧ (leBytes n v).length = n ∧ (beBytes n v).length = n :=
  ⟨leNat_leBytes n v, beNat_beBytes n v, rfl, leBytes_length n v, beBytes_length n v⟩

/-- **C44** (inverse).  Every byte string is the buffer of the number it denotes. -/
theorem C44_byte_order_inverse (b : Bytes) :
    leBytes b.length (leNat b) = b ∧ beBytes b.length (beNat b) = b :=
  ⟨leBytes_leNat b, beBytes_beNat b⟩

/-- **C44** (number order of a little-endian buffer byte by byte). -/
theorem C44_byte_at (n v k : Nat) (hk : k < n) :
    (leBytes n v)[k]? = some (BitVec.ofNat 8 (v / 256 ^ k)) ∧
    (beBytes n v)[k]? = some (BitVec.ofNat 8 (v / 256 ^ (n - 1 - k))) := by
  have key : ∀ (n v k : Nat), k < n → (leBytes n v)[k]? = some (BitVec.ofNat 8 (v / 256 ^ k)) := by
    intro n
    induction n with
    | zero => intro v k hk; omega
    | succ n ih =>
      intro v k hk
      cases k with
      | zero => simp [leBytes]
      | succ k =>
        rw [leBytes, List.getElem?_cons_succ, ih _ _ (by omega), Nat.div_div_eq_div_mul, Nat.pow_succ,
          Nat.mul_comm 256]
  refine ⟨key n v k hk, ?_⟩
  rw [beBytes, List.getElem?_reverse (by simpa using hk), leBytes_length, key n v _ (by omega)]

example : leBytes 4 0x12345678 = [0x78, 0x56, 0x34, 0x12] ∧ beBytes 2 0x1234 = [0x12, 0x34] ∧
    leNat [0x78, 0x56, 0x34, 0x12] = 0x12345678 ∧ beNat [0x12, 0x34] = 0x1234 := by decide

end Mdf
