import Verif.Proof.Bits

/-!
# Properties C01 - C04: bit fields in a record

Specification vocabulary (from `Verif.Model.Bits`): `leNat raw` is the whole buffer as one
little-endian number, `beNat raw` as one big-endian number, `bitAt raw p` is bit `p % 8` of byte
`p / 8`.  `none` is undefined behaviour.

The hypothesis `8 * raw.length ≤ 2 ^ 31` (a buffer of at most 256 MiB) is needed because the code
casts bit positions to a 32 bit `int`; `C01_large_offset_ub` shows what happens beyond it.
-/

namespace Mdf

/-- **C01** (reading).  A little-endian field is the buffer number shifted and masked. -/
theorem C01_read_le (start length : Nat) (raw : Bytes)
    (fits : start + length ≤ 8 * raw.length) (small : 8 * raw.length ≤ 2 ^ 31) :
    rawToUnsigned true start length raw
      = some (BitVec.ofNat 64 (leNat raw / 2 ^ start % 2 ^ length)) :=
  rawToUnsigned_le start length raw fits (by omega)

/-- **C01**.  A little-endian bit field reads back what was written, modulo `2^length`, for every
start bit, length up to 64, value and previous buffer content. -/
theorem C01_le_bitfield_roundtrip (start length : Nat) (value : BitVec 64) (raw : Bytes)
    (h64 : length ≤ 64) (fits : start + length ≤ 8 * raw.length) (small : 8 * raw.length ≤ 2 ^ 31) :
    ∃ raw', unsignedToRaw true start length value raw = some raw' ∧
      rawToUnsigned true start length raw' = some (BitVec.ofNat 64 (value.toNat % 2 ^ length)) := by
  obtain ⟨raw', h1, h2, h3⟩ := unsignedToRaw_le start length value raw h64 fits (by omega)
  refine ⟨raw', h1, ?_⟩
  rw [C01_read_le start length raw' (by omega) (by omega),
    leNat_field_of_bits start length value raw']
  intro i hi
  rw [h3, if_pos (by omega)]
  congr 1; omega

/-- Non-vacuity: a 12 bit field at bit 5 of a dirty three byte buffer. -/
example : unsignedToRaw true 5 12 0xABC [0xFF, 0x00, 0x5A] = some [0x9F, 0x57, 0x5B] ∧
    rawToUnsigned true 5 12 [0x9F, 0x57, 0x5B] = some 0xABC := by decide

/-- The limit of C01: bit positions from 2^31 are undefined behaviour in the code even if the buffer is
large enough, because `static_cast<int>` makes the index negative. -/
theorem C01_large_offset_ub (value : BitVec 64) (raw : Bytes) :
    unsignedToRaw true (2 ^ 31) 1 value raw = none ∧ rawToUnsigned true (2 ^ 31) 1 raw = none := by
  constructor <;> rfl

/-- **C02**.  Writing a little-endian field changes no bit outside the field, does not change the
size of the buffer, and never leaves the buffer (the result is not `none`) when the field is inside
it. -/
theorem C02_le_write_frame (start length : Nat) (value : BitVec 64) (raw : Bytes)
    (h64 : length ≤ 64) (fits : start + length ≤ 8 * raw.length) (small : 8 * raw.length ≤ 2 ^ 31) :
    ∃ raw', unsignedToRaw true start length value raw = some raw' ∧ raw'.length = raw.length ∧
      ∀ p, (p < start ∨ start + length ≤ p) → bitAt raw' p = bitAt raw p := by
  obtain ⟨raw', h1, h2, h3⟩ := unsignedToRaw_le start length value raw h64 fits (by omega)
  refine ⟨raw', h1, h2, ?_⟩
  intro p hp
  rw [h3, if_neg (by omega)]

/-- **C02** (neighbours).  After a write every other, disjoint little-endian field reads the same value as
before. -/
theorem C02_le_write_keeps_neighbours (start length : Nat) (value : BitVec 64) (raw raw' : Bytes)
    (h64 : length ≤ 64) (fits : start + length ≤ 8 * raw.length) (small : 8 * raw.length ≤ 2 ^ 31)
    (hw : unsignedToRaw true start length value raw = some raw')
    (start2 length2 : Nat) (fits2 : start2 + length2 ≤ 8 * raw.length)
    (disjoint : start2 + length2 ≤ start ∨ start + length ≤ start2) :
    rawToUnsigned true start2 length2 raw' = rawToUnsigned true start2 length2 raw := by
  obtain ⟨raw'', h1, h2, h3⟩ := C02_le_write_frame start length value raw h64 fits small
  rw [hw] at h1
  obtain rfl := Option.some.inj h1
  rw [C01_read_le _ _ raw' (by omega) (by omega), C01_read_le _ _ raw (by omega) (by omega)]
  congr 2
  apply eq_of_testBit_lt (Nat.mod_lt _ (Nat.two_pow_pos _)) (Nat.mod_lt _ (Nat.two_pow_pos _))
  intro i hi
  rw [field_testBit, field_testBit, testBit_leNat, testBit_leNat, h3 _ (by omega)]

/-- Non-vacuity: field [5,17) of a three byte buffer and its neighbours [0,5) and [17,24). -/
example : unsignedToRaw true 5 12 0xABC [0xFF, 0x00, 0x5A] = some [0x9F, 0x57, 0x5B] ∧
    rawToUnsigned true 0 5 [0x9F, 0x57, 0x5B] = some 0x1F ∧
    rawToUnsigned true 0 5 [0xFF, 0x00, 0x5A] = some 0x1F ∧
    rawToUnsigned true 17 7 [0x9F, 0x57, 0x5B] = rawToUnsigned true 17 7 [0xFF, 0x00, 0x5A] := by decide

/-- The minimal access footprint: reading or writing a non-empty field that sticks out of the buffer is
undefined behaviour, so the size conditions above are necessary. -/
theorem C02_bounds_necessary (start length : Nat) (raw : Bytes) (h0 : 0 < length)
    (hint : start + length ≤ 2 ^ 31) (out : 8 * raw.length < start + length) :
    rawToUnsigned true start length raw = none := by
  unfold rawToUnsigned
  rw [if_neg (by omega)]
  obtain ⟨n, rfl⟩ : ∃ n, length = n + 1 := ⟨length - 1, by omega⟩
  simp only [if_true]
  rw [toInt32_of_lt (by omega), tdiv8_nat]
  conv => lhs; unfold readLoop
  rw [rdByte_nat, List.getElem?_eq_none (by omega)]
  rfl

/-- **C03** (reading).  A big-endian field with bit position `start = 8 * byte_offset + bit_offset` is read as MDF
prescribes: the bytes from `byte_offset` that the field covers, as one big-endian number, shifted
right with the bit offset. -/
theorem C03_read_be (start length : Nat) (raw : Bytes)
    (fits : start + length ≤ 8 * raw.length) (small : 8 * raw.length ≤ 2 ^ 31) :
    rawToUnsigned false start length raw
      = some (BitVec.ofNat 64
          (beNat ((raw.drop (start / 8)).take ((start % 8 + length + 7) / 8)) / 2 ^ (start % 8) % 2 ^ length)) :=
  rawToUnsigned_be start length raw (by omega) fits

/-- **C03** is false of the code: writing a big-endian byte at bit 0 and reading it with the same position
does not give the value back (`UnsignedToRaw` starts at bit `start`, `RawToUnsigned` at bit
`start + length - 1`); the write even touches the next byte, and is undefined behaviour if there is none. -/
theorem C03_be_roundtrip_false :
    unsignedToRaw false 0 8 0xA5 [0x00, 0x00] = some [0x01, 0x4A] ∧
    rawToUnsigned false 0 8 [0x01, 0x4A] = some 0x01 ∧
    unsignedToRaw false 0 8 0xA5 [0x00] = none := by decide

/-- **C03** (what holds).  A big-endian field at `byteOffset`/`bitOffset` that is written with start bit
`8 * byteOffset + (bitOffset + length - 1) % 8` (the position of its most significant bit) reads
back with start bit `8 * byteOffset + bitOffset`; bits outside the field are unchanged.
Missing for the full C03: the same start position for both calls. -/
theorem C03_be_bitfield_partial (byteOffset bitOffset length : Nat) (value : BitVec 64) (raw : Bytes)
    (h0 : 0 < length) (h64 : length ≤ 64) (hbit : bitOffset < 8)
    (fits : 8 * byteOffset + bitOffset + length ≤ 8 * raw.length) (small : 8 * raw.length ≤ 2 ^ 31) :
    ∃ raw', unsignedToRaw false (8 * byteOffset + (bitOffset + length - 1) % 8) length value raw = some raw' ∧
      rawToUnsigned false (8 * byteOffset + bitOffset) length raw'
        = some (BitVec.ofNat 64 (value.toNat % 2 ^ length)) ∧
      raw'.length = raw.length ∧
      ∀ p, ¬ inBeField (byteOffset + (bitOffset + length - 1) / 8) bitOffset length p →
        bitAt raw' p = bitAt raw p := by
  have hdiv : (8 * byteOffset + (bitOffset + length - 1) % 8) / 8 = byteOffset := by omega
  obtain ⟨raw', h1, h2, h3⟩ := unsignedToRaw_be (8 * byteOffset + (bitOffset + length - 1) % 8) length
    bitOffset value raw h0 h64 (by omega) (by rw [hdiv]; omega) (by omega)
  rw [hdiv] at h3
  refine ⟨raw', h1, ?_, h2, fun p hp => by rw [h3, if_neg hp]⟩
  rw [C03_read_be _ _ raw' (by omega) (by omega)]
  congr 2
  have e1 : (8 * byteOffset + bitOffset) % 8 = bitOffset := by omega
  have e2 : (8 * byteOffset + bitOffset) / 8 = byteOffset := by omega
  rw [e1, e2]
  generalize hnb : (bitOffset + length + 7) / 8 = nb
  have hl : ((raw'.drop byteOffset).take nb).length = nb := by
    rw [List.length_take, List.length_drop]; omega
  apply eq_of_testBit_lt (Nat.mod_lt _ (Nat.two_pow_pos _)) (Nat.mod_lt _ (Nat.two_pow_pos _))
  intro i hi
  rw [field_testBit, testBit_beNat _ _ (by rw [hl]; omega), hl,
    bitAt_slice _ _ _ _ (by rw [beAddr_div (by omega)]; omega), h3, Nat.testBit_mod_two_pow]
  have hB : byteOffset + (bitOffset + length - 1) / 8 = byteOffset + (nb - 1) := by omega
  have ha : 8 * byteOffset + beAddr (nb - 1) (bitOffset + i)
      = beAddr (byteOffset + (nb - 1)) (bitOffset + i) := by unfold beAddr; omega
  rw [hB, ha, if_pos, beIndex_beAddr (by omega)]
  · have : bitOffset + i - bitOffset = i := by omega
    rw [this]; rfl
  · unfold inBeField
    rw [beIndex_beAddr (by omega), beAddr_div (by omega)]
    omega

/-- Non-vacuity: a 12 bit big-endian field at byte 1, bit offset 2. -/
example : unsignedToRaw false (8 * 1 + 5) 12 0xABC [0xFF, 0x00, 0x03] = some [0xFF, 0x2A, 0xF3] ∧
    rawToUnsigned false (8 * 1 + 2) 12 [0xFF, 0x2A, 0xF3] = some 0xABC := by decide

/-- **C04**.  A signed value that fits in `length` bits reads back after being written to a little-endian field. -/
theorem C04_signed_roundtrip (start length : Nat) (v : Int) (raw : Bytes)
    (h0 : 0 < length) (h64 : length ≤ 64) (lo : -(2 ^ (length - 1) : Int) ≤ v) (hi : v < 2 ^ (length - 1))
    (fits : start + length ≤ 8 * raw.length) (small : 8 * raw.length ≤ 2 ^ 31) :
    ∃ raw' r, signedToRaw true start length (BitVec.ofInt 64 v) raw = some raw' ∧
      rawToSigned true start length raw' = some r ∧ r.toInt = v := by
  unfold signedToRaw
  rw [if_neg (by omega)]
  obtain ⟨raw', h1, h2⟩ := C01_le_bitfield_roundtrip start length
    (((BitVec.ofInt 64 v).setWidth length).setWidth 64) raw h64 fits small
  refine ⟨raw', signedField length _, h1, by unfold rawToSigned; rw [h2]; rfl, ?_⟩
  · rw [signedField_toInt _ _ h0 h64]
    have e : (BitVec.ofNat 64 ((((BitVec.ofInt 64 v).setWidth length).setWidth 64).toNat % 2 ^ length)).setWidth length
        = BitVec.ofInt length v := by
      apply BitVec.eq_of_getLsbD_eq
      intro i hi
      have hi64 : i < 64 := by omega
      simp only [BitVec.getLsbD_setWidth, BitVec.getLsbD_ofNat, Nat.testBit_mod_two_pow, hi, hi64,
        decide_true, Bool.true_and]
      change (((BitVec.ofInt 64 v).setWidth length).setWidth 64).getLsbD i = _
      rw [setWidth_ofInt _ h64]
      simp only [BitVec.getLsbD_setWidth, hi64, decide_true, Bool.true_and]
    rw [e, BitVec.toInt_ofInt]
    obtain ⟨k, rfl⟩ : ∃ k, length = k + 1 := ⟨length - 1, by omega⟩
    simp only [Nat.add_sub_cancel] at lo hi
    have hp : (2 ^ (k + 1) : Nat) = 2 * 2 ^ k := by rw [Nat.pow_succ]; omega
    have hc : ((2 ^ k : Nat) : Int) = (2 : Int) ^ k := by simp
    rw [Int.bmod_eq_of_le] <;> omega

/-- **C04** (range).  Reading a signed field of either byte order never gives a value outside the two's
complement range of the field. -/
theorem C04_signed_range (le : Bool) (start length : Nat) (raw : Bytes) (r : BitVec 64)
    (h0 : 0 < length) (h64 : length ≤ 64) (h : rawToSigned le start length raw = some r) :
    -(2 ^ (length - 1) : Int) ≤ r.toInt ∧ r.toInt < 2 ^ (length - 1) := by
  unfold rawToSigned at h
  rw [Option.map_eq_some_iff] at h
  obtain ⟨t, _, rfl⟩ := h
  rw [signedField_toInt _ _ h0 h64]
  have h1 := BitVec.two_mul_toInt_lt (x := t.setWidth length)
  have h2 := BitVec.le_two_mul_toInt (x := t.setWidth length)
  obtain ⟨k, rfl⟩ : ∃ k, length = k + 1 := ⟨length - 1, by omega⟩
  simp only [Nat.add_sub_cancel]
  have hp : ((2 : Int) ^ (k + 1)) = 2 * 2 ^ k := by rw [Int.pow_succ]; omega
  omega

/-- Non-vacuity: -3 in a 5 bit field at bit 6. -/
example : signedToRaw true 6 5 (BitVec.ofInt 64 (-3)) [0x00, 0xF8] = some [0x40, 0xFF] ∧
    (rawToSigned true 6 5 [0x40, 0xFF]).map BitVec.toInt = some (-3) := by decide

/-- Signed lengths above 64 bits read as 0 whatever the buffer holds (the code has no case for them). -/
theorem C04_signed_too_long (le : Bool) (start length : Nat) (raw : Bytes) (r : BitVec 64)
    (h64 : 64 < length) (h : rawToSigned le start length raw = some r) : r = 0 := by
  unfold rawToSigned at h
  rw [Option.map_eq_some_iff] at h
  obtain ⟨t, _, rfl⟩ := h
  unfold signedField
  rw [if_pos (by omega)]

end Mdf
