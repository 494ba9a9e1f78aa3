import Verif.Model.Half
import Verif.Model.TypedObs
import Verif.Proof.Double

/-!
# C116 A half precision number is the number its bits stand for
-/

namespace Mdf

/-- What the entries of the mantissa table should be: subnormal numbers are normalized, others moved by 13 bits. -/
def mantWanted (i : Nat) : Nat :=
  if i = 0 then 0
  else if i < 1024 then (103 + Nat.log2 i) * 2 ^ 23 + (i * 2 ^ (23 - Nat.log2 i) - 2 ^ 23)
  else 0x38000000 + (i - 1024) * 2 ^ 13

/-- What the entries of the exponent table should be. -/
def expWanted (i : Nat) : Nat := i / 32 * 2 ^ 31 + (if i % 32 = 31 then 0x47800000 else i % 32 * 2 ^ 23)

/-- Every entry of the table. -/
theorem half_mantissa : halfMantissa = (List.range 2048).map mantWanted := by decide +kernel

theorem half_exponent : halfExponent = (List.range 64).map expWanted := by decide +kernel

theorem half_offset : halfOffset = (List.range 64).map (fun i => if i % 32 = 0 then 0 else 1024) := by decide +kernel

/-- The indices are always inside of the tables. -/
theorem half_bits (v : BitVec 16) :
    halfToFloat v = some (BitVec.ofNat 32 (mantWanted ((if v.toNat / 1024 % 32 = 0 then 0 else 1024) + v.toNat % 1024) + expWanted (v.toNat / 1024))) := by
  have hv := v.isLt
  have h1 : v.toNat >>> 10 = v.toNat / 1024 := Nat.shiftRight_eq_div_pow _ _
  have h2 : v.toNat &&& 0x3FF = v.toNat % 1024 := Nat.and_two_pow_sub_one_eq_mod _ 10
  have h3 : v.toNat / 1024 < 64 := by omega
  have h4 : (if v.toNat / 1024 % 32 = 0 then 0 else 1024) + v.toNat % 1024 < 2048 := by split <;> omega
  simp [halfToFloat, h1, h2, half_offset, half_exponent, half_mantissa, h3, h4, BitVec.ofNat_add]

/-- The number of a pattern of single precision with these parts. -/
theorem ieee32_parts (s e m : Nat) (hs : s < 2) (he : e < 256) (hm : m < 2 ^ 23) :
    ieeeVal 8 23 (s * 2 ^ 31 + e * 2 ^ 23 + m) =
      if e = 255 then (if m = 0 then .inf (decide (s = 1)) else .nan)
      else if e = 0 then .fin (decide (s = 1)) ((m : Rat) * pow2 (-149))
      else .fin (decide (s = 1)) (((2 ^ 23 + m : Nat) : Rat) * pow2 ((e : Int) - 150)) := by
  have e1 : (s * 2 ^ 31 + e * 2 ^ 23 + m) / 2 ^ (8 + 23) % 2 = s := by omega
  have e2 : (s * 2 ^ 31 + e * 2 ^ 23 + m) / 2 ^ 23 % 2 ^ 8 = e := by omega
  have e3 : (s * 2 ^ 31 + e * 2 ^ 23 + m) % 2 ^ 23 = m := by omega
  have e4 : ((e : Int) - (2 ^ (8 - 1) - 1) - (23 : Nat)) = (e : Int) - 150 := by norm_num; ring
  have e5 : ((1 : Int) - (2 ^ (8 - 1) - 1) - (23 : Nat)) = -149 := by norm_num
  unfold ieeeVal
  simp only [e1, e2, e3, e4, e5]

/-- The number of a pattern of half precision with these parts. -/
theorem ieee16_parts (s e m : Nat) (hs : s < 2) (he : e < 32) (hm : m < 1024) :
    ieeeVal 5 10 (s * 32768 + e * 1024 + m) =
      if e = 31 then (if m = 0 then .inf (decide (s = 1)) else .nan)
      else if e = 0 then .fin (decide (s = 1)) ((m : Rat) * pow2 (-24))
      else .fin (decide (s = 1)) (((1024 + m : Nat) : Rat) * pow2 ((e : Int) - 25)) := by
  have e1 : (s * 32768 + e * 1024 + m) / 2 ^ (5 + 10) % 2 = s := by omega
  have e2 : (s * 32768 + e * 1024 + m) / 2 ^ 10 % 2 ^ 5 = e := by omega
  have e3 : (s * 32768 + e * 1024 + m) % 2 ^ 10 = m := by omega
  have e4 : ((e : Int) - (2 ^ (5 - 1) - 1) - (10 : Nat)) = (e : Int) - 25 := by norm_num; ring
  have e5 : ((1 : Int) - (2 ^ (5 - 1) - 1) - (10 : Nat)) = -24 := by norm_num
  unfold ieeeVal
  simp only [e1, e2, e3, e4, e5]

/-- **C116**: the `float` made of the bits is the half precision number of IEEE 754 they stand for: the same sign, the same value, infinity or not a number. -/
theorem C116_half (v : BitVec 16) : ∃ b, halfToFloat v = some b ∧ ieeeVal 8 23 b.toNat = ieeeVal 5 10 v.toNat := by
  refine ⟨_, half_bits v, ?_⟩
  have hv := v.isLt
  obtain ⟨s, e, m, hs, he, hm, hd⟩ : ∃ s e m, s < 2 ∧ e < 32 ∧ m < 1024 ∧ v.toNat = s * 32768 + e * 1024 + m :=
    ⟨v.toNat / 32768, v.toNat / 1024 % 32, v.toNat % 1024, by omega, by omega, by omega, by omega⟩
  have d1 : v.toNat / 1024 % 32 = e := by omega
  have d2 : v.toNat % 1024 = m := by omega
  have d3 : v.toNat / 1024 / 32 = s := by omega
  rw [d1, d2, expWanted, d1, d3, hd, ieee16_parts s e m hs he hm]
  by_cases h0 : e = 0
  · subst h0
    by_cases m0 : m = 0
    · subst m0
      have := ieee32_parts s 0 0 hs (by decide) (by decide)
      simp only [mantWanted, if_true, Nat.zero_mul, Nat.add_zero, Nat.zero_add] at this ⊢
      rw [BitVec.toNat_ofNat, Nat.mod_eq_of_lt (by simp; omega)]
      simpa using this
    · have hk : Nat.log2 m < 10 := (Nat.log2_lt m0).2 hm
      have hl : 2 ^ Nat.log2 m ≤ m := Nat.log2_self_le m0
      have hu : m < 2 ^ (Nat.log2 m + 1) := Nat.lt_log2_self
      obtain ⟨k, hkk⟩ : ∃ k, k = Nat.log2 m := ⟨_, rfl⟩
      rw [← hkk] at hk hl hu
      have hp : 2 ^ k * 2 ^ (23 - k) = 2 ^ 23 := by rw [← Nat.pow_add]; congr 1; omega
      have lo : 2 ^ 23 ≤ m * 2 ^ (23 - k) := by rw [← hp]; exact Nat.mul_le_mul_right _ hl
      have hi : m * 2 ^ (23 - k) < 2 ^ 24 := by
        have : 2 ^ (k + 1) * 2 ^ (23 - k) = 2 ^ 24 := by rw [← Nat.pow_add]; congr 1; omega
        rw [← this]
        exact Nat.mul_lt_mul_of_pos_right hu (Nat.two_pow_pos _)
      have := ieee32_parts s (103 + k) (m * 2 ^ (23 - k) - 2 ^ 23) hs (by omega) (by omega)
      rw [if_neg (by omega), if_neg (by omega), Nat.add_sub_cancel' lo] at this
      have hw : mantWanted ((if 0 = 0 then 0 else 1024) + m) = (103 + k) * 2 ^ 23 + (m * 2 ^ (23 - k) - 2 ^ 23) := by
        rw [mantWanted, if_pos rfl, Nat.zero_add, if_neg m0, if_pos hm, ← hkk]
      rw [hw, if_neg (by decide : ¬ 0 = 31), if_neg (by decide : ¬ 0 = 31), if_pos rfl, Nat.zero_mul, Nat.add_zero, BitVec.toNat_ofNat, Nat.mod_eq_of_lt (by omega)]
      rw [show (103 + k) * 2 ^ 23 + (m * 2 ^ (23 - k) - 2 ^ 23) + s * 2 ^ 31 = s * 2 ^ 31 + (103 + k) * 2 ^ 23 + (m * 2 ^ (23 - k) - 2 ^ 23) by ring, this]
      congr 1
      rw [pow2_eq, pow2_eq]
      push_cast
      rw [mul_assoc, ← zpow_natCast, ← zpow_add₀ (by norm_num)]
      congr 2
      omega
  · have hw : mantWanted ((if e = 0 then 0 else 1024) + m) = 0x38000000 + m * 2 ^ 13 := by
      rw [mantWanted, if_neg h0, if_neg (by omega), if_neg (by omega), Nat.add_sub_cancel_left]
    rw [hw]
    by_cases h31 : e = 31
    · subst h31
      have := ieee32_parts s 255 (m * 2 ^ 13) hs (by decide) (by omega)
      rw [if_pos rfl] at this
      rw [if_pos rfl, if_pos rfl, BitVec.toNat_ofNat, Nat.mod_eq_of_lt (by omega),
        show 0x38000000 + m * 2 ^ 13 + (s * 2 ^ 31 + 0x47800000) = s * 2 ^ 31 + 255 * 2 ^ 23 + m * 2 ^ 13 by ring, this]
      by_cases m0 : m = 0
      · simp [m0]
      · rw [if_neg (by omega), if_neg m0]
    · have := ieee32_parts s (112 + e) (m * 2 ^ 13) hs (by omega) (by omega)
      rw [if_neg (by omega), if_neg (by omega)] at this
      rw [if_neg h31, if_neg h31, if_neg h0, BitVec.toNat_ofNat, Nat.mod_eq_of_lt (by omega),
        show 0x38000000 + m * 2 ^ 13 + (s * 2 ^ 31 + e * 2 ^ 23) = s * 2 ^ 31 + (112 + e) * 2 ^ 23 + m * 2 ^ 13 by ring, this]
      congr 1
      rw [show 2 ^ 23 + m * 2 ^ 13 = (1024 + m) * 2 ^ 13 by ring, pow2_eq, pow2_eq, Nat.cast_mul, mul_assoc, Nat.cast_pow, Nat.cast_ofNat,
        ← zpow_natCast, ← zpow_add₀ (by norm_num)]
      congr 2
      push_cast
      ring

/-- One half, the smallest number, the largest number and minus infinity. -/
example : halfToFloat 0x3800 = some 0x3F000000 ∧ halfToFloat 0x0001 = some 0x33800000 ∧ halfToFloat 0x7BFF = some 0x477FE000 ∧
    halfToFloat 0xFC00 = some 0xFF800000 := by decide +kernel

/-! ### Channels -/

theorem maskLoop_lt (le : Bool) (k : Nat) : ∀ (n : Nat) (byte bit : Int) (mask temp : BitVec 64) (raw : Bytes) (r : BitVec 64),
    mask.toNat < 2 ^ k → temp.toNat < 2 ^ k → maskLoop le n byte bit mask temp raw = some r → r.toNat < 2 ^ k := by
  intro n
  induction n with
  | zero =>
    intro byte bit mask temp raw r _ ht h
    simp only [maskLoop, Option.some.injEq] at h
    rw [← h]
    exact ht
  | succ n ih =>
    intro byte bit mask temp raw r hm ht h
    simp only [maskLoop, Option.bind_eq_bind, Option.bind_eq_some_iff] at h
    obtain ⟨b, _, m, _, h⟩ := h
    refine ih _ _ _ _ _ _ ?_ ?_ h
    · rw [BitVec.toNat_ushiftRight, Nat.shiftRight_eq_div_pow]
      exact Nat.lt_of_le_of_lt (Nat.div_le_self _ _) hm
    · split
      · rw [BitVec.toNat_or]
        exact Nat.or_lt_two_pow ht hm
      · exact ht

/-- The value of a channel of 16 bits, as the code makes it, is the number `floatOfBits` gives, on which C95 builds. -/
theorem C116_channel (c : Chan) (record : Bytes) (j : Nat) (b : BitVec 64) (hc : c.bitCount = 16) (h : c.getFloatBits record j = .ok b) :
    b.toNat < 65536 ∧ ∃ f, halfToFloat (b.truncate 16) = some f ∧ ieeeVal 8 23 f.toNat = floatOfBits c.bitCount b.toNat := by
  have hb : b.toNat < 65536 := by
    simp only [Chan.getFloatBits] at h
    split at h
    · cases h
    · rw [if_pos (.inl hc), hc, rawToFloatBits] at h
      revert h
      generalize hm : maskLoop _ _ _ _ _ _ _ = r
      cases r with
      | none => intro h; cases h
      | some r =>
        intro h
        cases h
        exact maskLoop_lt _ 16 _ _ _ _ _ _ _ (by decide) (by decide) hm
  refine ⟨hb, ?_⟩
  obtain ⟨f, h1, h2⟩ := C116_half (b.truncate 16)
  refine ⟨f, h1, ?_⟩
  rw [h2, hc, floatOfBits, if_pos rfl, BitVec.truncate, BitVec.toNat_setWidth, Nat.mod_eq_of_lt hb]

/-- A channel of 16 bits. -/
def exHalfChan (t : DataType) : Chan where
  type := .fixedLength
  dataType := t
  byteOffset := 0
  bitOffset := 0
  bitCount := 16
  invalidFlag := false
  invalidPos := 0
  nofDataBytes := 2
  arraySize := 1

/-- A channel with the number one half, little and big endian. -/
example : (exHalfChan .floatLe).getFloatBits [0x00#8, 0x38#8] 0 = .ok 0x3800 ∧
    (exHalfChan .floatBe).getFloatBits [0x38#8, 0x00#8] 0 = .ok 0x3800 := by decide

/-- Patterns that are numbers are told apart, except that all NaN are alike. -/
theorem C116_value (v : BitVec 16) (b : BitVec 32) (h : halfToFloat v = some b) :
    (ieeeVal 8 23 b.toNat = .nan ↔ v.toNat / 1024 % 32 = 31 ∧ v.toNat % 1024 ≠ 0) ∧
    (∀ s, ieeeVal 8 23 b.toNat = .inf s ↔ v.toNat = (if s then 0xFC00 else 0x7C00)) := by
  obtain ⟨b', h1, h2⟩ := C116_half v
  rw [h] at h1
  cases h1
  have hv := v.isLt
  obtain ⟨s, e, m, hs, he, hm, hd⟩ : ∃ s e m, s < 2 ∧ e < 32 ∧ m < 1024 ∧ v.toNat = s * 32768 + e * 1024 + m :=
    ⟨v.toNat / 32768, v.toNat / 1024 % 32, v.toNat % 1024, by omega, by omega, by omega, by omega⟩
  have d1 : v.toNat / 1024 % 32 = e := by omega
  have d2 : v.toNat % 1024 = m := by omega
  rw [h2, d1, d2, hd, ieee16_parts s e m hs he hm]
  constructor
  · split
    · split <;> simp_all
    · split <;> simp_all
  · intro t
    split
    · split
      · cases t <;> simp <;> omega
      · cases t <;> simp <;> omega
    · split <;> cases t <;> simp <;> omega

end Mdf
