import Verif.Spec.Channel
import Verif.Proof.Bits

namespace Mdf

/-! ### Byte order buffers -/

@[simp] theorem leBytes_length (n v : Nat) : (leBytes n v).length = n := by
  induction n generalizing v with
  | zero => rfl
  | succ n ih => simp [leBytes, ih]

@[simp] theorem beBytes_length (n v : Nat) : (beBytes n v).length = n := by simp [beBytes]

@[simp] theorem orderBytes_length (o : Order) (n v : Nat) : (orderBytes o n v).length = n := by
  cases o <;> simp [orderBytes]

theorem leNat_leBytes (n v : Nat) : leNat (leBytes n v) = v % 256 ^ n := by
  induction n generalizing v with
  | zero => simp [leBytes, leNat, Nat.mod_one]
  | succ n ih =>
    simp only [leBytes, leNat, ih, BitVec.toNat_ofNat]
    have e : 256 ^ (n + 1) = 256 * 256 ^ n := by rw [Nat.pow_succ, Nat.mul_comm]
    rw [e, Nat.mod_mul]

theorem leBytes_leNat (b : Bytes) : leBytes b.length (leNat b) = b := by
  induction b with
  | nil => rfl
  | cons x xs ih =>
    simp only [List.length_cons, leBytes, leNat]
    have h := x.isLt
    have h1 : (x.toNat + 256 * leNat xs) / 256 = leNat xs := by omega
    rw [h1, ih]
    congr 1
    apply BitVec.eq_of_toNat_eq
    rw [BitVec.toNat_ofNat]; omega

theorem beNat_beBytes (n v : Nat) : beNat (beBytes n v) = v % 256 ^ n := by
  simp [beNat, beBytes, leNat_leBytes]

theorem beBytes_beNat (b : Bytes) : beBytes b.length (beNat b) = b := by
  have := leBytes_leNat b.reverse
  rw [List.length_reverse] at this
  simp [beNat, beBytes, this]

theorem pow256 (n : Nat) : 256 ^ n = 2 ^ (8 * n) := by
  rw [Nat.pow_mul]

/-! ### memcpy -/

theorem wrBytes_eq_some {buf : Bytes} {off : Nat} {data : Bytes} (h : off + data.length ≤ buf.length) :
    wrBytes buf off data = some (buf.take off ++ data ++ buf.drop (off + data.length)) := if_pos h

theorem wrBytes_length {buf out : Bytes} {off : Nat} {data : Bytes} (h : wrBytes buf off data = some out) :
    out.length = buf.length := by
  unfold wrBytes at h
  split at h
  · rw [← Option.some.inj h]
    simp only [List.length_append, List.length_take, List.length_drop]; omega
  · exact absurd h (by simp)

theorem wrBytes_getElem? {buf out : Bytes} {off : Nat} {data : Bytes} (h : wrBytes buf off data = some out)
    (k : Nat) : out[k]? = if off ≤ k ∧ k < off + data.length then data[k - off]? else buf[k]? := by
  unfold wrBytes at h
  split at h
  · rename_i hle
    rw [← Option.some.inj h]
    rw [List.append_assoc, List.getElem?_append, List.length_take, Nat.min_eq_left (by omega)]
    by_cases h1 : k < off
    · rw [if_pos h1, if_neg (by omega), List.getElem?_take, if_pos h1]
    · rw [if_neg h1, List.getElem?_append]
      by_cases h2 : k < off + data.length
      · rw [if_pos (by omega), if_pos (by omega)]
      · rw [if_neg (by omega), if_neg (by omega), List.getElem?_drop]
        congr 1; omega
  · exact absurd h (by simp)

theorem wrBytes_slice {buf out : Bytes} {off : Nat} {data : Bytes} (h : wrBytes buf off data = some out) :
    (out.drop off).take data.length = data := by
  unfold wrBytes at h
  split at h
  · rename_i hle
    rw [← Option.some.inj h, List.append_assoc, List.drop_append_of_le_length
      (by rw [List.length_take]; omega), List.drop_take]
    simp
  · exact absurd h (by simp)

/-- A slice of a buffer as a little-endian number. -/
theorem leNat_slice (raw : Bytes) (off n : Nat) (h : off + n ≤ raw.length) :
    leNat raw / 2 ^ (8 * off) % 2 ^ (8 * n) = leNat ((raw.drop off).take n) := by
  apply eq_of_testBit_lt (n := 8 * n) (Nat.mod_lt _ (Nat.two_pow_pos _))
  · have := leNat_lt ((raw.drop off).take n)
    rw [List.length_take, List.length_drop, Nat.min_eq_left (by omega), pow256] at this
    exact this
  · intro i hi
    rw [Nat.testBit_mod_two_pow, Nat.testBit_div_two_pow, testBit_leNat, testBit_leNat,
      bitAt_slice raw off n i (by omega)]
    simp [hi]; congr 1; omega

theorem bitAt_eq_of_byte {a b : Bytes} {p : Nat} (h : a[p / 8]? = b[p / 8]?) : bitAt a p = bitAt b p := by
  unfold bitAt; rw [h]

/-! ### Validity bits -/

theorem setValid_length (c : Chan) (v : Bool) (i : Nat) (buf : Bytes) :
    (c.setValid v i buf).length = buf.length := by
  unfold Chan.setValid
  split
  · dsimp only
    split
    · rw [List.length_set]
    · rfl
  · rfl

theorem setValid_eq (c : Chan) (v : Bool) (i : Nat) (buf : Bytes) (ok : c.ValidPosOk i) :
    c.setValid v i buf = if c.invalidFlag = true ∧ c.validPos i / 8 < buf.length then
      putBit buf (c.validPos i) (!v) else buf := by
  obtain ⟨o1, o2⟩ := ok
  unfold Chan.setValid
  have e0 : (c.invalidPos + i % 2 ^ 32) % 2 ^ 32 = c.invalidPos + i := by omega
  have e1 : (c.nofDataBytes + (c.invalidPos + i) / 8) % 2 ^ 32 = c.validPos i / 8 := by
    unfold Chan.validPos; omega
  have e2 : (c.invalidPos + i) % 8 = c.validPos i % 8 := by unfold Chan.validPos; omega
  simp only [e0, e1, e2]
  by_cases hf : c.invalidFlag = true
  · rw [if_pos hf]
    by_cases hl : c.validPos i / 8 < buf.length
    · rw [if_pos ⟨hf, hl⟩, List.getElem?_eq_getElem hl]
      unfold putBit
      rw [List.getElem?_eq_getElem hl]
      cases v <;> simp [BitVec.twoPow]
    · rw [if_neg (fun h => hl h.2), List.getElem?_eq_none (by omega)]
  · rw [if_neg hf, if_neg (fun h => hf h.1)]

theorem bitAt_setValid (c : Chan) (v : Bool) (i : Nat) (buf : Bytes) (ok : c.ValidPosOk i) (p : Nat) :
    bitAt (c.setValid v i buf) p =
      if c.invalidFlag = true ∧ c.validPos i / 8 < buf.length ∧ p = c.validPos i then !v else bitAt buf p := by
  rw [setValid_eq c v i buf ok]
  by_cases h : c.invalidFlag = true ∧ c.validPos i / 8 < buf.length
  · rw [if_pos h, bitAt_putBit _ _ _ h.2]
    simp [h]
  · rw [if_neg h, if_neg]
    intro hh; exact h ⟨hh.1, hh.2.1⟩

theorem getValid_eq (c : Chan) (i : Nat) (buf : Bytes) (ok : c.ValidPosOk i) :
    c.getValid buf i = !(c.invalidFlag && bitAt buf (c.validPos i)) := by
  obtain ⟨o1, o2⟩ := ok
  unfold Chan.getValid
  have e0 : (c.invalidPos + i) % 2 ^ 64 = c.invalidPos + i := by omega
  have e1 : (c.nofDataBytes + (c.invalidPos + i) / 8) % 2 ^ 64 = c.validPos i / 8 := by
    unfold Chan.validPos; omega
  have e2 : (c.invalidPos + i) % 8 = c.validPos i % 8 := by unfold Chan.validPos; omega
  simp only [e0, e1, e2]
  by_cases hf : c.invalidFlag = true
  · rw [if_pos hf, hf, Bool.true_and]
    by_cases hl : c.validPos i / 8 < buf.length
    · rw [List.getElem?_eq_getElem hl, bitAt_of_lt _ _ hl]
      have h8 := and_twoPow_ne_zero (buf[c.validPos i / 8]) (c.validPos i % 8)
      have e3 : (1#8 <<< (c.validPos i % 8)) = BitVec.twoPow 8 (c.validPos i % 8) := by
        rw [BitVec.twoPow]
      simp only [e3]
      by_cases hb : (buf[c.validPos i / 8]).getLsbD (c.validPos i % 8) = true
      · have := h8.mpr hb
        simp only [hb, Bool.not_true]
        exact decide_eq_false this
      · have hz : buf[c.validPos i / 8] &&& BitVec.twoPow 8 (c.validPos i % 8) = 0 := by
          apply Classical.byContradiction
          intro hh; exact hb (h8.mp hh)
        simp only [Bool.not_eq_true] at hb
        simp only [hb, Bool.not_false]
        exact decide_eq_true hz
    · rw [List.getElem?_eq_none (by omega), bitAt_of_ge _ _ (by omega)]
      rfl
  · rw [if_neg hf]
    simp [hf]

/-! ### Reading a channel -/

theorem bitPos_eq (c : Chan) (i : Nat) (h32 : 8 * c.byteOffset + c.bitOffset < 2 ^ 32)
    (h64 : c.pos i + c.bitCount < 2 ^ 64) : c.bitPos i = c.pos i := by
  unfold Chan.bitPos Chan.pos at *
  generalize i * c.bitCount = k at *
  omega

theorem rangeCheck_gt (c : Chan) (i n : Nat) (h32 : 8 * c.byteOffset + c.bitOffset < 2 ^ 32)
    (h64 : c.pos i + c.bitCount < 2 ^ 64) : c.rangeCheck i > n ↔ 8 * n < c.pos i + c.bitCount := by
  unfold Chan.rangeCheck
  rw [bitPos_eq c i h32 h64]
  dsimp only
  split <;> omega

/-- The bit loops of the float readers and of the integer readers give the same bits. -/
theorem readLoop_acc (le : Bool) (raw : Bytes) (n : Nat) : ∀ (byte bit : Int) (v : BitVec 64),
    readLoop le n byte bit v raw = (readLoop le n byte bit 0 raw).map (v <<< n ||| ·) := by
  induction n with
  | zero => intro byte bit v; simp [readLoop]
  | succ n ih =>
    intro byte bit v
    unfold readLoop
    cases rdByte raw byte with
    | none => rfl
    | some b =>
      cases kMask bit with
      | none => rfl
      | some m =>
        simp only [Option.bind_eq_bind, Option.bind_some]
        rw [ih _ _ (if b &&& m ≠ 0 then v <<< 1 ||| 1 else v <<< 1),
          ih _ _ (if b &&& m ≠ 0 then (0 : BitVec 64) <<< 1 ||| 1 else (0 : BitVec 64) <<< 1), Option.map_map]
        congr 1
        funext x
        simp only [Function.comp]
        have hs : v <<< 1 <<< n = v <<< (n + 1) := by rw [← BitVec.shiftLeft_add, Nat.add_comm]
        by_cases hb : b &&& m ≠ 0
        · rw [if_pos hb, if_pos hb, BitVec.shiftLeft_or_distrib, BitVec.shiftLeft_or_distrib, hs]
          simp [BitVec.or_assoc]
        · rw [if_neg hb, if_neg hb, hs]
          simp

theorem maskLoop_eq (le : Bool) (raw : Bytes) (n : Nat) : ∀ (byte bit : Int) (t : BitVec 64), n ≤ 64 →
    maskLoop le n byte bit (1#64 <<< (n - 1)) t raw = (readLoop le n byte bit 0 raw).map (t ||| ·) := by
  induction n with
  | zero => intro byte bit t _; simp [maskLoop, readLoop]
  | succ n ih =>
    intro byte bit t hn
    unfold maskLoop readLoop
    cases rdByte raw byte with
    | none => rfl
    | some b =>
      cases kMask bit with
      | none => rfl
      | some m =>
        simp only [Option.bind_eq_bind, Option.bind_some, Nat.add_sub_cancel]
        rw [readLoop_acc le raw n _ _ (if b &&& m ≠ 0 then (0 : BitVec 64) <<< 1 ||| 1 else (0 : BitVec 64) <<< 1)]
        have hm : n = 0 ∨ (1#64 <<< n) >>> 1 = 1#64 <<< (n - 1) := by
          by_cases h0 : n = 0
          · exact Or.inl h0
          · obtain ⟨k, rfl⟩ : ∃ k, n = k + 1 := ⟨n - 1, by omega⟩
            exact Or.inr (by rw [one_shiftLeft_eq, one_shiftLeft_eq]; exact mask_shift k (by omega))
        rcases hm with h0 | h1
        · subst h0
          simp only [maskLoop, readLoop]
          by_cases hb : b &&& m ≠ 0
          · rw [if_pos hb, if_pos hb]; simp
          · rw [if_neg hb, if_neg hb]; simp
        · rw [h1, ih _ _ _ (by omega), Option.map_map]
          congr 1
          funext x
          simp only [Function.comp]
          by_cases hb : b &&& m ≠ 0
          · rw [if_pos hb, if_pos hb]
            simp [BitVec.or_assoc]
          · rw [if_neg hb, if_neg hb]
            simp

theorem rawToFloatBits_eq (le : Bool) (start length : Nat) (raw : Bytes) (h64 : length ≤ 64) :
    rawToFloatBits le start length raw = rawToUnsigned le start length raw := by
  unfold rawToFloatBits rawToUnsigned
  dsimp only
  rw [maskLoop_eq _ _ _ _ _ _ h64]
  by_cases h0 : length = 0
  · subst h0; simp [readLoop]
  · rw [if_neg h0]; simp

/-! ### Writing a channel -/

/-- What a setter that stores `data` in the data part of the record does. -/
theorem store_spec (c : Chan) (valid : Bool) (i : Nat) (buf out : Bytes) (off : Nat) (data : Bytes)
    (h : wrBytes (c.setValid valid i buf) off data = some out)
    (fits : off + data.length ≤ c.nofDataBytes) (ok : c.ValidPosOk i) :
    out.length = buf.length ∧ (out.drop off).take data.length = data ∧
    (c.validPos i / 8 < buf.length → c.getValid out i = (valid || !c.invalidFlag)) ∧
    (∀ p, (p < 8 * off ∨ 8 * (off + data.length) ≤ p) → (c.invalidFlag = true → p ≠ c.validPos i) →
      bitAt out p = bitAt buf p) := by
  have hb : ∀ p, (p < 8 * off ∨ 8 * (off + data.length) ≤ p) →
      bitAt out p = bitAt (c.setValid valid i buf) p := by
    intro p hp
    apply bitAt_eq_of_byte
    rw [wrBytes_getElem? h, if_neg (by omega)]
  refine ⟨by rw [wrBytes_length h, setValid_length], wrBytes_slice h, ?_, ?_⟩
  · intro hv
    rw [getValid_eq c i out ok, hb _ (Or.inr (by unfold Chan.validPos; omega)), bitAt_setValid c valid i buf ok]
    cases hf : c.invalidFlag <;> simp [hv]
  · intro p hp hq
    rw [hb p hp, bitAt_setValid c valid i buf ok, if_neg]
    intro hh; exact hq hh.1 hh.2.2

theorem dataBytes_of_bitCount (c : Chan) (n : Nat) (h : c.bitCount = 8 * n) : c.dataBytes = n := by
  unfold Chan.dataBytes; rw [if_neg (by omega)]; omega

/-- The integer setters in the good case. -/
theorem setInt_eq (o : Order) (ci : Nat) (c : Chan) (value : BitVec 64) (valid : Bool) (i : Nat) (buf data : Bytes)
    (hci : ci ≤ i + 1) (hd : intBytes o c.dataBytes value = some data) (hne : buf ≠ [])
    (fits : c.byteOffset + c.dataBytes * (i + 1) ≤ buf.length) (small : buf.length ≤ 2 ^ 28) :
    c.setInt o ci value valid i buf
      = wrBytes (c.setValid valid i buf) (c.byteOffset + c.dataBytes * i) data := by
  unfold Chan.setInt
  rw [if_neg hne]
  have h1 : c.dataBytes * ci ≤ c.dataBytes * (i + 1) := Nat.mul_le_mul_left _ hci
  have h2 : c.dataBytes * i ≤ c.dataBytes * (i + 1) := Nat.mul_le_mul_left _ (by omega)
  dsimp only
  rw [if_neg (by omega), hd]
  dsimp only
  congr 1
  omega

theorem intBytes_length {o : Order} {n : Nat} {v : BitVec 64} {data : Bytes} (h : intBytes o n v = some data) :
    data.length = n := by
  unfold intBytes at h
  split at h
  · rw [← Option.some.inj h]; simp
  · exact absurd h (by simp)

theorem pos_bytes (c : Chan) (n i : Nat) (h : c.bitCount = 8 * n) (h0 : c.bitOffset = 0) :
    c.pos i = 8 * (c.byteOffset + n * i) := by
  unfold Chan.pos
  rw [h, h0, Nat.mul_add, Nat.mul_comm i, Nat.mul_assoc]
  omega

end Mdf
