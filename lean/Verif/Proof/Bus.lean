import Verif.Spec.Bus
import Verif.Proof.CanRead

namespace Mdf

/-! ### Bits of the record after the writes -/

/-- The place of a write: first and last bit. -/
def BusOp.first : BusOp → Nat
  | .set off _ | .or off _ | .raw off _ _ | .copy off _ => 8 * off
def BusOp.last : BusOp → Nat
  | .set off _ | .or off _ => 8 * off + 8
  | .raw off bits _ => 8 * off + bits
  | .copy off bytes => 8 * off + 8 * bytes.length

/-- The number written. -/
def BusOp.value : BusOp → Nat
  | .set _ b | .or _ b => b.toNat
  | .raw _ _ v => v.toNat
  | .copy _ bytes => leNat bytes

/-- The write stays inside a record of `n` bytes. -/
def BusOp.Fits (n : Nat) : BusOp → Prop
  | .set off _ | .or off _ => off < n
  | .raw off bits _ => bits ≤ 64 ∧ 8 * off + bits ≤ 8 * n
  | .copy off bytes => off + bytes.length ≤ n

def BusOp.bit (op : BusOp) (q : Nat) (prev : Bool) : Bool :=
  if op.first ≤ q ∧ q < op.last then
    match op with
    | .or _ _ => prev || op.value.testBit (q - op.first)
    | _ => op.value.testBit (q - op.first)
  else prev

theorem bit_set (off : Nat) (b : Byte) (q : Nat) (prev : Bool) : (BusOp.set off b).bit q prev
    = if 8 * off ≤ q ∧ q < 8 * off + 8 then b.toNat.testBit (q - 8 * off) else prev := rfl
theorem bit_or (off : Nat) (b : Byte) (q : Nat) (prev : Bool) : (BusOp.or off b).bit q prev
    = if 8 * off ≤ q ∧ q < 8 * off + 8 then (prev || b.toNat.testBit (q - 8 * off)) else prev := rfl
theorem bit_raw (off bits : Nat) (v : BitVec 64) (q : Nat) (prev : Bool) : (BusOp.raw off bits v).bit q prev
    = if 8 * off ≤ q ∧ q < 8 * off + bits then v.toNat.testBit (q - 8 * off) else prev := rfl
theorem bit_copy (off : Nat) (v : Bytes) (q : Nat) (prev : Bool) : (BusOp.copy off v).bit q prev
    = if 8 * off ≤ q ∧ q < 8 * off + 8 * v.length then (leNat v).testBit (q - 8 * off) else prev := rfl

theorem bitAt_setByte (r : Bytes) (off : Nat) (b : Byte) (h : off < r.length) (q : Nat) :
    bitAt (r.set off b) q = if 8 * off ≤ q ∧ q < 8 * off + 8 then b.getLsbD (q - 8 * off) else bitAt r q := by
  unfold bitAt
  rw [List.getElem?_set]
  by_cases hq : 8 * off ≤ q ∧ q < 8 * off + 8
  · rw [if_pos (by omega), if_pos h, if_pos hq]
    dsimp only
    congr 1
    omega
  · rw [if_neg (by omega), if_neg hq]

theorem bitAt_eq (r : Bytes) (off q : Nat) (h : off < r.length) (h1 : 8 * off ≤ q) (h2 : q < 8 * off + 8) :
    bitAt r q = (r[off]).getLsbD (q - 8 * off) := by
  unfold bitAt
  have e : q / 8 = off := by omega
  rw [e, List.getElem?_eq_getElem h]
  dsimp only
  congr 1
  omega

theorem bitAt_append (a b : Bytes) (q : Nat) :
    bitAt (a ++ b) q = if q < 8 * a.length then bitAt a q else bitAt b (q - 8 * a.length) := by
  unfold bitAt
  rw [List.getElem?_append]
  by_cases hq : q < 8 * a.length
  · rw [if_pos (by omega), if_pos hq]
  · rw [if_neg (by omega), if_neg hq]
    have e1 : q / 8 - a.length = (q - 8 * a.length) / 8 := by omega
    have e2 : q % 8 = (q - 8 * a.length) % 8 := by omega
    rw [e1, e2]

theorem bitAt_take (r : Bytes) (n q : Nat) (h : q < 8 * n) : bitAt (r.take n) q = bitAt r q := by
  unfold bitAt
  rw [List.getElem?_take, if_pos (by omega)]

theorem bitAt_drop (r : Bytes) (n q : Nat) : bitAt (r.drop n) q = bitAt r (8 * n + q) := by
  unfold bitAt
  rw [List.getElem?_drop]
  have e1 : n + q / 8 = (8 * n + q) / 8 := by omega
  have e2 : q % 8 = (8 * n + q) % 8 := by omega
  rw [e1, e2]

/-- One write: it succeeds inside the record, and changes the bits it says. -/
theorem run_bit (op : BusOp) (r : Bytes) (h : op.Fits r.length) (small : r.length ≤ 2 ^ 28) :
    ∃ r', op.run r = some r' ∧ r'.length = r.length ∧ ∀ q, bitAt r' q = op.bit q (bitAt r q) := by
  cases op with
  | set off b =>
    refine ⟨_, wrByte_nat r off b h, by simp, fun q => ?_⟩
    rw [bitAt_setByte r off b h]
    rfl
  | or off b =>
    have h : off < r.length := h
    refine ⟨r.set off (r[off] ||| b), ?_, by simp, fun q => ?_⟩
    · show orByte r off b = _
      unfold orByte
      rw [rdByte_nat, List.getElem?_eq_getElem h]
      exact wrByte_nat r off _ h
    · rw [bitAt_setByte r off _ h]
      rw [bit_or]
      by_cases hq : 8 * off ≤ q ∧ q < 8 * off + 8
      · rw [if_pos hq, if_pos hq, BitVec.getLsbD_or, bitAt_eq r off q h hq.1 hq.2]
        rfl
      · rw [if_neg hq, if_neg hq]
  | raw off bits v =>
    have h1 := h.1
    have h2 := h.2
    obtain ⟨t, ht, hl, hb⟩ := unsignedToRaw_le 0 bits v (r.drop off) h.1 (by rw [List.length_drop]; omega) (by omega)
    rw [List.length_drop] at hl
    by_cases h0 : off ≤ r.length
    · refine ⟨r.take off ++ t, ?_, ?_, fun q => ?_⟩
      · show rawAt r off bits v = _
        unfold rawAt
        rw [ht]
        rfl
      · rw [List.length_append, hl, List.length_take]; omega
      · have e : (List.take off r).length = off := by rw [List.length_take]; omega
        rw [bitAt_append, e]
        rw [bit_raw]
        by_cases hq : q < 8 * off
        · rw [if_pos hq, if_neg (by omega), bitAt_take _ _ _ hq]
        · rw [if_neg hq, hb, bitAt_drop]
          have e2 : 8 * off + (q - 8 * off) = q := by omega
          rw [e2]
          by_cases hq2 : q < 8 * off + bits
          · rw [if_pos (by omega), if_pos (by omega)]
            rfl
          · rw [if_neg (by omega), if_neg (by omega)]
    · omega
  | copy off bytes =>
    have h' : off + bytes.length ≤ r.length := h
    refine ⟨_, wrBytes_eq_some h', wrBytes_length (wrBytes_eq_some h'), fun q => ?_⟩
    rw [bitAt_append, bitAt_append, List.length_append, List.length_take, Nat.min_eq_left (by omega)]
    rw [bit_copy]
    by_cases h1 : q < 8 * off
    · rw [if_pos (by omega), if_pos h1, if_neg (by omega), bitAt_take _ _ _ h1]
    · by_cases h2 : q < 8 * (off + bytes.length)
      · rw [if_pos h2, if_neg h1, if_pos (by omega), testBit_leNat]
      · rw [if_neg h2, bitAt_drop, if_neg (by omega)]
        congr 1
        omega

/-- All writes. -/
theorem runOps_bit : ∀ (ops : List BusOp) (r : Bytes), (∀ op ∈ ops, op.Fits r.length) → r.length ≤ 2 ^ 28 →
    ∃ r', runOps ops r = some r' ∧ r'.length = r.length ∧ ∀ q, bitAt r' q = ops.foldl (fun b op => op.bit q b) (bitAt r q)
  | [], r, _, _ => ⟨r, rfl, rfl, fun _ => rfl⟩
  | op :: ops, r, h, small => by
    obtain ⟨r1, e1, l1, b1⟩ := run_bit op r (h op (by simp)) small
    obtain ⟨r2, e2, l2, b2⟩ := runOps_bit ops r1 (fun o ho => by rw [l1]; exact h o (by simp [ho])) (by omega)
    refine ⟨r2, ?_, by omega, fun q => ?_⟩
    · rw [runOps, e1]; exact e2
    · rw [b2, b1]; rfl

/-! ### Fields -/

/-- A field of `n` bits at `p` lies inside the place of the write. -/
def BusOp.covers (p n : Nat) (op : BusOp) : Bool := decide (op.first ≤ p ∧ p + n ≤ op.last)

/-- The write does not touch the field. -/
def BusOp.misses (p n : Nat) (op : BusOp) : Bool := decide (op.last ≤ p ∨ p + n ≤ op.first)

/-- The field after the write. -/
def BusOp.field (p n : Nat) (prev : Nat) (op : BusOp) : Nat :=
  if op.covers p n then
    match op with
    | .or off b => prev ||| b.toNat / 2 ^ (p - 8 * off) % 2 ^ n
    | .set off b => b.toNat / 2 ^ (p - 8 * off) % 2 ^ n
    | .raw off _ v => v.toNat / 2 ^ (p - 8 * off) % 2 ^ n
    | .copy off bytes => leNat bytes / 2 ^ (p - 8 * off) % 2 ^ n
  else prev

theorem testBit_field (v k n i : Nat) : (v / 2 ^ k % 2 ^ n).testBit i = (decide (i < n) && v.testBit (k + i)) := by
  rw [Nat.testBit_mod_two_pow, Nat.testBit_div_two_pow, Nat.add_comm]

theorem testBit_fieldLe (r : Bytes) (p n i : Nat) : (fieldLe r p n).testBit i = (decide (i < n) && bitAt r (p + i)) := by
  rw [fieldLe, testBit_field, testBit_leNat]

/-- A field after the writes, if each write covers or misses it. -/
theorem fieldLe_ops : ∀ (ops : List BusOp) (r r' : Bytes) (p n : Nat) (prev : Nat),
    (∀ q, bitAt r' q = ops.foldl (fun b op => op.bit q b) (bitAt r q)) →
    (∀ op ∈ ops, op.covers p n = true ∨ op.misses p n = true) → prev = fieldLe r p n →
    fieldLe r' p n = ops.foldl (BusOp.field p n) prev := by
  intro ops r r' p n prev hb hc hp
  apply Nat.eq_of_testBit_eq
  intro i
  rw [testBit_fieldLe]
  by_cases hi : i < n
  · have key : ∀ (ops : List BusOp) (prev : Nat) (b : Bool), (∀ op ∈ ops, op.covers p n = true ∨ op.misses p n = true) → prev.testBit i = b →
        ops.foldl (fun b op => op.bit (p + i) b) b = (ops.foldl (BusOp.field p n) prev).testBit i := by
      intro ops
      induction ops with
      | nil => intro prev b _ h; exact h.symm
      | cons op ops ih =>
        intro prev b hc h
        rw [List.foldl_cons, List.foldl_cons]
        apply ih _ _ (fun o ho => hc o (by simp [ho]))
        rcases hc op (by simp) with h1 | h1
        · simp only [BusOp.field, h1, if_true, BusOp.bit]
          simp only [BusOp.covers, decide_eq_true_eq] at h1
          rw [if_pos (by omega)]
          have e : ∀ off, 8 * off ≤ p → p - 8 * off + i = p + i - 8 * off := by omega
          cases op <;> simp only [BusOp.first, BusOp.value, BusOp.last] at * <;>
            simp only [Nat.testBit_or, testBit_field, hi, decide_true, Bool.true_and, h, e _ h1.1]
        · have h2 : op.covers p n = false := by
            simp only [BusOp.misses, BusOp.covers, decide_eq_true_eq, decide_eq_false_iff_not] at *
            omega
          simp only [BusOp.field, h2, Bool.false_eq_true, if_false, BusOp.bit]
          simp only [BusOp.misses, decide_eq_true_eq] at h1
          rw [if_neg (by omega)]
          exact h
    simp only [hi, decide_true, Bool.true_and]
    rw [hb]
    exact key ops prev _ hc (by rw [hp, testBit_fieldLe]; simp [hi])
  · have key : ∀ (ops : List BusOp) (prev : Nat), prev < 2 ^ n → ops.foldl (BusOp.field p n) prev < 2 ^ n := by
      intro ops
      induction ops with
      | nil => intro prev h; exact h
      | cons op ops ih =>
        intro prev h
        rw [List.foldl_cons]
        apply ih
        unfold BusOp.field
        split
        · cases op with
          | or off b => exact Nat.or_lt_two_pow h (Nat.mod_lt _ (Nat.two_pow_pos _))
          | set off b => exact Nat.mod_lt _ (Nat.two_pow_pos _)
          | raw off _ v => exact Nat.mod_lt _ (Nat.two_pow_pos _)
          | copy off bytes => exact Nat.mod_lt _ (Nat.two_pow_pos _)
        · exact h
    simp only [hi, decide_false, Bool.false_and]
    symm
    apply Nat.testBit_lt_two_pow
    calc _ < 2 ^ n := key ops prev (by rw [hp]; exact Nat.mod_lt _ (Nat.two_pow_pos _))
      _ ≤ 2 ^ i := Nat.pow_le_pow_right (by omega) (by omega)

/-! ### Records -/

/-- What the writes do to a record. -/
structure Written (ops : List BusOp) (before after : Bytes) : Prop where
  length : after.length = before.length
  bits : ∀ q, bitAt after q = ops.foldl (fun b op => op.bit q b) (bitAt before q)

theorem runOps_written (ops : List BusOp) (r : Bytes) (h : ∀ op ∈ ops, op.Fits r.length) (small : r.length ≤ 2 ^ 28) :
    ∃ r', runOps ops r = some r' ∧ Written ops r r' := by
  obtain ⟨r', e, l, b⟩ := runOps_bit ops r h small
  exact ⟨r', e, l, b⟩

/-- The bytes before all writes are kept. -/
theorem Written.keeps {ops : List BusOp} {r r' : Bytes} (h : Written ops r r') (n : Nat) (hn : n ≤ r.length)
    (ho : ∀ op ∈ ops, 8 * n ≤ op.first) : r'.take n = r.take n := by
  have hb : ∀ q, q < 8 * n → bitAt r' q = bitAt r q := by
    intro q hq
    rw [h.bits]
    have : ∀ (ops : List BusOp) (b : Bool), (∀ op ∈ ops, 8 * n ≤ op.first) → ops.foldl (fun b op => op.bit q b) b = b := by
      intro ops
      induction ops with
      | nil => intro b _; rfl
      | cons op ops ih =>
        intro b ho
        rw [List.foldl_cons, ih _ (fun o h => ho o (by simp [h]))]
        have := ho op (by simp)
        unfold BusOp.bit
        rw [if_neg (by omega)]
    exact this ops _ ho
  apply List.ext_getElem?
  intro k
  rw [List.getElem?_take, List.getElem?_take]
  by_cases hk : k < n
  · rw [if_pos hk, if_pos hk]
    have l := h.length
    rw [List.getElem?_eq_getElem (by omega), List.getElem?_eq_getElem (by omega)]
    congr 1
    apply BitVec.eq_of_getLsbD_eq
    intro i hi
    have h1 := hb (8 * k + i) (by omega)
    rw [bitAt_eq r' k _ (by omega) (by omega) (by omega), bitAt_eq r k _ (by omega) (by omega) (by omega)] at h1
    have e : 8 * k + i - 8 * k = i := by omega
    rw [e] at h1
    exact h1
  · rw [if_neg hk, if_neg hk]

/-- A field that the writes determine. -/
theorem Written.field {ops : List BusOp} {r r' : Bytes} (h : Written ops r r') (p n : Nat)
    (hc : ∀ op ∈ ops, op.covers p n = true ∨ op.misses p n = true) :
    fieldLe r' p n = ops.foldl (BusOp.field p n) (fieldLe r p n) :=
  fieldLe_ops ops r r' p n _ h.bits hc rfl

/-- Bytes of the record as a number. -/
theorem bytes_of_field (r : Bytes) (off : Nat) (v : Bytes) (h : off + v.length ≤ r.length)
    (e : fieldLe r (8 * off) (8 * v.length) = leNat v) : (r.drop off).take v.length = v := by
  rw [fieldLe, leNat_slice r off v.length h] at e
  have l : ((r.drop off).take v.length).length = v.length := by rw [List.length_take, List.length_drop]; omega
  rw [← leBytes_leNat ((r.drop off).take v.length), e, l]
  exact leBytes_leNat v

/-! ### Values of channels -/

theorem value_num (byte bit count : Nat) (R : Bytes) (v : Nat) (hb : byte < 100 ∧ bit < 8 ∧ count ≤ 64) (hl : R.length ≤ 2 ^ 28)
    (hin : 8 * byte + bit + count ≤ 8 * R.length) (e : fieldLe R (8 * byte + bit) count = v) :
    (canBits byte bit count).busValue R = some (.num v) := by
  have hp : (canBits byte bit count).pos 0 = 8 * byte + bit := by simp [Chan.pos, canBits]
  have hi : (canBits byte bit count).Inside 0 R.length := by rw [Chan.Inside, hp]; exact hin
  have h := (C05_get_unsigned_le (canBits byte bit count) R 0 rfl (by simp only [canBits]; omega)
    (by rw [hp]; simp only [canBits]; omega) hl).1 hi
  have hv : v < 2 ^ 64 := by
    have : v < 2 ^ count := by rw [← e]; exact Nat.mod_lt _ (Nat.two_pow_pos _)
    exact Nat.lt_of_lt_of_le this (Nat.pow_le_pow_right (by omega) hb.2.2)
  rw [hp] at h
  have hc : (canBits byte bit count).bitCount = count := rfl
  rw [hc, e] at h
  unfold Chan.busValue
  simp only [show (canBits byte bit count).dataType = .unsignedLe from rfl]
  rw [h]
  simp only [BitVec.toNat_ofNat, Nat.mod_eq_of_lt hv]

theorem value_int (byte bit count : Nat) (R : Bytes) (v : Int) (hb : byte < 100 ∧ bit < 8 ∧ 0 < count ∧ count ≤ 64) (hl : R.length ≤ 2 ^ 28)
    (hin : 8 * byte + bit + count ≤ 8 * R.length) (e : Int.bmod (fieldLe R (8 * byte + bit) count) (2 ^ count) = v) :
    (busSigned byte bit count).busValue R = some (.int v) := by
  have hp : (busSigned byte bit count).pos 0 = 8 * byte + bit := by simp [Chan.pos, canBits, busSigned]
  have hi : (busSigned byte bit count).Inside 0 R.length := by rw [Chan.Inside, hp]; exact hin
  obtain ⟨x, h, hx⟩ := (C05_get_signed .le (busSigned byte bit count) R 0 rfl hb.2.2.1 hb.2.2.2 (by simp only [busSigned, canBits]; omega)
    (by rw [hp]; simp only [busSigned, canBits]; omega) hl).1 hi
  rw [hp] at hx
  unfold Chan.busValue
  simp only [show (busSigned byte bit count).dataType = .signedLe from rfl]
  rw [h]
  dsimp only
  rw [hx, ← e]
  rfl

theorem value_float (byte : Nat) (R : Bytes) (v : BitVec 32) (hb : byte < 100) (hl : R.length ≤ 2 ^ 28)
    (hin : 8 * byte + 32 ≤ 8 * R.length) (e : fieldLe R (8 * byte) 32 = v.toNat) :
    (busFloat byte).busValue R = some (.float v) := by
  have hp : (busFloat byte).pos 0 = 8 * byte := by simp [Chan.pos, canBits, busFloat]
  have hi : (busFloat byte).Inside 0 R.length := by rw [Chan.Inside, hp]; exact hin
  have h := (C05_get_float .le (busFloat byte) R 0 rfl (by right; left; rfl) (by simp only [busFloat, canBits]; omega)
    (by rw [hp]; simp only [busFloat, canBits]; omega) hl).1 hi
  rw [hp] at h
  unfold Chan.busValue
  simp only [show (busFloat byte).dataType = .floatLe from rfl]
  rw [h]
  dsimp only
  have e2 : fieldOf .le R (8 * byte) (busFloat byte).bitCount = v.toNat := e
  rw [e2]
  congr 2
  apply BitVec.eq_of_toNat_eq
  have := v.isLt
  simp only [BitVec.toNat_setWidth, BitVec.toNat_ofNat]
  omega

theorem value_bytes (byte : Nat) (R v : Bytes) (h0 : v.length ≠ 0)
    (hin : byte + v.length ≤ R.length) (e : fieldLe R (8 * byte) (8 * v.length) = leNat v) :
    (busBytes byte v.length).busValue R = some (.bytes v) := by
  unfold Chan.busValue
  simp only [show (busBytes byte v.length).dataType = .byteArray from rfl]
  have hd : (busBytes byte v.length).dataBytes = v.length := by simp [Chan.dataBytes, busBytes, canBits]
  have ho : (busBytes byte v.length).byteOffset = byte := rfl
  rw [Chan.getByteArray, hd, ho, if_neg h0, if_pos hin, bytes_of_field R byte v hin e]

/-- The records of a group with a frame of `n` bytes. -/
theorem busRecordSize_eq (n : Nat) (h0 : 0 < n) (h : n ≤ 1000) : busRecordSize n = 8 + n := by
  have e8 : 8 * n ≠ 0 := by omega
  simp only [busRecordSize, Layout.recordSize, Layout.nofInvalidBytes, prepareGroup, busTopLevel, List.foldl_cons, List.foldl_nil, Layout.step,
    Chan.prepare, prepareKind, prepareBits, canTime, busBytes, canBits, Chan.dataBytes, e8, if_false]
  simp
  omega

theorem value_bytes' (byte n : Nat) (R v : Bytes) (hn : v.length = n) (h0 : n ≠ 0)
    (hin : byte + n ≤ R.length) (e : fieldLe R (8 * byte) (8 * n) = leNat v) :
    (busBytes byte n).busValue R = some (.bytes v) := by
  subst hn
  exact value_bytes byte R v h0 hin e

/-! ### The sample in the file -/

/-- The writes, and then the position of the variable length data. -/
def BusVar.patch (size index : Nat) : BusVar → List BusOp
  | .set _ => [.copy (size - 8) (leBytes 8 index)]
  | _ => []

/-- The sample after the message, and its record in the file. -/
theorem stored_written (size : Nat) (ops : List BusOp) (var : BusVar) (s : CanSample) (hs : s.record.length = size)
    (hf : var = .keep → s.vlsdData = false) (h8 : 8 ≤ size ∧ size ≤ 1000) (hops : ∀ op ∈ ops, op.Fits size) :
    ∃ s', busRecord size ops var s = some s' ∧ (∀ index, Written (ops ++ var.patch size index) s.record (s'.stored index)) ∧
      (∀ d, var = .set d → s'.vlsdData = true ∧ s'.vlsdBuffer = d) ∧ ((∀ d, var ≠ .set d) → s'.vlsdData = false) := by
  have hr : resizeBytes s.record size = s.record := by
    unfold resizeBytes
    rw [← hs, List.take_length, Nat.sub_self]
    simp
  obtain ⟨r', e, hw⟩ := runOps_written ops s.record (by rw [hs]; exact hops) (by omega)
  unfold busRecord
  rw [hr, e]
  refine ⟨_, rfl, fun index => ?_, ?_, ?_⟩
  · have hl := hw.length
    cases var with
    | keep => simpa [CanSample.stored, hf rfl, BusVar.patch] using hw
    | clear => simpa [CanSample.stored, BusVar.patch] using hw
    | set d =>
      have hl8 : (leBytes 8 index).length = 8 := leBytes_length 8 index
      obtain ⟨r2, e2, l2, b2⟩ := run_bit (.copy (size - 8) (leBytes 8 index)) r' (by rw [BusOp.Fits, hl8]; omega) (by omega)
      have hp : patchIndex r' index = r2 := by
        have : some (r'.take (size - 8) ++ leBytes 8 index ++ r'.drop (size - 8 + (leBytes 8 index).length)) = some r2 := by
          rw [← e2]; exact (wrBytes_eq_some (by rw [hl8]; omega)).symm
        rw [hl8, List.drop_eq_nil_of_le (by omega), List.append_nil] at this
        unfold patchIndex
        rw [if_pos (by omega), ← Option.some.inj this]
        congr 3
        omega
      simp only [CanSample.stored, if_true, hp, BusVar.patch]
      refine ⟨by omega, fun q => ?_⟩
      rw [b2, hw.bits, List.foldl_append]
      rfl
  · intro d hd
    subst hd
    exact ⟨rfl, rfl⟩
  · intro hd
    cases var with
    | keep => exact hf rfl
    | clear => rfl
    | set d => exact absurd rfl (hd d)

/-! ### Numbers -/

theorem or_left {a b v : Nat} (ha : a = v) (hb : b = 0) : a ||| b = v := by rw [ha, hb, Nat.or_zero]
theorem or_right {a b v : Nat} (ha : a = 0) (hb : b = v) : a ||| b = v := by rw [ha, hb, Nat.zero_or]

theorem toNat_and63 (x : Byte) : (x &&& 63#8).toNat = x.toNat % 64 := by
  rw [BitVec.toNat_and]; exact Nat.and_two_pow_sub_one_eq_mod x.toNat 6
theorem toNat_and15 (x : Byte) : (x &&& 15#8).toNat = x.toNat % 16 := by
  rw [BitVec.toNat_and]; exact Nat.and_two_pow_sub_one_eq_mod x.toNat 4
theorem toNat_and7 (x : Byte) : (x &&& 7#8).toNat = x.toNat % 8 := by
  rw [BitVec.toNat_and]; exact Nat.and_two_pow_sub_one_eq_mod x.toNat 3
theorem toNat_and3 (x : Byte) : (x &&& 3#8).toNat = x.toNat % 4 := by
  rw [BitVec.toNat_and]; exact Nat.and_two_pow_sub_one_eq_mod x.toNat 2
theorem toNat_and1 (x : Byte) : (x &&& 1#8).toNat = x.toNat % 2 := by
  rw [BitVec.toNat_and]; exact Nat.and_two_pow_sub_one_eq_mod x.toNat 1
theorem toNat_shl (x : Byte) (k : Nat) : (x <<< k).toNat = x.toNat * 2 ^ k % 256 := by
  rw [BitVec.toNat_shiftLeft, Nat.shiftLeft_eq]
theorem toNat_bool (b : Bool) : (if b then 1#8 else 0#8).toNat = b.toNat := by cases b <;> rfl
theorem toNat_bool' (b : Bool) : (if b then 1 else 0 : Byte).toNat = b.toNat := by cases b <;> rfl
theorem toNat_flag (b : Bool) (k : Nat) : (flagBit b k).toNat = b.toNat * 2 ^ k % 256 := by
  rw [flagBit, toNat_shl, toNat_bool]

/-- Bits of one or more values that share a byte. -/
syntax "busbits" : tactic
macro_rules
  | `(tactic| busbits) => `(tactic| first | omega | (with_reducible refine or_left ?_ ?_) <;> busbits | (with_reducible refine or_right ?_ ?_) <;> busbits)

/-- A number in a record of writes. -/
theorem Written.num {ops : List BusOp} {r R : Bytes} (h : Written ops r R) (byte bit count v : Nat) (hb : byte < 100 ∧ bit < 8 ∧ count ≤ 64)
    (hin : 8 * byte + bit + count ≤ 8 * r.length) (hl : r.length ≤ 1000)
    (hc : (ops.all fun op => op.covers (8 * byte + bit) count || op.misses (8 * byte + bit) count) = true)
    (hv : ∀ x, ops.foldl (BusOp.field (8 * byte + bit) count) x = v) : (canBits byte bit count).busValue R = some (.num v) := by
  have l := h.length
  apply value_num byte bit count R v hb (by omega) (by omega)
  rw [h.field _ _ (by simpa using hc)]
  exact hv _

/-- Bytes in a record of writes. -/
theorem Written.bytes {ops : List BusOp} {r R : Bytes} (h : Written ops r R) (byte n : Nat) (v : Bytes) (hn : v.length = n) (h0 : n ≠ 0)
    (hin : byte + n ≤ r.length) (hc : (ops.all fun op => op.covers (8 * byte) (8 * n) || op.misses (8 * byte) (8 * n)) = true)
    (hv : ∀ x, ops.foldl (BusOp.field (8 * byte) (8 * n)) x = leNat v) : (busBytes byte n).busValue R = some (.bytes v) := by
  have l := h.length
  apply value_bytes' byte n R v hn h0 (by omega)
  rw [h.field _ _ (by simpa using hc)]
  exact hv _

/-- The bytes at a place in a record of writes. -/
theorem Written.bytesAt {ops : List BusOp} {r R : Bytes} (h : Written ops r R) (byte n : Nat) (v : Bytes) (hn : v.length = n)
    (hin : byte + n ≤ r.length) (hc : (ops.all fun op => op.covers (8 * byte) (8 * n) || op.misses (8 * byte) (8 * n)) = true)
    (hv : ∀ x, ops.foldl (BusOp.field (8 * byte) (8 * n)) x = leNat v) : (R.drop byte).take n = v := by
  have l := h.length
  subst hn
  apply bytes_of_field R byte v (by omega)
  rw [h.field _ _ (by simpa using hc)]
  exact hv _

/-- A `float` in a record of writes. -/
theorem Written.float {ops : List BusOp} {r R : Bytes} (h : Written ops r R) (byte : Nat) (v : BitVec 32) (hb : byte < 100)
    (hin : 8 * byte + 32 ≤ 8 * r.length) (hl : r.length ≤ 1000)
    (hc : (ops.all fun op => op.covers (8 * byte) 32 || op.misses (8 * byte) 32) = true)
    (hv : ∀ x, ops.foldl (BusOp.field (8 * byte) 32) x = v.toNat) : (busFloat byte).busValue R = some (.float v) := by
  have l := h.length
  apply value_float byte R v hb (by omega) (by omega)
  rw [h.field _ _ (by simpa using hc)]
  exact hv _

/-- A signed number in a record of writes. -/
theorem Written.int {ops : List BusOp} {r R : Bytes} (h : Written ops r R) (byte bit count : Nat) (v : Int) (n : Nat)
    (hb : byte < 100 ∧ bit < 8 ∧ 0 < count ∧ count ≤ 64)
    (hin : 8 * byte + bit + count ≤ 8 * r.length) (hl : r.length ≤ 1000)
    (hc : (ops.all fun op => op.covers (8 * byte + bit) count || op.misses (8 * byte + bit) count) = true)
    (hv : ∀ x, ops.foldl (BusOp.field (8 * byte + bit) count) x = n) (hn : Int.bmod n (2 ^ count) = v) :
    (busSigned byte bit count).busValue R = some (.int v) := by
  have l := h.length
  apply value_int byte bit count R v hb (by omega) (by omega)
  rw [h.field _ _ (by simpa using hc), hv]
  exact hn

theorem vector6 (v : Vector Byte 6) : ∃ a b c d e f, v.toList = [a, b, c, d, e, f] := by
  have h := v.length_toList
  match hl : v.toList, h with
  | [a, b, c, d, e, f], _ => exact ⟨a, b, c, d, e, f, rfl⟩

theorem forall_none {α : Type} {P : α → Prop} : ∀ v, (none : Option α) = some v → P v := by
  intro v hv
  cases hv

theorem forall_empty {α : Type} {P : α → Prop} : ∀ x, x ∈ ([] : List α) → P x := by
  intro x hx
  cases hx

theorem forall_some {α : Type} {a : α} {P : α → Prop} (h : P a) : ∀ v, some a = some v → P v := by
  intro v hv
  exact Option.some.inj hv ▸ h

/-- The last writes to a field. -/
syntax "busfield" : tactic
macro_rules
  | `(tactic| busfield) => `(tactic| (
      set_option linter.unusedSimpArgs false in
      simp only [List.foldl_cons, List.foldl_nil, List.length_cons, List.length_nil, BusOp.field, BusOp.covers, BusOp.first, BusOp.last, BusOp.little, leBytes_length, Nat.reduceMul,
        Nat.reduceAdd, Nat.reduceSub, Nat.reduceLeDiff, and_true, true_and, and_false, false_and, decide_true, decide_false, if_true, if_false,
        Bool.false_eq_true, reduceCtorEq,
        toNat_and63, toNat_and15, toNat_and7, toNat_and3, toNat_and1, toNat_shl, toNat_bool, toNat_bool', toNat_flag, BitVec.toNat_setWidth,
        BitVec.toNat_ofNat, leNat_leBytes, Nat.reducePow]
      all_goals busbits))

/-- The bytes of the last write. -/
theorem Written.lastCopy {ops : List BusOp} {off : Nat} {v r R : Bytes} (h : Written (ops ++ [.copy off v]) r R) (hin : off + v.length ≤ r.length) :
    (R.drop off).take v.length = v := by
  have l := h.length
  apply bytes_of_field R off v (by omega)
  apply Nat.eq_of_testBit_eq
  intro i
  rw [testBit_fieldLe]
  by_cases hi : i < 8 * v.length
  · rw [h.bits, List.foldl_append, List.foldl_cons, List.foldl_nil, bit_copy, if_pos (by omega)]
    simp only [hi, decide_true, Bool.true_and]
    congr 1
    omega
  · simp only [hi, decide_false, Bool.false_and]
    symm
    apply Nat.testBit_lt_two_pow
    have h8 : leNat v < 2 ^ (8 * v.length) := by
      rw [Nat.pow_mul]
      exact leNat_lt v
    calc leNat v < 2 ^ (8 * v.length) := h8
      _ ≤ 2 ^ i := Nat.pow_le_pow_right (by omega) (by omega)

/-- What is found of a message, from what its writes do. -/
theorem busFound_of {N : Type} (size : Nat) (ops : List BusOp) (var : BusVar) (members : List (N × Chan)) (meaning : N → Option BusVal) (data : Bytes)
    (s : CanSample) (hs : s.record.length = size) (hf : var = .keep → s.vlsdData = false) (h8 : 8 ≤ size ∧ size ≤ 1000)
    (hops : ∀ op ∈ ops, op.Fits size ∧ 64 ≤ op.first) (hpatch : ∀ d, var = .set d → 16 ≤ size)
    (hvalue : ∀ index R, Written (ops ++ var.patch size index) s.record R →
      ∀ e ∈ members, ∀ v, meaning e.1 = some v → e.2.busValue R = some v)
    (hdata : ∀ e ∈ members, e.2.type = .variableLength → var = .set data ∧ e.2.byteOffset = size - 8)
    (hplain : (∀ e ∈ members, e.2.type ≠ .variableLength) → ∀ d, var ≠ .set d) :
    ∃ s', busRecord size ops var s = some s' ∧ ∀ index, BusFound size members meaning data s s' index := by
  obtain ⟨s', e, hw, hset, hno⟩ := stored_written size ops var s hs hf h8 (fun op h => (hops op h).1)
  refine ⟨s', e, fun index => ⟨?_, ?_, ?_, ?_, ?_⟩⟩
  · have := (hw index).length; omega
  · refine (hw index).keeps 8 (by omega) ?_
    intro op ho
    rw [List.mem_append] at ho
    rcases ho with ho | ho
    · exact (hops op ho).2
    · cases var with
      | keep => simp [BusVar.patch] at ho
      | clear => simp [BusVar.patch] at ho
      | set d =>
        have := hpatch d rfl
        simp only [BusVar.patch, List.mem_singleton] at ho
        subst ho
        simp only [BusOp.first]
        omega
  · exact hvalue index _ (hw index)
  · intro x hx ht
    obtain ⟨h1, h2⟩ := hdata x hx ht
    obtain ⟨h3, h4⟩ := hset _ h1
    refine ⟨h3, h4, ?_⟩
    have h5 := hw index
    rw [h1] at h5
    have := Written.lastCopy h5 (by rw [leBytes_length]; omega)
    rw [leBytes_length] at this
    rw [h2]
    exact this
  · intro h
    exact hno (hplain h)

end Mdf
