import Verif.Spec.Can
import Verif.Proof.Channel
import Verif.Props.Channel

namespace Mdf

/-! ### writing whole bytes -/

theorem unsignedToRaw_bytes (n : Nat) (v : BitVec 64) (raw : Bytes) (hn : n ≤ 8) (h : n ≤ raw.length) :
    unsignedToRaw true 0 (8 * n) v raw = some (leBytes n v.toNat ++ raw.drop n) := by
  obtain ⟨raw', h1, h2, h3⟩ := unsignedToRaw_le 0 (8 * n) v raw (by omega) (by omega) (by omega)
  rw [h1]
  congr 1
  have hl : (leBytes n v.toNat ++ raw.drop n).length = raw.length := by
    simp [leBytes_length]; omega
  have : leNat raw' = leNat (leBytes n v.toNat ++ raw.drop n) := by
    apply Nat.eq_of_testBit_eq
    intro i
    rw [testBit_leNat, h3]
    rw [leNat_append, leNat_leBytes, leBytes_length, pow256, Nat.add_comm (v.toNat % _),
      Nat.testBit_two_pow_mul_add _ (Nat.mod_lt _ (Nat.two_pow_pos _))]
    by_cases hi : i < 8 * n
    · rw [if_pos ⟨Nat.zero_le _, by omega⟩, if_pos hi, Nat.testBit_mod_two_pow, BitVec.getLsbD]
      simp [hi]
    · rw [if_neg (by omega), if_neg hi, testBit_leNat]
      unfold bitAt
      rw [List.getElem?_drop]
      have e1 : n + (i - 8 * n) / 8 = i / 8 := by omega
      have e2 : (i - 8 * n) % 8 = i % 8 := by omega
      rw [e1, e2]
  rw [← leBytes_leNat raw', this, h2, ← hl, leBytes_leNat]

/-! ### flags -/

theorem flags4 (d : Byte) (h : d.toNat < 16) (a b c e : Bool) :
    (((((d ||| flagBit a 4) ||| flagBit b 5) ||| flagBit c 6) ||| flagBit e 7) : Byte).toNat
      = d.toNat + 16 * a.toNat + 32 * b.toNat + 64 * c.toNat + 128 * e.toNat := by
  have key : ∀ d : Fin 16, ∀ a b c e : Bool,
      (((((BitVec.ofNat 8 d.val ||| flagBit a 4) ||| flagBit b 5) ||| flagBit c 6) ||| flagBit e 7) : Byte).toNat
      = d.val + 16 * a.toNat + 32 * b.toNat + 64 * c.toNat + 128 * e.toNat := by decide +kernel
  have := key ⟨d.toNat, h⟩ a b c e
  simpa using this

theorem flags5 (a b c e f : Bool) :
    (((((flagBit a 0 ||| flagBit b 1) ||| flagBit c 2) ||| flagBit e 3) ||| flagBit f 4) : Byte).toNat
      = a.toNat + 2 * b.toNat + 4 * c.toNat + 8 * e.toNat + 16 * f.toNat := by
  revert a b c e f; decide

theorem flags5x (a b c e f : Bool) (x : Byte) :
    ((((((flagBit a 0 ||| flagBit b 1) ||| flagBit c 2) ||| flagBit e 3) ||| flagBit f 4) ||| ((x &&& 0x07) <<< 5)) : Byte).toNat
      = a.toNat + 2 * b.toNat + 4 * c.toNat + 8 * e.toNat + 16 * f.toNat + 32 * (x.toNat % 8) := by
  have key : ∀ a b c e f : Bool, ∀ x : Fin 8,
    ((((((flagBit a 0 ||| flagBit b 1) ||| flagBit c 2) ||| flagBit e 3) ||| flagBit f 4) ||| ((BitVec.ofNat 8 x.val) <<< 5)) : Byte).toNat
      = a.toNat + 2 * b.toNat + 4 * c.toNat + 8 * e.toNat + 16 * f.toNat + 32 * x.val := by decide +kernel
  have hx : x &&& 0x07 = BitVec.ofNat 8 (x.toNat % 8) := by
    apply BitVec.eq_of_toNat_eq
    rw [BitVec.toNat_and, BitVec.toNat_ofNat]
    have : (0x07 : Byte).toNat = 2 ^ 3 - 1 := rfl
    rw [this, Nat.and_two_pow_sub_one_eq_mod]
    omega
  rw [hx]
  exact key a b c e f ⟨x.toNat % 8, by omega⟩

theorem getDlc_toNat (m : CanMsg) : m.getDlc.toNat = m.dlc.toNat % 16 := by
  unfold CanMsg.getDlc
  rw [BitVec.toNat_and]
  have : (0x0F : Byte).toNat = 2 ^ 4 - 1 := rfl
  rw [this, Nat.and_two_pow_sub_one_eq_mod]

theorem getDlc_and (m : CanMsg) : m.getDlc &&& 0x0F = m.getDlc := by
  unfold CanMsg.getDlc
  rw [BitVec.and_assoc, BitVec.and_self]

/-! ### the record as a list of known bytes -/

/-- The bytes of the record before the data bytes. -/
def CanMsg.head (m : CanMsg) (frame : CanFrame) (mandatory : Bool) : Bytes :=
  let start := [m.busChannel] ++ leBytes 4 m.messageId.toNat
  match frame, mandatory with
  | .data, true => start ++ [m.getDlc, m.dataLength]
  | .remote, true => start ++ [m.getDlc, m.dataLength]
  | .data, false =>
    start ++ [m.getDlc ||| flagBit m.dir 4 ||| flagBit m.srr 5 ||| flagBit m.edl 6 ||| flagBit m.brs 7, m.dataLength,
      flagBit m.esi 0 ||| flagBit m.wakeUp 1 ||| flagBit m.singleWire 2 ||| flagBit m.r0 3 ||| flagBit m.r1 4]
      ++ leBytes 4 m.duration.toNat ++ leBytes 4 m.crc.toNat
  | .remote, false =>
    start ++ [m.getDlc ||| flagBit m.dir 4 ||| flagBit m.srr 5 ||| flagBit m.wakeUp 6 ||| flagBit m.singleWire 7, m.dataLength,
      flagBit m.r0 0 ||| flagBit m.r1 1] ++ leBytes 4 m.duration.toNat ++ leBytes 4 m.crc.toNat
  | .error, _ =>
    start ++ [m.getDlc ||| flagBit m.dir 4 ||| flagBit m.srr 5 ||| flagBit m.edl 6 ||| flagBit m.brs 7, m.dataLength,
      flagBit m.esi 0 ||| flagBit m.wakeUp 1 ||| flagBit m.singleWire 2 ||| flagBit m.r0 3 ||| flagBit m.r1 4
        ||| ((m.errorType &&& 0x07) <<< 5)]
      ++ leBytes 4 m.duration.toNat ++ leBytes 2 m.bitPosition.toNat ++ leBytes 4 m.crc.toNat
  | .overload, _ => [m.busChannel, flagBit m.dir 0]

theorem wrByte_at (a : Bytes) (x b : Byte) (r : Bytes) (i : Int) (h : i = (a.length : Nat)) :
    wrByte (a ++ x :: r) i b = some (a ++ b :: r) := by
  subst h
  rw [wrByte_nat _ _ _ (by simp)]
  simp

theorem orByte_at (a : Bytes) (x b : Byte) (r : Bytes) (i : Nat) (h : i = a.length) :
    orByte (a ++ x :: r) i b = some (a ++ (x ||| b) :: r) := by
  subst h
  unfold orByte
  rw [rdByte_nat]
  simp [wrByte_at]

theorem rawAt_at (a y r : Bytes) (v : BitVec 64) (off n : Nat) (h : off = a.length) (hy : y.length = n) (hn : n ≤ 8) :
    rawAt (a ++ (y ++ r)) off (8 * n) v = some (a ++ (leBytes n v.toNat ++ r)) := by
  subst h
  unfold rawAt
  rw [List.drop_left, unsignedToRaw_bytes n v (y ++ r) hn (by simp; omega), List.take_left]
  subst hy
  simp

/-- The data bytes as stored with padding. -/
def padded (data : Bytes) (n : Nat) : Bytes := (List.range n).map fun i => data.getD i 0xFF

theorem fillLoop_spec (off : Nat) (data : Bytes) (n : Nat) : ∀ (i : Nat) (a r : Bytes), a.length = off + i → r.length = n →
    fillLoop off data n i (a ++ r) = some (a ++ (List.range n).map fun k => data.getD (i + k) 0xFF) := by
  induction n with
  | zero =>
    intro i a r ha hr
    have : r = [] := List.eq_nil_of_length_eq_zero hr
    subst this
    simp [fillLoop]
  | succ n ih =>
    intro i a r ha hr
    cases r with
    | nil => simp at hr
    | cons x r =>
      unfold fillLoop
      rw [wrByte_at a x _ r _ (by rw [ha])]
      simp only [Option.bind_eq_bind, Option.bind_some]
      have := ih (i + 1) (a ++ [data.getD i 0xFF]) r (by simp; omega) (by simpa using hr)
      rw [List.append_assoc] at this
      rw [show a ++ data.getD i 0xFF :: r = a ++ ([data.getD i 0xFF] ++ r) from rfl, this, List.range_succ_eq_map]
      simp [Nat.add_assoc, Nat.add_comm 1]

/-- Where the data bytes are after `ToRaw`. -/
def CanMsg.tail (m : CanMsg) (saveIndex : Bool) (maxLen : Nat) : Bytes :=
  if saveIndex then List.replicate 8 0 else padded m.data maxLen

theorem storeData_spec (m : CanMsg) (saveIndex : Bool) (off maxLen : Nat) (a r : Bytes) (ha : a.length = off)
    (hr : r.length = if saveIndex then 8 else maxLen) :
    m.storeData saveIndex off maxLen (a ++ r)
      = some { record := a ++ m.tail saveIndex maxLen, vlsdData := saveIndex, vlsdBuffer := if saveIndex then m.data else [] } := by
  unfold CanMsg.storeData CanMsg.tail
  cases saveIndex with
  | true =>
    simp only [if_true] at hr ⊢
    have := rawAt_at a r [] 0 off 8 ha.symm hr (by omega)
    rw [List.append_nil] at this
    rw [this]
    simp only [Option.bind_eq_bind, Option.bind_some]
    rfl
  | false =>
    simp only [Bool.false_eq_true, if_false] at hr ⊢
    have := fillLoop_spec off m.data maxLen 0 a r (by omega) hr
    rw [this]
    simp [padded]

theorem split_at (n : Nat) (l : Bytes) (h : n ≤ l.length) : ∃ a b, l = a ++ b ∧ a.length = n ∧ b.length = l.length - n :=
  ⟨l.take n, l.drop n, (List.take_append_drop n l).symm, by simp; omega, by simp⟩

theorem split_cons (l : Bytes) (h : 0 < l.length) : ∃ x b, l = x :: b ∧ b.length = l.length - 1 := by
  cases l with
  | nil => simp at h
  | cons x b => exact ⟨x, b, rfl, by simp⟩

theorem resize_take8 (b : Bytes) (n : Nat) (h : 8 ≤ b.length) (hn : 8 ≤ n) :
    (resizeBytes b n).take 8 = b.take 8 := by
  unfold resizeBytes
  rw [List.take_append_of_le_length (by simp; omega), List.take_take, Nat.min_eq_left hn]

theorem resize_length (b : Bytes) (n : Nat) : (resizeBytes b n).length = n := by
  unfold resizeBytes; simp; omega

theorem setWidth_toNat32 (x : BitVec 32) : (x.setWidth 64).toNat = x.toNat := by
  rw [BitVec.toNat_setWidth]; omega

theorem setWidth_toNat16 (x : BitVec 16) : (x.setWidth 64).toNat = x.toNat := by
  rw [BitVec.toNat_setWidth]; omega

/-- The steps that are the same for data, remote and error frames. -/
theorem start_spec (m : CanMsg) (t r : Bytes) (ht : t.length = 8) (hr : 7 ≤ r.length) :
    (wrByte (t ++ r) 8 m.busChannel >>= fun record => rawAt record 9 32 (m.messageId.setWidth 64) >>= fun record =>
      wrByte record 13 m.getDlc >>= fun record => wrByte record 14 m.dataLength)
    = some (t ++ (m.busChannel :: (leBytes 4 m.messageId.toNat ++ (m.getDlc :: m.dataLength :: r.drop 7)))) := by
  obtain ⟨x8, r, rfl, h8⟩ := split_cons r (by omega)
  simp only [List.length_cons] at hr
  obtain ⟨i, r, rfl, hi, hl⟩ := split_at 4 r (by omega)
  simp only [List.length_append] at hr
  obtain ⟨x13, r, rfl, h13⟩ := split_cons r (by omega)
  simp only [List.length_cons] at hr
  obtain ⟨x14, r, rfl, h14⟩ := split_cons r (by omega)
  rw [wrByte_at t _ _ _ _ (by rw [ht]; rfl)]
  simp only [Option.bind_eq_bind, Option.bind_some]
  have e1 : t ++ m.busChannel :: (i ++ x13 :: x14 :: r) = (t ++ [m.busChannel]) ++ (i ++ x13 :: x14 :: r) := by simp
  rw [e1, rawAt_at _ i _ _ 9 4 (by simp [ht]) hi (by omega), setWidth_toNat32]
  simp only [Option.bind_some]
  have e2 : t ++ [m.busChannel] ++ (leBytes 4 m.messageId.toNat ++ x13 :: x14 :: r)
      = (t ++ [m.busChannel] ++ leBytes 4 m.messageId.toNat) ++ x13 :: x14 :: r := by simp
  rw [e2, wrByte_at _ _ _ _ _ (by simp [ht, leBytes_length])]
  simp only [Option.bind_some]
  have e3 : (t ++ [m.busChannel] ++ leBytes 4 m.messageId.toNat) ++ m.getDlc :: x14 :: r
      = (t ++ [m.busChannel] ++ leBytes 4 m.messageId.toNat ++ [m.getDlc]) ++ x14 :: r := by simp
  rw [e3, wrByte_at _ _ _ _ _ (by simp [ht, leBytes_length])]
  have e4 : (x8 :: (i ++ x13 :: x14 :: r)).drop 7 = r := by
    rw [List.drop_succ_cons, show (6 : Nat) = 4 + 2 from rfl, ← List.drop_drop, ← hi, List.drop_left]
    rfl
  rw [e4]
  simp


theorem start_spec' {α : Type} (m : CanMsg) (t r : Bytes) (ht : t.length = 8) (hr : 7 ≤ r.length) (f : Bytes → Option α) :
    (wrByte (t ++ r) 8 m.busChannel >>= fun record => rawAt record 9 32 (m.messageId.setWidth 64) >>= fun record =>
      wrByte record 13 m.getDlc >>= fun record => wrByte record 14 m.dataLength >>= f)
    = f ((t ++ m.busChannel :: leBytes 4 m.messageId.toNat) ++ m.getDlc :: ([m.dataLength] ++ r.drop 7)) := by
  have h := start_spec m t r ht hr
  have e : (wrByte (t ++ r) 8 m.busChannel >>= fun record => rawAt record 9 32 (m.messageId.setWidth 64) >>= fun record =>
      wrByte record 13 m.getDlc >>= fun record => wrByte record 14 m.dataLength >>= f)
    = ((wrByte (t ++ r) 8 m.busChannel >>= fun record => rawAt record 9 32 (m.messageId.setWidth 64) >>= fun record =>
      wrByte record 13 m.getDlc >>= fun record => wrByte record 14 m.dataLength) >>= f) := by
    simp only [bind_assoc]
  rw [e, h]
  simp

theorem toRawData_spec (m : CanMsg) (mandatory saveIndex : Bool) (maxLen : Nat) (s : CanSample) (h8 : 8 ≤ s.record.length) :
    m.toRawData mandatory saveIndex maxLen s
      = some { record := s.record.take 8 ++ (m.head .data mandatory ++ m.tail saveIndex maxLen), vlsdData := saveIndex,
               vlsdBuffer := if saveIndex then m.data else [] } := by
  unfold CanMsg.toRawData
  have hsz : 15 ≤ (if mandatory then 23 - 8 else 32 - 8) + (if saveIndex then 8 else maxLen) := by
    cases mandatory <;> simp <;> omega
  obtain ⟨t, r, he, ht, hr⟩ := split_at 8
    (resizeBytes s.record ((if mandatory then 23 - 8 else 32 - 8) + (if saveIndex then 8 else maxLen)))
    (by rw [resize_length]; omega)
  have htake := resize_take8 s.record ((if mandatory then 23 - 8 else 32 - 8) + (if saveIndex then 8 else maxLen)) h8 (by omega)
  rw [resize_length] at hr
  rw [he, ← ht, List.take_left, ht] at htake
  dsimp only
  rw [he, start_spec' m t r ht (by omega)]
  cases mandatory with
  | true =>
    simp only [if_true] at hr ⊢
    have e : (t ++ m.busChannel :: leBytes 4 m.messageId.toNat) ++ m.getDlc :: ([m.dataLength] ++ r.drop 7)
      = (t ++ m.busChannel :: leBytes 4 m.messageId.toNat ++ [m.getDlc, m.dataLength]) ++ r.drop 7 := by simp
    rw [e, storeData_spec m saveIndex 15 maxLen _ _ (by simp [ht, leBytes_length]) (by simp; omega), ← htake]
    simp [CanMsg.head]
  | false =>
    simp only [Bool.false_eq_true, if_false] at hr ⊢
    have hP : (t ++ m.busChannel :: leBytes 4 m.messageId.toNat).length = 13 := by simp [ht, leBytes_length]
    have hq : (r.drop 7).length = r.length - 7 := by simp
    generalize hPd : t ++ m.busChannel :: leBytes 4 m.messageId.toNat = P at hP ⊢
    rw [orByte_at P _ _ _ 13 hP.symm]
    simp only [Option.bind_eq_bind, Option.bind_some]
    rw [orByte_at P _ _ _ 13 hP.symm]
    simp only [Option.bind_some]
    rw [orByte_at P _ _ _ 13 hP.symm]
    simp only [Option.bind_some]
    rw [orByte_at P _ _ _ 13 hP.symm]
    simp only [Option.bind_some]
    generalize hb : m.getDlc ||| flagBit m.dir 4 ||| flagBit m.srr 5 ||| flagBit m.edl 6 ||| flagBit m.brs 7 = b13
    obtain ⟨x15, r1, hr1, hl1⟩ := split_cons (r.drop 7) (by omega)
    obtain ⟨d, r2, rfl, hd, hl2⟩ := split_at 4 r1 (by omega)
    obtain ⟨c, r3, rfl, hc, hl3⟩ := split_at 4 r2 (by omega)
    rw [hr1]
    have e : P ++ b13 :: ([m.dataLength] ++ x15 :: (d ++ (c ++ r3)))
      = (P ++ [b13, m.dataLength]) ++ x15 :: (d ++ (c ++ r3)) := by simp
    have hQ : (P ++ [b13, m.dataLength]).length = 15 := by simp [hP]
    rw [e]
    generalize hQd : P ++ [b13, m.dataLength] = Q at hQ ⊢
    rw [wrByte_at Q _ _ _ _ (by rw [hQ]; rfl)]
    simp only [Option.bind_some]
    rw [orByte_at Q _ _ _ 15 hQ.symm]
    simp only [Option.bind_some]
    rw [orByte_at Q _ _ _ 15 hQ.symm]
    simp only [Option.bind_some]
    rw [orByte_at Q _ _ _ 15 hQ.symm]
    simp only [Option.bind_some]
    rw [orByte_at Q _ _ _ 15 hQ.symm]
    simp only [Option.bind_some]
    generalize hb2 : flagBit m.esi 0 ||| flagBit m.wakeUp 1 ||| flagBit m.singleWire 2 ||| flagBit m.r0 3 ||| flagBit m.r1 4 = b15
    have e : Q ++ b15 :: (d ++ (c ++ r3)) = (Q ++ [b15]) ++ (d ++ (c ++ r3)) := by simp
    rw [e, rawAt_at _ d _ _ 16 4 (by simp [hQ]) hd (by omega), setWidth_toNat32]
    simp only [Option.bind_some]
    rw [← List.append_assoc, rawAt_at _ c _ _ 20 4 (by simp [hQ, leBytes_length]) hc (by omega), setWidth_toNat32]
    simp only [Option.bind_some]
    rw [← List.append_assoc, storeData_spec m saveIndex 24 maxLen _ _ (by simp [hQ, leBytes_length]) (by
      simp only [List.length_append] at hl2 hl3 hl1; omega), ← htake, ← hQd, ← hPd, ← hb, ← hb2]
    simp [CanMsg.head]

theorem toRawRemote_spec (m : CanMsg) (mandatory : Bool) (s : CanSample) (h8 : 8 ≤ s.record.length) :
    m.toRawRemote mandatory s
      = some { s with record := s.record.take 8 ++ m.head .remote mandatory } := by
  unfold CanMsg.toRawRemote
  have hsz : 15 ≤ (if mandatory then 15 else 24) := by cases mandatory <;> simp
  obtain ⟨t, r, he, ht, hr⟩ := split_at 8 (resizeBytes s.record (if mandatory then 15 else 24))
    (by rw [resize_length]; omega)
  have htake := resize_take8 s.record (if mandatory then 15 else 24) h8 (by omega)
  rw [resize_length] at hr
  rw [he, ← ht, List.take_left, ht] at htake
  dsimp only
  rw [he, getDlc_and, start_spec' m t r ht (by omega)]
  cases mandatory with
  | true =>
    simp only [if_true] at hr ⊢
    have hnil : r.drop 7 = [] := by rw [List.drop_eq_nil_iff]; omega
    rw [hnil, ← htake]
    simp [CanMsg.head]
  | false =>
    simp only [Bool.false_eq_true, if_false] at hr ⊢
    have hP : (t ++ m.busChannel :: leBytes 4 m.messageId.toNat).length = 13 := by simp [ht, leBytes_length]
    have hq : (r.drop 7).length = r.length - 7 := by simp
    generalize hPd : t ++ m.busChannel :: leBytes 4 m.messageId.toNat = P at hP ⊢
    rw [orByte_at P _ _ _ 13 hP.symm]
    simp only [Option.bind_eq_bind, Option.bind_some]
    rw [orByte_at P _ _ _ 13 hP.symm]
    simp only [Option.bind_some]
    rw [orByte_at P _ _ _ 13 hP.symm]
    simp only [Option.bind_some]
    rw [orByte_at P _ _ _ 13 hP.symm]
    simp only [Option.bind_some]
    generalize hb : m.getDlc ||| flagBit m.dir 4 ||| flagBit m.srr 5 ||| flagBit m.wakeUp 6 ||| flagBit m.singleWire 7 = b13
    obtain ⟨x15, r1, hr1, hl1⟩ := split_cons (r.drop 7) (by omega)
    obtain ⟨d, r2, rfl, hd, hl2⟩ := split_at 4 r1 (by omega)
    obtain ⟨c, r3, rfl, hc, hl3⟩ := split_at 4 r2 (by omega)
    rw [hr1]
    have e : P ++ b13 :: ([m.dataLength] ++ x15 :: (d ++ (c ++ r3)))
      = (P ++ [b13, m.dataLength]) ++ x15 :: (d ++ (c ++ r3)) := by simp
    have hQ : (P ++ [b13, m.dataLength]).length = 15 := by simp [hP]
    rw [e]
    generalize hQd : P ++ [b13, m.dataLength] = Q at hQ ⊢
    rw [wrByte_at Q _ _ _ _ (by rw [hQ]; rfl)]
    simp only [Option.bind_some]
    rw [orByte_at Q _ _ _ 15 hQ.symm]
    simp only [Option.bind_some]
    generalize hb2 : flagBit m.r0 0 ||| flagBit m.r1 1 = b15
    have e : Q ++ b15 :: (d ++ (c ++ r3)) = (Q ++ [b15]) ++ (d ++ (c ++ r3)) := by simp
    rw [e, rawAt_at _ d _ _ 16 4 (by simp [hQ]) hd (by omega), setWidth_toNat32]
    simp only [Option.bind_some]
    rw [← List.append_assoc, rawAt_at _ c _ _ 20 4 (by simp [hQ, leBytes_length]) hc (by omega), setWidth_toNat32]
    simp only [Option.bind_some]
    have h3 : r3 = [] := by
      apply List.eq_nil_of_length_eq_zero
      simp only [List.length_append] at hl2 hl3 hl1; omega
    rw [← htake, ← hQd, ← hPd, ← hb, ← hb2, h3]
    simp [CanMsg.head]

theorem toRawError_spec (m : CanMsg) (mandatory saveIndex : Bool) (maxLen : Nat) (s : CanSample) (h8 : 8 ≤ s.record.length)
    (hs : s.record.length ≤ 26 + (if saveIndex then 8 else maxLen)) :
    m.toRawError saveIndex maxLen s
      = some { record := s.record.take 8 ++ (m.head .error mandatory ++ m.tail saveIndex maxLen), vlsdData := saveIndex,
               vlsdBuffer := if saveIndex then m.data else [] } := by
  unfold CanMsg.toRawError
  have hre : (if s.record.length < 34 - 8 + (if saveIndex then 8 else maxLen)
      then resizeBytes s.record (34 - 8 + (if saveIndex then 8 else maxLen)) else s.record)
      = resizeBytes s.record (26 + (if saveIndex then 8 else maxLen)) := by
    generalize (if saveIndex then 8 else maxLen) = k at hs ⊢
    split
    · rfl
    · have : s.record.length = 26 + k := by omega
      rw [← this]
      simp [resizeBytes]
  obtain ⟨t, r, he, ht, hr⟩ := split_at 8
    (resizeBytes s.record (26 + (if saveIndex then 8 else maxLen))) (by rw [resize_length]; omega)
  have htake := resize_take8 s.record (26 + (if saveIndex then 8 else maxLen)) h8 (by omega)
  rw [resize_length] at hr
  rw [he, ← ht, List.take_left, ht] at htake
  dsimp only
  rw [hre, he, getDlc_and, start_spec' m t r ht (by omega)]
  have hP : (t ++ m.busChannel :: leBytes 4 m.messageId.toNat).length = 13 := by simp [ht, leBytes_length]
  have hq : (r.drop 7).length = r.length - 7 := by simp
  generalize hPd : t ++ m.busChannel :: leBytes 4 m.messageId.toNat = P at hP ⊢
  rw [orByte_at P _ _ _ 13 hP.symm]
  simp only [Option.bind_eq_bind, Option.bind_some]
  rw [orByte_at P _ _ _ 13 hP.symm]
  simp only [Option.bind_some]
  rw [orByte_at P _ _ _ 13 hP.symm]
  simp only [Option.bind_some]
  rw [orByte_at P _ _ _ 13 hP.symm]
  simp only [Option.bind_some]
  generalize hb : m.getDlc ||| flagBit m.dir 4 ||| flagBit m.srr 5 ||| flagBit m.edl 6 ||| flagBit m.brs 7 = b13
  obtain ⟨x15, r1, hr1, hl1⟩ := split_cons (r.drop 7) (by omega)
  obtain ⟨d, r2, rfl, hd, hl2⟩ := split_at 4 r1 (by omega)
  obtain ⟨p, r4, rfl, hp, hl4⟩ := split_at 2 r2 (by omega)
  obtain ⟨c, r3, rfl, hc, hl3⟩ := split_at 4 r4 (by omega)
  rw [hr1]
  have e : P ++ b13 :: ([m.dataLength] ++ x15 :: (d ++ (p ++ (c ++ r3))))
    = (P ++ [b13, m.dataLength]) ++ x15 :: (d ++ (p ++ (c ++ r3))) := by simp
  have hQ : (P ++ [b13, m.dataLength]).length = 15 := by simp [hP]
  rw [e]
  generalize hQd : P ++ [b13, m.dataLength] = Q at hQ ⊢
  rw [wrByte_at Q _ _ _ _ (by rw [hQ]; rfl)]
  simp only [Option.bind_some]
  rw [orByte_at Q _ _ _ 15 hQ.symm]
  simp only [Option.bind_some]
  rw [orByte_at Q _ _ _ 15 hQ.symm]
  simp only [Option.bind_some]
  rw [orByte_at Q _ _ _ 15 hQ.symm]
  simp only [Option.bind_some]
  rw [orByte_at Q _ _ _ 15 hQ.symm]
  simp only [Option.bind_some]
  rw [orByte_at Q _ _ _ 15 hQ.symm]
  simp only [Option.bind_some]
  generalize hb2 : flagBit m.esi 0 ||| flagBit m.wakeUp 1 ||| flagBit m.singleWire 2 ||| flagBit m.r0 3 ||| flagBit m.r1 4
    ||| ((m.errorType &&& 0x07) <<< 5) = b15
  have e : Q ++ b15 :: (d ++ (p ++ (c ++ r3))) = (Q ++ [b15]) ++ (d ++ (p ++ (c ++ r3))) := by simp
  rw [e, rawAt_at _ d _ _ 16 4 (by simp [hQ]) hd (by omega), setWidth_toNat32]
  simp only [Option.bind_some]
  rw [← List.append_assoc, rawAt_at _ p _ _ 20 2 (by simp [hQ, leBytes_length]) hp (by omega), setWidth_toNat16]
  simp only [Option.bind_some]
  rw [← List.append_assoc, rawAt_at _ c _ _ 22 4 (by simp [hQ, leBytes_length]) hc (by omega), setWidth_toNat32]
  simp only [Option.bind_some]
  rw [← List.append_assoc, storeData_spec m saveIndex 26 maxLen _ _ (by simp [hQ, leBytes_length]) (by
    simp only [List.length_append] at hl2 hl3 hl1 hl4; omega), ← htake, ← hQd, ← hPd, ← hb, ← hb2]
  simp [CanMsg.head]

theorem toRawOverload_spec (m : CanMsg) (mandatory : Bool) (s : CanSample) (h8 : 8 ≤ s.record.length) :
    m.toRawOverload s = some { s with record := s.record.take 8 ++ m.head .overload mandatory } := by
  unfold CanMsg.toRawOverload
  obtain ⟨t, r, he, ht, hr⟩ := split_at 8 (resizeBytes s.record 10) (by rw [resize_length]; omega)
  have htake := resize_take8 s.record 10 h8 (by omega)
  rw [resize_length] at hr
  rw [he, ← ht, List.take_left, ht] at htake
  dsimp only
  obtain ⟨x8, r, rfl, h8⟩ := split_cons r (by omega)
  obtain ⟨x9, r, rfl, h9⟩ := split_cons r (by omega)
  have : r = [] := by apply List.eq_nil_of_length_eq_zero; simp only [List.length_cons] at h8 h9 hr; omega
  subst this
  rw [he, wrByte_at t _ _ _ _ (by rw [ht]; rfl)]
  simp only [Option.bind_eq_bind, Option.bind_some]
  rw [show t ++ [m.busChannel, x9] = (t ++ [m.busChannel]) ++ x9 :: [] by simp, wrByte_at _ _ _ _ _ (by simp [ht])]
  rw [← htake]
  simp [CanMsg.head]


/-! ### reading the members -/

/-- A member read as the bits of a known part of the record. -/
theorem get_window (R a seg b : Bytes) (byte bit count k : Nat) (hR : R = a ++ (seg ++ b)) (ha : a.length = k) (hk : k ≤ byte)
    (hin : 8 * (byte - k) + bit + count ≤ 8 * seg.length) (hb : byte < 100 ∧ bit < 8 ∧ count ≤ 64)
    (small : R.length ≤ 2 ^ 28) :
    (canBits byte bit count).getUnsigned R 0
      = .ok (BitVec.ofNat 64 (leNat seg / 2 ^ (8 * (byte - k) + bit) % 2 ^ count)) := by
  have hl : R.length = k + seg.length + b.length := by rw [hR]; simp [ha]; omega
  have h := (C05_get_unsigned_le (canBits byte bit count) R 0 rfl (by simp [canBits]; omega)
    (by simp [canBits, Chan.pos]; omega) small).1 (by simp [canBits, Chan.Inside, Chan.pos, hl]; omega)
  rw [h]
  congr 2
  have hp : (canBits byte bit count).pos 0 = 8 * k + (8 * (byte - k) + bit) := by simp [canBits, Chan.pos]; omega
  have hs : leNat seg = leNat R / 2 ^ (8 * k) % 2 ^ (8 * seg.length) := by
    rw [leNat_slice R k seg.length (by omega), hR, ← ha, List.drop_left, List.take_left]
  unfold fieldLe
  rw [hp, hs, Nat.pow_add, ← Nat.div_div_eq_div_mul]
  show _ / 2 ^ (8 * (byte - k) + bit) % 2 ^ count = _
  generalize leNat R / 2 ^ (8 * k) = N
  generalize hj : 8 * (byte - k) + bit = j at hin ⊢
  apply Nat.eq_of_testBit_eq
  intro i
  simp only [Nat.testBit_mod_two_pow, Nat.testBit_div_two_pow]
  by_cases hi : i < count
  · simp [hi, show i + j < 8 * seg.length by omega]
  · simp [hi]

/-- What the theorem about the members says of one member. -/
def MemberOk (m : CanMsg) (R : Bytes) (e : CanName × Chan) : Prop :=
  e.1 ≠ .dataBytes → ∃ v, m.meaning e.1 = some v ∧ v < 2 ^ 64 ∧ e.2.getUnsigned R 0 = .ok (BitVec.ofNat 64 v)

theorem member_ok (m : CanMsg) (R a seg b : Bytes) (name : CanName) (byte bit count k v : Nat) (small : R.length ≤ 2 ^ 28)
    (hR : R = a ++ (seg ++ b)) (ha : a.length = k) (hk : k ≤ byte)
    (hin : 8 * (byte - k) + bit + count ≤ 8 * seg.length) (hb : byte < 100 ∧ bit < 8 ∧ count ≤ 64)
    (hm : m.meaning name = some v) (hv : leNat seg / 2 ^ (8 * (byte - k) + bit) % 2 ^ count = v) :
    MemberOk m R (name, canBits byte bit count) := by
  intro _
  refine ⟨v, hm, ?_, ?_⟩
  · rw [← hv]
    exact Nat.lt_of_lt_of_le (Nat.mod_lt _ (Nat.two_pow_pos _)) (Nat.pow_le_pow_right (by omega) hb.2.2)
  · rw [get_window R a seg b byte bit count k hR ha hk hin hb small, hv]

theorem leNat_one (x : Byte) : leNat [x] = x.toNat := by simp [leNat]

theorem leNat_le4 (x : BitVec 32) : leNat (leBytes 4 x.toNat) = x.toNat := by
  rw [leNat_leBytes]; have := x.isLt; omega

theorem leNat_le2 (x : BitVec 16) : leNat (leBytes 2 x.toNat) = x.toNat := by
  rw [leNat_leBytes]; have := x.isLt; omega

/-- The members that data, remote and error frames have in common. -/
theorem start_members (m : CanMsg) (t rest : Bytes) (b13 : Byte) (ht : t.length = 8)
    (hb : b13.toNat % 16 = m.dlc.toNat % 16) (R : Bytes) (small : R.length ≤ 2 ^ 28)
    (hR : R = t ++ ([m.busChannel] ++ (leBytes 4 m.messageId.toNat ++ ([b13] ++ ([m.dataLength] ++ rest))))) :
    MemberOk m R (.busChannel, canBits 8 0 8) ∧ MemberOk m R (.id, canBits 9 0 29) ∧
    MemberOk m R (.ide, canBits 12 7 1) ∧ MemberOk m R (.dlc, canBits 13 0 4) ∧
    MemberOk m R (.dataLength, canBits 14 0 8) := by
  have hid := m.messageId.isLt
  refine ⟨?_, ?_, ?_, ?_, ?_⟩
  · refine member_ok m R t [m.busChannel] (leBytes 4 m.messageId.toNat ++ ([b13] ++ ([m.dataLength] ++ rest))) _ 8 0 8 8 m.busChannel.toNat
      small hR ht (by omega) (by simp) (by omega) rfl ?_
    rw [leNat_one]; have := m.busChannel.isLt; omega
  · refine member_ok m R (t ++ [m.busChannel]) (leBytes 4 m.messageId.toNat) ([b13] ++ ([m.dataLength] ++ rest)) _ 9 0 29 9 (m.messageId.toNat % 2 ^ 29)
      small (by rw [hR]; simp) (by simp [ht]) (by omega) (by simp [leBytes_length]) (by omega) rfl ?_
    rw [leNat_le4]; omega
  · refine member_ok m R (t ++ [m.busChannel]) (leBytes 4 m.messageId.toNat) ([b13] ++ ([m.dataLength] ++ rest)) _ 12 7 1 9 (m.messageId.toNat / 2 ^ 31)
      small (by rw [hR]; simp) (by simp [ht]) (by omega) (by simp [leBytes_length]) (by omega) rfl ?_
    rw [leNat_le4]
    show m.messageId.toNat / 2 ^ 31 % 2 ^ 1 = _
    omega
  · refine member_ok m R (t ++ [m.busChannel] ++ leBytes 4 m.messageId.toNat) [b13] ([m.dataLength] ++ rest) _ 13 0 4 13 (m.dlc.toNat % 16)
      small (by rw [hR]; simp) (by simp [ht, leBytes_length]) (by omega) (by simp) (by omega) rfl ?_
    rw [leNat_one, ← hb]; omega
  · refine member_ok m R (t ++ [m.busChannel] ++ leBytes 4 m.messageId.toNat ++ [b13]) [m.dataLength] rest _ 14 0 8 14 (m.data.length % 256)
      small (by rw [hR]; simp) (by simp [ht, leBytes_length]) (by omega) (by simp) (by omega) rfl ?_
    rw [leNat_one]
    simp only [CanMsg.dataLength, BitVec.toNat_ofNat]
    omega


theorem byte_ok (m : CanMsg) (R a b : Bytes) (x : Byte) (name : CanName) (byte bit count v : Nat) (small : R.length ≤ 2 ^ 28)
    (hR : R = a ++ ([x] ++ b)) (ha : a.length = byte) (hb : byte < 100 ∧ bit + count ≤ 8 ∧ 0 < count) (hm : m.meaning name = some v)
    (hv : x.toNat / 2 ^ bit % 2 ^ count = v) : MemberOk m R (name, canBits byte bit count) := by
  refine member_ok m R a [x] b name byte bit count byte v small hR ha (by omega) (by simp; omega) (by omega) hm ?_
  rw [leNat_one, Nat.sub_self, Nat.mul_zero, Nat.zero_add, hv]

theorem word_ok (m : CanMsg) (R a b : Bytes) (x : BitVec 32) (name : CanName) (byte : Nat) (small : R.length ≤ 2 ^ 28)
    (hR : R = a ++ (leBytes 4 x.toNat ++ b)) (ha : a.length = byte) (hb : byte < 100) (hm : m.meaning name = some x.toNat) :
    MemberOk m R (name, canBits byte 0 32) := by
  refine member_ok m R a (leBytes 4 x.toNat) b name byte 0 32 byte x.toNat small hR ha (by omega)
    (by simp [leBytes_length]) (by omega) hm ?_
  rw [leNat_le4]
  have := x.isLt
  rw [Nat.sub_self]
  show x.toNat / 2 ^ 0 % 2 ^ 32 = _
  omega

theorem word16_ok (m : CanMsg) (R a b : Bytes) (x : BitVec 16) (name : CanName) (byte : Nat) (small : R.length ≤ 2 ^ 28)
    (hR : R = a ++ (leBytes 2 x.toNat ++ b)) (ha : a.length = byte) (hb : byte < 100) (hm : m.meaning name = some x.toNat) :
    MemberOk m R (name, canBits byte 0 16) := by
  refine member_ok m R a (leBytes 2 x.toNat) b name byte 0 16 byte x.toNat small hR ha (by omega)
    (by simp [leBytes_length]) (by omega) hm ?_
  rw [leNat_le2]
  have := x.isLt
  rw [Nat.sub_self]
  show x.toNat / 2 ^ 0 % 2 ^ 16 = _
  omega

theorem toNat_le_one (b : Bool) : b.toNat ≤ 1 := by cases b <;> simp

theorem dataBytes_ok (m : CanMsg) (R : Bytes) (c : Chan) : MemberOk m R (.dataBytes, c) := fun h => absurd rfl h

/-- The flags in byte 13 of data and error frames. -/
theorem byte13_members (m : CanMsg) (R a b : Bytes) (a1 a2 a3 a4 : Bool) (n1 n2 n3 n4 : CanName) (small : R.length ≤ 2 ^ 28)
    (hR : R = a ++ ([m.getDlc ||| flagBit a1 4 ||| flagBit a2 5 ||| flagBit a3 6 ||| flagBit a4 7] ++ b)) (ha : a.length = 13)
    (h1 : m.meaning n1 = some a1.toNat) (h2 : m.meaning n2 = some a2.toNat) (h3 : m.meaning n3 = some a3.toNat)
    (h4 : m.meaning n4 = some a4.toNat) :
    MemberOk m R (n1, canBits 13 4 1) ∧ MemberOk m R (n2, canBits 13 5 1) ∧ MemberOk m R (n3, canBits 13 6 1) ∧
    MemberOk m R (n4, canBits 13 7 1) := by
  have hd : m.getDlc.toNat < 16 := by rw [getDlc_toNat]; omega
  have hx := flags4 m.getDlc hd a1 a2 a3 a4
  have b1 := toNat_le_one a1
  have b2 := toNat_le_one a2
  have b3 := toNat_le_one a3
  have b4 := toNat_le_one a4
  refine ⟨byte_ok m R a b _ _ 13 4 1 _ small hR ha (by omega) h1 ?_, byte_ok m R a b _ _ 13 5 1 _ small hR ha (by omega) h2 ?_,
    byte_ok m R a b _ _ 13 6 1 _ small hR ha (by omega) h3 ?_, byte_ok m R a b _ _ 13 7 1 _ small hR ha (by omega) h4 ?_⟩ <;>
  · rw [hx]; omega

/-- **All members** of a record that starts with the bytes of `head`. -/
theorem members_spec (cfg : CanCfg) (m : CanMsg) (t tail R : Bytes) (ht : t.length = 8) (small : R.length ≤ 2 ^ 28)
    (hR : R = t ++ (m.head cfg.frame cfg.mandatory ++ tail)) : ∀ e ∈ cfg.members, MemberOk m R e := by
  have hd : m.getDlc.toNat < 16 := by rw [getDlc_toNat]; omega
  obtain ⟨frame, mandatory, store, writerMax⟩ := cfg
  have key4 : ∀ a b c e : Bool,
      (m.getDlc ||| flagBit a 4 ||| flagBit b 5 ||| flagBit c 6 ||| flagBit e 7).toNat % 16 = m.dlc.toNat % 16 := by
    intro a b c e
    rw [flags4 _ hd, getDlc_toNat]; omega
  cases frame with
  | data =>
    cases mandatory with
    | true =>
      obtain ⟨h1, h2, h3, h4, h5⟩ := start_members m t tail m.getDlc ht (by rw [getDlc_toNat]; omega) R small
        (by rw [hR]; simp [CanMsg.head])
      simp only [CanCfg.members, List.forall_mem_cons]
      exact ⟨h1, h2, h3, h4, h5, dataBytes_ok _ _ _, by simp⟩
    | false =>
      simp only [CanMsg.head] at hR
      obtain ⟨h1, h2, h3, h4, h5⟩ := start_members m t _ _ ht (key4 m.dir m.srr m.edl m.brs) R small
        (by rw [hR]; simp only [List.append_assoc, List.cons_append, List.nil_append]; rfl)
      obtain ⟨g1, g2, g3, g4⟩ := byte13_members m R (t ++ m.busChannel :: leBytes 4 m.messageId.toNat) _ m.dir m.srr m.edl m.brs
        .dir .srr .edl .brs small (by rw [hR]; simp only [List.append_assoc, List.cons_append, List.nil_append]; rfl)
        (by simp [ht, leBytes_length]) rfl rfl rfl rfl
      have hx := flags5 m.esi m.wakeUp m.singleWire m.r0 m.r1
      have b1 := toNat_le_one m.esi
      have b2 := toNat_le_one m.wakeUp
      have b3 := toNat_le_one m.singleWire
      have b4 := toNat_le_one m.r0
      have b5 := toNat_le_one m.r1
      generalize hA : t ++ (m.busChannel :: (leBytes 4 m.messageId.toNat ++
        [m.getDlc ||| flagBit m.dir 4 ||| flagBit m.srr 5 ||| flagBit m.edl 6 ||| flagBit m.brs 7, m.dataLength])) = A
      have hAl : A.length = 15 := by rw [← hA]; simp [ht, leBytes_length]
      have hR2 : R = A ++ ([flagBit m.esi 0 ||| flagBit m.wakeUp 1 ||| flagBit m.singleWire 2 ||| flagBit m.r0 3 ||| flagBit m.r1 4]
          ++ (leBytes 4 m.duration.toNat ++ (leBytes 4 m.crc.toNat ++ tail))) := by
        rw [hR, ← hA]; simp only [List.append_assoc, List.cons_append, List.nil_append]
      simp only [CanCfg.members, List.forall_mem_cons]
      refine ⟨h1, h2, h3, h4, h5, g1, g2, g3, g4,
        byte_ok m R A _ _ _ 15 0 1 m.esi.toNat small hR2 hAl (by omega) rfl (by rw [hx]; omega),
        byte_ok m R A _ _ _ 15 1 1 m.wakeUp.toNat small hR2 hAl (by omega) rfl (by rw [hx]; omega),
        byte_ok m R A _ _ _ 15 2 1 m.singleWire.toNat small hR2 hAl (by omega) rfl (by rw [hx]; omega),
        byte_ok m R A _ _ _ 15 3 1 m.r0.toNat small hR2 hAl (by omega) rfl (by rw [hx]; omega),
        byte_ok m R A _ _ _ 15 4 1 m.r1.toNat small hR2 hAl (by omega) rfl (by rw [hx]; omega), ?_, ?_, dataBytes_ok _ _ _, by simp⟩
      · exact word_ok m R (A ++ [flagBit m.esi 0 ||| flagBit m.wakeUp 1 ||| flagBit m.singleWire 2 ||| flagBit m.r0 3 ||| flagBit m.r1 4])
          _ m.duration _ 16 small (by rw [hR2]; simp only [List.append_assoc]; rfl) (by simp [hAl]) (by omega) rfl
      · exact word_ok m R (A ++ [flagBit m.esi 0 ||| flagBit m.wakeUp 1 ||| flagBit m.singleWire 2 ||| flagBit m.r0 3 ||| flagBit m.r1 4]
            ++ leBytes 4 m.duration.toNat)
          _ m.crc _ 20 small (by rw [hR2]; simp only [List.append_assoc]; rfl) (by simp [hAl, leBytes_length]) (by omega) rfl
  | remote =>
    cases mandatory with
    | true =>
      obtain ⟨h1, h2, h3, h4, h5⟩ := start_members m t tail m.getDlc ht (by rw [getDlc_toNat]; omega) R small
        (by rw [hR]; simp [CanMsg.head])
      simp only [CanCfg.members, List.forall_mem_cons]
      exact ⟨h1, h2, h3, h4, h5, by simp⟩
    | false =>
      simp only [CanMsg.head] at hR
      obtain ⟨h1, h2, h3, h4, h5⟩ := start_members m t _ _ ht (key4 m.dir m.srr m.wakeUp m.singleWire) R small
        (by rw [hR]; simp only [List.append_assoc, List.cons_append, List.nil_append]; rfl)
      obtain ⟨g1, g2, g3, g4⟩ := byte13_members m R (t ++ m.busChannel :: leBytes 4 m.messageId.toNat) _ m.dir m.srr m.wakeUp m.singleWire
        .dir .srr .wakeUp .singleWire small (by rw [hR]; simp only [List.append_assoc, List.cons_append, List.nil_append]; rfl)
        (by simp [ht, leBytes_length]) rfl rfl rfl rfl
      have hx : (flagBit m.r0 0 ||| flagBit m.r1 1).toNat = m.r0.toNat + 2 * m.r1.toNat := by
        cases m.r0 <;> cases m.r1 <;> rfl
      have b4 := toNat_le_one m.r0
      have b5 := toNat_le_one m.r1
      generalize hA : t ++ (m.busChannel :: (leBytes 4 m.messageId.toNat ++
        [m.getDlc ||| flagBit m.dir 4 ||| flagBit m.srr 5 ||| flagBit m.wakeUp 6 ||| flagBit m.singleWire 7, m.dataLength])) = A
      have hAl : A.length = 15 := by rw [← hA]; simp [ht, leBytes_length]
      have hR2 : R = A ++ ([flagBit m.r0 0 ||| flagBit m.r1 1]
          ++ (leBytes 4 m.duration.toNat ++ (leBytes 4 m.crc.toNat ++ tail))) := by
        rw [hR, ← hA]; simp only [List.append_assoc, List.cons_append, List.nil_append]
      simp only [CanCfg.members, List.forall_mem_cons]
      refine ⟨h1, h2, h3, h4, h5, g1, g2, g3, g4,
        byte_ok m R A _ _ _ 15 0 1 m.r0.toNat small hR2 hAl (by omega) rfl (by rw [hx]; omega),
        byte_ok m R A _ _ _ 15 1 1 m.r1.toNat small hR2 hAl (by omega) rfl (by rw [hx]; omega), ?_, ?_, by simp⟩
      · exact word_ok m R (A ++ [flagBit m.r0 0 ||| flagBit m.r1 1])
          _ m.duration _ 16 small (by rw [hR2]; simp only [List.append_assoc]; rfl) (by simp [hAl]) (by omega) rfl
      · exact word_ok m R (A ++ [flagBit m.r0 0 ||| flagBit m.r1 1] ++ leBytes 4 m.duration.toNat)
          _ m.crc _ 20 small (by rw [hR2]; simp only [List.append_assoc]; rfl) (by simp [hAl, leBytes_length]) (by omega) rfl
  | error =>
    simp only [CanMsg.head] at hR
    obtain ⟨h1, h2, h3, h4, h5⟩ := start_members m t _ _ ht (key4 m.dir m.srr m.edl m.brs) R small
      (by rw [hR]; simp only [List.append_assoc, List.cons_append, List.nil_append]; rfl)
    obtain ⟨g1, g2, g3, g4⟩ := byte13_members m R (t ++ m.busChannel :: leBytes 4 m.messageId.toNat) _ m.dir m.srr m.edl m.brs
      .dir .srr .edl .brs small (by rw [hR]; simp only [List.append_assoc, List.cons_append, List.nil_append]; rfl)
      (by simp [ht, leBytes_length]) rfl rfl rfl rfl
    have hx := flags5x m.esi m.wakeUp m.singleWire m.r0 m.r1 m.errorType
    have b1 := toNat_le_one m.esi
    have b2 := toNat_le_one m.wakeUp
    have b3 := toNat_le_one m.singleWire
    have b4 := toNat_le_one m.r0
    have b5 := toNat_le_one m.r1
    generalize hA : t ++ (m.busChannel :: (leBytes 4 m.messageId.toNat ++
      [m.getDlc ||| flagBit m.dir 4 ||| flagBit m.srr 5 ||| flagBit m.edl 6 ||| flagBit m.brs 7, m.dataLength])) = A
    have hAl : A.length = 15 := by rw [← hA]; simp [ht, leBytes_length]
    generalize hX : flagBit m.esi 0 ||| flagBit m.wakeUp 1 ||| flagBit m.singleWire 2 ||| flagBit m.r0 3 ||| flagBit m.r1 4
      ||| ((m.errorType &&& 0x07) <<< 5) = X at hx hR
    have hR2 : R = A ++ ([X] ++ (leBytes 4 m.duration.toNat ++ (leBytes 2 m.bitPosition.toNat ++ (leBytes 4 m.crc.toNat ++ tail)))) := by
      rw [hR, ← hA]; simp only [List.append_assoc, List.cons_append, List.nil_append]
    simp only [CanCfg.members, List.forall_mem_cons]
    refine ⟨h1, h2, h3, h4, h5, g1, g2, g3, g4,
      byte_ok m R A _ _ _ 15 0 1 m.esi.toNat small hR2 hAl (by omega) rfl (by rw [hx]; omega),
      byte_ok m R A _ _ _ 15 1 1 m.wakeUp.toNat small hR2 hAl (by omega) rfl (by rw [hx]; omega),
      byte_ok m R A _ _ _ 15 2 1 m.singleWire.toNat small hR2 hAl (by omega) rfl (by rw [hx]; omega),
      byte_ok m R A _ _ _ 15 3 1 m.r0.toNat small hR2 hAl (by omega) rfl (by rw [hx]; omega),
      byte_ok m R A _ _ _ 15 4 1 m.r1.toNat small hR2 hAl (by omega) rfl (by rw [hx]; omega),
      byte_ok m R A _ _ _ 15 5 3 (m.errorType.toNat % 8) small hR2 hAl (by omega) rfl (by rw [hx]; omega),
      ?_, ?_, ?_, dataBytes_ok _ _ _, by simp⟩
    · exact word_ok m R (A ++ [X]) _ m.duration _ 16 small (by rw [hR2]; simp only [List.append_assoc]; rfl) (by simp [hAl]) (by omega) rfl
    · exact word16_ok m R (A ++ [X] ++ leBytes 4 m.duration.toNat)
        _ m.bitPosition _ 20 small (by rw [hR2]; simp only [List.append_assoc]; rfl) (by simp [hAl, leBytes_length]) (by omega) rfl
    · exact word_ok m R (A ++ [X] ++ leBytes 4 m.duration.toNat ++ leBytes 2 m.bitPosition.toNat)
        _ m.crc _ 22 small (by rw [hR2]; simp only [List.append_assoc]; rfl) (by simp [hAl, leBytes_length]) (by omega) rfl
  | overload =>
    simp only [CanMsg.head] at hR
    simp only [CanCfg.members, List.forall_mem_cons]
    refine ⟨byte_ok m R t _ m.busChannel _ 8 0 8 m.busChannel.toNat small (by rw [hR]; rfl) ht (by omega) rfl ?_,
      byte_ok m R (t ++ [m.busChannel]) tail (flagBit m.dir 0) _ 9 0 1 m.dir.toNat small (by rw [hR]; simp) (by simp [ht]) (by omega) rfl ?_,
      by simp⟩
    · have := m.busChannel.isLt; omega
    · cases m.dir <;> rfl

end Mdf
