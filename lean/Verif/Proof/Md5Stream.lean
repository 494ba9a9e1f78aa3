import Verif.Proof.Md5

/-! Lemmas about the MD5 checksum: any number of reads. -/

namespace Mdf

theorem rfcBlocks_succ (t : Bytes) (n : Nat) :
    rfcBlocks t (n + 1) = rfcBlock (rfcBlocks t n) ((t.drop (64 * n)).take 64) := by
  unfold rfcBlocks
  rw [List.range_succ, List.foldl_append]
  rfl

theorem rfcBlocks_append (m d : Bytes) (n : Nat) (h : 64 * n ≤ m.length) : rfcBlocks (m ++ d) n = rfcBlocks m n := by
  induction n with
  | zero => simp only [rfcBlocks, List.range_zero, List.foldl_nil]
  | succ n ih =>
    rw [rfcBlocks_succ, rfcBlocks_succ, ih (by omega)]
    congr 1
    rw [List.drop_append_of_le_length (by omega), List.take_append_of_le_length (by rw [List.length_drop]; omega)]

/-- `body` over n blocks that are the blocks k .. k + n - 1 of a text. -/
theorem md5Body_rfc (t : Bytes) (n : Nat) : ∀ (data : Bytes) (w : Md5Words) (k : Nat), 64 * n ≤ data.length →
    data.take (64 * n) = (t.drop (64 * k)).take (64 * n) → w.rfc = rfcBlocks t k →
    ∃ w', md5Body data n w = some w' ∧ w'.rfc = rfcBlocks t (k + n) := by
  induction n with
  | zero => intro data w k _ _ hw; exact ⟨w, rfl, hw⟩
  | succ n ih =>
    intro data w k hlen ht hw
    have h64 : data.take 64 = (t.drop (64 * k)).take 64 := by
      have := congrArg (List.take 64) ht
      rwa [List.take_take, List.take_take, Nat.min_eq_left (by omega)] at this
    have hrest : (data.drop 64).take (64 * n) = (t.drop (64 * (k + 1))).take (64 * n) := by
      have := congrArg (List.drop 64) ht
      rw [List.drop_take, List.drop_take, List.drop_drop] at this
      rw [show 64 * (n + 1) - 64 = 64 * n by omega, show 64 * k + 64 = 64 * (k + 1) by omega] at this
      exact this
    have hturn : (md5Turn w (data.take 64)).rfc = rfcBlocks t (k + 1) := by
      rw [turn_rfc, hw, h64, rfcBlocks_succ]
    obtain ⟨w', he, hr⟩ := ih (data.drop 64) _ (k + 1) (by rw [List.length_drop]; omega) hrest hturn
    refine ⟨w', ?_, ?_⟩
    · rw [md5Body, if_neg (by omega)]
      exact he
    · rw [hr, show k + 1 + n = k + (n + 1) by omega]

theorem copyAt_spec (b d : Bytes) (i : Nat) (h : i + d.length ≤ b.length) :
    ∃ b', copyAt b i d = some b' ∧ b'.length = b.length ∧ b'.take (i + d.length) = b.take i ++ d := by
  refine ⟨_, if_pos h, ?_, ?_⟩
  · simp only [List.length_append, List.length_take, List.length_drop]
    omega
  · rw [List.take_append_of_le_length (by rw [List.length_append, List.length_take]; omega), List.take_of_length_le]
    rw [List.length_append, List.length_take]
    omega

/-- The context after the bytes `m` have been given. -/
structure Md5Inv (c : Md5Ctx) (m : Bytes) : Prop where
  buf : c.buffer.length = 64
  lo : c.lo.toNat = m.length % 2 ^ 29
  hi : c.hi.toNat = m.length / 2 ^ 29 % 2 ^ 32
  w : c.w.rfc = rfcBlocks m (m.length / 64)
  tail : c.buffer.take (m.length % 64) = m.drop (64 * (m.length / 64))

theorem md5Init_inv : Md5Inv md5Init [] := ⟨rfl, rfl, rfl, rfl, rfl⟩

theorem md5Bulk_spec (c : Md5Ctx) (t : Bytes) (k : Nat) (hk : 64 * k ≤ t.length) (hb : c.buffer.length = 64)
    (hw : c.w.rfc = rfcBlocks t k) :
    ∃ c', md5Bulk c (t.drop (64 * k)) = some c' ∧ c'.lo = c.lo ∧ c'.hi = c.hi ∧ c'.buffer.length = 64 ∧
      c'.w.rfc = rfcBlocks t (t.length / 64) ∧ c'.buffer.take (t.length % 64) = t.drop (64 * (t.length / 64)) := by
  have hlen : (t.drop (64 * k)).length = t.length - 64 * k := List.length_drop
  unfold md5Bulk
  by_cases h64 : 64 ≤ (t.drop (64 * k)).length
  · rw [if_pos h64]
    obtain ⟨w', he, hr⟩ := md5Body_rfc t ((t.drop (64 * k)).length / 64) (t.drop (64 * k)) c.w k (by omega) rfl hw
    rw [he]
    dsimp only [bind, Option.bind]
    rw [List.drop_drop]
    have hn : k + (t.drop (64 * k)).length / 64 = t.length / 64 := by omega
    rw [show 64 * k + (t.drop (64 * k)).length / 64 * 64 = 64 * (t.length / 64) by omega]
    have hl : (t.drop (64 * (t.length / 64))).length = t.length % 64 := by rw [List.length_drop]; omega
    obtain ⟨b', hc, hbl, hbt⟩ := copyAt_spec c.buffer (t.drop (64 * (t.length / 64))) 0 (by omega)
    rw [hc]
    refine ⟨_, rfl, rfl, rfl, by rw [← hb]; exact hbl, by rw [← hn]; exact hr, ?_⟩
    rw [hl, Nat.zero_add] at hbt
    exact hbt
  · rw [if_neg h64]
    have hn : t.length / 64 = k := by omega
    obtain ⟨b', hc, hbl, hbt⟩ := copyAt_spec c.buffer (t.drop (64 * k)) 0 (by omega)
    rw [hc]
    refine ⟨_, rfl, rfl, rfl, by rw [← hb]; exact hbl, by rw [hn]; exact hw, ?_⟩
    rw [Nat.zero_add, hlen] at hbt
    rw [hn, show t.length % 64 = t.length - 64 * k by omega]
    exact hbt

theorem md5_lo (a n : Nat) : (BitVec.ofNat 32 ((a % 2 ^ 29 + n) % 2 ^ 29)).toNat = (a + n) % 2 ^ 29 := by
  rw [BitVec.toNat_ofNat]
  omega

theorem md5_hi (a n : Nat) (hi : BitVec 32) (h : hi.toNat = a / 2 ^ 29 % 2 ^ 32) :
    ((if (a + n) % 2 ^ 29 < a % 2 ^ 29 then hi + 1 else hi) + BitVec.ofNat 32 (n / 2 ^ 29)).toNat =
      (a + n) / 2 ^ 29 % 2 ^ 32 := by
  split
  · rw [BitVec.toNat_add, BitVec.toNat_add, BitVec.toNat_ofNat, h, show (1 : BitVec 32).toNat = 1 from rfl]
    omega
  · rw [BitVec.toNat_add, BitVec.toNat_ofNat, h]
    omega

theorem md5Update_inv (c : Md5Ctx) (m d : Bytes) (h : Md5Inv c m) : ∃ c', md5Update c d = some c' ∧ Md5Inv c' (m ++ d) := by
  have hlo : (BitVec.ofNat 32 ((c.lo.toNat + d.length) % 2 ^ 29)).toNat = (m ++ d).length % 2 ^ 29 := by
    rw [h.lo, md5_lo, List.length_append]
  have hhi : ((if (BitVec.ofNat 32 ((c.lo.toNat + d.length) % 2 ^ 29)).toNat < c.lo.toNat then c.hi + 1 else c.hi) +
      BitVec.ofNat 32 (d.length / 2 ^ 29)).toNat = (m ++ d).length / 2 ^ 29 % 2 ^ 32 := by
    rw [hlo, h.lo, List.length_append]
    exact md5_hi m.length d.length c.hi h.hi
  have hused : c.lo.toNat % 64 = m.length % 64 := by rw [h.lo]; omega
  have htl : (m ++ d).length = m.length + d.length := List.length_append
  have hk : 64 * (m.length / 64) ≤ m.length := by omega
  have hwt : c.w.rfc = rfcBlocks (m ++ d) (m.length / 64) := by rw [rfcBlocks_append _ _ _ hk]; exact h.w
  have htaill : (m.drop (64 * (m.length / 64))).length = m.length % 64 := by rw [List.length_drop]; omega
  unfold md5Update
  dsimp only
  rw [hused]
  by_cases hu : m.length % 64 ≠ 0
  · rw [if_pos hu]
    by_cases hd : d.length < 64 - m.length % 64
    · rw [if_pos hd]
      obtain ⟨b', hc, hbl, hbt⟩ := copyAt_spec c.buffer d (m.length % 64) (by have := h.buf; omega)
      rw [hc]
      refine ⟨_, rfl, by rw [← h.buf]; exact hbl, hlo, hhi, ?_, ?_⟩
      · rw [show (m ++ d).length / 64 = m.length / 64 by omega]
        exact hwt
      · rw [show (m ++ d).length / 64 = m.length / 64 by omega, show (m ++ d).length % 64 = m.length % 64 + d.length by omega]
        rw [List.drop_append_of_le_length (by omega), ← h.tail]
        exact hbt
    · rw [if_neg hd]
      have hfl : (d.take (64 - m.length % 64)).length = 64 - m.length % 64 := by rw [List.length_take]; omega
      obtain ⟨b', hc, hbl, hbt⟩ := copyAt_spec c.buffer (d.take (64 - m.length % 64)) (m.length % 64)
        (by have := h.buf; omega)
      rw [hc]
      dsimp only [bind, Option.bind]
      have hb64 : b'.length = 64 := by rw [hbl]; exact h.buf
      have hb : b'.take (64 * 1) = ((m ++ d).drop (64 * (m.length / 64))).take (64 * 1) := by
        rw [hfl, show m.length % 64 + (64 - m.length % 64) = 64 by omega, h.tail] at hbt
        rw [Nat.mul_one, hbt, List.drop_append_of_le_length (by omega), List.take_append, htaill,
          List.take_of_length_le (show (m.drop (64 * (m.length / 64))).length ≤ 64 by omega)]
      obtain ⟨w', he, hr⟩ := md5Body_rfc (m ++ d) 1 b' c.w (m.length / 64) (by omega) hb hwt
      rw [he]
      dsimp only
      have hdrop : d.drop (64 - m.length % 64) = (m ++ d).drop (64 * (m.length / 64 + 1)) := by
        rw [List.drop_append, List.drop_eq_nil_of_le (show m.length ≤ 64 * (m.length / 64 + 1) by omega), List.nil_append,
          show 64 * (m.length / 64 + 1) - m.length = 64 - m.length % 64 by omega]
      rw [hdrop]
      obtain ⟨c', hc', h1, h2, h3, h4, h5⟩ := md5Bulk_spec
        { c with
          lo := BitVec.ofNat 32 ((c.lo.toNat + d.length) % 2 ^ 29)
          hi := (if (BitVec.ofNat 32 ((c.lo.toNat + d.length) % 2 ^ 29)).toNat < c.lo.toNat then c.hi + 1 else c.hi) +
            BitVec.ofNat 32 (d.length / 2 ^ 29)
          buffer := b'
          w := w' } (m ++ d) (m.length / 64 + 1) (by omega) hb64 hr
      exact ⟨c', hc', h3, by rw [h1]; exact hlo, by rw [h2]; exact hhi, h4, h5⟩
  · rw [if_neg hu]
    have hdrop : d = (m ++ d).drop (64 * (m.length / 64)) := by
      rw [show 64 * (m.length / 64) = m.length by omega, List.drop_left]
    obtain ⟨c', hc', h1, h2, h3, h4, h5⟩ := md5Bulk_spec
        { c with
          lo := BitVec.ofNat 32 ((c.lo.toNat + d.length) % 2 ^ 29)
          hi := (if (BitVec.ofNat 32 ((c.lo.toNat + d.length) % 2 ^ 29)).toNat < c.lo.toNat then c.hi + 1 else c.hi) +
            BitVec.ofNat 32 (d.length / 2 ^ 29) } (m ++ d) (m.length / 64) (by omega) h.buf hwt
    rw [← hdrop] at hc'
    exact ⟨c', hc', h3, by rw [h1]; exact hlo, by rw [h2]; exact hhi, h4, h5⟩

theorem md5Updates_inv (reads : List Bytes) : ∀ (c : Md5Ctx) (m : Bytes), Md5Inv c m →
    ∃ c', reads.foldlM md5Update c = some c' ∧ Md5Inv c' (m ++ reads.flatten) := by
  induction reads with
  | nil => intro c m h; exact ⟨c, rfl, by rw [List.flatten_nil, List.append_nil]; exact h⟩
  | cons d ds ih =>
    intro c m h
    obtain ⟨c1, h1, hi1⟩ := md5Update_inv c m d h
    obtain ⟨c2, h2, hi2⟩ := ih c1 (m ++ d) hi1
    refine ⟨c2, ?_, ?_⟩
    · rw [List.foldlM_cons, h1]
      exact h2
    · rw [List.flatten_cons, ← List.append_assoc]
      exact hi2

theorem md5Bytes_le (x : BitVec 32) : md5Bytes x = leBytes 4 x.toNat := by
  simp only [md5Bytes, leBytes, List.cons.injEq, ← BitVec.toNat_inj, BitVec.toNat_setWidth, BitVec.toNat_ushiftRight,
    BitVec.toNat_ofNat, Nat.shiftRight_eq_div_pow, and_true]
  refine ⟨trivial, trivial, ?_, ?_⟩ <;> omega

theorem le8_split (v : Nat) : leBytes 8 v = leBytes 4 (v % 2 ^ 32) ++ leBytes 4 (v / 2 ^ 32) := by
  simp only [leBytes, List.cons_append, List.nil_append, List.cons.injEq, ← BitVec.toNat_inj, BitVec.toNat_ofNat, and_true]
  refine ⟨?_, ?_, ?_, ?_, ?_, ?_, ?_, ?_⟩ <;> omega

theorem md5_length (n : Nat) (lo hi : BitVec 32) (hl : lo.toNat = n % 2 ^ 29) (hh : hi.toNat = n / 2 ^ 29 % 2 ^ 32) :
    md5Bytes (lo <<< 3) ++ md5Bytes hi = leBytes 8 (8 * n % 2 ^ 64) := by
  rw [md5Bytes_le, md5Bytes_le, le8_split]
  have e1 : (lo <<< 3).toNat = 8 * n % 2 ^ 64 % 2 ^ 32 := by
    rw [BitVec.toNat_shiftLeft, hl, Nat.shiftLeft_eq]
    omega
  have e2 : hi.toNat = 8 * n % 2 ^ 64 / 2 ^ 32 := by
    rw [hh]
    omega
  rw [e1, e2]

theorem md5Final_inv (c : Md5Ctx) (m : Bytes) (h : Md5Inv c m) : md5Final c = some (md5Digest m) := by
  have hused : c.lo.toNat % 64 = m.length % 64 := by rw [h.lo]; omega
  have hk : 64 * (m.length / 64) ≤ m.length := by omega
  have htl : (m.drop (64 * (m.length / 64))).length = m.length % 64 := by rw [List.length_drop]; omega
  have hlen8 := md5_length m.length c.lo c.hi h.lo h.hi
  have hl8 : (md5Bytes (c.lo <<< 3) ++ md5Bytes c.hi).length = 8 := rfl
  have hpad : (md5Pad m).drop (64 * (m.length / 64)) = m.drop (64 * (m.length / 64)) ++ ([0x80#8] ++
      List.replicate ((64 - (m.length + 9) % 64) % 64) 0#8 ++ leBytes 8 (8 * m.length % 2 ^ 64)) := by
    unfold md5Pad
    rw [List.append_assoc, List.append_assoc, List.drop_append_of_le_length hk, List.append_assoc]
  have hplen : (md5Pad m).length = m.length + 1 + (64 - (m.length + 9) % 64) % 64 + 8 := by
    unfold md5Pad
    simp only [List.length_append, List.length_replicate, leBytes_length, List.length_cons, List.length_nil]
  have hwt : c.w.rfc = rfcBlocks (md5Pad m) (m.length / 64) := by
    unfold md5Pad
    rw [List.append_assoc, List.append_assoc, rfcBlocks_append _ _ _ hk]
    exact h.w
  have hb := h.buf
  unfold md5Final md5Digest
  dsimp only [bind, Option.bind]
  rw [hused]
  obtain ⟨b1, hc1, hl1, ht1⟩ := copyAt_spec c.buffer [0x80#8] (m.length % 64) (by rw [List.length_singleton]; omega)
  rw [hc1]
  rw [h.tail, List.length_singleton] at ht1
  dsimp only [bind, Option.bind]
  by_cases hf : 64 - (m.length % 64 + 1) < 8
  · rw [if_pos hf]
    obtain ⟨b2, hc2, hl2, ht2⟩ := copyAt_spec b1 (List.replicate (64 - (m.length % 64 + 1)) 0#8) (m.length % 64 + 1)
      (by rw [List.length_replicate]; omega)
    rw [hc2]
    rw [List.length_replicate, ht1] at ht2
    dsimp only
    have hz : (64 - (m.length + 9) % 64) % 64 = (64 - (m.length % 64 + 1)) + 56 := by omega
    have hblock1 : b2.take (64 * 1) = ((md5Pad m).drop (64 * (m.length / 64))).take (64 * 1) := by
      rw [Nat.mul_one, hpad, hz, ← List.replicate_append_replicate]
      rw [show m.length % 64 + 1 + (64 - (m.length % 64 + 1)) = 64 by omega] at ht2
      rw [ht2]
      simp only [← List.append_assoc]
      rw [List.take_append_of_le_length, List.take_append_of_le_length, List.take_of_length_le]
      all_goals
        simp only [List.length_append, List.length_replicate, List.length_singleton, htl]
        omega
    obtain ⟨w1, he1, hr1⟩ := md5Body_rfc (md5Pad m) 1 b2 c.w (m.length / 64) (by omega) hblock1 hwt
    rw [he1]
    dsimp only
    obtain ⟨b3, hc3, hl3, ht3⟩ := copyAt_spec b2 (List.replicate (64 - 8) 0#8) 0 (by rw [List.length_replicate]; omega)
    rw [hc3]
    rw [List.length_replicate, List.take_zero, List.nil_append] at ht3
    dsimp only
    obtain ⟨b4, hc4, hl4, ht4⟩ := copyAt_spec b3 (md5Bytes (c.lo <<< 3) ++ md5Bytes c.hi) 56 (by omega)
    rw [hc4]
    rw [hl8, show b3.take 56 = List.replicate 56 0#8 from ht3, hlen8] at ht4
    dsimp only
    have hblock2 : b4.take (64 * 1) = ((md5Pad m).drop (64 * (m.length / 64 + 1))).take (64 * 1) := by
      rw [show 64 * (m.length / 64 + 1) = 64 * (m.length / 64) + 64 by omega, ← List.drop_drop, hpad, hz, ← List.replicate_append_replicate]
      rw [Nat.mul_one]
      rw [show (56 + 8 : Nat) = 64 from rfl] at ht4
      rw [ht4]
      simp only [← List.append_assoc]
      rw [List.append_assoc _ (List.replicate 56 0#8), List.drop_append, List.drop_eq_nil_of_le, List.nil_append]
      · rw [show 64 - (m.drop (64 * (m.length / 64)) ++ [0x80#8] ++
          List.replicate (64 - (m.length % 64 + 1)) 0#8).length = 0 from ?_, List.drop_zero, List.take_of_length_le]
        · rw [List.length_append, List.length_replicate, leBytes_length]; omega
        · simp only [List.length_append, List.length_replicate, List.length_singleton, htl]; omega
      · simp only [List.length_append, List.length_replicate, List.length_singleton, htl]; omega
    obtain ⟨w2, he2, hr2⟩ := md5Body_rfc (md5Pad m) 1 b4 w1 (m.length / 64 + 1) (by omega) hblock2 hr1
    rw [he2]
    dsimp only
    rw [show (md5Pad m).length / 64 = m.length / 64 + 1 + 1 by omega, ← hr2]
    simp only [md5Bytes_le, Md5Words.rfc]
  · rw [if_neg hf]
    have hz : (64 - (m.length + 9) % 64) % 64 = 64 - (m.length % 64 + 1) - 8 := by omega
    obtain ⟨b3, hc3, hl3, ht3⟩ := copyAt_spec b1 (List.replicate (64 - (m.length % 64 + 1) - 8) 0#8) (m.length % 64 + 1)
      (by rw [List.length_replicate]; omega)
    rw [hc3]
    rw [List.length_replicate, ht1, show m.length % 64 + 1 + (64 - (m.length % 64 + 1) - 8) = 56 by omega] at ht3
    dsimp only
    obtain ⟨b4, hc4, hl4, ht4⟩ := copyAt_spec b3 (md5Bytes (c.lo <<< 3) ++ md5Bytes c.hi) 56 (by omega)
    rw [hc4]
    rw [hl8, ht3, hlen8] at ht4
    dsimp only
    have hblock : b4.take (64 * 1) = ((md5Pad m).drop (64 * (m.length / 64))).take (64 * 1) := by
      rw [Nat.mul_one, hpad, hz]
      rw [show (56 + 8 : Nat) = 64 from rfl] at ht4
      rw [ht4, List.take_of_length_le]
      · simp only [List.append_assoc]
      · simp only [List.length_append, List.length_replicate, List.length_singleton, htl, leBytes_length]
        omega
    obtain ⟨w2, he2, hr2⟩ := md5Body_rfc (md5Pad m) 1 b4 c.w (m.length / 64) (by omega) hblock hwt
    rw [he2]
    dsimp only
    rw [show (md5Pad m).length / 64 = m.length / 64 + 1 by omega, ← hr2]
    simp only [md5Bytes_le, Md5Words.rfc]

end Mdf
