import Verif.Spec.Mdf3Meta
import Verif.Proof.Session3
import Verif.Proof.Meta
import Verif.Proof.Text

/-! What the MDF 3 block classes read of what they wrote. -/

set_option linter.unusedSimpArgs false

namespace Mdf

theorem str_bind {β : Type} (n : Nat) (x t : Bytes) (f : Bytes → Get β) :
    (getStr n >>= f) (writeStr x n ++ t) = f (shown n x) t := by
  rw [bind_eq]
  show f (trim (readStrLoop n (writeStr x n ++ t) []).1) (readStrLoop n (writeStr x n ++ t) []).2 = _
  rw [readStrLoop_write]
  rfl

theorem bool_bind {β : Type} (b : Bool) (t : Bytes) (f : Bool → Get β) : (getBool >>= f) (putBool b ++ t) = f b t := by
  rw [bind_eq]
  have h : getBool (putBool b ++ t) = some (b, t) := by
    unfold getBool putBool
    rw [num2_bind]
    cases b <;> rfl
  rw [h]
  rfl

theorem hd3_read (v : Hd3Vals) (t : Bytes) : Hd3Vals.read 208 (v.write ++ t) = some (v.seen, t) := by
  simp only [Hd3Vals.read, hd3Steps, stepsWhile, Hd3Vals.write, List.append_assoc, Nat.reduceAdd, Nat.reduceLT, if_true]
  simp only [bind_assoc, pure_bind, num2_bind, num8_bind, str_bind]
  rfl

theorem dg3_read (v : Dg3Vals) (t : Bytes) : Dg3Vals.read (v.write ++ t) = some (v, putZeros 4 ++ t) := by
  simp only [Dg3Vals.read, Dg3Vals.write, List.append_assoc, num2_bind]
  rfl

theorem cg3_read (v : Cg3Vals) (t : Bytes) : Cg3Vals.read 30 (v.write ++ t) = some ((v, []), putZeros 4 ++ t) := by
  simp only [Cg3Vals.read, Cg3Vals.write, List.append_assoc, num2_bind, num4_bind, Nat.reduceAdd, Nat.reduceLT, if_false]
  rfl

/-! ### CN -/

theorem leBytes4_mod (n : Nat) : leBytes 4 (n % 2 ^ 32) = leBytes 4 n := by
  have h : leNat (leBytes 4 n) = n % 2 ^ 32 := by rw [leNat_leBytes]
  rw [← h]
  have := leBytes_leNat (leBytes 4 n)
  rwa [leBytes_length] at this

theorem link4_bind {β : Type} (a : Nat) (t : Bytes) (f : BitVec 32 → Get β) :
    (getNum 4 >>= f) (leBytes 4 a ++ t) = f (BitVec.ofNat 32 a) t := by
  have h : leBytes 4 a = putNum (n := 4) (BitVec.ofNat 32 a) := by
    unfold putNum
    rw [BitVec.toNat_ofNat]
    exact (leBytes4_mod a).symm
  rw [h]
  exact num4_bind _ t f

/-- The values of a channel before the links behind them. -/
def Cn3Vals.front (v : Cn3Vals) : Bytes :=
  putNum (n := 2) v.type ++ (writeStr v.short 32 ++ (writeStr v.desc 128 ++ (putNum (n := 2) v.start ++ (putNum (n := 2) v.bits ++
    (putNum (n := 2) v.signal ++ (putBool v.rangeValid ++ (putNum (n := 8) v.min ++ (putNum (n := 8) v.max ++ putNum (n := 8) v.rate))))))))

theorem putNum_length {n : Nat} (x : BitVec (8 * n)) : (putNum x).length = n := leBytes_length n _

theorem cn3_front (v : Cn3Vals) : v.write = v.front ++ putNum (n := 2) v.byte := by
  simp only [Cn3Vals.write, Cn3Vals.front, List.append_assoc]

theorem cn3_front_length (v : Cn3Vals) : v.front.length = 194 := by
  simp only [Cn3Vals.front, List.length_append, putNum_length, writeStr_length, putBool]

theorem cn3_read (v : Cn3Vals) (a b : Nat) (t : Bytes) :
    Cn3Vals.read 228 (v.front ++ (leBytes 4 a ++ (leBytes 4 b ++ (putNum (n := 2) v.byte ++ t)))) =
      some ((v.seen, [a % 2 ^ 32, b % 2 ^ 32]), t) := by
  simp only [Cn3Vals.read, Cn3Vals.front, List.append_assoc, cn3Steps, stepsWhile, Nat.reduceAdd, Nat.reduceLT, if_true]
  simp only [bind_assoc, pure_bind, num2_bind, num8_bind, str_bind, bool_bind, link4_bind, BitVec.toNat_ofNat]
  rfl

/-! ### CC -/

theorem putParams3_eq (xs pad : List (BitVec 64)) : putParams3 xs pad = putNums (n := 8) (mixed3 xs pad) := by
  induction xs generalizing pad with
  | nil => rfl
  | cons x xs ih => simp only [putParams3, mixed3, putNums, ih]

theorem mixed3_length (xs pad : List (BitVec 64)) : (mixed3 xs pad).length = 2 * xs.length := by
  induction xs generalizing pad with
  | nil => rfl
  | cons x xs ih => simp only [mixed3, List.length_cons, ih]; omega

theorem getNums_some {n : Nat} (xs : List (BitVec (8 * n))) (k : Nat) (t : Bytes) (h : k ≤ xs.length) :
    getNums n k (putNums xs ++ t) = some (xs.take k, putNums (xs.drop k) ++ t) := by
  induction k generalizing xs with
  | zero => rfl
  | succ k ih =>
    cases xs with
    | nil => simp at h
    | cons x xs =>
      simp only [getNums, putNums, List.append_assoc]
      rw [num_bind, bind_eq, ih xs (by simpa using h)]
      rfl

theorem getTexts3_put (ts : List (BitVec 64 × Bytes)) (t : Bytes) :
    getTexts3 ts.length (putTexts3 ts ++ t) = some (ts.map (fun t => (t.1, shown 32 t.2)), t) := by
  induction ts with
  | nil => rfl
  | cons x ts ih =>
    simp only [List.length_cons, getTexts3, putTexts3, List.append_assoc]
    rw [num8_bind, str_bind, bind_eq, ih]
    rfl

theorem ccSingle3_not {t : BitVec 16} (h : ccSingle3 t = true) : t ≠ 10 ∧ t ≠ 11 ∧ ccPair3 t = false := by
  simp only [ccSingle3, Bool.or_eq_true, beq_iff_eq] at h
  rcases h with (((h | h) | h) | h) | h <;> subst h <;> decide

theorem ccPair3_not {t : BitVec 16} (h : ccPair3 t = true) : t ≠ 10 ∧ t ≠ 11 := by
  simp only [ccPair3, Bool.or_eq_true, beq_iff_eq] at h
  rcases h with h | h <;> subst h <;> decide

/-- What is left of the block. -/
def Cc3Vals.left (pad : List (BitVec 64)) (v : Cc3Vals) : Bytes :=
  if ccSingle3 v.type then putNums (n := 8) ((mixed3 v.params pad).drop v.params.length)
  else if ccPair3 v.type then putNums (n := 8) ((mixed3 v.params pad).drop (2 * (v.params.length / 2)))
  else []

theorem ofNat16 {n : Nat} (h : n < 2 ^ 16) : (BitVec.ofNat 16 n).toNat = n := by
  rw [BitVec.toNat_ofNat, Nat.mod_eq_of_lt h]

theorem cc3_conv (pad : List (BitVec 64)) (v : Cc3Vals) (h : (Val3.cc v).Fits) (t : Bytes) :
    ((getNum 2 >>= fun n => Cc3Vals.readConv { rangeValid := v.rangeValid, min := v.min, max := v.max, unit := shown 20 v.unit, type := v.type } n.toNat) :
      Get Cc3Vals) (v.writeConv pad ++ t) = some (v.seen pad, v.left pad ++ t) := by
  obtain ⟨hp, ht, hf⟩ := h
  unfold Cc3Vals.writeConv Cc3Vals.seen Cc3Vals.left Cc3Vals.readConv
  by_cases h1 : ccSingle3 v.type = true
  · obtain ⟨h10, h11, _⟩ := ccSingle3_not h1
    simp only [if_pos h1, List.append_assoc, num2_bind, if_neg h10, if_neg h11]
    rw [bind_eq, ofNat16 (by omega), putParams3_eq, getNums_some (n := 8) _ _ _ (by rw [mixed3_length]; omega)]
    rfl
  · by_cases h2 : ccPair3 v.type = true
    · obtain ⟨h10, h11⟩ := ccPair3_not h2
      simp only [if_neg h1, if_pos h2, List.append_assoc, num2_bind, if_neg h10, if_neg h11]
      rw [bind_eq, ofNat16 (by omega), putParams3_eq, getNums_some (n := 8) _ _ _ (by rw [mixed3_length]; omega)]
      rfl
    · by_cases h3 : v.type = 10
      · have h11 : v.type ≠ 11 := by rw [h3]; decide
        simp only [if_neg h1, if_neg h2, if_pos h3, if_neg h11, List.append_assoc, num2_bind]
        rw [ofNat16 hf, str_bind]
        rfl
      · by_cases h4 : v.type = 11
        · simp only [if_neg h1, if_neg h2, if_neg h3, if_pos h4, List.append_assoc, num2_bind]
          rw [bind_eq, ofNat16 (by omega), getTexts3_put]
          rfl
        · simp only [if_neg h1, if_neg h2, if_neg h3, if_neg h4, num2_bind]
          rfl

theorem cc3_read (pad : List (BitVec 64)) (v : Cc3Vals) (h : (Val3.cc v).Fits) (size : Nat) (hs : 44 < size) (t : Bytes) :
    Cc3Vals.read size (v.write pad ++ t) = some (v.seen pad, v.left pad ++ t) := by
  simp only [Cc3Vals.read, Cc3Vals.write, List.append_assoc, bool_bind, num8_bind, str_bind, num2_bind, if_pos hs]
  exact cc3_conv pad v h t

theorem putParams3_length (xs pad : List (BitVec 64)) : (putParams3 xs pad).length = 16 * xs.length := by
  induction xs generalizing pad with
  | nil => rfl
  | cons x xs ih => simp only [putParams3, List.length_append, List.length_cons, ih, putNum_length]; omega

theorem putTexts3_length (ts : List (BitVec 64 × Bytes)) : (putTexts3 ts).length = 40 * ts.length := by
  induction ts with
  | nil => rfl
  | cons x xs ih => simp only [putTexts3, List.length_append, List.length_cons, ih, putNum_length, writeStr_length]; omega

theorem cc3_length (pad : List (BitVec 64)) (v : Cc3Vals) : (v.write pad).length = 40 + (v.writeConv pad).length := by
  simp only [Cc3Vals.write, List.length_append, putNum_length, writeStr_length, putBool]
  omega

/-- The size that the block of a conversion tells. -/
theorem cc3_size (pad : List (BitVec 64)) (v : Cc3Vals) (h : (Val3.cc v).Fits) :
    44 < (if v.type = 10 then 46 else 4 + (v.write pad).length) % 2 ^ 16 := by
  obtain ⟨hp, ht, hf⟩ := h
  by_cases h3 : v.type = 10
  · rw [if_pos h3]; decide
  · rw [if_neg h3, cc3_length]
    unfold Cc3Vals.writeConv
    rw [if_neg h3]
    have hl : ∀ c : Bool, ∀ a b : Bytes, (if c = true then a else b).length = if c = true then a.length else b.length := by
      intro c a b; cases c <;> rfl
    have hl' : ∀ a b : Bytes, (if v.type = 11 then a else b).length = if v.type = 11 then a.length else b.length := by
      intro a b; split <;> rfl
    simp only [hl, hl', List.length_append, putNum_length, putParams3_length, putTexts3_length]
    split
    · rw [Nat.mod_eq_of_lt (by omega)]; omega
    · split
      · rw [Nat.mod_eq_of_lt (by omega)]; omega
      · split <;> (rw [Nat.mod_eq_of_lt (by omega)]; omega)

/-! ### TX -/

theorem readStrLoop_zero (s rest acc : Bytes) (k : Nat) :
    (readStrLoop k (s ++ 0#8 :: rest) acc).1 = acc ++ (s.take k).takeWhile (· ≠ 0#8) := by
  induction k generalizing s acc with
  | zero => simp [readStrLoop]
  | succ k ih =>
    cases s with
    | nil => simp [readStrLoop]
    | cons c s =>
      simp only [List.cons_append, readStrLoop]
      by_cases hc : c = 0#8
      · rw [if_pos hc]; simp [hc]
      · rw [if_neg hc, ih]; simp [hc]

theorem trim3_trim (s : Bytes) : trim (trim s) = trim s := trim_id (trim_head s) (trim_last s)

theorem tx3_read (s t : Bytes) (hs : s.length < 2 ^ 32) :
    (getTx3 ((4 + (s.length + 1)) % 2 ^ 16) ((s ++ [0#8]) ++ t)).map (fun r => (Val3.tx r.1, ([] : List Nat))) =
      some (.tx (shown (txKept s.length) s), []) := by
  unfold getTx3
  rw [bind_eq]
  show some (Val3.tx (trim (trim (readStrLoop _ ((s ++ [0#8]) ++ t) []).1)), []) = _
  rw [trim3_trim, List.append_assoc, List.singleton_append, readStrLoop_zero, List.nil_append]
  unfold shown txKept
  congr 5
  have e : 4 + (s.length + 1) = s.length + 5 := by omega
  rw [e]
  split
  · rename_i h
    rw [List.take_of_length_le (by omega), List.take_of_length_le (Nat.le_refl _)]
  · congr 1
    omega

/-! ### All classes -/

theorem hd3_length (v : Hd3Vals) : v.write.length = 192 := by
  simp only [Hd3Vals.write, List.length_append, putNum_length, writeStr_length]

theorem dg3_length (v : Dg3Vals) : v.write.length = 8 := by
  simp only [Dg3Vals.write, List.length_append, putNum_length, putZeros, List.length_replicate]

theorem cg3_length (v : Cg3Vals) : v.write.length = 14 := by
  simp only [Cg3Vals.write, List.length_append, putNum_length, putZeros, List.length_replicate]

theorem no_tail {tail : List Nat} {n : Nat} (h : tail.length = n - n) : tail = [] := by
  rw [Nat.sub_self] at h
  exact List.length_eq_zero_iff.mp h

theorem typeOk3_of {a b : Byte} (h : (0x41 ≤ a.toNat ∧ a.toNat ≤ 0x5A) ∧ 0x41 ≤ b.toNat ∧ b.toNat ≤ 0x5A) : TypeOk3 [a, b] := by
  refine ⟨rfl, fun c hc => ?_⟩
  simp only [List.mem_cons, List.not_mem_nil, or_false] at hc
  rcases hc with rfl | rfl
  · exact h.1
  · exact h.2

theorem no_cut (body rest : Bytes) : body.take 0 ++ links4 [] ++ body.drop 0 ++ rest = body ++ rest := by
  simp [links4]

theorem getVal3_hd (size : Nat) (s : Bytes) : getVal3 kHd3 size s = (Hd3Vals.read size s).map fun r => (.hd r.1, []) := by
  unfold getVal3; rw [if_pos rfl]
theorem getVal3_dg (size : Nat) (s : Bytes) : getVal3 kDg3 size s = (Dg3Vals.read s).map fun r => (.dg r.1, []) := by
  unfold getVal3; rw [if_neg (by decide), if_pos rfl]
theorem getVal3_cg (size : Nat) (s : Bytes) : getVal3 kCg3 size s = (Cg3Vals.read size s).map fun r => (.cg r.1.1, r.1.2) := by
  unfold getVal3; rw [if_neg (by decide), if_neg (by decide), if_pos rfl]
theorem getVal3_cn (size : Nat) (s : Bytes) : getVal3 kCn3 size s = (Cn3Vals.read size s).map fun r => (.cn r.1.1, r.1.2) := by
  unfold getVal3; rw [if_neg (by decide), if_neg (by decide), if_neg (by decide), if_pos rfl]
theorem getVal3_cc (size : Nat) (s : Bytes) : getVal3 kCc3 size s = (Cc3Vals.read size s).map fun r => (.cc r.1, []) := by
  unfold getVal3; rw [if_neg (by decide), if_neg (by decide), if_neg (by decide), if_neg (by decide), if_pos rfl]
theorem getVal3_tx (size : Nat) (s : Bytes) : getVal3 kTx3 size s = (getTx3 size s).map fun r => (.tx r.1, []) := by
  unfold getVal3
  rw [if_neg (by decide), if_neg (by decide), if_neg (by decide), if_neg (by decide), if_neg (by decide)]

theorem hd3_reads (pad : List (BitVec 64)) (v : Hd3Vals) :
    Reads3 getVal3 heads3 (Val3.hd v).info ((Val3.hd v).write pad) ((Val3.hd v).seen pad) := by
  refine ⟨rfl, typeOk3_of (by decide), fun tail rest ht => ?_⟩
  obtain rfl := no_tail ht
  show getVal3 kHd3 ((16 + v.write.length) % 2 ^ 16) (v.write.take 0 ++ links4 [] ++ v.write.drop 0 ++ rest) = _
  rw [no_cut, hd3_length, getVal3_hd, hd3_read]
  rfl

theorem dg3_reads (pad : List (BitVec 64)) (v : Dg3Vals) :
    Reads3 getVal3 heads3 (Val3.dg v).info ((Val3.dg v).write pad) ((Val3.dg v).seen pad) := by
  refine ⟨rfl, typeOk3_of (by decide), fun tail rest ht => ?_⟩
  obtain rfl := no_tail ht
  show getVal3 kDg3 (28 % 2 ^ 16) (v.write.take 0 ++ links4 [] ++ v.write.drop 0 ++ rest) = _
  rw [no_cut, getVal3_dg, dg3_read]
  rfl

theorem cg3_reads (pad : List (BitVec 64)) (v : Cg3Vals) :
    Reads3 getVal3 heads3 (Val3.cg v).info ((Val3.cg v).write pad) ((Val3.cg v).seen pad) := by
  refine ⟨rfl, typeOk3_of (by decide), fun tail rest ht => ?_⟩
  obtain rfl := no_tail ht
  show getVal3 kCg3 (30 % 2 ^ 16) (v.write.take 0 ++ links4 [] ++ v.write.drop 0 ++ rest) = _
  rw [no_cut, getVal3_cg, show 30 % 2 ^ 16 = 30 from rfl, cg3_read]
  rfl

theorem cn3_reads (pad : List (BitVec 64)) (v : Cn3Vals) :
    Reads3 getVal3 heads3 (Val3.cn v).info ((Val3.cn v).write pad) ((Val3.cn v).seen pad) := by
  refine ⟨rfl, typeOk3_of (by decide), fun tail rest ht => ?_⟩
  obtain ⟨a, b, rfl⟩ : ∃ a b, tail = [a, b] := by
    have ht : tail.length = 2 := ht
    match tail, ht with
    | [a, b], _ => exact ⟨a, b, rfl⟩
  show getVal3 kCn3 (228 % 2 ^ 16) (v.write.take 194 ++ links4 [a, b] ++ v.write.drop 194 ++ rest) = _
  rw [cn3_front, List.take_left' (cn3_front_length v), List.drop_left' (cn3_front_length v)]
  have e : v.front ++ links4 [a, b] ++ putNum (n := 2) v.byte ++ rest =
      v.front ++ (leBytes 4 a ++ (leBytes 4 b ++ (putNum (n := 2) v.byte ++ rest))) := by
    simp only [links4, List.append_nil, List.append_assoc]
  rw [e, getVal3_cn, show 228 % 2 ^ 16 = 228 from rfl, cn3_read]
  rfl

theorem cc3_reads (pad : List (BitVec 64)) (v : Cc3Vals) (h : (Val3.cc v).Fits) :
    Reads3 getVal3 heads3 (Val3.cc v).info ((Val3.cc v).write pad) ((Val3.cc v).seen pad) := by
  refine ⟨rfl, typeOk3_of (by decide), fun tail rest ht => ?_⟩
  obtain rfl := no_tail ht
  show getVal3 kCc3 ((if v.type = 10 then 46 else 4 + (v.write pad).length) % 2 ^ 16)
    ((v.write pad).take 0 ++ links4 [] ++ (v.write pad).drop 0 ++ rest) = _
  rw [no_cut, getVal3_cc, cc3_read pad v h _ (cc3_size pad v h)]
  rfl

theorem tx3_reads (pad : List (BitVec 64)) (s : Bytes) (h : s.length < 2 ^ 32) :
    Reads3 getVal3 heads3 (Val3.tx s).info ((Val3.tx s).write pad) ((Val3.tx s).seen pad) := by
  refine ⟨rfl, typeOk3_of (by decide), fun tail rest ht => ?_⟩
  obtain rfl := no_tail ht
  show getVal3 kTx3 ((4 + (s ++ [0#8]).length) % 2 ^ 16) ((s ++ [0#8]).take 0 ++ links4 [] ++ (s ++ [0#8]).drop 0 ++ rest) = _
  rw [no_cut, getVal3_tx, show (s ++ [0#8]).length = s.length + 1 by rw [List.length_append]; rfl, tx3_read s rest h]
  rfl

/-- Each class reads of its block what is to be seen. -/
theorem val3_reads (pad : List (BitVec 64)) (v : Val3) (h : v.Fits) : Reads3 getVal3 heads3 v.info (v.write pad) (v.seen pad) :=
  match v, h with
  | .hd v, _ => hd3_reads pad v
  | .dg v, _ => dg3_reads pad v
  | .cg v, _ => cg3_reads pad v
  | .cn v, _ => cn3_reads pad v
  | .cc v, h => cc3_reads pad v h
  | .tx s, h => tx3_reads pad s h

theorem shown_fits {n : Nat} {s : Bytes} (h : TextFits n s) : shown n s = s := by
  unfold shown
  rw [List.take_of_length_le h.size, takeWhile_all h.zero, trim_id h.head h.last]

theorem val3_clean (pad : List (BitVec 64)) (v : Val3) (h : v.Clean) : v.seen pad = v := by
  cases v with
  | hd v =>
    obtain ⟨h1, h2, h3, h4, h5, h6, h7⟩ := h
    simp only [Val3.seen, Hd3Vals.seen, shown_fits h1, shown_fits h2, shown_fits h3, shown_fits h4, shown_fits h5, shown_fits h6,
      shown_fits h7]
  | dg v => rfl
  | cg v => rfl
  | cn v =>
    obtain ⟨h1, h2⟩ := h
    simp only [Val3.seen, Cn3Vals.seen, shown_fits h1, shown_fits h2]
  | cc v =>
    obtain ⟨h1, h2, h3, h4⟩ := h
    simp only [Val3.seen, Cc3Vals.seen, shown_fits h1, h2, mixed3, List.take_nil, ite_self]
    have e3 : (if v.type = 10 then shown v.formula.length v.formula else []) = v.formula := by
      split
      · rename_i h; rw [if_pos h] at h3; exact shown_fits h3
      · rename_i h; rw [if_neg h] at h3; exact h3.symm
    have e4 : (if v.type = 11 then v.texts.map (fun t => (t.1, shown 32 t.2)) else []) = v.texts := by
      split
      · rename_i h
        rw [if_pos h] at h4
        conv => rhs; rw [← List.map_id v.texts]
        exact List.map_congr_left fun t ht => by rw [shown_fits (h4 t ht)]; rfl
      · rename_i h; rw [if_neg h] at h4; exact h4.symm
    rw [e3, e4]
    cases v
    simp_all
  | tx s =>
    have h : TextFits 65530 s := h
    have hl := h.size
    have e : txKept s.length = s.length + 1 := by
      unfold txKept
      rw [Nat.mod_eq_of_lt (by omega), if_neg (by omega), Nat.mod_eq_of_lt (by omega)]
    simp only [Val3.seen, e]
    rw [shown_fits { h with size := Nat.le_succ _ }]

end Mdf
