import Verif.Model.MetaApi
import Verif.Proof.TreeRead

/-! Lemmas about the values of blocks. -/

namespace Mdf

/-- Reading gives back what was written, wherever it stands. -/
def Inverse {α : Type} (write : α → Bytes) (get : Get α) (ok : α → Prop) : Prop :=
  ∀ v t, ok v → get (write v ++ t) = some (v, t)

theorem bind_eq {α β : Type} (g : Get α) (f : α → Get β) (s : Bytes) : (g >>= f) s = (g s).bind fun r => f r.1 r.2 := rfl

theorem getNum_put {n : Nat} (x : BitVec (8 * n)) (t : Bytes) : getNum n (putNum x ++ t) = some (x, t) := by
  unfold getNum putNum
  rw [readNumber_append (leBytes_length n _), leNat_leBytes]
  simp only [Option.map_some, Option.some.injEq, Prod.mk.injEq, and_true]
  have h : 256 ^ n = 2 ^ (8 * n) := by rw [show (256 : Nat) = 2 ^ 8 from rfl, ← Nat.pow_mul]
  rw [h, Nat.mod_eq_of_lt x.isLt, BitVec.ofNat_toNat, BitVec.setWidth_eq]

theorem num_bind {β : Type} (n : Nat) (x : BitVec (8 * n)) (t : Bytes) (f : BitVec (8 * n) → Get β) :
    (getNum n >>= f) (putNum x ++ t) = f x t := by
  rw [bind_eq, getNum_put]; rfl

theorem num1_bind {β : Type} (x : BitVec 8) (t : Bytes) (f : BitVec 8 → Get β) :
    (getNum 1 >>= f) (putNum (n := 1) x ++ t) = f x t := num_bind 1 x t f

theorem num2_bind {β : Type} (x : BitVec 16) (t : Bytes) (f : BitVec 16 → Get β) :
    (getNum 2 >>= f) (putNum (n := 2) x ++ t) = f x t := num_bind 2 x t f

theorem num4_bind {β : Type} (x : BitVec 32) (t : Bytes) (f : BitVec 32 → Get β) :
    (getNum 4 >>= f) (putNum (n := 4) x ++ t) = f x t := num_bind 4 x t f

theorem num8_bind {β : Type} (x : BitVec 64) (t : Bytes) (f : BitVec 64 → Get β) :
    (getNum 8 >>= f) (putNum (n := 8) x ++ t) = f x t := num_bind 8 x t f

theorem getBytes_append {n : Nat} {a : Bytes} (h : a.length = n) (t : Bytes) : getBytes n (a ++ t) = some (a, t) := by
  unfold getBytes
  rw [if_neg (by simp only [List.length_append]; omega), List.take_left' h, List.drop_left' h]

theorem bytes_bind {β : Type} {n : Nat} {a : Bytes} (h : a.length = n) (t : Bytes) (f : Bytes → Get β) :
    (getBytes n >>= f) (a ++ t) = f a t := by
  rw [bind_eq, getBytes_append h]; rfl

theorem zeros_bind {β : Type} (n : Nat) (t : Bytes) (f : Bytes → Get β) :
    (getBytes n >>= f) (putZeros n ++ t) = f (putZeros n) t := bytes_bind (by simp [putZeros]) t f

theorem pure_eq {α : Type} (a : α) (t : Bytes) : (pure a : Get α) t = some (a, t) := rfl

theorem getNums_put {n : Nat} (xs : List (BitVec (8 * n))) (t : Bytes) :
    getNums n xs.length (putNums xs ++ t) = some (xs, t) := by
  induction xs with
  | nil => rfl
  | cons x xs ih =>
    simp only [List.length_cons, getNums, putNums, List.append_assoc]
    rw [num_bind, bind_eq, ih]
    rfl

theorem nums_bind {β : Type} {n k : Nat} {xs : List (BitVec (8 * n))} (h : xs.length = k) (t : Bytes)
    (f : List (BitVec (8 * n)) → Get β) : (getNums n k >>= f) (putNums xs ++ t) = f xs t := by
  subst h
  rw [bind_eq, getNums_put]; rfl

theorem nums8_bind {β : Type} {k : Nat} {xs : List (BitVec 64)} (h : xs.length = k) (t : Bytes)
    (f : List (BitVec 64) → Get β) : (getNums 8 k >>= f) (putNums (n := 8) xs ++ t) = f xs t := nums_bind (n := 8) h t f

theorem stamp_inv : Inverse Stamp.write Stamp.read (fun _ => True) := by
  intro v t _
  simp only [Stamp.write, Stamp.read, List.append_assoc, num1_bind, num2_bind, num8_bind]
  rfl

theorem stamp_bind {β : Type} (x : Stamp) (t : Bytes) (f : Stamp → Get β) : (Stamp.read >>= f) (x.write ++ t) = f x t := by
  rw [bind_eq, stamp_inv x t trivial]; rfl

theorem hd_inv : Inverse HdVals.write HdVals.read (fun _ => True) := by
  intro v t _
  simp only [HdVals.write, HdVals.read, List.append_assoc, stamp_bind, num1_bind, zeros_bind, num8_bind]
  rfl

theorem dg_inv : Inverse DgVals.write DgVals.read (fun _ => True) := by
  intro v t _
  simp only [DgVals.write, DgVals.read, List.append_assoc, num1_bind, zeros_bind]
  rfl

theorem cg_inv : Inverse CgVals.write CgVals.read (fun _ => True) := by
  intro v t _
  simp only [CgVals.write, CgVals.read, List.append_assoc, num8_bind, num4_bind, num2_bind, zeros_bind]
  rfl

theorem cn_inv : Inverse CnVals.write CnVals.read (fun _ => True) := by
  intro v t _
  simp only [CnVals.write, CnVals.read, List.append_assoc, num8_bind, num4_bind, num2_bind, num1_bind, zeros_bind]
  rfl

/-- Not an `Inverse`: the reserved bytes are left. -/
theorem fh_read (v : Stamp) (t : Bytes) : fhRead (fhWrite v ++ t) = some (v, putZeros 3 ++ t) := by
  unfold fhRead fhWrite
  rw [List.append_assoc]
  exact stamp_inv v _ trivial

theorem si_inv : Inverse SiVals.write SiVals.read (fun _ => True) := by
  intro v t _
  simp only [SiVals.write, SiVals.read, List.append_assoc, num1_bind, zeros_bind]
  rfl

theorem ev_inv : Inverse EvVals.write EvVals.read (fun _ => True) := by
  intro v t _
  simp only [EvVals.write, EvVals.read, List.append_assoc, num8_bind, num4_bind, num2_bind, num1_bind, zeros_bind]
  rfl

theorem ch_inv : Inverse ChVals.write ChVals.read (fun _ => True) := by
  intro v t _
  simp only [ChVals.write, ChVals.read, List.append_assoc, num4_bind, num1_bind, zeros_bind]
  rfl

theorem hl_inv : Inverse HlVals.write HlVals.read (fun _ => True) := by
  intro v t _
  simp only [HlVals.write, HlVals.read, List.append_assoc, num2_bind, num1_bind, zeros_bind]
  rfl

theorem at_inv : Inverse AtVals.write AtVals.read (fun v => v.md5.length = 16 ∧ v.data.length < 2 ^ 64) := by
  intro v t h
  simp only [AtVals.write, AtVals.read, List.append_assoc, num2_bind, zeros_bind]
  rw [if_pos h.1, bytes_bind h.1]
  simp only [num8_bind]
  rw [bytes_bind (by rw [BitVec.toNat_ofNat, Nat.mod_eq_of_lt h.2])]
  rfl

/-- Without a checksum sixteen zeros are read. -/
theorem at_read_no_md5 (v : AtVals) (t : Bytes) (h : v.md5.length ≠ 16) (hd : v.data.length < 2 ^ 64) :
    AtVals.read (v.write ++ t) = some ({ v with md5 := putZeros 16 }, t) := by
  simp only [AtVals.write, AtVals.read, List.append_assoc, num2_bind, zeros_bind]
  rw [if_neg h]
  simp only [zeros_bind, num8_bind]
  rw [bytes_bind (by rw [BitVec.toNat_ofNat, Nat.mod_eq_of_lt hd])]
  rfl

/-- A parameter as it is read again by a conversion of the type: the same bits. -/
def ccRetype (type : BitVec 8) (p : Param) : Param := if type = ccBitfield then .uint p.bits else .dbl p.bits

/-- What is read of any conversion. -/
theorem cc_read (v : CcVals) (t : Bytes) :
    CcVals.read (v.write ++ t) =
      some ({ v with params := (v.params.take (v.params.length % 2 ^ 16)).map (ccRetype v.type) }, t) := by
  simp only [CcVals.write, CcVals.read, List.append_assoc, num2_bind, num1_bind, num8_bind]
  rw [nums8_bind (by
    rw [List.length_map, List.length_take, BitVec.toNat_ofNat]
    exact Nat.min_eq_left (Nat.mod_le _ _))]
  rw [pure_eq, List.map_map]
  simp only [Option.some.injEq, Prod.mk.injEq, and_true, CcVals.mk.injEq, true_and]
  refine List.map_congr_left fun p _ => ?_
  simp only [Function.comp, ccRetype]
  split <;> rfl

/-- The parameters are of the kind the type of the conversion asks for. -/
def CcTyped (v : CcVals) : Prop :=
  ∀ p ∈ v.params, ccRetype v.type p = p

theorem cc_inv : Inverse CcVals.write CcVals.read (fun v => v.params.length < 2 ^ 16 ∧ CcTyped v) := by
  intro v t h
  rw [cc_read]
  simp only [Option.some.injEq, Prod.mk.injEq, and_true]
  have : (v.params.take (v.params.length % 2 ^ 16)).map (ccRetype v.type) = v.params := by
    rw [Nat.mod_eq_of_lt h.1, List.take_length]
    exact (List.map_congr_left (g := id) h.2).trans (List.map_id _)
  rw [this]

theorem padTo_length (n : Nat) (l : List (BitVec 64)) : (padTo n l).length = n := by simp [padTo]

theorem dl_read (v : DlVals) (blocks : Nat) (hb : blocks < 2 ^ 32) (t : Bytes) :
    (DlVals.read (v.write blocks ++ t)).map (·.1) = some
      (if v.flags &&& 1#8 ≠ 0#8 then ⟨v.flags, v.equalLength, [], [], [], []⟩ else ⟨v.flags, 0, padTo blocks v.offsets, [], [], []⟩,
        blocks) := by
  have e : (BitVec.ofNat 32 blocks).toNat = blocks := by rw [BitVec.toNat_ofNat, Nat.mod_eq_of_lt hb]
  simp only [DlVals.write, DlVals.read, List.append_assoc, num1_bind, zeros_bind, num4_bind]
  by_cases h : v.flags &&& 1#8 ≠ 0#8
  · rw [if_pos h, if_pos h, if_pos h]
    simp only [num8_bind, e]
    rfl
  · rw [if_neg h, if_neg h, if_neg h]
    rw [nums8_bind (by rw [padTo_length, e])]
    simp only [e]
    rfl

/-! ## In the file -/

section
variable {I : Nat → Info} {S : FileSt}

mutual
theorem node_exact (n : Node) (h : NodeOk I S true n) (c : Bool) (hs : NodeShape I c n) :
    ∀ id ∈ n.ids, 0 < S.pos id ∧ BExact S id ∧ TypeOk (I id).ty := by
  match n with
  | .mk id pre post =>
    simp only [NodeOk] at h
    simp only [NodeShape] at hs
    intro j hj
    simp only [Node.ids, List.mem_cons, List.mem_append] at hj
    rcases hj with rfl | hj | hj
    · exact ⟨h.1, h.2.2.1 trivial, hs.1⟩
    · exact slots_exact pre j h.2.2.2.1 hs.2.2.2.2.2.1 hj
    · exact slots_exact post j h.2.2.2.2 hs.2.2.2.2.2.2 hj
theorem slots_exact (l : Slots) (j : Nat) {id : Nat} (h : SlotsOk I S true id l) (hs : SlotsShape I l) (hj : j ∈ l.ids) :
    0 < S.pos j ∧ BExact S j ∧ TypeOk (I j).ty := by
  match l with
  | .nil => simp [Slots.ids] at hj
  | .cons s kids rest =>
    simp only [SlotsOk] at h
    simp only [SlotsShape] at hs
    simp only [Slots.ids, List.mem_append] at hj
    rcases hj with hj | hj
    · exact kids_exact kids j h.1 hs.1 hj
    · exact slots_exact rest j h.2 hs.2 hj
theorem kids_exact (l : Kids) (j : Nat) {s : Slot} {tid ti : Nat} (h : KidsOk I S true s tid ti l) (hs : KidsShape I s l)
    (hj : j ∈ l.ids) : 0 < S.pos j ∧ BExact S j ∧ TypeOk (I j).ty := by
  match l with
  | .nil => simp [Kids.ids] at hj
  | .cons n rest =>
    simp only [KidsOk] at h
    simp only [KidsShape] at hs
    rcases h with h | h
    · exact nomatch h.2.1
    · simp only [Bool.true_or] at h
      simp only [Kids.ids, List.mem_append] at hj
      rcases hj with hj | hj
      · exact node_exact n h.2.2.1 _ hs.1 j hj
      · rcases hc : s.chain with _ | _
        · have := hs.2.2.1 hc
          match rest with
          | .nil => simp [Kids.ids] at hj
          | .cons _ _ => simp [Kids.isNil] at this
        · exact kids_exact rest j (h.2.2.2 hc) hs.2.2.2 hj
end

/-- The values of a block are behind its header. -/
theorem read_vals {α : Type} (hinv : FileInv I S) (hlen : S.data.length < 2 ^ 63) {id : Nat} (hp : 0 < S.pos id)
    (hb : BExact S id) (hty : TypeOk (I id).ty) {get : Get α} {v : α}
    (h : ∀ t, (get ((S.st id).body ++ t)).map (·.1) = some v) : readBlockVals get S.data (S.pos id) = some v := by
  have hm := hinv.mirror id hp
  have hin := hm.inside
  have hl := hm.len
  unfold FileSt.size at hin hl
  have hh := readHeader_mod hty (by omega) (by omega) hm.header
  unfold readBlockVals
  rw [hh]
  simp only [Option.bind_some]
  rw [show S.data.drop (S.pos id + (24 + 8 * (S.st id).links.length)) = _ from hb.drop]
  exact h _

end

end Mdf
