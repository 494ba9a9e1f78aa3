import Verif.Proof.Layout
import Verif.Props.Channel
import Verif.Model.RecordId

/-!
# Properties C09, C10: the record layout made by the writer

Specification vocabulary: `Verif.Spec.Layout` (`Chan.span`, `Chan.validBits`, `Chan.Before`,
`LayoutFits`).
-/

namespace Mdf

theorem result_pairwise {l : Layout} (h : l.chans.Pairwise Chan.Before) : l.result.Pairwise Chan.Before := by
  unfold Layout.result
  rw [List.pairwise_map]
  exact h.imp fun h => h

/-- **C09**.  After the group is prepared for writing the channels of the group have disjoint byte ranges,
in the order of the channels, and disjoint validity bits; every channel lies inside the data bytes and
every validity bit inside the invalidation bytes of the record; for any list of channels of any type,
size and array size (that does not overflow the 32 bit counters). -/
theorem C09_layout_disjoint (cs : List Chan) (fits : LayoutFits cs) :
    (prepareGroup cs).result.length = cs.length ∧
    (prepareGroup cs).result.Pairwise Chan.Before ∧
    (∀ c ∈ (prepareGroup cs).result, c.bitOffset = 0 ∧ c.byteOffset + c.span ≤ (prepareGroup cs).nofDataBytes ∧
      (c.invalidFlag = true → c.invalidPos + c.validBits ≤ 8 * (prepareGroup cs).nofInvalidBytes)) ∧
    (prepareGroup cs).nofDataBytes = (cs.map fun c => (c.prepare 0).span).sum ∧
    (prepareGroup cs).recordSize = (prepareGroup cs).nofDataBytes + (prepareGroup cs).nofInvalidBytes := by
  obtain ⟨f1, f2⟩ := fits
  obtain ⟨inv, h1, h2⟩ := foldl_inv cs { chans := [], byteOffset := 0, nofDataBytes := 0, invalidBits := 0 }
    ⟨rfl, by simp, List.Pairwise.nil⟩ (by simp only; omega) (by simp only; omega)
  obtain ⟨qs, g1, g2, g3⟩ := foldl_chans cs { chans := [], byteOffset := 0, nofDataBytes := 0, invalidBits := 0 }
  change (prepareGroup cs).Inv at inv
  change (prepareGroup cs).byteOffset = _ at h1
  change (prepareGroup cs).invalidBits = _ at h2
  change (prepareGroup cs).chans = _ at g1
  simp only [Nat.zero_add] at h1 h2
  have hnib : (prepareGroup cs).invalidBits ≤ 8 * (prepareGroup cs).nofInvalidBytes ∧
      (prepareGroup cs).nofInvalidBytes < 2 ^ 31 := by
    unfold Layout.nofInvalidBytes
    split
    · omega
    · split <;> omega
  refine ⟨?_, result_pairwise inv.apart, ?_, by rw [inv.same, h1], ?_⟩
  · unfold Layout.result
    rw [List.length_map, g1]; simpa using g2
  · intro c hc
    unfold Layout.result at hc
    rw [List.mem_map] at hc
    obtain ⟨d, hd, rfl⟩ := hc
    obtain ⟨i1, i2, i3⟩ := inv.inside d hd
    refine ⟨i2, ?_, ?_⟩
    · show d.byteOffset + d.span ≤ _
      rw [inv.same]; exact i1
    · intro hf
      show d.invalidPos + d.validBits ≤ _
      have := i3 hf
      omega
  · unfold Layout.recordSize
    have := inv.same
    omega

theorem foldl_offsets (cs : List Chan) : ∀ (l : Layout), l.Inv →
    l.byteOffset + (cs.map fun c => (c.prepare 0).span).sum < 2 ^ 32 →
    l.invalidBits + (cs.map fun c => (c.prepare 0).validBits).sum < 2 ^ 32 →
    ∀ (k : Nat) (q : Chan), k < cs.length → (cs.foldl Layout.step l).chans[l.chans.length + k]? = some q →
      q.byteOffset = l.byteOffset + ((cs.take k).map fun c => (c.prepare 0).span).sum ∧
      (q.invalidFlag = true →
        q.invalidPos = l.invalidBits + ((cs.take k).map fun c => (c.prepare 0).validBits).sum) := by
  induction cs with
  | nil => intro l _ _ _ k q hk; simp at hk
  | cons c cs ih =>
    intro l inv h1 h2 k q hk hq
    simp only [List.map_cons, List.sum_cons] at h1 h2
    obtain ⟨s1, s2, s3, c', s4, s5⟩ := step_inv l c inv (by omega) (by omega)
    rw [List.foldl_cons] at hq
    cases k with
    | zero =>
      obtain ⟨qs, g1, g2, g3⟩ := foldl_chans cs (l.step c)
      rw [g1, s4, List.append_assoc, List.getElem?_append_right (by omega)] at hq
      simp only [Nat.add_zero, Nat.sub_self, List.cons_append, List.getElem?_cons_zero, Option.some.injEq] at hq
      subst hq
      have hch : (l.step c).chans = l.chans ++ [if (c.prepare l.byteOffset).invalidFlag then
          { c.prepare l.byteOffset with invalidPos := l.invalidBits % 2 ^ 32 } else c.prepare l.byteOffset] := rfl
      rw [hch] at s4
      have hc' := List.append_cancel_left s4
      rw [List.cons.injEq] at hc'
      rw [← hc'.1]
      constructor
      · have : (c.prepare l.byteOffset).byteOffset = l.byteOffset % 2 ^ 32 := rfl
        split <;> simp [this] <;> omega
      · intro hf
        have hfl : (c.prepare l.byteOffset).invalidFlag = true := by
          split at hf <;> exact hf
        rw [if_pos hfl]
        simp; omega
    | succ k =>
      have hlen : (l.step c).chans.length = l.chans.length + 1 := by rw [s4]; simp
      have := ih (l.step c) s1 (by omega) (by omega) k q (by simpa using hk)
        (by rw [hlen, Nat.add_assoc, Nat.add_comm 1 k]; exact hq)
      rw [s2, s3] at this
      simp only [List.take_succ_cons, List.map_cons, List.sum_cons]
      constructor
      · omega
      · intro hf; have := this.2 hf; omega

/-- **C09** (contiguous).  The `k`-th channel starts where the channels before it end, so the channels fill the data
bytes without gaps; the validity bits are numbered the same way. -/
theorem C09_layout_contiguous (cs : List Chan) (fits : LayoutFits cs) (k : Nat) (c : Chan)
    (hk : (prepareGroup cs).result[k]? = some c) :
    c.byteOffset = ((cs.take k).map fun c => (c.prepare 0).span).sum ∧
    (c.invalidFlag = true → c.invalidPos = ((cs.take k).map fun c => (c.prepare 0).validBits).sum) := by
  obtain ⟨hlen, _, _, _, _⟩ := C09_layout_disjoint cs fits
  obtain ⟨f1, f2⟩ := fits
  have hkl : k < cs.length := by
    rw [← hlen]; exact (List.getElem?_eq_some_iff.mp hk).1
  unfold Layout.result at hk
  rw [List.getElem?_map, Option.map_eq_some_iff] at hk
  obtain ⟨d, hd, rfl⟩ := hk
  have := foldl_offsets cs { chans := [], byteOffset := 0, nofDataBytes := 0, invalidBits := 0 }
    ⟨rfl, by simp, List.Pairwise.nil⟩ (by simp only; omega) (by simp only; omega) k d hkl (by simpa [prepareGroup] using hd)
  simpa using this

/-- A group of an 8 byte master, a two element 16 bit array with validity and a 4 byte text with validity. -/
def exGroup : List Chan :=
  [ { type := .master, dataType := .floatLe, byteOffset := 99, bitOffset := 3, bitCount := 64, invalidFlag := true,
      invalidPos := 0, nofDataBytes := 0, arraySize := 1 },
    { type := .fixedLength, dataType := .unsignedLe, byteOffset := 0, bitOffset := 0, bitCount := 16,
      invalidFlag := true, invalidPos := 0, nofDataBytes := 0, arraySize := 2 },
    { type := .fixedLength, dataType := .stringAscii, byteOffset := 0, bitOffset := 0, bitCount := 32,
      invalidFlag := true, invalidPos := 0, nofDataBytes := 0, arraySize := 1 } ]

/-- Non-vacuity of C09. -/
example : LayoutFits exGroup ∧ (prepareGroup exGroup).result.map (fun c => (c.byteOffset, c.span, c.invalidPos))
    = [(0, 8, 0), (8, 4, 0), (12, 4, 2)] ∧ (prepareGroup exGroup).nofDataBytes = 16 ∧
    (prepareGroup exGroup).nofInvalidBytes = 1 ∧ (prepareGroup exGroup).recordSize = 17 := by decide

/-- Beyond the limits of `LayoutFits` channels do overlap: an array of 2^32 bytes counts as 0 bytes, so the next
channel is placed at the same offset. -/
theorem C09_overflow_overlaps :
    (prepareGroup
      [ { type := .fixedLength, dataType := .unsignedLe, byteOffset := 0, bitOffset := 0, bitCount := 64,
          invalidFlag := false, invalidPos := 0, nofDataBytes := 0, arraySize := 2 ^ 29 },
        { type := .fixedLength, dataType := .unsignedLe, byteOffset := 0, bitOffset := 0, bitCount := 64,
          invalidFlag := false, invalidPos := 0, nofDataBytes := 0, arraySize := 1 } ]).result.map
        (fun c => (c.byteOffset, c.span)) = [(0, 2 ^ 32), (0, 8)] := by decide

/-- The values of `b` are the same in both buffers. -/
def SameValue (b : Chan) (j : Nat) (buf out : Bytes) : Prop :=
  (∀ o, fieldOf o out (b.pos j) b.bitCount = fieldOf o buf (b.pos j) b.bitCount) ∧
  b.getValid out j = b.getValid buf j

theorem byte_eq_of_bits {a b : Bytes} (hl : a.length = b.length) (k : Nat)
    (h : ∀ p, p / 8 = k → bitAt a p = bitAt b p) : a[k]? = b[k]? := by
  by_cases hk : k < a.length
  · rw [List.getElem?_eq_getElem hk, List.getElem?_eq_getElem (by omega)]
    congr 1
    apply BitVec.eq_of_getLsbD_eq
    intro i hi
    have := h (8 * k + i) (by omega)
    rw [bitAt_of_lt _ _ (by omega), bitAt_of_lt _ _ (by omega)] at this
    have e1 : (8 * k + i) / 8 = k := by omega
    have e2 : (8 * k + i) % 8 = i := by omega
    simpa only [e1, e2] using this
  · rw [List.getElem?_eq_none (by omega), List.getElem?_eq_none (by omega)]

theorem Placed.of_length {c : Chan} {i : Nat} {buf out : Bytes} (h : Placed c i buf) (hl : out.length = buf.length) :
    Placed c i out := ⟨h.bit0, h.size, h.inside, by rw [hl]; exact h.data, by rw [hl]; exact h.small, h.validPos⟩

/-- **C09** (consequence).  Storing an element of one channel leaves the value and validity of every other element
whose bytes and validity bit lie elsewhere, as the layout guarantees. -/
theorem C09_store_keeps_others (a b : Chan) (i j : Nat) (valid : Bool) (buf out : Bytes)
    (pa : Placed a i buf) (pb : Placed b j buf) (st : Stored a i valid buf out)
    (sameGroup : a.nofDataBytes = b.nofDataBytes)
    (apart : a.pos i + a.bitCount ≤ b.pos j ∨ b.pos j + b.bitCount ≤ a.pos i)
    (vapart : a.invalidFlag = true → b.invalidFlag = true → a.invalidPos + i ≠ b.invalidPos + j) :
    SameValue b j buf out := by
  obtain ⟨n, hn, hc, hd, hp, hin⟩ := pa.bytes
  obtain ⟨m, hm, hcb, hdb, hpb, hinb⟩ := pb.bytes
  obtain ⟨s1, s2, s3⟩ := st
  have hmul : m * (j + 1) = m * j + m := Nat.mul_succ _ _
  have hmuln : n * (i + 1) = n * i + n := Nat.mul_succ _ _
  have hslice : (out.drop (b.byteOffset + m * j)).take m = (buf.drop (b.byteOffset + m * j)).take m := by
    apply List.ext_getElem?
    intro k
    rw [List.getElem?_take, List.getElem?_take]
    by_cases hk : k < m
    · rw [if_pos hk, if_pos hk, List.getElem?_drop, List.getElem?_drop]
      apply byte_eq_of_bits s1
      intro p hpk
      apply s3 p
      · rw [hp, hc] at apart ⊢
        rw [hpb, hcb] at apart
        omega
      · intro _
        unfold Chan.validPos
        omega
    · rw [if_neg hk, if_neg hk]
  refine ⟨?_, ?_⟩
  · intro o
    rw [hpb, hcb]
    have hdat := pb.data
    cases o
    · show fieldLe _ _ _ = fieldLe _ _ _
      unfold fieldLe
      rw [leNat_slice out _ _ (by omega), leNat_slice buf _ _ (by omega), hslice]
    · show fieldBe _ _ _ = fieldBe _ _ _
      unfold fieldBe
      have e1 : 8 * (b.byteOffset + m * j) / 8 = b.byteOffset + m * j := by omega
      have e2 : 8 * (b.byteOffset + m * j) % 8 = 0 := by omega
      have e3 : (0 + 8 * m + 7) / 8 = m := by omega
      rw [e1, e2, e3, hslice]
  · rw [getValid_eq b j out pb.validPos, getValid_eq b j buf pb.validPos]
    by_cases hbf : b.invalidFlag = true
    · rw [hbf, s3]
      · right
        have : 8 * (a.byteOffset + n * i) + 8 * n ≤ 8 * a.nofDataBytes := by omega
        rw [hp, hc, Chan.validPos]; omega
      · intro haf
        have := vapart haf hbf
        unfold Chan.validPos
        omega
    · simp [hbf]

/-- **C09** (end to end).  In a prepared group: setting a value of the `p`-th channel keeps the value and validity of
every element of every other channel `q`. -/
theorem C09_group_set_keeps_others (cs : List Chan) (fits : LayoutFits cs) (p q : Nat) (a b : Chan)
    (ha : (prepareGroup cs).result[p]? = some a) (hb : (prepareGroup cs).result[q]? = some b) (hpq : p ≠ q)
    (i j : Nat) (hi : i < max 1 a.arraySize) (hj : j < max 1 b.arraySize) (buf out : Bytes) (value : BitVec 64)
    (valid : Bool) (pa : Placed a i buf) (pb : Placed b j buf)
    (set : a.setUnsignedLe value valid i buf = some out) : SameValue b j buf out := by
  obtain ⟨_, hpw, hall, _, _⟩ := C09_layout_disjoint cs fits
  obtain ⟨out', h1, h2, _⟩ := setInt_placed .le (i + 1) a value valid i buf (by omega) pa
  change a.setUnsignedLe value valid i buf = some out' at h1
  rw [set] at h1
  obtain rfl := Option.some.inj h1
  have hnd : ∀ c ∈ (prepareGroup cs).result, c.nofDataBytes = (prepareGroup cs).nofDataBytes := by
    intro c hc
    unfold Layout.result at hc
    rw [List.mem_map] at hc
    obtain ⟨d, _, rfl⟩ := hc
    rfl
  have hbef : Chan.Before a b ∨ Chan.Before b a := by
    rw [List.pairwise_iff_getElem] at hpw
    obtain ⟨hp', ea⟩ := List.getElem?_eq_some_iff.mp ha
    obtain ⟨hq', eb⟩ := List.getElem?_eq_some_iff.mp hb
    rcases Nat.lt_or_gt_of_ne hpq with h | h
    · left; rw [← ea, ← eb]; exact hpw p q hp' hq' h
    · right; rw [← ea, ← eb]; exact hpw q p hq' hp' h
  obtain ⟨n, hn, hc, hd, hp, hin⟩ := pa.bytes
  obtain ⟨m, hm, hcb, hdb, hpb, hinb⟩ := pb.bytes
  have hsa : n * (i + 1) ≤ a.span := by
    unfold Chan.span; rw [hd]; exact Nat.mul_le_mul_left _ (by omega)
  have hsb : m * (j + 1) ≤ b.span := by
    unfold Chan.span; rw [hdb]; exact Nat.mul_le_mul_left _ (by omega)
  have hmul : m * (j + 1) = m * j + m := Nat.mul_succ _ _
  have hmuln : n * (i + 1) = n * i + n := Nat.mul_succ _ _
  refine C09_store_keeps_others a b i j valid buf out pa pb h2 ?_ ?_ ?_
  · rw [hnd a (List.mem_of_getElem? ha), hnd b (List.mem_of_getElem? hb)]
  · rw [hp, hpb, hc, hcb]
    rcases hbef with h | h
    · left; have := h.1; omega
    · right; have := h.1; omega
  · intro haf hbf
    have va : a.validBits = max 1 a.arraySize := if_pos haf
    have vb : b.validBits = max 1 b.arraySize := if_pos hbf
    rcases hbef with h | h
    · have := h.2 haf hbf; omega
    · have := h.2 hbf haf; omega

/-- Non-vacuity: the array channel of `exGroup` and the second element of a copy. -/
example : ∃ a b, (prepareGroup (exGroup.drop 1 ++ exGroup.take 2)).result[0]? = some a ∧
    (prepareGroup (exGroup.drop 1 ++ exGroup.take 2)).result[3]? = some b ∧
    LayoutFits (exGroup.drop 1 ++ exGroup.take 2) ∧
    Placed a 1 (List.replicate 21 0xFF) ∧ Placed b 1 (List.replicate 21 0xFF) ∧
    1 < max 1 a.arraySize ∧ 1 < max 1 b.arraySize := by
  refine ⟨_, _, rfl, rfl, by decide, ⟨rfl, by decide, by decide, by decide, by decide, by decide⟩,
    ⟨rfl, by decide, by decide, by decide, by decide, by decide⟩, by decide, by decide⟩

/-! ### C10 record ids -/

/-- The data group after `n` calls of the "create channel group" function. -/
def dgAfter : Nat → DgIds
  | 0 => DgIds.new
  | n + 1 => (dgAfter n).addCg

theorem dgAfter_eq (n : Nat) : dgAfter n = { idSize := recIdSize n, ids := recIds n } := by
  induction n with
  | zero => rfl
  | succ n ih =>
    have : (recIds n).length = n := by simp [recIds]
    simp only [dgAfter, ih, DgIds.addCg, this]

/-- **C10**.  However many channel groups are created, their record ids are pairwise different, the id written
before a sample reads back as the id of its group, and a group gets an id field exactly if there is
more than one group. -/
theorem C10_record_ids_unique (n : Nat) (h64 : n < 2 ^ 64) :
    (dgAfter n).ids.length = n ∧ (dgAfter n).ids.Nodup ∧
    (∀ id ∈ (dgAfter n).ids, (dgAfter n).idSize ≠ 0 →
      leNat (writeRecordId (dgAfter n).idSize id) = id ∧
      (writeRecordId (dgAfter n).idSize id).length = (dgAfter n).idSize) ∧
    ((dgAfter n).idSize = 0 ↔ n ≤ 1) := by
  rw [dgAfter_eq]
  dsimp only
  refine ⟨by simp [recIds], ?_, ?_, ?_⟩
  · unfold recIds List.Nodup
    rw [List.pairwise_map]
    exact List.nodup_range.imp (by intro a b h; omega)
  · intro id hid h0
    unfold recIds at hid
    rw [List.mem_map] at hid
    obtain ⟨k, hk, rfl⟩ := hid
    rw [List.mem_range] at hk
    have hlt : (if n < 2 then 0 else 1) + k ≤ n := by split <;> omega
    generalize (if n < 2 then 0 else 1) + k = id at *
    unfold recIdSize at *
    split at h0
    · exact absurd rfl h0
    split
    · omega
    split
    · simp only [writeRecordId, leNat_leBytes, leBytes_length]
      exact ⟨Nat.mod_eq_of_lt (by omega), trivial⟩
    split
    · simp only [writeRecordId, leNat_leBytes, leBytes_length]
      exact ⟨Nat.mod_eq_of_lt (by omega), trivial⟩
    split
    · simp only [writeRecordId, leNat_leBytes, leBytes_length]
      exact ⟨Nat.mod_eq_of_lt (by omega), trivial⟩
    · simp only [writeRecordId, leNat_leBytes, leBytes_length]
      exact ⟨Nat.mod_eq_of_lt (by omega), trivial⟩
  · unfold recIdSize
    constructor
    · intro h
      split at h
      · omega
      split at h
      · omega
      split at h
      · omega
      split at h <;> omega
    · intro h
      rw [if_pos (by omega)]

/-- **C10** (distinct on disk).  Different groups have different id bytes. -/
theorem C10_record_id_bytes_distinct (n : Nat) (h64 : n < 2 ^ 64) (a b : Nat)
    (ha : a ∈ (dgAfter n).ids) (hb : b ∈ (dgAfter n).ids) (hne : a ≠ b) :
    writeRecordId (dgAfter n).idSize a ≠ writeRecordId (dgAfter n).idSize b := by
  obtain ⟨hlen, hnd, hrt, h0⟩ := C10_record_ids_unique n h64
  have hn : ¬ n ≤ 1 := by
    intro h
    have : (dgAfter n).ids.length ≤ 1 := by omega
    match hd : (dgAfter n).ids, this with
    | [], _ => rw [hd] at ha; simp at ha
    | [x], _ => rw [hd] at ha hb; simp at ha hb; omega
  have hs : (dgAfter n).idSize ≠ 0 := fun h => hn (h0.mp h)
  intro h
  have h1 := (hrt a ha hs).1
  have h2 := (hrt b hb hs).1
  rw [h] at h1
  omega

/-- Non-vacuity: three groups, and the boundary from one to two id bytes. -/
example : (dgAfter 3) = { idSize := 1, ids := [1, 2, 3] } ∧ (dgAfter 1) = { idSize := 0, ids := [0] } ∧
    writeRecordId 1 3 = [3] ∧ recIdSize 255 = 1 ∧ recIdSize 256 = 2 ∧ writeRecordId 2 256 = [0, 1] := by decide

end Mdf
