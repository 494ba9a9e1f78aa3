import Verif.Proof.Vlsd
import Verif.Props.Channel

/-!
# Variable length signal data

C16 values stored by offset are read back; C17 corrupt offsets; C18 offsets of VLSD channel groups; C47 validity of a
variable length sample; C48 where `ReadVlsdData` looks for the values.
-/

namespace Mdf

/-! ### C16 -/

theorem vlsd_index (c : Chan) (hv : c.type = .variableLength) (value : BitVec 64) (valid : Bool) (buf : Bytes)
    (pl : Placed c 0 buf) :
    ∃ out, c.setUnsignedLe value valid 0 buf = some out ∧ Stored c 0 valid buf out ∧
      c.getUnsigned out 0 = .ok (BitVec.ofNat 64 (value.toNat % 2 ^ c.bitCount)) := by
  have h := C07_unsigned_le_roundtrip { c with dataType := .unsignedLe } value valid 0 buf rfl
    ⟨pl.bit0, pl.size, pl.inside, pl.data, pl.small, pl.validPos⟩
  obtain ⟨out, h1, h2, h3⟩ := h
  refine ⟨out, h1, h2, ?_⟩
  unfold Chan.getUnsigned at h3 ⊢
  rw [if_pos hv] at h3 ⊢
  exact h3

theorem sdGet_append (pre v post : Bytes) (hv : v.length < 2 ^ 32) (h64 : pre.length + 4 + v.length < 2 ^ 64) :
    sdGet (pre ++ leBytes 4 v.length ++ v ++ post) pre.length = .ok (true, v) := by
  have hl : (pre ++ leBytes 4 v.length ++ v ++ post).length = pre.length + 4 + v.length + post.length := by
    simp only [List.length_append, leBytes_length]
  have hn : leNat ((List.drop pre.length (pre ++ leBytes 4 v.length ++ v ++ post)).take 4) = v.length := by
    rw [List.append_assoc, List.append_assoc, List.drop_left' rfl, List.take_left' (by simp), leNat_leBytes,
      Nat.mod_eq_of_lt (by omega)]
  unfold sdGet
  rw [hl, if_neg (by rw [Nat.mod_eq_of_lt (by omega)]; omega), if_neg (by omega)]
  simp only [hn]
  rw [if_pos (by rw [Nat.mod_eq_of_lt (by omega)]; omega), if_neg (by omega), List.append_assoc,
    List.drop_left' (by simp), List.take_left' rfl]

/-- The samples of one variable length channel: for each sample the value, the validity and the record buffer.  The
records and the signal data at the end. -/
def Chan.vlsdSets (c : Chan) : List (Bytes × Bool × Bytes) → Bytes → Option (List Bytes × Bytes)
  | [], data => some ([], data)
  | (v, valid, buf) :: rest, data =>
    (c.vlsdSet v valid data buf).bind fun r => (c.vlsdSets rest r.2).map fun q => (r.1 :: q.1, q.2)

theorem vlsdSet_eq (c : Chan) (v : Bytes) (valid : Bool) (data buf : Bytes) (hv : c.type = .variableLength)
    (hb : c.bitCount = 64) (pl : Placed c 0 buf) (h64 : data.length < 2 ^ 64) :
    ∃ out, c.vlsdSet v valid data buf = some (out, data ++ leBytes 4 v.length ++ v) ∧
      c.getUnsigned out 0 = .ok (BitVec.ofNat 64 data.length) ∧ out.length = buf.length := by
  have hlen := setValid_length c valid 0 buf
  obtain ⟨out, h1, h2, h3⟩ := vlsd_index c hv (BitVec.ofNat 64 data.length) true (c.setValid valid 0 buf)
    ⟨pl.bit0, pl.size, pl.inside, by rw [hlen]; exact pl.data, by rw [hlen]; exact pl.small, pl.validPos⟩
  refine ⟨out, ?_, ?_, by rw [h2.1, hlen]⟩
  · unfold Chan.vlsdSet
    rw [if_neg (by omega)]
    simp only [sdAppend, h1]; rfl
  · rw [h3, hb, BitVec.toNat_ofNat, Nat.mod_mod, Nat.mod_eq_of_lt h64]

/-- C16 (records and signal data).  For any sequence of samples of a variable length channel (a 64 bit channel of the
writer's layout) every value can be set, and reading the `i`-th record with the signal data of the whole measurement gives the
`i`-th value, byte by byte.  The signal data are the values with their lengths in the order of writing. -/
theorem C16_vlsd_roundtrip (c : Chan) (hv : c.type = .variableLength) (hb : c.bitCount = 64)
    (samples : List (Bytes × Bool × Bytes)) (hpl : ∀ s ∈ samples, Placed c 0 s.2.2)
    (hlen : ∀ s ∈ samples, s.1.length < 2 ^ 32) (h64 : (sdEncode (samples.map (·.1))).length < 2 ^ 64) :
    ∃ records, c.vlsdSets samples [] = some (records, sdEncode (samples.map (·.1))) ∧
      records.length = samples.length ∧
      ∀ i (hr : i < records.length) (hs : i < samples.length),
        c.vlsdGet records[i] (sdEncode (samples.map (·.1))) = .ok (true, samples[i].1) := by
  have key : ∀ (samples : List (Bytes × Bool × Bytes)) (data post : Bytes), (∀ s ∈ samples, Placed c 0 s.2.2) →
      (∀ s ∈ samples, s.1.length < 2 ^ 32) → (data ++ sdEncode (samples.map (·.1))).length < 2 ^ 64 →
      ∃ records, c.vlsdSets samples data = some (records, data ++ sdEncode (samples.map (·.1))) ∧
        records.length = samples.length ∧
        ∀ i (hr : i < records.length) (hs : i < samples.length),
          c.vlsdGet records[i] (data ++ sdEncode (samples.map (·.1)) ++ post) = .ok (true, samples[i].1) := by
    intro samples
    induction samples with
    | nil => intro data post _ _ _; exact ⟨[], by simp [Chan.vlsdSets, sdEncode], rfl, by intro i hr; cases hr⟩
    | cons s rest ih =>
      intro data post hpl hlen h64
      obtain ⟨v, valid, buf⟩ := s
      rw [List.map_cons, sdEncode_cons] at h64 ⊢
      simp only at h64 ⊢
      have hvl := hlen (v, valid, buf) (by simp)
      simp only at hvl
      obtain ⟨out, h1, h2, _⟩ := vlsdSet_eq c v valid data buf hv hb (hpl (v, valid, buf) (by simp)) (by
        simp only [List.length_append] at h64; omega)
      obtain ⟨records, q1, q2, q3⟩ := ih (data ++ leBytes 4 v.length ++ v) post
        (fun s hs => hpl s (List.mem_cons_of_mem _ hs)) (fun s hs => hlen s (List.mem_cons_of_mem _ hs))
        (by simp only [List.length_append] at h64 ⊢; omega)
      have hassoc : data ++ (leBytes 4 v.length ++ v ++ sdEncode (rest.map (·.1))) =
          data ++ leBytes 4 v.length ++ v ++ sdEncode (rest.map (·.1)) := by simp only [List.append_assoc]
      refine ⟨out :: records, ?_, by simp [q2], ?_⟩
      · rw [Chan.vlsdSets, h1]
        simp only [Option.bind_some]
        rw [q1, hassoc]; rfl
      · intro i hr hs
        rw [hassoc]
        match i with
        | 0 =>
          simp only [List.getElem_cons_zero]
          unfold Chan.vlsdGet
          rw [h2]
          simp only [BitVec.toNat_ofNat]
          simp only [List.length_append, leBytes_length] at h64
          rw [Nat.mod_eq_of_lt (by omega), List.append_assoc _ _ post]
          exact sdGet_append data v _ hvl (by omega)
        | i + 1 =>
          simp only [List.getElem_cons_succ]
          exact q3 i (by simpa using hr) (by simpa using hs)
  obtain ⟨records, h1, h2, h3⟩ := key samples [] [] hpl hlen (by simpa using h64)
  simp only [List.nil_append, List.append_nil] at h1 h3
  exact ⟨records, h1, h2, h3⟩

/-- A variable length byte array channel: the offset in the first 8 bytes of a 9 byte record, validity bit in the ninth. -/
def exVlsd : Chan :=
  { type := .variableLength, dataType := .byteArray, byteOffset := 0, bitOffset := 0, bitCount := 64,
    invalidFlag := true, invalidPos := 0, nofDataBytes := 8, arraySize := 1 }

theorem exVlsd_placed : Placed exVlsd 0 (List.replicate 9 0) :=
  ⟨rfl, Or.inr (Or.inr (Or.inr rfl)), by decide, by decide, by decide, by decide⟩

example : ∃ records, exVlsd.vlsdSets [([1, 2, 3], true, List.replicate 9 0), ([], true, List.replicate 9 0),
      ([4], true, List.replicate 9 0)] [] = some (records, [3, 0, 0, 0, 1, 2, 3, 0, 0, 0, 0, 1, 0, 0, 0, 4]) ∧
    exVlsd.vlsdGet records[2]! [3, 0, 0, 0, 1, 2, 3, 0, 0, 0, 0, 1, 0, 0, 0, 4] = .ok (true, [4]) :=
  ⟨[[0, 0, 0, 0, 0, 0, 0, 0, 0], [7, 0, 0, 0, 0, 0, 0, 0, 0], [11, 0, 0, 0, 0, 0, 0, 0, 0]], by decide +kernel, by decide +kernel⟩

example : ∀ s ∈ [([1, 2, 3], true, List.replicate 9 0), (([], true, List.replicate 9 0) : Bytes × Bool × Bytes)],
    Placed exVlsd 0 s.2.2 := by
  intro s hs
  rcases List.mem_cons.mp hs with rfl | hs
  · exact exVlsd_placed
  · rcases List.mem_cons.mp hs with rfl | hs
    · exact exVlsd_placed
    · cases hs

/-- C16 (`ReadVlsdData` of signal data, all values).  Signal data in any non-empty blocks: the callback gets every value once,
in order, with its offset. -/
theorem C16_read_all (vs : List Bytes) (hv : ∀ v ∈ vs, v.length + 4 < 2 ^ 32) (blocks : List Blk) (file : Bytes)
    (hb : Holds blocks (sdEncode vs)) :
    ∃ n, ∀ fuel, n ≤ fuel → signalLoop (fun _ => true) fuel (VSt.init blocks file) = .done (callsOf 0 vs) := by
  obtain ⟨h1, h2, h3⟩ := init_spec blocks file _ hb
  refine ⟨vs.length + 1, fun fuel hf => ?_⟩
  rw [signalLoop_spec (fun _ => true) vs (VSt.init blocks file) fuel hv h1 h2 (by
    show (RC.init blocks file).count + (RC.init blocks file).stream.length ≤ _
    rw [h2]; exact Nat.le_of_eq h3) (by omega)]
  congr 1
  show [] ++ List.filter (fun _ => true) (callsOf 0 vs) = callsOf 0 vs
  rw [List.nil_append]
  exact List.filter_eq_self.mpr fun _ _ => rfl

/-- C16 (`ReadVlsdData` with a list of offsets).  The values at the wanted offsets, each once, in order. -/
theorem C16_read_offsets (vs : List Bytes) (hv : ∀ v ∈ vs, v.length + 4 < 2 ^ 32) (blocks : List Blk) (file : Bytes)
    (hb : Holds blocks (sdEncode vs)) (wanted : List Call) (hw : ∀ c ∈ wanted, c ∈ callsOf 0 vs)
    (hsorted : (wanted.map (·.offset)).Pairwise (· < ·)) :
    signalOffsets (wanted.map (·.offset)) (VSt.init blocks file) = .ok wanted := by
  obtain ⟨h1, h2, h3⟩ := init_spec blocks file _ hb
  rw [signalOffsets_spec wanted vs (VSt.init blocks file) hv h1 h2 (by
    show (RC.init blocks file).count + (RC.init blocks file).stream.length ≤ _
    rw [h2]; exact Nat.le_of_eq h3) hw hsorted]
  rfl

/-- Every value is at its offset: the `i`-th value is preceded by the lengths and bytes of the earlier ones. -/
theorem C16_offsets (vs : List Bytes) (i : Nat) (hi : i < vs.length) :
    (callsOf 0 vs)[i]? = some ⟨((vs.take i).map (4 + ·.length)).sum, vs[i]⟩ := by
  have key : ∀ (vs : List Bytes) (o i : Nat) (hi : i < vs.length),
      (callsOf o vs)[i]? = some ⟨o + ((vs.take i).map (4 + ·.length)).sum, vs[i]⟩ := by
    intro vs
    induction vs with
    | nil => intro o i hi; cases hi
    | cons v vs ih =>
      intro o i hi
      match i with
      | 0 => simp [callsOf]
      | i + 1 =>
        simp only [callsOf, List.getElem?_cons_succ, List.take_succ_cons, List.map_cons, List.sum_cons,
          List.getElem_cons_succ]
        rw [ih _ i (by simpa using hi)]
        simp only [Option.some.injEq, Call.mk.injEq, and_true]
        omega
  rw [key vs 0 i hi, Nat.zero_add]

def exSdBlocks : List Blk := [⟨false, [3, 0], [9]⟩, ⟨true, [0, 0, 1], []⟩, ⟨false, [2, 3, 0, 0, 0, 0, 1, 0, 0, 0, 4], []⟩]

example : Holds exSdBlocks (sdEncode [[1, 2, 3], [], [4]]) := ⟨by decide, by decide⟩

example : signalOffsets [0, 11] (VSt.init exSdBlocks [7]) = .ok [⟨0, [1, 2, 3]⟩, ⟨11, [4]⟩] :=
  C16_read_offsets [[1, 2, 3], [], [4]] (by decide) exSdBlocks [7] ⟨by decide, by decide⟩
    [⟨0, [1, 2, 3]⟩, ⟨11, [4]⟩] (by decide) (by decide)

/-- C16 (writing the signal data).  The blocks written for a channel hold its signal data, in order; none is empty, and the
compressed ones have at most 4,000,000 bytes. -/
theorem C16_signal_data_blocks (compress : Bool) (data : Bytes) :
    (writeSignalData compress data).flatMap (·.2) = data ∧
    ∀ b ∈ writeSignalData compress data, b.2 ≠ [] ∧ (b.1 = true → b.2.length ≤ 4000000) := by
  have key : ∀ (bs cur : Bytes), cur.length < 4000000 →
      ((sdChunks 4000000 cur bs).flatMap id = cur ++ bs) ∧
      ∀ b ∈ sdChunks 4000000 cur bs, b ≠ [] ∧ b.length ≤ 4000000 := by
    intro bs
    induction bs with
    | nil =>
      intro cur hc
      unfold sdChunks
      split
      · rename_i h; simp [h]
      · rename_i h; simp [h]; omega
    | cons b bs ih =>
      intro cur hc
      unfold sdChunks
      simp only [List.length_append, List.length_singleton]
      split
      · obtain ⟨h1, h2⟩ := ih [] (by simp)
        refine ⟨by rw [List.flatMap_cons, h1]; simp, ?_⟩
        intro x hx
        rcases List.mem_cons.mp hx with rfl | hx
        · simp; omega
        · exact h2 x hx
      · obtain ⟨h1, h2⟩ := ih (cur ++ [b]) (by simp; omega)
        exact ⟨by rw [h1]; simp, h2⟩
  unfold writeSignalData
  split
  · rename_i h; simp [h]
  · rename_i h
    split
    · simp [h]
    · split
      · simp [h]; omega
      · obtain ⟨h1, h2⟩ := key data [] (by simp)
        refine ⟨?_, ?_⟩
        · rw [List.flatMap_map]; simpa [List.flatMap_def] using h1
        · intro b hb
          obtain ⟨x, hx, rfl⟩ := List.mem_map.mp hb
          exact ⟨(h2 x hx).1, fun _ => (h2 x hx).2⟩

example : writeSignalData true (List.replicate 101 7) = [(true, List.replicate 101 7)] := by decide

example : (sdChunks 4 [] [1, 2, 3, 4, 5]) = [[1, 2, 3, 4], [5]] := by decide

/-! ### C17 -/

/-- C17.  An offset from the file that is not the offset of a value is rejected, or gives bytes of the signal data, but memory
outside is not read, provided that the offset is not within 4 bytes of 2^64. -/
theorem C17_corrupt_offset_partial (data : Bytes) (index : Nat) (hi : index + 4 < 2 ^ 64) (hd : data.length < 2 ^ 63) :
    sdGet data index ≠ .ub ∧ ∀ v, sdGet data index = .ok (true, v) → index + 4 + v.length ≤ data.length ∧
      v = (data.drop (index + 4)).take v.length := by
  unfold sdGet
  rw [Nat.mod_eq_of_lt hi]
  split
  · simp
  · rename_i h
    have h4 : ¬ data.length < index + 4 := by omega
    have hlt := leNat_lt ((data.drop index).take 4)
    have hlen : ((data.drop index).take 4).length = 4 := by rw [List.length_take, List.length_drop]; omega
    rw [hlen] at hlt
    simp only
    generalize leNat ((data.drop index).take 4) = len at *
    rw [Nat.mod_eq_of_lt (by omega)]
    split
    · rw [if_neg (by omega)]
      refine ⟨by simp, fun v hv => ?_⟩
      injection hv with hv
      injection hv with _ hv
      have hl : v.length = len := by rw [← hv, List.length_take, List.length_drop]; omega
      rw [hl]
      exact ⟨by omega, hv.symm⟩
    · simp

/-- The full C17 is false of the code: an offset close to 2^64 passes the check because the sum wraps. -/
theorem C17_wrapped_offset_ub : sdGet [1, 0, 0, 0, 7, 8] (2 ^ 64 - 4) = .ub := by decide

/-- The same through the record: a record whose 8 offset bytes are `FC FF FF FF FF FF FF FF`. -/
theorem C17_wrapped_record_ub :
    exVlsd.vlsdGet [0xFC, 0xFF, 0xFF, 0xFF, 0xFF, 0xFF, 0xFF, 0xFF, 0] [1, 0, 0, 0, 7, 8] = .ub := by decide +kernel

example : sdGet [1, 0, 0, 0, 7, 8] 3 = .fail ∧ sdGet [1, 0, 0, 0, 7, 8] 0 = .ok (true, [7]) := by decide

/-! ### C18 -/

/-- The offsets returned by successive writes to a VLSD group. -/
def VlsdCg.writes (g : VlsdCg) : List Bytes → List Nat × VlsdCg
  | [] => ([], g)
  | v :: vs => let r := g.write v; let q := r.2.writes vs; (r.1 :: q.1, q.2)

theorem writes_spec (vs : List Bytes) : ∀ (g : VlsdCg) (total : Nat),
    g.hi <<< 32 + g.lo = total → g.index + (vs.map (4 + ·.length)).sum < 2 ^ 64 →
    total + (vs.map (·.length)).sum < 2 ^ 64 →
    (g.writes vs).1 = (callsOf g.index vs).map (·.offset) ∧
    (g.writes vs).2.nof = g.nof + vs.length ∧
    (g.writes vs).2.hi <<< 32 + (g.writes vs).2.lo = total + (vs.map (·.length)).sum := by
  induction vs with
  | nil => intro g total ht _ _; simp [VlsdCg.writes, callsOf, ht]
  | cons v vs ih =>
    intro g total ht hi hl
    simp only [List.map_cons, List.sum_cons] at hi hl
    obtain ⟨h1, h2, h3⟩ := ih (g.write v).2 (total + v.length) (by
      simp only [VlsdCg.write, ht]
      rw [Nat.shiftLeft_eq]
      rw [Nat.mod_eq_of_lt (a := total + v.length) (by omega)]
      have := Nat.div_add_mod (total + v.length) (2 ^ 32)
      omega)
      (by simp only [VlsdCg.write]; rw [Nat.mod_eq_of_lt (by omega)]; omega) (by omega)
    simp only [VlsdCg.writes, callsOf, List.map_cons, List.sum_cons, List.length_cons]
    rw [h1, h2, h3]
    refine ⟨?_, by simp only [VlsdCg.write]; omega, by omega⟩
    simp only [VlsdCg.write]
    rw [Nat.mod_eq_of_lt (by omega), Nat.add_assoc]

/-- C18.  The offsets handed out when values are written to a VLSD channel group (to be stored in the records of the channel)
are the offsets at which `ReadVlsdData` calls back with those values, whatever records of other groups are written in
between and however the data are split into (non-empty) blocks. `keep` is the offset filter. -/
theorem C18_vlsd_group_offsets (cfg : RCfg) (hok : cfg.Ok) (sel : Nat) (gs : RGroup) (hgs : cfg.group sel = some gs)
    (hvl : gs.vlsd = true) (recs : List Rec) (hv : ∀ r ∈ recs, cfg.ValidRec r)
    (hlen : ∀ r ∈ recs, r.id = sel → r.data.length + 4 < 2 ^ 32)
    (hsum : ((valuesOf sel recs).map (4 + ·.length)).sum < 2 ^ 64)
    (blocks : List Blk) (file : Bytes) (hb : Holds blocks (cfg.encode recs)) (keep : Nat → Bool) :
    let offsets := (VlsdCg.writes ⟨0, 0, 0, 0⟩ (valuesOf sel recs)).1
    offsets.length = (valuesOf sel recs).length ∧
    ∃ n, ∀ fuel, n ≤ fuel → cfg.vlsdLoop sel keep fuel (VSt.init blocks file) =
      .done ((List.zipWith Call.mk offsets (valuesOf sel recs)).filter fun c => keep c.offset) := by
  have hz : ∀ (vs : List Bytes) (o : Nat), List.zipWith Call.mk ((callsOf o vs).map (·.offset)) vs = callsOf o vs ∧
      (callsOf o vs).length = vs.length := by
    intro vs
    induction vs with
    | nil => intro o; exact ⟨rfl, rfl⟩
    | cons v vs ih =>
      intro o
      simp only [callsOf, List.map_cons, List.zipWith_cons_cons, List.length_cons]
      exact ⟨by rw [(ih _).1], by rw [(ih _).2]⟩
  have hle : ∀ vs : List Bytes, (vs.map (·.length)).sum ≤ (vs.map (4 + ·.length)).sum := by
    intro vs
    induction vs with
    | nil => simp
    | cons v vs ih => simp only [List.map_cons, List.sum_cons]; omega
  have hle := hle (valuesOf sel recs)
  obtain ⟨w1, _, _⟩ := writes_spec (valuesOf sel recs) ⟨0, 0, 0, 0⟩ 0 rfl (by simp only; omega) (by omega)
  simp only [w1]
  refine ⟨by rw [List.length_map, (hz _ 0).2], recs.length + 1, fun fuel hf => ?_⟩
  obtain ⟨h1, h2, h3⟩ := init_spec blocks file _ hb
  rw [vlsdLoop_spec hok sel keep hgs hvl recs (VSt.init blocks file) fuel hv hlen h1 h2 (by
    show (RC.init blocks file).count + (RC.init blocks file).stream.length ≤ _
    rw [h2]; exact Nat.le_of_eq h3) (by omega), (hz _ 0).1]
  rfl

/-- C18 (order).  The offsets handed out are strictly increasing. -/
theorem C18_offsets_increase (vs : List Bytes) (hsum : (vs.map (4 + ·.length)).sum < 2 ^ 64) :
    (VlsdCg.writes ⟨0, 0, 0, 0⟩ vs).1.Pairwise (· < ·) := by
  have hle : ∀ vs : List Bytes, (vs.map (·.length)).sum ≤ (vs.map (4 + ·.length)).sum := by
    intro vs
    induction vs with
    | nil => simp
    | cons v vs ih => simp only [List.map_cons, List.sum_cons]; omega
  have hle := hle vs
  obtain ⟨w1, _, _⟩ := writes_spec vs ⟨0, 0, 0, 0⟩ 0 rfl (by simp only; omega) (by omega)
  rw [w1]
  have key : ∀ (vs : List Bytes) (o : Nat), ((callsOf o vs).map (·.offset)).Pairwise (· < ·) := by
    intro vs
    induction vs with
    | nil => intro o; exact List.Pairwise.nil
    | cons v vs ih =>
      intro o
      simp only [callsOf, List.map_cons, List.pairwise_cons]
      refine ⟨fun x hx => ?_, ih _⟩
      obtain ⟨c, hc, rfl⟩ := List.mem_map.mp hx
      have := callsOf_mem hc
      omega
  exact key vs 0

/-- C18 (counters).  After the writes the group counts the samples and the bytes of the values. -/
theorem C18_vlsd_group_counters (vs : List Bytes) (hsum : (vs.map (4 + ·.length)).sum < 2 ^ 64) :
    let g := (VlsdCg.writes ⟨0, 0, 0, 0⟩ vs).2
    g.nof = vs.length ∧ g.hi <<< 32 + g.lo = (vs.map (·.length)).sum := by
  have hle : ∀ vs : List Bytes, (vs.map (·.length)).sum ≤ (vs.map (4 + ·.length)).sum := by
    intro vs
    induction vs with
    | nil => simp
    | cons v vs ih => simp only [List.map_cons, List.sum_cons]; omega
  have hle := hle vs
  obtain ⟨_, h2, h3⟩ := writes_spec vs ⟨0, 0, 0, 0⟩ 0 rfl (by simp only; omega) (by omega)
  exact ⟨by simpa using h2, by simpa using h3⟩

/-- Two values of the VLSD group 3 between records of group 1. -/
def exVlsdCfg : RCfg :=
  { idSize := 1, groups := [⟨1, false, 2, 3⟩, ⟨3, true, 0, 3⟩], subs := fun _ => false, cont := fun _ => true }

def exVlsdRecs : List Rec := [⟨3, [0x41, 0x42, 0x43]⟩, ⟨1, [0x11, 0x12]⟩, ⟨3, [0x44]⟩]

def exVlsdBlocks : List Blk :=
  [⟨false, [3, 3, 0], [0xAA]⟩, ⟨true, [0, 0, 0x41, 0x42], []⟩, ⟨false, [0x43, 1, 0x11, 0x12, 3, 1, 0, 0, 0, 0x44], []⟩]

example : exVlsdCfg.Ok ∧ Holds exVlsdBlocks (exVlsdCfg.encode exVlsdRecs) ∧
    exVlsdCfg.vlsdLoop 3 (fun _ => true) 9 (VSt.init exVlsdBlocks []) = .done [⟨0, [0x41, 0x42, 0x43]⟩, ⟨7, [0x44]⟩] ∧
    (VlsdCg.writes ⟨0, 0, 0, 0⟩ (valuesOf 3 exVlsdRecs)).1 = [0, 7] := by
  exact ⟨⟨by decide, by decide, by decide, by decide, by decide⟩, ⟨by decide, by decide⟩, by decide, by decide⟩

/-! ### C47 -/

/-- C47, the full statement: a variable length sample set as (in)valid is reported (in)valid. -/
def VlsdValidityKept : Prop := ∀ (c : Chan) (v : Bytes) (valid : Bool) (data buf out data' : Bytes),
  c.type = .variableLength → c.bitCount = 64 → Placed c 0 buf → c.invalidFlag = true → c.validPos 0 / 8 < buf.length →
  c.vlsdSet v valid data buf = some (out, data') → c.getValid out 0 = valid

/-- C47 for valid samples: a sample set as valid is reported valid. -/
theorem C47_vlsd_validity_partial (c : Chan) (v : Bytes) (data buf out data' : Bytes) (hv : c.type = .variableLength)
    (hb : c.bitCount = 64) (pl : Placed c 0 buf) (hin : c.validPos 0 / 8 < buf.length) (valid : Bool)
    (h : c.vlsdSet v valid data buf = some (out, data')) : c.getValid out 0 = true := by
  have hlen := setValid_length c valid 0 buf
  obtain ⟨out', h1, h2, _⟩ := vlsd_index c hv (BitVec.ofNat 64 data.length) true (c.setValid valid 0 buf)
    ⟨pl.bit0, pl.size, pl.inside, by rw [hlen]; exact pl.data, by rw [hlen]; exact pl.small, pl.validPos⟩
  unfold Chan.vlsdSet at h
  rw [if_neg (by omega)] at h
  simp only [sdAppend, h1, Option.map_some, Option.some.injEq, Prod.mk.injEq] at h
  rw [← h.1, h2.2.1 (by rw [hlen]; exact hin)]
  simp

/-- C47 is false of the code: the offset is stored with `valid = true`, so an invalid sample becomes valid. -/
theorem C47_invalid_sample_becomes_valid : ¬ VlsdValidityKept := by
  intro h
  have := h exVlsd [1] false [] (List.replicate 9 0) [0, 0, 0, 0, 0, 0, 0, 0, 0] [1, 0, 0, 0, 1] rfl rfl exVlsd_placed rfl
    (by decide) (by decide +kernel)
  revert this
  decide

/-! ### C48 -/

/-- C48, the full statement: `ReadVlsdData` finds the signal data written for a channel. -/
def SignalDataFound : Prop := ∀ (compress : Bool) (data : Bytes) (l : LinkType),
  writtenLink compress data = some l → vlsdSource l = .signal

/-- C48 up to 4,000,000 bytes, or without compression. -/
theorem C48_signal_data_found_partial (compress : Bool) (data : Bytes) (l : LinkType)
    (hs : compress = false ∨ data.length ≤ 4000000) (h : writtenLink compress data = some l) :
    vlsdSource l = .signal ∧ signalLoaded l = true := by
  unfold writtenLink at h
  split at h
  · cases h
  · split at h
    · cases h; exact ⟨rfl, rfl⟩
    · rename_i h1
      split at h
      · cases h; exact ⟨rfl, rfl⟩
      · rename_i h2
        rcases hs with hs | hs
        · exact absurd (Or.inl (by simp [hs])) h1
        · omega

/-- C48 is false of the code: more than 4,000,000 bytes of compressed signal data are linked by a header list, which
`ReadVlsdData` ignores. -/
theorem C48_large_signal_data_not_found : ¬ SignalDataFound := by
  intro h
  obtain ⟨data, hd⟩ : ∃ data : Bytes, data.length = 4000001 := ⟨List.replicate 4000001 0, List.length_replicate⟩
  have hne : data ≠ [] := by intro e; rw [e] at hd; simp at hd
  have hw : writtenLink true data = some .hl := by
    unfold writtenLink
    rw [if_neg hne, if_neg (by rw [hd]; simp), if_neg (by omega)]
  exact absurd (h true data .hl hw) (by decide)

/-- `ReadData` does load such signal data. -/
theorem C48_read_data_loads (compress : Bool) (data : Bytes) (l : LinkType) (h : writtenLink compress data = some l) :
    signalLoaded l = true := by
  unfold writtenLink at h
  repeat' split at h
  all_goals cases h <;> rfl

example : writtenLink true (List.replicate 200 1) = some .dz := by decide +kernel

end Mdf
