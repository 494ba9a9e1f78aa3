import Verif.Proof.Session
import Verif.Proof.Utf

/-!
Lemmas for C79: the value read from a record is the one set, and depends on the bytes and the validity bit of the element only.
-/

namespace Mdf

/-- An element of a channel whose values are promised to be read back. -/
structure Promised (c : Chan) (i : Nat) (buf : Bytes) : Prop where
  inRec : InRecord c buf
  idx : i < max 1 c.arraySize
  vp : c.ValidPosOk i
  kind : (c.Numeric ∧ (c.bitCount = 8 ∨ c.bitCount = 16 ∨ c.bitCount = 32 ∨ c.bitCount = 64) ∧
    (c.dataType = .floatLe ∨ c.dataType = .floatBe → c.bitCount = 32 ∨ c.bitCount = 64)) ∨ c.Sized ∨ c.Unsized

theorem Promised.of_length {c : Chan} {i : Nat} {buf out : Bytes} (h : Promised c i buf) (hl : out.length = buf.length) :
    Promised c i out := ⟨h.inRec.of_length hl, h.idx, h.vp, h.kind⟩

theorem InRecord.placed {c : Chan} {i : Nat} {buf : Bytes} (h : InRecord c buf) (hi : i < max 1 c.arraySize) (vp : c.ValidPosOk i)
    (size : c.bitCount = 8 ∨ c.bitCount = 16 ∨ c.bitCount = 32 ∨ c.bitCount = 64) : Placed c i buf := by
  refine ⟨h.bit0, size, ?_, h.data, h.small, vp⟩
  obtain ⟨n, hc⟩ : ∃ n, c.bitCount = 8 * n := by
    rcases size with e | e | e | e
    · exact ⟨1, e⟩
    · exact ⟨2, e⟩
    · exact ⟨4, e⟩
    · exact ⟨8, e⟩
  have h1 := span_of_index c hi
  have h2 := h.inside
  rw [dataBytes_of_bitCount c n hc] at h1
  unfold Chan.Inside
  rw [pos_bytes c n i hc h.bit0, hc]
  omega

/-- The element has the same bytes and the same validity bit in both buffers. -/
structure SameBits (c : Chan) (i : Nat) (buf out : Bytes) : Prop where
  len : out.length = buf.length
  slice : (out.drop (c.byteOffset + c.dataBytes * i)).take c.dataBytes = (buf.drop (c.byteOffset + c.dataBytes * i)).take c.dataBytes
  valid : c.getValid out i = c.getValid buf i

theorem SameBits.field {c : Chan} {i : Nat} {buf out : Bytes} (pl : Placed c i buf) (h : SameBits c i buf out) (o : Order) :
    fieldOf o out (c.pos i) c.bitCount = fieldOf o buf (c.pos i) c.bitCount := by
  obtain ⟨m, hm, hcb, hdb, hpb, hinb⟩ := pl.bytes
  have hdat := pl.data
  have hs := h.slice
  have hl := h.len
  rw [hdb] at hs
  have hmul : m * (i + 1) = m * i + m := Nat.mul_succ _ _
  rw [hpb, hcb]
  cases o
  · show fieldLe _ _ _ = fieldLe _ _ _
    unfold fieldLe
    rw [leNat_slice out _ _ (by omega), leNat_slice buf _ _ (by omega), hs]
  · show fieldBe _ _ _ = fieldBe _ _ _
    unfold fieldBe
    have e1 : 8 * (c.byteOffset + m * i) / 8 = c.byteOffset + m * i := by omega
    have e2 : 8 * (c.byteOffset + m * i) % 8 = 0 := by omega
    have e3 : (0 + 8 * m + 7) / 8 = m := by omega
    rw [e1, e2, e3, hs]

/-- `GetUnsignedValue` of a channel that reads little endian. -/
theorem getUnsigned_le_or_vlsd (c : Chan) (record : Bytes) (i : Nat) (hd : c.dataType = .unsignedLe ∨ c.type = .variableLength)
    (pl : Placed c i record) : c.getUnsigned record i = .ok (BitVec.ofNat 64 (fieldLe record (c.pos i) c.bitCount)) := by
  obtain ⟨g1, g2, g3⟩ := pl.get
  rcases hd with hd | hd
  · exact (C05_get_unsigned_le c record i hd g1 g2 (by have := pl.small; omega)).1 g3
  · have h := (C05_get_unsigned_le { c with dataType := .unsignedLe } record i rfl g1 g2 (by have := pl.small; omega)).1 g3
    unfold Chan.getUnsigned at h ⊢
    rw [if_pos hd] at h ⊢
    exact h

theorem getUnsigned_congr {c : Chan} {i : Nat} {buf out : Bytes} (pl : Placed c i buf) (h : SameBits c i buf out)
    (hd : c.dataType = .unsignedLe ∨ c.type = .variableLength ∨ (c.dataType = .unsignedBe ∧ c.type ≠ .variableLength)) :
    c.getUnsigned out i = c.getUnsigned buf i := by
  have pl' : Placed c i out := pl.of_length h.len
  have hle : c.dataType = .unsignedLe ∨ c.type = .variableLength → c.getUnsigned out i = c.getUnsigned buf i := by
    intro hd
    rw [getUnsigned_le_or_vlsd c out i hd pl', getUnsigned_le_or_vlsd c buf i hd pl]
    congr 2
    exact h.field pl .le
  rcases hd with hd | hd | ⟨hd, ht⟩
  · exact hle (Or.inl hd)
  · exact hle (Or.inr hd)
  · obtain ⟨g1, g2, g3⟩ := pl.get
    obtain ⟨k1, k2, k3⟩ := pl'.get
    have s1 := pl.small
    have s2 := pl'.small
    rw [(C05_get_unsigned_be c out i hd ht g1 g2 (by omega)).1 k3, (C05_get_unsigned_be c buf i hd ht g1 g2 (by omega)).1 g3]
    congr 2
    exact h.field pl .be

theorem getSigned_congr {c : Chan} {i : Nat} {buf out : Bytes} (pl : Placed c i buf) (h : SameBits c i buf out) (o : Order)
    (hd : c.dataType = match o with | .le => .signedLe | .be => .signedBe) : c.getSigned out i = c.getSigned buf i := by
  have pl' : Placed c i out := pl.of_length h.len
  obtain ⟨g1, g2, g3⟩ := pl.get
  obtain ⟨k1, k2, k3⟩ := pl'.get
  have s1 := pl.small
  have s2 := pl'.small
  have sz := pl.size
  obtain ⟨r, e1, e2⟩ := (C05_get_signed o c out i hd (by omega) (by omega) g1 g2 (by omega)).1 k3
  obtain ⟨r', e3, e4⟩ := (C05_get_signed o c buf i hd (by omega) (by omega) g1 g2 (by omega)).1 g3
  rw [e1, e3]
  congr 1
  apply BitVec.eq_of_toInt_eq
  rw [e2, e4, h.field pl o]

theorem getFloat_congr {c : Chan} {i : Nat} {buf out : Bytes} (pl : Placed c i buf) (h : SameBits c i buf out) (o : Order)
    (hd : c.dataType = match o with | .le => .floatLe | .be => .floatBe) (hb : c.bitCount = 32 ∨ c.bitCount = 64) :
    c.getFloatBits out i = c.getFloatBits buf i := by
  have pl' : Placed c i out := pl.of_length h.len
  obtain ⟨g1, g2, g3⟩ := pl.get
  obtain ⟨k1, k2, k3⟩ := pl'.get
  have s1 := pl.small
  have s2 := pl'.small
  rw [(C05_get_float o c out i hd (by omega) g1 g2 (by omega)).1 k3, (C05_get_float o c buf i hd (by omega) g1 g2 (by omega)).1 g3,
    h.field pl o]

/-- The bytes of a text or byte array in the record. -/
theorem Chan.Sized.bytes {c : Chan} {i : Nat} {buf : Bytes} (hs : c.Sized) (h : Promised c i buf) (sd : Bytes) :
    i = 0 ∧ c.bitCount / 8 = c.dataBytes ∧ c.byteOffset + c.dataBytes ≤ c.nofDataBytes ∧
    c.valueBytes buf sd = .ok (true, (buf.drop c.byteOffset).take c.dataBytes) := by
  obtain ⟨_, ha, h0, h8, hv⟩ := hs
  have hdb : c.bitCount / 8 = c.dataBytes := by unfold Chan.dataBytes; rw [if_neg (by omega)]; rfl
  have h1 := span_of_index c (zero_index c)
  have h2 := h.inRec.inside
  have h3 := h.inRec.data
  have hi := h.idx
  refine ⟨by omega, hdb, by omega, ?_⟩
  unfold Chan.valueBytes
  rw [if_neg hv, hdb, if_pos (by omega)]

theorem valueBytes_congr {c : Chan} {i : Nat} {buf out : Bytes} (h : Promised c i buf) (hs : c.Sized ∨ c.Unsized)
    (hb : SameBits c i buf out) (sd : Bytes) : c.valueBytes out sd = c.valueBytes buf sd := by
  rcases hs with hs | hs
  · obtain ⟨rfl, _, _, e1⟩ := hs.bytes h sd
    obtain ⟨_, _, _, e2⟩ := hs.bytes (h.of_length hb.len) sd
    have hsl := hb.slice
    rw [Nat.mul_zero, Nat.add_zero] at hsl
    rw [e1, e2, hsl]
  · obtain ⟨_, ha, h64, hv⟩ := hs
    have hi := h.idx
    obtain rfl : i = 0 := by omega
    have pl : Placed c 0 buf := h.inRec.placed h.idx h.vp (by omega)
    unfold Chan.valueBytes Chan.vlsdGet
    rw [if_pos hv, if_pos hv, getUnsigned_congr pl hb (Or.inr (Or.inl hv))]

/-- What is read of an element depends on its bytes and its validity bit. -/
theorem channelValue_congr {c : Chan} {i : Nat} {buf out : Bytes} (h : Promised c i buf) (hb : SameBits c i buf out) (sd : Bytes) :
    c.channelValue sd out i = c.channelValue sd buf i := by
  have hk := h.kind
  rcases hk with ⟨⟨hd, ht, -, -⟩, hsz, hfl⟩ | hs
  · have pl : Placed c i buf := h.inRec.placed h.idx h.vp hsz
    unfold Chan.channelValue
    rcases hd with hd | hd | hd | hd | hd | hd
    · simp only [hd, getUnsigned_congr pl hb (Or.inl hd), hb.valid]
    · simp only [hd, getUnsigned_congr pl hb (Or.inr (Or.inr ⟨hd, ht⟩)), hb.valid]
    · simp only [hd, getSigned_congr pl hb .le hd, hb.valid]
    · simp only [hd, getSigned_congr pl hb .be hd, hb.valid]
    · simp only [hd, getFloat_congr pl hb .le hd (hfl (Or.inl hd)), hb.valid]
    · simp only [hd, getFloat_congr pl hb .be hd (hfl (Or.inr hd)), hb.valid]
  · have hvb := valueBytes_congr h hs hb sd
    have hd : c.dataType = .stringAscii ∨ c.dataType = .stringUtf8 ∨ c.dataType = .byteArray ∨ c.dataType = .mimeSample ∨
      c.dataType = .mimeStream := hs.elim (·.1) (·.1)
    unfold Chan.channelValue
    rcases hd with hd | hd | hd | hd | hd <;> simp only [hd, hvb, hb.valid]

/-! ### Other elements -/

/-- Bytes and validity bit of an element, by bits. -/
theorem SameBits.of_bits {c : Chan} {i : Nat} {buf out : Bytes} (vp : c.ValidPosOk i) (hl : out.length = buf.length)
    (h : ∀ p, 8 * (c.byteOffset + c.dataBytes * i) ≤ p → p < 8 * (c.byteOffset + c.dataBytes * i) + 8 * c.dataBytes →
      bitAt out p = bitAt buf p)
    (hv : c.invalidFlag = true → bitAt out (c.validPos i) = bitAt buf (c.validPos i)) : SameBits c i buf out := by
  refine ⟨hl, ?_, ?_⟩
  · apply List.ext_getElem?
    intro k
    rw [List.getElem?_take, List.getElem?_take]
    by_cases hk : k < c.dataBytes
    · rw [if_pos hk, if_pos hk, List.getElem?_drop, List.getElem?_drop]
      apply byte_eq_of_bits hl
      intro p hpk
      exact h p (by omega) (by omega)
    · rw [if_neg hk, if_neg hk]
  · rw [getValid_eq c i out vp, getValid_eq c i buf vp]
    cases hf : c.invalidFlag
    · rfl
    · rw [hv hf]

/-- Setting a channel keeps the elements of the others. -/
theorem FramedBy.same {a c : Chan} {i : Nat} {buf out : Bytes} (hf : FramedBy a buf out) (h : Promised c i buf) (ha : InRecord a buf)
    (hnd : a.nofDataBytes = c.nofDataBytes) (hbef : a.Before c ∨ c.Before a) : SameBits c i buf out := by
  have hsp := span_of_index c h.idx
  have h1 := h.inRec.inside
  have h2 := ha.inside
  refine SameBits.of_bits h.vp hf.len ?_ ?_
  · intro p hp1 hp2
    refine hf.keep p ?_ (fun _ => Or.inl (by omega))
    rcases hbef with hb | hb
    · have := hb.1; omega
    · have := hb.1; omega
  · intro hfl
    obtain ⟨_, _, q3, q4⟩ := h.inRec.validPos hfl h.idx
    refine hf.keep _ (Or.inr (by omega)) ?_
    intro haf
    rcases hbef with hb | hb
    · have := hb.2 haf hfl; omega
    · have := hb.2 hfl haf; omega

/-- Setting an element keeps the other elements of an array of numbers. -/
theorem Stored.same {c : Chan} {i j : Nat} {valid : Bool} {buf out : Bytes} (st : Stored c j valid buf out) (h : Promised c i buf)
    (hsz : c.bitCount = 8 ∨ c.bitCount = 16 ∨ c.bitCount = 32 ∨ c.bitCount = 64) (hj : j < max 1 c.arraySize) (hij : i ≠ j) :
    SameBits c i buf out := by
  have pl := h.inRec.placed h.idx h.vp hsz
  obtain ⟨n, hn, hc, hdb, hp, hin⟩ := pl.bytes
  have hpj := pos_bytes c n j hc h.inRec.bit0
  obtain ⟨s1, _, s3⟩ := st
  have hm : n * i + n ≤ n * j ∨ n * j + n ≤ n * i := by
    rcases Nat.lt_or_gt_of_ne hij with hlt | hlt
    · left
      have := Nat.mul_le_mul_left n hlt
      rwa [Nat.mul_succ] at this
    · right
      have := Nat.mul_le_mul_left n hlt
      rwa [Nat.mul_succ] at this
  have hsp := span_of_index c h.idx
  have hspj := span_of_index c hj
  have h1 := h.inRec.inside
  rw [hdb] at hsp hspj
  refine SameBits.of_bits h.vp s1 ?_ ?_
  · intro p hp1 hp2
    rw [hdb] at hp1 hp2
    refine s3 p (by rw [hpj, hc]; omega) ?_
    intro _
    unfold Chan.validPos
    omega
  · intro hfl
    refine s3 _ (Or.inr (by rw [hpj, hc]; unfold Chan.validPos; omega)) ?_
    intro _
    unfold Chan.validPos
    omega

/-! ### The element itself -/

theorem textOf_fits {c : Chan} {t : Bytes} (hd : c.dataType = .stringUtf8 ∨ (c.dataType = .stringAscii ∧ ∀ b ∈ t, b.toNat < 128))
    (hz : 0#8 ∉ t) (rest : Bytes) : textOf c.dataType (t ++ 0#8 :: rest) = t := by
  have hc : cstr (t ++ 0#8 :: rest) = t := by
    unfold cstr
    rw [List.takeWhile_append_of_pos]
    · simp
    · intro b hb
      have : b ≠ 0#8 := fun e => hz (e ▸ hb)
      simpa using this
  rcases hd with hd | ⟨hd, ha⟩
  · rw [hd]; exact hc
  · rw [hd]
    show latin1ToUtf8 (cstr _) = t
    rw [hc]
    unfold latin1ToUtf8
    clear hc hz
    induction t with
    | nil => rfl
    | cons b t ih =>
      rw [List.flatMap_cons, ih (fun x hx => ha x (List.mem_cons_of_mem _ hx)), if_pos (ha b List.mem_cons_self)]
      rfl

theorem setText_eq_setByteArray (c : Chan) (t : Bytes) (valid : Bool) (buf : Bytes) (h : t.length < c.bitCount / 8) :
    c.setText t valid buf = c.setByteArray t valid buf := by
  unfold Chan.setText Chan.setByteArray
  simp only [if_pos h, if_pos (Nat.le_of_lt h)]

/-- Setting a number. -/
theorem setNumber_own {c : Chan} {i : Nat} {buf : Bytes} (h : Promised c i buf) (hn : c.Numeric)
    (hsz : c.bitCount = 8 ∨ c.bitCount = 16 ∨ c.bitCount = 32 ∨ c.bitCount = 64)
    (hfl : c.dataType = .floatLe ∨ c.dataType = .floatBe → c.bitCount = 32 ∨ c.bitCount = 64) (x : NumCasts) (valid : Bool) (sd : Bytes)
    (hs : (SetVal.num x).Suits c) : ∃ out, c.setNumber x valid i buf sd = some (out, sd) ∧ Stored c i valid buf out ∧
      ∀ full, c.channelValue full out i = c.expected (some (.num x, valid)) := by
  have pl := h.inRec.placed h.idx h.vp hsz
  obtain ⟨hd, ht, -, -⟩ := hn
  have hgv : ∀ out, Stored c i valid buf out → c.getValid out i = (valid || !c.invalidFlag) := by
    intro out st
    by_cases hf : c.invalidFlag = true
    · exact st.2.1 (h.inRec.validPos hf h.idx).2.1
    · rw [(C08_no_flag c valid i out (by simpa using hf)).1]
      simp [hf]
  unfold SetVal.Suits at hs
  rcases hd with hd | hd | hd | hd | hd | hd
  · obtain ⟨out, e1, e2, e3⟩ := C07_unsigned_le_roundtrip c x.uns valid i buf hd pl
    simp only [hd] at hs
    refine ⟨out, by unfold Chan.setNumber; simp only [hd, e1]; rfl, e2, fun full => ?_⟩
    unfold Chan.channelValue Chan.expected SetVal.plain
    simp only [hd, e3, Res.shown, hgv out e2]
    rw [Nat.mod_eq_of_lt hs, BitVec.toNat_ofNat, Nat.mod_eq_of_lt x.uns.isLt]
  · obtain ⟨out, e1, e2, e3⟩ := C07_unsigned_be_roundtrip c x.uns valid i buf hd ht pl
    simp only [hd] at hs
    refine ⟨out, by unfold Chan.setNumber; simp only [hd, e1]; rfl, e2, fun full => ?_⟩
    unfold Chan.channelValue Chan.expected SetVal.plain
    simp only [hd, e3, Res.shown, hgv out e2]
    rw [Nat.mod_eq_of_lt hs, BitVec.toNat_ofNat, Nat.mod_eq_of_lt x.uns.isLt]
  · simp only [hd] at hs
    obtain ⟨out, r, e1, e2, e3, e4⟩ := C07_signed_roundtrip .le c x.sgn.toInt valid i buf hd pl hs.1 hs.2
    simp only [BitVec.ofInt_toInt] at e1
    refine ⟨out, by unfold Chan.setNumber; simp only [hd, e1]; rfl, e2, fun full => ?_⟩
    unfold Chan.channelValue Chan.expected SetVal.plain
    simp only [hd, e3, Res.shown, hgv out e2, e4]
  · simp only [hd] at hs
    obtain ⟨out, r, e1, e2, e3, e4⟩ := C07_signed_roundtrip .be c x.sgn.toInt valid i buf hd pl hs.1 hs.2
    simp only [BitVec.ofInt_toInt] at e1
    refine ⟨out, by unfold Chan.setNumber; simp only [hd, e1]; rfl, e2, fun full => ?_⟩
    unfold Chan.channelValue Chan.expected SetVal.plain
    simp only [hd, e3, Res.shown, hgv out e2, e4]
  · obtain ⟨out, e1, e2, e3⟩ := C07_float_roundtrip .le c x.f32 x.f64 valid i buf hd pl (hfl (Or.inl hd))
    refine ⟨out, by unfold Chan.setNumber; simp only [hd, e1]; rfl, e2, fun full => ?_⟩
    unfold Chan.channelValue Chan.expected SetVal.plain
    simp only [hd, e3, Res.shown, hgv out e2]
  · obtain ⟨out, e1, e2, e3⟩ := C07_float_roundtrip .be c x.f32 x.f64 valid i buf hd pl (hfl (Or.inr hd))
    refine ⟨out, by unfold Chan.setNumber; simp only [hd, e1]; rfl, e2, fun full => ?_⟩
    unfold Chan.channelValue Chan.expected SetVal.plain
    simp only [hd, e3, Res.shown, hgv out e2]

/-- Setting bytes in the record. -/
theorem setByteArray_own {c : Chan} {i : Nat} {buf : Bytes} (h : Promised c i buf) (hs : c.Sized) (v : Bytes) (valid : Bool)
    (hv : v.length ≤ c.bitCount / 8) : ∃ out, c.setByteArray v valid buf = some out ∧ out.length = buf.length ∧
      c.getValid out 0 = (valid || !c.invalidFlag) ∧
      ∀ full, c.valueBytes out full = .ok (true, v ++ List.replicate (c.bitCount / 8 - v.length) 0) := by
  obtain ⟨rfl, hdb, hin, -⟩ := hs.bytes h []
  have hs' := hs
  obtain ⟨_, ha, h0, h8, hvt⟩ := hs'
  obtain ⟨out, e1, e2, e3⟩ := C07_byte_array_roundtrip c v valid buf (c.bitCount / 8) (by omega) (by omega) h.inRec.bit0 (by omega)
    h.inRec.data h.vp
  refine ⟨out, e1, e2.1, ?_, ?_⟩
  · by_cases hf : c.invalidFlag = true
    · exact e2.2.1 (h.inRec.validPos hf h.idx).2.1
    · rw [(C08_no_flag c valid 0 out (by simpa using hf)).1]
      simp [hf]
  · intro full
    obtain ⟨-, -, -, e4⟩ := hs.bytes (h.of_length e2.1) full
    rw [e4]
    unfold Chan.getByteArray at e3
    rw [if_neg (by omega), if_pos (by have := h.inRec.data; rw [e2.1]; omega)] at e3
    rw [Res.ok.inj e3, List.take_of_length_le hv]

/-- Setting a value of variable length. -/
theorem vlsdSet_own {c : Chan} {i : Nat} {buf : Bytes} (h : Promised c i buf) (hs : c.Unsized) (v sd : Bytes) (hv : v.length < 2 ^ 32) :
    ∃ out sd', c.vlsdSet v true sd buf = some (out, sd') ∧ sd <+: sd' ∧ c.getValid out 0 = true ∧
      ∀ full, sd' <+: full → full.length < 2 ^ 64 → c.valueBytes out full = .ok (true, v) := by
  obtain ⟨hd, ha, h64, ht⟩ := hs
  have hi := h.idx
  obtain rfl : i = 0 := by omega
  have pl : Placed c 0 buf := h.inRec.placed h.idx h.vp (by omega)
  have hlen := setValid_length c true 0 buf
  obtain ⟨out, h1, h2, h3⟩ := vlsd_index c ht (BitVec.ofNat 64 sd.length) true (c.setValid true 0 buf)
    ⟨pl.bit0, pl.size, pl.inside, by rw [hlen]; exact pl.data, by rw [hlen]; exact pl.small, pl.validPos⟩
  refine ⟨out, sd ++ leBytes 4 v.length ++ v, ?_, ?_, ?_, ?_⟩
  · unfold Chan.vlsdSet
    rw [if_neg (by omega)]
    simp only [sdAppend, h1]; rfl
  · rw [List.append_assoc]; exact List.prefix_append ..
  · by_cases hf : c.invalidFlag = true
    · rw [h2.2.1 (by rw [hlen]; exact (h.inRec.validPos hf h.idx).2.1)]; rfl
    · exact (C08_no_flag c true 0 out (by simpa using hf)).1
  · intro full ⟨post, hp⟩ hl
    rw [← hp] at hl ⊢
    unfold Chan.valueBytes Chan.vlsdGet
    rw [if_pos ht, h3, h64]
    dsimp only
    simp only [List.length_append, leBytes_length] at hl
    rw [BitVec.toNat_ofNat, BitVec.toNat_ofNat, Nat.mod_mod, Nat.mod_mod, Nat.mod_eq_of_lt (by omega)]
    exact sdGet_append sd v post hv (by omega)

/-- Setting an element to a value that suits it: the value is read back, whatever is appended to the signal data later. -/
theorem setValue_own {c : Chan} {i : Nat} {buf : Bytes} (h : Promised c i buf) (v : SetVal) (valid : Bool) (sd : Bytes)
    (hs : v.Suits c) (hvl : c.type = .variableLength → valid = true) :
    ∃ out sd', c.setValue v valid i buf sd = some (out, sd') ∧
      ∀ full, sd' <+: full → full.length < 2 ^ 64 → c.channelValue full out i = c.expected (some (v, valid)) := by
  rcases h.kind with ⟨hn, hsz, hfl⟩ | hk | hk
  · have hd := hn.1
    cases v with
    | num x =>
      obtain ⟨out, e1, _, e3⟩ := setNumber_own h hn hsz hfl x valid sd hs
      exact ⟨out, sd, e1, fun full _ _ => e3 full⟩
    | text t =>
      exfalso
      have := hs.1
      rcases hd with e | e | e | e | e | e <;> rcases this with g | g <;> simp [e] at g
    | bytes b =>
      exfalso
      have := hs.1
      rcases hd with e | e | e | e | e | e <;> rcases this with g | g | g <;> simp [e] at g
  · have hi : i = 0 := (hk.bytes h []).1
    subst hi
    have ht := hk.2.2.2.2
    cases v with
    | num x =>
      exfalso
      unfold SetVal.Suits at hs
      rcases hk.1 with e | e | e | e | e <;> simp [e] at hs
    | text t =>
      obtain ⟨hd, hz, hl⟩ := hs
      rw [if_neg ht] at hl
      obtain ⟨out, e1, e2, e3, e4⟩ := setByteArray_own h hk t.text valid (Nat.le_of_lt hl)
      refine ⟨out, sd, ?_, ?_⟩
      · show c.setString t valid 0 buf sd = _
        unfold Chan.setString Chan.setTextValue
        rcases hd with e | ⟨e, -⟩ <;> simp only [e, if_neg ht, setText_eq_setByteArray c t.text valid buf hl, e1] <;> rfl
      · intro full _ _
        have htx : textOf c.dataType (t.text ++ List.replicate (c.bitCount / 8 - t.text.length) 0) = t.text := by
          obtain ⟨m, hm⟩ : ∃ m, c.bitCount / 8 - t.text.length = m + 1 := ⟨c.bitCount / 8 - t.text.length - 1, by omega⟩
          rw [hm, List.replicate_succ]
          exact textOf_fits hd hz _
        unfold Chan.channelValue Chan.expected SetVal.plain
        rcases hd with e | ⟨e, -⟩ <;> rw [e] at htx <;> simp only [e, e4, e3, htx, Bool.true_and]
    | bytes b =>
      obtain ⟨hd, hl⟩ := hs
      rw [if_neg ht] at hl
      have hfv := setValid_framed h.inRec valid h.idx
      obtain ⟨out, e1, e2, e3, e4⟩ := setByteArray_own (h.of_length hfv.len) hk b valid (Nat.le_of_eq hl)
      refine ⟨out, sd, ?_, ?_⟩
      · show c.setBytes b valid 0 buf sd = _
        unfold Chan.setBytes Chan.setByteArrayValue
        rcases hd with e | e | e <;> simp only [e, if_neg ht, e1] <;> rfl
      · intro full _ _
        unfold Chan.channelValue Chan.expected SetVal.plain
        have hrep : b ++ List.replicate (c.bitCount / 8 - b.length) 0 = b := by rw [hl, Nat.sub_self]; simp
        rw [hrep] at e4
        rcases hd with e | e | e <;> simp only [e, e4, e3, Bool.true_and]
  · have ht := hk.2.2.2
    have hval := hvl ht
    subst hval
    have hi : i = 0 := by have := h.idx; have := hk.2.1; omega
    subst hi
    cases v with
    | num x =>
      exfalso
      unfold SetVal.Suits at hs
      rcases hk.1 with e | e | e | e | e <;> simp [e] at hs
    | text t =>
      obtain ⟨hd, hz, hl⟩ := hs
      rw [if_pos ht] at hl
      obtain ⟨out, sd', e1, e2, e3, e4⟩ := vlsdSet_own h hk (t.text ++ [0]) sd (by simpa using hl)
      refine ⟨out, sd', ?_, ?_⟩
      · show c.setString t true 0 buf sd = _
        unfold Chan.setString Chan.setTextValue
        rcases hd with e | ⟨e, -⟩ <;> simp only [e, if_pos ht, e1]
      · intro full hp hf
        have htx : textOf c.dataType (t.text ++ [0]) = t.text := textOf_fits hd hz []
        have e5 := e4 full hp hf
        unfold Chan.channelValue Chan.expected SetVal.plain
        rcases hd with e | ⟨e, -⟩ <;> rw [e] at htx <;> simp only [e, e5, e3, htx, Bool.true_and, Bool.true_or]
    | bytes b =>
      obtain ⟨hd, hl⟩ := hs
      rw [if_pos ht] at hl
      obtain ⟨out, sd', e1, e2, e3, e4⟩ := vlsdSet_own h hk b sd hl
      refine ⟨out, sd', ?_, ?_⟩
      · show c.setBytes b true 0 buf sd = _
        unfold Chan.setBytes Chan.setByteArrayValue
        rcases hd with e | e | e <;> simp only [e, if_pos ht, e1]
      · intro full hp hf
        have e5 := e4 full hp hf
        unfold Chan.channelValue Chan.expected SetVal.plain
        rcases hd with e | e | e <;> simp only [e, e5, e3, Bool.true_and, Bool.true_or]

/-! ### The element that has not been set -/

theorem leNat_zeros (n : Nat) : leNat (List.replicate n (0 : Byte)) = 0 := by
  induction n with
  | zero => rfl
  | succ n ih => rw [List.replicate_succ, leNat, ih]; rfl

theorem fieldOf_zeros (o : Order) (n p m : Nat) : fieldOf o (List.replicate n (0 : Byte)) p m = 0 := by
  cases o
  · show fieldLe _ _ _ = 0
    unfold fieldLe
    rw [leNat_zeros]; simp
  · show fieldBe _ _ _ = 0
    unfold fieldBe beNat
    rw [List.drop_replicate, List.take_replicate, List.reverse_replicate, leNat_zeros]; simp

theorem bitAt_zeros (n p : Nat) : bitAt (List.replicate n (0 : Byte)) p = false := by
  by_cases h : p / 8 < n
  · rw [bitAt_of_lt _ _ (by simpa using h)]
    simp
  · exact bitAt_of_ge _ _ (by simpa using h)

theorem channelValue_unset {c : Chan} {i n : Nat} (h : Promised c i (List.replicate n 0)) (ht : c.type ≠ .variableLength) (sd : Bytes) :
    c.channelValue sd (List.replicate n 0) i = c.expected none := by
  have hv : c.getValid (List.replicate n 0) i = true := by
    rw [getValid_eq c i _ h.vp, bitAt_zeros]; simp
  rcases h.kind with ⟨hn, hsz, hfl⟩ | hk | hk
  · have pl := h.inRec.placed h.idx h.vp hsz
    obtain ⟨g1, g2, g3⟩ := pl.get
    have s := pl.small
    unfold Chan.channelValue Chan.expected Chan.unset
    rcases hn.1 with hd | hd | hd | hd | hd | hd
    · simp only [hd]
      rw [(C05_get_unsigned_le c _ i hd g1 g2 (by omega)).1 g3]
      have := fieldOf_zeros .le n (c.pos i) c.bitCount
      rw [show fieldLe _ _ _ = 0 from this]
      simp only [Res.shown, hv]; simp
    · simp only [hd]
      rw [(C05_get_unsigned_be c _ i hd ht g1 g2 (by omega)).1 g3]
      have := fieldOf_zeros .be n (c.pos i) c.bitCount
      rw [show fieldBe _ _ _ = 0 from this]
      simp only [Res.shown, hv]; simp
    · simp only [hd]
      obtain ⟨r, e1, e2⟩ := (C05_get_signed .le c _ i hd (by omega) (by omega) g1 g2 (by omega)).1 g3
      rw [fieldOf_zeros] at e2
      rw [e1]
      simp only [Res.shown, hv, e2]; simp
    · simp only [hd]
      obtain ⟨r, e1, e2⟩ := (C05_get_signed .be c _ i hd (by omega) (by omega) g1 g2 (by omega)).1 g3
      rw [fieldOf_zeros] at e2
      rw [e1]
      simp only [Res.shown, hv, e2]; simp
    · simp only [hd]
      have := hfl (Or.inl hd)
      rw [(C05_get_float .le c _ i hd (by omega) g1 g2 (by omega)).1 g3, fieldOf_zeros]
      simp only [Res.shown, hv]; simp
    · simp only [hd]
      have := hfl (Or.inr hd)
      rw [(C05_get_float .be c _ i hd (by omega) g1 g2 (by omega)).1 g3, fieldOf_zeros]
      simp only [Res.shown, hv]; simp
  · obtain ⟨rfl, hdb, hin, e1⟩ := hk.bytes h sd
    have hdat := h.inRec.data
    rw [List.length_replicate] at hdat
    have hz : (List.drop c.byteOffset (List.replicate n (0 : Byte))).take c.dataBytes = List.replicate (c.bitCount / 8) 0 := by
      rw [List.drop_replicate, List.take_replicate]
      congr 1; omega
    rw [hz] at e1
    have h0 := hk.2.2.1
    have h8 := hk.2.2.2.1
    obtain ⟨m, hm⟩ : ∃ m, c.bitCount / 8 = m + 1 := ⟨c.bitCount / 8 - 1, by omega⟩
    unfold Chan.channelValue Chan.expected Chan.unset
    rcases hk.1 with hd | hd | hd | hd | hd <;> simp only [hd, e1, hv, Bool.true_and]
    · rw [hm, List.replicate_succ]; rfl
    · rw [hm, List.replicate_succ]; rfl
  · exact absurd hk.2.2.2 ht

end Mdf
