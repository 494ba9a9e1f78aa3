import Verif.Spec.Session
import Verif.Props.Layout
import Verif.Props.Vlsd

/-!
Lemmas for C79: setting a value touches the bytes and validity bits of its channel only, what is read depends on those only.
-/

namespace Mdf

/-! ### A channel in the record -/

/-- A channel of the layout and a buffer for the record. -/
structure InRecord (c : Chan) (buf : Bytes) : Prop where
  bit0 : c.bitOffset = 0
  inside : c.byteOffset + c.span ≤ c.nofDataBytes
  data : c.nofDataBytes ≤ buf.length
  small : buf.length ≤ 2 ^ 28
  valid : c.invalidFlag = true → c.invalidPos + c.validBits ≤ 8 * (buf.length - c.nofDataBytes)

theorem InRecord.of_length {c : Chan} {buf out : Bytes} (h : InRecord c buf) (hl : out.length = buf.length) : InRecord c out :=
  ⟨h.bit0, h.inside, by rw [hl]; exact h.data, by rw [hl]; exact h.small, by rw [hl]; exact h.valid⟩

theorem InRecord.validPos {c : Chan} {buf : Bytes} (h : InRecord c buf) (hf : c.invalidFlag = true) {i : Nat}
    (hi : i < max 1 c.arraySize) : c.ValidPosOk i ∧ c.validPos i / 8 < buf.length ∧
      8 * c.nofDataBytes + c.invalidPos ≤ c.validPos i ∧ c.validPos i < 8 * c.nofDataBytes + c.invalidPos + c.validBits := by
  have h1 := h.valid hf
  have h2 : c.validBits = max 1 c.arraySize := by unfold Chan.validBits; rw [if_pos hf]
  have h3 := h.data
  have h4 := h.small
  unfold Chan.ValidPosOk Chan.validPos
  omega

/-! ### Setting touches the channel only -/

structure FramedBy (c : Chan) (buf out : Bytes) : Prop where
  len : out.length = buf.length
  keep : ∀ p, (p < 8 * c.byteOffset ∨ 8 * (c.byteOffset + c.span) ≤ p) →
    (c.invalidFlag = true → p < 8 * c.nofDataBytes + c.invalidPos ∨ 8 * c.nofDataBytes + c.invalidPos + c.validBits ≤ p) →
    bitAt out p = bitAt buf p

theorem FramedBy.refl (c : Chan) (buf : Bytes) : FramedBy c buf buf := ⟨rfl, fun _ _ _ => rfl⟩

theorem FramedBy.trans {c : Chan} {a b d : Bytes} (h1 : FramedBy c a b) (h2 : FramedBy c b d) : FramedBy c a d :=
  ⟨h2.len.trans h1.len, fun p hp hq => (h2.keep p hp hq).trans (h1.keep p hp hq)⟩

theorem setValid_framed {c : Chan} {buf : Bytes} (h : InRecord c buf) (v : Bool) {i : Nat} (hi : i < max 1 c.arraySize) :
    FramedBy c buf (c.setValid v i buf) := by
  refine ⟨setValid_length .., ?_⟩
  intro p _ hq
  by_cases hf : c.invalidFlag = true
  · obtain ⟨h1, h2, h3, h4⟩ := h.validPos hf hi
    rw [bitAt_setValid c v i buf h1, if_neg]
    rintro ⟨_, _, rfl⟩
    have := hq hf
    omega
  · rw [(C08_no_flag c v i buf (by simpa using hf)).2]

theorem wrBytes_framed {c : Chan} {buf : Bytes} (h : InRecord c buf) {off : Nat} {data : Bytes} (h1 : c.byteOffset ≤ off)
    (h2 : off + data.length ≤ c.byteOffset + c.span) : ∃ out, wrBytes buf off data = some out ∧ FramedBy c buf out := by
  have hin := h.inside
  have hdat := h.data
  have hw := wrBytes_eq_some (buf := buf) (off := off) (data := data) (by omega)
  refine ⟨_, hw, wrBytes_length hw, ?_⟩
  intro p hp _
  apply bitAt_eq_of_byte
  rw [wrBytes_getElem? hw, if_neg (by omega)]

theorem span_of_index (c : Chan) {i : Nat} (hi : i < max 1 c.arraySize) :
    c.dataBytes * i + c.dataBytes ≤ c.span := by
  unfold Chan.span
  have := Nat.mul_le_mul_left c.dataBytes (show i + 1 ≤ max 1 c.arraySize from hi)
  rw [Nat.mul_succ] at this
  exact this

theorem setInt_framed {c : Chan} {buf : Bytes} (h : InRecord c buf) (o : Order) {ci : Nat} (value : BitVec 64) (valid : Bool) {i : Nat}
    (hi : i < max 1 c.arraySize) (hci : ci ≤ i + 1) : ∃ out, c.setInt o ci value valid i buf = some out ∧ FramedBy c buf out := by
  unfold Chan.setInt
  by_cases hne : buf = []
  · rw [if_pos hne]; exact ⟨_, rfl, FramedBy.refl ..⟩
  rw [if_neg hne]
  have hsp := span_of_index c hi
  have hin := h.inside
  have hdat := h.data
  have hsm := h.small
  have h1 : c.dataBytes * ci ≤ c.dataBytes * i + c.dataBytes := by
    have := Nat.mul_le_mul_left c.dataBytes hci
    rwa [Nat.mul_succ] at this
  dsimp only
  rw [if_neg (by omega)]
  have hfv := setValid_framed h valid hi
  cases hd : intBytes o c.dataBytes value with
  | none => exact ⟨_, rfl, hfv.trans (setValid_framed (h.of_length hfv.len) false hi)⟩
  | some data =>
    have hl := intBytes_length hd
    rw [Nat.mod_eq_of_lt (show c.dataBytes * i < 2 ^ 64 by omega), Nat.mod_eq_of_lt (by omega)]
    obtain ⟨out, e1, e2⟩ := wrBytes_framed (h.of_length hfv.len) (off := c.byteOffset + c.dataBytes * i) (data := data) (by omega)
      (by omega)
    exact ⟨out, e1, hfv.trans e2⟩

theorem floatBytes_length {o : Order} {n : Nat} {a : BitVec 32} {b : BitVec 64} {data : Bytes} (h : floatBytes o n a b = some data) :
    data.length = n := by
  unfold floatBytes at h
  split at h
  · rename_i hn; rw [← Option.some.inj h]; cases o <;> simp [orderBytes, beBytes, hn]
  · split at h
    · rename_i hn; rw [← Option.some.inj h]; cases o <;> simp [orderBytes, beBytes, hn]
    · cases h

theorem setFloat_framed {c : Chan} {buf : Bytes} (h : InRecord c buf) (o : Order) (a : BitVec 32) (b : BitVec 64) (valid : Bool) {i : Nat}
    (hi : i < max 1 c.arraySize) : ∃ out, c.setFloat o a b valid i buf = some out ∧ FramedBy c buf out := by
  unfold Chan.setFloat
  by_cases hne : buf = []
  · rw [if_pos hne]; exact ⟨_, rfl, FramedBy.refl ..⟩
  rw [if_neg hne]
  have hsp := span_of_index c hi
  have hin := h.inside
  have hdat := h.data
  have hsm := h.small
  have h1 : c.dataBytes * (i + 1) = c.dataBytes * i + c.dataBytes := Nat.mul_succ _ _
  dsimp only
  rw [if_neg (by omega)]
  have hfv := setValid_framed h valid hi
  cases hd : floatBytes o c.dataBytes a b with
  | none => exact ⟨_, rfl, hfv.trans (setValid_framed (h.of_length hfv.len) false hi)⟩
  | some data =>
    have hl := floatBytes_length hd
    rw [Nat.mod_eq_of_lt (show c.dataBytes * i < 2 ^ 64 by omega), Nat.mod_eq_of_lt (by omega)]
    obtain ⟨out, e1, e2⟩ := wrBytes_framed (h.of_length hfv.len) (off := c.byteOffset + c.dataBytes * i) (data := data) (by omega)
      (by omega)
    exact ⟨out, e1, hfv.trans e2⟩

theorem zero_index (c : Chan) : 0 < max 1 c.arraySize := by omega

theorem bytes_le_span (c : Chan) : c.bitCount / 8 ≤ c.span := by
  have h := span_of_index c (zero_index c)
  have : c.bitCount / 8 ≤ c.dataBytes := by unfold Chan.dataBytes; omega
  omega

/-- Zeros are written, then at most as many bytes of the value. -/
theorem put_framed {c : Chan} {buf : Bytes} (h : InRecord c buf) (v : Bytes) (hv : v.length ≤ c.bitCount / 8) :
    ∃ out, ((wrBytes buf c.byteOffset (List.replicate (c.bitCount / 8) 0)).bind fun b => wrBytes b c.byteOffset v) = some out ∧
      FramedBy c buf out := by
  have hs := bytes_le_span c
  obtain ⟨mid, e1, e2⟩ := wrBytes_framed h (off := c.byteOffset) (data := List.replicate (c.bitCount / 8) 0) (Nat.le_refl _)
    (by rw [List.length_replicate]; omega)
  obtain ⟨out, e3, e4⟩ := wrBytes_framed (h.of_length e2.len) (off := c.byteOffset) (data := v) (Nat.le_refl _) (by omega)
  exact ⟨out, by rw [e1]; exact e3, e2.trans e4⟩

theorem setText_framed {c : Chan} {buf : Bytes} (h : InRecord c buf) (v : Bytes) (valid : Bool) :
    ∃ out, c.setText v valid buf = some out ∧ FramedBy c buf out := by
  have hfv := setValid_framed h valid (zero_index c)
  unfold Chan.setText
  by_cases h0 : c.bitCount / 8 = 0
  · rw [if_pos h0]
    exact ⟨_, rfl, hfv.trans (setValid_framed (h.of_length hfv.len) false (zero_index c))⟩
  rw [if_neg h0]
  obtain ⟨out, e1, e2⟩ := put_framed (h.of_length hfv.len) (if v.length < c.bitCount / 8 then v else v.take (c.bitCount / 8 - 1)) (by
    split
    · omega
    · rw [List.length_take]; omega)
  refine ⟨out, ?_, hfv.trans e2⟩
  rw [← e1]
  by_cases hl : v.length < c.bitCount / 8 <;> simp [hl] <;> rfl

theorem setByteArray_framed {c : Chan} {buf : Bytes} (h : InRecord c buf) (v : Bytes) (valid : Bool) :
    ∃ out, c.setByteArray v valid buf = some out ∧ FramedBy c buf out := by
  have hfv := setValid_framed h valid (zero_index c)
  unfold Chan.setByteArray
  by_cases h0 : c.bitCount / 8 = 0
  · rw [if_pos h0]
    exact ⟨_, rfl, hfv.trans (setValid_framed (h.of_length hfv.len) false (zero_index c))⟩
  rw [if_neg h0]
  obtain ⟨out, e1, e2⟩ := put_framed (h.of_length hfv.len) (if v.length ≤ c.bitCount / 8 then v else v.take (c.bitCount / 8)) (by
    split
    · omega
    · rw [List.length_take]; omega)
  refine ⟨out, ?_, hfv.trans e2⟩
  rw [← e1]
  by_cases hl : v.length ≤ c.bitCount / 8 <;> simp [hl] <;> rfl

/-- The result of a setter of the session: it is defined, touches the channel only and appends to the signal data. -/
def SetDone (c : Chan) (buf sd : Bytes) (r : Option (Bytes × Bytes)) : Prop :=
  ∃ out sd', r = some (out, sd') ∧ FramedBy c buf out ∧ sd <+: sd'

theorem SetDone.of_framed {c : Chan} {buf sd : Bytes} {r : Option Bytes} (h : ∃ out, r = some out ∧ FramedBy c buf out) :
    SetDone c buf sd (r.map fun b => (b, sd)) := by
  obtain ⟨out, rfl, h2⟩ := h
  exact ⟨out, sd, rfl, h2, List.prefix_refl _⟩

theorem SetDone.invalid {c : Chan} {buf : Bytes} (h : InRecord c buf) (sd : Bytes) {i : Nat} (hi : i < max 1 c.arraySize) :
    SetDone c buf sd (some (c.setValid false i buf, sd)) := ⟨_, _, rfl, setValid_framed h false hi, List.prefix_refl _⟩

theorem SetDone.same (c : Chan) (buf sd : Bytes) : SetDone c buf sd (some (buf, sd)) :=
  ⟨_, _, rfl, FramedBy.refl .., List.prefix_refl _⟩

theorem vlsdSet_done {c : Chan} {buf : Bytes} (h : InRecord c buf) (v : Bytes) (valid : Bool) (sd : Bytes) :
    SetDone c buf sd (c.vlsdSet v valid sd buf) := by
  have hfv := setValid_framed h valid (zero_index c)
  unfold Chan.vlsdSet
  by_cases h0 : c.bitCount = 0
  · simp only [if_pos h0]
    exact ⟨_, _, rfl, hfv.trans (setValid_framed (h.of_length hfv.len) false (zero_index c)),
      by unfold sdAppend; rw [List.append_assoc]; exact List.prefix_append ..⟩
  · simp only [if_neg h0]
    obtain ⟨out, e1, e2⟩ := setInt_framed (h.of_length hfv.len) .le (ci := 0 + 1) (BitVec.ofNat 64 (sdAppend sd v).1) true
      (zero_index c) (Nat.le_refl _)
    unfold Chan.setUnsignedLe
    rw [e1]
    exact ⟨_, _, rfl, hfv.trans e2, by unfold sdAppend; rw [List.append_assoc]; exact List.prefix_append ..⟩

theorem setTextValue_done {c : Chan} {buf : Bytes} (h : InRecord c buf) (v : Bytes) (valid : Bool) (sd : Bytes) :
    SetDone c buf sd (c.setTextValue v valid buf sd) := by
  unfold Chan.setTextValue
  split
  · exact vlsdSet_done h ..
  · exact .of_framed (setText_framed h v valid)

theorem setByteArrayValue_done {c : Chan} {buf : Bytes} (h : InRecord c buf) (v : Bytes) (valid : Bool) (sd : Bytes) :
    SetDone c buf sd (c.setByteArrayValue v valid buf sd) := by
  unfold Chan.setByteArrayValue
  split
  · exact vlsdSet_done h ..
  · have hfv := setValid_framed h valid (zero_index c)
    obtain ⟨out, e1, e2⟩ := setByteArray_framed (h.of_length hfv.len) v valid
    exact .of_framed ⟨out, e1, hfv.trans e2⟩

theorem orThrow_done {α : Type} {c : Chan} {buf sd : Bytes} (o : Option α) (f : α → Option Bytes)
    (h : ∀ a, ∃ out, f a = some out ∧ FramedBy c buf out) : SetDone c buf sd (orThrow o buf sd f) := by
  unfold orThrow
  cases o with
  | none => exact .same ..
  | some a => exact .of_framed (h a)

theorem setNumber_done {c : Chan} {buf : Bytes} (h : InRecord c buf) (x : NumCasts) (valid : Bool) {i : Nat}
    (hi : i < max 1 c.arraySize) (sd : Bytes) : SetDone c buf sd (c.setNumber x valid i buf sd) := by
  unfold Chan.setNumber
  split
  · exact .of_framed (setInt_framed h _ _ _ hi (Nat.le_refl _))
  · exact .of_framed (setInt_framed h _ _ _ hi (Nat.le_succ _))
  · exact .of_framed (setInt_framed h _ _ _ hi (Nat.le_refl _))
  · exact .of_framed (setInt_framed h _ _ _ hi (Nat.le_refl _))
  · exact .of_framed (setFloat_framed h _ _ _ _ hi)
  · exact .of_framed (setFloat_framed h _ _ _ _ hi)
  all_goals first
    | exact setTextValue_done h ..
    | exact .same ..
    | exact .invalid h sd hi
    | skip
  · cases x.canOpen with
    | none => exact .invalid h sd hi
    | some a =>
      dsimp only
      split
      · exact setByteArrayValue_done h ..
      · exact .invalid h sd hi
  · cases x.canOpen with
    | none => exact .invalid h sd hi
    | some a =>
      dsimp only
      split
      · exact setByteArrayValue_done h ..
      · exact .invalid h sd hi

theorem setString_done {c : Chan} {buf : Bytes} (h : InRecord c buf) (t : TextCasts) (valid : Bool) {i : Nat}
    (hi : i < max 1 c.arraySize) (sd : Bytes) : SetDone c buf sd (c.setString t valid i buf sd) := by
  unfold Chan.setString
  split
  · exact orThrow_done _ _ fun _ => setInt_framed h _ _ _ hi (Nat.le_refl _)
  · exact orThrow_done _ _ fun _ => setInt_framed h _ _ _ hi (Nat.le_succ _)
  · exact orThrow_done _ _ fun _ => setInt_framed h _ _ _ hi (Nat.le_refl _)
  · exact orThrow_done _ _ fun _ => setInt_framed h _ _ _ hi (Nat.le_refl _)
  · exact orThrow_done _ _ fun _ => setFloat_framed h _ _ _ _ hi
  · exact orThrow_done _ _ fun _ => setFloat_framed h _ _ _ _ hi
  all_goals first
    | exact setTextValue_done h ..
    | exact setByteArrayValue_done h ..
    | exact .invalid h sd hi

theorem setBytes_done {c : Chan} {buf : Bytes} (h : InRecord c buf) (v : Bytes) (valid : Bool) {i : Nat}
    (hi : i < max 1 c.arraySize) (sd : Bytes) : SetDone c buf sd (c.setBytes v valid i buf sd) := by
  unfold Chan.setBytes
  split
  all_goals first
    | exact setByteArrayValue_done h ..
    | exact .invalid h sd hi
    | (split
       · exact setByteArrayValue_done h ..
       · exact .invalid h sd hi)

theorem setValue_done {c : Chan} {buf : Bytes} (h : InRecord c buf) (v : SetVal) (valid : Bool) {i : Nat}
    (hi : i < max 1 c.arraySize) (sd : Bytes) : SetDone c buf sd (c.setValue v valid i buf sd) := by
  cases v with
  | num x => exact setNumber_done h x valid hi sd
  | text t => exact setString_done h t valid hi sd
  | bytes b => exact setBytes_done h b valid hi sd

end Mdf
