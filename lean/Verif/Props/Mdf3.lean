import Verif.Proof.Mdf3Read
import Verif.Proof.Mdf3Chan

/-!
# Properties C42, C43, C53, C54: MDF 3 files

Specification vocabulary: `Verif.Spec.Mdf3`, and `Placed`, `Stored`, `SameValue` of Verif.Props.Channel and Verif.Props.Layout.
-/

namespace Mdf

/-! ### C42 positions in the record -/

/-- **C42**.  The byte offset set on a channel is read back, and the value starts at a byte boundary, exactly for the
offsets inside the largest MDF 3 record. -/
theorem C42_byte_offset (c : Cn3) (n : Nat) (h : n < 2 ^ 32) :
    ((c.setByteOffset n).byteOffset = n ↔ n < 65536) ∧ (c.setByteOffset n).bitOffset = 0 := by
  obtain ⟨h1, h2⟩ := setByteOffset_get c n h
  exact ⟨by omega, h2⟩

/-- **C42** (files).  The position of a channel that was read from a file is the sum of the two offsets stored in the file. -/
theorem C42_stored_position (c : Cn3) (h1 : c.start < 2 ^ 16) (h2 : c.byte < 2 ^ 16) :
    8 * c.byteOffset + c.bitOffset = c.start + 8 * c.byte ∧ c.bitOffset < 8 := by
  unfold Cn3.byteOffset Cn3.bitOffset
  omega

example : (Cn3.new.setByteOffset 65535).byteOffset = 65535 ∧ (Cn3.new.setByteOffset 8192).byteOffset = 8192 ∧
    (Cn3.new.setByteOffset 65536).byteOffset = 0 := by decide

/-- **C42** (layout).  Preparing a group for writing succeeds exactly if its channels fit in an MDF 3 record; then the
record is as long as all channels together, every channel starts at the byte where the channels before it end, and keeps its
size and type. -/
theorem C42_layout (cs : List Cn3) :
    ((prepare3 cs).1 = true ↔ (cs.map Cn3.dataBytes).sum ≤ 65535) ∧
    ((prepare3 cs).1 = true → (prepare3 cs).2.2 = (cs.map Cn3.dataBytes).sum ∧ (prepare3 cs).2.1.length = cs.length ∧
      ∀ k c, (prepare3 cs).2.1[k]? = some c → ∃ c0, cs[k]? = some c0 ∧
        c.byteOffset = ((cs.map Cn3.dataBytes).take k).sum ∧ c.bitOffset = 0 ∧ c.bits = c0.bits ∧ c.signal = c0.signal ∧
        c.byteOffset + c.dataBytes ≤ (prepare3 cs).2.2) := by
  have htot := place3_total cs 0
  rw [Nat.zero_add] at htot
  have hok : (prepare3 cs).1 = true ↔ (cs.map Cn3.dataBytes).sum ≤ 65535 := by
    unfold prepare3; dsimp only; rw [htot, decide_eq_true_iff]
  refine ⟨hok, fun h => ?_⟩
  have hle := hok.mp h
  have hsize : (prepare3 cs).2.2 = (cs.map Cn3.dataBytes).sum := by
    unfold prepare3 u16; dsimp only; rw [htot]; omega
  refine ⟨hsize, ?_, ?_⟩
  · have key : ∀ (cs : List Cn3) (size : Nat), (place3 size cs).1.length = cs.length := by
      intro cs
      induction cs with
      | nil => intro; rfl
      | cons c cs ih =>
        intro size
        show (place3 (size + (c.setByteOffset (size % 2 ^ 32)).dataBytes) cs).1.length + 1 = _
        rw [ih]; rfl
    exact key cs 0
  · intro k c hk
    have hk' : (place3 0 cs).1[k]? = some c := hk
    rw [place3_get, Nat.zero_add, Option.map_eq_some_iff] at hk'
    obtain ⟨c0, h0, rfl⟩ := hk'
    have h1 := sum_take_le (cs.map Cn3.dataBytes) k
    have h2 := sum_take_le (cs.map Cn3.dataBytes) (k + 1)
    have h3 := sum_take_succ (l := cs.map Cn3.dataBytes) (k := k) (n := c0.dataBytes) (by rw [List.getElem?_map, h0]; rfl)
    obtain ⟨s1, s2, _, _⟩ := setByteOffset_same c0 (((cs.take k).map Cn3.dataBytes).sum % 2 ^ 32)
    rw [← List.map_take] at h1
    obtain ⟨g1, g2⟩ := setByteOffset_get c0 (((cs.take k).map Cn3.dataBytes).sum % 2 ^ 32) (by omega)
    refine ⟨c0, h0, ?_, g2, s1, s2, ?_⟩
    · rw [g1, ← List.map_take]; omega
    · rw [g1, setByteOffset_dataBytes, hsize]
      rw [← List.map_take, ← List.map_take] at h3
      rw [← List.map_take] at h2
      omega

/-- **C42** (disjoint).  In a prepared group the bytes of a channel end before the bytes of the channels after it begin. -/
theorem C42_disjoint (cs : List Cn3) (ok : (prepare3 cs).1 = true) (p q : Nat) (hpq : p < q) (a b : Cn3)
    (ha : (prepare3 cs).2.1[p]? = some a) (hb : (prepare3 cs).2.1[q]? = some b) : a.byteOffset + a.dataBytes ≤ b.byteOffset := by
  obtain ⟨_, h⟩ := C42_layout cs
  obtain ⟨hsz, hl, hall⟩ := h ok
  obtain ⟨a0, ha0, h1, _, h2, _, _⟩ := hall p a ha
  obtain ⟨b0, hb0, h3, _, _, _, _⟩ := hall q b hb
  have e : a.dataBytes = a0.dataBytes := by unfold Cn3.dataBytes; rw [h2]
  have h4 := sum_take_succ (l := cs.map Cn3.dataBytes) (k := p) (n := a0.dataBytes) (by rw [List.getElem?_map, ha0]; rfl)
  have h5 := sum_take_mono (cs.map Cn3.dataBytes) (j := p + 1) (k := q) (by omega)
  omega

/-- **C42** (bits).  In a prepared group all bits of a channel, whatever their number, lie within the record, before the
channels after it; and no channel takes a whole byte more than it needs. -/
theorem C42_bits (cs : List Cn3) (ok : (prepare3 cs).1 = true) (p : Nat) (a : Cn3) (ha : (prepare3 cs).2.1[p]? = some a) :
    8 * a.byteOffset + a.bitOffset + a.bits ≤ 8 * (prepare3 cs).2.2 ∧ 8 * a.dataBytes < a.bits + 8 ∧
    ∀ q b, p < q → (prepare3 cs).2.1[q]? = some b → 8 * a.byteOffset + a.bitOffset + a.bits ≤ 8 * b.byteOffset := by
  obtain ⟨_, h⟩ := C42_layout cs
  obtain ⟨_, _, hall⟩ := h ok
  obtain ⟨a0, _, _, h2, _, _, h3⟩ := hall p a ha
  have hd : a.bits ≤ 8 * a.dataBytes ∧ 8 * a.dataBytes < a.bits + 8 := by
    unfold Cn3.dataBytes; split <;> omega
  refine ⟨by omega, hd.2, ?_⟩
  intro q b hpq hb
  have := C42_disjoint cs ok p q hpq a b ha hb
  omega

example : (prepare3 [Cn3.new.setBitCount 12, Cn3.new.setBitCount 3, Cn3.new.setBitCount 8]).2.1.map
      (fun c => (c.byteOffset, c.bits)) = [(0, 12), (2, 3), (3, 8)] ∧
    (prepare3 [Cn3.new.setBitCount 12, Cn3.new.setBitCount 3, Cn3.new.setBitCount 8]).2.2 = 4 := by decide

/-- A channel of a prepared group is where the functions that set and get values expect it. -/
theorem placed3 (cs : List Cn3) (ok : (prepare3 cs).1 = true) (p : Nat) (a : Cn3) (ha : (prepare3 cs).2.1[p]? = some a)
    (big : Bool) (hs : a.bits = 8 ∨ a.bits = 16 ∨ a.bits = 32 ∨ a.bits = 64) (buf : Bytes) (hb : buf.length = (prepare3 cs).2.2) :
    Placed (a.chan big (prepare3 cs).2.2) 0 buf := by
  obtain ⟨hok, h⟩ := C42_layout cs
  obtain ⟨hsz, hl, hall⟩ := h ok
  obtain ⟨a0, _, h1, h2, _, _, h3⟩ := hall p a ha
  have hle := hok.mp ok
  refine ⟨h2, hs, ?_, by show (prepare3 cs).2.2 ≤ _; omega, by omega, ?_⟩
  · unfold Chan.Inside Chan.pos
    show 8 * a.byteOffset + a.bitOffset + 0 * a.bits + a.bits ≤ 8 * (prepare3 cs).2.2
    unfold Cn3.dataBytes at h3
    rcases hs with e | e | e | e <;> rw [e] at h3 ⊢ <;> simp at h3 <;> omega
  · unfold Chan.ValidPosOk
    show 0 + 0 < 2 ^ 32 ∧ (prepare3 cs).2.2 < 2 ^ 31
    omega

/-- **C42** (values).  In a prepared group: a value set on a channel reads back, and the values of all other channels stay
as they were. -/
theorem C42_set_get (cs : List Cn3) (ok : (prepare3 cs).1 = true) (big : Bool) (p : Nat) (a : Cn3)
    (ha : (prepare3 cs).2.1[p]? = some a) (hs : a.bits = 8 ∨ a.bits = 16 ∨ a.bits = 32 ∨ a.bits = 64)
    (ht : a.dataType big = .unsignedLe) (value : BitVec 64) (buf : Bytes) (hb : buf.length = (prepare3 cs).2.2) :
    ∃ out, (a.chan big (prepare3 cs).2.2).setUnsignedLe value true 0 buf = some out ∧
      (a.chan big (prepare3 cs).2.2).getUnsigned out 0 = .ok (BitVec.ofNat 64 (value.toNat % 2 ^ a.bits)) ∧
      ∀ q b, q ≠ p → (prepare3 cs).2.1[q]? = some b → (b.bits = 8 ∨ b.bits = 16 ∨ b.bits = 32 ∨ b.bits = 64) →
        SameValue (b.chan big (prepare3 cs).2.2) 0 buf out := by
  have pa := placed3 cs ok p a ha big hs buf hb
  obtain ⟨out, h1, h2, h3⟩ := C07_unsigned_le_roundtrip (a.chan big (prepare3 cs).2.2) value true 0 buf ht pa
  refine ⟨out, h1, h3, ?_⟩
  intro q b hqp hb' hsb
  have pb := placed3 cs ok q b hb' big hsb buf hb
  refine C09_store_keeps_others _ _ 0 0 true buf out pa pb h2 rfl ?_ (fun h => nomatch (show false = true from h))
  show 8 * a.byteOffset + a.bitOffset + 0 * a.bits + a.bits ≤ 8 * b.byteOffset + b.bitOffset + 0 * b.bits ∨
    8 * b.byteOffset + b.bitOffset + 0 * b.bits + b.bits ≤ 8 * a.byteOffset + a.bitOffset + 0 * a.bits
  have da : 8 * a.dataBytes = a.bits := by
    unfold Cn3.dataBytes; rcases hs with e | e | e | e <;> rw [e] <;> rfl
  have db : 8 * b.dataBytes = b.bits := by
    unfold Cn3.dataBytes; rcases hsb with e | e | e | e <;> rw [e] <;> rfl
  obtain ⟨_, h⟩ := C42_layout cs
  obtain ⟨_, _, hall⟩ := h ok
  obtain ⟨_, _, _, a0, _⟩ := hall p a ha
  obtain ⟨_, _, _, b0, _⟩ := hall q b hb'
  rcases Nat.lt_or_gt_of_ne hqp with h | h
  · right; have := C42_disjoint cs ok q p h b a hb' ha; omega
  · left; have := C42_disjoint cs ok p q h a b ha hb'; omega

/-- A group with a master of 8 bytes, a text of 9000 bytes (more than the bit offset can address) and two counters. -/
def exCns : List Cn3 :=
  [ { ({ Cn3.new with master := true }.setDataType false .floatLe) with bits := 64 }, Cn3.new.setBitCount 16,
    (Cn3.new.setDataBytes 8000).setDataType false .stringAscii, (Cn3.new.setDataBytes 1000).setDataType false .stringAscii,
    (Cn3.new.setBitCount 32).setDataType false .unsignedLe ]

example : (prepare3 exCns).1 = true ∧ (prepare3 exCns).2.2 = 9014 ∧
    (prepare3 exCns).2.1.map (fun c => (c.byteOffset, c.start, c.byte, c.dataBytes)) =
      [(0, 0, 0, 8), (8, 64, 0, 2), (10, 80, 0, 8000), (8010, 64080, 0, 1000), (9010, 6544, 8192, 4)] ∧
    (prepare3 exCns).2.1.map (·.dataType false) = [.floatLe, .unsignedLe, .stringAscii, .stringAscii, .unsignedLe] := by
  decide +kernel

/-! ### C53 byte and bit position -/

/-- The user sets the byte and the bit position of a channel, in one of the two orders. -/
def Cn3.setPosition (c : Cn3) (bitFirst : Bool) (byte bit : Nat) : Cn3 :=
  if bitFirst then (c.setBitOffset bit).setByteOffset byte else (c.setByteOffset byte).setBitOffset bit

/-- The full property: a position inside a record can be set. -/
def C53_PositionStatement : Prop :=
  ∀ (c : Cn3) (byte bit : Nat), byte < 65536 → bit < 8 →
    ∃ bitFirst, (c.setPosition bitFirst byte bit).byteOffset = byte ∧ (c.setPosition bitFirst byte bit).bitOffset = bit

/-- **C53**.  What is read back after setting both positions: setting the bit offset clears the byte offset below 8192,
setting the byte offset clears the bit offset. -/
theorem C53_positions (c : Cn3) (byte bit : Nat) (h1 : byte < 65536) (h2 : bit < 8) :
    (c.setPosition true byte bit).byteOffset = byte ∧ (c.setPosition true byte bit).bitOffset = 0 ∧
    (c.setPosition false byte bit).byteOffset = byte / 8192 * 8192 ∧ (c.setPosition false byte bit).bitOffset = bit := by
  obtain ⟨a1, a2⟩ := setByteOffset_get (c.setBitOffset bit) byte (by omega)
  refine ⟨by show (Cn3.setByteOffset _ _).byteOffset = _; omega, a2, ?_, ?_⟩
  · show ((c.setByteOffset byte).setBitOffset bit).byteOffset = _
    unfold Cn3.setByteOffset kBitOffset
    split
    · unfold Cn3.byteOffset Cn3.setBitOffset u16; dsimp only; omega
    · unfold Cn3.byteOffset Cn3.setBitOffset u16; dsimp only; omega
  · show ((c.setByteOffset byte).setBitOffset bit).bitOffset = _
    unfold Cn3.bitOffset Cn3.setBitOffset u16; dsimp only; omega

/-- **C53** (part).  A position can be set if it is at a byte boundary or in the first byte of a block of 8192 bytes. -/
theorem C53_position_partial (c : Cn3) (byte bit : Nat) (h1 : byte < 65536) (h2 : bit < 8) (h : bit = 0 ∨ byte % 8192 = 0) :
    ∃ bitFirst, (c.setPosition bitFirst byte bit).byteOffset = byte ∧ (c.setPosition bitFirst byte bit).bitOffset = bit := by
  obtain ⟨a, b, d, e⟩ := C53_positions c byte bit h1 h2
  rcases h with h | h
  · exact ⟨true, a, by omega⟩
  · exact ⟨false, by omega, e⟩

/-- **C53** is false of the code for every other position. -/
theorem C53_position_false (c : Cn3) (byte bit : Nat) (h1 : byte < 65536) (h2 : bit < 8) (hb : 0 < bit) (hm : byte % 8192 ≠ 0) :
    ¬ ∃ bitFirst, (c.setPosition bitFirst byte bit).byteOffset = byte ∧ (c.setPosition bitFirst byte bit).bitOffset = bit := by
  obtain ⟨a, b, d, e⟩ := C53_positions c byte bit h1 h2
  rintro ⟨f, g, i⟩
  cases f
  · omega
  · omega

theorem C53_position_statement_false : ¬ C53_PositionStatement := fun h =>
  C53_position_false Cn3.new 1 3 (by decide) (by decide) (by decide) (by decide) (h Cn3.new 1 3 (by decide) (by decide))

/-! ### C54 data types -/

/-- The data types MDF 3 has. -/
def Supported3 (t : DataType) : Prop :=
  t = .unsignedLe ∨ t = .unsignedBe ∨ t = .signedLe ∨ t = .signedBe ∨ t = .floatLe ∨ t = .floatBe ∨ t = .stringAscii ∨
  t = .byteArray ∨ t = .canOpenDate ∨ t = .canOpenTime

/-- The other properties of a channel the user sets. -/
inductive Cn3Op where
  | bitCount (n : Nat) | bitOffset (n : Nat) | byteOffset (n : Nat) | dataBytes (n : Nat)
deriving DecidableEq, Repr

def Cn3.apply (c : Cn3) : Cn3Op → Cn3
  | .bitCount n => c.setBitCount n
  | .bitOffset n => c.setBitOffset n
  | .byteOffset n => c.setByteOffset n
  | .dataBytes n => c.setDataBytes n

theorem dataBytes_keeps (c : Cn3) (big : Bool) (n : Nat) : (c.setDataBytes n).dataType big = c.dataType big := by
  unfold Cn3.setDataBytes Cn3.dataType
  dsimp only
  by_cases h : n = 8 ∧ (c.signal = 2 ∨ c.signal = 11 ∨ c.signal = 15)
  · rw [if_pos h]
    rcases h.2 with e | e | e <;> rw [e] <;> cases big <;> rfl
  · rw [if_neg h]

theorem dataType_congr (c d : Cn3) (big : Bool) (h1 : c.signal = d.signal) (h2 : c.cc = d.cc) : c.dataType big = d.dataType big := by
  unfold Cn3.dataType; rw [h1, h2]

theorem default_keeps (c : Cn3) (big : Bool) (n : Nat) : (c.defaultBytes n).dataType big = c.dataType big := by
  unfold Cn3.defaultBytes
  split
  · exact dataBytes_keeps c big n
  · rfl

theorem apply_keeps (c : Cn3) (big : Bool) (op : Cn3Op) : (c.apply op).dataType big = c.dataType big := by
  cases op with
  | bitCount n => rfl
  | bitOffset n => rfl
  | byteOffset n => obtain ⟨_, h1, h2, _⟩ := setByteOffset_same c n; exact dataType_congr _ _ _ h1 h2
  | dataBytes n => exact dataBytes_keeps c big n

theorem setFloat_type (c : Cn3) (big : Bool) (s : Nat) (t : DataType) (h1 : ∀ d : Cn3, d.signal = s → d.dataType big = t)
    (h2 : ∀ d : Cn3, d.signal = s + 1 → d.dataType big = t) : (c.setFloat s).dataType big = t := by
  unfold Cn3.setFloat
  dsimp only
  split
  · exact h2 _ rfl
  · rw [default_keeps]; exact h1 _ rfl

theorem type_of_signal (c : Cn3) (big : Bool) (h : c.signal ≠ 8) :
    c.dataType big = ({ Cn3.new with signal := c.signal } : Cn3).dataType big := by
  unfold Cn3.dataType
  dsimp only [Cn3.new]
  simp only [if_neg h]

/-- The full property: the data type set on a channel is the one that is read back. -/
def C54_TypeStatement : Prop := ∀ (c : Cn3) (big : Bool) (t : DataType), Supported3 t → (c.setDataType big t).dataType big = t

/-- **C54** (part).  The data type set on a channel is the one read back, in files of both byte orders, whatever the channel
was before and whatever is set afterwards; except that a byte array needs a channel that is not a date or time. -/
theorem C54_data_type_partial (c : Cn3) (big : Bool) (t : DataType) (h : Supported3 t)
    (hb : t = .byteArray → c.cc ≠ some .date ∧ c.cc ≠ some .time) (ops : List Cn3Op) :
    (ops.foldl Cn3.apply (c.setDataType big t)).dataType big = t := by
  have key : ∀ (ops : List Cn3Op) (d : Cn3), (ops.foldl Cn3.apply d).dataType big = d.dataType big := by
    intro ops
    induction ops with
    | nil => intro; rfl
    | cons op ops ih => intro d; rw [List.foldl_cons, ih, apply_keeps]
  rw [key]
  have hsig : ∀ (d : Cn3) (s : Nat) (t : DataType), d.signal = s → s ≠ 8 →
      ({ Cn3.new with signal := s } : Cn3).dataType big = t → d.dataType big = t := by
    intro d s t e h8 ht
    rw [type_of_signal d big (by omega), e]; exact ht
  rcases h with rfl | rfl | rfl | rfl | rfl | rfl | rfl | rfl | rfl | rfl
  · rw [Cn3.setDataType, default_keeps]; cases big
    · exact hsig _ 0 _ rfl (by decide) rfl
    · exact hsig _ 13 _ rfl (by decide) rfl
  · rw [Cn3.setDataType, default_keeps]; cases big
    · exact hsig _ 9 _ rfl (by decide) rfl
    · exact hsig _ 0 _ rfl (by decide) rfl
  · rw [Cn3.setDataType, default_keeps]; cases big
    · exact hsig _ 1 _ rfl (by decide) rfl
    · exact hsig _ 14 _ rfl (by decide) rfl
  · rw [Cn3.setDataType, default_keeps]; cases big
    · exact hsig _ 10 _ rfl (by decide) rfl
    · exact hsig _ 1 _ rfl (by decide) rfl
  · rw [Cn3.setDataType]; cases big
    · exact setFloat_type c _ 2 _ (fun d e => hsig d 2 _ e (by decide) rfl) (fun d e => hsig d 3 _ e (by decide) rfl)
    · exact setFloat_type c _ 15 _ (fun d e => hsig d 15 _ e (by decide) rfl) (fun d e => hsig d 16 _ e (by decide) rfl)
  · rw [Cn3.setDataType]; cases big
    · exact setFloat_type c _ 11 _ (fun d e => hsig d 11 _ e (by decide) rfl) (fun d e => hsig d 12 _ e (by decide) rfl)
    · exact setFloat_type c _ 2 _ (fun d e => hsig d 2 _ e (by decide) rfl) (fun d e => hsig d 3 _ e (by decide) rfl)
  · rw [Cn3.setDataType, default_keeps]; exact hsig _ 7 _ rfl (by decide) rfl
  · rw [Cn3.setDataType, default_keeps]
    obtain ⟨h1, h2⟩ := hb rfl
    unfold Cn3.dataType
    dsimp only
    rw [if_neg (by decide), if_neg (by decide), if_neg (by decide), if_pos rfl, if_neg h1, if_neg h2]
  · rfl
  · rfl

/-- Types MDF 3 does not have become another type without a message: UTF-8 texts become ASCII texts, the other ones unsigned
integers in the byte order of the file. -/
theorem C54_other_types (c : Cn3) (big : Bool) (t : DataType) (h : ¬ Supported3 t) :
    (c.setDataType big t).dataType big =
      if t = .stringUtf8 then .stringAscii else if big then .unsignedBe else .unsignedLe := by
  unfold Supported3 at h
  have h0 : ∀ d : Cn3, d.signal = 0 → d.dataType big = if big then .unsignedBe else .unsignedLe := by
    intro d e; rw [type_of_signal d big (by omega), e]; rfl
  cases t <;> simp only [reduceCtorEq, or_false, or_true, not_true_eq_false, not_false_eq_true] at h
  · rw [Cn3.setDataType, default_keeps, if_pos rfl, type_of_signal _ _ (show (7 : Nat) ≠ 8 by decide)]; rfl
  all_goals
    rw [if_neg (by decide)]
    show (Cn3.defaultBytes { c with signal := 0 } 4).dataType big = _
    rw [default_keeps]; exact h0 _ rfl

/-- **C54** is false of the code: a channel that was a date stays a date when it is made a byte array. -/
theorem C54_date_stays (c : Cn3) (big : Bool) (ops : List Cn3Op) :
    ((ops.foldl Cn3.apply (c.setDataType big .canOpenDate)).setDataType big .byteArray).dataType big = .canOpenDate := by
  have key : ∀ (ops : List Cn3Op) (d : Cn3), (ops.foldl Cn3.apply d).cc = d.cc := by
    intro ops
    induction ops with
    | nil => intro; rfl
    | cons op ops ih =>
      intro d; rw [List.foldl_cons, ih]
      cases op with
      | bitCount n => rfl
      | bitOffset n => rfl
      | byteOffset n => exact (setByteOffset_same d n).2.2.1
      | dataBytes n => rfl
  have hcc := key ops (c.setDataType big .canOpenDate)
  generalize List.foldl Cn3.apply (c.setDataType big .canOpenDate) ops = d at hcc
  rw [Cn3.setDataType, default_keeps]
  unfold Cn3.dataType
  dsimp only
  rw [if_neg (by decide), if_neg (by decide), if_neg (by decide), if_pos rfl, if_pos (by rw [hcc]; rfl)]

theorem C54_type_statement_false : ¬ C54_TypeStatement := by
  intro h
  have h1 := h (Cn3.new.setDataType false .canOpenDate) false .byteArray (by unfold Supported3; simp)
  rw [show Cn3.new.setDataType false .canOpenDate = [].foldl Cn3.apply (Cn3.new.setDataType false .canOpenDate) from rfl,
    C54_date_stays] at h1
  cases h1

example : Supported3 .floatBe ∧ Supported3 .byteArray ∧ (Cn3.new.cc ≠ some .date ∧ Cn3.new.cc ≠ some .time) ∧
    ([Cn3Op.dataBytes 8, .byteOffset 9000, .dataBytes 4].foldl Cn3.apply (Cn3.new.setDataType true .floatBe)).dataType true = .floatBe ∧
    ¬ Supported3 .stringUtf16Be := by
  unfold Supported3; decide

/-! ### C43 records -/

/-- **C43** (record ids).  The record ids of up to 256 groups are different; each is one byte, and it is written if
there is more than one group. -/
theorem C43_record_ids (sizes : List Nat) (h : sizes.length ≤ 256) :
    ((newGroups3 sizes).map (·.id)).Nodup ∧ (∀ g ∈ newGroups3 sizes, g.id < 256) ∧
    (newGroups3 sizes).map (·.size) = sizes ∧ (idBytes3 (newGroups3 sizes) = 0 ↔ sizes.length ≤ 1) := by
  refine ⟨newGroups3_distinct sizes h, ?_, ?_, ?_⟩
  · intro g hg
    have : g.id ∈ (newGroups3 sizes).map (·.id) := List.mem_map_of_mem hg
    rw [newGroups3_ids, List.mem_map] at this
    obtain ⟨i, _, e⟩ := this
    omega
  · rw [newGroups3_eq]
    apply List.ext_getElem?
    intro k
    rw [List.getElem?_map, List.getElem?_mapIdx]
    cases sizes[k]? <;> rfl
  · unfold idBytes3
    rw [newGroups3_length]
    split <;> omega

/-- Beyond 256 groups the ids are not different: the 257th group has the id of the first one. -/
theorem C43_too_many_groups (sizes : List Nat) (h : 256 < sizes.length) :
    ∃ a b, (newGroups3 sizes)[0]? = some a ∧ (newGroups3 sizes)[256]? = some b ∧ a.id = b.id := by
  rw [newGroups3_eq, if_neg (by omega)]
  refine ⟨⟨1, sizes[0]'(by omega), 0, 0⟩, ⟨1, sizes[256]'h, 0, 0⟩, ?_, ?_, rfl⟩
  · rw [List.getElem?_mapIdx, List.getElem?_eq_getElem (by omega)]; rfl
  · rw [List.getElem?_mapIdx, List.getElem?_eq_getElem h]; rfl

/-- What the reader finds in the file, given that the counters and the stream are those of the invariant. -/
theorem read3_final (cfg : M3Cfg) (m0 : M3) (h0 : Fresh3 m0) (ops : List M3Op) (hk : Keeps3 cfg ops)
    (hs : Schedule3 m0.dgs.length ops) (i : Nat) (d0 : Dg3) (hd0 : m0.dgs[i]? = some d0) (sizes : List Nat)
    (hsz : d0.groups = newGroups3 sizes) (h1 : 1 ≤ sizes.length) (h256 : sizes.length ≤ 256)
    (hf : ∀ s ∈ (saved3 i ops).2, Fits3 d0.groups s) (hlen : (m0.run cfg ops).file.length < 2 ^ 32) :
    ∃ d pre tail, (m0.run cfg ops).dgs[i]? = some d ∧ d.link % 2 ^ 32 = pre.length ∧
      (m0.run cfg ops).file = pre ++ stream3 (idBytes3 d.groups) (saved3 i ops).2 ++ tail ∧
      Groups3 d.groups ∧ Ids3 (idBytes3 d.groups) d.groups ∧ (∀ s ∈ (saved3 i ops).2, Fits3 d.groups s) ∧
      ∀ g ∈ d.groups, g.nof = ((saved3 i ops).2.countP (·.id = g.id)) % 2 ^ 32 := by
  obtain ⟨d, i1, i2, i3, i4⟩ := run3_inv cfg m0 h0 i d0 hd0 ops hk hs
  obtain ⟨_, _, hn⟩ := h0.new d0 (List.mem_of_getElem? hd0)
  rw [count3_fold _ _ (fun g hg => by obtain ⟨a, b⟩ := hn g hg; rw [a, b])] at i3
  obtain ⟨ok1, ok2⟩ := newGroups3_ok sizes h1 h256
  rw [← hsz] at ok1 ok2
  have hids : d.groups.map (·.id) = d0.groups.map (·.id) := by rw [i3, List.map_map]; rfl
  have hln : d.groups.length = d0.groups.length := by rw [i3, List.length_map]
  have hib : idBytes3 d.groups = idBytes3 d0.groups := by unfold idBytes3; rw [hln]
  have hstruct : ∃ pre tail, d.link % 2 ^ 32 = pre.length ∧
      (m0.run cfg ops).file = pre ++ stream3 (idBytes3 d.groups) (saved3 i ops).2 ++ tail := by
    rcases i4 with ⟨a, b, _⟩ | ⟨pre, tail, a, b, _, c, _⟩
    · refine ⟨[], (m0.run cfg ops).file, by rw [a]; rfl, by rw [b]; rfl⟩
    · refine ⟨pre, tail, ?_, by rw [hib]; exact c⟩
      rw [c] at hlen
      simp only [List.length_append] at hlen
      omega
  obtain ⟨pre, tail, s1, s2⟩ := hstruct
  refine ⟨d, pre, tail, i1, s1, s2, ⟨by rw [hids]; exact ok1.distinct, ?_⟩, ?_, ?_, ?_⟩
  · intro g hg
    have : g.id ∈ d0.groups.map (·.id) := by rw [← hids]; exact List.mem_map_of_mem hg
    obtain ⟨b, hb, e⟩ := List.mem_map.mp this
    rw [← e]; exact ok1.byte b hb
  · rw [hib]; unfold Ids3; rw [hln]; exact ok2
  · intro s hs'
    obtain ⟨g, hg, e1, e2, e3⟩ := hf s hs'
    rw [i3]
    exact ⟨_, List.mem_map_of_mem hg, e1, e2, e3⟩
  · intro g hg
    rw [i3] at hg
    obtain ⟨a, ha, rfl⟩ := List.mem_map.mp hg
    dsimp only
    rw [(hn a ha).1, Nat.zero_add]

/-- **C43**.  A measurement with one or more data groups of up to 256 channel groups each: after any history of saving samples
and of the thread writing queues, reading a data group delivers the samples saved in it up to the last time its
queue was written, in order, with their bytes, numbered per channel group; to observers that may end the reading.  Whatever is
in the file after the data of the group (`more`: for example bytes of a write that was interrupted by a crash before it updated
the counters), the result is the same. -/
theorem C43_samples_read (cfg : M3Cfg) (m0 : M3) (h0 : Fresh3 m0) (ops : List M3Op) (hk : Keeps3 cfg ops)
    (hs : Schedule3 m0.dgs.length ops) (i : Nat) (d0 : Dg3) (hd0 : m0.dgs[i]? = some d0) (sizes : List Nat)
    (hsz : d0.groups = newGroups3 sizes) (h1 : 1 ≤ sizes.length) (h256 : sizes.length ≤ 256)
    (hf : ∀ s ∈ (saved3 i ops).2, Fits3 d0.groups s) (hc : ∀ id, (saved3 i ops).2.countP (·.id = id) < 2 ^ 32)
    (hlen : (m0.run cfg ops).file.length < 2 ^ 32) (more : Bytes) (go : Event → Bool) :
    { m0.run cfg ops with file := (m0.run cfg ops).file ++ more }.read i go = (upTo go (events3 (saved3 i ops).2), .done) := by
  obtain ⟨d, pre, tail, e1, e2, e3, g1, g2, g3, g4⟩ :=
    read3_final cfg m0 h0 ops hk hs i d0 hd0 sizes hsz h1 h256 hf hlen
  unfold M3.read
  dsimp only
  rw [e1]
  dsimp only
  rw [e2, e3, List.append_assoc _ tail more]
  exact readDg3_exact d.groups g1 g2 _ g3 (fun g hg => by rw [g4 g hg]; exact Nat.mod_eq_of_lt (hc g.id)) pre (tail ++ more) go

/-- **C43** (interrupted update).  The counters of the groups are updated one after the other once the records have been
written.  If only some of them have been updated (in general: none of them is larger than the number of records in the file) then
the reader delivers some of the samples saved, in order and with their right numbers, and nothing else. -/
theorem C43_stale_counters (cfg : M3Cfg) (m0 : M3) (h0 : Fresh3 m0) (ops : List M3Op) (hk : Keeps3 cfg ops)
    (hs : Schedule3 m0.dgs.length ops) (i : Nat) (d0 : Dg3) (hd0 : m0.dgs[i]? = some d0) (sizes : List Nat)
    (hsz : d0.groups = newGroups3 sizes) (h1 : 1 ≤ sizes.length) (h256 : sizes.length ≤ 256)
    (hf : ∀ s ∈ (saved3 i ops).2, Fits3 d0.groups s) (hlen : (m0.run cfg ops).file.length < 2 ^ 32)
    (stale : Nat → Nat) (hst : ∀ id, stale id ≤ (saved3 i ops).2.countP (·.id = id)) (go : Event → Bool) :
    ∃ d, (m0.run cfg ops).dgs[i]? = some d ∧
      let r := readDg3 (idBytes3 d.groups) go (d.groups.map fun g => { g with nof := stale g.id }) (d.link % 2 ^ 32) (m0.run cfg ops).file
      r.1.Sublist (events3 (saved3 i ops).2) ∧ r.2 = .done := by
  obtain ⟨d, pre, tail, e1, e2, e3, g1, g2, g3, g4⟩ :=
    read3_final cfg m0 h0 ops hk hs i d0 hd0 sizes hsz h1 h256 hf hlen
  refine ⟨d, e1, ?_⟩
  have hids : (d.groups.map fun g => { g with nof := stale g.id }).map (·.id) = d.groups.map (·.id) := by
    rw [List.map_map]; rfl
  have hib : idBytes3 (d.groups.map fun g => { g with nof := stale g.id }) = idBytes3 d.groups := by
    unfold idBytes3; rw [List.length_map]
  have key := readDg3_spec (d.groups.map fun g => { g with nof := stale g.id })
    ⟨by rw [hids]; exact g1.distinct, fun g hg => by obtain ⟨a, ha, rfl⟩ := List.mem_map.mp hg; exact g1.byte a ha⟩
    (by rw [hib]; unfold Ids3; rw [List.length_map]; exact g2) (saved3 i ops).2
    (fun s hs' => by obtain ⟨g, hg, a, b, c⟩ := g3 s hs'; exact ⟨_, List.mem_map_of_mem hg, a, b, c⟩) stale
    (fun g hg => by obtain ⟨a, ha, rfl⟩ := List.mem_map.mp hg; rfl)
    (fun g hg => by obtain ⟨a, ha, rfl⟩ := List.mem_map.mp hg; exact hst a.id) pre tail go
  rw [hib] at key
  dsimp only
  rw [e2, e3, key]
  refine ⟨?_, rfl⟩
  rw [← deliver3_events (fun id => (saved3 i ops).2.countP (·.id = id)) _ (fun s _ => Nat.le_refl _)]
  exact (upTo_prefix go _).sublist.trans (deliver3_sublist _ _ hst _ _ _ (cover3_prefix _ _ _))

/-- Two data groups: one with two channel groups, one with one. -/
def exM3 : M3 :=
  { file := [0x4D, 0x44, 0x46], dgs := [⟨newGroups3 [2, 1], 0, []⟩, ⟨newGroups3 [3], 0, []⟩] }

def exM3Ops : List M3Op :=
  [.add 0 ⟨100, 1, [1, 2], none, none⟩, .add 1 ⟨100, 0, [7, 8, 9], none, none⟩, .add 0 ⟨101, 2, [5], none, none⟩, .clean 1,
   .add 0 ⟨102, 1, [3, 4], none, none⟩, .clean 0]

def exM3Cfg : M3Cfg := { preTrig := 5, start := 100, stop := 0 }

/-- Non-vacuity of C43, with the file as it is on disk. -/
example : (exM3.run exM3Cfg exM3Ops).file = [0x4D, 0x44, 0x46, 7, 8, 9, 1, 1, 2, 2, 5, 1, 3, 4] ∧
    (saved3 0 exM3Ops).2 = [⟨100, 1, [1, 2], none, none⟩, ⟨101, 2, [5], none, none⟩, ⟨102, 1, [3, 4], none, none⟩] ∧
    events3 (saved3 0 exM3Ops).2 = [⟨0, 1, [1, 2]⟩, ⟨0, 2, [5]⟩, ⟨1, 1, [3, 4]⟩] := by decide

example : Fresh3 exM3 ∧ Keeps3 exM3Cfg exM3Ops ∧ Schedule3 exM3.dgs.length exM3Ops ∧
    (∀ s ∈ (saved3 0 exM3Ops).2, Fits3 (newGroups3 [2, 1]) s) := by
  refine ⟨⟨by decide, by decide⟩, ⟨by decide, by decide, ?_⟩, Or.inr ?_, by unfold Fits3; decide⟩
  · intro i s h
    simp only [exM3Ops, List.mem_cons, M3Op.add.injEq, List.not_mem_nil, or_false, reduceCtorEq, false_or] at h
    rcases h with ⟨_, rfl⟩ | ⟨_, rfl⟩ | ⟨_, rfl⟩ | ⟨_, rfl⟩ <;> decide
  · intro i
    match i with
    | 0 => decide
    | 1 => decide
    | i + 2 =>
      have : M3Op.clean (i + 2) ∉ exM3Ops := by
        simp [exM3Ops]
      rw [List.count_eq_zero.mpr this]; decide

/-- The records must not be empty: a sample of a group without channels ends the reading of all groups. -/
theorem C43_empty_record_ends_reading :
    ((⟨[0x4D], [⟨newGroups3 [0, 1], 0, []⟩]⟩ : M3).run exM3Cfg
      [.add 0 ⟨100, 1, [], none, none⟩, .add 0 ⟨100, 2, [5], none, none⟩, .clean 0]).read 0 (fun _ => true) =
      ([⟨0, 1, []⟩], .done) := by decide +kernel

end Mdf
