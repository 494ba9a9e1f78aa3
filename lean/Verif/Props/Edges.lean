import Verif.Props.Block
import Verif.Props.TypedObs
import Verif.Props.Session
import Verif.Props.Convert
import Verif.Props.Mdf3
import Verif.Props.ZStream
import Verif.Props.Number
import Verif.Props.Comment

/-!
What happens at the edges: values that cannot be read, calls that fail, defaults and the places of links.  The theorems belong to the
properties in their names.
-/

namespace Mdf

/-! ### C28: the places of the links -/

/-- The links of the block classes as in the MDF 4 standard: place, list or single block, class of the block; by place. -/
def linkTable : List (Nat × List (Nat × Bool × Nat)) :=
  [(kHd, [(0, true, kDg), (1, true, kFh), (2, true, kCh), (3, true, kAt), (4, true, kEv), (5, false, kTx)]),
   (kDg, [(1, true, kCg), (2, false, kDt), (3, false, kTx)]),
   (kCg, [(1, true, kCn), (2, false, kTx), (3, false, kSi), (5, false, kTx)]),
   (kFh, [(1, false, kTx)]),
   (kSi, [(0, false, kTx), (1, false, kTx), (2, false, kTx)]),
   (kAt, [(1, false, kTx), (2, false, kTx), (3, false, kTx)]),
   (kCh, [(1, true, kCh), (2, false, kTx), (3, false, kTx)]),
   (kEv, [(3, false, kTx), (4, false, kTx)]),
   (kTx, [])]

/-- Each class has a number of its own, and its links are at their places. -/
theorem C28_links_of_classes :
    ([kHd, kDg, kCg, kCn, kFh, kSi, kAt, kCh, kEv, kTx, kDt].Nodup ∧ ∀ r, kCc r ∉ [kHd, kDg, kCg, kCn, kFh, kSi, kAt, kCh, kEv, kTx, kDt]) ∧
    (∀ k ∈ linkTable, ∀ l, l ∈ (mdf4Schema k.1).map (fun s => (s.index, s.chain, s.kind)) ↔ l ∈ k.2) ∧
    (∀ k ∈ linkTable, ((mdf4Schema k.1).map (·.index)).Nodup) ∧
    (∀ l, l ∈ (mdf4Schema kCn).map (fun s => (s.index, s.chain, s.kind)) ↔
      l ∈ [(1, true, kCn), (2, false, kTx), (3, false, kSi), (4, false, kCc 0), (6, false, kTx), (7, false, kTx)]) ∧
    ∀ r l, l ∈ (mdf4Schema (kCc r)).map (fun s => (s.index, s.chain, s.kind)) ↔
      l ∈ [(0, false, kTx), (1, false, kTx), (2, false, kTx), (3, false, kCc 0)] ∨ ∃ i, i < r ∧ l = (4 + i, false, kTx) := by
  refine ⟨⟨by decide, ?_⟩, ?_, by decide, ?_, ?_⟩
  · intro r
    simp [kCc, kHd, kDg, kCg, kCn, kFh, kSi, kAt, kCh, kEv, kTx, kDt]
    omega
  · intro k hk l
    simp only [linkTable, List.mem_cons, List.not_mem_nil, or_false] at hk
    rcases hk with rfl | rfl | rfl | rfl | rfl | rfl | rfl | rfl | rfl <;>
      simp [mdf4Schema, kHd, kDg, kCg, kFh, kSi, kAt, kCh, kEv, kTx, hdSlots, dgPre, dgPost, cgSlots, fhSlots, siSlots, atSlots, chSlots, evSlots,
        listSlot, textSlot, oneSlot] <;> grind
  · intro l
    simp [mdf4Schema, kCn, cnSlots, listSlot, textSlot, oneSlot]
  · intro r l
    have : mdf4Schema (kCc r) = ccSlots r := by
      have : kCc r = r + 16 := by unfold kCc; omega
      rw [this]
      simp [mdf4Schema]
    rw [this]
    simp [ccSlots, textSlot, oneSlot]
    constructor
    · rintro (h | h | h | h | ⟨i, h1, h2⟩)
      · exact .inl (.inl h)
      · exact .inl (.inr (.inl h))
      · exact .inl (.inr (.inr (.inl h)))
      · exact .inl (.inr (.inr (.inr h)))
      · exact .inr ⟨i, h1, h2.symm⟩
    · rintro ((h | h | h | h) | ⟨i, h1, h2⟩)
      · exact .inl h
      · exact .inr (.inl h)
      · exact .inr (.inr (.inl h))
      · exact .inr (.inr (.inr (.inl h)))
      · exact .inr (.inr (.inr (.inr ⟨i, h1, h2.symm⟩)))

example : (mdf4Schema (kCc 2)).map (·.index) = [0, 1, 2, 3, 4, 5] := by decide

/-! ### C95: floating point numbers in records -/

/-- Sign, exponent and fraction of the formats of IEEE 754: 5 and 10, 8 and 23, 11 and 52 bits. -/
theorem C95_float_formats (f : Nat × Nat × Nat × Int) (hf : f ∈ [(16, 5, 10, (15 : Int)), (32, 8, 23, 127), (64, 11, 52, 1023)])
    (neg : Bool) (ex man : Nat) (hex : ex < 2 ^ f.2.1) (hman : man < 2 ^ f.2.2.1) :
    floatOfBits f.1 (neg.toNat * 2 ^ (f.1 - 1) + ex * 2 ^ f.2.2.1 + man) =
      if ex = 2 ^ f.2.1 - 1 then (if man = 0 then .inf neg else .nan)
      else if ex = 0 then .fin neg ((man : Rat) * pow2 (1 - f.2.2.2 - f.2.2.1))
      else .fin neg ((2 ^ f.2.2.1 + man : Rat) * pow2 (ex - f.2.2.2 - f.2.2.1)) := by
  simp only [List.mem_cons, List.not_mem_nil, or_false] at hf
  rcases hf with rfl | rfl | rfl <;> simp only at hex hman ⊢ <;> unfold floatOfBits ieeeVal <;> simp only [reduceIte, Nat.reduceEqDiff]
  · have e1 : (neg.toNat * 2 ^ (16 - 1) + ex * 2 ^ 10 + man) / 2 ^ 10 % 2 ^ 5 = ex := by cases neg <;> simp only [Bool.toNat] <;> omega
    have e2 : (neg.toNat * 2 ^ (16 - 1) + ex * 2 ^ 10 + man) % 2 ^ 10 = man := by cases neg <;> simp only [Bool.toNat] <;> omega
    have e3 : decide ((neg.toNat * 2 ^ (16 - 1) + ex * 2 ^ 10 + man) / 2 ^ (5 + 10) % 2 = 1) = neg := by
      have h1 : neg.toNat ≤ 1 := Bool.toNat_le neg
      have h2 : (neg.toNat * 2 ^ (16 - 1) + ex * 2 ^ 10 + man) / 2 ^ (5 + 10) % 2 = neg.toNat := by
        show (neg.toNat * 2 ^ 15 + ex * 2 ^ 10 + man) / 2 ^ 15 % 2 = neg.toNat
        omega
      rw [h2]; cases neg <;> rfl
    rw [e1, e2, e3]
    push_cast
    rfl
  · have e1 : (neg.toNat * 2 ^ (32 - 1) + ex * 2 ^ 23 + man) / 2 ^ 23 % 2 ^ 8 = ex := by cases neg <;> simp only [Bool.toNat] <;> omega
    have e2 : (neg.toNat * 2 ^ (32 - 1) + ex * 2 ^ 23 + man) % 2 ^ 23 = man := by cases neg <;> simp only [Bool.toNat] <;> omega
    have e3 : decide ((neg.toNat * 2 ^ (32 - 1) + ex * 2 ^ 23 + man) / 2 ^ (8 + 23) % 2 = 1) = neg := by
      have h1 : neg.toNat ≤ 1 := Bool.toNat_le neg
      have h2 : (neg.toNat * 2 ^ (32 - 1) + ex * 2 ^ 23 + man) / 2 ^ (8 + 23) % 2 = neg.toNat := by
        show (neg.toNat * 2 ^ 31 + ex * 2 ^ 23 + man) / 2 ^ 31 % 2 = neg.toNat
        omega
      rw [h2]; cases neg <;> rfl
    rw [e1, e2, e3]
    push_cast
    rfl
  · have e1 : (neg.toNat * 2 ^ (64 - 1) + ex * 2 ^ 52 + man) / 2 ^ 52 % 2 ^ 11 = ex := by cases neg <;> simp only [Bool.toNat] <;> omega
    have e2 : (neg.toNat * 2 ^ (64 - 1) + ex * 2 ^ 52 + man) % 2 ^ 52 = man := by cases neg <;> simp only [Bool.toNat] <;> omega
    have e3 : decide ((neg.toNat * 2 ^ (64 - 1) + ex * 2 ^ 52 + man) / 2 ^ (11 + 52) % 2 = 1) = neg := by
      have h1 : neg.toNat ≤ 1 := Bool.toNat_le neg
      have h2 : (neg.toNat * 2 ^ (64 - 1) + ex * 2 ^ 52 + man) / 2 ^ (11 + 52) % 2 = neg.toNat := by
        show (neg.toNat * 2 ^ 63 + ex * 2 ^ 52 + man) / 2 ^ 63 % 2 = neg.toNat
        omega
      rw [h2]; cases neg <;> rfl
    rw [e1, e2, e3]
    push_cast
    rfl

example : floatOfBits 64 0x3FF8000000000000 = .fin false (3 / 2) ∧ floatOfBits 32 0xC0200000 = .fin true (5 / 2) ∧
    floatOfBits 16 0x3C00 = .fin false 1 ∧ floatOfBits 32 0x7F800000 = .inf false := by decide +kernel

/-! ### C79: values that cannot be read are not valid -/

/-- A number that cannot be read from the record is zero and not valid. -/
theorem C79_unreadable_not_valid (c : Chan) (sd record : Bytes) (i : Nat) :
    ((c.dataType = .unsignedLe ∨ c.dataType = .unsignedBe) → c.getUnsigned record i = .fail → c.channelValue sd record i = (false, .num 0)) ∧
    ((c.dataType = .signedLe ∨ c.dataType = .signedBe) → c.getSigned record i = .fail → c.channelValue sd record i = (false, .int 0)) ∧
    ((c.dataType = .floatLe ∨ c.dataType = .floatBe) → c.getFloatBits record i = .fail → c.channelValue sd record i = (false, .float 0)) := by
  refine ⟨?_, ?_, ?_⟩ <;> rintro (h | h) hf <;> simp only [Chan.channelValue, h, hf, Res.shown]

/-- A channel of 16 bits in a record of one byte. -/
def exShort : Chan := { exVlsd with type := .fixedLength, dataType := .unsignedLe, byteOffset := 0, bitCount := 16 }

example : exShort.getUnsigned [1#8] 0 = .fail := by decide +kernel

/-- Bytes of fixed length that are not all in the record: zeros, and not valid. -/
theorem C79_short_record_not_valid (c : Chan) (sd record : Bytes) (i : Nat) (hd : c.dataType = .byteArray) (ht : c.type ≠ .variableLength)
    (hs : record.length < c.byteOffset + c.bitCount / 8) :
    c.channelValue sd record i = (false, .bytes (List.replicate (c.bitCount / 8) 0)) := by
  simp only [Chan.channelValue, hd, Chan.valueBytes]
  rw [if_neg ht, if_neg (by omega)]
  simp

example : ({ exVlsd with type := .fixedLength, dataType := .byteArray, byteOffset := 2, bitCount := 72 } : Chan).channelValue [] (List.replicate 10 7) 0 =
    (false, .bytes (List.replicate 9 0)) := by decide +kernel

/-- A text or bytes that cannot be read at all: empty, and not valid. -/
theorem C79_no_bytes_not_valid (c : Chan) (sd record : Bytes) (i : Nat) (hf : c.valueBytes record sd = .fail) :
    ((c.dataType = .stringAscii ∨ c.dataType = .stringUtf8 ∨ c.dataType = .stringUtf16Le ∨ c.dataType = .stringUtf16Be) →
      c.channelValue sd record i = (false, .text [])) ∧
    ((c.dataType = .byteArray ∨ c.dataType = .mimeSample ∨ c.dataType = .mimeStream) → c.channelValue sd record i = (false, .bytes [])) := by
  refine ⟨?_, ?_⟩
  · rintro (h | h | h | h) <;> simp only [Chan.channelValue, h, hf]
  · rintro (h | h | h) <;> simp only [Chan.channelValue, h, hf]

example : ({ exVlsd with dataType := .stringUtf8 } : Chan).valueBytes [0, 0, 0, 0, 0, 0, 0, 1] [1] = .fail := by decide +kernel

/-! ### C17: the offset of a value cannot be read -/

/-- If the offset cannot be read from the record, the first value of the signal data is taken, and it is not valid. -/
theorem C17_offset_unreadable (c : Chan) (record : Bytes) (v rest : Bytes) (hv : v.length < 2 ^ 32) (hr : v.length + rest.length + 4 < 2 ^ 64)
    (hf : c.getUnsigned record 0 = .fail) :
    c.vlsdGet record (leBytes 4 v.length ++ v ++ rest) = .ok (false, v) := by
  have h1 : ((leBytes 4 v.length ++ v ++ rest).drop 0).take 4 = leBytes 4 v.length := by
    rw [List.drop_zero, List.append_assoc, List.take_left' (by simp)]
  have hl : (leBytes 4 v.length ++ v ++ rest).length = 4 + v.length + rest.length := by simp; omega
  have hget : sdGet (leBytes 4 v.length ++ v ++ rest) 0 = .ok (true, v) := by
    unfold sdGet
    rw [h1, leNat_leBytes, Nat.mod_eq_of_lt (a := v.length) (by omega), hl]
    simp only
    rw [if_neg (by omega), if_neg (by omega), if_pos (by omega), if_neg (by omega)]
    congr 2
    rw [List.append_assoc, List.drop_left' (by simp), List.take_left' rfl]
  unfold Chan.vlsdGet
  rw [hf]
  simp only [hget]

example : exVlsd.getUnsigned [1#8] 0 = .fail := by decide +kernel

/-! ### C31: texts through other conversions -/

/-- A conversion that is not one of texts: no text, not valid; no conversion: the text itself. -/
theorem C31_text_other {D : Type} (c : Conv D) (s : String) :
    (c.type = .noConversion → c.convertText s = (true, s)) ∧
    (c.type ≠ .noConversion → c.type ≠ .textToText → c.convertText s = (false, "")) := by
  unfold Conv.convertText
  cases c.type <;> simp

example : (Conv.mk .linear 2 [.num 1, .num 2] 7 6 (mkRefs []) : Conv Rat).convertText "a" = (false, "") := by decide +kernel

/-- An MDF 3 conversion of ranges to texts, for each kind of channel: with the upper end for integers, without it for floats, and the
default text for all others. -/
theorem C31_range_to_text3_kinds (d : Rat × Rat × String) (rs : List (Rat × Rat × String)) (texts : List (Rat × String)) (t : Nat) (x : Rat) :
    (∀ integer, KindOf t integer → ({ texts := texts, ranges := d :: rs, dataType := t } : Conv3 Rat).rangeToText x =
      some (((rs.find? fun r => Contains integer x (r.1, r.2.1)).map (·.2.2)).getD d.2.2)) ∧
    (5 < t → ({ texts := texts, ranges := d :: rs, dataType := t } : Conv3 Rat).rangeToText x = some d.2.2) := by
  refine ⟨?_, ?_⟩
  · intro integer hk
    unfold Conv3.rangeToText Contains
    cases integer
    · have hk : t = 4 ∨ t = 5 := hk
      have h1 : decide (3 < t ∧ t ≤ 5) = true := by simp; omega
      have h2 : decide (t ≤ 3) = false := by simp; omega
      simp only [h1, h2, Bool.false_and, Bool.true_and, Bool.false_or, if_neg Bool.false_ne_true]
    · have hk : t ≤ 3 := hk
      simp only [hk, show ¬ (3 < t ∧ t ≤ 5) by omega, decide_true, decide_false, Bool.false_and, Bool.true_and, Bool.or_false, if_true]
  · intro h
    unfold Conv3.rangeToText
    have h1 : decide (3 < t ∧ t ≤ 5) = false := by simp; omega
    have h2 : decide (t ≤ 3) = false := by simp; omega
    have h3 : ∀ l : List (Rat × Rat × String), l.find? (fun _ => false) = none := by intro l; simp
    simp only [h1, h2, Bool.false_and, Bool.or_false, h3]
    rfl

example : ({ texts := [], ranges := [(0, 0, "none"), (0, 10, "low"), (10, 20, "high")], dataType := 4 } : Conv3 Rat).rangeToText 10 = some "high" ∧
    ({ texts := [], ranges := [(0, 0, "none"), (0, 10, "low"), (10, 20, "high")], dataType := 0 } : Conv3 Rat).rangeToText 10 = some "low" := by
  decide +kernel

/-! ### C54: the size of a new channel -/

/-- The size of a channel made by setting the data type alone: 4 bytes for numbers and texts, 8 if it was set to 8 before. -/
theorem C54_default_size (c : Cn3) (big : Bool) (t : DataType) (hbits : c.bits < 2 ^ 16)
    (ht : t ∈ [DataType.unsignedLe, .unsignedBe, .signedLe, .signedBe, .floatLe, .floatBe, .stringAscii, .stringUtf8]) :
    (c.dataBytes = 0 → (c.setDataType big t).dataBytes = 4) ∧
    (c.dataBytes ≠ 0 → (c.setDataType big t).dataBytes = c.dataBytes) := by
  simp only [List.mem_cons, List.not_mem_nil, or_false] at ht
  rcases ht with rfl | rfl | rfl | rfl | rfl | rfl | rfl | rfl
  all_goals
    · simp only [Cn3.setDataType, Cn3.setFloat, Cn3.defaultBytes, Cn3.dataBytes, Cn3.setDataBytes, u16]
      refine ⟨fun h => ?_, fun h => ?_⟩ <;> (repeat' split) <;> simp_all <;> omega

example : (Cn3.new.setDataType false .floatLe).dataBytes = 4 := by decide

/-! ### C81: a failing call is reported -/

/-- A call of `deflate` on the way returns an error. -/
def ZDef.Errs (z : ZDef) (chunk fuel : Nat) : (rounds : Nat) → z.σ → Bytes → Prop
  | 0, _, _ => False
  | rounds + 1, s, src =>
    let finish := decide ((src.take chunk).length < chunk)
    match z.inner chunk finish fuel s (src.take chunk) with
    | none => False
    | some (s', _, _, ret) => ret = .error ∨ (finish = false ∧ z.Errs chunk fuel rounds s' (src.drop chunk))

/-- Whatever zlib does: if one of its calls returns an error, `Deflate` does not return true. -/
theorem C81_error_reported (z : ZDef) (chunk fuel : Nat) : ∀ (rounds : Nat) (s : z.σ) (src : Bytes), z.Errs chunk fuel rounds s src →
    ∀ out, z.outer chunk fuel rounds s src ≠ some (out, true) := by
  intro rounds
  induction rounds with
  | zero => intro s src h; exact h.elim
  | succ rounds ih =>
    intro s src h out
    unfold ZDef.Errs at h
    unfold ZDef.outer
    simp only at h ⊢
    generalize z.inner chunk (decide ((src.take chunk).length < chunk)) fuel s (src.take chunk) = r at *
    match r with
    | none => exact h.elim
    | some (s', o, rest, ret) =>
      simp only at h ⊢
      rcases h with h | ⟨hf, h⟩
      · rw [if_pos h]; simp
      · split
        · simp
        · split
          · simp
          · rw [if_neg (by rw [hf]; simp)]
            intro he
            obtain ⟨q, hq, hqe⟩ := Option.map_eq_some_iff.mp he
            simp only [Prod.mk.injEq] at hqe
            exact ih s' _ h q.1 (by rw [hq, ← hqe.2])

example : let z : ZDef := ⟨Unit, (), fun _ _ _ _ => ⟨(), 0, [], .error⟩⟩
    z.stream 3 [1, 2] = some ([], false) ∧ z.Errs 16384 3 3 () [1, 2] := by
  refine ⟨by decide, .inl rfl⟩

/-! ### C86: numbers of 32 bits -/

/-- A number that does not fit gives the largest. -/
theorem C86_too_large (v : Nat) (t : MdType) (ht : t ≠ .hex) (hv : 2 ^ 32 ≤ v) : (MdNum.ofU64 v t).u32 = 2 ^ 32 - 1 := by
  rw [MdNum.u32, MdNum.ofU64, if_neg ht]
  show Nat.min (decNumber (lTrim (decText v))) _ = _
  rw [lTrim_decText, decNumber_decText]
  exact Nat.min_eq_right (by omega)

example : (MdNum.ofU64 5000000000 .integer).u32 = 4294967295 := C86_too_large _ _ (by decide) (by decide)

/-! ### C64: an index of a list that cannot be read -/

/-- A comment with a property, and a list whose index has 64 bits. -/
def exListIndex : MdTree :=
  (MdTree.empty.addList (.mk { ci := 2 ^ 63 } exA [] [{ name := exB, value := ex1 }] [] [] [])).addEnum { prop := { name := exB, value := ex1 } }

/-- With an index of 64 bits the reading stops: the list and the enumeration that comes after it are lost. -/
theorem C64_list_index_lost : exListIndex.lists.map MdTree.name = [exA] ∧ exListIndex.enums.map (·.prop.name) = [exB] ∧
    (let r := ({} : MdCom).fromXml (({ common := exListIndex } : MdCom).toXml exBlockName)
     r.common.lists.map MdTree.name = [] ∧ r.common.enums.map (·.prop.name) = []) := by
  refine ⟨by decide, by decide, by decide +kernel⟩

end Mdf
