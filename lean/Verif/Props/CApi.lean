import Verif.Spec.CApi

/-! C113: the C interface hands over what the library returns. -/

namespace Mdf

theorem cText_length_le (t : Bytes) : (cText t).length ≤ t.length := by
  induction t with
  | nil => simp [cText]
  | cons b r ih => unfold cText; split <;> simp <;> omega

theorem cText_noZero (t : Bytes) : 0 ∉ cText t := by
  induction t with
  | nil => simp [cText]
  | cons b r ih =>
    unfold cText
    split
    · simp
    · rename_i h
      simp only [List.mem_cons, not_or]
      exact ⟨fun e => h e.symm, ih⟩

theorem cText_of_noZero (t : Bytes) (h : 0 ∉ t) : cText t = t := by
  induction t with
  | nil => rfl
  | cons b r ih =>
    simp only [List.mem_cons, not_or] at h
    unfold cText
    rw [if_neg (fun e => h.1 e.symm), ih h.2]

theorem cText_append_zero (t r : Bytes) (h : 0 ∉ t) : cText (t ++ 0 :: r) = t := by
  induction t with
  | nil => simp [cText]
  | cons b t ih =>
    simp only [List.mem_cons, not_or] at h
    simp only [List.cons_append, cText]
    rw [if_neg (fun e => h.1 e.symm), ih h.2]

theorem storedAt_append {α : Type} (m data : List α) (h : data.length ≤ m.length) : StoredAt m data (data ++ m.drop data.length) := by
  refine ⟨by simp; omega, ?_, ?_⟩
  · intro i hi
    rw [List.getElem?_append_left hi]
  · intro i hi
    rw [List.getElem?_append_right hi, List.getElem?_drop]
    congr 1
    omega

theorem StoredAt.eq {α : Type} {m data r : List α} (h : StoredAt m data r) (hl : data.length ≤ m.length) : r = data ++ m.drop data.length := by
  obtain ⟨h1, h2, h3⟩ := h
  obtain ⟨g1, g2, g3⟩ := storedAt_append m data hl
  apply List.ext_getElem?
  intro i
  by_cases hi : i < data.length
  · rw [h2 i hi, g2 i hi]
  · rw [h3 i (by omega), g3 i (by omega)]

theorem strCpy_some (m t : Bytes) (h : (cText t).length + 1 ≤ m.length) :
    ∃ r, strCpy m t = some r ∧ HoldsText r (cText t) ∧ StoredAt m (cText t ++ [0]) r := by
  refine ⟨cText t ++ 0 :: m.drop ((cText t).length + 1), by simp [strCpy, h], ⟨cText_noZero t, ?_, ?_⟩, ?_⟩
  · intro i hi
    rw [List.getElem?_append_left hi]
  · simp
  · have := storedAt_append m (cText t ++ [0]) (by simpa using h)
    simpa using this

/-! ### Texts -/

/-- Asking for the size, providing a place more, and asking for the text gives the text, if it holds no zero byte. -/
theorem C113_text (text : Bytes) (h : 0 ∉ text) : TextProtocol (cGetText · text) text := by
  refine ⟨text.length, rfl, ?_⟩
  intro m hm
  have e := cText_of_noZero text h
  obtain ⟨r, h1, h2, h3⟩ := strCpy_some m text (by rw [e]; exact hm)
  rw [e] at h2 h3
  exact ⟨r, by simp [cGetText, h1], h2, h3⟩

example : TextProtocol (cGetText · [0x41, 0x42]) [0x41, 0x42] := C113_text _ (by decide)
example : cGetText (some [7, 7, 7, 7]) [0x41, 0x42] = some ⟨some [0x41, 0x42, 0, 7], 2⟩ := by decide

/-- Any text: the program is undefined exactly if the text up to its first zero byte and the zero do not fit; otherwise this part is stored, while the
size of the whole text is returned. -/
theorem C113_text_any (m text : Bytes) :
    ((cGetText (some m) text).isSome ↔ (cText text).length < m.length) ∧
    ∀ res, cGetText (some m) text = some res → res.ret = text.length ∧ ∃ r, res.mem = some r ∧ HoldsText r (cText text) ∧
      StoredAt m (cText text ++ [0]) r := by
  constructor
  · simp only [cGetText, Option.isSome_map, strCpy]
    split <;> simp <;> omega
  · intro res hr
    by_cases hf : (cText text).length + 1 ≤ m.length
    · obtain ⟨r, h1, h2, h3⟩ := strCpy_some m text hf
      simp only [cGetText, h1, Option.map_some, Option.some.injEq] at hr
      subst hr
      exact ⟨rfl, r, rfl, h2, h3⟩
    · simp [cGetText, strCpy, hf] at hr

/-- The part that is handed over is what stands before the first zero byte. -/
theorem C113_text_cut (a b : Bytes) (h : 0 ∉ a) : cText (a ++ 0 :: b) = a := cText_append_zero a b h

example : cGetText (some [7, 7, 7, 7]) [0x41, 0, 0x42] = some ⟨some [0x41, 0, 7, 7], 3⟩ := by decide
example : cGetText (some [7]) [0x41] = none := by decide

/-- A text that is set is the text that is got: all texts a C program can give. -/
theorem C113_text_set_get (s behind : Bytes) (h : 0 ∉ s) :
    ∃ text, cSetText (s ++ 0 :: behind) = some text ∧ TextProtocol (cGetText · text) s := by
  refine ⟨s, ?_, C113_text s h⟩
  have hz : (0 : Byte) ∈ s ++ 0 :: behind := by simp
  rw [cSetText, if_pos hz, cText_append_zero s behind h]

example : cSetText [0x41, 0x42, 0, 9] = some [0x41, 0x42] := by decide

/-- A memory without a zero byte cannot be given as a text. -/
theorem C113_text_set_unterminated (src : Bytes) : cSetText src = none ↔ 0 ∉ src := by
  simp [cSetText]

/-- MD5 sums: the text is stored if there is one, otherwise an empty text, and the function tells which. -/
theorem C113_md5 (md5 : Option Bytes) (h : ∀ t, md5 = some t → 0 ∉ t) (m : Bytes) (hm : (md5.getD []).length < m.length) :
    ∃ r, cGetMd5 (some m) md5 = some ⟨some r, md5.isSome⟩ ∧ HoldsText r (md5.getD []) ∧ StoredAt m (md5.getD [] ++ [0]) r := by
  have e : cText (md5.getD []) = md5.getD [] := by
    cases md5 with
    | none => rfl
    | some t => exact cText_of_noZero t (h t rfl)
  obtain ⟨r, h1, h2, h3⟩ := strCpy_some m (md5.getD []) (by rw [e]; omega)
  rw [e] at h2 h3
  exact ⟨r, by simp [cGetMd5, h1], h2, h3⟩

example : ∃ r, cGetMd5 (some [7, 7, 7]) (some [0x61, 0x62]) = some ⟨some r, true⟩ ∧ HoldsText r [0x61, 0x62] :=
  (C113_md5 (some [0x61, 0x62]) (by rintro t ⟨⟩; decide) [7, 7, 7] (by decide)).imp fun _ h => ⟨h.1, h.2.1⟩

/-! ### The reference of a conversion -/

/-- The reference that was asked for is handed over. -/
def C113_Reference_Statement : Prop :=
  ∀ formula reference : Bytes, 0 ∉ formula → 0 ∉ reference → TextProtocol (cGetReference · formula reference) reference

/-- False: the formula is handed over. -/
theorem C113_reference_false : ¬ C113_Reference_Statement := by
  intro h
  obtain ⟨n, h1, h2⟩ := h [0x41] [0x42] (by decide) (by decide)
  have hn : n = 1 := by
    simp only [cGetReference, List.length_singleton, Option.some.injEq, CResult.mk.injEq, true_and] at h1
    exact h1.symm
  subst hn
  obtain ⟨r, h3, ⟨_, h5, _⟩, _⟩ := h2 [7, 7] (by decide)
  have e : cGetReference (some [7, 7]) [0x41] [0x42] = some ⟨some [0x41, 0], 1⟩ := by decide
  have h3 := e.symm.trans h3
  simp only [Option.some.injEq, CResult.mk.injEq, and_true] at h3
  subst h3
  have := h5 0 (by decide)
  revert this
  decide

/-- A program that does as usual writes outside its memory whenever the formula is longer than the reference. -/
theorem C113_reference_overflow (formula reference m : Bytes) (hf : 0 ∉ formula) (hl : reference.length < formula.length)
    (hm : m.length = reference.length + 1) : cGetReference none formula reference = some ⟨none, reference.length⟩ ∧
      cGetReference (some m) formula reference = none := by
  refine ⟨rfl, ?_⟩
  simp [cGetReference, strCpy, cText_of_noZero formula hf]
  omega

example : cGetReference (some [7, 7]) [0x58, 0x2B, 0x31] [0x41] = none :=
  (C113_reference_overflow [0x58, 0x2B, 0x31] [0x41] [7, 7] (by decide) (by decide) (by decide)).2

/-- It holds if the formula is the reference (the first reference of an algebraic conversion is its formula). -/
theorem C113_reference_partial (reference : Bytes) (h : 0 ∉ reference) : TextProtocol (cGetReference · reference reference) reference :=
  C113_text reference h

example : TextProtocol (cGetReference · [0x58] [0x58]) [0x58] := C113_reference_partial _ (by decide)

/-! ### Values of samples -/

/-- The text of a sample is stored if it fits with its zero; nothing outside the size given is written, and the size needed is told. -/
theorem C113_value_text (str : Bytes) (h : 0 ∉ str) : SizedProtocol (fun d s v => cGetValueText d s v str) (str ++ [0]) str.length := by
  intro valid size
  refine ⟨rfl, ?_⟩
  intro m hm
  by_cases hs : str.length + 1 ≤ size
  · have e := cText_of_noZero str h
    obtain ⟨r, h1, h2, h3⟩ := strCpy_some m str (by rw [e]; omega)
    rw [e] at h3
    refine ⟨r, ?_, fun _ => h3, fun hl => ?_⟩
    · simp [cGetValueText, hs, h1]
    · simp at hl; omega
  · refine ⟨m, ?_, fun hl => ?_, fun _ => rfl⟩
    · simp [cGetValueText, hs]
    · simp at hl; omega

example : cGetValueText (some [7, 7, 7, 7]) 3 true [0x41, 0x42] = some ⟨some [0x41, 0x42, 0, 7], 2, true⟩ := by decide
example : cGetValueText (some [7, 7, 7, 7]) 2 true [0x41, 0x42] = some ⟨some [7, 7, 7, 7], 2, true⟩ := by decide

/-- Also a text with zero bytes never leaves the memory. -/
theorem C113_value_text_safe (str m : Bytes) (size : Nat) (valid : Bool) (hm : size ≤ m.length) :
    ∃ r, cGetValueText (some m) size valid str = some ⟨some r, str.length, valid⟩ ∧ r.length = m.length ∧ r.drop size = m.drop size := by
  by_cases hs : str.length + 1 ≤ size
  · have hc := cText_length_le str
    obtain ⟨r, h1, h2, h3⟩ := strCpy_some m str (by omega)
    refine ⟨r, by simp [cGetValueText, hs, h1], h3.1, ?_⟩
    apply List.ext_getElem?
    intro i
    rw [List.getElem?_drop, List.getElem?_drop, h3.2.2]
    simp
    omega
  · exact ⟨m, by simp [cGetValueText, hs], rfl, rfl⟩

example : ∃ r, cGetValueText (some [7, 7, 7, 7]) 4 true [0x41, 0, 0x42] = some ⟨some r, 3, true⟩ ∧ r.drop 4 = [] :=
  (C113_value_text_safe [0x41, 0, 0x42] [7, 7, 7, 7] 4 true (by decide)).imp fun _ h => ⟨h.1, h.2.2⟩

/-- The bytes of a sample are stored if there is room for them. -/
def C113_ValueBytes_Statement : Prop := ∀ vec : Bytes, SizedProtocol (fun d s v => cGetValueBytes d s v vec) vec vec.length

/-- False: with more room than needed the function reads behind the end of the value. -/
theorem C113_value_bytes_false : ¬ C113_ValueBytes_Statement := by
  intro h
  obtain ⟨r, h1, _⟩ := (h [0x41] true 2).2 [7, 7] (by decide)
  have e : cGetValueBytes (some [7, 7]) 2 true [0x41] = none := by decide
  have h1 := e.symm.trans h1
  cases h1

/-- Exactly so: with memory of the size given, the call is defined if and only if there is no more room than needed. -/
theorem C113_value_bytes_iff (vec m : Bytes) (size : Nat) (valid : Bool) (hm : size ≤ m.length) :
    (cGetValueBytes (some m) size valid vec).isSome ↔ size ≤ vec.length := by
  unfold cGetValueBytes
  by_cases hs : size ≥ vec.length
  · simp only [hs, if_true, Option.isSome_map, memCpy]
    split <;> simp <;> omega
  · simp [hs]
    omega

example : (cGetValueBytes (some [7, 7]) 1 true [0x41]).isSome := (C113_value_bytes_iff [0x41] [7, 7] 1 true (by decide)).mpr (by decide)

/-- A program that first asks for the size and then gives exactly this size gets the bytes; with less room nothing is stored. -/
theorem C113_value_bytes_partial (vec m : Bytes) (size : Nat) (valid : Bool) (hm : size ≤ m.length) (hs : size ≤ vec.length) :
    cGetValueBytes none size valid vec = some ⟨none, vec.length, valid⟩ ∧
    ∃ r, cGetValueBytes (some m) size valid vec = some ⟨some r, vec.length, valid⟩ ∧
      (size = vec.length → StoredAt m vec r) ∧ (size < vec.length → r = m) := by
  refine ⟨rfl, ?_⟩
  by_cases he : size = vec.length
  · subst he
    refine ⟨vec ++ m.drop vec.length, ?_, fun _ => storedAt_append m vec hm, fun hl => by omega⟩
    simp [cGetValueBytes, memCpy, hm]
  · refine ⟨m, ?_, fun h => absurd h he, fun _ => rfl⟩
    have : ¬ size ≥ vec.length := by omega
    simp [cGetValueBytes, this]

example : cGetValueBytes (some [7, 7, 7]) 2 true [0x41, 0x42] = some ⟨some [0x41, 0x42, 7], 2, true⟩ := by decide

/-! ### Bytes of bus messages -/

/-- The data bytes of a CAN or LIN message are stored, nothing else is changed; what was set is what is got. -/
theorem C113_message_bytes (src m : Bytes) (size : Nat) (hs : size ≤ src.length) :
    ∃ vec, cSetBytes src size = some vec ∧ vec = src.take size ∧ cGetBytes none vec = some ⟨none, size⟩ ∧
      (size ≤ m.length → ∃ r, cGetBytes (some m) vec = some ⟨some r, size⟩ ∧ StoredAt m vec r) ∧
      (m.length < size → cGetBytes (some m) vec = none) := by
  have hl : (src.take size).length = size := by simp; omega
  refine ⟨src.take size, by simp [cSetBytes, hs], rfl, by simp [cGetBytes, hl], ?_, ?_⟩
  · intro hm
    refine ⟨src.take size ++ m.drop size, ?_, ?_⟩
    · simp only [cGetBytes, memCpy, hl, Nat.le_refl, hm, and_self, if_true, Option.map_some]
      rw [List.take_of_length_le (Nat.le_of_eq hl)]
    · have := storedAt_append m (src.take size) (by rw [hl]; exact hm)
      rwa [hl] at this
  · intro hm
    have : ¬ size ≤ m.length := by omega
    simp [cGetBytes, memCpy, hl, this]

example : cSetBytes [1, 2, 3, 4] 3 = some [1, 2, 3] ∧ cGetBytes (some [7, 7, 7, 7]) [1, 2, 3] = some ⟨some [1, 2, 3, 7], 3⟩ := by decide

/-! ### Lists -/

theorem cCopyList_eq {α : Type} (list : List α) : ∀ (dst : List α) (i : Nat), i ≤ dst.length →
    cCopyList dst i list = if i + list.length ≤ dst.length then some (dst.take i ++ list ++ dst.drop (i + list.length)) else none := by
  induction list with
  | nil => intro dst i hi; simp [cCopyList, hi]
  | cons a r ih =>
    intro dst i hi
    unfold cCopyList
    by_cases h : i < dst.length
    · rw [if_pos h, ih _ _ (by simp; omega)]
      simp only [List.length_set, List.length_cons]
      have e : i + (r.length + 1) = i + 1 + r.length := by omega
      rw [e]
      split
      · congr 1
        rw [List.take_set, List.drop_set_of_lt (by omega)]
        rw [List.take_add_one]
        rw [List.set_append_right _ _ (by simp; omega)]
        have : i - (List.take i dst).length = 0 := by simp; omega
        rw [this]
        have h2 : dst[i]?.toList = [dst[i]] := by simp [h]
        rw [h2]
        simp
      · rfl
    · rw [if_neg h, if_neg (by simp only [List.length_cons]; omega)]

/-- Asking for the number of entries, providing as many places, and asking for the entries gives the entries in their order. -/
theorem C113_list {α : Type} (list : List α) : ListProtocol (cGetList · list) list := by
  refine ⟨list.length, rfl, rfl, ?_⟩
  intro m hm
  refine ⟨list ++ m.drop list.length, ?_, storedAt_append m list hm⟩
  simp [cGetList, cCopyList_eq list m 0 (by omega), hm]

example : cGetList (some [0, 0, 0]) [5, 6] = some ⟨some [5, 6, 0], 2⟩ := by decide

/-- With fewer places the program is undefined: there is no way to tell the function how many there are. -/
theorem C113_list_overflow {α : Type} (list m : List α) (h : m.length < list.length) : cGetList (some m) list = none := by
  simp [cGetList, cCopyList_eq list m 0 (by omega), show ¬ list.length ≤ m.length by omega]

example : cGetList (some [0]) [5, 6] = none := C113_list_overflow [5, 6] [0] (by decide)

/-- A list that is set is the list that is got. -/
theorem C113_list_set_get {α : Type} (src : List α) (count : Nat) (h : count ≤ src.length) :
    ∃ list, cSetList src count = some list ∧ list.length = count ∧ (∀ i, i < count → list[i]? = src[i]?) ∧ ListProtocol (cGetList · list) list := by
  refine ⟨src.take count, by simp [cSetList, h], by simp; omega, ?_, C113_list _⟩
  intro i hi
  simp [hi]

example : ∃ list, cSetList [5, 6, 7] 2 = some list ∧ ListProtocol (cGetList · list) list :=
  (C113_list_set_get [5, 6, 7] 2 (by decide)).imp fun _ h => ⟨h.1, h.2.2.2⟩

/-! ### Ranges -/

/-- The limits of a range can be asked for only if there is a range; a start angle or distance that is not there is 0. -/
theorem C113_range {α : Type} (range : Option (α × α)) : (cGetRange range).isSome = range.isSome ∧ ∀ a, range = some a → cGetRange range = some a :=
  ⟨rfl, fun _ h => h⟩

theorem C113_start {α : Type} (zero v : α) : cGetStart zero (some v) = v ∧ cGetStart zero none = zero := ⟨rfl, rfl⟩

example : cGetRange (none : Option (Nat × Nat)) = none := rfl

/-- A list or byte sequence shorter than the count given with it is read beyond its end. -/
theorem C113_set_short {α : Type} (src : List α) (bytes : Bytes) (count : Nat) :
    (cSetList src count = none ↔ src.length < count) ∧ (cSetBytes bytes count = none ↔ bytes.length < count) := by
  constructor
  · simp [cSetList]
  · simp [cSetBytes]

example : cSetList [5, 6] 3 = none := ((C113_set_short [5, 6] [] 3).1).2 (by decide)

/-! ### All of it -/

/-- Every function of the interface that fills memory hands over the value of the library, and never reads or writes outside. -/
def C113_Statement : Prop :=
  (∀ text : Bytes, 0 ∉ text → TextProtocol (cGetText · text) text) ∧ C113_Reference_Statement ∧
  (∀ str : Bytes, 0 ∉ str → SizedProtocol (fun d s v => cGetValueText d s v str) (str ++ [0]) str.length) ∧ C113_ValueBytes_Statement ∧
  (∀ list : List Nat, ListProtocol (cGetList · list) list)

theorem C113_false : ¬ C113_Statement := fun h => C113_value_bytes_false h.2.2.2.1

end Mdf
