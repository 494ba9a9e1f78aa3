import Verif.Model.TagValue
import Verif.Props.EventApi
import Verif.Props.HdComment

/-!
C125: the values and data types of tags.
-/

namespace Mdf

/-- **C125**, full statement: the value of a tag is returned as it was set. -/
def C125_Statement : Prop :=
  (∀ lo hi v : Int, lo ≤ 0 → lo ≤ v → v ≤ hi → tagGetInt lo hi (tagSetInt v) = v) ∧
  (∀ hi v : Nat, v ≤ hi → tagGetNat hi (tagSetInt v) = v) ∧
  (∀ b, tagGetBool (tagSetBool b) = b) ∧
  (∀ c, tagGetByte (tagSetByte c) = c) ∧
  ∀ q : ℚ, dblRound q = q → tagGetDouble (tagSetDouble q) = q

theorem tagNumber_int (v : Int) : tagNumber (intText v) = some (decide (v < 0), v.natAbs) := by
  have hs : numSign (intText v) = (decide (v < 0), decText v.natAbs) := by
    have := numSign_text (neg := decide (v < 0)) (r := []) (decText_ne v.natAbs) (decText_dig v.natAbs)
    rw [List.append_nil] at this
    rw [← this]
    unfold intText
    by_cases h : v < 0 <;> simp [h]
  unfold tagNumber
  rw [hs]
  simp only [decText_digit_run, digits_decText, decText_ne, if_false]

/-- **C125** (integers): the value is returned as it was set; a type that is too small for it gets the nearest bound. -/
theorem C125_int (lo hi v : Int) (h0 : lo ≤ 0) (h1 : 0 ≤ hi) : tagGetInt lo hi (tagSetInt v) = max lo (min hi v) ∧
    (lo ≤ v → v ≤ hi → tagGetInt lo hi (tagSetInt v) = v) := by
  have e : tagGetInt lo hi (tagSetInt v) = max lo (min hi v) := by
    rw [tagGetInt, tagSetInt, tagNumber_int]
    show (if decide (v < 0) = true then max lo (-(v.natAbs : Int)) else min hi (v.natAbs : Int)) = _
    by_cases h : v < 0
    · rw [if_pos (decide_eq_true h)]
      omega
    · rw [if_neg (by simpa using h)]
      omega
  exact ⟨e, fun h2 h3 => by rw [e]; omega⟩

example : tagGetInt (-32768) 32767 (tagSetInt 70000) = 32767 ∧ tagGetInt (-2147483648) 2147483647 (tagSetInt (-70000)) = -70000 := by decide +kernel

/-- **C125** (unsigned integers): the value is returned as it was set; a type that is too small gets its bound.  A negative value is returned
modulo the range of the type. -/
theorem C125_nat (hi : Nat) (v : Nat) : tagGetNat hi (tagSetInt v) = min hi v ∧
    (0 < v → v ≤ hi → tagGetNat hi (tagSetInt (-(v : Int))) = hi + 1 - v) := by
  constructor
  · rw [tagGetNat, tagSetInt, tagNumber_int]
    show (if hi < (v : Int).natAbs then hi else if decide ((v : Int) < 0) = true then _ else (v : Int).natAbs) = _
    rw [if_neg (c := decide ((v : Int) < 0) = true) (by simp)]
    split <;> omega
  · intro h1 h2
    rw [tagGetNat, tagSetInt, tagNumber_int]
    show (if hi < (-(v : Int)).natAbs then hi else if decide (-(v : Int) < 0) = true then (hi + 1 - (-(v : Int)).natAbs) % (hi + 1) else _) = _
    rw [if_neg (by omega), if_pos (by simp; omega), Nat.mod_eq_of_lt (by omega)]
    omega

example : tagGetNat 255 (tagSetInt 70) = 70 ∧ tagGetNat 65535 (tagSetInt (-1)) = 65535 := by decide +kernel

/-- **C125** (truth values): the value is returned as it was set.  An integer is true if its first digit is 1. -/
theorem C125_bool (b : Bool) (lo hi : Int) : tagGetBool (tagSetBool b) = b ∧ tagGetInt lo hi (tagSetBool b) = 0 ∧ tagGetBool [] = false := by
  cases b <;> exact ⟨by decide, rfl, rfl⟩

/-- **C125** (truth values): a text is true exactly if it starts with T or Y, in upper or lower case, or with 1. -/
theorem C125_bool_text (s : Bytes) : tagGetBool s = true ↔ ∃ c t, s = c :: t ∧ (lowerByte c = 0x74#8 ∨ lowerByte c = 0x79#8 ∨ c = 0x31#8) := by
  cases s with
  | nil => simp [tagGetBool]
  | cons c t =>
    have : ∀ c : Byte, (c == 0x54#8 || c == 0x74#8 || c == 0x59#8 || c == 0x79#8 || c == 0x31#8) = true ↔
        (lowerByte c = 0x74#8 ∨ lowerByte c = 0x79#8 ∨ c = 0x31#8) := by decide +kernel
    rw [tagGetBool, this]
    simp

/-- **C125** (no value): a tag without a value gives 0 and false. -/
theorem C125_empty (lo hi : Int) (n : Nat) : tagGetInt lo hi [] = 0 ∧ tagGetNat n [] = 0 ∧ tagGetDouble [] = 0 ∧ tagGetByte [] = 0#8 ∧ tagGetBool [] = false :=
  ⟨rfl, rfl, rfl, rfl, rfl⟩

/-- **C125**, finding: the integer 2 is false and 10 is true. -/
theorem C125_bool_of_int : tagGetBool (tagSetInt 2) = false ∧ tagGetBool (tagSetInt 10) = true ∧ tagGetBool (tagSetInt (-1)) = false := by decide +kernel

/-- **C125** (bytes): a byte is stored as a character; it is returned as it was set unless it is a blank, then 0 is returned. -/
theorem C125_byte (c : Byte) (hi : Nat) : tagGetByte (tagSetByte c) = (if isSpace c then 0#8 else c) ∧
    (isDig c = false → tagGetNat hi (tagSetByte c) = 0) := by
  constructor
  · rw [tagGetByte, tagSetByte, lTrim]
    by_cases h : isSpace c = true
    · rw [if_pos h, if_pos h]; rfl
    · rw [if_neg h, if_neg h]; rfl
  · intro h
    have : tagNumber [c] = none := by
      unfold tagNumber
      have : ((numSign [c]).2.takeWhile isDig) = [] := by
        unfold numSign
        rw [lTrim]
        by_cases hs : isSpace c = true
        · rw [if_pos hs]; rfl
        · rw [if_neg hs]
          by_cases h1 : c = 0x2D#8
          · simp [h1]
          · by_cases h2 : c = 0x2B#8
            · simp [h2]
            · simp [h1, h2, h]
      simp [this]
    rw [tagGetNat, tagSetByte, this]

example : tagGetByte (tagSetByte 0x41#8) = 0x41#8 ∧ tagGetByte (tagSetByte 10#8) = 0#8 := by decide

/-- **C125** (doubles), partial: the value that is returned is the nearest `double` to the nearest number of six significant digits; so the
`double`s nearest to numbers of six significant digits are returned as they were set. -/
theorem C125_double_partial (q : ℚ) : ReadReal q (tagGetDouble (tagSetDouble q)) ∧
    ∀ d, IsSix d → q = dblRound d → tagGetDouble (tagSetDouble q) = q := by
  have e : tagGetDouble (tagSetDouble q) = rnd q := by
    rw [tagGetDouble, tagSetDouble, stodText_general]
    rfl
  refine ⟨by rw [e]; exact readReal_rnd q, fun d hd hq => ?_⟩
  rw [e, hq]
  show dblRound (sixRound (dblRound d)) = _
  rw [six_kept hd]

/-- **C125**, finding: 1234567.0 is returned as 1234570.0. -/
theorem C125_double_lost : tagGetDouble (tagSetDouble 1234567) = 1234570 := by decide +kernel

theorem C125_false : ¬ C125_Statement := by
  intro h
  have := h.2.2.2.2 1234567 (by decide +kernel)
  rw [C125_double_lost] at this
  exact absurd this (by decide +kernel)

/-- **C125** (data types): the data type is returned as it was set, and any other number is the type of texts. -/
theorem C125_type (t : Byte) : tagTypeOf (tagTypeWord t) = if t.toNat ≤ 7 then t else 0#8 := by
  revert t
  decide +kernel

/-- **C125** (data types): the word of the type is compared without regard to upper and lower case, and any other word is the type of texts. -/
theorem C125_type_word (s : Bytes) : (∀ t, sameWord s (tagTypeWord t) = true → tagTypeOf s = tagTypeOf (tagTypeWord t)) ∧
    ((∀ t, 1#8 ≤ t → t ≤ 7#8 → sameWord s (tagTypeWord t) = false) → tagTypeOf s = 0#8) := by
  constructor
  · intro t h
    have e : ∀ w, sameWord s w = sameWord (tagTypeWord t) w := by
      intro w
      unfold sameWord at *
      rw [eq_of_beq h]
    unfold tagTypeOf
    simp only [e]
  · intro h
    unfold tagTypeOf
    have h1 := h 1#8 (by decide) (by decide)
    have h2 := h 2#8 (by decide) (by decide)
    have h3 := h 3#8 (by decide) (by decide)
    have h4 := h 4#8 (by decide) (by decide)
    have h5 := h 5#8 (by decide) (by decide)
    have h6 := h 6#8 (by decide) (by decide)
    have h7 := h 7#8 (by decide) (by decide)
    simp only [show tagTypeWord 1#8 = wDecimal from rfl] at h1
    simp only [show tagTypeWord 2#8 = wInteger from rfl] at h2
    simp only [show tagTypeWord 3#8 = wFloat from rfl] at h3
    simp only [show tagTypeWord 4#8 = wBoolean from rfl] at h4
    simp only [show tagTypeWord 5#8 = wDate from rfl] at h5
    simp only [show tagTypeWord 6#8 = wTime from rfl] at h6
    simp only [show tagTypeWord 7#8 = wDateTime from rfl] at h7
    simp [h1, h2, h3, h4, h5, h6, h7]

/-- "DATETIME" is the type 7, "hex" is a text. -/
example : tagTypeOf [0x44#8, 0x41#8, 0x54#8, 0x45#8, 0x54#8, 0x49#8, 0x4D#8, 0x45#8] = 7#8 ∧ tagTypeOf [0x68#8, 0x65#8, 0x78#8] = 0#8 := by decide

/-! ### In the file -/

theorem setTags_reopen : ∀ n, setTags (List.replicate n EvCall.reopen.op) = []
  | 0 => rfl
  | n + 1 => setTags_reopen n

/-- What comes back when a tag is set as metadata of an event that has none, and the file is saved and opened `n` times. -/
theorem tag_back (i : TagInfo) (h : i.Plain) (n : Nat) : ∃ r, evCalls (.tags [.mk i []] :: List.replicate n .reopen) .none = some r ∧
    ∃ j, commonList (createMd bEV r) = some [.mk j []] ∧ j.name = trim i.name ∧ j.value = trim i.value ∧ j.type = trim i.type := by
  obtain ⟨r, h1, _, _, _, h2⟩ := C122_set_partial .none (.inl rfl) (.tags [.mk i []]) (List.replicate n .reopen) (by simp) (by
    intro y hy
    rcases List.mem_cons.mp hy with rfl | hy
    · exact ⟨⟨h, trivial⟩, trivial⟩
    · rw [(List.mem_replicate.mp hy).2]
      trivial)
  refine ⟨r, h1, ?_⟩
  have e : setTags ((.tags [.mk i []] :: List.replicate n .reopen : List EvCall).map EvCall.op) = [.mk i []] := by
    rw [List.map_cons]
    show [.mk i []] ++ setTags ((List.replicate n EvCall.reopen).map EvCall.op) = _
    have : setTags ((List.replicate n EvCall.reopen).map EvCall.op) = [] := by
      rw [List.map_replicate]
      exact setTags_reopen n
    rw [this]
    rfl
  rw [h2, e]
  exact ⟨_, rfl, rfl, rfl, by simp [TagInfo.trimmed, mergeInfo, keepOld, Tag.info]⟩

/-- **C125** (in the file): an integer, a `double` and a truth value of a tag are the same after the file was saved and opened any number of
times. -/
theorem C125_file (i : TagInfo) (h : i.Plain) (n : Nat)
    (hv : (∃ v, i.value = tagSetInt v) ∨ (∃ q, i.value = tagSetDouble q) ∨ ∃ b, i.value = tagSetBool b) :
    ∃ r, evCalls (.tags [.mk i []] :: List.replicate n .reopen) .none = some r ∧
      ∃ j, commonList (createMd bEV r) = some [.mk j []] ∧ j.name = trim i.name ∧ j.value = i.value := by
  obtain ⟨r, h1, j, h2, h3, h4, _⟩ := tag_back i h n
  refine ⟨r, h1, j, h2, h3, ?_⟩
  rw [h4]
  rcases hv with ⟨v, hv⟩ | ⟨q, hv⟩ | ⟨b, hv⟩
  · rw [hv]; exact trim_intText v
  · rw [hv]; exact general_trim q
  · rw [hv]; cases b <;> decide

example : ∃ i : TagInfo, i.Plain ∧ i.value = tagSetInt (-5) :=
  ⟨{ name := exA, value := tagSetInt (-5) }, ⟨by decide, by unfold PlainLine; decide, plainLine_nil, plainLine_nil, plainLine_nil, plainLine_nil,
    plainLine_nil, (intText_plain (-5) : PlainText (intText (-5)))⟩, rfl⟩

end Mdf
