import Verif.Proof.Utf
import Verif.Proof.Channel

/-!
# Text encodings (C35)

Texts are lists of Lean characters; UTF-8 and UTF-16 are the ones of Verif.Spec.Utf.
-/

namespace Mdf

/-- A text with all lengths of UTF-8 sequences. -/
def exText : List Char := ['a', 'ö', '€', '😀']

/-- The encoder of the library produces UTF-8. -/
theorem C35_encoder_is_utf8 (c : Char) : cutfAppend c.toNat = utf8Char c := append_utf8 c

example : utf8Of exText = [0x61, 0xC3, 0xB6, 0xE2, 0x82, 0xAC, 0xF0, 0x9F, 0x98, 0x80] := by decide +kernel
example : (exText.map Char.toNat).flatMap cutfAppend = utf8Of exText := by decide +kernel

/-- The library accepts exactly the texts which are UTF-8 of some characters: no surrogates, no overlong forms, nothing
truncated. -/
theorem C35_valid_iff_utf8 (bs : Bytes) : cutfIsValid bs = true ↔ ∃ t, bs = utf8Of t := by
  constructor
  · exact isValidLoop_some _ _
  · rintro ⟨t, rfl⟩
    exact isValidLoop_utf8 t _ (Nat.le_refl _)

example : cutfIsValid (utf8Of exText) = true := by decide +kernel
example : cutfIsValid [0xC0, 0x80] = false := by decide +kernel
example : cutfIsValid [0xED, 0xA0, 0x80] = false := by decide +kernel
example : cutfIsValid [0xF0, 0x9F, 0x98] = false := by decide +kernel

/-- With a 32-bit `wchar_t` (Linux, macOS) `Utf8ToUtf16` gives the code points of the text and `Utf16ToUtf8` leads back. -/
theorem C35_wide32_round_trip (t : List Char) (h : NoZero t) :
    utf8ToWide32 (utf8Of t) = some (t.map Char.toNat) ∧ wideToUtf8_32 (t.map Char.toNat) = utf8Of t := by
  constructor
  · unfold utf8ToWide32
    rw [cstr_of (utf8_nonzero h), decode_utf8]
  · unfold wideToUtf8_32
    rw [wcstr_of, utf8_flat]
    intro w hw
    simp only [List.mem_map] at hw
    obtain ⟨c, hc, rfl⟩ := hw
    exact h c hc

/-- With a 16-bit `wchar_t` (Windows) `Utf16ToUtf8` translates each UTF-16 text into UTF-8. -/
theorem C35_wide16_to_utf8 (t : List Char) (h : NoZero t) : wideToUtf8_16 (utf16Of t) = some (utf8Of t) := by
  unfold wideToUtf8_16
  rw [wcstr_of (utf16_nonzero h), enc16_utf16]

/-- The way back with a 16-bit `wchar_t`, as the property wants it. -/
def C35_Wide16Statement : Prop := ∀ t, NoZero t → utf8ToWide16 (utf8Of t) = some (utf16Of t)

/-- The way back works for texts of the basic multilingual plane only: for each other text `Utf8ToUtf16` writes behind the end of
its string. -/
theorem C35_wide16_back_partial (t : List Char) (h : NoZero t) :
    (Bmp t → utf8ToWide16 (utf8Of t) = some (utf16Of t)) ∧ (¬ Bmp t → utf8ToWide16 (utf8Of t) = none) := by
  have hlen := utf16_len t
  unfold utf8ToWide16
  rw [cstr_of (utf8_nonzero h), decode_utf8]
  simp only [Option.bind_some, utf16_flat, List.length_map]
  rw [← utf16_len_bmp]
  constructor <;> intro hb
  · rw [if_neg (by omega)]
  · rw [if_pos (by omega)]

theorem C35_wide16_back_false : ¬ C35_Wide16Statement := by
  intro h
  have := h ['😀'] (by unfold NoZero; decide)
  revert this
  decide +kernel

example : NoZero exText := by unfold NoZero; decide
example : ¬ Bmp exText := by unfold Bmp; decide
example : Bmp ['a', 'ö', '€'] := by unfold Bmp; decide
example : utf8ToWide32 (utf8Of exText) = some [0x61, 0xF6, 0x20AC, 0x1F600] := by decide +kernel
example : wideToUtf8_16 [0x61, 0xF6, 0x20AC, 0xD83D, 0xDE00] = some (utf8Of exText) := by decide +kernel
example : utf8ToWide16 (utf8Of ['a', 'ö', '€']) = some [0x61, 0xF6, 0x20AC] := by decide +kernel

/-- A lone lead surrogate at the end of the text makes `Utf16ToUtf8` run past the end (16-bit `wchar_t`); a truncated sequence makes
`Utf8ToUtf16` read behind the terminating zero. -/
theorem C35_malformed_undefined (t : List Char) (w : Nat) (h : 0xd800 ≤ w) (h' : w ≤ 0xdbff) (hz : NoZero t) :
    wideToUtf8_16 (utf16Of t ++ [w]) = none ∧ utf8ToWide32 (utf8Of t ++ [0xF0#8]) = none := by
  constructor
  · unfold wideToUtf8_16
    rw [wcstr_of]
    · clear hz
      induction t with
      | nil =>
        simp only [utf16Of, List.flatMap_nil, List.nil_append, enc16to8]
        rw [if_pos (by simp; omega)]
      | cons c t ih =>
        simp only [utf16Of, List.flatMap_cons, List.append_assoc] at ih ⊢
        rw [enc16_char, ih]
        rfl
    · intro x hx
      simp only [List.mem_append, List.mem_singleton] at hx
      rcases hx with hx | hx
      · exact utf16_nonzero hz x hx
      · omega
  · unfold utf8ToWide32
    rw [cstr_of]
    · clear hz
      have key : ∀ fuel, (utf8Of t ++ [0xF0#8]).length ≤ fuel → decodeLoop fuel (utf8Of t ++ [0xF0#8]) = none := by
        induction t with
        | nil =>
          intro fuel hf
          cases fuel with
          | zero => rfl
          | succ n => rfl
        | cons c t ih =>
          intro fuel hf
          have hr := char_range c
          simp only [utf8Of, List.flatMap_cons, List.append_assoc, ← append_utf8 c, List.length_append] at hf ih ⊢
          rw [append_length] at hf
          have hp := cpLength_pos c.toNat
          cases fuel with
          | zero => omega
          | succ fuel =>
            have hne : cutfAppend c.toNat ++ (t.flatMap utf8Char ++ [0xF0#8]) ≠ [] := by simp
            have hstep : decodeLoop (fuel + 1) (cutfAppend c.toNat ++ (t.flatMap utf8Char ++ [0xF0#8])) =
                (cutfNext (cutfAppend c.toNat ++ (t.flatMap utf8Char ++ [0xF0#8]))).bind fun r =>
                  (decodeLoop fuel ((cutfAppend c.toNat ++ (t.flatMap utf8Char ++ [0xF0#8])).drop r.2)).map (r.1 :: ·) := by
              cases hx : cutfAppend c.toNat ++ (t.flatMap utf8Char ++ [0xF0#8]) with
              | nil => exact absurd hx hne
              | cons a r => rfl
            rw [hstep, next_append (by omega)]
            simp only [Option.bind_some]
            rw [List.drop_left' append_length, ih fuel (by omega)]
            rfl
      exact key _ (Nat.le_refl _)
    · intro x hx
      simp only [List.mem_append, List.mem_singleton] at hx
      rcases hx with hx | hx
      · exact utf8_nonzero hz x hx
      · subst hx; decide

example : wideToUtf8_16 ([0x61] ++ [0xD83D]) = none := by decide +kernel

/-! ### Values of text channels -/

/-- `value` is the text in UTF-16 in one of the byte orders, filling the channel or ended by zero. -/
def IsUtf16 (put : Nat → Bytes) (t : List Char) (value : Bytes) : Prop :=
  value = (utf16Of t).flatMap put ∨ ∃ junk, value = (utf16Of t).flatMap put ++ (put 0 ++ junk)

theorem IsUtf16.units {put : Nat → Bytes} {num : Bytes → Nat} {t : List Char} {value : Bytes}
    (h : (num = leNat ∧ put = leBytes 2) ∨ (num = beNat ∧ put = beBytes 2)) (hz : NoZero t) (hv : IsUtf16 put t value) :
    utf16Units num value = utf16Of t := by
  have hput : ∀ w, w < 0x10000 → (put w).length = 2 ∧ num (put w) = w := by
    intro w hw
    rcases h with ⟨rfl, rfl⟩ | ⟨rfl, rfl⟩
    · exact ⟨leBytes_length 2 w, by rw [leNat_leBytes]; omega⟩
    · refine ⟨by simp [beBytes, leBytes_length], ?_⟩
      show leNat (List.reverse (List.reverse (leBytes 2 w))) = w
      rw [List.reverse_reverse, leNat_leBytes]; omega
  have hw : ∀ w ∈ utf16Of t, w < 0x10000 ∧ w ≠ 0 := fun w hw => ⟨utf16_lt w hw, utf16_nonzero hz w hw⟩
  rcases hv with hv | ⟨junk, hv⟩
  · rw [hv, ← List.append_nil ((utf16Of t).flatMap put)]
    exact utf16Units_of num put hput _ hw _ (Or.inl rfl)
  · rw [hv]
    exact utf16Units_of num put hput _ hw _ (Or.inr ⟨junk, rfl⟩)

/-- The text of a UTF-16 channel is read as UTF-8, as the property wants it, on a system with a 32-bit `wchar_t`. -/
def C35_Channel32Statement : Prop :=
  ∀ num put t value, ((num = leNat ∧ put = leBytes 2) ∨ (num = beNat ∧ put = beBytes 2)) → NoZero t → IsUtf16 put t value →
    utf16Text32 num value = utf8Of t

/-- With a 16-bit `wchar_t` the text of a UTF-16 channel is read correctly, in both byte orders. -/
theorem C35_channel_wide16 (num : Bytes → Nat) (put : Nat → Bytes) (t : List Char) (value : Bytes)
    (h : (num = leNat ∧ put = leBytes 2) ∨ (num = beNat ∧ put = beBytes 2)) (hz : NoZero t) (hv : IsUtf16 put t value) :
    utf16Text16 num value = some (utf8Of t) := by
  unfold utf16Text16
  rw [hv.units h hz]
  exact C35_wide16_to_utf8 t hz

/-- With a 32-bit `wchar_t` the text of a UTF-16 channel is read correctly if it is in the basic multilingual plane. -/
theorem C35_channel_wide32_partial (num : Bytes → Nat) (put : Nat → Bytes) (t : List Char) (value : Bytes)
    (h : (num = leNat ∧ put = leBytes 2) ∨ (num = beNat ∧ put = beBytes 2)) (hz : NoZero t) (hb : Bmp t)
    (hv : IsUtf16 put t value) : utf16Text32 num value = utf8Of t := by
  unfold utf16Text32
  rw [hv.units h hz, utf16_bmp hb]
  exact (C35_wide32_round_trip t hz).2

/-- It is not for other texts: each surrogate is encoded by itself, and the result is not even UTF-8. -/
theorem C35_channel_wide32_false : ¬ C35_Channel32Statement ∧
    cutfIsValid (utf16Text32 leNat ((utf16Of ['😀']).flatMap (leBytes 2))) = false := by
  constructor
  · intro h
    have := h leNat (leBytes 2) ['😀'] _ (Or.inl ⟨rfl, rfl⟩) (by unfold NoZero; decide) (Or.inl rfl)
    revert this
    decide +kernel
  · decide +kernel

example : IsUtf16 (beBytes 2) ['a', '€'] [0x00, 0x61, 0x20, 0xAC, 0x00, 0x00, 0x55] :=
  Or.inr ⟨[0x55], by decide +kernel⟩
example : utf16Text32 beNat [0x00, 0x61, 0x20, 0xAC, 0x00, 0x00, 0x55] = utf8Of ['a', '€'] := by decide +kernel

/-- The text of a Latin-1 channel is read as UTF-8: the bytes are the code points. -/
theorem C35_channel_latin1 (t : List Char) (value : Bytes) (hz : NoZero t) (h : ∀ c ∈ t, c.toNat < 256)
    (hv : value = t.map (fun c => u8 c.toNat) ∨ ∃ junk, value = t.map (fun c => u8 c.toNat) ++ (0#8 :: junk)) :
    latin1Text value = utf8Of t := by
  have hne : ∀ b ∈ t.map (fun c => u8 c.toNat), b ≠ 0#8 := by
    intro b hb e
    simp only [List.mem_map] at hb
    obtain ⟨c, hc, rfl⟩ := hb
    have := congrArg BitVec.toNat e
    rw [u8_toNat (h c hc)] at this
    exact hz c hc this
  have hcut : cstr value = t.map (fun c => u8 c.toNat) := by
    rcases hv with rfl | ⟨junk, rfl⟩
    · exact cstr_of hne
    · unfold cstr
      rw [List.takeWhile_append_of_pos (by simpa using hne)]
      simp
  unfold latin1Text latin1ToUtf8
  rw [hcut, utf8_flat, List.flatMap_map, List.flatMap_map]
  have : ∀ l : List Char, (∀ c ∈ l, c.toNat < 256) →
      l.flatMap (fun c => if (u8 c.toNat).toNat < 0x80 then [u8 c.toNat]
        else [u8 (0xC0 ||| (u8 c.toNat).toNat >>> 6), u8 (0x80 ||| ((u8 c.toNat).toNat &&& 0x3f))]) =
      l.flatMap (fun c => cutfAppend c.toNat) := by
    intro l hl
    induction l with
    | nil => rfl
    | cons c l ih =>
      simp only [List.flatMap_cons]
      rw [ih fun x hx => hl x (by simp [hx]), latin1_append, u8_toNat (hl c (by simp))]
  exact this t h

/-- The text of a UTF-8 channel is read unchanged. -/
theorem C35_channel_utf8 (t : List Char) (value : Bytes) (hz : NoZero t)
    (hv : value = utf8Of t ∨ ∃ junk, value = utf8Of t ++ (0#8 :: junk)) : utf8Text value = utf8Of t := by
  unfold utf8Text
  rcases hv with rfl | ⟨junk, rfl⟩
  · exact cstr_of (utf8_nonzero hz)
  · unfold cstr
    rw [List.takeWhile_append_of_pos (by simpa using utf8_nonzero hz)]
    simp

example : latin1Text [0x61, 0xF6, 0x00, 0x7F] = utf8Of ['a', 'ö'] := by decide +kernel
example : utf8Text (utf8Of exText ++ [0x00, 0x7F]) = utf8Of exText := by decide +kernel

end Mdf
