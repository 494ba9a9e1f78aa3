import Verif.Proof.Text

/-!
# C36: fixed-size text fields

A text written in a field of `size` bytes is read back, the position always
moves by the size of the field, and what follows the field is not touched.
-/

namespace Mdf

/-- `t` is the text `s` without the blanks at its start and end: nothing but blanks
is removed and no blank is left at an end. -/
structure Trimmed (s t : Bytes) : Prop where
  only_blanks : ∃ pre post, s = pre ++ t ++ post ∧
    (∀ c ∈ pre, isSpace c = true) ∧ (∀ c ∈ post, isSpace c = true)
  first : ∀ c ∈ t.head?, isSpace c = false
  last : ∀ c ∈ t.getLast?, isSpace c = false

theorem trim_trimmed (s : Bytes) : Trimmed s (trim s) := ⟨trim_split s, trim_head s, trim_last s⟩

/-- **C36**, writing: the field has `size` bytes whatever the text is; it holds the text
cut to the size of the field, followed by zeros. -/
theorem C36_field_written (text : Bytes) (size : Nat) :
    (writeStr text size).length = size ∧
    writeStr text size = text.take size ++ List.replicate (size - text.length) 0#8 :=
  ⟨writeStr_length text size, writeStr_eq text size⟩

/-- **C36**, reading back for every text: the characters up to the first zero of the cut text,
trimmed; and the reader stands right behind the field. -/
theorem C36_read_back (text rest : Bytes) (size : Nat) :
    ∃ t, readStr size (writeStr text size ++ rest) = (t, rest) ∧
      Trimmed ((text.take size).takeWhile (· ≠ 0#8)) t := by
  refine ⟨_, ?_, trim_trimmed _⟩
  unfold readStr
  rw [readStrLoop_write]
  simp

/-- **C36**, the common case: a text without a zero that fits in the field and has no blank at its
ends is read back unchanged, also when it fills the field completely. -/
theorem C36_same_text (text rest : Bytes) (size : Nat) (hfit : text.length ≤ size)
    (hzero : ∀ c ∈ text, c ≠ 0#8) (hfirst : ∀ c ∈ text.head?, isSpace c = false)
    (hlast : ∀ c ∈ text.getLast?, isSpace c = false) :
    readStr size (writeStr text size ++ rest) = (text, rest) := by
  unfold readStr
  rw [readStrLoop_write, List.take_of_length_le hfit, takeWhile_all hzero]
  simp [trim_id hfirst hlast]

/-- **C36**, too long texts: exactly the first `size` characters are read back, trimmed. -/
theorem C36_truncated (text rest : Bytes) (size : Nat) (hzero : ∀ c ∈ text, c ≠ 0#8) :
    ∃ t, readStr size (writeStr text size ++ rest) = (t, rest) ∧ Trimmed (text.take size) t := by
  obtain ⟨t, h1, h2⟩ := C36_read_back text rest size
  refine ⟨t, h1, ?_⟩
  rw [takeWhile_all (fun c hc => hzero c (List.mem_of_mem_take hc))] at h2
  exact h2

/-- Reading any field, written or not, moves the position by the size of the field as long as the
field is within the file. -/
theorem readStr_position (size : Nat) (file : Bytes) (h : size ≤ file.length) :
    (readStr size file).2 = file.drop size := by
  have hw : ∀ (size : Nat) (file acc : Bytes), size ≤ file.length →
      (readStrLoop size file acc).2 = file.drop size := by
    intro size
    induction size with
    | zero => intro file acc _; simp [readStrLoop]
    | succ n ih =>
      intro file acc h
      cases file with
      | nil => simp at h
      | cons c file =>
        simp only [readStrLoop]
        by_cases hc : c = 0#8
        · rw [if_pos hc]; simp
        · rw [if_neg hc, ih file _ (by simpa using h)]; simp
  exact hw size file [] h

theorem C36_position (size : Nat) (file : Bytes) (h : size ≤ file.length) :
    (readStr size file).2 = file.drop size := readStr_position size file h

/-- A field that is cut off by the end of the file is not reported: the missing characters are read
as `0xFF`. -/
theorem C36_cut_off_field_reads_garbage (file : Bytes) (size : Nat) (h0 : ∀ c ∈ file, c ≠ 0#8)
    (hfirst : ∀ c ∈ file.head?, isSpace c = false) (hn : file.length < size) :
    readStr size file = (file ++ List.replicate (size - file.length) 0xFF#8, []) := by
  unfold readStr
  rw [readStrLoop_eof file [] size h0 (by omega)]
  simp only [List.nil_append, Prod.mk.injEq, and_true]
  obtain ⟨k, hk⟩ : ∃ k, size - file.length = k + 1 := ⟨size - file.length - 1, by omega⟩
  rw [hk]
  apply trim_id
  · intro c hc
    cases file with
    | nil =>
      simp [List.replicate_succ] at hc
      subst hc; decide
    | cons d s => exact hfirst c (by simpa using hc)
  · intro c hc
    rw [List.replicate_succ', ← List.append_assoc, List.getLast?_concat] at hc
    simp at hc
    subst hc; decide

/-- "MDF" in an eight byte field, then a byte of the next field. -/
example : readStr 8 (writeStr [0x4D#8, 0x44#8, 0x46#8] 8 ++ [7#8]) = ([0x4D#8, 0x44#8, 0x46#8], [7#8]) :=
  C36_same_text _ _ _ (by decide) (by decide) (by decide) (by decide)

/-- The blank in the middle of "A B" stays, those at the ends go. -/
example : readStr 6 (writeStr [0x20#8, 0x41#8, 0x20#8, 0x42#8, 0x20#8] 6)
    = ([0x41#8, 0x20#8, 0x42#8], []) := by decide

/-- A field that ends after one byte of four. -/
example : readStr 4 [0x41#8] = ([0x41#8, 0xFF#8, 0xFF#8, 0xFF#8], []) := by decide

end Mdf
