import Verif.Model.Text

/-! Lemmas about fixed-size text fields. -/

namespace Mdf

theorem writeStr_length (s : Bytes) (n : Nat) : (writeStr s n).length = n := by
  induction n generalizing s with
  | zero => rfl
  | succ n ih => cases s <;> simp [writeStr, ih]

theorem writeStr_nil (n : Nat) : writeStr [] n = List.replicate n 0#8 := by
  induction n with
  | zero => rfl
  | succ n ih => simp [writeStr, ih, List.replicate_succ]

theorem writeStr_eq (s : Bytes) (n : Nat) :
    writeStr s n = s.take n ++ List.replicate (n - s.length) 0#8 := by
  induction n generalizing s with
  | zero => simp [writeStr]
  | succ n ih =>
    cases s with
    | nil => simp [writeStr, writeStr_nil, List.replicate_succ]
    | cons c s => simp [writeStr, ih]

theorem readStrLoop_write (s rest acc : Bytes) (n : Nat) :
    readStrLoop n (writeStr s n ++ rest) acc
      = (acc ++ (s.take n).takeWhile (· ≠ 0#8), rest) := by
  induction n generalizing s acc with
  | zero => simp [readStrLoop, writeStr]
  | succ n ih =>
    cases s with
    | nil =>
      simp [readStrLoop, writeStr]
      rw [List.drop_append_of_le_length (by rw [writeStr_length]; omega)]
      rw [List.drop_of_length_le (by rw [writeStr_length]; omega)]; rfl
    | cons c s =>
      simp only [writeStr, List.cons_append, readStrLoop]
      by_cases hc : c = 0#8
      · rw [if_pos hc]
        rw [List.drop_append_of_le_length (by rw [writeStr_length]; omega)]
        rw [List.drop_of_length_le (by rw [writeStr_length]; omega)]
        simp [hc]
      · rw [if_neg hc, ih]
        simp [hc]

theorem takeWhile_all {s : Bytes} (h : ∀ c ∈ s, c ≠ 0#8) : s.takeWhile (· ≠ 0#8) = s := by
  induction s with
  | nil => rfl
  | cons c s ih =>
    simp [h c (by simp)]
    have := ih (fun d hd => h d (by simp [hd]))
    simpa using this

theorem lTrim_split (s : Bytes) :
    ∃ pre, s = pre ++ lTrim s ∧ (∀ c ∈ pre, isSpace c = true) := by
  induction s with
  | nil => exact ⟨[], rfl, by simp⟩
  | cons c s ih =>
    unfold lTrim
    by_cases hc : isSpace c = true
    · rw [if_pos hc]
      obtain ⟨pre, h1, h2⟩ := ih
      refine ⟨c :: pre, ?_, ?_⟩
      · rw [List.cons_append, ← h1]
      · intro d hd
        rcases List.mem_cons.1 hd with rfl | hd
        · exact hc
        · exact h2 d hd
    · rw [if_neg hc]
      exact ⟨[], rfl, by simp⟩

theorem lTrim_head (s : Bytes) : ∀ c ∈ (lTrim s).head?, isSpace c = false := by
  induction s with
  | nil => simp [lTrim]
  | cons c s ih =>
    unfold lTrim
    by_cases hc : isSpace c = true
    · rw [if_pos hc]; exact ih
    · rw [if_neg hc]
      intro d hd
      simp at hd
      rw [← hd]; simpa using hc

theorem lTrim_id {s : Bytes} (h : ∀ c ∈ s.head?, isSpace c = false) : lTrim s = s := by
  cases s with
  | nil => rfl
  | cons c s =>
    unfold lTrim
    have := h c (by simp)
    rw [if_neg (by rw [this]; simp)]

theorem rTrim_split (s : Bytes) :
    ∃ post, s = rTrim s ++ post ∧ (∀ c ∈ post, isSpace c = true) := by
  obtain ⟨pre, h1, h2⟩ := lTrim_split s.reverse
  refine ⟨pre.reverse, ?_, ?_⟩
  · have := congrArg List.reverse h1
    simpa [rTrim] using this
  · intro c hc; exact h2 c (by simpa using hc)

theorem rTrim_last (s : Bytes) : ∀ c ∈ (rTrim s).getLast?, isSpace c = false := by
  intro c hc
  apply lTrim_head s.reverse c
  simpa [rTrim] using hc

theorem trim_split (s : Bytes) :
    ∃ pre post, s = pre ++ trim s ++ post ∧
      (∀ c ∈ pre, isSpace c = true) ∧ (∀ c ∈ post, isSpace c = true) := by
  obtain ⟨pre, h1, h2⟩ := lTrim_split s
  obtain ⟨post, h3, h4⟩ := rTrim_split (lTrim s)
  refine ⟨pre, post, ?_, h2, h4⟩
  rw [List.append_assoc]
  show s = pre ++ (rTrim (lTrim s) ++ post)
  rw [← h3, ← h1]

theorem trim_last (s : Bytes) : ∀ c ∈ (trim s).getLast?, isSpace c = false := rTrim_last _

theorem trim_head (s : Bytes) : ∀ c ∈ (trim s).head?, isSpace c = false := by
  intro c hc
  obtain ⟨post, h3, _⟩ := rTrim_split (lTrim s)
  apply lTrim_head s c
  cases ht : rTrim (lTrim s) with
  | nil => unfold trim at hc; rw [ht] at hc; simp at hc
  | cons d t =>
    unfold trim at hc
    rw [ht] at hc h3
    rw [h3]
    simpa using hc

theorem trim_id {s : Bytes} (h : ∀ c ∈ s.head?, isSpace c = false)
    (h' : ∀ c ∈ s.getLast?, isSpace c = false) : trim s = s := by
  unfold trim
  rw [lTrim_id h]
  unfold rTrim
  rw [lTrim_id (by intro c hc; exact h' c (by simpa using hc))]
  simp

theorem readStrLoop_eof (s acc : Bytes) (n : Nat) (h0 : ∀ c ∈ s, c ≠ 0#8) (hn : s.length ≤ n) :
    readStrLoop n s acc = (acc ++ s ++ List.replicate (n - s.length) 0xFF#8, []) := by
  induction n generalizing s acc with
  | zero =>
    have : s = [] := List.length_eq_zero_iff.1 (by omega)
    subst this; simp [readStrLoop]
  | succ n ih =>
    cases s with
    | nil =>
      simp only [readStrLoop]
      rw [ih [] _ (by simp) (by simp)]
      simp [List.replicate_succ]
    | cons c s =>
      simp only [readStrLoop]
      rw [if_neg (h0 c (by simp))]
      rw [ih s _ (fun d hd => h0 d (by simp [hd])) (by simp at hn; omega)]
      simp

end Mdf
