import Verif.Spec.Format
import Verif.Proof.Format
import Verif.Props.Channel

/-!
# C89: values as text

What `MdfHelper::FormatDouble` shows of a number (by which samples and converted values are shown), and the texts of integers in a record.
-/

namespace Mdf

/-! ## Numbers with decimals -/

/-- A `double` is shown rounded to the decimals asked for. -/
def C89_Statement : Prop :=
  ∀ (v : ℚ) (decimals : Nat) (fixed : Bool), IsDbl v → ∃ t, formatDouble v decimals fixed [] = some t ∧ ShownWithin t v (halfDecimal decimals)

/-- It holds for numbers from -9999 to 99999 if at least one decimal is asked for. -/
theorem C89_decimals_partial (v : ℚ) (decimals : Nat) (fixed : Bool) (h1 : -9999 ≤ v) (h2 : v ≤ 99999) (hd : 0 < decimals) :
    ∃ t, formatDouble v decimals fixed [] = some t ∧ ShownWithin t v (halfDecimal decimals) := by
  have hr : -(2 ^ 63) - 1 < v ∧ v < 2 ^ 63 := by constructor <;> norm_num <;> linarith
  refine ⟨_, format_some hr _ _, ?_⟩
  have hx := format_exact v (min decimals 20) (fixed && (min decimals 20) != 0)
  rw [if_neg (formatStart_length v _ _ h1 h2)] at hx
  refine ⟨_, hx, ?_⟩
  have := shownFirst_err v (min decimals 20) (fixed && (min decimals 20) != 0)
  rw [if_neg (by omega), add_zero] at this
  exact this

/-- Without decimals it is the nearest integer, but for an error of `2 ^ -53`. -/
theorem C89_no_decimals_partial (v : ℚ) (fixed : Bool) (h1 : -9999 ≤ v) (h2 : v ≤ 99999) :
    ∃ t, formatDouble v 0 fixed [] = some t ∧ ShownWithin t v (1 / 2 + |v + 1 / 2| / 2 ^ 53) := by
  have hr : -(2 ^ 63) - 1 < v ∧ v < 2 ^ 63 := by constructor <;> norm_num <;> linarith
  refine ⟨_, format_some hr _ _, ?_⟩
  have hx := format_exact v (min 0 20) (fixed && (min 0 20) != 0)
  rw [if_neg (formatStart_length v _ _ h1 h2)] at hx
  refine ⟨_, hx, ?_⟩
  have := shownFirst_err v (min 0 20) (fixed && (min 0 20) != 0)
  simpa using this

/-- All other numbers of 64 bits are shown so, or with six significant digits only. -/
theorem C89_six_digits (v : ℚ) (decimals : Nat) (fixed : Bool) (h1 : -(2 ^ 63) ≤ v) (h2 : v < 2 ^ 63) :
    ∃ t r, formatDouble v decimals fixed [] = some t ∧ exactText t = some r ∧
      (NearestSix v r ∨ |v - r| ≤ halfDecimal decimals + if decimals = 0 then |v + 1 / 2| / 2 ^ 53 else 0) := by
  have hr : -(2 ^ 63) - 1 < v ∧ v < 2 ^ 63 := ⟨by linarith, h2⟩
  refine ⟨_, _, format_some hr _ _, format_exact v _ _, ?_⟩
  by_cases h : (formatStart v (min decimals 20) (fixed && (min decimals 20) != 0)).length > 6 + min decimals 20
  · rw [if_pos h]
    exact .inl (sixRound_nearest v)
  · rw [if_neg h]
    right
    have := shownFirst_err v (min decimals 20) (fixed && (min decimals 20) != 0)
    have e : (min decimals 20 = 0) ↔ decimals = 0 := by omega
    simp only [e] at this
    exact this

/-- The unit is behind the number, with a space between them. -/
theorem C89_unit (v : ℚ) (decimals : Nat) (fixed : Bool) (unit : Bytes) (hu : unit ≠ []) :
    formatDouble v decimals fixed unit = (formatDouble v decimals fixed []).map (· ++ 0x20#8 :: unit) := by
  by_cases hr : -(2 ^ 63) - 1 < v ∧ v < 2 ^ 63
  · rw [format_some hr]
    unfold formatDouble
    rw [if_pos hr]
    simp only [hu, if_false, Option.map_some]
  · unfold formatDouble
    rw [if_neg hr, if_neg hr]; rfl

/-- With fixed decimals there are as many as asked for (20 at most). -/
theorem C89_fixed_decimals (v : ℚ) (decimals : Nat) (h1 : -9999 ≤ v) (h2 : v ≤ 99999) (hd : 0 < decimals) :
    ∃ a b, formatDouble v decimals true [] = some (a ++ 0x2E#8 :: b) ∧ b.length = min decimals 20 ∧ (∀ c ∈ b, 0x30#8 ≤ c ∧ c ≤ 0x39#8) ∧ 0x2E#8 ∉ a := by
  have hr : -(2 ^ 63) - 1 < v ∧ v < 2 ^ 63 := by constructor <;> norm_num <;> linarith
  have hd' : 0 < min decimals 20 := by omega
  have hf : (true && (min decimals 20) != 0) = true := by simpa using Nat.pos_iff_ne_zero.1 hd'
  have e : formatDouble v decimals true [] = some (formatZeros (min decimals 20) true
      (formatLong v (min decimals 20) (formatStart v (min decimals 20) true))) := by
    rw [format_some hr, hf]
  have el : formatLong v (min decimals 20) (formatStart v (min decimals 20) true) = formatStart v (min decimals 20) true := by
    unfold formatLong; rw [if_neg (formatStart_length v _ _ h1 h2)]
  obtain ⟨n, _, ef⟩ := fixText_form (min decimals 20) hd' v
  have es : formatStart v (min decimals 20) true = fixText (min decimals 20) v := by
    unfold formatStart
    rw [if_neg (by simp), if_neg (by omega)]
  have hp : padText (min decimals 20) (n % 10 ^ min decimals 20) ≠ [] := by
    intro h; have := padText_length (min decimals 20) (n % 10 ^ min decimals 20); rw [h] at this; simp at this; omega
  rw [e, el, es, ef, formatZeros_form _ _ (decText_ne _) (decText_dig _) (padText_dig _ _)]
  simp only [if_true, if_neg hp, padText_length, Nat.sub_self, List.replicate_zero, List.append_nil]
  refine ⟨(if decide (v < 0) = true then [0x2D#8] else []) ++ decText (n / 10 ^ min decimals 20), padText (min decimals 20) (n % 10 ^ min decimals 20),
    ?_, padText_length _ _, ?_, ?_⟩
  · unfold numForm
    rw [if_neg hp, List.append_assoc]
  · intro c hc
    have := padText_dig _ _ c hc
    simpa [isDig] using this
  · intro h
    rcases List.mem_append.1 h with h | h
    · by_cases hv : v < 0
      · simp [hv] at h
      · simp [hv] at h
    · exact (dig_ne (decText_dig _ _ h)).1 rfl

/-- 1234567.5 with six decimals is shown as `1.23457E+06`, 12345678 with one decimal as `1.23457E+07`, 100000.5 with six as `100000`. -/
theorem C89_digits_lost :
    formatDouble (12345675 / 10) 6 false [] = some [0x31#8, 0x2E#8, 0x32#8, 0x33#8, 0x34#8, 0x35#8, 0x37#8, 0x45#8, 0x2B#8, 0x30#8, 0x36#8] ∧
    formatDouble 12345678 1 false [] = some [0x31#8, 0x2E#8, 0x32#8, 0x33#8, 0x34#8, 0x35#8, 0x37#8, 0x45#8, 0x2B#8, 0x30#8, 0x37#8] ∧
    formatDouble (1000005 / 10) 6 false [] = some [0x31#8, 0x30#8, 0x30#8, 0x30#8, 0x30#8, 0x30#8] := by
  decide +kernel

/-- The largest `double` below one half is shown as 1. -/
theorem C89_half_up : IsDbl (9007199254740991 / 2 ^ 54) ∧ (9007199254740991 / 2 ^ 54 : ℚ) < 1 / 2 ∧
    formatDouble (9007199254740991 / 2 ^ 54) 0 false [] = some [0x31#8] := by
  refine ⟨⟨9007199254740991, -54, by norm_num, by norm_num [zpow_neg]⟩, by norm_num, by decide +kernel⟩

/-- A number of `2 ^ 63` or more: undefined behaviour. -/
theorem C89_large_undefined (v : ℚ) (h : 2 ^ 63 ≤ v) (decimals : Nat) (fixed : Bool) (unit : Bytes) :
    formatDouble v decimals fixed unit = none := by
  unfold formatDouble
  simp only []
  rw [if_neg (fun e => absurd e.2 (not_lt.2 h))]

theorem C89_full_statement_fails : ¬ C89_Statement := by
  intro h
  obtain ⟨t, ht, r, hr, he⟩ := h (12345675 / 10) 6 false ⟨12345675 / 5, -1, by norm_num, by norm_num [zpow_neg]⟩
  rw [C89_digits_lost.1] at ht
  injection ht with ht
  have e : exactText [0x31#8, 0x2E#8, 0x32#8, 0x33#8, 0x34#8, 0x35#8, 0x37#8, 0x45#8, 0x2B#8, 0x30#8, 0x36#8] = some 1234570 := by decide +kernel
  rw [← ht, e] at hr
  injection hr with hr
  rw [← hr] at he
  unfold halfDecimal at he
  norm_num at he

example : formatDouble (123 / 100) 3 true [0x6D#8] = some [0x31#8, 0x2E#8, 0x32#8, 0x33#8, 0x30#8, 0x20#8, 0x6D#8] ∧
    formatDouble (-5 / 4) 3 false [] = some [0x2D#8, 0x31#8, 0x2E#8, 0x32#8, 0x35#8] := by decide +kernel

/-! ## Integers in a record -/

/-- Every unsigned value of a channel can be written as text and is read as that text. -/
theorem C89_unsigned_text (c : Chan) (v : Nat) (valid : Bool) (i : Nat) (buf : Bytes)
    (hd : c.dataType = .unsignedLe ∨ (c.dataType = .unsignedBe ∧ c.type ≠ .variableLength)) (pl : Placed c i buf) (hv : v < 2 ^ c.bitCount) :
    ∃ out, c.setStr (decText v) valid i buf = .done out ∧ Stored c i valid buf out ∧ c.getStr out i = .ok (decText v) := by
  have h64 : v < 2 ^ 64 := Nat.lt_of_lt_of_le hv (Nat.pow_le_pow_right (by omega) (by rcases pl.size with h | h | h | h <;> omega))
  have hb : (BitVec.ofNat 64 ((BitVec.ofNat 64 v).toNat % 2 ^ c.bitCount)).toNat = v := by
    simp only [BitVec.toNat_ofNat]
    rw [Nat.mod_eq_of_lt h64, Nat.mod_eq_of_lt hv, Nat.mod_eq_of_lt h64]
  rcases hd with hd | ⟨hd, ht⟩
  · obtain ⟨out, h1, h2, h3⟩ := C07_unsigned_le_roundtrip c (BitVec.ofNat 64 v) valid i buf hd pl
    refine ⟨out, ?_, h2, ?_⟩
    · unfold Chan.setStr; rw [hd]; simp only [stoullText_decText h64, h1]; rfl
    · unfold Chan.getStr; rw [hd]; simp only [h3, hb]
  · obtain ⟨out, h1, h2, h3⟩ := C07_unsigned_be_roundtrip c (BitVec.ofNat 64 v) valid i buf hd ht pl
    refine ⟨out, ?_, h2, ?_⟩
    · unfold Chan.setStr; rw [hd]; simp only [stoullText_decText h64, h1]; rfl
    · unfold Chan.getStr; rw [hd]; simp only [h3, hb]

/-- Every signed value of a channel can be written as text and is read as that text. -/
theorem C89_signed_text (o : Order) (c : Chan) (v : Int) (valid : Bool) (i : Nat) (buf : Bytes)
    (hd : c.dataType = match o with | .le => .signedLe | .be => .signedBe) (pl : Placed c i buf)
    (lo : -(2 ^ (c.bitCount - 1) : Int) ≤ v) (hi : v < 2 ^ (c.bitCount - 1)) :
    ∃ out, c.setStr (intText v) valid i buf = .done out ∧ Stored c i valid buf out ∧ c.getStr out i = .ok (intText v) := by
  obtain ⟨out, r, h1, h2, h3, h4⟩ := C07_signed_roundtrip o c v valid i buf hd pl lo hi
  have hp : (2 : Int) ^ (c.bitCount - 1) ≤ 2 ^ 63 := by
    rcases pl.size with h | h | h | h <;> rw [h] <;> decide
  have hs := stoll_intText (v := v) (by omega) (by omega)
  refine ⟨out, ?_, h2, ?_⟩
  · unfold Chan.setStr
    cases o with
    | le => simp only at hd h1; rw [hd]; simp only [hs, h1]; rfl
    | be => simp only at hd h1; rw [hd]; simp only [hs, h1]; rfl
  · unfold Chan.getStr
    cases o with
    | le => simp only at hd; rw [hd]; simp only [h3, h4]
    | be => simp only at hd; rw [hd]; simp only [h3, h4]

/-- A text that is no number is an exception, and nothing is written. -/
theorem C89_no_number (c : Chan) (t : Bytes) (valid : Bool) (i : Nat) (buf : Bytes)
    (hd : c.dataType = .unsignedLe ∨ c.dataType = .unsignedBe ∨ c.dataType = .signedLe ∨ c.dataType = .signedBe)
    (ht : ∀ x ∈ t.head?, ¬ (0x30#8 ≤ x ∧ x ≤ 0x39#8) ∧ x ≠ 0x2D#8 ∧ x ≠ 0x2B#8 ∧ ¬ (0x09#8 ≤ x ∧ x ≤ 0x0D#8) ∧ x ≠ 0x20#8) :
    c.setStr t valid i buf = .threw := by
  have hn : numSign t = (false, t) := by
    cases t with
    | nil => rfl
    | cons x t =>
      obtain ⟨h1, h2, h3, h4, h5⟩ := ht x (by simp)
      have hsp : isSpace x = false := by
        unfold isSpace
        simp only [Bool.or_eq_false_iff, beq_eq_false_iff_ne, Bool.and_eq_false_iff, decide_eq_false_iff_not]
        refine ⟨h5, ?_⟩
        by_cases h : 0x09#8 ≤ x
        · exact .inr (fun h' => h4 ⟨h, h'⟩)
        · exact .inl h
      simp [numSign, lTrim, hsp, h2, h3]
  have htk : t.takeWhile isDig = [] := by
    cases t with
    | nil => rfl
    | cons x t =>
      obtain ⟨h1, _⟩ := ht x (by simp)
      rw [List.takeWhile_cons_of_neg]
      intro h
      exact h1 (by simpa [isDig] using h)
  have e1 : stoullText t = none := by unfold stoullText; rw [hn]; simp [htk]
  have e2 : stollText t = none := by unfold stollText; rw [hn]; simp [htk]
  unfold Chan.setStr
  rcases hd with hd | hd | hd | hd <;> rw [hd] <;> simp only [e1, e2]

/-- Bytes are read as hexadecimal digits, but written as the letters of the text: `AB` is read as `4142`. -/
theorem C89_bytes_not_text :
    let c : Chan := { exChan with dataType := .byteArray, byteOffset := 0, bitOffset := 0, bitCount := 16, nofDataBytes := 2, invalidFlag := false }
    c.setStr [0x41#8, 0x42#8] true 0 [0#8, 0#8] = .done [0x41#8, 0x42#8] ∧
    c.getStr [0x41#8, 0x42#8] 0 = .ok [0x34#8, 0x31#8, 0x34#8, 0x32#8] := by decide

/-- A channel of 16 bits holds -300 as text. -/
example : let c : Chan := { exChan with dataType := .signedBe, byteOffset := 0, bitOffset := 0, bitCount := 16, nofDataBytes := 2, invalidFlag := false }
    c.setStr (intText (-300)) true 0 [0#8, 0#8] = .done [0xFE#8, 0xD4#8] ∧ c.getStr [0xFE#8, 0xD4#8] 0 = .ok (intText (-300)) := by decide

end Mdf
