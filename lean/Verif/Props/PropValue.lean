import Verif.Proof.CommentApi

/-!
**C65**: the value that is set on a property of a comment is the value that is returned.
-/

namespace Mdf

/-- **C65**: a number that is set is returned, whatever the type of the property. -/
def C65_Statement : Prop := ∀ (p : MdProp) (v now : BitVec 64), (p.setNum v).getNum now = some v

theorem dec_not_hex (n : Nat) : ¬ ((decText n).length > 2 ∧ (decText n).take 2 = [0x30#8, 0x78#8]) := by
  rintro ⟨_, h⟩
  have hm : 0x78#8 ∈ (decText n).take 2 := by rw [h]; simp
  have := decText_digits n _ (List.mem_of_mem_take hm)
  exact absurd this (by decide)

theorem plainNum_dec (v : BitVec 64) : plainNum (decText v.toNat) = v := by
  rw [plainNum, if_neg (decText_ne _), stoullText_decText v.isLt]
  simp

theorem getNum_dec (p : MdProp) (v now : BitVec 64) (hv : p.value = decText v.toNat)
    (ht : p.type = .string ∨ p.type = .decimal ∨ p.type = .integer ∨ p.type = .float) : p.getNum now = some v := by
  rw [MdProp.getNum]
  rcases ht with ht | ht | ht | ht <;> simp only [ht, hv, plainNum_dec]
  rw [if_neg (dec_not_hex _)]

/-- **C65** (partial: a property of type string, decimal, integer or float).  The number that is set is returned, also after the comment was
written and read. -/
theorem C65_number_partial (p : MdProp) (v now : BitVec 64)
    (ht : p.type = .string ∨ p.type = .decimal ∨ p.type = .integer ∨ p.type = .float) :
    (p.setNum v).getNum now = some v ∧ (p.setNum v).readBack.getNum now = some v := by
  have hn : p.type.numText v = decText v.toNat := by rcases ht with h | h | h | h <;> rw [h] <;> rfl
  have hr : p.type.readBack = p.type := by rcases ht with h | h | h | h <;> rw [h] <;> rfl
  refine ⟨getNum_dec _ v now hn ht, getNum_dec _ v now ?_ ?_⟩
  · show trim (p.type.numText v) = _
    rw [hn, decText_trim]
  · show p.type.readBack = _ ∨ p.type.readBack = _ ∨ p.type.readBack = _ ∨ p.type.readBack = _
    rw [hr]
    exact ht

theorem dig_space {a : Nat} (h : a < 10) : isSpace (dig a) = false := by
  have : ∀ a : Fin 10, isSpace (dig a) = false := by decide
  exact this ⟨a, h⟩

theorem iso_trim (v : BitVec 64) : trim (toIsoDateTime v true) = toIsoDateTime v true := by
  have hlt := v.isLt
  obtain ⟨x, hx, _, _, _, hd, _⟩ := gmtime_fields (v.toNat / 1000000000 : Nat) (by omega) (by omega) [] ⟨by simp, by simp⟩
  have hy := hx.year
  apply trim_id
  · intro c hc
    rw [toIsoDateTime, hd, pad4] at hc
    simp only [List.cons_append, List.head?_cons, Option.mem_def, Option.some.injEq] at hc
    subst hc
    exact dig_space (by omega)
  · intro c hc
    rw [toIsoDateTime, List.getLast?_append] at hc
    simp only [List.getLast?_singleton, Option.some_or, Option.mem_def, Option.some.injEq] at hc
    subst hc
    decide

/-- A time is returned in milliseconds, also after the comment was written and read. -/
theorem C65_time_partial (p : MdProp) (v now : BitVec 64) (ht : p.type = .dateTime) :
    (p.setNum v).getNum now = some (v / 1000000#64 * 1000000#64) ∧
    (p.setNum v).readBack.getNum now = some (v / 1000000#64 * 1000000#64) := by
  have h := C63_round_trip v now true
  rw [if_pos rfl] at h
  have hn : p.type.numText v = toIsoDateTime v true := by rw [ht]; rfl
  refine ⟨?_, ?_⟩
  · rw [MdProp.getNum]
    show (match p.type with | .integer => _ | .dateTime => fromIso now (p.type.numText v) | _ => _) = _
    simp only [ht]
    exact h
  · rw [MdProp.getNum]
    show (match p.type.readBack with | .integer => _ | .dateTime => fromIso now (trim (p.type.numText v)) | _ => _) = _
    simp only [ht, MdType.readBack, MdType.numText, iso_trim]
    exact h

/-- A number in hexadecimal form is returned after the comment was written and read ... -/
theorem C65_hex_partial (p : MdProp) (v now : BitVec 64) (ht : p.type = .hex) : (p.setNum v).readBack.getNum now = some v := by
  have hv : (p.setNum v).readBack.value = hexText v.toNat := by
    show trim (p.type.numText v) = _
    rw [ht]
    exact hexText_trim _
  have ht' : (p.setNum v).readBack.type = .integer := by
    show p.type.readBack = _
    rw [ht]
    rfl
  have hne := hexGo_ne v.toNat (show 0 < 16 by decide)
  rw [MdProp.getNum, ht']
  dsimp only
  rw [hv, if_pos, hexText, List.drop_succ_cons, List.drop_succ_cons, List.drop_zero, stoullHex_go v.isLt]
  · simp
  · refine ⟨?_, rfl⟩
    cases hg : hexGo 16 v.toNat with
    | nil => exact absurd hg hne
    | cons a t => simp [hexText, hg]

/-- ... and not before: the number is then 0. -/
theorem C65_hex_lost (p : MdProp) (v now : BitVec 64) (ht : p.type = .hex) : (p.setNum v).getNum now = some 0 := by
  have h1 : stoullText (hexText v.toNat) = some 0 := by
    have := stoull_prefix (s := [0x30#8]) (t := 0x78#8 :: hexGo 16 v.toNat) (by simp [isDig]) (by simp)
      (by intro c hc; simp only [List.head?_cons, Option.some.injEq] at hc; subst hc; decide) (by decide)
    exact this
  rw [MdProp.getNum]
  show (match p.type with | .integer => _ | .dateTime => fromIso now (p.type.numText v) | _ => some (plainNum (p.type.numText v))) = _
  simp only [ht, MdType.numText, plainNum, h1]
  rw [if_neg (by simp [hexText])]
  rfl

/-- Of a date only the year is returned. -/
theorem C65_date_lost (p : MdProp) (v now : BitVec 64) (ht : p.type = .date) :
    ∃ x : IsoTime, x.Valid ∧ x.zone = .utc ∧ x.civil = (v.toNat / 1000000000 : Nat) ∧ (p.setNum v).getNum now = some (BitVec.ofNat 64 x.year) := by
  have hlt := v.isLt
  obtain ⟨x, hx, hz, _, hc, hd, _⟩ := gmtime_fields (v.toNat / 1000000000 : Nat) (by omega) (by omega) [] ⟨by simp, by simp⟩
  refine ⟨x, hx, hz, hc, ?_⟩
  have hy := hx.year
  have h1 : stoullText (toIsoDate v) = some x.year := by
    rw [toIsoDate, hd, List.append_assoc, List.append_assoc, stoull_prefix (pad4_isDig (by omega)) (by simp [pad4]) _ _, digits_pad4 (by omega)]
    · intro c hc
      simp only [List.cons_append, List.head?_cons, Option.some.injEq] at hc
      subst hc
      decide
    · rw [digits_pad4 (by omega)]
      omega
  rw [MdProp.getNum]
  show (match p.type with | .integer => _ | .dateTime => fromIso now (p.type.numText v) | _ => some (plainNum (p.type.numText v))) = _
  simp only [ht, MdType.numText, plainNum, h1]
  rw [if_neg (by simp [toIsoDate])]
  rfl

/-- Of a time of day only the hour is returned. -/
theorem C65_time_of_day_lost (p : MdProp) (v now : BitVec 64) (ht : p.type = .time) :
    ∃ x : IsoTime, x.Valid ∧ x.zone = .utc ∧ x.civil = (v.toNat / 1000000000 : Nat) ∧ (p.setNum v).getNum now = some (BitVec.ofNat 64 x.hour) := by
  have hlt := v.isLt
  obtain ⟨x, hx, hz, _, hc, _, hd⟩ := gmtime_fields (v.toNat / 1000000000 : Nat) (by omega) (by omega) [] ⟨by simp, by simp⟩
  refine ⟨x, hx, hz, hc, ?_⟩
  have hy := hx.hour
  have h1 : stoullText (toIsoTime v true) = some x.hour := by
    rw [toIsoTime, hd]
    simp only [List.append_assoc, List.cons_append]
    rw [stoull_prefix (pad2_isDig (by omega)) (by simp [pad2]) _ _, digits_pad2 (by omega)]
    · intro c hc
      simp only [List.head?_cons, Option.some.injEq] at hc
      subst hc
      decide
    · rw [digits_pad2 (by omega)]
      omega
  rw [MdProp.getNum]
  show (match p.type with | .integer => _ | .dateTime => fromIso now (p.type.numText v) | _ => some (plainNum (p.type.numText v))) = _
  simp only [ht, MdType.numText, plainNum, h1]
  rw [if_neg (by simp [toIsoTime])]
  rfl

/-- A property of type boolean: the number is always 0, the truth value is right, also after the comment was written and read. -/
theorem C65_boolean (p : MdProp) (v now : BitVec 64) (ht : p.type = .boolean) :
    (p.setNum v).getNum now = some 0 ∧ (p.setNum v).getBool = decide (v ≠ 0) ∧ (p.setNum v).readBack.getBool = decide (v ≠ 0) := by
  by_cases hv : v = 0
  · subst hv
    have e : p.setNum 0 = { p with value := wFalse } := by rw [MdProp.setNum, ht]; rfl
    rw [e]
    obtain ⟨a, b, c, d, f, t, g, h⟩ := p
    dsimp only at ht
    subst ht
    refine ⟨?_, rfl, ?_⟩
    · show some (plainNum wFalse) = _
      decide
    · show (match trim wFalse with | [] => false | c :: _ => c == 0x31#8 || c == 0x74#8 || c == 0x54#8) = _
      decide
  · have hn : v.toNat > 0 := by
      rcases Nat.eq_zero_or_pos v.toNat with h | h
      · exact absurd (BitVec.eq_of_toNat_eq (by simpa using h)) hv
      · exact h
    have e : p.setNum v = { p with value := wTrue } := by rw [MdProp.setNum, ht, MdType.numText, if_pos hn]
    rw [e, decide_eq_true hv]
    obtain ⟨a, b, c, d, f, t, g, h⟩ := p
    dsimp only at ht
    subst ht
    refine ⟨?_, rfl, ?_⟩
    · show some (plainNum wTrue) = _
      decide
    · show (match trim wTrue with | [] => false | c :: _ => c == 0x31#8 || c == 0x74#8 || c == 0x54#8) = _
      decide

/-- A truth value that is set is returned, also after the comment was written and read. -/
theorem C65_bool (p : MdProp) (b : Bool) : (p.setBool b).getBool = b ∧ (p.setBool b).readBack.getBool = b := by
  cases b
  · refine ⟨rfl, ?_⟩
    show (match trim wFalse with | [] => false | c :: _ => c == 0x31#8 || c == 0x74#8 || c == 0x54#8) = _
    decide
  · refine ⟨rfl, ?_⟩
    show (match trim wTrue with | [] => false | c :: _ => c == 0x31#8 || c == 0x74#8 || c == 0x54#8) = _
    decide

theorem C65_full_statement_fails : ¬ C65_Statement := by
  intro h
  have h1 := h { type := .hex } 255#64 0
  rw [C65_hex_lost _ _ _ rfl] at h1
  exact absurd h1 (by decide)

example : (({ type := .integer, name := exA } : MdProp).setNum 18446744073709551615#64).getNum 0 = some 18446744073709551615#64 :=
  (C65_number_partial _ _ _ (.inr (.inr (.inl rfl)))).1
example : hexText 0xDEADBEEF = [0x30#8, 0x78#8, 0x44#8, 0x45#8, 0x41#8, 0x44#8, 0x42#8, 0x45#8, 0x45#8, 0x46#8] := by decide

end Mdf
