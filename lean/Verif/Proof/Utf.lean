import Verif.Model.Utf
import Verif.Spec.Utf

namespace Mdf

/-! ### Bits as arithmetic -/

theorem and_3f (x : Nat) : x &&& 0x3f = x % 64 := Nat.and_two_pow_sub_one_eq_mod x 6
theorem and_3ff (x : Nat) : x &&& 0x3ff = x % 1024 := Nat.and_two_pow_sub_one_eq_mod x 10
theorem and_7ff (x : Nat) : x &&& 0x7ff = x % 2048 := Nat.and_two_pow_sub_one_eq_mod x 11
theorem and_fff (x : Nat) : x &&& 0xfff = x % 4096 := Nat.and_two_pow_sub_one_eq_mod x 12
theorem and_ffff (x : Nat) : x &&& 0xffff = x % 65536 := Nat.and_two_pow_sub_one_eq_mod x 16
theorem and_3ffff (x : Nat) : x &&& 0x3ffff = x % 262144 := Nat.and_two_pow_sub_one_eq_mod x 18
theorem and_1fffff (x : Nat) : x &&& 0x1fffff = x % 2097152 := Nat.and_two_pow_sub_one_eq_mod x 21

theorem or_80 : ∀ x, x < 64 → x ||| 0x80 = x + 0x80 := by decide +kernel
theorem or_c0 : ∀ x, x < 32 → x ||| 0xc0 = x + 0xc0 := by decide +kernel
theorem or_e0 : ∀ x, x < 16 → x ||| 0xe0 = x + 0xe0 := by decide +kernel
theorem or_f0 : ∀ x, x < 8 → x ||| 0xf0 = x + 0xf0 := by decide +kernel

theorem u8_toNat {x : Nat} (h : x < 256) : (u8 x).toNat = x := by
  unfold u8; rw [BitVec.toNat_ofNat]; omega

theorem cp2_eq (a b : Byte) : cp2 a b = a.toNat % 32 * 64 + b.toNat % 64 := by
  unfold cp2; rw [and_7ff, and_3f, Nat.shiftLeft_eq]; omega

theorem cp3_eq (a b c : Byte) : cp3 a b c = a.toNat % 16 * 4096 + b.toNat % 64 * 64 + c.toNat % 64 := by
  unfold cp3; rw [and_ffff, and_fff, and_3f, Nat.shiftLeft_eq, Nat.shiftLeft_eq]; omega

theorem cp4_eq (a b c d : Byte) :
    cp4 a b c d = a.toNat % 8 * 262144 + b.toNat % 64 * 4096 + c.toNat % 64 * 64 + d.toNat % 64 := by
  unfold cp4; rw [and_1fffff, and_3ffff, and_fff, and_3f, Nat.shiftLeft_eq, Nat.shiftLeft_eq, Nat.shiftLeft_eq]; omega

theorem isTrail_iff (b : Byte) : isTrail b = true ↔ 128 ≤ b.toNat ∧ b.toNat < 192 := by
  unfold isTrail
  simp only [beq_iff_eq, Nat.shiftRight_eq_div_pow]
  omega

theorem seqLength_1 {a : Byte} (h : a.toNat < 0x80) : seqLength a = 1 := by unfold seqLength; simp [h]

theorem seqLength_eq (a : Byte) : seqLength a =
    if a.toNat < 128 then 1 else if 192 ≤ a.toNat ∧ a.toNat < 224 then 2 else if 224 ≤ a.toNat ∧ a.toNat < 240 then 3
    else if 240 ≤ a.toNat ∧ a.toNat < 248 then 4 else 0 := by
  unfold seqLength
  simp only [Nat.shiftRight_eq_div_pow]
  have := a.isLt
  repeat' split
  all_goals first | rfl | omega

/-! ### The encoder by arithmetic -/

theorem append_1 {cp : Nat} (h : cp < 0x80) : cutfAppend cp = [u8 cp] := by unfold cutfAppend; rw [if_pos h]

theorem append_2 {cp : Nat} (h : 0x80 ≤ cp) (h' : cp < 0x800) : cutfAppend cp = [u8 (cp / 64 + 0xc0), u8 (cp % 64 + 0x80)] := by
  unfold cutfAppend
  rw [if_neg (by omega), if_pos h', and_3f, Nat.shiftRight_eq_div_pow, or_80 _ (by omega), or_c0 _ (by omega)]

theorem append_3 {cp : Nat} (h : 0x800 ≤ cp) (h' : cp < 0x10000) :
    cutfAppend cp = [u8 (cp / 4096 + 0xe0), u8 (cp / 64 % 64 + 0x80), u8 (cp % 64 + 0x80)] := by
  unfold cutfAppend
  rw [if_neg (by omega), if_neg (by omega), if_pos h', and_3f, and_3f, Nat.shiftRight_eq_div_pow, Nat.shiftRight_eq_div_pow,
    or_80 _ (by omega), or_80 _ (by omega), or_e0 _ (by omega)]

theorem append_4 {cp : Nat} (h : 0x10000 ≤ cp) (h' : cp < 0x200000) :
    cutfAppend cp = [u8 (cp / 262144 + 0xf0), u8 (cp / 4096 % 64 + 0x80), u8 (cp / 64 % 64 + 0x80), u8 (cp % 64 + 0x80)] := by
  unfold cutfAppend
  rw [if_neg (by omega), if_neg (by omega), if_neg (by omega), and_3f, and_3f, and_3f, Nat.shiftRight_eq_div_pow,
    Nat.shiftRight_eq_div_pow, Nat.shiftRight_eq_div_pow, or_80 _ (by omega), or_80 _ (by omega), or_80 _ (by omega), or_f0 _ (by omega)]

theorem char_range (c : Char) : c.toNat < 0xd800 ∨ (0xdfff < c.toNat ∧ c.toNat < 0x110000) := by
  have h := c.valid
  unfold UInt32.isValidChar Nat.isValidChar at h
  unfold Char.toNat
  omega

theorem append_utf8 (c : Char) : cutfAppend c.toNat = utf8Char c := by
  have hr := char_range c
  unfold utf8Char String.utf8EncodeChar
  show _ = List.map UInt8.toBitVec (if c.toNat ≤ 0x7f then _ else if c.toNat ≤ 0x7ff then _ else if c.toNat ≤ 0xffff then _ else _)
  by_cases h1 : c.toNat < 0x80
  · rw [append_1 h1, if_pos (by omega)]; rfl
  · by_cases h2 : c.toNat < 0x800
    · rw [append_2 (by omega) h2, if_neg (by omega), if_pos (by omega)]
      have e : c.toNat / 64 % 0x20 = c.toNat / 64 := by omega
      show _ = [BitVec.ofNat 8 (c.toNat / 64 % 0x20 + 0xc0), BitVec.ofNat 8 (c.toNat % 0x40 + 0x80)]
      rw [e]; rfl
    · by_cases h3 : c.toNat < 0x10000
      · rw [append_3 (by omega) h3, if_neg (by omega), if_neg (by omega), if_pos (by omega)]
        have e : c.toNat / 4096 % 0x10 = c.toNat / 4096 := by omega
        show _ = [BitVec.ofNat 8 (c.toNat / 4096 % 0x10 + 0xe0), BitVec.ofNat 8 (c.toNat / 64 % 0x40 + 0x80),
          BitVec.ofNat 8 (c.toNat % 0x40 + 0x80)]
        rw [e]; rfl
      · rw [append_4 (by omega) (by omega), if_neg (by omega), if_neg (by omega), if_neg (by omega)]
        have e : c.toNat / 262144 % 0x08 = c.toNat / 262144 := by omega
        show _ = [BitVec.ofNat 8 (c.toNat / 262144 % 0x08 + 0xf0), BitVec.ofNat 8 (c.toNat / 4096 % 0x40 + 0x80),
          BitVec.ofNat 8 (c.toNat / 64 % 0x40 + 0x80), BitVec.ofNat 8 (c.toNat % 0x40 + 0x80)]
        rw [e]; rfl

/-! ### Decoding what was encoded -/

theorem seq_u8_1 {x : Nat} (h : x < 128) : seqLength (u8 x) = 1 := by
  rw [seqLength_eq, u8_toNat (by omega), if_pos h]

theorem seq_u8_2 {x : Nat} (h : 192 ≤ x) (h' : x < 224) : seqLength (u8 x) = 2 := by
  rw [seqLength_eq, u8_toNat (by omega), if_neg (by omega), if_pos (by omega)]

theorem seq_u8_3 {x : Nat} (h : 224 ≤ x) (h' : x < 240) : seqLength (u8 x) = 3 := by
  rw [seqLength_eq, u8_toNat (by omega), if_neg (by omega), if_neg (by omega), if_pos (by omega)]

theorem seq_u8_4 {x : Nat} (h : 240 ≤ x) (h' : x < 248) : seqLength (u8 x) = 4 := by
  rw [seqLength_eq, u8_toNat (by omega), if_neg (by omega), if_neg (by omega), if_neg (by omega), if_pos (by omega)]

theorem trail_u8 {x : Nat} (h : x < 64) : isTrail (u8 (x + 0x80)) = true := by
  rw [isTrail_iff, u8_toNat (by omega)]; omega

theorem append_length {cp : Nat} : (cutfAppend cp).length = cpLength cp := by
  unfold cutfAppend cpLength
  repeat' split
  all_goals rfl

/-- The unchecked decoder takes exactly what the encoder produced. -/
theorem next_append {cp : Nat} (h : cp < 0x200000) (rest : Bytes) : cutfNext (cutfAppend cp ++ rest) = some (cp, cpLength cp) := by
  unfold cutfNext
  by_cases h1 : cp < 0x80
  · rw [append_1 h1]
    simp only [List.cons_append, List.nil_append, seq_u8_1 (show cp < 128 by omega)]
    rw [u8_toNat (by omega)]
    simp [cpLength, h1]
  · by_cases h2 : cp < 0x800
    · rw [append_2 (by omega) h2]
      simp only [List.cons_append, List.nil_append, seq_u8_2 (show 192 ≤ cp / 64 + 0xc0 by omega) (by omega)]
      rw [cp2_eq, u8_toNat (by omega), u8_toNat (by omega)]
      simp only [cpLength, if_neg h1, if_pos h2, Option.some.injEq, Prod.mk.injEq, and_true]
      omega
    · by_cases h3 : cp < 0x10000
      · rw [append_3 (by omega) h3]
        simp only [List.cons_append, List.nil_append, seq_u8_3 (show 224 ≤ cp / 4096 + 0xe0 by omega) (by omega)]
        rw [cp3_eq, u8_toNat (by omega), u8_toNat (by omega), u8_toNat (by omega)]
        simp only [cpLength, if_neg h1, if_neg h2, if_pos h3, Option.some.injEq, Prod.mk.injEq, and_true]
        omega
      · rw [append_4 (by omega) h]
        simp only [List.cons_append, List.nil_append, seq_u8_4 (show 240 ≤ cp / 262144 + 0xf0 by omega) (by omega)]
        rw [cp4_eq, u8_toNat (by omega), u8_toNat (by omega), u8_toNat (by omega), u8_toNat (by omega)]
        simp only [cpLength, if_neg h1, if_neg h2, if_neg h3, Option.some.injEq, Prod.mk.injEq, and_true]
        omega

theorem cpLength_pos (cp : Nat) : 0 < cpLength cp := by unfold cpLength; repeat' split
                                                        all_goals omega

theorem decodeLoop_append (cps : List Nat) (h : ∀ cp ∈ cps, cp < 0x200000) (fuel : Nat)
    (hf : (cps.flatMap cutfAppend).length ≤ fuel) : decodeLoop fuel (cps.flatMap cutfAppend) = some cps := by
  induction cps generalizing fuel with
  | nil => cases fuel <;> rfl
  | cons cp cps ih =>
    simp only [List.flatMap_cons, List.length_append, append_length] at hf ⊢
    have hp := cpLength_pos cp
    cases fuel with
    | zero => omega
    | succ fuel =>
      have hne : cutfAppend cp ++ cps.flatMap cutfAppend ≠ [] := by
        intro e
        have := congrArg List.length e
        simp only [List.length_append, append_length, List.length_nil] at this
        omega
      have hstep : decodeLoop (fuel + 1) (cutfAppend cp ++ cps.flatMap cutfAppend) =
          (cutfNext (cutfAppend cp ++ cps.flatMap cutfAppend)).bind fun r =>
            (decodeLoop fuel ((cutfAppend cp ++ cps.flatMap cutfAppend).drop r.2)).map (r.1 :: ·) := by
        cases hx : cutfAppend cp ++ cps.flatMap cutfAppend with
        | nil => exact absurd hx hne
        | cons a r => rfl
      rw [hstep, next_append (h cp (by simp))]
      simp only [Option.bind_some]
      rw [List.drop_left' append_length, ih (fun x hx => h x (by simp [hx])) fuel (by omega)]
      rfl

/-! ### Validity -/

theorem getNext_append {cp : Nat} (hv : cpValid cp = true) (rest : Bytes) : getNext (cutfAppend cp ++ rest) = some (cp, rest) := by
  have hlt : cp < 0x110000 := by unfold cpValid at hv; simp at hv; omega
  have hck : checked cp (cpLength cp) rest = some (cp, rest) := by
    have : overlong cp (cpLength cp) = false := by
      unfold overlong cpLength
      by_cases h1 : cp < 0x80
      · simp [h1]
      · by_cases h2 : cp < 0x800
        · simp [h1, h2]
        · by_cases h3 : cp < 0x10000 <;> simp [h1, h2, h3]
    unfold checked; rw [hv, this]; rfl
  by_cases h1 : cp < 0x80
  · rw [append_1 h1]
    simp only [List.cons_append, List.nil_append, getNext, seq_u8_1 (show cp < 128 by omega)]
    rw [u8_toNat (by omega)]
    simpa [cpLength, h1] using hck
  · by_cases h2 : cp < 0x800
    · rw [append_2 (by omega) h2]
      simp only [List.cons_append, List.nil_append, getNext, seq_u8_2 (show 192 ≤ cp / 64 + 0xc0 by omega) (by omega)]
      rw [if_pos (trail_u8 (by omega)), cp2_eq, u8_toNat (by omega), u8_toNat (by omega)]
      simp only [cpLength, if_neg h1, if_pos h2] at hck
      have e : (cp / 64 + 192) % 32 * 64 + (cp % 64 + 128) % 64 = cp := by omega
      rw [e]; exact hck
    · by_cases h3 : cp < 0x10000
      · rw [append_3 (by omega) h3]
        simp only [List.cons_append, List.nil_append, getNext, seq_u8_3 (show 224 ≤ cp / 4096 + 0xe0 by omega) (by omega)]
        rw [trail_u8 (by omega), trail_u8 (by omega)]
        simp only [Bool.and_self, if_true]
        rw [cp3_eq, u8_toNat (by omega), u8_toNat (by omega), u8_toNat (by omega)]
        simp only [cpLength, if_neg h1, if_neg h2, if_pos h3] at hck
        have e : (cp / 4096 + 224) % 16 * 4096 + (cp / 64 % 64 + 128) % 64 * 64 + (cp % 64 + 128) % 64 = cp := by omega
        rw [e]; exact hck
      · rw [append_4 (by omega) (by omega)]
        simp only [List.cons_append, List.nil_append, getNext, seq_u8_4 (show 240 ≤ cp / 262144 + 0xf0 by omega) (by omega)]
        rw [trail_u8 (by omega), trail_u8 (by omega), trail_u8 (by omega)]
        simp only [Bool.and_self, if_true]
        rw [cp4_eq, u8_toNat (by omega), u8_toNat (by omega), u8_toNat (by omega), u8_toNat (by omega)]
        simp only [cpLength, if_neg h1, if_neg h2, if_neg h3] at hck
        have e : (cp / 262144 + 240) % 8 * 262144 + (cp / 4096 % 64 + 128) % 64 * 4096 + (cp / 64 % 64 + 128) % 64 * 64 +
          (cp % 64 + 128) % 64 = cp := by omega
        rw [e]; exact hck

theorem u8_of {b : Byte} {x : Nat} (h : b.toNat = x) : b = u8 x := by
  subst h; unfold u8; simp

theorem checked_some {cp n : Nat} {r : Bytes} {q : Nat × Bytes} (h : checked cp n r = some q) :
    cpValid cp = true ∧ overlong cp n = false ∧ q = (cp, r) := by
  unfold checked at h
  split at h
  · next hc =>
    simp only [Bool.and_eq_true, Bool.not_eq_true'] at hc
    exact ⟨hc.1, hc.2, (Option.some.inj h).symm⟩
  · exact absurd h (by simp)

/-- What the checked decoder accepts is what the encoder gives. -/
theorem getNext_some {bs : Bytes} {q : Nat × Bytes} (h : getNext bs = some q) :
    cpValid q.1 = true ∧ bs = cutfAppend q.1 ++ q.2 := by
  match bs with
  | [] => simp [getNext] at h
  | a :: r =>
    have ha := a.isLt
    have hs := seqLength_eq a
    simp only [getNext] at h
    split at h
    · next hl =>
      rw [hl] at hs
      obtain ⟨h1, _, h3⟩ := checked_some h
      subst h3
      refine ⟨h1, ?_⟩
      have : a.toNat < 128 := by
        repeat' split at hs
        all_goals omega
      rw [append_1 (by omega), List.cons_append, List.nil_append, ← u8_of rfl]
    · next b r hl =>
      rw [hl] at hs
      split at h
      · next ht =>
        rw [isTrail_iff] at ht
        obtain ⟨h1, h2, h3⟩ := checked_some h
        subst h3
        refine ⟨h1, ?_⟩
        have : 192 ≤ a.toNat ∧ a.toNat < 224 := by
          repeat' split at hs
          all_goals omega
        rw [cp2_eq] at h1 h2 ⊢
        simp only [overlong] at h2
        have hge : 0x80 ≤ a.toNat % 32 * 64 + b.toNat % 64 := by
          by_cases hx : a.toNat % 32 * 64 + b.toNat % 64 < 0x80
          · rw [if_pos hx] at h2; simp at h2
          · omega
        rw [append_2 hge (by omega)]
        simp only [List.cons_append, List.nil_append, List.cons.injEq, and_true]
        exact ⟨u8_of (by omega), u8_of (by omega)⟩
      · exact absurd h (by simp)
    · next b c r hl =>
      rw [hl] at hs
      split at h
      · next ht =>
        rw [Bool.and_eq_true, isTrail_iff, isTrail_iff] at ht
        obtain ⟨h1, h2, h3⟩ := checked_some h
        subst h3
        refine ⟨h1, ?_⟩
        have : 224 ≤ a.toNat ∧ a.toNat < 240 := by
          repeat' split at hs
          all_goals omega
        rw [cp3_eq] at h1 h2 ⊢
        generalize hcp : a.toNat % 16 * 4096 + b.toNat % 64 * 64 + c.toNat % 64 = cp at *
        have hge : 0x800 ≤ cp := by
          by_cases hx : cp < 0x80
          · simp [overlong, hx] at h2
          · by_cases hy : cp < 0x800
            · simp [overlong, hx, hy] at h2
            · omega
        rw [append_3 hge (by omega)]
        simp only [List.cons_append, List.nil_append, List.cons.injEq, and_true]
        exact ⟨u8_of (by omega), u8_of (by omega), u8_of (by omega)⟩
      · exact absurd h (by simp)
    · next b c d r hl =>
      rw [hl] at hs
      split at h
      · next ht =>
        rw [Bool.and_eq_true, Bool.and_eq_true, isTrail_iff, isTrail_iff, isTrail_iff] at ht
        obtain ⟨h1, h2, h3⟩ := checked_some h
        subst h3
        refine ⟨h1, ?_⟩
        have : 240 ≤ a.toNat ∧ a.toNat < 248 := by
          repeat' split at hs
          all_goals omega
        rw [cp4_eq] at h1 h2 ⊢
        generalize hcp : a.toNat % 8 * 262144 + b.toNat % 64 * 4096 + c.toNat % 64 * 64 + d.toNat % 64 = cp at *
        have hge : 0x10000 ≤ cp := by
          by_cases hx : cp < 0x80
          · simp [overlong, hx] at h2
          · by_cases hy : cp < 0x800
            · simp [overlong, hx, hy] at h2
            · by_cases hz : cp < 0x10000
              · simp [overlong, hx, hy, hz] at h2
              · omega
        rw [append_4 hge (by omega)]
        simp only [List.cons_append, List.nil_append, List.cons.injEq, and_true]
        exact ⟨u8_of (by omega), u8_of (by omega), u8_of (by omega), u8_of (by omega)⟩
      · exact absurd h (by simp)
    · exact absurd h (by simp)

theorem cpValid_iff (cp : Nat) : cpValid cp = true ↔ cp < 0xd800 ∨ (0xdfff < cp ∧ cp < 0x110000) := by
  unfold cpValid; simp; omega

theorem char_valid (c : Char) : cpValid c.toNat = true := (cpValid_iff _).2 (char_range c)

theorem valid_char {cp : Nat} (h : cpValid cp = true) : ∃ c : Char, c.toNat = cp := by
  rw [cpValid_iff] at h
  have hv : cp.isValidChar := by unfold Nat.isValidChar; omega
  refine ⟨Char.ofNat cp, ?_⟩
  unfold Char.ofNat
  rw [dif_pos hv]
  rfl

theorem isValidLoop_utf8 (t : List Char) (fuel : Nat) (hf : (utf8Of t).length ≤ fuel) : isValidLoop fuel (utf8Of t) = true := by
  induction t generalizing fuel with
  | nil => cases fuel <;> rfl
  | cons c t ih =>
    simp only [utf8Of, List.flatMap_cons, ← append_utf8, List.length_append, append_length] at hf ⊢
    have hp := cpLength_pos c.toNat
    cases fuel with
    | zero => omega
    | succ fuel =>
      cases hx : cutfAppend c.toNat ++ t.flatMap utf8Char with
      | nil => rfl
      | cons a r =>
        simp only [isValidLoop]
        rw [← hx, getNext_append (char_valid c)]
        exact ih fuel (by unfold utf8Of; omega)

theorem isValidLoop_some (fuel : Nat) (bs : Bytes) (h : isValidLoop fuel bs = true) : ∃ t, bs = utf8Of t := by
  induction fuel generalizing bs with
  | zero =>
    cases bs with
    | nil => exact ⟨[], rfl⟩
    | cons a r => simp [isValidLoop] at h
  | succ fuel ih =>
    cases bs with
    | nil => exact ⟨[], rfl⟩
    | cons a r =>
      simp only [isValidLoop] at h
      split at h
      · exact absurd h (by simp)
      · next cp r' hg =>
        obtain ⟨h1, h2⟩ := getNext_some hg
        obtain ⟨t, ht⟩ := ih r' h
        obtain ⟨c, hc⟩ := valid_char h1
        refine ⟨c :: t, ?_⟩
        rw [h2]
        simp only [utf8Of, List.flatMap_cons, ← append_utf8, hc]
        rw [ht]
        simp only [utf8Of]

/-! ### Strings ended by zero -/

theorem cstr_of {bs : Bytes} (h : ∀ b ∈ bs, b ≠ 0#8) : cstr bs = bs := by
  unfold cstr
  induction bs with
  | nil => rfl
  | cons b bs ih =>
    rw [List.takeWhile_cons_of_pos (by simpa using h b (by simp)), ih fun x hx => h x (by simp [hx])]

theorem utf8_flat (t : List Char) : utf8Of t = (t.map Char.toNat).flatMap cutfAppend := by
  unfold utf8Of
  rw [List.flatMap_map]
  congr 1
  funext c
  exact (append_utf8 c).symm

theorem append_nonzero {cp : Nat} (h : cp < 0x110000) (h0 : cp ≠ 0) : ∀ b ∈ cutfAppend cp, b ≠ 0#8 := by
  have key : ∀ x, x < 256 → x ≠ 0 → u8 x ≠ 0#8 := by
    intro x hx hx0 e
    have := congrArg BitVec.toNat e
    rw [u8_toNat hx] at this
    exact hx0 this
  intro b hb
  by_cases h1 : cp < 0x80
  · rw [append_1 h1] at hb
    simp only [List.mem_singleton] at hb
    subst hb; exact key _ (by omega) h0
  · by_cases h2 : cp < 0x800
    · rw [append_2 (by omega) h2] at hb
      simp only [List.mem_cons, List.not_mem_nil, or_false] at hb
      rcases hb with hb | hb <;> subst hb <;> exact key _ (by omega) (by omega)
    · by_cases h3 : cp < 0x10000
      · rw [append_3 (by omega) h3] at hb
        simp only [List.mem_cons, List.not_mem_nil, or_false] at hb
        rcases hb with hb | hb | hb <;> subst hb <;> exact key _ (by omega) (by omega)
      · rw [append_4 (by omega) (by omega)] at hb
        simp only [List.mem_cons, List.not_mem_nil, or_false] at hb
        rcases hb with hb | hb | hb | hb <;> subst hb <;> exact key _ (by omega) (by omega)

theorem utf8_nonzero {t : List Char} (h : NoZero t) : ∀ b ∈ utf8Of t, b ≠ 0#8 := by
  intro b hb
  simp only [utf8Of, List.mem_flatMap] at hb
  obtain ⟨c, hc, hb⟩ := hb
  rw [← append_utf8] at hb
  have := char_range c
  exact append_nonzero (by omega) (h c hc) b hb

theorem wcstr_of {ws : List Nat} (h : ∀ w ∈ ws, w ≠ 0) : wcstr ws = ws := by
  unfold wcstr
  induction ws with
  | nil => rfl
  | cons b ws ih =>
    rw [List.takeWhile_cons_of_pos (by simpa using h b (by simp)), ih fun x hx => h x (by simp [hx])]

theorem decode_utf8 (t : List Char) : decodeLoop (utf8Of t).length (utf8Of t) = some (t.map Char.toNat) := by
  rw [utf8_flat]
  refine decodeLoop_append _ ?_ _ (Nat.le_refl _)
  intro cp hcp
  simp only [List.mem_map] at hcp
  obtain ⟨c, _, rfl⟩ := hcp
  have := char_range c
  omega

/-! ### UTF-16 -/

theorem units16_char (c : Char) : units16 c.toNat = utf16Char c := by
  have hr := char_range c
  unfold units16 utf16Char
  by_cases h : c.toNat < 0x10000
  · rw [if_neg (by omega), if_pos h]
    congr 1
    omega
  · rw [if_pos (by omega), if_neg h, and_3ff]
    simp only [Nat.shiftRight_eq_div_pow, List.cons.injEq, and_true]
    omega

theorem enc16_char (c : Char) (r : List Nat) : enc16to8 (utf16Char c ++ r) = (enc16to8 r).map (utf8Char c ++ ·) := by
  have hr := char_range c
  unfold utf16Char
  by_cases h : c.toNat < 0x10000
  · rw [if_pos h, List.cons_append, List.nil_append, enc16to8.eq_def]
    simp only [append_utf8]
    split
    · next hw => simp only [Bool.and_eq_true, decide_eq_true_eq] at hw; omega
    · rfl
  · rw [if_neg h, List.cons_append, List.cons_append, List.nil_append, enc16to8, ← append_utf8]
    rw [if_pos (by simp only [Bool.and_eq_true, decide_eq_true_eq]; omega)]
    have e : (((0xD800 + (c.toNat - 0x10000) / 1024) <<< 10) + (0xDC00 + (c.toNat - 0x10000) % 1024) +
        (2 ^ 32 + 0x10000 - 0xd800 <<< 10 - 0xdc00)) % 2 ^ 32 = c.toNat := by
      simp only [Nat.shiftLeft_eq]
      omega
    rw [e]

theorem enc16_utf16 (t : List Char) : enc16to8 (utf16Of t) = some (utf8Of t) := by
  induction t with
  | nil => simp [utf16Of, utf8Of, enc16to8]
  | cons c t ih =>
    simp only [utf16Of, utf8Of, List.flatMap_cons] at ih ⊢
    rw [enc16_char, ih]
    rfl

theorem utf16_flat (t : List Char) : (t.map Char.toNat).flatMap units16 = utf16Of t := by
  unfold utf16Of
  rw [List.flatMap_map]
  congr 1
  funext c
  exact units16_char c

theorem utf16_nonzero {t : List Char} (h : NoZero t) : ∀ w ∈ utf16Of t, w ≠ 0 := by
  intro w hw
  simp only [utf16Of, List.mem_flatMap, utf16Char] at hw
  obtain ⟨c, hc, hw⟩ := hw
  have := h c hc
  split at hw <;> simp only [List.mem_cons, List.not_mem_nil, or_false] at hw <;> omega

theorem utf16_lt {t : List Char} : ∀ w ∈ utf16Of t, w < 0x10000 := by
  intro w hw
  simp only [utf16Of, List.mem_flatMap, utf16Char] at hw
  obtain ⟨c, hc, hw⟩ := hw
  have := char_range c
  split at hw <;> simp only [List.mem_cons, List.not_mem_nil, or_false] at hw <;> omega

theorem utf16_len (t : List Char) : t.length ≤ (utf16Of t).length := by
  induction t with
  | nil => simp
  | cons c t ih =>
    simp only [utf16Of, List.flatMap_cons, List.length_append, List.length_cons] at ih ⊢
    unfold utf16Char
    split <;> simp only [List.length_cons, List.length_nil] <;> unfold utf16Char at ih <;> omega

theorem utf16_len_bmp {t : List Char} : (utf16Of t).length = t.length ↔ Bmp t := by
  induction t with
  | nil => simp [Bmp, utf16Of]
  | cons c t ih =>
    have hl := utf16_len t
    simp only [utf16Of, List.flatMap_cons, List.length_append, List.length_cons, Bmp, List.mem_cons, forall_eq_or_imp] at ih hl ⊢
    rw [← ih]
    by_cases h : c.toNat < 0x10000
    · have : (utf16Char c).length = 1 := by unfold utf16Char; rw [if_pos h]; rfl
      omega
    · have : (utf16Char c).length = 2 := by unfold utf16Char; rw [if_neg h]; rfl
      omega

theorem utf16_bmp {t : List Char} (h : Bmp t) : utf16Of t = t.map Char.toNat := by
  induction t with
  | nil => rfl
  | cons c t ih =>
    simp only [Bmp, List.mem_cons, forall_eq_or_imp] at h
    simp only [utf16Of, List.flatMap_cons, List.map_cons] at ih ⊢
    rw [ih h.2]
    unfold utf16Char
    rw [if_pos h.1]
    rfl

/-! ### Values of text channels -/

theorem utf16Units_of (num : Bytes → Nat) (put : Nat → Bytes) (hput : ∀ w, w < 0x10000 → (put w).length = 2 ∧ num (put w) = w)
    (ws : List Nat) (h : ∀ w ∈ ws, w < 0x10000 ∧ w ≠ 0) (rest : Bytes)
    (hr : rest = [] ∨ ∃ junk, rest = put 0 ++ junk) : utf16Units num (ws.flatMap put ++ rest) = ws := by
  have two : ∀ l : Bytes, l.length = 2 → ∃ a b, l = [a, b] := by
    intro l hl
    match l, hl with
    | [a, b], _ => exact ⟨a, b, rfl⟩
  induction ws with
  | nil =>
    rcases hr with hr | ⟨junk, hr⟩
    · subst hr; rfl
    · subst hr
      obtain ⟨hl, hn⟩ := hput 0 (by omega)
      obtain ⟨a, b, e⟩ := two _ hl
      rw [e] at hn
      simp only [List.flatMap_nil, List.nil_append, e, List.cons_append, utf16Units, hn, if_true]
  | cons w ws ih =>
    obtain ⟨h1, h2⟩ := h w (by simp)
    obtain ⟨hl, hn⟩ := hput w h1
    obtain ⟨a, b, e⟩ := two _ hl
    rw [e] at hn
    simp only [List.flatMap_cons, e, List.cons_append, List.nil_append, utf16Units, hn]
    rw [if_neg h2, ih fun x hx => h x (by simp [hx])]

theorem latin1_append (b : Byte) :
    (if b.toNat < 0x80 then [b] else [u8 (0xC0 ||| b.toNat >>> 6), u8 (0x80 ||| (b.toNat &&& 0x3f))]) = cutfAppend b.toNat := by
  have := b.isLt
  by_cases h : b.toNat < 0x80
  · rw [if_pos h, append_1 h, ← u8_of rfl]
  · rw [if_neg h, append_2 (by omega) (by omega), Nat.or_comm, Nat.or_comm 0x80, and_3f, Nat.shiftRight_eq_div_pow,
      or_80 _ (by omega), or_c0 _ (by omega)]

end Mdf
