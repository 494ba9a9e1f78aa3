import Verif.Model.HdComment
import Verif.Props.Comment
import Verif.Props.Time

/-! Numbers in texts, for the values of properties. -/

namespace Mdf

/-! ## Hexadecimal numbers -/

theorem hexVal_digit {d : Nat} (h : d < 16) : hexVal (hexDigitU d) = some d := by
  have : ∀ d : Fin 16, hexVal (hexDigitU d) = some d.val := by decide
  exact this ⟨d, h⟩

theorem hexDigitU_cases {d : Nat} (h : d < 16) : hexDigitU d ≠ 0x78#8 ∧ hexDigitU d ≠ 0x58#8 ∧ isSpace (hexDigitU d) = false ∧
    hexDigitU d ≠ 0x2D#8 ∧ hexDigitU d ≠ 0x2B#8 := by
  have : ∀ d : Fin 16, hexDigitU d ≠ 0x78#8 ∧ hexDigitU d ≠ 0x58#8 ∧ isSpace (hexDigitU d) = false ∧
      hexDigitU d ≠ 0x2D#8 ∧ hexDigitU d ≠ 0x2B#8 := by decide
  exact this ⟨d, h⟩

theorem hexGo_digits : ∀ (f n : Nat), ∀ c ∈ hexGo f n, ∃ d, d < 16 ∧ c = hexDigitU d
  | 0, _, c, h => by cases h
  | f + 1, n, c, h => by
    rw [hexGo] at h
    split at h
    · rename_i hn
      rw [List.mem_singleton] at h
      exact ⟨n, hn, h⟩
    · rw [List.mem_append, List.mem_singleton] at h
      rcases h with h | h
      · exact hexGo_digits f _ c h
      · exact ⟨n % 16, Nat.mod_lt _ (by decide), h⟩

theorem hexGo_ne {f : Nat} (n : Nat) (h : 0 < f) : hexGo f n ≠ [] := by
  cases f with
  | zero => omega
  | succ f =>
    rw [hexGo]
    split <;> simp

theorem hexGo_value : ∀ (f n : Nat), n < 16 ^ f → (hexGo f n).foldl (fun n c => n * 16 + (hexVal c).getD 0) 0 = n
  | 0, n, h => by
    rw [hexGo]
    simp at h ⊢
    omega
  | f + 1, n, h => by
    rw [hexGo]
    split
    · rename_i hn
      simp [hexVal_digit hn]
    · rw [List.foldl_append, hexGo_value f (n / 16) (by rw [Nat.pow_succ] at h; omega)]
      simp only [List.foldl_cons, List.foldl_nil, hexVal_digit (Nat.mod_lt n (show 16 > 0 by decide)), Option.getD_some]
      omega

theorem hexGo_run (f n : Nat) : (hexGo f n).takeWhile (fun c => (hexVal c).isSome) = hexGo f n := by
  have key : ∀ l : Bytes, (∀ c ∈ l, (hexVal c).isSome = true) → l.takeWhile (fun c => (hexVal c).isSome) = l := by
    intro l
    induction l with
    | nil => intro _; rfl
    | cons c l ih =>
      intro h
      rw [List.takeWhile_cons, if_pos (h c (by simp)), ih (fun d hd => h d (by simp [hd]))]
  apply key
  intro c hc
  obtain ⟨d, hd, rfl⟩ := hexGo_digits f n c hc
  rw [hexVal_digit hd]
  rfl

theorem numSign_plain {s : Bytes} (h : ∀ c, s.head? = some c → isSpace c = false ∧ c ≠ 0x2D#8 ∧ c ≠ 0x2B#8) : numSign s = (false, s) := by
  unfold numSign
  rw [lTrim_id (fun c hc => (h c hc).1)]
  cases s with
  | nil => rfl
  | cons c t =>
    obtain ⟨_, h2, h3⟩ := h c rfl
    dsimp only
    rw [if_neg h2, if_neg h3]

theorem skipHex_go (f n : Nat) : skipHex (hexGo f n) = hexGo f n := by
  cases he : hexGo f n with
  | nil => rfl
  | cons a t =>
    cases t with
    | nil => rfl
    | cons b t =>
      cases t with
      | nil => rfl
      | cons c t =>
        rw [skipHex, if_neg]
        rintro ⟨_, hb, _⟩
        obtain ⟨d, hd, e⟩ := hexGo_digits f n b (by rw [he]; simp)
        obtain ⟨h1, h2, _⟩ := hexDigitU_cases hd
        rw [e] at hb
        exact hb.elim h1 h2

theorem stoullHex_go {n : Nat} (h : n < 2 ^ 64) : stoullHex (hexGo 16 n) = some n := by
  have hs : numSign (hexGo 16 n) = (false, hexGo 16 n) := by
    apply numSign_plain
    intro c hc
    obtain ⟨d, hd, rfl⟩ := hexGo_digits 16 n c (List.mem_of_head? hc)
    obtain ⟨_, _, h3, h4, h5⟩ := hexDigitU_cases hd
    exact ⟨h3, h4, h5⟩
  unfold stoullHex
  rw [hs]
  simp only [skipHex_go, hexGo_run, hexGo_ne n (show 0 < 16 by decide), if_false, hexNumber, Bool.false_eq_true]
  rw [hexGo_value 16 n (by omega), if_pos h]

theorem hexText_trim (n : Nat) : trim (hexText n) = hexText n := by
  apply trim_id
  all_goals
    intro c hc
    have hm : c ∈ hexText n := by first | exact List.mem_of_head? hc | exact List.mem_of_getLast? hc
    rw [hexText, List.mem_cons, List.mem_cons] at hm
    rcases hm with rfl | rfl | hm
    · decide
    · decide
    · obtain ⟨d, hd, rfl⟩ := hexGo_digits 16 n c hm
      exact (hexDigitU_cases hd).2.2.1

/-! ## Numbers at the start of a text -/

theorem stoull_prefix {s t : Bytes} (hs : ∀ c ∈ s, isDig c = true) (hne : s ≠ []) (ht : ∀ c, t.head? = some c → isDig c = false)
    (hv : digits s < 2 ^ 64) : stoullText (s ++ t) = some (digits s) := by
  have h1 : numSign (s ++ t) = (false, s ++ t) := by
    apply numSign_plain
    intro c hc
    have hm : isDig c = true := by
      cases s with
      | nil => exact absurd rfl hne
      | cons d s =>
        simp only [List.cons_append, List.head?_cons, Option.some.injEq] at hc
        subst hc
        exact hs _ (by simp)
    simp only [isDig, Bool.and_eq_true, decide_eq_true_eq, BitVec.le_def, BitVec.toNat_ofNat] at hm
    refine ⟨?_, ?_, ?_⟩
    · simp only [isSpace, Bool.or_eq_false_iff, Bool.and_eq_false_iff, beq_eq_false_iff_ne, decide_eq_false_iff_not, ne_eq, BitVec.le_def,
        ← BitVec.toNat_inj, BitVec.toNat_ofNat]
      omega
    · rw [ne_eq, ← BitVec.toNat_inj, BitVec.toNat_ofNat]; omega
    · rw [ne_eq, ← BitVec.toNat_inj, BitVec.toNat_ofNat]; omega
  have h2 : (s ++ t).takeWhile isDig = s := by
    clear h1 hne hv
    induction s with
    | nil =>
      cases t with
      | nil => rfl
      | cons c t => rw [List.nil_append, List.takeWhile_cons, if_neg (by rw [ht c rfl]; simp)]
    | cons d s ih => rw [List.cons_append, List.takeWhile_cons, if_pos (hs d (by simp)), ih (fun c hc => hs c (by simp [hc]))]
  unfold stoullText
  rw [h1]
  simp only [h2, hne, if_false, Bool.false_eq_true]
  rw [if_pos hv]

theorem dig_isDig {a : Nat} (h : a < 10) : isDig (dig a) = true := by
  have : ∀ a : Fin 10, isDig (dig a) = true := by decide
  exact this ⟨a, h⟩

theorem pad2_isDig {n : Nat} (h : n < 100) : ∀ c ∈ pad2 n, isDig c = true := by
  obtain ⟨a, b, ha, hb, e, _⟩ := pad2_digits h
  rw [e]
  simp [dig_isDig ha, dig_isDig hb]

theorem pad4_isDig {n : Nat} (h : n < 10000) : ∀ c ∈ pad4 n, isDig c = true := by
  obtain ⟨a, b, c, d, ha, hb, hc, hd, e, _⟩ := pad4_digits h
  rw [e]
  simp [dig_isDig ha, dig_isDig hb, dig_isDig hc, dig_isDig hd]

/-! ## Signed numbers -/

theorem stoll_intText {v : Int} (h1 : -(2 ^ 63) ≤ v) (h2 : v < 2 ^ 63) : stollText (intText v) = some v := by
  unfold intText
  by_cases hv : v < 0
  · rw [if_pos hv]
    have hs : numSign (0x2D#8 :: decText v.natAbs) = (true, decText v.natAbs) := by
      unfold numSign
      rw [lTrim_id (by intro c hc; simp only [List.head?_cons, Option.some.injEq, Option.mem_def] at hc; subst hc; decide)]
      rfl
    unfold stollText
    rw [hs]
    simp only [decText_digit_run, digits_decText, decText_ne, if_false, if_true]
    rw [if_pos (by omega)]
    congr 1
    omega
  · rw [if_neg hv, stollText_decText (by omega)]
    congr 1
    omega

theorem intText_ne (v : Int) : intText v ≠ [] := by
  unfold intText
  split
  · simp
  · exact decText_ne _

end Mdf
