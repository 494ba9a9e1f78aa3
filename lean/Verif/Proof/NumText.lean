import Verif.Spec.Number
import Verif.Proof.Double
import Verif.Proof.CommentAttr
import Verif.Proof.CommentApi

/-! # Numbers as text -/

namespace Mdf

theorem pow10_eq (k : ℤ) : pow10 k = (10 : ℚ) ^ k := by
  cases k with
  | ofNat n => simp [pow10]
  | negSucc n => simp [pow10, zpow_negSucc]

theorem ratAbs_eq (q : ℚ) : ratAbs q = |q| := by
  unfold ratAbs
  split
  · rename_i h; exact (abs_of_nonneg h).symm
  · rename_i h; exact (abs_of_neg (lt_of_not_ge h)).symm

/-! ## Digits -/

theorem digits_append (a b : Bytes) : digits (a ++ b) = digits a * 10 ^ b.length + digits b := by
  have key : ∀ (b : Bytes) (n : Nat), b.foldl (fun n c => 10 * n + (c.toNat - 48)) n = n * 10 ^ b.length + digits b := by
    intro b
    induction b with
    | nil => intro n; simp [digits]
    | cons c b ih =>
      intro n
      have e : digits (c :: b) = b.foldl (fun n c => 10 * n + (c.toNat - 48)) (10 * 0 + (c.toNat - 48)) := rfl
      rw [List.foldl_cons, ih, e, ih, List.length_cons, pow_succ]
      ring
  rw [digits, List.foldl_append, key]
  rfl

theorem padText_length (w n : Nat) : (padText w n).length = w := by
  induction w generalizing n with
  | zero => rfl
  | succ w ih => simp [padText, ih]

theorem digit_byte : ∀ k : Fin 10, isDig (BitVec.ofNat 8 (48 + k.val)) = true ∧ (BitVec.ofNat 8 (48 + k.val) : Byte).toNat - 48 = k.val := by
  decide

theorem padText_dig (w n : Nat) : ∀ c ∈ padText w n, isDig c = true := by
  induction w generalizing n with
  | zero => intro c hc; cases hc
  | succ w ih =>
    intro c hc
    rw [padText, List.mem_append, List.mem_singleton] at hc
    rcases hc with hc | rfl
    · exact ih _ c hc
    · exact (digit_byte ⟨n % 10, Nat.mod_lt _ (by decide)⟩).1

theorem digits_padText (w n : Nat) : digits (padText w n) = n % 10 ^ w := by
  induction w generalizing n with
  | zero => simp [padText, digits, Nat.mod_one]
  | succ w ih =>
    rw [padText, digits_append, ih]
    have h := (digit_byte ⟨n % 10, Nat.mod_lt _ (by decide)⟩).2
    have h1 : digits [BitVec.ofNat 8 (48 + n % 10)] = n % 10 := by
      simp only [digits, List.foldl_cons, List.foldl_nil]
      dsimp only at h
      omega
    rw [h1, List.length_singleton, pow_one, pow_succ, Nat.mul_comm (10 ^ w) 10, Nat.mod_mul]
    ring

theorem takeWhile_dig {s r : Bytes} (h : ∀ c ∈ s, isDig c = true) (hr : ∀ c ∈ r.head?, isDig c = false) :
    (s ++ r).takeWhile isDig = s ∧ (s ++ r).dropWhile isDig = r := by
  induction s with
  | nil =>
    cases r with
    | nil => exact ⟨rfl, rfl⟩
    | cons c r =>
      have := hr c rfl
      simp [this]
  | cons c s ih =>
    have hc := h c (by simp)
    have := ih (fun d hd => h d (by simp [hd]))
    simp [hc, this.1, this.2]

theorem decText_dig (n : Nat) : ∀ c ∈ decText n, isDig c = true := by
  intro c hc
  have := decText_digits n c hc
  simpa [isDig] using this

/-- The zeros that are dropped. -/
theorem dropZeros_spec (s : Bytes) : ∃ k, s = dropZeros s ++ List.replicate k 0x30#8 := by
  have h := List.takeWhile_append_dropWhile (p := (· == 0x30#8)) (l := s.reverse)
  have h2 : ∀ c ∈ s.reverse.takeWhile (· == 0x30#8), c = 0x30#8 := by
    have := List.all_takeWhile (p := (· == 0x30#8)) (l := s.reverse)
    intro c hc
    simpa using List.all_eq_true.mp this c hc
  refine ⟨(s.reverse.takeWhile (· == 0x30#8)).length, ?_⟩
  have h3 := congrArg List.reverse h
  rw [List.reverse_append, List.reverse_reverse] at h3
  rw [← List.eq_replicate_iff.mpr ⟨List.length_reverse, fun c hc => h2 c (List.mem_reverse.mp hc)⟩]
  exact h3.symm

theorem digits_zeros (k : Nat) : digits (List.replicate k 0x30#8) = 0 := by
  induction k with
  | zero => rfl
  | succ k ih => rw [List.replicate_succ', digits_append, ih]; simp [digits]

/-- Zeros at the end of the digits after the point do not matter. -/
theorem dropZeros_value (a : Bytes) (s : Bytes) :
    (digits (a ++ dropZeros s) : ℚ) * 10 ^ (-((dropZeros s).length : ℤ)) = digits (a ++ s) * 10 ^ (-(s.length : ℤ)) := by
  obtain ⟨k, hk⟩ := dropZeros_spec s
  generalize dropZeros s = d at *
  subst hk
  rw [← List.append_assoc, digits_append (a ++ d), digits_zeros, List.length_append, List.length_replicate]
  push_cast
  rw [neg_add, zpow_add₀ (by norm_num), zpow_neg (10 : ℚ) (k : ℤ), zpow_natCast]
  have : (10 : ℚ) ^ k ≠ 0 := by positivity
  field_simp
  ring

theorem dropZeros_dig {s : Bytes} (h : ∀ c ∈ s, isDig c = true) : ∀ c ∈ dropZeros s, isDig c = true := by
  intro c hc
  obtain ⟨k, hk⟩ := dropZeros_spec s
  exact h c (by rw [hk]; exact List.mem_append_left _ hc)

/-! ## Reading a text -/

/-- The end of a number text: nothing, or an exponent. -/
inductive TextEnd : Bytes → ℤ → Prop where
  | none : TextEnd [] 0
  | exp (x : ℤ) : TextEnd (expText x) x

theorem expPart_expText (x : ℤ) : expPart (expText x) = x := by
  have h1 : digits (((if x.natAbs < 10 then 0x30#8 :: decText x.natAbs else decText x.natAbs) : Bytes).takeWhile isDig) = x.natAbs := by
    have hd : ∀ c ∈ (if x.natAbs < 10 then 0x30#8 :: decText x.natAbs else decText x.natAbs : Bytes), isDig c = true := by
      intro c hc
      split at hc
      · rcases List.mem_cons.mp hc with rfl | hc
        · decide
        · exact decText_dig _ c hc
      · exact decText_dig _ c hc
    have := (takeWhile_dig (r := []) hd (by simp)).1
    rw [List.append_nil] at this
    rw [this]
    split
    · rw [show (0x30#8 :: decText x.natAbs) = [0x30#8] ++ decText x.natAbs from rfl, digits_append, digits_decText]
      simp [digits]
    · exact digits_decText _
  rw [expText, expPart]
  simp only [true_or, if_true]
  by_cases hx : x < 0
  · rw [if_pos hx]
    simp only [if_true]
    rw [h1]
    omega
  · rw [if_neg hx]
    rw [if_neg (by decide), if_pos rfl, h1]
    omega

theorem fracPart_text {d E : Bytes} {x : ℤ} (hd : ∀ c ∈ d, isDig c = true) (hE : TextEnd E x) :
    fracPart ((if d = [] then [] else 0x2E#8 :: d) ++ E) = (d, E) := by
  have hh : ∀ c ∈ E.head?, isDig c = false := by
    cases hE with
    | none => simp
    | exp x => intro c hc; simp only [expText, List.head?_cons, Option.mem_def, Option.some.injEq] at hc; subst hc; decide
  by_cases h : d = []
  · subst h
    rw [if_pos rfl, List.nil_append]
    cases hE with
    | none => rfl
    | exp x => rw [expText, fracPart, if_neg (by decide)]
  · rw [if_neg h, List.cons_append, fracPart, if_pos rfl]
    obtain ⟨h1, h2⟩ := takeWhile_dig hd hh
    rw [h1, h2]

theorem digit_head : ∀ x : Fin 256, isDig (BitVec.ofFin x) = true →
    isSpace (BitVec.ofFin x) = false ∧ BitVec.ofFin x ≠ 0x2D#8 ∧ (BitVec.ofFin x : Byte) ≠ 0x2B#8 := by decide +kernel

theorem numSign_text {neg : Bool} {ip r : Bytes} (hne : ip ≠ []) (hi : ∀ c ∈ ip, isDig c = true) :
    numSign ((if neg then [0x2D#8] else []) ++ (ip ++ r)) = (neg, ip ++ r) := by
  cases neg with
  | true => simp [numSign, lTrim, isSpace]
  | false =>
    cases ip with
    | nil => exact absurd rfl hne
    | cons c t =>
      obtain ⟨h1, h2, h3⟩ := digit_head c.toFin (hi c (by simp))
      simp only [BitVec.ofFin_toFin] at h1 h2 h3
      simp [numSign, lTrim, h1, h2, h3]

theorem exactText_eq {neg : Bool} {ip d E : Bytes} {x : ℤ} (hne : ip ≠ []) (hi : ∀ c ∈ ip, isDig c = true) (hd : ∀ c ∈ d, isDig c = true)
    (hE : TextEnd E x) :
    exactText ((if neg then [0x2D#8] else []) ++ (ip ++ ((if d = [] then [] else 0x2E#8 :: d) ++ E))) =
      some ((if neg then (-1 : ℚ) else 1) * ((digits (ip ++ d) : ℚ) * (10 : ℚ) ^ (x - (d.length : ℤ)))) := by
  have hh : ∀ c ∈ ((if d = [] then [] else 0x2E#8 :: d) ++ E).head?, isDig c = false := by
    intro c hc
    by_cases h : d = []
    · rw [if_pos h, List.nil_append] at hc
      cases hE with
      | none => simp at hc
      | exp x => simp only [expText, List.head?_cons, Option.mem_def, Option.some.injEq] at hc; subst hc; decide
    · rw [if_neg h] at hc
      simp only [List.cons_append, List.head?_cons, Option.mem_def, Option.some.injEq] at hc
      subst hc; decide
  have hx : expPart E = x := by
    cases hE with
    | none => rfl
    | exp x => exact expPart_expText x
  obtain ⟨h1, h2⟩ := takeWhile_dig hi hh
  unfold exactText
  rw [numSign_text hne hi]
  simp only [h1, h2, fracPart_text hd hE, hx, pow10_eq]
  rw [if_neg (fun h => hne h.1)]
  cases neg <;> simp

/-! ## Writing a number with six digits after the point -/

theorem roundEven_nonneg {q : ℚ} (h : 0 ≤ q) : 0 ≤ roundEven q := by
  have h1 := abs_le.mp (roundEven_half q)
  have h2 : (-1 : ℚ) < roundEven q := by linarith [h1.2]
  have h3 : -1 < roundEven q := by exact_mod_cast h2
  omega

/-- The nearest number with six digits after the point. -/
def microRound (q : ℚ) : ℚ := (if q < 0 then -1 else 1) * ((roundEven (|q| * 1000000) : ℚ) / 10 ^ 6)

theorem fixed_exact (q : ℚ) : exactText (fixedText q) = some (microRound q) := by
  have hn := roundEven_nonneg (q := |q| * 1000000) (by positivity)
  obtain ⟨n, hn⟩ := Int.eq_ofNat_of_zero_le hn
  unfold fixedText microRound
  rw [ratAbs_eq, hn]
  simp only [Int.toNat_natCast, List.append_assoc]
  have hp : padText 6 (n % 1000000) ≠ [] := by
    intro h; have := padText_length 6 (n % 1000000); rw [h] at this; cases this
  have h := exactText_eq (neg := decide (q < 0)) (decText_ne (n / 1000000)) (decText_dig _) (padText_dig 6 (n % 1000000)) .none
  rw [if_neg hp, List.append_nil] at h
  simp only [decide_eq_true_eq] at h
  rw [h, padText_length, digits_append, digits_decText, digits_padText, padText_length]
  have h1 : n / 1000000 * 10 ^ 6 + n % 1000000 % 10 ^ 6 = n := by omega
  rw [h1]
  norm_num [zpow_neg]
  ring_nf

theorem microRound_err (q : ℚ) : |q - microRound q| ≤ 1 / 2000000 := by
  have h := abs_le.mp (roundEven_half (|q| * 1000000))
  unfold microRound
  generalize (roundEven (|q| * 1000000) : ℚ) = r at *
  rw [abs_le]
  split
  · rename_i hq
    rw [abs_of_neg hq] at h
    constructor <;> linarith
  · rename_i hq
    rw [abs_of_nonneg (not_lt.mp hq)] at h
    constructor <;> linarith

theorem microRound_nearest (q : ℚ) : NearestMicro q (microRound q) := by
  constructor
  · unfold microRound
    split
    · exact ⟨-roundEven (|q| * 1000000), by push_cast; ring⟩
    · exact ⟨roundEven (|q| * 1000000), by ring⟩
  · rintro d ⟨m, rfl⟩
    unfold microRound
    split
    · rename_i hq
      have h := roundEven_near (|q| * 1000000) (-m)
      have e1 : q - -1 * ((roundEven (|q| * 1000000) : ℚ) / 10 ^ 6) = -((|q| * 1000000 - roundEven (|q| * 1000000)) / 10 ^ 6) := by
        rw [abs_of_neg hq]; ring
      have e2 : q - m / 10 ^ 6 = -((|q| * 1000000 - ((-m : ℤ) : ℚ)) / 10 ^ 6) := by
        rw [abs_of_neg hq]; push_cast; ring
      rw [e1, e2, abs_neg, abs_neg, abs_div, abs_div]
      exact div_le_div_of_nonneg_right h (by positivity)
    · rename_i hq
      have h := roundEven_near (|q| * 1000000) m
      have e1 : q - 1 * ((roundEven (|q| * 1000000) : ℚ) / 10 ^ 6) = (|q| * 1000000 - roundEven (|q| * 1000000)) / 10 ^ 6 := by
        rw [abs_of_nonneg (not_lt.mp hq)]; ring
      have e2 : q - m / 10 ^ 6 = (|q| * 1000000 - m) / 10 ^ 6 := by
        rw [abs_of_nonneg (not_lt.mp hq)]; ring
      rw [e1, e2, abs_div, abs_div]
      exact div_le_div_of_nonneg_right h (by positivity)

/-! ## Writing a number with six significant digits -/

theorem decLen_spec {n : Nat} (h : n ≠ 0) : 10 ^ (decLen n - 1) ≤ n ∧ n < 10 ^ decLen n := by
  have hp : 0 < decLen n := Nat.length_toDigits_pos
  refine ⟨?_, (Nat.length_toDigits_le_iff (by decide) hp).mp (Nat.le_refl _)⟩
  by_cases h1 : decLen n = 1
  · rw [h1]; simp; omega
  · apply Nat.le_of_not_lt
    intro hlt
    have := (Nat.length_toDigits_le_iff (b := 10) (n := n) (k := decLen n - 1) (by decide) (by omega)).mpr hlt
    have : decLen n ≤ decLen n - 1 := this
    omega

theorem decExp_spec {q : ℚ} (h : q ≠ 0) : (10 : ℚ) ^ decExp q ≤ |q| ∧ |q| < (10 : ℚ) ^ (decExp q + 1) := by
  have hn : q.num.natAbs ≠ 0 := by simpa using h
  obtain ⟨a1, a2⟩ := decLen_spec hn
  obtain ⟨b1, b2⟩ := decLen_spec q.den_nz
  have hp : 0 < decLen q.num.natAbs := Nat.length_toDigits_pos
  have hp' : 0 < decLen q.den := Nat.length_toDigits_pos
  have hq : |q| = (q.num.natAbs : ℚ) / q.den := by
    rw [Nat.cast_natAbs, Int.cast_abs]
    conv_lhs => rw [← Rat.num_div_den q]
    rw [abs_div, Nat.abs_cast]
  have hd : (0 : ℚ) < q.den := by exact_mod_cast q.den_pos
  have h20 : (10 : ℚ) ≠ 0 := by norm_num
  unfold decExp
  simp only [ratAbs_eq, pow10_eq]
  generalize decLen q.num.natAbs = a at *
  generalize decLen q.den = b at *
  have ha1 : (10 : ℚ) ^ ((a : ℤ) - 1) ≤ (q.num.natAbs : ℚ) := by
    rw [show (a : ℤ) - 1 = ((a - 1 : ℕ) : ℤ) by omega, zpow_natCast]; exact_mod_cast a1
  have ha2 : (q.num.natAbs : ℚ) < 10 ^ (a : ℤ) := by rw [zpow_natCast]; exact_mod_cast a2
  have hb1 : (10 : ℚ) ^ ((b : ℤ) - 1) ≤ (q.den : ℚ) := by
    rw [show (b : ℤ) - 1 = ((b - 1 : ℕ) : ℤ) by omega, zpow_natCast]; exact_mod_cast b1
  have hb2 : (q.den : ℚ) < 10 ^ (b : ℤ) := by rw [zpow_natCast]; exact_mod_cast b2
  have hlt : |q| < (10 : ℚ) ^ ((a : ℤ) - b + 1) := by
    rw [hq, div_lt_iff₀ hd]
    calc (q.num.natAbs : ℚ) < 10 ^ (a : ℤ) := ha2
      _ = 10 ^ ((a : ℤ) - b + 1) * 10 ^ ((b : ℤ) - 1) := by rw [← zpow_add₀ h20]; congr 1; ring
      _ ≤ _ := mul_le_mul_of_nonneg_left hb1 (by positivity)
  split
  · rename_i hk; exact ⟨hk, hlt⟩
  · rename_i hk
    refine ⟨?_, by rw [show (a : ℤ) - b - 1 + 1 = a - b by ring]; exact lt_of_not_ge hk⟩
    rw [hq, le_div_iff₀ hd]
    calc (10 : ℚ) ^ ((a : ℤ) - b - 1) * q.den ≤ 10 ^ ((a : ℤ) - b - 1) * 10 ^ (b : ℤ) :=
          mul_le_mul_of_nonneg_left hb2.le (by positivity)
      _ = 10 ^ ((a : ℤ) - 1) := by rw [← zpow_add₀ h20]; congr 1; ring
      _ ≤ _ := ha1

/-- The nearest number with six significant digits. -/
def sixRound (q : ℚ) : ℚ := if q = 0 then 0 else (if q < 0 then -1 else 1) * ((roundEven (|q| * 10 ^ (5 - decExp q)) : ℚ) * 10 ^ (decExp q - 5))

/-- The digits and the exponent that are written. -/
theorem sixDigits_spec {q : ℚ} (h : q ≠ 0) : 100000 ≤ (sixDigits q).1 ∧ (sixDigits q).1 < 1000000 ∧
    ((sixDigits q).1 : ℚ) * 10 ^ ((sixDigits q).2 - 5) = (roundEven (|q| * 10 ^ (5 - decExp q)) : ℚ) * 10 ^ (decExp q - 5) := by
  obtain ⟨h1, h2⟩ := decExp_spec h
  have h20 : (10 : ℚ) ≠ 0 := by norm_num
  have hlo : (100000 : ℚ) ≤ |q| * 10 ^ (5 - decExp q) := by
    calc (100000 : ℚ) = 10 ^ decExp q * 10 ^ (5 - decExp q) := by
          rw [← zpow_add₀ h20, show decExp q + (5 - decExp q) = (5 : ℕ) by push_cast; ring, zpow_natCast]; norm_num
      _ ≤ _ := mul_le_mul_of_nonneg_right h1 (by positivity)
  have hhi : |q| * 10 ^ (5 - decExp q) < 1000000 := by
    calc |q| * 10 ^ (5 - decExp q) < 10 ^ (decExp q + 1) * 10 ^ (5 - decExp q) := mul_lt_mul_of_pos_right h2 (by positivity)
      _ = 1000000 := by
          rw [← zpow_add₀ h20, show decExp q + 1 + (5 - decExp q) = (6 : ℕ) by push_cast; ring, zpow_natCast]; norm_num
  have hr := abs_le.mp (roundEven_half (|q| * 10 ^ (5 - decExp q)))
  have hr1 : (99999 : ℚ) < roundEven (|q| * 10 ^ (5 - decExp q)) := by linarith [hr.2]
  have hr2 : (roundEven (|q| * 10 ^ (5 - decExp q)) : ℚ) < 1000001 := by linarith [hr.1]
  unfold sixDigits
  simp only [ratAbs_eq, pow10_eq]
  generalize roundEven (|q| * 10 ^ (5 - decExp q)) = r at *
  have hr1' : 99999 < r := by exact_mod_cast hr1
  have hr2' : r < 1000001 := by exact_mod_cast hr2
  obtain ⟨n, rfl⟩ := Int.eq_ofNat_of_zero_le (show 0 ≤ r by omega)
  simp only [Int.toNat_natCast]
  split
  · rename_i hn
    subst hn
    refine ⟨by norm_num, by norm_num, ?_⟩
    dsimp only
    rw [show decExp q + 1 - 5 = (decExp q - 5) + 1 by ring, zpow_add₀ h20]
    push_cast
    ring
  · dsimp only
    refine ⟨by omega, by omega, by push_cast; ring⟩

theorem sixRound_eq {q : ℚ} (h : q ≠ 0) : sixRound q = (if q < 0 then -1 else 1) * (((sixDigits q).1 : ℚ) * 10 ^ ((sixDigits q).2 - 5)) := by
  rw [sixRound, if_neg h, (sixDigits_spec h).2.2]

/-- Digits before and after the point: zeros at the end are not written. -/
theorem frac_value (m w : Nat) (x : ℤ) :
    (digits (decText (m / 10 ^ w) ++ dropZeros (padText w (m % 10 ^ w))) : ℚ) * 10 ^ (x - ((dropZeros (padText w (m % 10 ^ w))).length : ℤ)) =
      m * 10 ^ (x - w) := by
  have h20 : (10 : ℚ) ≠ 0 := by norm_num
  have h := dropZeros_value (decText (m / 10 ^ w)) (padText w (m % 10 ^ w))
  rw [padText_length, digits_append (b := padText w (m % 10 ^ w)), digits_decText, digits_padText, padText_length, Nat.mod_mod,
    Nat.div_add_mod'] at h
  rw [sub_eq_add_neg, zpow_add₀ h20, mul_left_comm, h, sub_eq_add_neg, zpow_add₀ h20]
  ring

theorem general_exact (q : ℚ) : exactText (generalText q) = some (sixRound q) := by
  by_cases h0 : q = 0
  · subst h0
    have := exactText_eq (neg := false) (ip := [0x30#8]) (d := []) (by decide) (by decide) (by decide) .none
    rw [generalText, if_pos rfl, sixRound, if_pos rfl]
    simpa [digits] using this
  · rw [sixRound_eq h0]
    unfold generalText
    rw [if_neg h0]
    obtain ⟨m, x, hm⟩ : ∃ m x, sixDigits q = (m, x) := ⟨_, _, rfl⟩
    simp only [hm]
    by_cases hx : -4 ≤ x ∧ x < 6
    · rw [if_pos hx]
      have h := exactText_eq (neg := decide (q < 0)) (decText_ne (m / 10 ^ (5 - x).toNat)) (decText_dig _)
        (dropZeros_dig (padText_dig (5 - x).toNat (m % 10 ^ (5 - x).toNat))) .none
      rw [List.append_nil, frac_value] at h
      simp only [decide_eq_true_eq] at h
      have hw : (10 : ℚ) ^ (x - 5) = 10 ^ (0 - ((5 - x).toNat : ℤ)) := by
        by_cases h5 : x ≤ 5
        · rw [show x - 5 = 0 - ((5 - x).toNat : ℤ) by omega]
        · omega
      rw [hw]
      exact h
    · rw [if_neg hx]
      have h := exactText_eq (neg := decide (q < 0)) (decText_ne (m / 10 ^ 5)) (decText_dig _)
        (dropZeros_dig (padText_dig 5 (m % 10 ^ 5))) (.exp x)
      rw [frac_value] at h
      simp only [decide_eq_true_eq] at h
      rw [List.append_assoc]
      exact h

theorem isSix_neg {d : ℚ} (h : IsSix d) : IsSix (-d) := by
  obtain ⟨m, e, hm, rfl⟩ := h
  exact ⟨-m, e, by rwa [abs_neg], by push_cast; ring⟩

theorem sixRound_pos {q : ℚ} (h : 0 < q) {d : ℚ} (hd : IsSix d) : |q - sixRound q| ≤ |q - d| := by
  obtain ⟨m, k, hm, rfl⟩ := hd
  have h0 : q ≠ 0 := ne_of_gt h
  have h20 : (10 : ℚ) ≠ 0 := by norm_num
  have hs := (decExp_spec h0).1
  rw [sixRound, if_neg h0, if_neg (not_lt.mpr h.le), one_mul]
  rw [abs_of_pos h] at hs ⊢
  set e := decExp q with he
  have hdist : q - (roundEven (q * 10 ^ (5 - e)) : ℚ) * 10 ^ (e - 5) = (q * 10 ^ (5 - e) - roundEven (q * 10 ^ (5 - e))) * 10 ^ (e - 5) := by
    rw [sub_mul, mul_assoc, ← zpow_add₀ h20, show 5 - e + (e - 5) = 0 by ring, zpow_zero, mul_one]
  rw [hdist, abs_mul, abs_of_pos (by positivity : (0 : ℚ) < 10 ^ (e - 5))]
  have key : ∀ z : ℤ, |q * 10 ^ (5 - e) - roundEven (q * 10 ^ (5 - e))| * 10 ^ (e - 5) ≤ |q - z * 10 ^ (e - 5)| := by
    intro z
    have h1 := roundEven_near (q * 10 ^ (5 - e)) z
    have h2 : q - z * 10 ^ (e - 5) = (q * 10 ^ (5 - e) - z) * 10 ^ (e - 5) := by
      rw [sub_mul, mul_assoc, ← zpow_add₀ h20, show 5 - e + (e - 5) = 0 by ring, zpow_zero, mul_one]
    rw [h2, abs_mul, abs_of_pos (by positivity : (0 : ℚ) < 10 ^ (e - 5))]
    exact mul_le_mul_of_nonneg_right h1 (by positivity)
  by_cases hk : e - 5 ≤ k
  · obtain ⟨j, hj⟩ := Int.eq_ofNat_of_zero_le (sub_nonneg.mpr hk)
    have := key (m * 10 ^ j)
    have hd : (m : ℚ) * 10 ^ k = ((m * 10 ^ j : ℤ) : ℚ) * 10 ^ (e - 5) := by
      have : k = (j : ℤ) + (e - 5) := by omega
      rw [this, zpow_add₀ h20]; push_cast; rw [zpow_natCast]; ring
    rw [hd]; exact this
  · have hmq : |(m : ℚ)| < 10 ^ 6 := by rw [← Int.cast_abs]; exact_mod_cast hm
    have hsmall : |(m : ℚ) * 10 ^ k| ≤ 10 ^ e := by
      rw [abs_mul, abs_of_pos (by positivity : (0 : ℚ) < 10 ^ k)]
      calc |(m : ℚ)| * 10 ^ k ≤ 10 ^ 6 * 10 ^ k := mul_le_mul_of_nonneg_right hmq.le (by positivity)
        _ = 10 ^ (6 + k) := by rw [zpow_add₀ h20]; norm_cast
        _ ≤ 10 ^ e := zpow_le_zpow_right₀ (by norm_num) (by omega)
    have hpow : ((10 ^ 5 : ℤ) : ℚ) * 10 ^ (e - 5) = 10 ^ e := by
      rw [show e = 5 + (e - 5) by ring, zpow_add₀ h20]; push_cast; norm_cast; congr 2; ring
    have htri := abs_sub_abs_le_abs_sub q (m * 10 ^ k)
    have := key (10 ^ 5)
    rw [hpow, abs_of_nonneg (show 0 ≤ q - 10 ^ e by linarith)] at this
    rw [abs_of_pos h] at htri
    linarith

theorem decExp_neg (q : ℚ) : decExp (-q) = decExp q := by
  unfold decExp
  simp only [ratAbs_eq, abs_neg, Rat.num_neg_eq_neg_num, Int.natAbs_neg, Rat.den_neg_eq_den]

theorem sixRound_neg {q : ℚ} (h : q < 0) : sixRound q = -sixRound (-q) := by
  have h1 : ¬ (-q < 0) := by linarith
  have h2 : ¬ (-q = 0) := fun h' => by linarith
  unfold sixRound
  rw [if_neg (ne_of_lt h), if_neg h2, if_pos h, if_neg h1, decExp_neg, abs_neg]
  ring

theorem sixRound_isSix (q : ℚ) : IsSix (sixRound q) := by
  by_cases h : q = 0
  · rw [sixRound, if_pos h]; exact ⟨0, 0, by norm_num, by simp⟩
  · have hs := sixDigits_spec h
    have h6 : IsSix (((sixDigits q).1 : ℚ) * 10 ^ ((sixDigits q).2 - 5)) := by
      refine ⟨((sixDigits q).1 : ℤ), (sixDigits q).2 - 5, ?_, by push_cast; ring⟩
      rw [abs_of_nonneg (by omega)]
      norm_num
      exact_mod_cast hs.2.1
    rw [sixRound_eq h]
    split
    · rw [neg_one_mul]; exact isSix_neg h6
    · rw [one_mul]; exact h6

theorem sixRound_nearest (q : ℚ) : NearestSix q (sixRound q) := by
  refine ⟨sixRound_isSix q, fun d hd => ?_⟩
  rcases lt_trichotomy q 0 with h | h | h
  · have := sixRound_pos (q := -q) (by linarith) (isSix_neg hd)
    rw [sixRound_neg h, show q - -sixRound (-q) = -(-q - sixRound (-q)) by ring, abs_neg, show q - d = -(-q - -d) by ring, abs_neg]
    exact this
  · rw [sixRound, if_pos h, h, sub_zero, abs_zero]; exact abs_nonneg _
  · exact sixRound_pos h hd

/-! ## Numbers with few digits are kept -/

/-- Two different numbers of six digits are not near to each other. -/
theorem six_apart {d r : ℚ} (hd : IsSix d) (hr : IsSix r) (hne : r ≠ d) : |d| < (10 ^ 6 + 1) * |r - d| := by
  obtain ⟨m, e, hm, rfl⟩ := hd
  obtain ⟨n, k, hn, rfl⟩ := hr
  have h20 : (10 : ℚ) ≠ 0 := by norm_num
  have hmq : |(m : ℚ)| < 10 ^ 6 := by rw [← Int.cast_abs]; exact_mod_cast hm
  have hnq : |(n : ℚ)| < 10 ^ 6 := by rw [← Int.cast_abs]; exact_mod_cast hn
  -- a nonzero multiple of a power of ten
  have big : ∀ (z f : ℤ), (z : ℚ) * 10 ^ f ≠ 0 → (10 : ℚ) ^ f ≤ |(z : ℚ) * 10 ^ f| := by
    intro z f hz
    have hz0 : z ≠ 0 := by rintro rfl; simp at hz
    rw [abs_mul, abs_of_pos (by positivity : (0 : ℚ) < 10 ^ f), ← Int.cast_abs]
    have : (1 : ℚ) ≤ ((|z| : ℤ) : ℚ) := by exact_mod_cast Int.one_le_abs hz0
    nlinarith [show (0 : ℚ) < 10 ^ f by positivity]
  by_cases hk : e ≤ k
  · obtain ⟨j, hj⟩ := Int.eq_ofNat_of_zero_le (sub_nonneg.mpr hk)
    have hr : (n : ℚ) * 10 ^ k - m * 10 ^ e = ((n * 10 ^ j - m : ℤ) : ℚ) * 10 ^ e := by
      rw [show k = (j : ℤ) + e by omega, zpow_add₀ h20]; push_cast; rw [zpow_natCast]; ring
    have := big (n * 10 ^ j - m) e (by rw [← hr]; exact sub_ne_zero.mpr hne)
    rw [hr, abs_mul (m : ℚ), abs_of_pos (by positivity : (0 : ℚ) < 10 ^ e)]
    have hpos : (0 : ℚ) < 10 ^ e := by positivity
    generalize |((n * 10 ^ j - m : ℤ) : ℚ) * 10 ^ e| = A at *
    nlinarith
  · obtain ⟨j, hj⟩ := Int.eq_ofNat_of_zero_le (sub_nonneg.mpr (le_of_lt (lt_of_not_ge hk)))
    have hr : (n : ℚ) * 10 ^ k - m * 10 ^ e = ((n - m * 10 ^ j : ℤ) : ℚ) * 10 ^ k := by
      rw [show e = (j : ℤ) + k by omega, zpow_add₀ h20]; push_cast; rw [zpow_natCast]; ring
    have hb := big (n - m * 10 ^ j) k (by rw [← hr]; exact sub_ne_zero.mpr hne)
    rw [← hr] at hb
    have hpos : (0 : ℚ) < 10 ^ k := by positivity
    have hrn : |(n : ℚ) * 10 ^ k| < 10 ^ 6 * 10 ^ k := by
      rw [abs_mul, abs_of_pos hpos]; exact mul_lt_mul_of_pos_right hnq hpos
    have htri := abs_sub_abs_le_abs_sub ((m : ℚ) * 10 ^ e) (n * 10 ^ k)
    rw [abs_sub_comm] at htri
    generalize |(n : ℚ) * 10 ^ k - m * 10 ^ e| = A at *
    nlinarith

theorem six_kept {d : ℚ} (hd : IsSix d) : sixRound (dblRound d) = d := by
  by_contra hne
  have h1 := six_apart hd (sixRound_isSix (dblRound d)) hne
  have h2 := (sixRound_nearest (dblRound d)).2 d hd
  have h3 := dblRound_err d
  rw [abs_sub_comm (dblRound d) d] at h2
  have h4 : |sixRound (dblRound d) - d| ≤ |dblRound d - sixRound (dblRound d)| + |d - dblRound d| := by
    have := abs_sub_le (sixRound (dblRound d)) (dblRound d) d
    rwa [abs_sub_comm (sixRound (dblRound d)) (dblRound d), abs_sub_comm (dblRound d) d] at this
  have h5 : (0 : ℚ) ≤ |d| := abs_nonneg d
  have h6 : |sixRound (dblRound d) - d| ≤ 2 * (|d| / 2 ^ 53) := by linarith
  have h7 : |d| < (10 ^ 6 + 1) * (2 * (|d| / 2 ^ 53)) := lt_of_lt_of_le h1 (mul_le_mul_of_nonneg_left h6 (by norm_num))
  have h8 : (10 ^ 6 + 1) * (2 * (|d| / 2 ^ 53)) ≤ |d| := by
    rw [show (10 ^ 6 + 1) * (2 * (|d| / 2 ^ 53)) = |d| * ((10 ^ 6 + 1) * 2 / 2 ^ 53) by ring]
    calc |d| * ((10 ^ 6 + 1) * 2 / 2 ^ 53) ≤ |d| * 1 := mul_le_mul_of_nonneg_left (by norm_num) h5
      _ = |d| := mul_one _
  linarith

theorem micro_kept {d : ℚ} (hd : IsMicro d) (hs : |d| ≤ 4000000000) : microRound (dblRound d) = d := by
  have h2 := (microRound_nearest (dblRound d)).2 d hd
  have h3 := dblRound_err d
  obtain ⟨n, hn⟩ := (microRound_nearest (dblRound d)).1
  obtain ⟨m, hm⟩ := hd
  rw [abs_sub_comm (dblRound d) d] at h2
  have h4 : |microRound (dblRound d) - d| ≤ |dblRound d - microRound (dblRound d)| + |d - dblRound d| := by
    have := abs_sub_le (microRound (dblRound d)) (dblRound d) d
    rwa [abs_sub_comm (microRound (dblRound d)) (dblRound d), abs_sub_comm (dblRound d) d] at this
  have h5 : |d| / 2 ^ 53 ≤ 4000000000 / 2 ^ 53 := div_le_div_of_nonneg_right hs (by positivity)
  have h6 : |microRound (dblRound d) - d| < 1 / 10 ^ 6 := by
    have : (2 : ℚ) * (4000000000 / 2 ^ 53) < 1 / 10 ^ 6 := by norm_num
    linarith
  rw [hn, hm, ← sub_div, abs_div, abs_of_pos (by positivity : (0 : ℚ) < 10 ^ 6), div_lt_div_iff_of_pos_right (by positivity), ← Int.cast_sub,
    ← Int.cast_abs] at h6
  have h7 : |n - m| < 1 := by exact_mod_cast h6
  have h8 : n = m := by
    have := Int.abs_lt_one_iff.mp h7
    omega
  rw [hn, hm, h8]

/-! ## Hexadecimal digits -/

theorem hexOrDec_hex {n : Nat} (h : n < 2 ^ 64) : hexOrDec (hexText n) = some n := by
  have hl : 0 < (hexGo 16 n).length := List.length_pos_iff.mpr (hexGo_ne n (by decide))
  rw [hexOrDec, hexText, hexPrefix, if_pos ⟨by simp only [List.length_cons]; omega, rfl⟩]
  exact stoullHex_go h

theorem hexOrDec_dec {n : Nat} (h : n < 2 ^ 64) : hexOrDec (decText n) = some n := by
  rw [hexOrDec, if_neg, stoullText_decText h]
  rintro ⟨hl, ht⟩
  have hd := decText_dig n
  match he : decText n, hl with
  | a :: b :: r, _ =>
    rw [he] at hd ht
    simp only [List.take_succ_cons, List.take_zero, hexPrefix, List.cons.injEq, and_true] at ht
    have := hd b (by simp)
    rw [ht.2] at this
    exact absurd this (by decide)

end Mdf
