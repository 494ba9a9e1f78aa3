import Verif.Model.Format
import Verif.Proof.NumText
import Verif.Proof.CommentApi

/-! # Values as text -/

set_option linter.unusedSimpArgs false

namespace Mdf

/-- A number text without exponent. -/
def numForm (neg : Bool) (ip d : Bytes) : Bytes := (if neg then [0x2D#8] else []) ++ (ip ++ (if d = [] then [] else 0x2E#8 :: d))

theorem numForm_exact {neg : Bool} {ip d : Bytes} (hne : ip ≠ []) (hi : ∀ c ∈ ip, isDig c = true) (hd : ∀ c ∈ d, isDig c = true) :
    exactText (numForm neg ip d) = some ((if neg then (-1 : ℚ) else 1) * ((digits (ip ++ d) : ℚ) * (10 : ℚ) ^ (-(d.length : ℤ)))) := by
  have h := exactText_eq (neg := neg) hne hi hd .none
  rw [List.append_nil, zero_sub] at h
  exact h

theorem dig_facts : ∀ x : Fin 256, isDig (BitVec.ofFin x) = true →
    (BitVec.ofFin x : Byte) ≠ 0x2E#8 ∧ (BitVec.ofFin x : Byte) ≠ 0x45#8 ∧ (BitVec.ofFin x : Byte) ≠ 0x65#8 ∧ (BitVec.ofFin x : Byte) ≠ 0x2D#8 := by
  decide +kernel

theorem dig_ne {c : Byte} (h : isDig c = true) : c ≠ 0x2E#8 ∧ c ≠ 0x45#8 ∧ c ≠ 0x65#8 ∧ c ≠ 0x2D#8 := by
  have := dig_facts c.toFin (by simpa using h)
  simpa using this

theorem numForm_mem {neg : Bool} {ip d : Bytes} (hi : ∀ c ∈ ip, isDig c = true) (hd : ∀ c ∈ d, isDig c = true) {c : Byte}
    (h : c ∈ numForm neg ip d) : isDig c = true ∨ c = 0x2D#8 ∨ (c = 0x2E#8 ∧ d ≠ []) := by
  unfold numForm at h
  rcases List.mem_append.1 h with h | h
  · cases neg
    · simp at h
    · right; left; simpa using h
  · rcases List.mem_append.1 h with h | h
    · exact .inl (hi c h)
    · by_cases hdd : d = []
      · simp [hdd] at h
      · rw [if_neg hdd] at h
        rcases List.mem_cons.1 h with h | h
        · exact .inr (.inr ⟨h, hdd⟩)
        · exact .inl (hd c h)

theorem numForm_noE {neg : Bool} {ip d : Bytes} (hi : ∀ c ∈ ip, isDig c = true) (hd : ∀ c ∈ d, isDig c = true) :
    0x45#8 ∉ numForm neg ip d ∧ 0x65#8 ∉ numForm neg ip d := by
  constructor
  · intro h
    rcases numForm_mem hi hd h with h | h | h
    · exact (dig_ne h).2.1 rfl
    · cases h
    · cases h.1
  · intro h
    rcases numForm_mem hi hd h with h | h | h
    · exact (dig_ne h).2.2.1 rfl
    · cases h
    · cases h.1

theorem last_dig {a b : Bytes} (hb : b ≠ []) (h : ∀ c ∈ b, isDig c = true) : dropPoint (a ++ b) = a ++ b := by
  unfold dropPoint
  rw [if_neg]
  intro hl
  rw [List.getLast?_append_of_ne_nil _ hb] at hl
  have := List.mem_of_getLast? hl
  exact (dig_ne (h _ this)).1 rfl

theorem dropZeros_append (a d : Bytes) (x : Byte) (hx : x ≠ 0x30#8) : dropZeros (a ++ x :: d) = a ++ x :: dropZeros d := by
  unfold dropZeros
  rw [List.reverse_append, List.reverse_cons, List.append_assoc, List.dropWhile_append]
  by_cases h : (d.reverse.dropWhile (· == 0x30#8)).isEmpty = true
  · rw [if_pos h]
    have h' : d.reverse.dropWhile (· == 0x30#8) = [] := by simpa using h
    rw [h']
    simp [hx]
  · rw [if_neg h]
    simp

/-- Zeros at the end, and a point at the end, do not change the number. -/
theorem formatZeros_form (k : Nat) (fixed : Bool) {neg : Bool} {ip d : Bytes} (hne : ip ≠ []) (hi : ∀ c ∈ ip, isDig c = true)
    (hd : ∀ c ∈ d, isDig c = true) :
    formatZeros k fixed (numForm neg ip d) = numForm neg ip (if fixed then (if d = [] then [] else d ++ List.replicate (k - d.length) 0x30#8) else dropZeros d) := by
  have hE := (numForm_noE (neg := neg) hi hd).1
  unfold formatZeros
  by_cases hdd : d = []
  · subst hdd
    have hp : 0x2E#8 ∉ numForm neg ip [] := by
      intro h
      rcases numForm_mem hi hd h with h | h | h
      · exact (dig_ne h).1 rfl
      · cases h
      · exact h.2 rfl
    rw [if_neg (fun h => hp h.1)]
    have : dropZeros [] = [] := rfl
    rw [this]
    simp only [if_true, ite_self]
    unfold numForm
    simp only [if_true, List.append_nil]
    exact last_dig hne hi
  · have hp : 0x2E#8 ∈ numForm neg ip d := by unfold numForm; simp [hdd]
    rw [if_pos ⟨hp, hE⟩]
    cases fixed with
    | true =>
      simp only [if_true, if_neg hdd]
      have hdrop : (numForm neg ip d).dropWhile (· != 0x2E#8) = 0x2E#8 :: d := by
        unfold numForm
        rw [if_neg hdd, ← List.append_assoc]
        rw [List.dropWhile_append_of_pos]
        · simp
        · intro c hc
          rcases List.mem_append.1 hc with hc | hc
          · cases neg
            · simp at hc
            · have : c = 0x2D#8 := by simpa using hc
              rw [this]; decide
          · simpa using (dig_ne (hi c hc)).1
      have e : fillZeros k (numForm neg ip d) = numForm neg ip (d ++ List.replicate (k - d.length) 0x30#8) := by
        unfold fillZeros
        rw [hdrop]
        unfold numForm
        have hnz' : d ++ List.replicate (k - d.length) 0x30#8 ≠ [] := by simp [hdd]
        rw [if_neg hdd, if_neg hnz']
        simp
      rw [e]
      have hz : ∀ c ∈ d ++ List.replicate (k - d.length) 0x30#8, isDig c = true := by
        intro c hc
        rcases List.mem_append.1 hc with hc | hc
        · exact hd c hc
        · rw [(List.mem_replicate.1 hc).2]; decide
      have hnz : d ++ List.replicate (k - d.length) 0x30#8 ≠ [] := by simp [hdd]
      unfold numForm
      rw [if_neg hnz, show ∀ x : Bytes, ip ++ 0x2E#8 :: x = (ip ++ [0x2E#8]) ++ x from by simp, ← List.append_assoc]
      exact last_dig hnz hz
    | false =>
      simp only [Bool.false_eq_true, if_false]
      have e : dropZeros (numForm neg ip d) = (if neg then [0x2D#8] else []) ++ (ip ++ 0x2E#8 :: dropZeros d) := by
        unfold numForm
        rw [if_neg hdd, ← List.append_assoc, dropZeros_append _ _ _ (by decide), List.append_assoc]
      rw [e]
      by_cases hz : dropZeros d = []
      · rw [hz]
        unfold dropPoint numForm
        rw [if_pos (by simp [List.getLast?_append])]
        rw [show (if neg then [0x2D#8] else []) ++ (ip ++ [0x2E#8]) = ((if neg then [0x2D#8] else []) ++ ip) ++ [0x2E#8] from by simp,
          List.dropLast_concat]
        simp
      · unfold numForm
        rw [if_neg hz, show ∀ x : Bytes, ip ++ 0x2E#8 :: x = (ip ++ [0x2E#8]) ++ x from by simp, ← List.append_assoc]
        exact last_dig hz (dropZeros_dig hd)

theorem zeros_value (a d : Bytes) (k : Nat) :
    (digits (a ++ (d ++ List.replicate k 0x30#8)) : ℚ) * 10 ^ (-((d ++ List.replicate k 0x30#8).length : ℤ)) =
      digits (a ++ d) * 10 ^ (-(d.length : ℤ)) := by
  rw [← List.append_assoc, digits_append (a ++ d), digits_zeros, List.length_append, List.length_replicate]
  push_cast
  rw [neg_add, zpow_add₀ (by norm_num), zpow_neg (10 : ℚ) (k : ℤ), zpow_natCast]
  have : (10 : ℚ) ^ k ≠ 0 := by positivity
  field_simp
  ring

theorem formatZeros_exact (k : Nat) (fixed : Bool) {neg : Bool} {ip d : Bytes} (hne : ip ≠ []) (hi : ∀ c ∈ ip, isDig c = true)
    (hd : ∀ c ∈ d, isDig c = true) : exactText (formatZeros k fixed (numForm neg ip d)) = exactText (numForm neg ip d) := by
  rw [formatZeros_form k fixed hne hi hd]
  cases fixed with
  | true =>
    by_cases hdd : d = []
    · simp [hdd]
    · simp only [if_true, if_neg hdd]
      rw [numForm_exact hne hi, numForm_exact hne hi hd, zeros_value]
      intro c hc
      rcases List.mem_append.1 hc with hc | hc
      · exact hd c hc
      · rw [(List.mem_replicate.1 hc).2]; decide
  | false =>
    simp only [Bool.false_eq_true, if_false]
    rw [numForm_exact hne hi (dropZeros_dig hd), numForm_exact hne hi hd, dropZeros_value]

/-! ## The first text -/

theorem intText_form (t : ℤ) : intText t = numForm (decide (t < 0)) (decText t.natAbs) [] := by
  unfold intText numForm
  by_cases h : t < 0 <;> simp [h]

theorem intText_exact (t : ℤ) : exactText (intText t) = some (t : ℚ) := by
  rw [intText_form, numForm_exact (decText_ne _) (decText_dig _) (by simp)]
  simp only [List.append_nil, digits_decText, List.length_nil, Int.natCast_zero, neg_zero, zpow_zero, mul_one, Nat.cast_zero, decide_eq_true_eq]
  congr 1
  by_cases h : t < 0
  · rw [if_pos h]
    have : ((t.natAbs : ℤ) : ℚ) = -t := by
      have : (t.natAbs : ℤ) = -t := by omega
      rw [this]; push_cast; rfl
    rw [Int.cast_natCast] at this
    rw [this]; ring
  · rw [if_neg h]
    have : ((t.natAbs : ℤ) : ℚ) = t := by
      have : (t.natAbs : ℤ) = t := by omega
      rw [this]
    rw [Int.cast_natCast] at this
    rw [this]; ring

/-- The nearest number with `d` digits after the point. -/
def fixRound (d : Nat) (q : ℚ) : ℚ := (if q < 0 then -1 else 1) * ((roundEven (|q| * 10 ^ d) : ℚ) / 10 ^ d)

theorem fixText_form (d : Nat) (hd : 0 < d) (q : ℚ) : ∃ n : Nat, (n : ℤ) = roundEven (|q| * 10 ^ d) ∧
    fixText d q = numForm (decide (q < 0)) (decText (n / 10 ^ d)) (padText d (n % 10 ^ d)) := by
  have hn := roundEven_nonneg (q := |q| * 10 ^ d) (by positivity)
  obtain ⟨n, hn⟩ := Int.eq_ofNat_of_zero_le hn
  refine ⟨n, hn.symm, ?_⟩
  have hp : padText d (n % 10 ^ d) ≠ [] := by
    intro h; have := padText_length d (n % 10 ^ d); rw [h] at this; simp at this; omega
  unfold fixText numForm
  rw [ratAbs_eq]
  have e : ((10 ^ d : Nat) : ℚ) = (10 : ℚ) ^ d := by push_cast; rfl
  rw [e, hn, if_neg hp]
  simp

theorem fixText_exact (d : Nat) (hd : 0 < d) (q : ℚ) : exactText (fixText d q) = some (fixRound d q) := by
  obtain ⟨n, hn, e⟩ := fixText_form d hd q
  rw [e, numForm_exact (decText_ne _) (decText_dig _) (padText_dig _ _), digits_append, digits_decText, digits_padText, padText_length,
    Nat.mod_mod, Nat.div_add_mod']
  unfold fixRound
  have hn' : ((n : ℤ) : ℚ) = (roundEven (|q| * 10 ^ d) : ℚ) := by rw [hn]
  rw [← hn', Int.cast_natCast, zpow_neg, zpow_natCast]
  simp only [decide_eq_true_eq]
  rw [div_eq_mul_inv]

theorem fixRound_err (d : Nat) (q : ℚ) : |q - fixRound d q| ≤ 1 / 2 / 10 ^ d := by
  have h := abs_le.mp (roundEven_half (|q| * 10 ^ d))
  have hp : (0 : ℚ) < 10 ^ d := by positivity
  unfold fixRound
  generalize (roundEven (|q| * 10 ^ d) : ℚ) = r at *
  generalize (10 : ℚ) ^ d = p at *
  have h1 : |q| - r / p ≤ 1 / 2 / p := by
    rw [le_div_iff₀ hp, sub_mul, div_mul_cancel₀ _ hp.ne']; exact h.2
  have h2 : -(1 / 2 / p) ≤ |q| - r / p := by
    rw [neg_le_iff_add_nonneg, ← sub_nonneg]
    have : (|q| * p - r + 1 / 2) / p ≥ 0 := div_nonneg (by linarith [h.1]) hp.le
    have e : (|q| * p - r + 1 / 2) / p = |q| - r / p + 1 / 2 / p := by field_simp
    linarith
  rw [abs_le]
  split
  · rename_i hq
    rw [abs_of_neg hq] at h1 h2
    constructor <;> linarith
  · rename_i hq
    rw [abs_of_nonneg (not_lt.mp hq)] at h1 h2
    constructor <;> linarith

/-! ## The long text -/

theorem upE_facts : ∀ x : Fin 256, isDig (upE (BitVec.ofFin x)) = isDig (BitVec.ofFin x) ∧ isSpace (upE (BitVec.ofFin x)) = isSpace (BitVec.ofFin x) ∧
    (upE (BitVec.ofFin x) = 0x2D#8 ↔ (BitVec.ofFin x : Byte) = 0x2D#8) ∧ (upE (BitVec.ofFin x) = 0x2B#8 ↔ (BitVec.ofFin x : Byte) = 0x2B#8) ∧
    (upE (BitVec.ofFin x) = 0x2E#8 ↔ (BitVec.ofFin x : Byte) = 0x2E#8) ∧
    ((upE (BitVec.ofFin x) = 0x65#8 ∨ upE (BitVec.ofFin x) = 0x45#8) ↔ ((BitVec.ofFin x : Byte) = 0x65#8 ∨ (BitVec.ofFin x : Byte) = 0x45#8)) ∧
    (isDig (BitVec.ofFin x) = true → upE (BitVec.ofFin x) = BitVec.ofFin x) := by
  decide +kernel

theorem upE_spec (c : Byte) : isDig (upE c) = isDig c ∧ isSpace (upE c) = isSpace c ∧ (upE c = 0x2D#8 ↔ c = 0x2D#8) ∧
    (upE c = 0x2B#8 ↔ c = 0x2B#8) ∧ (upE c = 0x2E#8 ↔ c = 0x2E#8) ∧ ((upE c = 0x65#8 ∨ upE c = 0x45#8) ↔ (c = 0x65#8 ∨ c = 0x45#8)) ∧
    (isDig c = true → upE c = c) := by
  simpa using upE_facts c.toFin

theorem up_take (s : Bytes) : (s.map upE).takeWhile isDig = s.takeWhile isDig := by
  induction s with
  | nil => rfl
  | cons c s ih =>
    have h := upE_spec c
    by_cases hd : isDig c = true
    · rw [List.map_cons, List.takeWhile_cons_of_pos (by rw [h.1]; exact hd), List.takeWhile_cons_of_pos hd, ih, h.2.2.2.2.2.2 hd]
    · rw [List.map_cons, List.takeWhile_cons_of_neg (by rw [h.1]; exact hd), List.takeWhile_cons_of_neg hd]

theorem up_drop (s : Bytes) : (s.map upE).dropWhile isDig = (s.dropWhile isDig).map upE := by
  induction s with
  | nil => rfl
  | cons c s ih =>
    have h := upE_spec c
    by_cases hd : isDig c = true
    · rw [List.map_cons, List.dropWhile_cons_of_pos (by rw [h.1]; exact hd), List.dropWhile_cons_of_pos hd, ih]
    · rw [List.map_cons, List.dropWhile_cons_of_neg (by rw [h.1]; exact hd), List.dropWhile_cons_of_neg hd, List.map_cons]

theorem up_trim (s : Bytes) : lTrim (s.map upE) = (lTrim s).map upE := by
  induction s with
  | nil => rfl
  | cons c s ih =>
    simp only [List.map_cons, lTrim, (upE_spec c).2.1]
    by_cases h : isSpace c = true <;> simp [h, ih]

theorem up_sign (s : Bytes) : numSign (s.map upE) = ((numSign s).1, (numSign s).2.map upE) := by
  unfold numSign
  rw [up_trim]
  cases lTrim s with
  | nil => rfl
  | cons c t =>
    have h := upE_spec c
    simp only [List.map_cons]
    by_cases h1 : c = 0x2D#8
    · rw [if_pos (h.2.2.1.2 h1), if_pos h1]
    · rw [if_neg (fun e => h1 (h.2.2.1.1 e)), if_neg h1]
      by_cases h2 : c = 0x2B#8
      · rw [if_pos (h.2.2.2.1.2 h2), if_pos h2]
      · rw [if_neg (fun e => h2 (h.2.2.2.1.1 e)), if_neg h2]
        rfl

theorem up_frac (s : Bytes) : fracPart (s.map upE) = ((fracPart s).1, (fracPart s).2.map upE) := by
  cases s with
  | nil => rfl
  | cons c t =>
    have h := upE_spec c
    simp only [List.map_cons, fracPart]
    by_cases h1 : c = 0x2E#8
    · rw [if_pos (h.2.2.2.2.1.2 h1), if_pos h1, up_take, up_drop]
    · rw [if_neg (fun e => h1 (h.2.2.2.2.1.1 e)), if_neg h1]
      rfl

theorem up_exp (s : Bytes) : expPart (s.map upE) = expPart s := by
  cases s with
  | nil => rfl
  | cons c t =>
    have h := upE_spec c
    simp only [List.map_cons, expPart]
    by_cases h1 : c = 0x65#8 ∨ c = 0x45#8
    · rw [if_pos (h.2.2.2.2.2.1.2 h1), if_pos h1]
      cases t with
      | nil => rfl
      | cons d r =>
        have h' := upE_spec d
        simp only [List.map_cons]
        by_cases h2 : d = 0x2D#8
        · rw [if_pos (h'.2.2.1.2 h2), if_pos h2, up_take]
        · rw [if_neg (fun e => h2 (h'.2.2.1.1 e)), if_neg h2]
          by_cases h3 : d = 0x2B#8
          · rw [if_pos (h'.2.2.2.1.2 h3), if_pos h3, up_take]
          · rw [if_neg (fun e => h3 (h'.2.2.2.1.1 e)), if_neg h3]
            have := up_take (d :: r)
            rw [List.map_cons] at this
            rw [this]
    · rw [if_neg (fun e => h1 (h.2.2.2.2.2.1.1 e)), if_neg h1]

theorem exactText_up (s : Bytes) : exactText (s.map upE) = exactText s := by
  unfold exactText
  simp only [up_sign, up_take, up_drop, up_frac, up_exp]

/-- The long text is a plain one, or one with an exponent. -/
theorem general_cases (q : ℚ) : (∃ neg ip d, ip ≠ [] ∧ (∀ c ∈ ip, isDig c = true) ∧ (∀ c ∈ d, isDig c = true) ∧ generalText q = numForm neg ip d) ∨
    (0x65#8 ∈ generalText q ∧ ∃ a b, b ≠ [] ∧ (∀ c ∈ b, isDig c = true) ∧ generalText q = a ++ b) := by
  unfold generalText
  by_cases h0 : q = 0
  · rw [if_pos h0]
    exact .inl ⟨false, [0x30#8], [], by simp, by decide, by simp, rfl⟩
  · rw [if_neg h0]
    obtain ⟨m, x, hm⟩ : ∃ m x, sixDigits q = (m, x) := ⟨_, _, rfl⟩
    simp only [hm]
    by_cases hx : -4 ≤ x ∧ x < 6
    · rw [if_pos hx]
      refine .inl ⟨decide (q < 0), _, _, decText_ne (m / 10 ^ (5 - x).toNat), decText_dig _,
        dropZeros_dig (padText_dig (5 - x).toNat (m % 10 ^ (5 - x).toNat)), ?_⟩
      unfold numForm fracText
      simp only [decide_eq_true_eq]
    · rw [if_neg hx]
      refine .inr ⟨by simp [expText], ?_⟩
      unfold expText
      refine ⟨(if q < 0 then [0x2D#8] else []) ++ (decText (m / 100000) ++ fracText 5 (m % 100000) ++ [0x65#8, if x < 0 then 0x2D#8 else 0x2B#8]),
        (if x.natAbs < 10 then 0x30#8 :: decText x.natAbs else decText x.natAbs), ?_, ?_, by simp⟩
      · split
        · simp
        · exact decText_ne _
      · intro c hc
        split at hc
        · rcases List.mem_cons.1 hc with h | h
          · rw [h]; decide
          · exact decText_dig _ c h
        · exact decText_dig _ c hc

theorem formatZeros_general (k : Nat) (fixed : Bool) (q : ℚ) : exactText (formatZeros k fixed (generalUpper q)) = some (sixRound q) := by
  have hx : exactText (generalUpper q) = some (sixRound q) := by rw [generalUpper, exactText_up, general_exact]
  rcases general_cases q with ⟨neg, ip, d, h1, h2, h3, e⟩ | ⟨he, a, b, h1, h2, e⟩
  · have e' : generalUpper q = numForm neg ip d := by
      rw [generalUpper, e]
      have hno := (numForm_noE (neg := neg) h2 h3).2
      have key : ∀ s : Bytes, 0x65#8 ∉ s → s.map upE = s := by
        intro s
        induction s with
        | nil => intro _; rfl
        | cons c s ih =>
          intro hc
          rw [List.map_cons, ih (fun h => hc (by simp [h])), upE, if_neg (fun h => hc (by simp [h]))]
      exact key _ hno
    rw [e'] at hx ⊢
    rw [formatZeros_exact k fixed h1 h2 h3, hx]
  · have hE : 0x45#8 ∈ generalUpper q := List.mem_map.2 ⟨_, he, rfl⟩
    unfold formatZeros
    rw [if_neg (fun h => h.2 hE)]
    have : dropPoint (generalUpper q) = generalUpper q := by
      have eb : b.map upE = b := by
        conv_rhs => rw [← List.map_id b]
        exact List.map_congr_left fun c hc => (upE_spec c).2.2.2.2.2.2 (h2 c hc)
      rw [generalUpper, e, List.map_append, eb]
      exact last_dig h1 h2
    rw [this, hx]

/-! ## The number shown -/

/-- The number that the first text stands for. -/
def shownFirst (v : ℚ) (d : Nat) (fixed : Bool) : ℚ :=
  if v = (truncInt v : ℚ) ∧ fixed = false then v
  else if d = 0 then ((dblRound (v + 1 / 2)).floor : ℚ)
  else fixRound d v

theorem formatStart_form (v : ℚ) (d : Nat) (fixed : Bool) :
    ∃ neg ip f, ip ≠ [] ∧ (∀ c ∈ ip, isDig c = true) ∧ (∀ c ∈ f, isDig c = true) ∧ formatStart v d fixed = numForm neg ip f := by
  unfold formatStart
  by_cases h : v = (truncInt v : ℚ) ∧ fixed = false
  · rw [if_pos h, intText_form]
    exact ⟨_, _, _, decText_ne _, decText_dig _, by simp, rfl⟩
  · rw [if_neg h]
    by_cases hd : d = 0
    · rw [if_pos hd, intText_form]
      exact ⟨_, _, _, decText_ne _, decText_dig _, by simp, rfl⟩
    · rw [if_neg hd]
      obtain ⟨n, _, e⟩ := fixText_form d (by omega) v
      rw [e]
      exact ⟨_, _, _, decText_ne _, decText_dig _, padText_dig _ _, rfl⟩

theorem formatStart_exact (v : ℚ) (d : Nat) (fixed : Bool) : exactText (formatStart v d fixed) = some (shownFirst v d fixed) := by
  unfold formatStart shownFirst
  by_cases h : v = (truncInt v : ℚ) ∧ fixed = false
  · rw [if_pos h, if_pos h, intText_exact, ← h.1]
  · rw [if_neg h, if_neg h]
    by_cases hd : d = 0
    · rw [if_pos hd, if_pos hd, intText_exact]
    · rw [if_neg hd, if_neg hd, fixText_exact d (by omega)]

theorem format_exact (v : ℚ) (d : Nat) (fixed : Bool) :
    exactText (formatZeros d fixed (formatLong v d (formatStart v d fixed))) =
      some (if (formatStart v d fixed).length > 6 + d then sixRound v else shownFirst v d fixed) := by
  unfold formatLong
  by_cases h : (formatStart v d fixed).length > 6 + d
  · rw [if_pos h, if_pos h, formatZeros_general]
  · rw [if_neg h, if_neg h]
    obtain ⟨neg, ip, f, h1, h2, h3, e⟩ := formatStart_form v d fixed
    rw [e, formatZeros_exact d fixed h1 h2 h3, ← e, formatStart_exact]

theorem format_some {v : ℚ} (hr : -(2 ^ 63) - 1 < v ∧ v < 2 ^ 63) (decimals : Nat) (fixed : Bool) :
    formatDouble v decimals fixed [] = some (formatZeros (min decimals 20) (fixed && (min decimals 20) != 0)
      (formatLong v (min decimals 20) (formatStart v (min decimals 20) (fixed && (min decimals 20) != 0)))) := by
  unfold formatDouble
  rw [if_pos hr]
  rfl

/-- The error of the first text. -/
theorem shownFirst_err (v : ℚ) (d : Nat) (fixed : Bool) :
    |v - shownFirst v d fixed| ≤ 1 / 2 / 10 ^ d + if d = 0 then |v + 1 / 2| / 2 ^ 53 else 0 := by
  unfold shownFirst
  have h0 : (0 : ℚ) ≤ 1 / 2 / 10 ^ d := by positivity
  by_cases h : v = (truncInt v : ℚ) ∧ fixed = false
  · rw [if_pos h, sub_self, abs_zero]
    split
    · positivity
    · linarith
  · rw [if_neg h]
    by_cases hd : d = 0
    · rw [if_pos hd, if_pos hd, hd, pow_zero, div_one]
      have e1 := Rat.floor_le (dblRound (v + 1 / 2))
      have e2 := Rat.lt_floor_add_one (dblRound (v + 1 / 2))
      push_cast at e2
      have e3 := abs_le.mp (dblRound_err (v + 1 / 2))
      rw [abs_le]
      constructor <;> linarith [e3.1, e3.2]
    · rw [if_neg hd, if_neg hd, add_zero]
      exact fixRound_err d v

/-! ## The length of the first text -/

theorem decText_length (n k : Nat) (hk : 0 < k) (h : n < 10 ^ k) : (decText n).length ≤ k := by
  have e : (decText n).length = decLen n := by unfold decText decLen; rw [List.length_map]
  rw [e]
  by_cases h0 : n = 0
  · subst h0
    have : decLen 0 = 1 := by decide
    omega
  · have := (decLen_spec h0).1
    by_contra hc
    have h2 : 10 ^ k ≤ 10 ^ (decLen n - 1) := Nat.pow_le_pow_right (by omega) (by omega)
    omega

theorem intText_length {t : ℤ} (h1 : -99999 ≤ t) (h2 : t ≤ 100000) : (intText t).length ≤ 6 := by
  unfold intText
  by_cases h : t < 0
  · rw [if_pos h, List.length_cons]
    have := decText_length t.natAbs 5 (by omega) (by omega)
    omega
  · rw [if_neg h]
    exact decText_length t.natAbs 6 (by omega) (by omega)

theorem truncInt_eq {v : ℚ} (h : v = (truncInt v : ℚ)) (h1 : -9999 ≤ v) (h2 : v ≤ 99999) : -9999 ≤ truncInt v ∧ truncInt v ≤ 99999 := by
  rw [h] at h1 h2
  constructor
  · exact_mod_cast h1
  · exact_mod_cast h2

theorem formatStart_length (v : ℚ) (d : Nat) (fixed : Bool) (h1 : -9999 ≤ v) (h2 : v ≤ 99999) :
    ¬ (formatStart v d fixed).length > 6 + d := by
  unfold formatStart
  by_cases h : v = (truncInt v : ℚ) ∧ fixed = false
  · rw [if_pos h]
    obtain ⟨a, b⟩ := truncInt_eq h.1 h1 h2
    have := intText_length (t := truncInt v) (by omega) (by omega)
    omega
  · rw [if_neg h]
    by_cases hd : d = 0
    · rw [if_pos hd]
      have e1 := Rat.floor_le (dblRound (v + 1 / 2))
      have e2 := Rat.lt_floor_add_one (dblRound (v + 1 / 2))
      push_cast at e2
      have e3 := abs_le.mp (dblRound_err (v + 1 / 2))
      have e4 : |v + 1 / 2| ≤ 100000 := by rw [abs_le]; constructor <;> linarith
      have e5 : |v + 1 / 2| / 2 ^ 53 ≤ 1 / 4 := by
        rw [div_le_iff₀ (by positivity)]
        norm_num
        linarith
      have a : (-10001 : ℚ) < ((dblRound (v + 1 / 2)).floor : ℚ) := by linarith [e3.1, e3.2]
      have b : ((dblRound (v + 1 / 2)).floor : ℚ) < 100000 := by linarith [e3.1, e3.2]
      have a' : (-10001 : ℤ) < (dblRound (v + 1 / 2)).floor := by exact_mod_cast a
      have b' : (dblRound (v + 1 / 2)).floor < 100000 := by exact_mod_cast b
      have := intText_length (t := (dblRound (v + 1 / 2)).floor) (by omega) (by omega)
      omega
    · rw [if_neg hd]
      obtain ⟨n, hn, e⟩ := fixText_form d (by omega) v
      have hr := abs_le.mp (roundEven_half (|v| * 10 ^ d))
      have hnq : ((n : ℤ) : ℚ) = (roundEven (|v| * 10 ^ d) : ℚ) := by rw [hn]
      rw [Int.cast_natCast] at hnq
      have hp : (0 : ℚ) < 10 ^ d := by positivity
      have bound : ∀ B : Nat, |v| ≤ B → n ≤ B * 10 ^ d := by
        intro B hB
        have h3 : |v| * 10 ^ d ≤ (B : ℚ) * 10 ^ d := mul_le_mul_of_nonneg_right hB hp.le
        have h4 : (n : ℚ) < (B : ℚ) * 10 ^ d + 1 := by rw [hnq]; linarith [hr.1]
        have h5 : n < B * 10 ^ d + 1 := by exact_mod_cast h4
        omega
      have hlen : ∀ k : Nat, 0 < k → ∀ B : Nat, |v| ≤ B → B < 10 ^ k → (decText (n / 10 ^ d)).length ≤ k := by
        intro k hk B hB hBk
        refine decText_length _ k hk (Nat.lt_of_le_of_lt ?_ hBk)
        exact Nat.div_le_of_le_mul (by rw [Nat.mul_comm]; exact bound B hB)
      rw [e]
      have hpad : padText d (n % 10 ^ d) ≠ [] := by
        intro hh; have := padText_length d (n % 10 ^ d); rw [hh] at this; simp at this; omega
      unfold numForm
      rw [if_neg hpad]
      simp only [List.length_append, List.length_cons, padText_length, decide_eq_true_eq]
      by_cases hv : v < 0
      · have := hlen 4 (by omega) 9999 (by rw [abs_of_neg hv]; push_cast; linarith) (by norm_num)
        simp [hv]; omega
      · have := hlen 5 (by omega) 99999 (by rw [abs_of_nonneg (not_lt.mp hv)]; push_cast; linarith) (by norm_num)
        simp [hv]; omega

end Mdf
