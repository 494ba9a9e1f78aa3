import Verif.Spec.TypedObs
import Verif.Spec.Double
import Verif.Proof.Double
import Verif.Props.Channel
import Mathlib.Tactic.Linarith

set_option linter.unusedSimpArgs false

namespace Mdf

theorem cast_id {t : IntTy} {n : Int} (hb : 0 < t.bits) (h : t.CanHold n) : t.cast n = n := by
  unfold IntTy.CanHold at h
  unfold IntTy.cast
  obtain ⟨k, hk⟩ : ∃ k, t.bits = k + 1 := ⟨t.bits - 1, by omega⟩
  rw [hk] at h ⊢
  simp only [Nat.add_sub_cancel] at h
  split
  · next hs =>
    rw [if_pos hs] at h
    have e2 : ((2 ^ (k + 1) : Nat) : Int) = 2 * (2 ^ k : Int) := by push_cast; ring
    apply Int.bmod_eq_of_le <;> push_cast at * <;> omega
  · next hs =>
    rw [if_neg hs] at h
    exact Int.emod_eq_of_lt h.1 h.2

theorem canHold_mono {s : Bool} {a b : Nat} (ha : 0 < a) (h : a ≤ b) {n : Int} (hn : (IntTy.mk s a).CanHold n) : (IntTy.mk s b).CanHold n := by
  unfold IntTy.CanHold at hn ⊢
  have e1 : (2 ^ a : Int) ≤ 2 ^ b := by exact_mod_cast Nat.pow_le_pow_right (by omega) h
  have e2 : (2 ^ (a - 1) : Int) ≤ 2 ^ (b - 1) := by exact_mod_cast Nat.pow_le_pow_right (by omega) (by omega)
  cases s
  · simp only [Bool.false_eq_true, if_false] at hn ⊢; omega
  · simp only [if_true] at hn ⊢; omega

/-- The type an observer keeps integers in is wide enough. -/
theorem keepTy_wide (c : Chan) (h0 : 0 < c.bitCount) (h64 : c.bitCount ≤ 64) : c.bitCount ≤ c.keepTy.bits ∧ 0 < c.keepTy.bits ∧ c.keepTy.bits ≤ 64 := by
  unfold Chan.keepTy
  have hd : c.bitCount ≤ 8 * c.dataBytes := by unfold Chan.dataBytes; split <;> omega
  generalize c.dataBytes = d at hd
  split
  · simp only []; repeat' split
    all_goals omega
  · simp only []; repeat' split
    all_goals omega

theorem bmod_twos (n f : Nat) (hn : 0 < n) (hf : f < 2 ^ n) : Int.bmod (f : Int) (2 ^ n) = twosVal n f := by
  obtain ⟨k, rfl⟩ : ∃ k, n = k + 1 := ⟨n - 1, by omega⟩
  unfold twosVal
  rw [Nat.add_sub_cancel]
  have e : (2 ^ (k + 1) : Nat) = 2 * 2 ^ k := by rw [Nat.pow_succ]; omega
  have e2 : (2 ^ (k + 1) : Int) = ((2 ^ (k + 1) : Nat) : Int) := by push_cast; rfl
  rw [e2, e]
  rw [e] at hf
  unfold Int.bmod
  simp only []
  rw [Int.emod_eq_of_lt (by omega) (by omega)]
  split <;> split <;> omega

theorem field_lt (o : Order) (record : Bytes) (p n : Nat) : fieldOf o record p n < 2 ^ n := by
  cases o <;> exact Nat.mod_lt _ (Nat.two_pow_pos n)

/-- What is kept of a record. -/
theorem twos_canHold (n f : Nat) (hn : 0 < n) (hf : f < 2 ^ n) : (IntTy.mk true n).CanHold (twosVal n f) := by
  obtain ⟨k, rfl⟩ : ∃ k, n = k + 1 := ⟨n - 1, by omega⟩
  unfold IntTy.CanHold twosVal
  simp only [if_true]
  rw [Nat.add_sub_cancel]
  have e : (2 ^ (k + 1) : Nat) = 2 * 2 ^ k := by rw [Nat.pow_succ]; omega
  have e2 : (2 ^ (k + 1) : Int) = 2 * 2 ^ k := by ring
  have e3 : (2 ^ k : Int) = ((2 ^ k : Nat) : Int) := by push_cast; rfl
  rw [e2, e3]
  rw [e] at hf
  split <;> omega

theorem unsigned_canHold (n f : Nat) (hf : f < 2 ^ n) : (IntTy.mk false n).CanHold (f : Int) := by
  unfold IntTy.CanHold
  simp only [Bool.false_eq_true, if_false]
  have e3 : (2 ^ n : Int) = ((2 ^ n : Nat) : Int) := by push_cast; rfl
  rw [e3]; omega

theorem numberIn_canHold (c : Chan) (h : c.IntChannel) (record : Bytes) (j : Nat) :
    (IntTy.mk (!c.isU) c.bitCount).CanHold (c.numberIn record j) := by
  unfold Chan.isU Chan.numberIn
  rcases h.int with hd | hd | hd | hd <;> rw [hd]
  · exact unsigned_canHold _ _ (field_lt .le ..)
  · exact unsigned_canHold _ _ (field_lt .be ..)
  · exact twos_canHold _ _ h.pos (field_lt .le ..)
  · exact twos_canHold _ _ h.pos (field_lt .be ..)

theorem keepTy_signed (c : Chan) : c.keepTy.signed = !c.isU := by
  unfold Chan.keepTy; cases c.isU <;> rfl

theorem keep_number (c : Chan) (h : c.IntChannel) (record : Bytes) (j : Nat) :
    c.keepTy.cast (c.numberIn record j) = c.numberIn record j := by
  have hw := keepTy_wide c h.pos h.wide
  apply cast_id hw.2.1
  have := canHold_mono h.pos hw.1 (numberIn_canHold c h record j)
  rw [← keepTy_signed] at this
  exact this

theorem wide_number (c : Chan) (h : c.IntChannel) (record : Bytes) (j : Nat) : c.wide (c.numberIn record j) = c.numberIn record j := by
  unfold Chan.wide
  have := canHold_mono h.pos h.wide (numberIn_canHold c h record j)
  cases hu : c.isU <;> rw [hu] at this
  · exact cast_id (by decide) this
  · exact cast_id (by decide) this

theorem pos_mono (c : Chan) {j : Nat} (hj : j < c.arraySize) : c.pos j + c.bitCount ≤ c.pos c.arraySize := by
  unfold Chan.pos
  have : (j + 1) * c.bitCount ≤ c.arraySize * c.bitCount := Nat.mul_le_mul_right _ hj
  rw [Nat.succ_mul] at this
  omega

theorem fixed_kind (c : Chan) (h : c.type = .fixedLength ∨ c.type = .master ∨ c.type = .sync ∨ c.type = .maxLength) :
    c.obsKind = .fixed ∧ c.type ≠ .variableLength := by
  unfold Chan.obsKind
  rcases h with h | h | h | h <;> rw [h] <;> exact ⟨rfl, by decide⟩

/-- What an observer keeps of a record. -/
theorem intIn_eq (c : Chan) (h : c.IntChannel) (record : Bytes) (small : record.length ≤ 2 ^ 28) (j : Nat) (hj : j < c.arraySize) :
    c.intIn c.keepTy record j =
      if c.Inside j record.length then (c.getValid record j, some (c.numberIn record j)) else (false, some 0) := by
  have h64 : c.pos j + c.bitCount < 2 ^ 64 := Nat.lt_of_le_of_lt (pos_mono c hj) h.last
  have hv := (fixed_kind c h.fixed).2
  have h0 : c.keepTy.cast 0 = 0 := by unfold IntTy.cast; split <;> simp
  have hk := keep_number c h record j
  unfold Chan.intIn
  rcases h.int with hd | hd | hd | hd
  · have hu : c.isU = true := by unfold Chan.isU; rw [hd]; rfl
    have := C05_get_unsigned_le c record j hd h.off h64 small
    rw [hu]
    simp only [if_true]
    by_cases hi : c.Inside j record.length
    · rw [this.1 hi, if_pos hi]
      have hn : c.numberIn record j = fieldLe record (c.pos j) c.bitCount := by unfold Chan.numberIn; rw [hd]
      have hlt : fieldLe record (c.pos j) c.bitCount < 2 ^ 64 :=
        Nat.lt_of_lt_of_le (field_lt .le ..) (Nat.pow_le_pow_right (by omega) h.wide)
      simp only []
      rw [BitVec.toNat_ofNat, Nat.mod_eq_of_lt hlt, ← hn, hk]
    · rw [this.2 hi, if_neg hi]
      simp only []
      rw [h0]
  · have hu : c.isU = true := by unfold Chan.isU; rw [hd]; rfl
    have := C05_get_unsigned_be c record j hd hv h.off h64 small
    rw [hu]
    simp only [if_true]
    by_cases hi : c.Inside j record.length
    · rw [this.1 hi, if_pos hi]
      have hn : c.numberIn record j = fieldBe record (c.pos j) c.bitCount := by unfold Chan.numberIn; rw [hd]
      have hlt : fieldBe record (c.pos j) c.bitCount < 2 ^ 64 :=
        Nat.lt_of_lt_of_le (field_lt .be ..) (Nat.pow_le_pow_right (by omega) h.wide)
      simp only []
      rw [BitVec.toNat_ofNat, Nat.mod_eq_of_lt hlt, ← hn, hk]
    · rw [this.2 hi, if_neg hi]
      simp only []
      rw [h0]
  · have hu : c.isU = false := by unfold Chan.isU; rw [hd]; rfl
    have := C05_get_signed .le c record j hd h.pos h.wide h.off h64 small
    rw [hu]
    simp only [Bool.false_eq_true, if_false]
    by_cases hi : c.Inside j record.length
    · obtain ⟨r, hr, hrt⟩ := this.1 hi
      rw [hr, if_pos hi]
      have hn : c.numberIn record j = twosVal c.bitCount (fieldLe record (c.pos j) c.bitCount) := by unfold Chan.numberIn; rw [hd]
      simp only []
      rw [hrt]
      rw [bmod_twos _ _ h.pos (field_lt .le ..)]
      change (_, some (c.keepTy.cast (twosVal c.bitCount (fieldLe record (c.pos j) c.bitCount)))) = _
      rw [← hn, hk]
    · rw [this.2 hi, if_neg hi]
      simp only []
      rw [h0]
  · have hu : c.isU = false := by unfold Chan.isU; rw [hd]; rfl
    have := C05_get_signed .be c record j hd h.pos h.wide h.off h64 small
    rw [hu]
    simp only [Bool.false_eq_true, if_false]
    by_cases hi : c.Inside j record.length
    · obtain ⟨r, hr, hrt⟩ := this.1 hi
      rw [hr, if_pos hi]
      have hn : c.numberIn record j = twosVal c.bitCount (fieldBe record (c.pos j) c.bitCount) := by unfold Chan.numberIn; rw [hd]
      simp only []
      rw [hrt]
      rw [bmod_twos _ _ h.pos (field_lt .be ..)]
      change (_, some (c.keepTy.cast (twosVal c.bitCount (fieldBe record (c.pos j) c.bitCount)))) = _
      rw [← hn, hk]
    · rw [this.2 hi, if_neg hi]
      simp only []
      rw [h0]

/-! ### Floats -/

theorem roundEven_int (z : ℤ) : roundEven (z : ℚ) = z := by
  unfold roundEven
  have hf : (z : ℚ).floor = z := Rat.floor_intCast z
  rw [hf, if_pos (by norm_num)]

/-- A number of at most `p` bits is not changed by rounding to `p` bits. -/
theorem rndBits_id {p : Nat} {q : ℚ} (n k : ℤ) (hn : |n| < 2 ^ p) (hq : q = n * 2 ^ k) : rndBits p q = q := by
  unfold rndBits
  by_cases h0 : q = 0
  · rw [if_pos h0, h0]
  · rw [if_neg h0]
    obtain ⟨h1, _⟩ := binExp_spec h0
    have h2 : |q| < (2 : ℚ) ^ ((p : ℤ) + k) := by
      rw [hq, abs_mul, abs_of_pos (zpow_pos (by norm_num : (0 : ℚ) < 2) k), zpow_add₀ (by norm_num)]
      apply mul_lt_mul_of_pos_right _ (zpow_pos (by norm_num) k)
      have : ((|n| : ℤ) : ℚ) < ((2 ^ p : ℤ) : ℚ) := by exact_mod_cast hn
      rw [Int.cast_abs] at this
      simpa using this
    have h3 : binExp q < (p : ℤ) + k := (zpow_lt_zpow_iff_right₀ (by norm_num : (1 : ℚ) < 2)).1 (lt_of_le_of_lt h1 h2)
    rw [pow2_eq, pow2_eq]
    obtain ⟨a, ha⟩ : ∃ a : ℕ, k + ((p : ℤ) - 1 - binExp q) = a := ⟨(k + ((p : ℤ) - 1 - binExp q)).toNat, by omega⟩
    have hz : q * (2 : ℚ) ^ ((p : ℤ) - 1 - binExp q) = ((n * 2 ^ a : ℤ) : ℚ) := by
      rw [hq, mul_assoc, ← zpow_add₀ (by norm_num), ← hq, ha]
      push_cast
      rw [zpow_natCast]
    rw [hz, roundEven_int, ← hz, mul_assoc, ← zpow_add₀ (by norm_num)]
    rw [show (p : ℤ) - 1 - binExp q + (binExp q - ((p : ℤ) - 1)) = 0 by ring, zpow_zero, mul_one]

theorem ieee_toF32 (e m bits : Nat) (hm : m < 24) : (ieeeVal e m bits).toF32 = ieeeVal e m bits := by
  unfold ieeeVal
  simp only []
  have hman : bits % 2 ^ m < 2 ^ m := Nat.mod_lt _ (Nat.two_pow_pos m)
  have h23 : 2 ^ m ≤ 2 ^ 23 := Nat.pow_le_pow_right (by omega) (by omega)
  generalize bits % 2 ^ m = man at hman
  split
  · split <;> rfl
  · split
    · unfold FltV.toF32
      simp only []
      rw [rndBits_id (n := (man : ℤ)) (k := 1 - (2 ^ (e - 1) - 1) - m)]
      · rw [abs_of_nonneg (by omega)]; omega
      · rw [pow2_eq]; push_cast; rfl
    · unfold FltV.toF32
      simp only []
      rw [rndBits_id (n := ((2 ^ m + man : Nat) : ℤ)) (k := ((bits / 2 ^ m % 2 ^ e : Nat) : ℤ) - (2 ^ (e - 1) - 1) - m)]
      · rw [abs_of_nonneg (by omega)]
        have : 2 ^ m + man < 2 ^ 24 := by omega
        exact_mod_cast this
      · rw [pow2_eq]; push_cast; rfl

theorem keepFlt_id (c : Chan) (h : c.FloatChannel) (bits : Nat) : c.keepFlt (floatOfBits c.bitCount bits) = floatOfBits c.bitCount bits := by
  unfold Chan.keepFlt floatOfBits Chan.dataBytes
  rcases h.width with hw | hw | hw <;> rw [hw]
  · rw [if_pos (by decide), if_pos rfl]; exact ieee_toF32 5 10 bits (by omega)
  · rw [if_pos (by decide), if_neg (by decide), if_pos rfl]; exact ieee_toF32 8 23 bits (by omega)
  · rw [if_neg (by decide)]

theorem keepFlt_zero (c : Chan) : c.keepFlt (.fin false 0) = .fin false 0 := by
  unfold Chan.keepFlt FltV.toF32 rndBits
  split <;> simp

/-- What an observer keeps of a record of a float channel. -/
theorem fltIn_eq (c : Chan) (h : c.FloatChannel) (record : Bytes) (small : record.length ≤ 2 ^ 28) (j : Nat) (hj : j < c.arraySize) :
    c.fltIn record j =
      if c.Inside j record.length then (c.getValid record j, some (c.floatNumIn record j)) else (false, some (.fin false 0)) := by
  have h64 : c.pos j + c.bitCount < 2 ^ 64 := Nat.lt_of_le_of_lt (pos_mono c hj) h.last
  have hle : c.bitCount ≤ 64 := by rcases h.width with h | h | h <;> omega
  have key : ∀ o : Order, (c.dataType = match o with | .le => .floatLe | .be => .floatBe) →
      c.floatNumIn record j = floatOfBits c.bitCount (fieldOf o record (c.pos j) c.bitCount) →
      c.fltIn record j =
        if c.Inside j record.length then (c.getValid record j, some (c.floatNumIn record j)) else (false, some (.fin false 0)) := by
    intro o hd hf
    have := C05_get_float o c record j hd h.width h.off h64 small
    unfold Chan.fltIn
    by_cases hi : c.Inside j record.length
    · rw [this.1 hi, if_pos hi, hf]
      have hlt : fieldOf o record (c.pos j) c.bitCount < 2 ^ 64 :=
        Nat.lt_of_lt_of_le (field_lt o ..) (Nat.pow_le_pow_right (by omega) hle)
      simp only []
      rw [BitVec.toNat_ofNat, Nat.mod_eq_of_lt hlt, keepFlt_id c h]
    · rw [this.2 hi, if_neg hi]
      simp only []
      rw [keepFlt_zero]
  rcases h.flt with hd | hd
  · exact key .le hd (by unfold Chan.floatNumIn; rw [if_pos hd]; rfl)
  · exact key .be hd (by unfold Chan.floatNumIn; rw [if_neg (by rw [hd]; decide)]; rfl)

end Mdf
