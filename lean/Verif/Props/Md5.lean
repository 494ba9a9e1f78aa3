import Verif.Proof.Md5Stream
import Verif.Proof.Md5Sine

/-!
C61: the checksum of an attached file is the MD5 checksum of its content.
-/

namespace Mdf

/-- C61: for every content, however it is cut into the pieces that the reads of the file give, of any sizes, the checksum is
the one RFC 1321 defines for the content; nothing outside the buffers is touched. -/
theorem C61_checksum (reads : List Bytes) : md5File reads = some (md5Digest reads.flatten) := by
  obtain ⟨c, hc, hi⟩ := md5Updates_inv reads md5Init [] md5Init_inv
  unfold md5File
  rw [hc]
  exact md5Final_inv c _ hi

/-- Two ways of cutting the same content give the same checksum. -/
theorem C61_any_reads (r s : List Bytes) (h : r.flatten = s.flatten) : md5File r = md5File s := by
  rw [C61_checksum, C61_checksum, h]

/-- The constants of the specification are the ones RFC 1321 describes: entry i is the integer part of 2^32 |sin(i + 1)|. -/
theorem C61_table (i : Nat) (hi : i < 64) :
    ((rfcTable.getD i 0).toNat : ℤ) = ⌊(2 : ℝ) ^ 32 * |Real.sin ((i : ℝ) + 1)|⌋ :=
  rfcTable_sine i hi

/-- The checksum has 16 bytes. -/
theorem C61_length (m : Bytes) : (md5Digest m).length = 16 := by
  unfold md5Digest
  simp only [List.length_append, leBytes_length]

/-- The text of a checksum has two digits for every byte. -/
theorem C61_text_length (b : Bytes) : (md5String b).length = 2 * b.length := by
  induction b with
  | nil => rfl
  | cons x b ih =>
    unfold md5String at ih ⊢
    rw [List.flatMap_cons, List.length_append, ih]
    show 2 + 2 * b.length = 2 * (b.length + 1)
    omega

theorem hexDigit_inj (x y : Nat) (hx : x < 16) (hy : y < 16) (h : hexDigit x = hexDigit y) : x = y := by
  unfold hexDigit at h
  split at h <;> split at h <;> rw [← BitVec.toNat_inj, BitVec.toNat_ofNat, BitVec.toNat_ofNat] at h <;> omega

/-- Different checksums have different texts. -/
theorem C61_text_inj (a b : Bytes) (h : md5String a = md5String b) : a = b := by
  induction a generalizing b with
  | nil =>
    cases b with
    | nil => rfl
    | cons y b => exact absurd h (by simp [md5String])
  | cons x a ih =>
    cases b with
    | nil => exact absurd h (by simp [md5String])
    | cons y b =>
      have h' : hexDigit (x.toNat / 16) :: hexDigit (x.toNat % 16) :: md5String a =
        hexDigit (y.toNat / 16) :: hexDigit (y.toNat % 16) :: md5String b := h
      rw [List.cons.injEq, List.cons.injEq] at h'
      have h1 := hexDigit_inj _ _ (by omega) (by omega) h'.1
      have h2 := hexDigit_inj _ _ (by omega) (by omega) h'.2.1
      rw [ih b h'.2.2, show x = y from BitVec.eq_of_toNat_eq (by omega)]

/-- Every digit is 0-9 or A-F. -/
theorem C61_text_digits (a : Bytes) (c : Byte) (hc : c ∈ md5String a) :
    (48 ≤ c.toNat ∧ c.toNat ≤ 57) ∨ (65 ≤ c.toNat ∧ c.toNat ≤ 70) := by
  have hd : ∀ n, n < 16 → (48 ≤ (hexDigit n).toNat ∧ (hexDigit n).toNat ≤ 57) ∨ (65 ≤ (hexDigit n).toNat ∧ (hexDigit n).toNat ≤ 70) := by
    decide
  unfold md5String at hc
  rw [List.mem_flatMap] at hc
  obtain ⟨x, _, hx⟩ := hc
  rw [List.mem_cons, List.mem_singleton] at hx
  obtain rfl | rfl := hx
  · exact hd _ (by omega)
  · exact hd _ (by omega)

/-- Some of the test suite of RFC 1321, A.5: the empty content, "a", and "abc" in two reads. -/
example : md5Digest [] =
    [0xd4, 0x1d, 0x8c, 0xd9, 0x8f, 0x00, 0xb2, 0x04, 0xe9, 0x80, 0x09, 0x98, 0xec, 0xf8, 0x42, 0x7e] := by decide +kernel

example : md5Digest [0x61#8] =
    [0x0c, 0xc1, 0x75, 0xb9, 0xc0, 0xf1, 0xb6, 0xa8, 0x31, 0xc3, 0x99, 0xe2, 0x69, 0x77, 0x26, 0x61] := by decide +kernel

example : md5File [[0x61#8, 0x62#8], [0x63#8]] =
    some [0x90, 0x01, 0x50, 0x98, 0x3c, 0xd2, 0x4f, 0xb0, 0xd6, 0x96, 0x3f, 0x7d, 0x28, 0xe1, 0x7f, 0x72] := by decide +kernel

/-- Two reads of 100 and 85 bytes: one full buffer in the middle, two blocks at the end. -/
example : md5File [List.replicate 100 7#8, List.replicate 85 9#8] = some (md5Digest (List.replicate 100 7#8 ++ List.replicate 85 9#8)) := by
  decide +kernel

example : md5String [0x0c#8, 0xa1#8] = [48#8, 67#8, 65#8, 49#8] := by decide

end Mdf
