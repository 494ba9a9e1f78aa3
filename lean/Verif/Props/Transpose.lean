import Verif.Proof.Transpose

/-!
Properties of transposed and compressed blocks: C29.
-/

namespace Mdf

/-- Byte `column` of record `row` goes to position `column * rows + row` (the layout the MDF standard prescribes for
"transpose + deflate"); the bytes after the last complete record stay.  No index is out of bounds. -/
theorem C29_layout (data : Bytes) (n : Nat) (hn : n ≠ 0) :
    ∃ r, transpose data n = some r ∧ r.length = data.length ∧
      (∀ row column, row < data.length / n → column < n → r[column * (data.length / n) + row]? = data[row * n + column]?) ∧
      (∀ i, data.length / n * n ≤ i → r[i]? = data[i]?) := by
  obtain ⟨r, h1, h2, h3⟩ := transpose_spec data n hn
  refine ⟨r, h1, h2, ?_, ?_⟩
  · intro row column hr hc
    have a := index_lt hc hr
    rw [Nat.mul_comm n] at a
    obtain ⟨e1, e2⟩ := mul_add_div' column row _ hr
    rw [h3, if_pos a, e1, e2]
  · intro i hi
    rw [h3, if_neg (by omega)]

/-- Inverse transposition undoes transposition, for every record size, also one that does not divide the size of the data and
also 0; and the other way round. -/
theorem C29_lossless (data : Bytes) (n : Nat) :
    (∃ r, transpose data n = some r ∧ invTranspose r n = some data) ∧
    (∃ r, invTranspose data n = some r ∧ transpose r n = some data) := by
  by_cases hn : n = 0
  · subst hn; exact ⟨⟨data, rfl, rfl⟩, ⟨data, rfl, rfl⟩⟩
  have hn0 : 0 < n := Nat.pos_of_ne_zero hn
  constructor
  · obtain ⟨r, h1, h2, h3⟩ := transpose_spec data n hn
    obtain ⟨s, g1, g2, g3⟩ := invTranspose_spec r n hn
    refine ⟨r, h1, ?_⟩
    rw [g1]
    congr 1
    apply List.ext_getElem?
    intro i
    rw [g3, h2]
    split
    · rename_i hi
      have hd : i / n < data.length / n := (Nat.div_lt_iff_lt_mul hn0).mpr hi
      have hm : i % n < n := Nat.mod_lt _ hn0
      have a := index_lt hm hd
      rw [Nat.mul_comm n] at a
      obtain ⟨e1, e2⟩ := mul_add_div' (i % n) (i / n) _ hd
      rw [h3, if_pos a, e1, e2, Nat.mul_comm, Nat.div_add_mod]
    · rename_i hi
      rw [h3, if_neg hi]
  · obtain ⟨r, h1, h2, h3⟩ := invTranspose_spec data n hn
    obtain ⟨s, g1, g2, g3⟩ := transpose_spec r n hn
    refine ⟨r, h1, ?_⟩
    rw [g1]
    congr 1
    apply List.ext_getElem?
    intro i
    rw [g3, h2]
    split
    · rename_i hi
      have hr : 0 < data.length / n := by
        rcases Nat.eq_zero_or_pos (data.length / n) with h | h
        · rw [h, Nat.zero_mul] at hi; omega
        · exact h
      have hd : i / (data.length / n) < n := (Nat.div_lt_iff_lt_mul hr).mpr (by rw [Nat.mul_comm]; exact hi)
      have hm : i % (data.length / n) < data.length / n := Nat.mod_lt _ hr
      have a := index_lt hm hd
      obtain ⟨e1, e2⟩ := mul_add_div' (i % (data.length / n)) (i / (data.length / n)) n hd
      rw [h3, if_pos a, e1, e2, Nat.mul_comm, Nat.div_add_mod]
    · rename_i hi
      rw [h3, if_neg hi]

example : transpose [1, 2, 3, 4, 5, 6, 7] 3 = some [1, 4, 2, 5, 3, 6, 7] ∧ invTranspose [1, 4, 2, 5, 3, 6, 7] 3 =
    some [1, 2, 3, 4, 5, 6, 7] := by decide

/-- A compressed block gives back the data it was made of, for both ways of compression, any parameter and any data, provided
zlib is lossless and does not compress something to nothing.  (What holds of the buffers zlib is given in the code is C82.) -/
theorem C29_block_contents (z : Codec) (hz : ∀ d : Bytes, z.inflate d.length (z.deflate d) = d) (hp : ∀ d, z.deflate d ≠ [])
    (type parameter : Nat) (data : Bytes) :
    ∃ b, Dz.make z type parameter data = some b ∧ b.contents z = some data := by
  unfold Dz.make
  by_cases hd : data = []
  · simp only [hd, if_true]
    exact ⟨_, rfl, rfl⟩
  have hl : data.length ≠ 0 := fun h => hd (List.eq_nil_of_length_eq_zero h)
  have hpl : ∀ d, (z.deflate d).length ≠ 0 := fun d h => hp d (List.eq_nil_of_length_eq_zero h)
  simp only [if_neg hd]
  by_cases ht : type = 1 ∧ parameter ≠ 0
  · simp only [ht.1, if_neg ht.2, if_true]
    obtain ⟨r, h1, h2⟩ := (C29_lossless data parameter).1
    have hrl : r.length = data.length := by
      obtain ⟨r', h3, h4, -⟩ := transpose_spec data parameter ht.2
      rw [h1] at h3; simp only [Option.some.injEq] at h3; rw [h3]; exact h4
    rw [h1]
    refine ⟨_, rfl, ?_⟩
    unfold Dz.contents
    rw [if_neg (by rintro (h | h); exact hl h; exact hpl _ h)]
    dsimp only
    rw [if_neg (by decide), if_pos rfl, ← hrl, hz]
    exact h2
  · have h0 : (if type = 1 then (if parameter = 0 then 0 else 1) else 0) = 0 := by
      by_cases h1 : type = 1
      · rw [if_pos h1, if_pos (by
          rcases Nat.eq_zero_or_pos parameter with h | h
          · exact h
          · exact absurd ⟨h1, by omega⟩ ht)]
      · rw [if_neg h1]
    simp only [h0]
    refine ⟨_, rfl, ?_⟩
    unfold Dz.contents
    rw [if_neg (by rintro (h | h); exact hl h; exact hpl _ h)]
    dsimp only
    rw [if_pos rfl, hz]

/-- A codec that meets the hypotheses. -/
example : let z : Codec := ⟨fun d => 0 :: d, fun _ d => d.drop 1⟩
    (∀ d : Bytes, z.inflate d.length (z.deflate d) = d) ∧ (∀ d, z.deflate d ≠ []) ∧
    (Dz.make z 1 2 [1, 2, 3, 4, 5]).map (fun b => b.data) = some [0, 1, 3, 2, 4, 5] :=
  ⟨fun _ => rfl, fun _ h => (by cases h), by decide⟩

end Mdf
