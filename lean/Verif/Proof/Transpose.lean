import Verif.Model.Transpose

namespace Mdf

/-- The nested loops are one loop over the pairs of indices. -/
theorem foldlM_pairs {α : Type} (temp : Bytes) (f : α → Nat → Nat × Nat) (n : Nat) (rows : List α) : ∀ d : Bytes,
    rows.foldlM (fun d row => (List.range n).foldlM (fun d c => copyByte temp d (f row c).1 (f row c).2) d) d =
    (rows.flatMap fun row => (List.range n).map (f row)).foldlM (fun d p => copyByte temp d p.1 p.2) d := by
  induction rows with
  | nil => intro d; rfl
  | cons r rows ih =>
    intro d
    rw [List.flatMap_cons, List.foldlM_append, List.foldlM_cons]
    rw [List.foldlM_map]
    cases h : List.foldlM (fun d c => copyByte temp d (f r c).1 (f r c).2) d (List.range n) with
    | none => rfl
    | some d' => exact ih d'

/-- A loop that copies from position `src i` to position `i`, for all `i` in `tos`. -/
theorem copy_spec (temp : Bytes) (src : Nat → Nat) (ps : List (Nat × Nat)) : ∀ d : Bytes,
    (∀ p ∈ ps, p.1 < d.length ∧ p.2 < temp.length ∧ p.2 = src p.1) →
    ∃ r, ps.foldlM (fun d p => copyByte temp d p.1 p.2) d = some r ∧ r.length = d.length ∧
      ∀ i, r[i]? = if i ∈ ps.map (·.1) then temp[src i]? else d[i]? := by
  induction ps with
  | nil => intro d _; exact ⟨d, rfl, rfl, fun i => by simp⟩
  | cons p ps ih =>
    intro d h
    obtain ⟨h1, h2, h3⟩ := h p List.mem_cons_self
    have hc : copyByte temp d p.1 p.2 = some (d.set p.1 temp[p.2]) := by
      unfold copyByte
      rw [if_pos h1, List.getElem?_eq_getElem h2]
      rfl
    obtain ⟨r, hr, hl, hv⟩ := ih (d.set p.1 temp[p.2]) (fun q hq => by
      have := h q (List.mem_cons_of_mem _ hq)
      rwa [List.length_set])
    refine ⟨r, ?_, by rw [hl, List.length_set], ?_⟩
    · rw [List.foldlM_cons, hc]; exact hr
    · intro i
      rw [hv i, List.map_cons]
      by_cases hm : i ∈ ps.map (·.1)
      · rw [if_pos hm, if_pos (List.mem_cons_of_mem _ hm)]
      · rw [if_neg hm, List.getElem?_set]
        by_cases he : p.1 = i
        · rw [if_pos he, if_pos (he ▸ h1), if_pos (by rw [he]; exact List.mem_cons_self), ← he, ← h3,
            List.getElem?_eq_getElem h2]
        · rw [if_neg he, if_neg]
          intro hc
          rcases List.mem_cons.mp hc with h | h
          · exact he h.symm
          · exact hm h

/-- The pairs `(column * rows + row, row * n + column)`. -/
theorem mul_add_div' (a b n : Nat) (h : b < n) : (a * n + b) / n = a ∧ (a * n + b) % n = b := by
  have hn : 0 < n := by omega
  constructor
  · rw [Nat.mul_comm, Nat.mul_add_div hn, Nat.div_eq_of_lt h, Nat.add_zero]
  · rw [Nat.mul_comm, Nat.mul_add_mod, Nat.mod_eq_of_lt h]

theorem index_lt {a b n m : Nat} (ha : a < m) (hb : b < n) : a * n + b < m * n := by
  have : (a + 1) * n ≤ m * n := Nat.mul_le_mul_right n ha
  rw [Nat.add_mul] at this
  omega

theorem transpose_spec (data : Bytes) (n : Nat) (hn : n ≠ 0) :
    ∃ r, transpose data n = some r ∧ r.length = data.length ∧
      ∀ i, r[i]? = if i < data.length / n * n then data[(i % (data.length / n)) * n + i / (data.length / n)]? else data[i]? := by
  have hle : data.length / n * n ≤ data.length := Nat.div_mul_le_self ..
  unfold transpose
  rw [if_neg hn]
  dsimp only
  generalize hrows : data.length / n = rows at hle ⊢
  rw [foldlM_pairs data (fun row c => (c * rows + row, row * n + c)) n (List.range rows) data]
  obtain ⟨r, h1, h2, h3⟩ := copy_spec data (fun i => (i % rows) * n + i / rows)
    ((List.range rows).flatMap fun row => (List.range n).map fun c => (c * rows + row, row * n + c)) data (by
      intro p hp
      obtain ⟨row, hrow, hp⟩ := List.mem_flatMap.mp hp
      obtain ⟨c, hc, rfl⟩ := List.mem_map.mp hp
      rw [List.mem_range] at hrow hc
      have a := index_lt hc hrow
      have b := index_lt hrow hc
      rw [Nat.mul_comm n rows] at a
      obtain ⟨e1, e2⟩ := mul_add_div' c row rows hrow
      exact ⟨by dsimp only; omega, by dsimp only; omega, by dsimp only; rw [e1, e2]⟩)
  refine ⟨r, h1, h2, fun i => ?_⟩
  rw [h3 i]
  by_cases hi : i < rows * n
  · rw [if_pos hi, if_pos]
    have hr : 0 < rows := by
      rcases Nat.eq_zero_or_pos rows with h | h
      · rw [h, Nat.zero_mul] at hi; omega
      · exact h
    refine List.mem_map.mpr ⟨(i / rows * rows + i % rows, i % rows * n + i / rows), List.mem_flatMap.mpr ⟨i % rows, ?_, ?_⟩, ?_⟩
    · exact List.mem_range.mpr (Nat.mod_lt _ hr)
    · refine List.mem_map.mpr ⟨i / rows, List.mem_range.mpr ?_, rfl⟩
      exact (Nat.div_lt_iff_lt_mul hr).mpr (by rw [Nat.mul_comm]; exact hi)
    · dsimp only
      rw [Nat.mul_comm]; exact Nat.div_add_mod i rows
  · rw [if_neg hi, if_neg]
    intro hm
    obtain ⟨p, hp, he⟩ := List.mem_map.mp hm
    obtain ⟨row, hrow, hp⟩ := List.mem_flatMap.mp hp
    obtain ⟨c, hc, rfl⟩ := List.mem_map.mp hp
    rw [List.mem_range] at hrow hc
    have a := index_lt hc hrow
    rw [Nat.mul_comm n rows] at a
    dsimp only at he
    omega

theorem invTranspose_spec (data : Bytes) (n : Nat) (hn : n ≠ 0) :
    ∃ r, invTranspose data n = some r ∧ r.length = data.length ∧
      ∀ i, r[i]? = if i < data.length / n * n then data[(i % n) * (data.length / n) + i / n]? else data[i]? := by
  have hle : data.length / n * n ≤ data.length := Nat.div_mul_le_self ..
  have hn0 : 0 < n := Nat.pos_of_ne_zero hn
  unfold invTranspose
  rw [if_neg hn]
  dsimp only
  generalize hrows : data.length / n = rows at hle ⊢
  rw [foldlM_pairs data (fun row c => (row * n + c, c * rows + row)) n (List.range rows) data]
  obtain ⟨r, h1, h2, h3⟩ := copy_spec data (fun i => (i % n) * rows + i / n)
    ((List.range rows).flatMap fun row => (List.range n).map fun c => (row * n + c, c * rows + row)) data (by
      intro p hp
      obtain ⟨row, hrow, hp⟩ := List.mem_flatMap.mp hp
      obtain ⟨c, hc, rfl⟩ := List.mem_map.mp hp
      rw [List.mem_range] at hrow hc
      have a := index_lt hc hrow
      have b := index_lt hrow hc
      rw [Nat.mul_comm n rows] at a
      obtain ⟨e1, e2⟩ := mul_add_div' row c n hc
      exact ⟨by dsimp only; omega, by dsimp only; omega, by dsimp only; rw [e1, e2]⟩)
  refine ⟨r, h1, h2, fun i => ?_⟩
  rw [h3 i]
  by_cases hi : i < rows * n
  · rw [if_pos hi, if_pos]
    refine List.mem_map.mpr ⟨(i / n * n + i % n, i % n * rows + i / n), List.mem_flatMap.mpr ⟨i / n, ?_, ?_⟩, ?_⟩
    · exact List.mem_range.mpr ((Nat.div_lt_iff_lt_mul hn0).mpr hi)
    · exact List.mem_map.mpr ⟨i % n, List.mem_range.mpr (Nat.mod_lt _ hn0), rfl⟩
    · dsimp only
      rw [Nat.mul_comm]; exact Nat.div_add_mod i n
  · rw [if_neg hi, if_neg]
    intro hm
    obtain ⟨p, hp, he⟩ := List.mem_map.mp hm
    obtain ⟨row, hrow, hp⟩ := List.mem_flatMap.mp hp
    obtain ⟨c, hc, rfl⟩ := List.mem_map.mp hp
    rw [List.mem_range] at hrow hc
    have a := index_lt hrow hc
    dsimp only at he
    omega

end Mdf
