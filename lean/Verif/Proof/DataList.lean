import Verif.Spec.DataList
import Verif.Spec.ReadCache
import Verif.Proof.Bits

/-! Data behind a link: lemmas. -/

set_option linter.unusedSimpArgs false

namespace Mdf

theorem range_filterMap {α : Type} (f : Nat → Option α) (e : List Nat) : ∀ l : List Nat,
    (List.range l.length).filterMap (fun i => f ((l ++ e).getD i 0)) = l.filterMap f := by
  intro l
  induction l generalizing f with
  | nil => rfl
  | cons a l ih =>
    rw [List.length_cons, List.range_succ_eq_map, List.filterMap_cons, List.filterMap_cons, List.filterMap_map]
    have e1 : ((a :: l) ++ e).getD 0 0 = a := rfl
    have e2 : ((fun i => f ((a :: l ++ e).getD i 0)) ∘ Nat.succ) = fun i => f ((l ++ e).getD i 0) := by
      funext i; rfl
    rw [e1, e2, ih]

theorem points_read {disk : Disk} {links : List Nat} {bs : List DBlk} (h : Points disk links bs) (extra : List Nat) :
    readLinkList disk links.length (links ++ extra) = bs.map .blk := by
  unfold readLinkList
  rw [range_filterMap]
  induction h with
  | nil => rfl
  | skip links bs _ ih => rw [List.filterMap_cons]; exact ih
  | cons link b links bs h0 hd _ ih =>
    have e : readLink disk link = some (.blk b) := by unfold readLink; rw [if_neg h0, hd]
    rw [List.filterMap_cons, e]
    show _ :: _ = _
    rw [ih]
    rfl

/-! The functions on trees depend on the data blocks only. -/

theorem blocksOf_blk (bs : List DBlk) : DTree.blocksOf (bs.map .blk) = bs := by
  induction bs with
  | nil => simp [DTree.blocksOf]
  | cons b bs ih => simp [DTree.blocksOf, DTree.blocks, ih]

mutual
theorem dataSize_blocks : ∀ t : DTree, t.dataSize = (t.blocks.map (·.size)).sum
  | .blk b => by simp [DTree.dataSize, DTree.blocks]
  | .list l => by rw [DTree.dataSize, DTree.blocks]; exact sizes_blocks l
theorem sizes_blocks : ∀ l : List DTree, DTree.sizes l = ((DTree.blocksOf l).map (·.size)).sum
  | [] => by simp [DTree.sizes, DTree.blocksOf]
  | t :: ts => by rw [DTree.sizes, DTree.blocksOf, List.map_append, List.sum_append, dataSize_blocks t, sizes_blocks ts]
end

mutual
theorem isRd_blocks : ∀ t : DTree, t.isRd = t.blocks.any (·.kind == .rd)
  | .blk b => by simp [DTree.isRd, DTree.blocks]
  | .list l => by rw [DTree.isRd, DTree.blocks]; exact anyRd_blocks l
theorem anyRd_blocks : ∀ l : List DTree, DTree.anyRd l = (DTree.blocksOf l).any (·.kind == .rd)
  | [] => by simp [DTree.anyRd, DTree.blocksOf]
  | t :: ts => by rw [DTree.anyRd, DTree.blocksOf, List.any_append, isRd_blocks t, anyRd_blocks ts]
end

/-- Copying the data blocks one after the other. -/
def copyBlocks : List DBlk → (dest : Bytes) → (idx : Nat) → Out (Bytes × Nat)
  | [], dest, idx => .ok (dest, idx)
  | b :: bs, dest, idx => (b.copy dest idx).bind fun r => copyBlocks bs r.1 r.2

theorem outBind_ok {α : Type} (x : Out α) : (x.bind fun r => .ok r) = x := by cases x <;> rfl

theorem copyBlocks_append (bs cs : List DBlk) : ∀ dest idx,
    copyBlocks (bs ++ cs) dest idx = (copyBlocks bs dest idx).bind fun r => copyBlocks cs r.1 r.2 := by
  induction bs with
  | nil => intro dest idx; rfl
  | cons b bs ih =>
    intro dest idx
    show (b.copy dest idx).bind _ = ((b.copy dest idx).bind _).bind _
    cases b.copy dest idx with
    | ub => rfl
    | throw => rfl
    | ok r => exact ih r.1 r.2

mutual
theorem copy_blocks : ∀ (t : DTree) (dest : Bytes) (idx : Nat), t.copy dest idx = copyBlocks t.blocks dest idx
  | .blk b, dest, idx => by
    rw [DTree.copy, DTree.blocks, copyBlocks]
    exact (outBind_ok _).symm
  | .list l, dest, idx => by rw [DTree.copy, DTree.blocks]; exact copyAll_blocks l dest idx
theorem copyAll_blocks : ∀ (l : List DTree) (dest : Bytes) (idx : Nat), DTree.copyAll l dest idx = copyBlocks (DTree.blocksOf l) dest idx
  | [], dest, idx => by simp [DTree.copyAll, DTree.blocksOf, copyBlocks]
  | t :: ts, dest, idx => by
    rw [DTree.copyAll, DTree.blocksOf, copyBlocks_append, copy_blocks t]
    cases copyBlocks t.blocks dest idx with
    | ub => rfl
    | throw => rfl
    | ok r => exact copyAll_blocks ts r.1 r.2
end

/-! Following the links. -/

theorem chain_read {disk : Disk} {ld : Bool} {link : Nat} {bs is : List DBlk} (h : Lists disk ld link bs is) :
    ∃ n t, DTree.blocksOf t = bs ∧ ∀ fuel, n ≤ fuel → dlChain disk ld fuel link = .done t := by
  induction h with
  | nil =>
    refine ⟨0, [], by simp [DTree.blocksOf], fun fuel _ => ?_⟩
    cases fuel <;> rfl
  | cons link next values invalid bs bs' is is' h0 hd hv _ _ _ ih =>
    obtain ⟨n, t, ht, hr⟩ := ih
    refine ⟨n + 1, .list (bs.map .blk) :: t, ?_, fun fuel hf => ?_⟩
    · rw [DTree.blocksOf, DTree.blocks, blocksOf_blk, ht]
    · obtain ⟨f, rfl⟩ : ∃ f, fuel = f + 1 := ⟨fuel - 1, by omega⟩
      rw [dlChain, if_neg h0, hd]
      show (if ld = ld then _ else _) = _
      rw [if_pos rfl, hr f (by omega), points_read hv]
      rfl

theorem lists_disk {disk : Disk} {ld : Bool} {link : Nat} {bs is : List DBlk} (h : Lists disk ld link bs is) (h0 : link ≠ 0) :
    ∃ next nof links, disk link = .list ld next nof links := by
  cases h with
  | nil => exact absurd rfl h0
  | cons _ next values invalid bs bs' is is' _ hd _ _ _ _ => exact ⟨next, _, _, hd⟩

theorem behind_list {disk : Disk} {ld : Bool} {link : Nat} {bs is : List DBlk} (h : Lists disk ld link bs is) (h0 : link ≠ 0) :
    ∃ n t, DTree.blocksOf t = bs ∧ ∀ fuel, n ≤ fuel → readBlockList disk fuel link = .done t := by
  obtain ⟨n, t, ht, hr⟩ := chain_read h
  obtain ⟨next, nof, links, hd⟩ := lists_disk h h0
  refine ⟨n + 1, t, ht, fun fuel hf => ?_⟩
  obtain ⟨f, rfl⟩ : ∃ f, fuel = f + 1 := ⟨fuel - 1, by omega⟩
  rw [readBlockList, if_neg h0, hd]
  exact hr (f + 1) (by omega)

theorem behind_read {disk : Disk} {link : Nat} {bs is : List DBlk} (h : Behind disk link bs is) :
    ∃ n t, DTree.blocksOf t = bs ∧ ∀ fuel, n ≤ fuel → readBlockList disk fuel link = .done t := by
  cases h with
  | none =>
    refine ⟨0, [], by simp [DTree.blocksOf], fun fuel _ => ?_⟩
    cases fuel <;> rfl
  | block link b h0 hd =>
    refine ⟨1, [.blk b], by simp [DTree.blocksOf, DTree.blocks], fun fuel hf => ?_⟩
    obtain ⟨f, rfl⟩ : ∃ f, fuel = f + 1 := ⟨fuel - 1, by omega⟩
    rw [readBlockList, if_neg h0, hd]
  | list link ld bs is h0 hl => exact behind_list hl h0
  | hl link first ld bs is h0 h1 hd hl =>
    obtain ⟨n, t, ht, hr⟩ := behind_list hl h1
    refine ⟨n + 1, [.list t], by simp [DTree.blocksOf, DTree.blocks, ht], fun fuel hf => ?_⟩
    obtain ⟨f, rfl⟩ : ∃ f, fuel = f + 1 := ⟨fuel - 1, by omega⟩
    rw [readBlockList, if_neg h0, hd]
    show ListRead.map _ _ = _
    rw [hr f (by omega)]
    rfl

/-! Copying complete blocks. -/

theorem content_length {b : DBlk} (h : b.Complete) : b.content.length = b.size := by
  unfold DBlk.Complete at h
  unfold DBlk.content
  rw [List.length_take]
  by_cases hz : b.dz = true
  · rw [if_pos hz] at h; omega
  · rw [if_neg hz] at h; omega

theorem dz_content {b : DBlk} (h : b.Complete) (hz : b.dz = true) : (b.avail ++ List.replicate b.size 0).take b.size = b.content := by
  unfold DBlk.Complete at h
  rw [if_pos hz] at h
  unfold DBlk.content
  rw [List.take_append_of_le_length (by omega)]

theorem copy_complete {b : DBlk} (h : b.Complete) (dest : Bytes) (idx : Nat) (hd : idx + b.size ≤ dest.length) :
    b.copy dest idx = .ok (dlPut dest idx b.content, idx + b.size) := by
  have hl := content_length h
  unfold DBlk.copy
  by_cases h0 : b.size = 0
  · have e : b.content = [] := List.length_eq_zero_iff.mp (by omega)
    rw [if_pos h0, e, h0]
    unfold dlPut
    simp
  · rw [if_neg h0]
    by_cases hz : b.dz = true
    · rw [if_pos hz, if_neg (by omega), dz_content h hz]
    · rw [if_neg hz, if_neg (by omega)]
      show Out.ok (dlPut dest idx b.content, idx + b.content.length) = _
      rw [hl]

theorem dlPut_length (dest : Bytes) (idx : Nat) (bytes : Bytes) (h : idx + bytes.length ≤ dest.length) :
    (dlPut dest idx bytes).length = dest.length := by
  unfold dlPut
  simp only [List.length_append, List.length_take, List.length_drop]
  omega

theorem contents_length (bs : List DBlk) (h : ∀ b ∈ bs, b.Complete) : (contents bs).length = (bs.map (·.size)).sum := by
  induction bs with
  | nil => rfl
  | cons b bs ih =>
    have e : contents (b :: bs) = b.content ++ contents bs := by unfold contents; rw [List.flatMap_cons]
    rw [e, List.length_append, ih (fun c hc => h c (List.mem_cons_of_mem _ hc)), content_length (h b List.mem_cons_self),
      List.map_cons, List.sum_cons]

theorem dlPut_putAt (dest : Bytes) (idx : Nat) (a c : Bytes) (h : idx + a.length + c.length ≤ dest.length) :
    dlPut (dlPut dest idx a) (idx + a.length) c = dlPut dest idx (a ++ c) := by
  have e1 : (dest.take idx ++ a).length = idx + a.length := by
    rw [List.length_append, List.length_take]; omega
  unfold dlPut
  rw [List.take_left' e1, List.drop_append, e1,
    List.drop_eq_nil_of_le (by omega : (dest.take idx ++ a).length ≤ idx + a.length + c.length),
    List.nil_append, List.drop_drop, List.length_append]
  simp only [List.append_assoc]
  congr 4
  omega

theorem copyBlocks_complete (bs : List DBlk) (h : ∀ b ∈ bs, b.Complete) : ∀ dest idx, idx + (contents bs).length ≤ dest.length →
    copyBlocks bs dest idx = .ok (dlPut dest idx (contents bs), idx + (contents bs).length) := by
  induction bs with
  | nil =>
    intro dest idx _
    unfold dlPut contents
    simp [copyBlocks]
  | cons b bs ih =>
    intro dest idx hd
    have e : contents (b :: bs) = b.content ++ contents bs := by unfold contents; rw [List.flatMap_cons]
    have hl := content_length (h b List.mem_cons_self)
    rw [e, List.length_append] at hd
    rw [copyBlocks, copy_complete (h b List.mem_cons_self) dest idx (by omega)]
    show copyBlocks bs (dlPut dest idx b.content) (idx + b.size) = _
    have hp := dlPut_length dest idx b.content (by omega)
    rw [ih (fun c hc => h c (List.mem_cons_of_mem _ hc)) _ _ (by omega), e, ← hl, dlPut_putAt _ _ _ _ (by omega), List.length_append,
      Nat.add_assoc]

theorem dlPut_all (dest bytes : Bytes) (h : bytes.length = dest.length) : dlPut dest 0 bytes = bytes := by
  unfold dlPut
  rw [List.take_zero, List.nil_append, Nat.zero_add, h, List.drop_length, List.append_nil]

theorem readListData_complete (l : List DTree) (h : ∀ b ∈ DTree.blocksOf l, b.Complete) :
    readListData l = .ok (contents (DTree.blocksOf l)) := by
  have hl := contents_length _ h
  have hs := sizes_blocks l
  unfold readListData
  by_cases h0 : l.isEmpty = true ∨ DTree.sizes l = 0
  · rw [if_pos h0]
    have : DTree.sizes l = 0 := by
      rcases h0 with h0 | h0
      · rw [List.isEmpty_iff.mp h0]; simp [DTree.sizes]
      · exact h0
    rw [List.length_eq_zero_iff.mp (by omega : (contents (DTree.blocksOf l)).length = 0)]
  · rw [if_neg h0, copyAll_blocks, copyBlocks_complete _ h _ _ (by rw [List.length_replicate]; omega)]
    show Out.ok (dlPut _ 0 _) = _
    rw [dlPut_all _ _ (by rw [List.length_replicate]; omega)]

theorem toBlk_holds (bs : List DBlk) (h : ∀ b ∈ bs, b.Complete) (hne : ∀ b ∈ bs, b.size ≠ 0) : Holds (bs.map DBlk.toBlk) (contents bs) := by
  have e : ∀ b ∈ bs, b.toBlk.data = b.content := by
    intro b hb
    unfold DBlk.toBlk
    by_cases hz : b.dz = true
    · rw [if_pos hz]; exact dz_content (h b hb) hz
    · rw [if_neg hz]; rfl
  refine ⟨?_, ?_⟩
  · intro c hc
    obtain ⟨b, hb, rfl⟩ := List.mem_map.mp hc
    intro h0
    rw [e b hb] at h0
    have := content_length (h b hb)
    rw [h0] at this
    exact hne b hb this.symm
  · unfold contents
    rw [List.flatMap_map]
    induction bs with
    | nil => rfl
    | cons b bs ih =>
      rw [List.flatMap_cons, List.flatMap_cons, e b List.mem_cons_self, ih (fun c hc => h c (List.mem_cons_of_mem _ hc))
        (fun c hc => hne c (List.mem_cons_of_mem _ hc)) (fun c hc => e c (List.mem_cons_of_mem _ hc))]

/-! ### Sample reductions -/

theorem flatMap_slice {α : Type} (f : α → Bytes) (n : Nat) : ∀ (l : List α) (_ : ∀ a ∈ l, (f a).length = n) (k : Nat) (hk : k < l.length)
    (rest : Bytes), ((l.flatMap f ++ rest).drop (k * n)).take n = f l[k] := by
  intro l
  induction l with
  | nil => intro _ k hk; exact absurd hk (Nat.not_lt_zero _)
  | cons a l ih =>
    intro h k hk rest
    have ha := h a List.mem_cons_self
    rw [List.flatMap_cons, List.append_assoc]
    cases k with
    | zero =>
      rw [Nat.zero_mul, List.drop_zero, List.take_left' ha]
      rfl
    | succ k =>
      have e : (k + 1) * n = (f a).length + k * n := by rw [ha, Nat.add_mul, Nat.one_mul, Nat.add_comm]
      rw [e, ← List.drop_drop, List.drop_left' rfl, ih (fun b hb => h b (List.mem_cons_of_mem _ hb)) k (by simpa using hk) rest]
      rfl

theorem flatMap_len {α : Type} (f : α → Bytes) (n : Nat) (l : List α) (h : ∀ a ∈ l, (f a).length = n) :
    (l.flatMap f).length = l.length * n := by
  induction l with
  | nil => simp
  | cons a l ih =>
    rw [List.flatMap_cons, List.length_append, h a List.mem_cons_self, ih (fun b hb => h b (List.mem_cons_of_mem _ hb)),
      List.length_cons, Nat.add_mul, Nat.one_mul, Nat.add_comm]

theorem srRecs_length (rows : List SrRow) : (srRecs rows).length = rows.length * 3 := by
  unfold srRecs
  induction rows with
  | nil => rfl
  | cons r rows ih => simp [List.flatMap_cons, ih]; omega

theorem srRecs_get (rows : List SrRow) : ∀ (i : Nat) (h : i < rows.length) (k : Nat) (_ : k < 3),
    (srRecs rows)[i * 3 + k]? = some (if k = 0 then rows[i].mean else if k = 1 then rows[i].min else rows[i].max) := by
  induction rows with
  | nil => intro i h; exact absurd h (Nat.not_lt_zero _)
  | cons r rows ih =>
    intro i h k hk
    have e : srRecs (r :: rows) = r.mean :: r.min :: r.max :: srRecs rows := rfl
    rw [e]
    cases i with
    | zero =>
      obtain rfl | rfl | rfl : k = 0 ∨ k = 1 ∨ k = 2 := by omega
      all_goals rfl
    | succ i =>
      have e2 : (i + 1) * 3 + k = (i * 3 + k) + 1 + 1 + 1 := by omega
      rw [e2, List.getElem?_cons_succ, List.getElem?_cons_succ, List.getElem?_cons_succ, ih i (by simpa using h) k hk]
      rfl

theorem srCopy_in (data : Bytes) (pos n off : Nat) (buffer : Bytes) (hp : pos < 2 ^ 31) (h : pos + n ≤ data.length)
    (hn : n < 2 ^ 62) : srCopy data pos n off buffer = some (dlPut buffer off ((data.drop pos).take n)) := by
  unfold srCopy
  rw [toInt32_of_lt hp]
  have e : (((pos : Int) + n) % (2 ^ 64 : Int)).toNat = pos + n := by omega
  rw [e, if_pos h, if_neg (by omega)]
  rfl

theorem srCopy_out (data : Bytes) (pos n off : Nat) (buffer : Bytes) (hp : pos < 2 ^ 31) (h : data.length < pos + n)
    (hn : n < 2 ^ 62) : srCopy data pos n off buffer = some buffer := by
  unfold srCopy
  rw [toInt32_of_lt hp]
  have e : (((pos : Int) + n) % (2 ^ 64 : Int)).toNat = pos + n := by omega
  rw [e, if_neg (by omega)]

/-- The three records of a sample in row order. -/
theorem value_rd {β : Type} (get : Bytes → β) (rows : List SrRow) (nd ni nof : Nat)
    (hrows : ∀ r ∈ srRecs rows, r.values.length = nd ∧ r.invalid.length = ni) (hpos : 0 < nd + ni)
    (hsize : ((srRecs rows).flatMap ColRec.row).length ≤ 2 ^ 31) (i : Nat) (hi : i < rows.length) :
    (SrState.mk nd ni nof ((srRecs rows).flatMap ColRec.row) true).value get i =
      some (some (get rows[i].mean.row, get rows[i].min.row, get rows[i].max.row)) := by
  have hl : ∀ r ∈ srRecs rows, r.row.length = nd + ni := by
    intro r hr; unfold ColRec.row; rw [List.length_append, (hrows r hr).1, (hrows r hr).2]
  have hlen := flatMap_len ColRec.row (nd + ni) _ hl
  have hn := srRecs_length rows
  have part : ∀ (k : Nat) (hk : k < 3) (buffer : Bytes), buffer.length = nd + ni →
      (SrState.mk nd ni nof ((srRecs rows).flatMap ColRec.row) true).part i k buffer =
        some (if k = 0 then rows[i].mean else if k = 1 then rows[i].min else rows[i].max).row := by
    intro k hk buffer hb
    have hk2 : i * 3 + k < (srRecs rows).length := by omega
    have e : i * 3 * (nd + ni) + k * (nd + ni) = (i * 3 + k) * (nd + ni) := by rw [Nat.add_mul (i * 3)]
    have hle : (i * 3 + k) * (nd + ni) + (nd + ni) ≤ ((srRecs rows).flatMap ColRec.row).length := by
      rw [hlen]
      calc (i * 3 + k) * (nd + ni) + (nd + ni) = (i * 3 + k + 1) * (nd + ni) := by rw [Nat.add_mul (i * 3 + k) 1, Nat.one_mul]
        _ ≤ _ := Nat.mul_le_mul_right _ hk2
    have hs := flatMap_slice ColRec.row (nd + ni) _ hl (i * 3 + k) hk2 []
    rw [List.append_nil] at hs
    have hg := srRecs_get rows i hi k hk
    rw [List.getElem?_eq_getElem hk2, Option.some.injEq] at hg
    unfold SrState.part
    rw [if_pos rfl]
    show srCopy _ (i * 3 * (nd + ni) + k * (nd + ni)) (nd + ni) 0 buffer = _
    rw [e, srCopy_in _ _ _ _ _ (by omega) hle (by omega), hs, hg]
    rw [dlPut_all]
    rw [← hg, hl _ (List.getElem_mem hk2), hb]
  have hrow : ∀ (k : Nat), k < 3 → (if k = 0 then rows[i].mean else if k = 1 then rows[i].min else rows[i].max).row.length = nd + ni := by
    intro k hk
    have hk2 : i * 3 + k < (srRecs rows).length := by omega
    have hg := srRecs_get rows i hi k hk
    rw [List.getElem?_eq_getElem hk2, Option.some.injEq] at hg
    rw [← hg]
    exact hl _ (List.getElem_mem hk2)
  have hne : (srRecs rows).flatMap ColRec.row ≠ [] := by
    intro h0
    rw [h0] at hlen
    have : 0 < (srRecs rows).length * (nd + ni) := Nat.mul_pos (by omega) hpos
    rw [← hlen] at this
    exact absurd this (Nat.lt_irrefl _)
  unfold SrState.value
  rw [if_neg (by rintro (h | h); exact hne h; have : nd + ni = 0 := h; omega)]
  rw [part 0 (by omega) _ (by rw [List.length_replicate])]
  rw [Option.bind_eq_bind, Option.bind_some, part 1 (by omega) _ (hrow 0 (by omega))]
  rw [Option.bind_some, part 2 (by omega) _ (hrow 1 (by omega)), Option.bind_some]
  rfl

theorem dlPut_front (v w z : Bytes) (h : v.length = w.length) : dlPut (v ++ z) 0 w = w ++ z := by
  unfold dlPut
  rw [List.take_zero, List.nil_append, Nat.zero_add, List.drop_left' h]

/-- The values of the three records of a sample in column order, without the invalidation bytes. -/
theorem value_rv {β : Type} (get : Bytes → β) (rows : List SrRow) (nd ni : Nat)
    (hrows : ∀ r ∈ srRecs rows, r.values.length = nd ∧ r.invalid.length = ni) (hpos : 0 < nd)
    (hsize : ((srRecs rows).flatMap ColRec.values).length + rows.length * 3 * ni ≤ 2 ^ 31) (i : Nat) (hi : i < rows.length) :
    (SrState.mk nd ni rows.length ((srRecs rows).flatMap ColRec.values) false).value get i =
      some (some (get (rows[i].mean.values ++ List.replicate ni 0), get (rows[i].min.values ++ List.replicate ni 0),
        get (rows[i].max.values ++ List.replicate ni 0))) := by
  have hl : ∀ r ∈ srRecs rows, r.values.length = nd := fun r hr => (hrows r hr).1
  have hlen := flatMap_len ColRec.values nd _ hl
  have hn := srRecs_length rows
  have part : ∀ (k : Nat) (hk : k < 3) (v : Bytes), v.length = nd →
      (SrState.mk nd ni rows.length ((srRecs rows).flatMap ColRec.values) false).part i k (v ++ List.replicate ni 0) =
        some ((if k = 0 then rows[i].mean else if k = 1 then rows[i].min else rows[i].max).values ++ List.replicate ni 0) := by
    intro k hk v hv
    have hk2 : i * 3 + k < (srRecs rows).length := by omega
    have e : i * 3 * nd + k * nd = (i * 3 + k) * nd := by rw [Nat.add_mul (i * 3)]
    have hle : (i * 3 + k) * nd + nd ≤ ((srRecs rows).flatMap ColRec.values).length := by
      rw [hlen]
      calc (i * 3 + k) * nd + nd = (i * 3 + k + 1) * nd := by rw [Nat.add_mul (i * 3 + k) 1, Nat.one_mul]
        _ ≤ _ := Nat.mul_le_mul_right _ hk2
    have hs := flatMap_slice ColRec.values nd _ hl (i * 3 + k) hk2 []
    rw [List.append_nil] at hs
    have hg := srRecs_get rows i hi k hk
    rw [List.getElem?_eq_getElem hk2, Option.some.injEq] at hg
    have hi3 : (i * 3 + k + 1) * ni ≤ rows.length * 3 * ni := Nat.mul_le_mul_right _ (by omega)
    rw [Nat.add_mul, Nat.one_mul, Nat.add_mul] at hi3
    have hgl : (srRecs rows)[i * 3 + k].values.length = nd := hl _ (List.getElem_mem hk2)
    unfold SrState.part
    rw [if_neg (by simp)]
    simp only []
    rw [e, srCopy_in _ _ _ _ _ (by omega) hle (by omega), hs, dlPut_front _ _ _ (by rw [hv, hgl]), hg, Option.bind_eq_bind, Option.bind_some]
    by_cases h0 : ni = 0
    · subst h0
      have e2 : rows.length * 3 * nd + i * 3 * 0 + k * 0 = ((srRecs rows).flatMap ColRec.values).length := by
        rw [hlen, hn]; omega
      rw [e2]
      by_cases hlt : ((srRecs rows).flatMap ColRec.values).length < 2 ^ 31
      · rw [srCopy_in _ _ _ _ _ hlt (by omega) (by omega)]
        unfold dlPut
        simp
      · have hx : ((srRecs rows).flatMap ColRec.values).length = 2 ^ 31 := by omega
        unfold srCopy
        rw [hx, if_neg (by decide)]
    · rw [srCopy_out]
      · rw [hlen, hn] at hsize; omega
      · rw [hlen, hn]; omega
      · omega
  have hrow : ∀ (k : Nat), k < 3 → (if k = 0 then rows[i].mean else if k = 1 then rows[i].min else rows[i].max).values.length = nd := by
    intro k hk
    have hk2 : i * 3 + k < (srRecs rows).length := by omega
    have hg := srRecs_get rows i hi k hk
    rw [List.getElem?_eq_getElem hk2, Option.some.injEq] at hg
    rw [← hg]
    exact hl _ (List.getElem_mem hk2)
  have hne : (srRecs rows).flatMap ColRec.values ≠ [] := by
    intro h0
    rw [h0] at hlen
    have : 0 < (srRecs rows).length * nd := Nat.mul_pos (by omega) hpos
    rw [← hlen] at this
    exact absurd this (Nat.lt_irrefl _)
  unfold SrState.value
  rw [if_neg (by rintro (h | h); exact hne h; have : nd + ni = 0 := h; omega)]
  rw [← List.replicate_append_replicate, part 0 (by omega) _ (by rw [List.length_replicate])]
  rw [Option.bind_eq_bind, Option.bind_some, part 1 (by omega) _ (hrow 0 (by omega))]
  rw [Option.bind_some, part 2 (by omega) _ (hrow 1 (by omega)), Option.bind_some]
  rfl

end Mdf
