import Verif.Proof.DataList
import Verif.Props.Read

/-!
# Data behind links, data stored by columns, sample reductions

C90 the data behind a link are those of its blocks, in order; C91 records stored by columns are put together; C92 mean, minimum
and maximum of a sample reduction are those stored.
-/

namespace Mdf

/-! ### Example files -/

/-- A plain data block, followed by other bytes in the file. -/
def plainBlk (k : DKind) (bytes after : Bytes) : DBlk := ⟨k, false, bytes.length, bytes ++ after⟩

/-- A compressed data block. -/
def zipBlk (k : DKind) (bytes : Bytes) : DBlk := ⟨k, true, bytes.length, bytes⟩

/-- At 8 an HL block, with DL blocks at 16 and 24. -/
def exDisk : Disk
  | 8 => .hl 16
  | 16 => .list false 24 3 [100, 0, 101]
  | 24 => .list false 0 1 [102]
  | 100 => .data (zipBlk .dt [1, 2, 3])
  | 101 => .data (plainBlk .dt [4] [0xEE, 0xEE])
  | 102 => .data (zipBlk .dt [5, 6])
  | _ => .other

theorem exBehind : Behind exDisk 8 [zipBlk .dt [1, 2, 3], plainBlk .dt [4] [0xEE, 0xEE], zipBlk .dt [5, 6]] [] := by
  refine .hl 8 16 false _ _ (by decide) (by decide) rfl ?_
  refine .cons 16 24 [100, 0, 101] [] [zipBlk .dt [1, 2, 3], plainBlk .dt [4] [0xEE, 0xEE]] [zipBlk .dt [5, 6]] [] [] (by decide) rfl
    (.cons _ _ _ _ (by decide) rfl (.skip _ _ (.cons _ _ _ _ (by decide) rfl .nil))) .nil (fun _ => rfl) ?_
  exact .cons 24 0 [102] [] [zipBlk .dt [5, 6]] [] [] [] (by decide) rfl (.cons _ _ _ _ (by decide) rfl .nil) .nil (fun _ => rfl) .nil

/-! ### C90 -/

/-- C90.  Whatever lists lead from a link to data blocks (none, a chain of DL or LD blocks, an HL block before it),
reading them ends; the blocks found for the record reader are the data blocks in the order of the links; their sizes add up to the
size given; and if the file holds them whole, the bytes copied into a buffer for signal data or reductions are the contents of the
blocks in this order. -/
theorem C90_data_behind_link (disk : Disk) (link : Nat) (bs is : List DBlk) (h : Behind disk link bs is) :
    ∃ n t, (∀ fuel, n ≤ fuel → readBlockList disk fuel link = .done t) ∧ DTree.blocksOf t = bs ∧
      DTree.sizes t = (bs.map (·.size)).sum ∧ ((∀ b ∈ bs, b.Complete) → readListData t = .ok (contents bs)) := by
  obtain ⟨n, t, ht, hr⟩ := behind_read h
  refine ⟨n, t, hr, ht, by rw [sizes_blocks, ht], fun hc => ?_⟩
  rw [readListData_complete t (by rw [ht]; exact hc), ht]

/-- C90.  The way the data are linked does not matter: two links with blocks of the same contents, in the same file or in two,
give the same bytes. -/
theorem C90_links_invisible (disk disk' : Disk) (link link' : Nat) (bs is bs' is' : List DBlk) (h : Behind disk link bs is)
    (h' : Behind disk' link' bs' is') (hc : ∀ b ∈ bs, b.Complete) (hc' : ∀ b ∈ bs', b.Complete) (he : contents bs = contents bs') :
    ∃ n t t', (∀ fuel, n ≤ fuel → readBlockList disk fuel link = .done t ∧ readBlockList disk' fuel link' = .done t') ∧
      readListData t = readListData t' := by
  obtain ⟨n, t, hr, _, _, hd⟩ := C90_data_behind_link disk link bs is h
  obtain ⟨n', t', hr', _, _, hd'⟩ := C90_data_behind_link disk' link' bs' is' h'
  exact ⟨n + n', t, t', fun fuel hf => ⟨hr fuel (by omega), hr' fuel (by omega)⟩, by rw [hd hc, hd' hc', he]⟩

/-- C90.  The records stored in the blocks behind the data link of a data group are notified as by C11. -/
theorem C90_records_found (cfg : RCfg) (hok : cfg.Ok) (hsub : ∀ g ∈ cfg.groups, cfg.subs g.id = true)
    (hcont : ∀ l, cfg.cont l = true) (recs : List Rec) (hv : ∀ r ∈ recs, cfg.ValidRec r)
    (hnof : ∀ g ∈ cfg.groups, recs.countP (·.id = g.id) ≤ g.nof) (disk : Disk) (link : Nat) (bs is : List DBlk)
    (h : Behind disk link bs is) (hc : ∀ b ∈ bs, b.Complete) (hne : ∀ b ∈ bs, b.size ≠ 0) (hb : contents bs = cfg.encode recs)
    (file : Bytes) :
    ∃ n t, ∀ fuel, n ≤ fuel → readBlockList disk fuel link = .done t ∧
      cfg.read fuel ((DTree.blocksOf t).map DBlk.toBlk) file =
        .done (recs.mapIdx fun i r => ⟨(recs.take i).countP (·.id = r.id), r.id, r.data⟩) := by
  obtain ⟨n, t, hr, ht, _⟩ := C90_data_behind_link disk link bs is h
  obtain ⟨m, hm⟩ := C11_samples_written_are_read cfg hok hsub hcont recs hv hnof (bs.map DBlk.toBlk) file
    (by rw [← hb]; exact toBlk_holds bs hc hne)
  exact ⟨n + m, t, fun fuel hf => ⟨hr fuel (by omega), by rw [ht]; exact hm fuel (by omega)⟩⟩

/-- C90, limit.  If the chain of list blocks never ends, because it leads back to one of its blocks, the reading never ends. -/
theorem C90_cycle_never_ends (disk : Disk) (ld : Bool) (S : Nat → Prop)
    (hS : ∀ l, S l → l ≠ 0 ∧ ∃ next nof links, disk l = .list ld next nof links ∧ S next) (link : Nat) (h : S link) (fuel : Nat) :
    readBlockList disk fuel link = .running := by
  have key : ∀ fuel l, S l → dlChain disk ld fuel l = .running := by
    intro fuel
    induction fuel with
    | zero => intro l hl; rw [dlChain, if_neg (hS l hl).1]
    | succ fuel ih =>
      intro l hl
      obtain ⟨h0, next, nof, links, hd, hn⟩ := hS l hl
      rw [dlChain, if_neg h0, hd]
      show (if ld = ld then _ else _) = _
      rw [if_pos rfl, ih next hn]
      rfl
  cases fuel with
  | zero => rw [readBlockList, if_neg (hS link h).1]
  | succ fuel =>
    obtain ⟨h0, next, nof, links, hd, hn⟩ := hS link h
    rw [readBlockList, if_neg h0, hd]
    exact key (fuel + 1) link h

/-- C90, limit.  If the file ends in the last block, the missing bytes are zeros; no error is reported. -/
theorem C90_cut_off_filled (t : List DTree) (bs : List DBlk) (b : DBlk) (ht : DTree.blocksOf t = bs ++ [b]) (hc : ∀ b ∈ bs, b.Complete)
    (hp : b.dz = false) (hs : b.avail.length < b.size) :
    readListData t = .ok (contents bs ++ b.avail ++ List.replicate (b.size - b.avail.length) 0) := by
  have hz : DTree.sizes t = (contents bs).length + b.size := by
    rw [sizes_blocks, ht, List.map_append, List.sum_append, contents_length bs hc]; simp
  have hne : t.isEmpty = false := by
    cases t with
    | nil => rw [DTree.blocksOf] at ht; simp at ht
    | cons => rfl
  unfold readListData
  rw [if_neg (by rw [hne]; simp only [Bool.false_eq_true, false_or]; omega), copyAll_blocks, ht, copyBlocks_append,
    copyBlocks_complete bs hc _ _ (by rw [List.length_replicate]; omega)]
  show ((copyBlocks [b] (dlPut _ 0 (contents bs)) (0 + (contents bs).length)).bind _) = _
  have e : b.copy (dlPut (List.replicate (DTree.sizes t) 0) 0 (contents bs)) (0 + (contents bs).length) =
      .ok (dlPut (dlPut (List.replicate (DTree.sizes t) 0) 0 (contents bs)) (0 + (contents bs).length) b.avail,
        0 + (contents bs).length + b.avail.length) := by
    unfold DBlk.copy
    rw [if_neg (by omega), if_neg (by simp [hp]), dlPut_length _ _ _ (by rw [List.length_replicate]; omega), List.length_replicate,
      if_neg (by omega), List.take_of_length_le (by omega)]
  rw [copyBlocks, e]
  show Out.ok (dlPut (dlPut _ _ _) _ _) = _
  rw [dlPut_putAt _ _ _ _ (by rw [List.length_replicate]; omega)]
  unfold dlPut
  rw [List.take_zero, List.nil_append, List.drop_replicate, List.length_append]
  congr 3
  omega

example : ∃ t, readBlockList exDisk 5 8 = .done t ∧ readListData t = .ok [1, 2, 3, 4, 5, 6] ∧
    contents [zipBlk .dt [1, 2, 3], plainBlk .dt [4] [0xEE, 0xEE], zipBlk .dt [5, 6]] = [1, 2, 3, 4, 5, 6] ∧
    (∀ b ∈ [zipBlk .dt [1, 2, 3], plainBlk .dt [4] [0xEE, 0xEE], zipBlk .dt [5, 6]], b.Complete) :=
  ⟨_, rfl, by decide, by decide, by decide⟩

/-- The blocks behind a link leading to itself. -/
example : (fun l : Nat => l = 16) 16 ∧ ∀ l, (fun l : Nat => l = 16) l →
    l ≠ 0 ∧ ∃ next nof links, (fun _ => DiskBlk.list false 16 1 [100] : Disk) l = .list false next nof links ∧ next = 16 :=
  ⟨rfl, fun _ h => ⟨by rw [h]; decide, 16, 1, [100], rfl, rfl⟩⟩

/-! ### C91 -/

/-- The one channel group of a data group stored by columns. -/
def colCfg (id nd ni nof : Nat) : RCfg :=
  { idSize := 0, groups := [⟨id, false, nd + ni, nof⟩], subs := fun _ => true, cont := fun _ => true }

/-- C91 in full.  Records whose values are stored in the blocks behind the data link and whose invalidation bytes are stored in the blocks the LD
blocks have for them are all notified, each with its values and its invalidation bytes. -/
def C91_Statement : Prop :=
  ∀ (disk : Disk) (link : Nat) (bs is : List DBlk) (recs : List ColRec) (id nd ni nof : Nat) (file : Bytes),
    Behind disk link bs is → (∀ b ∈ bs ++ is, b.Complete ∧ b.size ≠ 0) → 0 < nd →
    (∀ r ∈ recs, r.values.length = nd ∧ r.invalid.length = ni) → recs.length ≤ nof →
    contents bs = recs.flatMap ColRec.values → contents is = recs.flatMap ColRec.invalid →
    ∃ n t, ∀ fuel, n ≤ fuel → readBlockList disk fuel link = .done t ∧
      (colCfg id nd ni nof).read fuel ((DTree.blocksOf t).map DBlk.toBlk) file = .done (recs.mapIdx fun i r => ⟨i, id, r.row⟩)

theorem colCfg_ok (id nd ni nof : Nat) (h : 0 < nd) : (colCfg id nd ni nof).Ok :=
  ⟨by simp [colCfg], Or.inl rfl, fun h0 => absurd rfl h0, fun _ => rfl, by
    intro _ g hg _
    obtain rfl : g = ⟨id, false, nd + ni, nof⟩ := by simpa [colCfg] using hg
    show 0 < nd + ni
    omega⟩

theorem colCfg_group (id nd ni nof : Nat) : (colCfg id nd ni nof).group id = some ⟨id, false, nd + ni, nof⟩ := by
  unfold RCfg.group colCfg
  rw [List.find?_cons]
  simp

/-- C91, the part that holds: records without invalidation bytes. -/
theorem C91_columns_partial (disk : Disk) (link : Nat) (bs is : List DBlk) (recs : List ColRec) (id nd nof : Nat) (file : Bytes)
    (h : Behind disk link bs is) (hc : ∀ b ∈ bs, b.Complete ∧ b.size ≠ 0) (hnd : 0 < nd)
    (hr : ∀ r ∈ recs, r.values.length = nd ∧ r.invalid = []) (hn : recs.length ≤ nof) (hb : contents bs = recs.flatMap ColRec.values) :
    ∃ n t, ∀ fuel, n ≤ fuel → readBlockList disk fuel link = .done t ∧
      (colCfg id nd 0 nof).read fuel ((DTree.blocksOf t).map DBlk.toBlk) file = .done (recs.mapIdx fun i r => ⟨i, id, r.row⟩) := by
  have hrow : ∀ r ∈ recs, r.row = r.values := fun r hr' => by unfold ColRec.row; rw [(hr r hr').2, List.append_nil]
  have key := C90_records_found (colCfg id nd 0 nof) (colCfg_ok id nd 0 nof hnd) (fun _ _ => rfl) (fun _ => rfl)
    (recs.map fun r => ⟨id, r.row⟩)
    (by
      intro r hr'
      obtain ⟨c, hc', rfl⟩ := List.mem_map.mp hr'
      exact ⟨_, colCfg_group id nd 0 nof, by rw [if_neg (by simp)]; show c.row.length = nd; rw [hrow c hc', (hr c hc').1]⟩)
    (by
      intro g hg
      obtain rfl : g = ⟨id, false, nd + 0, nof⟩ := by simpa [colCfg] using hg
      refine Nat.le_trans List.countP_le_length ?_
      rw [List.length_map]; exact hn)
    disk link bs is h (fun b hb' => (hc b hb').1) (fun b hb' => (hc b hb').2)
    (by
      rw [hb]
      unfold RCfg.encode
      rw [List.flatMap_map]
      have e : ∀ l : List ColRec, (∀ r ∈ l, r.row = r.values) → l.flatMap ColRec.values =
          l.flatMap fun r => encodeRec (colCfg id nd 0 nof).idSize
            ((((colCfg id nd 0 nof).group (Rec.mk id r.row).id).map (·.vlsd)).getD false) ⟨id, r.row⟩ := by
        intro l hl
        induction l with
        | nil => rfl
        | cons a l ih =>
          rw [List.flatMap_cons, List.flatMap_cons, ih (fun r hr' => hl r (List.mem_cons_of_mem _ hr')), colCfg_group,
            ← hl a List.mem_cons_self]
          rfl
      exact e recs hrow)
    file
  obtain ⟨n, t, hk⟩ := key
  refine ⟨n, t, fun fuel hf => ⟨(hk fuel hf).1, ?_⟩⟩
  rw [(hk fuel hf).2, Run.done.injEq]
  refine List.ext_getElem (by simp) fun i h1 h2 => ?_
  simp only [List.length_mapIdx, List.length_map] at h1
  rw [List.getElem_mapIdx, List.getElem_mapIdx]
  simp only [List.getElem_map, Event.mk.injEq, and_true]
  rw [← List.map_take, List.countP_map]
  show List.countP (fun _ => decide (id = id)) _ = i
  simp
  omega

/-- Two records of one value byte and one invalidation byte: at 8 an LD block with the values at 100 and the invalidation bytes at 101. -/
def exColumns : Disk
  | 8 => .list true 0 1 [100, 101]
  | 100 => .data (plainBlk .dv [0x11, 0x22] [])
  | 101 => .data (plainBlk .di [0, 1] [])
  | _ => .other

theorem exColumns_behind : Behind exColumns 8 [plainBlk .dv [0x11, 0x22] []] [plainBlk .di [0, 1] []] :=
  .list 8 true _ _ (by decide) (.cons 8 0 [100] [101] [plainBlk .dv [0x11, 0x22] []] [] [plainBlk .di [0, 1] []] [] (by decide) rfl
    (.cons _ _ _ _ (by decide) rfl .nil) (.cons _ _ _ _ (by decide) rfl .nil) (fun h => absurd h (by decide)) .nil)

/-- C91, finding.  The links to invalidation bytes are never followed, but each record is read with them: of the two records `11 | 00`, `22 | 01` one
is notified, with the value of the second one as its invalidation byte. -/
theorem C91_values_taken_for_invalidation : ∀ fuel, 2 ≤ fuel → ∃ t, readBlockList exColumns fuel 8 = .done t ∧
    (colCfg 0 1 1 2).read fuel ((DTree.blocksOf t).map DBlk.toBlk) [] = .done [⟨0, 0, [0x11, 0x22]⟩] := by
  intro fuel hf
  obtain ⟨f, rfl⟩ : ∃ f, fuel = f + 2 := ⟨fuel - 2, by omega⟩
  refine ⟨[.list [.blk (plainBlk .dv [0x11, 0x22] [])]], rfl, ?_⟩
  rfl

theorem C91_full_statement_fails : ¬ C91_Statement := by
  intro h
  obtain ⟨n, t, hk⟩ := h exColumns 8 _ _ [⟨[0x11], [0]⟩, ⟨[0x22], [1]⟩] 0 1 1 2 [] exColumns_behind (by decide) (by decide) (by decide)
    (by decide) (by decide) (by decide)
  obtain ⟨t', h1, h2⟩ := C91_values_taken_for_invalidation (n + 2) (by omega)
  obtain ⟨h3, h4⟩ := hk (n + 2) (by omega)
  rw [h1, ListRead.done.injEq] at h3
  rw [← h3, h2] at h4
  exact absurd h4 (by decide)

/-- Three records of two value bytes in two DV blocks. -/
def exColumns2 : Disk
  | 8 => .list true 0 2 [100, 101]
  | 100 => .data (plainBlk .dv [1, 2, 3] [])
  | 101 => .data (zipBlk .dv [4, 5, 6])
  | _ => .other

example : Behind exColumns2 8 [plainBlk .dv [1, 2, 3] [], zipBlk .dv [4, 5, 6]] [] ∧
    contents [plainBlk .dv [1, 2, 3] [], zipBlk .dv [4, 5, 6]] = [⟨[1, 2], []⟩, ⟨[3, 4], []⟩, ⟨[5, 6], []⟩].flatMap ColRec.values :=
  ⟨.list 8 true _ _ (by decide) (.cons 8 0 [100, 101] [] [plainBlk .dv [1, 2, 3] [], zipBlk .dv [4, 5, 6]] [] [] [] (by decide) rfl
    (.cons _ _ _ _ (by decide) rfl (.cons _ _ _ _ (by decide) rfl .nil)) .nil (fun _ => rfl) .nil), by decide⟩

/-! ### C92 -/

/-- The reduction is stored behind the link: row by row in RD blocks, or by columns in RV and RI blocks. -/
def SrStored (disk : Disk) (link : Nat) (rows : List SrRow) : Prop :=
  ∃ bs is, Behind disk link bs is ∧ (∀ b ∈ bs ++ is, b.Complete) ∧
    (((∀ b ∈ bs, b.kind = .rd) ∧ is = [] ∧ contents bs = (srRecs rows).flatMap ColRec.row) ∨
     ((∀ b ∈ bs, b.kind = .rv) ∧ (∀ b ∈ is, b.kind = .ri) ∧ contents bs = (srRecs rows).flatMap ColRec.values ∧
      contents is = (srRecs rows).flatMap ColRec.invalid))

/-- C92 in full.  For every reduction stored in the file, every channel of its group (`get`: what the channel reads of a record) and every interval the values
returned are those of the records stored for mean, minimum and maximum; for other intervals there is no value. -/
def C92_Statement : Prop :=
  ∀ (disk : Disk) (link : Nat) (rows : List SrRow) (nd ni : Nat), 0 < nd → SrStored disk link rows →
    (∀ r ∈ srRecs rows, r.values.length = nd ∧ r.invalid.length = ni) →
    ∃ n t s, (∀ fuel, n ≤ fuel → readBlockList disk fuel link = .done t) ∧ srRead nd ni rows.length t = .ok s ∧
      ∀ (β : Type) (get : Bytes → β) (i : Nat),
        s.value get i = some ((rows[i]?).map fun r => (get r.mean.row, get r.min.row, get r.max.row))

theorem sr_read {disk : Disk} {link : Nat} {bs is : List DBlk} (h : Behind disk link bs is) (hc : ∀ b ∈ bs, b.Complete) (nd ni nof : Nat) :
    ∃ n t, (∀ fuel, n ≤ fuel → readBlockList disk fuel link = .done t) ∧
      srRead nd ni nof t = .ok ⟨nd, ni, nof, contents bs, bs.any (·.kind == .rd)⟩ := by
  obtain ⟨n, t, hr, ht, _, hd⟩ := C90_data_behind_link disk link bs is h
  refine ⟨n, t, hr, ?_⟩
  unfold srRead
  rw [hd hc, anyRd_blocks, ht]
  rfl

theorem contents_ne {bs : List DBlk} (h : contents bs ≠ []) : bs ≠ [] := by rintro rfl; exact h rfl

/-- C92, the part that holds: reductions in RD blocks, of at most 2 GiB, for the intervals stored. -/
theorem C92_rows_partial (disk : Disk) (link : Nat) (bs : List DBlk) (rows : List SrRow) (nd ni : Nat) (hnd : 0 < nd + ni)
    (h : Behind disk link bs []) (hc : ∀ b ∈ bs, b.Complete) (hk : ∀ b ∈ bs, b.kind = .rd)
    (hb : contents bs = (srRecs rows).flatMap ColRec.row) (hrows : ∀ r ∈ srRecs rows, r.values.length = nd ∧ r.invalid.length = ni)
    (hsize : (contents bs).length ≤ 2 ^ 31) :
    ∃ n t s, (∀ fuel, n ≤ fuel → readBlockList disk fuel link = .done t) ∧ srRead nd ni rows.length t = .ok s ∧
      ∀ (β : Type) (get : Bytes → β) (i : Nat) (hi : i < rows.length),
        s.value get i = some (some (get rows[i].mean.row, get rows[i].min.row, get rows[i].max.row)) := by
  obtain ⟨n, t, hr, hs⟩ := sr_read h hc nd ni rows.length
  refine ⟨n, t, _, hr, hs, fun β get i hi => ?_⟩
  have hne : contents bs ≠ [] := by
    intro h0
    have := flatMap_len ColRec.row (nd + ni) (srRecs rows) (fun r hr' => by
      unfold ColRec.row; rw [List.length_append, (hrows r hr').1, (hrows r hr').2])
    rw [← hb, h0, srRecs_length] at this
    have h2 : 0 < rows.length * 3 * (nd + ni) := Nat.mul_pos (by omega) hnd
    rw [← this] at h2
    exact absurd h2 (Nat.lt_irrefl _)
  have hany : bs.any (·.kind == .rd) = true := by
    cases bs with
    | nil => exact absurd rfl hne
    | cons b bs => rw [List.any_cons, hk b List.mem_cons_self]; rfl
  rw [hany, hb]
  rw [hb] at hsize
  exact value_rd get rows nd ni rows.length hrows hnd hsize i hi

theorem any_rv {bs : List DBlk} (hk : ∀ b ∈ bs, b.kind = .rv) : bs.any (·.kind == .rd) = false := by
  rw [List.any_eq_false]
  intro b hb
  rw [hk b hb]
  decide

/-- C92, the part that holds: reductions in RV blocks without invalidation bytes, of at most 2 GiB, for the intervals stored. -/
theorem C92_columns_partial (disk : Disk) (link : Nat) (bs is : List DBlk) (rows : List SrRow) (nd : Nat) (hnd : 0 < nd)
    (h : Behind disk link bs is) (hc : ∀ b ∈ bs, b.Complete) (hk : ∀ b ∈ bs, b.kind = .rv)
    (hb : contents bs = (srRecs rows).flatMap ColRec.values) (hrows : ∀ r ∈ srRecs rows, r.values.length = nd ∧ r.invalid = [])
    (hsize : (contents bs).length ≤ 2 ^ 31) :
    ∃ n t s, (∀ fuel, n ≤ fuel → readBlockList disk fuel link = .done t) ∧ srRead nd 0 rows.length t = .ok s ∧
      ∀ (β : Type) (get : Bytes → β) (i : Nat) (hi : i < rows.length),
        s.value get i = some (some (get rows[i].mean.row, get rows[i].min.row, get rows[i].max.row)) := by
  obtain ⟨n, t, hr, hs⟩ := sr_read h hc nd 0 rows.length
  refine ⟨n, t, _, hr, hs, fun β get i hi => ?_⟩
  rw [any_rv hk, hb]
  rw [hb] at hsize
  rw [value_rv get rows nd 0 (fun r hr' => ⟨(hrows r hr').1, by rw [(hrows r hr').2]; rfl⟩) hnd (by omega) i hi]
  have row : ∀ k, k < 3 → ∀ r, (srRecs rows)[i * 3 + k]? = some r → r.values ++ List.replicate 0 0 = r.row := by
    intro k hk r hr'
    unfold ColRec.row
    rw [(hrows r (List.mem_of_getElem? hr')).2]
    rfl
  rw [row 0 (by omega) rows[i].mean (srRecs_get rows i hi 0 (by omega)), row 1 (by omega) rows[i].min (srRecs_get rows i hi 1 (by omega)),
    row 2 (by omega) rows[i].max (srRecs_get rows i hi 2 (by omega))]

/-- C92, finding.  Of a reduction stored by columns with invalidation bytes the latter are never read: the values are those of records
with invalidation bytes 0, whatever is stored. -/
theorem C92_invalidation_lost (disk : Disk) (link : Nat) (bs is : List DBlk) (rows : List SrRow) (nd ni : Nat) (hnd : 0 < nd)
    (h : Behind disk link bs is) (hc : ∀ b ∈ bs, b.Complete) (hk : ∀ b ∈ bs, b.kind = .rv)
    (hb : contents bs = (srRecs rows).flatMap ColRec.values) (hrows : ∀ r ∈ srRecs rows, r.values.length = nd ∧ r.invalid.length = ni)
    (hsize : (contents bs).length + rows.length * 3 * ni ≤ 2 ^ 31) :
    ∃ n t s, (∀ fuel, n ≤ fuel → readBlockList disk fuel link = .done t) ∧ srRead nd ni rows.length t = .ok s ∧
      ∀ (β : Type) (get : Bytes → β) (i : Nat) (hi : i < rows.length),
        s.value get i = some (some (get (rows[i].mean.values ++ List.replicate ni 0), get (rows[i].min.values ++ List.replicate ni 0),
          get (rows[i].max.values ++ List.replicate ni 0))) := by
  obtain ⟨n, t, hr, hs⟩ := sr_read h hc nd ni rows.length
  refine ⟨n, t, _, hr, hs, fun β get i hi => ?_⟩
  rw [any_rv hk, hb]
  rw [hb] at hsize
  exact value_rv get rows nd ni hrows hnd hsize i hi

/-- C92, finding.  With invalidation bytes 0 every channel of the group says its value is valid. -/
theorem C92_always_valid (c : Chan) (nd ni : Nat) (hnd : c.nofDataBytes = nd) (h32 : nd < 2 ^ 32) (v : Bytes) (hv : v.length = nd) (arrayIndex : Nat) :
    c.getValid (v ++ List.replicate ni 0) arrayIndex = true := by
  unfold Chan.getValid
  by_cases hf : c.invalidFlag = true
  · rw [if_pos hf]
    simp only []
    have hlt : (c.invalidPos + arrayIndex) % 2 ^ 64 / 8 < 2 ^ 61 := by omega
    have e : (c.nofDataBytes + (c.invalidPos + arrayIndex) % 2 ^ 64 / 8) % 2 ^ 64 = v.length + (c.invalidPos + arrayIndex) % 2 ^ 64 / 8 := by
      rw [hnd, hv]; omega
    rw [e, List.getElem?_append_right (by omega), Nat.add_sub_cancel_left]
    by_cases hi : (c.invalidPos + arrayIndex) % 2 ^ 64 / 8 < ni
    · rw [List.getElem?_replicate_of_lt hi]
      simp
    · rw [List.getElem?_replicate, if_neg hi]
  · rw [if_neg hf]

/-- C92, finding.  An interval beyond the last one is not rejected: the values are those of records of zeros. -/
theorem C92_beyond_end {β : Type} (s : SrState) (get : Bytes → β) (i : Nat) (hrd : s.isRd = true) (hne : s.data ≠ [])
    (hn : 0 < s.dataSize + s.invalidSize) (hend : s.data.length ≤ i * 3 * (s.dataSize + s.invalidSize))
    (hsize : (i + 1) * 3 * (s.dataSize + s.invalidSize) ≤ 2 ^ 31) :
    s.value get i = some (some (get (List.replicate (s.dataSize + s.invalidSize) 0), get (List.replicate (s.dataSize + s.invalidSize) 0),
      get (List.replicate (s.dataSize + s.invalidSize) 0))) := by
  have e : (i + 1) * 3 * (s.dataSize + s.invalidSize) = i * 3 * (s.dataSize + s.invalidSize) + 3 * (s.dataSize + s.invalidSize) := by
    rw [Nat.add_mul i 1 3, Nat.add_mul (i * 3)]
  have part : ∀ k, k < 3 → ∀ buffer, s.part i k buffer = some buffer := by
    intro k hk buffer
    have hk3 : k * (s.dataSize + s.invalidSize) ≤ 2 * (s.dataSize + s.invalidSize) := Nat.mul_le_mul_right _ (by omega)
    unfold SrState.part
    rw [if_pos hrd]
    exact srCopy_out _ _ _ _ _ (by omega) (by omega) (by omega)
  unfold SrState.value
  rw [if_neg (by rintro (h | h); exact hne h; omega), part 0 (by omega), Option.bind_eq_bind, Option.bind_some, part 1 (by omega), Option.bind_some, part 2 (by omega),
    Option.bind_some]

/-- C92, finding.  Beyond 2 GiB the positions are negative numbers and the records are not found: the values are those of records of zeros,
whatever is stored. -/
theorem C92_beyond_2GiB {β : Type} (s : SrState) (get : Bytes → β) (i : Nat) (hrd : s.isRd = true) (hne : s.data ≠ [])
    (hn : 0 < s.dataSize + s.invalidSize) (hlow : 2 ^ 31 ≤ i * 3 * (s.dataSize + s.invalidSize))
    (hhigh : (i + 1) * 3 * (s.dataSize + s.invalidSize) < 2 ^ 32) (hdata : s.data.length < 2 ^ 63) :
    s.value get i = some (some (get (List.replicate (s.dataSize + s.invalidSize) 0), get (List.replicate (s.dataSize + s.invalidSize) 0),
      get (List.replicate (s.dataSize + s.invalidSize) 0))) := by
  have e : (i + 1) * 3 * (s.dataSize + s.invalidSize) = i * 3 * (s.dataSize + s.invalidSize) + 3 * (s.dataSize + s.invalidSize) := by
    rw [Nat.add_mul i 1 3, Nat.add_mul (i * 3)]
  have part : ∀ k, k < 3 → ∀ buffer, s.part i k buffer = some buffer := by
    intro k hk buffer
    have hk3 : k * (s.dataSize + s.invalidSize) + (s.dataSize + s.invalidSize) ≤ 3 * (s.dataSize + s.invalidSize) := by
      rw [← Nat.succ_mul]
      exact Nat.mul_le_mul_right _ (by omega)
    unfold SrState.part
    rw [if_pos hrd]
    show srCopy s.data (i * 3 * (s.dataSize + s.invalidSize) + k * (s.dataSize + s.invalidSize)) (s.dataSize + s.invalidSize) 0 buffer = _
    have h1 : 2 ^ 31 ≤ i * 3 * (s.dataSize + s.invalidSize) + k * (s.dataSize + s.invalidSize) := by omega
    have h2 : i * 3 * (s.dataSize + s.invalidSize) + k * (s.dataSize + s.invalidSize) + (s.dataSize + s.invalidSize) < 2 ^ 32 := by omega
    generalize i * 3 * (s.dataSize + s.invalidSize) + k * (s.dataSize + s.invalidSize) = pos at h1 h2
    unfold srCopy
    have ht : toInt32 pos = (pos : Int) - 2 ^ 32 := by unfold toInt32 Int.bmod; simp only []; split <;> omega
    rw [ht, if_neg (by omega)]
  unfold SrState.value
  rw [if_neg (by rintro (h | h); exact hne h; omega), part 0 (by omega), Option.bind_eq_bind, Option.bind_some, part 1 (by omega), Option.bind_some, part 2 (by omega),
    Option.bind_some]

/-- C92, finding.  If a mean record starts below 4 GiB and ends at or beyond it, bytes from before the buffer are copied. -/
theorem C92_reads_before_buffer {β : Type} (s : SrState) (get : Bytes → β) (i : Nat) (hrd : s.isRd = true)
    (hlow : i * 3 * (s.dataSize + s.invalidSize) < 2 ^ 32)
    (hhigh : 2 ^ 32 ≤ i * 3 * (s.dataSize + s.invalidSize) + (s.dataSize + s.invalidSize)) (hn : s.dataSize + s.invalidSize < 2 ^ 31)
    (hdata : i * 3 * (s.dataSize + s.invalidSize) + (s.dataSize + s.invalidSize) ≤ s.data.length) : s.value get i = none := by
  have hne : s.data ≠ [] := by
    intro h0
    rw [h0] at hdata
    have : i * 3 * (s.dataSize + s.invalidSize) + (s.dataSize + s.invalidSize) ≤ 0 := hdata
    omega
  have part : s.part i 0 (List.replicate (s.dataSize + s.invalidSize) 0) = none := by
    unfold SrState.part
    rw [if_pos hrd]
    show srCopy s.data (i * 3 * (s.dataSize + s.invalidSize) + 0 * (s.dataSize + s.invalidSize)) (s.dataSize + s.invalidSize) 0 _ = _
    rw [Nat.zero_mul, Nat.add_zero]
    generalize i * 3 * (s.dataSize + s.invalidSize) = pos at hlow hhigh hdata
    unfold srCopy
    have ht : toInt32 pos = (pos : Int) - 2 ^ 32 := by unfold toInt32 Int.bmod; simp only []; split <;> omega
    rw [ht, if_pos (by omega), if_pos (by omega)]
  unfold SrState.value
  rw [if_neg (by rintro (h | h); exact hne h; omega), part]
  rfl

/-- One interval of records with one value byte and one invalidation byte; the mean is invalid. -/
def exSrRows : List SrRow := [⟨⟨[5], [1]⟩, ⟨[4], [0]⟩, ⟨[6], [0]⟩⟩]

/-- The reduction by columns (at 8) and row by row in two blocks (at 16). -/
def exSrDisk : Disk
  | 8 => .list true 0 1 [100, 101]
  | 16 => .list false 0 2 [102, 103]
  | 100 => .data (plainBlk .rv [5, 4, 6] [])
  | 101 => .data (plainBlk .ri [1, 0, 0] [])
  | 102 => .data (plainBlk .rd [5, 1, 4] [])
  | 103 => .data (zipBlk .rd [0, 6, 0])
  | _ => .other

theorem exSr_columns : Behind exSrDisk 8 [plainBlk .rv [5, 4, 6] []] [plainBlk .ri [1, 0, 0] []] :=
  .list 8 true _ _ (by decide) (.cons 8 0 [100] [101] [plainBlk .rv [5, 4, 6] []] [] [plainBlk .ri [1, 0, 0] []] [] (by decide) rfl
    (.cons _ _ _ _ (by decide) rfl .nil) (.cons _ _ _ _ (by decide) rfl .nil) (fun h => absurd h (by decide)) .nil)

theorem exSr_rows : Behind exSrDisk 16 [plainBlk .rd [5, 1, 4] [], zipBlk .rd [0, 6, 0]] [] :=
  .list 16 false _ _ (by decide) (.cons 16 0 [102, 103] [] [plainBlk .rd [5, 1, 4] [], zipBlk .rd [0, 6, 0]] [] [] [] (by decide) rfl
    (.cons _ _ _ _ (by decide) rfl (.cons _ _ _ _ (by decide) rfl .nil)) .nil (fun _ => rfl) .nil)

theorem C92_full_statement_fails : ¬ C92_Statement := by
  intro h
  obtain ⟨n, t, s, hr, hs, hv⟩ := h exSrDisk 8 exSrRows 1 1 (by decide)
    ⟨_, _, exSr_columns, by decide, Or.inr ⟨by decide, by decide, by decide, by decide⟩⟩ (by decide)
  obtain ⟨n', t', s', hr', hs', hv'⟩ := C92_invalidation_lost exSrDisk 8 _ _ exSrRows 1 1 (by decide) exSr_columns (by decide) (by decide) (by decide)
    (by decide) (by decide)
  have e1 := hr (n + n') (by omega)
  rw [hr' (n + n') (by omega), ListRead.done.injEq] at e1
  rw [← e1, hs', Out.ok.injEq] at hs
  have e2 := hv Bytes id 0
  rw [← hs, hv' Bytes id 0 (by decide)] at e2
  exact absurd e2 (by decide)

/-- The same rows are found if they are stored row by row. -/
example : contents [plainBlk .rd [5, 1, 4] [], zipBlk .rd [0, 6, 0]] = (srRecs exSrRows).flatMap ColRec.row ∧
    ∃ t s, readBlockList exSrDisk 3 16 = .done t ∧ srRead 1 1 1 t = .ok s ∧
      s.value id 0 = some (some ([5, 1], [4, 0], [6, 0])) ∧ s.value id 1 = some (some ([0, 0], [0, 0], [0, 0])) :=
  ⟨by decide, _, _, rfl, rfl, by decide, by decide⟩

/-- A reduction of 4 GiB with records of 2^28 bytes meets the hypotheses of the findings on sizes. -/
example : 2 ^ 31 ≤ 3 * 3 * (2 ^ 28 + 0) ∧ (3 + 1) * 3 * (2 ^ 28 + 0) < 2 ^ 32 ∧ 5 * 3 * (2 ^ 28 + 0) < 2 ^ 32 ∧
    2 ^ 32 ≤ 5 * 3 * (2 ^ 28 + 0) + (2 ^ 28 + 0) := by decide

end Mdf
