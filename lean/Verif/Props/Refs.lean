import Verif.Model.Refs
import Verif.Proof.Refs
import Verif.Props.Block

/-!
# References to blocks of others

C70: a reference (attachment of a channel or an event, parent of an event, element of a hierarchy, quantity of an array) leads a reader to the
block it was set to.
-/

namespace Mdf

section
variable {I : Nat → Info}

/-- The full property: after a tree of new blocks was written, every reference to a block of the tree leads to that block.  It is false,
see `C70_statement_false`. -/
def C70_Statement : Prop :=
  ∀ (I : Nat → Info) (S : FileSt) (n : Node), FileInv I S → S.data ≠ [] → NodeFresh S n → NodeShape I false n → n.ids.Nodup →
    (writeNode I S n).data.length < 2 ^ 63 →
    ∀ h ∈ n.ids, (I h).RefsOk → ∀ r ∈ (I h).refs, r.2 ∈ n.ids →
      ∃ hd rest, readHeader (writeNode I S n).data ((writeNode I S n).pos h) = some (hd, rest) ∧
        findBlock (writeNode I S n).pos n.ids (hd.links.getD r.1 0) = some r.2

theorem find_pos {S : FileSt} (hinv : FileInv I S) (hlen : S.data.length < 2 ^ 63) (order : List Nat) (t : Nat) (ht : t ∈ order) (hp : 0 < S.pos t) :
    findBlock S.pos order (S.pos t) = some t := by
  have hin := (hinv.mirror t hp).inside
  unfold findBlock validLink
  rw [if_pos (by simp only [Bool.and_eq_true, decide_eq_true_eq]; omega)]
  cases hf : order.find? (fun j => S.pos j == S.pos t) with
  | none =>
    rw [List.find?_eq_none] at hf
    exact absurd (by simp) (hf t ht)
  | some j =>
    have hj : S.pos j = S.pos t := by simpa using List.find?_some hf
    by_cases he : j = t
    · rw [he]
    · have h24 : ∀ k, 24 ≤ S.size k := fun k => by unfold FileSt.size; omega
      have := h24 j
      have := h24 t
      rcases hinv.disjoint j t he (by omega) hp with h | h <;> omega

theorem find_zero (pos : Nat → Nat) (order : List Nat) : findBlock pos order 0 = none := rfl

/-- The link of a block in the file, as a reader sees it. -/
theorem link_in_file {S : FileSt} (hinv : FileInv I S) (hlen : S.data.length < 2 ^ 63) (h : Nat) (hp : 0 < S.pos h) (hty : TypeOk (I h).ty) (i : Nat) :
    ∃ hd rest, readHeader S.data (S.pos h) = some (hd, rest) ∧ hd.links.getD i 0 = S.link h i % 2 ^ 64 := by
  have hm := hinv.mirror h hp
  have hin := hm.inside
  have hl := hm.len
  have hsz : S.size h = 24 + 8 * (S.st h).links.length + (S.st h).body.length := rfl
  refine ⟨_, _, readHeader_mod hty (by omega) (by omega) hm.header, ?_⟩
  exact map_mod_getD _ _

theorem type_of_shape {c : Bool} {n : Node} (hs : NodeShape I c n) : ∀ h ∈ n.ids, TypeOk (I h).ty := by
  have main : (∀ (n : Node) (c : Bool), NodeShape I c n → ∀ h ∈ n.ids, TypeOk (I h).ty) := by
    intro n
    refine Node.rec (motive_1 := fun n => ∀ c, NodeShape I c n → ∀ h ∈ n.ids, TypeOk (I h).ty)
      (motive_2 := fun l => SlotsShape I l → ∀ h ∈ l.ids, TypeOk (I h).ty)
      (motive_3 := fun l => ∀ s, KidsShape I s l → ∀ h ∈ l.ids, TypeOk (I h).ty) ?_ ?_ ?_ ?_ ?_ n
    · intro id pre post ih1 ih2 c hs h hh
      simp only [NodeShape] at hs
      simp only [Node.ids, List.mem_cons, List.mem_append] at hh
      rcases hh with rfl | hh | hh
      · exact hs.1
      · exact ih1 hs.2.2.2.2.2.1 h hh
      · exact ih2 hs.2.2.2.2.2.2 h hh
    · intro _ h hh; simp [Slots.ids] at hh
    · intro s kids rest ih1 ih2 hs h hh
      simp only [SlotsShape] at hs
      simp only [Slots.ids, List.mem_append] at hh
      rcases hh with hh | hh
      · exact ih1 s hs.1 h hh
      · exact ih2 hs.2 h hh
    · intro s _ h hh; simp [Kids.ids] at hh
    · intro m rest ih1 ih2 s hs h hh
      simp only [KidsShape] at hs
      simp only [Kids.ids, List.mem_append] at hh
      rcases hh with hh | hh
      · exact ih1 _ hs.1 h hh
      · exact ih2 s hs.2.2.2 h hh
  exact main n c hs

/-- C70, what is true: after a tree of new blocks was written (in a file that may hold other blocks), a reference leads to its block exactly if
that block was in the file before, or was written before the writing of the block with the reference began.  Otherwise the link is zero and
a reader finds nothing. -/
theorem C70_references_partial {S : FileSt} {n : Node} (h : FileInv I S) (hd : S.data ≠ []) (hf : NodeFresh S n) (hs : NodeShape I false n)
    (hn : n.ids.Nodup) (hlen : (writeNode I S n).data.length < 2 ^ 63) (b : Nat) (hb : b ∈ n.ids) (hr : (I b).RefsOk)
    (hfresh : S.pos b = 0) (r : Nat × Nat) (hrr : r ∈ (I b).refs) (order : List Nat) (ho : r.2 ∈ order) :
    ∃ hdr rest, readHeader (writeNode I S n).data ((writeNode I S n).pos b) = some (hdr, rest) ∧
      (0 < S.pos r.2 ∨ n.before r.2 b → findBlock (writeNode I S n).pos order (hdr.links.getD r.1 0) = some r.2) ∧
      (¬ (0 < S.pos r.2 ∨ n.before r.2 b) → hdr.links.getD r.1 0 = 0 ∧ findBlock (writeNode I S n).pos order (hdr.links.getD r.1 0) = none) := by
  have P := writeNode_refs n S false h hd hs hn (Or.inl hf)
  have hinv := (writeNode_spec n S false h hd hs hn (Or.inl hf)).post.inv
  obtain ⟨hdr, rest, h1, h2⟩ := link_in_file hinv hlen b (P.written b hb) (type_of_shape hs b hb) r.1
  refine ⟨hdr, rest, h1, ?_, ?_⟩
  · intro hc
    obtain ⟨e1, e2⟩ := ((P.refs b hb hr r hrr).2 hfresh).1 hc
    have hin := (hinv.mirror r.2 e2).inside
    rw [h2, e1, Nat.mod_eq_of_lt (by omega)]
    exact find_pos hinv hlen order r.2 ho e2
  · intro hc
    have e1 := ((P.refs b hb hr r hrr).2 hfresh).2 hc
    have e : hdr.links.getD r.1 0 = 0 := by rw [h2, e1]
    rw [e]
    exact ⟨rfl, find_zero _ _⟩

/-- Later writes of the tree, with new blocks and changed values, do not change the references of the blocks in the file: what was lost stays
lost.  For new blocks the rule is the same. -/
theorem C70_later {S S' : FileSt} {n n' : Node} (h : Session I S n) (he : Edited I S n S' n') (hs : NodeShape I false n') (hn : n'.ids.Nodup)
    (b : Nat) (hb : b ∈ n'.ids) (hr : (I b).RefsOk) (r : Nat × Nat) (hrr : r ∈ (I b).refs) :
    (0 < S.pos b → (writeNode I S' n').link b r.1 = S.link b r.1) ∧
    (S.pos b = 0 → (0 < S.pos r.2 ∨ n'.before r.2 b → (writeNode I S' n').link b r.1 = (writeNode I S' n').pos r.2 ∧ 0 < (writeNode I S' n').pos r.2) ∧
      (¬ (0 < S.pos r.2 ∨ n'.before r.2 b) → (writeNode I S' n').link b r.1 = 0)) := by
  obtain ⟨i1, i2, _, i4, _, i6⟩ := h.ok
  obtain ⟨bs, hbs⟩ := he.data
  have ok := NodeOk.grown (he.quiet i1) _ _ (fun j _ hj => hj) i6 i4 he.grown
  have P := writeNode_refs n' S' false (he.inv i1) (by rw [hbs]; simp [i2]) hs hn (Or.inr ok)
  have := P.refs b hb hr r hrr
  rw [he.pos, he.pos] at this
  refine ⟨fun hp => ?_, this.2⟩
  rw [this.1 hp]
  unfold FileSt.link
  rw [(he.kept b hp).2.1]

/-! ### The order in a file -/

/-- The header of a file with its lists, in the order in which they are written (hd4block.cpp lines 529-544): file history, comment,
attachments, hierarchies, events, data groups. -/
def hdTree (id : Nat) (fh md ats chs evs dgs : Kids) : Node :=
  .mk id .nil (.cons (listSlot 1 kFh .never) fh (.cons (textSlot 5) md (.cons (listSlot 3 kAt .never) ats (.cons (listSlot 2 kCh .never) chs
    (.cons (listSlot 4 kEv .never) evs (.cons (listSlot 0 kDg .all) dgs .nil))))))

theorem hdTree_slots : (hdTree 0 .nil .nil .nil .nil .nil .nil = Node.mk 0 .nil (noKids hdSlots)) := rfl

/-- Attachments are written before the hierarchies, events and data groups with all that is below them: references to them are kept. -/
theorem C70_attachments_kept (id : Nat) (fh md ats chs evs dgs : Kids) (t b : Nat) (ht : t ∈ ats.ids)
    (hb : b ∈ chs.ids ∨ b ∈ evs.ids ∨ b ∈ dgs.ids) : (hdTree id fh md ats chs evs dgs).before t b := by
  simp only [hdTree, Node.before, Slots.before, Slots.ids, List.mem_append, List.not_mem_nil, or_false, ht, true_and, hb, or_true, true_or]

/-- Hierarchies and events are written before the data groups: references to data groups, channel groups and channels are lost. -/
theorem C70_groups_lost (id : Nat) (fh md ats chs evs dgs : Kids) (hn : (hdTree id fh md ats chs evs dgs).ids.Nodup) (t b : Nat)
    (ht : t ∈ dgs.ids) (hb : b ∈ chs.ids ∨ b ∈ evs.ids) : ¬ (hdTree id fh md ats chs evs dgs).before t b := by
  simp only [hdTree, Node.ids, Slots.ids, List.nil_append, List.append_nil, List.nodup_cons, List.nodup_append, List.mem_append] at hn
  obtain ⟨hid, hn⟩ := hn
  intro hbf
  have hdg : ∀ x, x ∈ fh.ids ∨ x ∈ md.ids ∨ x ∈ ats.ids ∨ x ∈ chs.ids ∨ x ∈ evs.ids → x ∈ dgs.ids → False := by
    grind
  have k := fun l => Kids.before_mem t b l
  have hid' : t ≠ id := by grind
  simp only [hdTree, Node.before, Slots.before, Slots.ids, List.mem_append, List.not_mem_nil, or_false, false_or, and_false] at hbf
  grind

/-- Of the events only those before an event in the list can be referred to, as its parent or as the beginning of its range. -/
theorem C70_events (id : Nat) (fh md ats chs dgs : Kids) (e1 e2 : Node) (evs : Kids)
    (hn : (hdTree id fh md ats chs (.cons e1 (.cons e2 evs)) dgs).ids.Nodup) :
    (hdTree id fh md ats chs (.cons e1 (.cons e2 evs)) dgs).before e1.id e2.id ∧
    ¬ (hdTree id fh md ats chs (.cons e1 (.cons e2 evs)) dgs).before e2.id e1.id := by
  have m1 := e1.id_mem
  have m2 := e2.id_mem
  constructor
  · simp only [hdTree, Node.before, Slots.before, Slots.ids, Kids.before, Kids.ids, List.mem_append, m1, m2, true_and, true_or, or_true]
  · simp only [hdTree, Node.ids, Slots.ids, Kids.ids, List.nil_append, List.append_nil, List.nodup_cons, List.nodup_append, List.mem_append] at hn
    intro hbf
    have k := fun l => Kids.before_mem e2.id e1.id l
    have k1 := Node.before_mem e2.id e1.id e1
    have k2 := Node.before_mem e2.id e1.id e2
    simp only [hdTree, Node.before, Slots.before, Kids.before, Slots.ids, Kids.ids, List.mem_append, List.not_mem_nil, or_false, false_or, and_false] at hbf
    grind

/-- A channel is written before its group, a channel group before its data group, an array before its channel: a reference to the block above
is lost. -/
theorem C70_block_above_lost (id : Nat) (pre post : Slots) (hn : (Node.mk id pre post).ids.Nodup) (b : Nat) (hb : b ∈ pre.ids) :
    ¬ (Node.mk id pre post).before id b := by
  simp only [Node.ids, List.nodup_cons, List.mem_append, List.nodup_append] at hn
  have k1 := fun l => Slots.before_mem id b l
  intro hbf
  simp only [Node.before] at hbf
  grind

/-! ### Elements of hierarchies -/

theorem find_some {S : FileSt} {order : List Nat} {link j : Nat} (h : findBlock S.pos order link = some j) : S.pos j = link ∧ 0 < link := by
  unfold findBlock at h
  split at h
  · rename_i hv
    unfold validLink at hv
    simp only [Bool.and_eq_true, decide_eq_true_eq] at hv
    exact ⟨by simpa using List.find?_some h, hv.1⟩
  · exact absurd h (by simp)

/-- The classes of the blocks of an element. -/
def ChElem.Ok (kind : Nat → Nat) (e : ChElem) : Prop :=
  (∀ j ∈ e.dg, kind j = kDg) ∧ (∀ j ∈ e.cg, kind j = kCg) ∧ (∀ j ∈ e.cn, kind j = kCn)

theorem asKind_none {S : FileSt} (hinv : FileInv I S) (order : List Nat) (k k' : Nat) (hk : k ≠ k') (o : Option Nat)
    (ho : ∀ j ∈ o, (I j).kind = k) : asKind (fun j => (I j).kind) k' (findBlock S.pos order (posOf S.pos o)) = none := by
  unfold asKind
  cases hf : findBlock S.pos order (posOf S.pos o) with
  | none => rfl
  | some j =>
    obtain ⟨h1, h2⟩ := find_some hf
    cases o with
    | none => exact absurd h2 (by simp [posOf])
    | some t =>
      have hj : j = t := by
        by_cases he : j = t
        · exact he
        · simp only [posOf] at h1 h2
          have h24 : ∀ k, 24 ≤ S.size k := fun k => by unfold FileSt.size; omega
          have := h24 j
          have := h24 t
          rcases hinv.disjoint j t he (by omega) h2 with h | h <;> omega
      have := ho t rfl
      subst hj
      simp only [Option.filter, this, beq_iff_eq, hk, if_false]

theorem flatMap_three {α β : Type} (f : α → List β) (hf : ∀ a, (f a).length = 3) (l : List α) (k i : Nat) (hi : i < 3) (d : β) :
    (l.flatMap f).getD (k * 3 + i) d = ((l[k]?).map fun a => (f a).getD i d).getD d := by
  induction l generalizing k with
  | nil => simp
  | cons a l ih =>
    rw [List.flatMap_cons]
    cases k with
    | zero =>
      have : i < (f a).length := by rw [hf]; exact hi
      simp [List.getD_eq_getElem?_getD, List.getElem?_append_left this]
    | succ k =>
      have e : (k + 1) * 3 + i = (f a).length + (k * 3 + i) := by rw [hf]; omega
      rw [e, List.getD_eq_getElem?_getD, List.getElem?_append_right (by omega), Nat.add_sub_cancel_left, ← List.getD_eq_getElem?_getD, ih]
      simp

theorem chLinks_getD (pos : Nat → Nat) (four : List Nat) (h4 : four.length = 4) (es : List ChElem) (k i : Nat) (hi : i < 3) :
    (chLinks pos four es).getD (4 + k * 3 + i) 0 =
      ((es[k]?).map fun e => ([posOf pos e.dg, posOf pos e.cg, posOf pos e.cn] : List Nat).getD i 0).getD 0 := by
  unfold chLinks
  rw [List.getD_eq_getElem?_getD, List.getElem?_append_right (by omega), h4, ← List.getD_eq_getElem?_getD,
    show 4 + k * 3 + i - 4 = k * 3 + i by omega]
  exact flatMap_three _ (fun _ => rfl) _ _ _ hi _

theorem chLinks_length (pos : Nat → Nat) (four : List Nat) (h4 : four.length = 4) (es : List ChElem) :
    (chLinks pos four es).length = 4 + es.length * 3 := by
  unfold chLinks
  rw [List.length_append, h4]
  congr 1
  induction es with
  | nil => rfl
  | cons e es ih => rw [List.flatMap_cons, List.length_append, ih, List.length_cons, List.length_cons]; simp; omega

/-- The elements of a hierarchy are never read back, not even if all the blocks were in the file before it: a reader looks one link too
far, finds blocks of the wrong class, and gets as many elements as there are, all of them empty. -/
theorem C70_hierarchy_never_read {S : FileSt} (hinv : FileInv I S) (order : List Nat) (four : List Nat) (h4 : four.length = 4)
    (es : List ChElem) (hes : ∀ e ∈ es, e.Ok fun j => (I j).kind) :
    chElements (findBlock S.pos order) (fun j => (I j).kind) (chLinks S.pos four es) es.length =
      List.replicate es.length ⟨none, none, none⟩ := by
  have key : ∀ k ∈ List.range es.length, (if 5 + k * 3 < (chLinks S.pos four es).length then
      some (ChElem.mk (asKind (fun j => (I j).kind) kDg (findBlock S.pos order ((chLinks S.pos four es).getD (5 + k * 3) 0)))
        (asKind (fun j => (I j).kind) kCg (findBlock S.pos order ((chLinks S.pos four es).getD (5 + k * 3 + 1) 0)))
        (asKind (fun j => (I j).kind) kCn (findBlock S.pos order ((chLinks S.pos four es).getD (5 + k * 3 + 2) 0))))
      else none) = some ⟨none, none, none⟩ := by
    intro k hk
    rw [List.mem_range] at hk
    rw [if_pos (by rw [chLinks_length _ _ h4]; omega)]
    have e0 := chLinks_getD S.pos four h4 es k 1 (by omega)
    have e1 := chLinks_getD S.pos four h4 es k 2 (by omega)
    have e2 := chLinks_getD S.pos four h4 es (k + 1) 0 (by omega)
    have hm := hes es[k] (List.getElem_mem hk)
    rw [List.getElem?_eq_getElem hk] at e0 e1
    rw [show 5 + k * 3 = 4 + k * 3 + 1 by omega, e0, show 4 + k * 3 + 1 + 1 = 4 + k * 3 + 2 by omega, e1,
      show 4 + k * 3 + 1 + 2 = 4 + (k + 1) * 3 + 0 by omega, e2]
    congr 2
    · exact asKind_none hinv order kCg kDg (by decide) es[k].cg hm.2.1
    · exact asKind_none hinv order kCn kCg (by decide) es[k].cn hm.2.2
    · cases hn : es[k + 1]? with
      | none => exact asKind_none hinv order kDg kCn (by decide) none (by simp)
      | some e => exact asKind_none hinv order kDg kCn (by decide) e.dg (hes e (List.mem_of_getElem? hn)).1
  unfold chElements
  have aux : ∀ (l : List Nat) (f : Nat → Option ChElem), (∀ k ∈ l, f k = some ⟨none, none, none⟩) →
      l.filterMap f = List.replicate l.length ⟨none, none, none⟩ := by
    intro l f h
    induction l with
    | nil => rfl
    | cons a l ih =>
      rw [List.filterMap_cons, h a List.mem_cons_self, ih fun k hk => h k (List.mem_cons_of_mem _ hk)]
      rfl
  have := aux (List.range es.length) _ key
  rw [List.length_range] at this
  exact this

end

/-! ### Examples -/

/-- A header (1), an attachment (2), a hierarchy (3) with an element (data group 5, channel group 6, channel 7), an event (4) with the attachment, a data
group (5) with a channel group (6) with a channel (7) that has the attachment, and a later event (8) with event 4 as its parent. -/
def refInfo : Nat → Info
  | 1 => ⟨kHd, exTy 0x48 0x44, 6, [], []⟩
  | 2 => ⟨kAt, exTy 0x41 0x54, 4, [], []⟩
  | 3 => ⟨kCh, exTy 0x43 0x48, 7, [], [(4, 5), (5, 6), (6, 7)]⟩
  | 4 => ⟨kEv, exTy 0x45 0x56, 6, [], [(1, 8), (5, 2)]⟩
  | 5 => ⟨kDg, exTy 0x44 0x47, 4, [], []⟩
  | 6 => ⟨kCg, exTy 0x43 0x47, 6, [], []⟩
  | 7 => ⟨kCn, exTy 0x43 0x4E, 9, [], [(8, 2)]⟩
  | 8 => ⟨kEv, exTy 0x45 0x56, 6, [], [(1, 4)]⟩
  | _ => ⟨kEv, exTy 0x45 0x56, 6, [], [(5, 7)]⟩

def refLeaf (id : Nat) : Node := .mk id .nil .nil

def refTree : Node :=
  hdTree 1 .nil .nil (.cons (refLeaf 2) .nil) (.cons (refLeaf 3) .nil) (.cons (refLeaf 4) (.cons (refLeaf 8) .nil))
    (.cons (.mk 5 (.cons (listSlot 1 kCg .all) (.cons (.mk 6 (.cons (listSlot 1 kCn .never) (.cons (refLeaf 7) .nil) .nil) .nil) .nil) .nil) .nil) .nil)

def refFile : FileSt := ⟨List.replicate 64 0x20#8, fun _ => ⟨0, 0, [], []⟩, false⟩

theorem refFile_inv : FileInv refInfo refFile := Opened.inv (file := List.replicate 64 0x20#8) ⟨rfl, by decide, fun _ => rfl⟩

theorem refTree_shape : NodeShape refInfo false refTree := by decide +kernel
theorem refTree_fresh : NodeFresh refFile refTree := by decide +kernel

theorem refInfo_ok (j : Nat) : (refInfo j).RefsOk := by
  unfold refInfo Info.RefsOk
  split <;> decide

/-- The channel and the event find the attachment, the later event the earlier one. -/
example : ∀ p ∈ [(7, 8, 2), (4, 5, 2), (8, 1, 4)], ∃ hdr rest,
    readHeader (writeNode refInfo refFile refTree).data ((writeNode refInfo refFile refTree).pos p.1) = some (hdr, rest) ∧
      findBlock (writeNode refInfo refFile refTree).pos refTree.ids (hdr.links.getD p.2.1 0) = some p.2.2 := by
  intro p hp
  obtain ⟨h, r1, r2⟩ := p
  have hb : h ∈ refTree.ids ∧ (r1, r2) ∈ (refInfo h).refs ∧ r2 ∈ refTree.ids ∧ refTree.before r2 h := by
    simp only [List.mem_cons, List.not_mem_nil, or_false, Prod.mk.injEq] at hp
    rcases hp with ⟨rfl, rfl, rfl⟩ | ⟨rfl, rfl, rfl⟩ | ⟨rfl, rfl, rfl⟩
    · exact ⟨by decide, by decide, by decide, C70_attachments_kept 1 .nil .nil _ _ _ _ 2 7 (by decide) (by decide)⟩
    · exact ⟨by decide, by decide, by decide, C70_attachments_kept 1 .nil .nil _ _ _ _ 2 4 (by decide) (by decide)⟩
    · exact ⟨by decide, by decide, by decide, (C70_events 1 .nil .nil _ _ _ (refLeaf 4) (refLeaf 8) .nil (by decide)).1⟩
  obtain ⟨hdr, rest, h1, h2, _⟩ := C70_references_partial refFile_inv (by decide) refTree_fresh refTree_shape (by decide) (by decide +kernel) h hb.1
    (refInfo_ok h) rfl (r1, r2) hb.2.1 refTree.ids hb.2.2.1
  exact ⟨hdr, rest, h1, h2 (Or.inr hb.2.2.2)⟩

/-- The property is false: the element of the hierarchy. -/
theorem C70_statement_false : ¬ C70_Statement := by
  intro hst
  obtain ⟨hd, rest, h1, h2⟩ := hst refInfo refFile refTree refFile_inv (by decide) refTree_fresh refTree_shape (by decide) (by decide +kernel) 3
    (by decide) (refInfo_ok 3) (4, 5) (by decide) (by decide)
  obtain ⟨hdr, rest', h3, _, h4⟩ := C70_references_partial refFile_inv (by decide) refTree_fresh refTree_shape (by decide) (by decide +kernel) 3
    (by decide) (refInfo_ok 3) rfl (4, 5) (by decide) refTree.ids (by decide)
  rw [h1, Option.some.injEq, Prod.mk.injEq] at h3
  have := (h4 (by
    rintro (h | h)
    · exact absurd h (by decide)
    · exact C70_groups_lost 1 .nil .nil _ _ _ _ (by decide) 5 3 (by decide) (by decide) h)).2
  rw [← h3.1, h2] at this
  exact absurd this (by simp)

/-- A hierarchy written when all the blocks are in the file, so with the right links: nothing is read. -/
example : chElements (findBlock (writeNode refInfo refFile refTree).pos refTree.ids) (fun j => (refInfo j).kind)
    (chLinks (writeNode refInfo refFile refTree).pos [0, 0, 0, 0] [⟨some 5, some 6, some 7⟩]) 1 = [⟨none, none, none⟩] := by
  have hinv := (writeNode_spec refTree refFile false refFile_inv (by decide) refTree_shape (by decide) (Or.inl refTree_fresh)).post.inv
  exact C70_hierarchy_never_read hinv refTree.ids [0, 0, 0, 0] rfl [⟨some 5, some 6, some 7⟩] (by
    intro e he
    rw [List.mem_singleton] at he
    subst he
    exact ⟨by simp [refInfo], by simp [refInfo], by simp [refInfo]⟩)

/-- The array of a channel refers to its channel group: lost. -/
example : ¬ (Node.mk 6 (.cons (listSlot 1 kCn .never) (.cons (refLeaf 7) .nil) .nil) .nil).before 6 7 :=
  C70_block_above_lost 6 _ _ (by decide) 7 (by decide)

/-- After the file was begun an event (9) is added, with the channel as its scope. -/
def refTree2 : Node :=
  hdTree 1 .nil .nil (.cons (refLeaf 2) .nil) (.cons (refLeaf 3) .nil) (.cons (refLeaf 4) (.cons (refLeaf 8) (.cons (refLeaf 9) .nil)))
    (.cons (.mk 5 (.cons (listSlot 1 kCg .all) (.cons (.mk 6 (.cons (listSlot 1 kCn .never) (.cons (refLeaf 7) .nil) .nil) .nil) .nil) .nil) .nil) .nil)

theorem refSession : Session refInfo (writeNode refInfo refFile refTree) refTree :=
  .first refFile_inv (by decide) rfl refTree_fresh refTree_shape (by decide)

theorem refEdit_of (S : FileSt) (h1 : S.pos 9 = 0) (h2 : (S.st 9).links = []) : Edited refInfo S refTree S refTree2 := by
  refine ⟨⟨[], by simp⟩, fun _ => rfl, fun _ _ => ⟨rfl, rfl, rfl, fun _ _ => rfl⟩, fun _ _ _ => rfl, rfl, ?_⟩
  simp only [refTree, refTree2, hdTree, refLeaf, NodeGrown, SlotsGrown, KidsGrown, KidsFresh, NodeFresh, SlotsFresh, listSlot, textSlot, if_true,
    true_and, and_true, reduceCtorEq, if_false]
  exact ⟨h1, h2⟩

theorem refEdit : Edited refInfo (writeNode refInfo refFile refTree) refTree (writeNode refInfo refFile refTree) refTree2 :=
  refEdit_of _ (by decide +kernel) (by decide +kernel)

/-- The event added later leads to the channel, the hierarchy remains without its elements. -/
example : (writeNode refInfo (writeNode refInfo refFile refTree) refTree2).link 9 5 =
      (writeNode refInfo (writeNode refInfo refFile refTree) refTree2).pos 7 ∧
    (writeNode refInfo (writeNode refInfo refFile refTree) refTree2).link 3 4 = (writeNode refInfo refFile refTree).link 3 4 ∧
    (writeNode refInfo refFile refTree).link 3 4 = 0 := by
  have h7 : 0 < (writeNode refInfo refFile refTree).pos 7 := by decide +kernel
  have h9 : (writeNode refInfo refFile refTree).pos 9 = 0 := by decide +kernel
  have h3 : 0 < (writeNode refInfo refFile refTree).pos 3 := by decide +kernel
  have hsh : NodeShape refInfo false refTree2 := by decide +kernel
  exact ⟨(((C70_later refSession refEdit hsh (by decide) 9 (by decide) (refInfo_ok 9) (5, 7) (by decide)).2 h9).1 (Or.inl h7)).1,
    (C70_later refSession refEdit hsh (by decide) 3 (by decide) (refInfo_ok 3) (4, 5) (by decide)).1 h3, by decide +kernel⟩

end Mdf
