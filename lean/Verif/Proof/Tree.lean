import Verif.Proof.BlockOps

/-! Writing a tree of blocks. -/

namespace Mdf

section
variable {I : Nat → Info}

theorem Node.id_mem (n : Node) : n.id ∈ n.ids := by
  cases n; simp [Node.id, Node.ids]

/-! ### The predicates depend on the blocks of the tree only -/

/-- Nothing that matters for block `id` has changed. -/
def SameFor (S S' : FileSt) (id : Nat) : Prop :=
  S'.st id = S.st id ∧ (0 < S.pos id → BExact S id → BExact S' id)

theorem SameFor.pos {S S' : FileSt} {id : Nat} (h : SameFor S S' id) : S'.pos id = S.pos id := by
  unfold FileSt.pos; rw [h.1]

theorem SameFor.link {S S' : FileSt} {id : Nat} (h : SameFor S S' id) (i : Nat) : S'.link id i = S.link id i := by
  unfold FileSt.link; rw [h.1]

mutual
theorem NodeFresh.congr {S S' : FileSt} (n : Node) (h : ∀ j ∈ n.ids, S'.st j = S.st j) (hf : NodeFresh S n) :
    NodeFresh S' n := by
  match n with
  | .mk id pre post =>
    simp only [NodeFresh] at hf ⊢
    obtain ⟨h1, h2, h3, h4⟩ := hf
    have hid := h id (by simp [Node.ids])
    refine ⟨?_, by rw [hid]; exact h2, ?_, ?_⟩
    · unfold FileSt.pos; rw [hid]; exact h1
    · exact SlotsFresh.congr pre (fun j hj => h j (by simp [Node.ids, hj])) h3
    · exact SlotsFresh.congr post (fun j hj => h j (by simp [Node.ids, hj])) h4
theorem SlotsFresh.congr {S S' : FileSt} (l : Slots) (h : ∀ j ∈ l.ids, S'.st j = S.st j) (hf : SlotsFresh S l) :
    SlotsFresh S' l := by
  match l with
  | .nil => trivial
  | .cons s kids rest =>
    simp only [SlotsFresh] at hf ⊢
    exact ⟨KidsFresh.congr kids (fun j hj => h j (by simp [Slots.ids, hj])) hf.1,
      SlotsFresh.congr rest (fun j hj => h j (by simp [Slots.ids, hj])) hf.2⟩
theorem KidsFresh.congr {S S' : FileSt} (l : Kids) (h : ∀ j ∈ l.ids, S'.st j = S.st j) (hf : KidsFresh S l) :
    KidsFresh S' l := by
  match l with
  | .nil => trivial
  | .cons n rest =>
    simp only [KidsFresh] at hf ⊢
    exact ⟨NodeFresh.congr n (fun j hj => h j (by simp [Kids.ids, hj])) hf.1,
      KidsFresh.congr rest (fun j hj => h j (by simp [Kids.ids, hj])) hf.2⟩
end

mutual
theorem NodeOk.congr {S S' : FileSt} {b : Bool} (n : Node) (h : ∀ j ∈ n.ids, SameFor S S' j) (hf : NodeOk I S b n) :
    NodeOk I S' b n := by
  match n with
  | .mk id pre post =>
    simp only [NodeOk] at hf ⊢
    obtain ⟨h1, h2, h3, h4, h5⟩ := hf
    have hid := h id (by simp [Node.ids])
    refine ⟨by rw [hid.pos]; exact h1, by rw [hid.1]; exact h2, fun hb => hid.2 h1 (h3 hb), ?_, ?_⟩
    · exact SlotsOk.congr pre (fun i _ => hid.link i) (fun j hj => h j (by simp [Node.ids, hj])) h4
    · exact SlotsOk.congr post (fun i _ => hid.link i) (fun j hj => h j (by simp [Node.ids, hj])) h5
theorem SlotsOk.congr {S S' : FileSt} {b : Bool} {id : Nat} (l : Slots) (hl : ∀ i ∈ l.indices, S'.link id i = S.link id i)
    (h : ∀ j ∈ l.ids, SameFor S S' j) (hf : SlotsOk I S b id l) : SlotsOk I S' b id l := by
  match l with
  | .nil => trivial
  | .cons s kids rest =>
    simp only [SlotsOk] at hf ⊢
    exact ⟨KidsOk.congr kids (hl _ (by simp [Slots.indices])) (fun j hj => h j (by simp [Slots.ids, hj])) hf.1,
      SlotsOk.congr rest (fun i hi => hl i (by simp [Slots.indices, hi])) (fun j hj => h j (by simp [Slots.ids, hj])) hf.2⟩
theorem KidsOk.congr {S S' : FileSt} {b : Bool} {s : Slot} {tid ti : Nat} (l : Kids) (hl : S'.link tid ti = S.link tid ti)
    (h : ∀ j ∈ l.ids, SameFor S S' j) (hf : KidsOk I S b s tid ti l) : KidsOk I S' b s tid ti l := by
  match l with
  | .nil => simp only [KidsOk] at hf ⊢; rw [hl]; exact hf
  | .cons n rest =>
    simp only [KidsOk] at hf ⊢
    have hn : ∀ j ∈ n.ids, SameFor S S' j := fun j hj => h j (by simp [Kids.ids, hj])
    have hr : ∀ j ∈ rest.ids, SameFor S S' j := fun j hj => h j (by simp [Kids.ids, hj])
    have hid := hn n.id n.id_mem
    rw [hid.pos, hl]
    rcases hf with ⟨a, b, c, d, e⟩ | ⟨a, b, c, d⟩
    · left
      exact ⟨a, b, c, NodeFresh.congr n (fun j hj => (hn j hj).1) d, KidsFresh.congr rest (fun j hj => (hr j hj).1) e⟩
    · right
      exact ⟨a, b, NodeOk.congr n hn c, fun hc => KidsOk.congr rest (hid.link 0) hr (d hc)⟩
end

theorem KidsOk.of_fresh {S : FileSt} {s : Slot} {tid ti : Nat} (l : Kids) (hl : S.link tid ti = 0) (hf : KidsFresh S l) :
    KidsOk I S false s tid ti l := by
  match l with
  | .nil => simp only [KidsOk]; exact hl
  | .cons n r =>
    simp only [KidsFresh] at hf
    simp only [KidsOk]
    left
    refine ⟨?_, trivial, hl, hf.1, hf.2⟩
    cases n
    simp only [NodeFresh] at hf
    exact hf.1.1

theorem SlotsOk.of_fresh {S : FileSt} {id : Nat} (l : Slots) (hl : ∀ i ∈ l.indices, S.link id i = 0) (hf : SlotsFresh S l) :
    SlotsOk I S false id l := by
  match l with
  | .nil => trivial
  | .cons s kids rest =>
    simp only [SlotsFresh] at hf
    simp only [SlotsOk]
    exact ⟨KidsOk.of_fresh kids (hl s.index (by simp [Slots.indices])) hf.1,
      SlotsOk.of_fresh rest (fun i hi => hl i (by simp [Slots.indices, hi])) hf.2⟩

/-! ### What writing does to the blocks it does not own -/

structure Post (I : Nat → Info) (F : List Nat) (S S' : FileSt) : Prop where
  inv : FileInv I S'
  ne : S'.data ≠ []
  thrown : S'.thrown = S.thrown
  same : ∀ j, j ∉ F → SameFor S S' j
  keep : ∀ j, 0 < S.pos j → S'.pos j = S.pos j
  body : ∀ j, (S'.st j).body = (S.st j).body

theorem Post.mono {F G : List Nat} {S S' : FileSt} (h : Post I F S S') (hFG : ∀ j ∈ F, j ∈ G) : Post I G S S' :=
  ⟨h.inv, h.ne, h.thrown, fun j hj => h.same j (fun hf => hj (hFG j hf)), h.keep, h.body⟩

theorem Post.trans {F : List Nat} {S S' S'' : FileSt} (h : Post I F S S') (h' : Post I F S' S'') : Post I F S S'' := by
  refine ⟨h'.inv, h'.ne, h'.thrown.trans h.thrown, ?_, ?_, fun j => (h'.body j).trans (h.body j)⟩
  · intro j hj
    have a := h.same j hj
    have b := h'.same j hj
    exact ⟨b.1.trans a.1, fun hp he => b.2 (by rw [a.pos]; exact hp) (a.2 hp he)⟩
  · intro j hp
    rw [h'.keep j (by rw [h.keep j hp]; exact hp), h.keep j hp]

theorem Post.refl {S : FileSt} (F : List Nat) (h : FileInv I S) (hd : S.data ≠ []) : Post I F S S :=
  ⟨h, hd, rfl, fun _ _ => ⟨rfl, fun _ x => x⟩, fun _ _ => rfl, fun _ => rfl⟩

theorem BFrame.sameFor {S S' : FileSt} {id j : Nat} (hf : BFrame S S' id) (hj : j ≠ id) : SameFor S S' j :=
  ⟨hf.st j hj, fun hp he => hf.exact hj hp he⟩

theorem updateLink_post (S : FileSt) (id i v : Nat) (h : FileInv I S) (hd : S.data ≠ []) (hi : i < (S.st id).links.length) :
    Post I [id] S (S.updateLink id i v) := by
  have hf := updateLink_frame (I := I) S id i v h
  refine ⟨updateLink_inv S id i v h, hf.ne hd, updateLink_thrown S id i v hi, ?_, fun j _ => updateLink_pos S id i v j, ?_⟩
  · intro j hj
    exact hf.sameFor (by simpa using hj)
  · intro j
    by_cases hj : j = id
    · subst hj; rw [updateLink_st_same S j i v hi]
    · rw [updateLink_st_other S id i v hj]

theorem start_post (S : FileSt) (id : Nat) (h : FileInv I S) (hd : S.data ≠ []) : Post I [id] S (S.start I id) := by
  have hf := start_frame (I := I) S id
  refine ⟨start_inv S id h, hf.ne hd, start_thrown S id, ?_, fun j _ => start_pos S id j, ?_⟩
  · intro j hj
    exact hf.sameFor (by simpa using hj)
  · intro j
    by_cases hj : j = id
    · subst hj
      unfold FileSt.start
      split
      · rfl
      · show ((S.set j _).st j).body = _; rw [set_st_same]
    · rw [hf.st j hj]

theorem writeSelf_post (S : FileSt) (id : Nat) (h : FileInv I S) (hd : S.data ≠ []) : Post I [id] S (S.writeSelf I id) := by
  obtain ⟨a, _, hf, _, e, _, g, k⟩ := writeSelf_spec (I := I) S id hd h
  refine ⟨a, hf.ne hd, e, ?_, ?_, ?_⟩
  · intro j hj
    exact hf.sameFor (by simpa using hj)
  · intro j hp
    by_cases hj : j = id
    · subst hj; exact k hp
    · exact hf.pos hj
  · intro j
    by_cases hj : j = id
    · subst hj; exact g
    · rw [hf.st j hj]

theorem updateLink_link_same (S : FileSt) (id i v : Nat) (hi : i < (S.st id).links.length) :
    (S.updateLink id i v).link id i = v := by
  unfold FileSt.link
  rw [updateLink_st_same S id i v hi]
  simp [List.getD_eq_getElem?_getD, hi]

theorem updateLink_link_other (S : FileSt) (id i v k : Nat) (hi : i < (S.st id).links.length) (hk : k ≠ i) :
    (S.updateLink id i v).link id k = S.link id k := by
  unfold FileSt.link
  rw [updateLink_st_same S id i v hi]
  simp only [List.getD_eq_getElem?_getD]
  rw [List.getElem?_set_ne (by omega)]

/-! ### The block that holds the link -/

/-- What happens to the block `tid` whose links lead to the blocks that are written: only the links of `idx` change. -/
structure Owner (S S' : FileSt) (tid : Nat) (idx : List Nat) : Prop where
  link : ∀ i, i ∉ idx → S'.link tid i = S.link tid i
  len : (S'.st tid).links.length = (S.st tid).links.length
  pos : S'.pos tid = S.pos tid
  exact : 0 < S.pos tid → BExact S tid → BExact S' tid

theorem Owner.refl (S : FileSt) (tid : Nat) (idx : List Nat) : Owner S S tid idx :=
  ⟨fun _ _ => rfl, rfl, rfl, fun _ x => x⟩

theorem Owner.trans {S S' S'' : FileSt} {tid : Nat} {idx : List Nat} (h : Owner S S' tid idx) (h' : Owner S' S'' tid idx) :
    Owner S S'' tid idx :=
  ⟨fun i hi => (h'.link i hi).trans (h.link i hi), h'.len.trans h.len, h'.pos.trans h.pos,
    fun hp he => h'.exact (by rw [h.pos]; exact hp) (h.exact hp he)⟩

theorem Owner.mono {S S' : FileSt} {tid : Nat} {idx idx' : List Nat} (h : Owner S S' tid idx) (hs : ∀ i ∈ idx, i ∈ idx') :
    Owner S S' tid idx' := ⟨fun i hi => h.link i (fun hj => hi (hs i hj)), h.len, h.pos, h.exact⟩

theorem Owner.of_same {S S' : FileSt} {tid : Nat} (h : SameFor S S' tid) (idx : List Nat) : Owner S S' tid idx :=
  ⟨fun i _ => h.link i, by rw [h.1], h.pos, h.2⟩

theorem updateLink_owner (S : FileSt) (id i v : Nat) (h : FileInv I S) (hi : i < (S.st id).links.length) :
    Owner S (S.updateLink id i v) id [i] := by
  refine ⟨?_, ?_, updateLink_pos S id i v id, ?_⟩
  · intro k hk
    exact updateLink_link_other S id i v k hi (by simpa using hk)
  · rw [updateLink_st_same S id i v hi]; simp
  · intro hp he
    exact (updateLink_mirror (I := I) S id i v h hp).2 he

/-- A finished block of a list stays finished when its link to the next block is set. -/
theorem NodeOk.owner {S S' : FileSt} (n : Node) (hs : NodeShape I true n) (ho : Owner S S' n.id [0])
    (hsame : ∀ j ∈ n.ids, j ≠ n.id → SameFor S S' j) (hnd : n.ids.Nodup) {b : Bool} (h : NodeOk I S b n) : NodeOk I S' b n := by
  match n with
  | .mk id pre post =>
    simp only [Node.id] at ho hsame
    simp only [NodeOk] at h ⊢
    simp only [NodeShape] at hs
    obtain ⟨h1, h2, h3, h4, h5⟩ := h
    obtain ⟨_, _, _, hidx, _, _, _⟩ := hs
    simp only [Node.ids, List.nodup_cons] at hnd
    refine ⟨by rw [ho.pos]; exact h1, by rw [ho.len]; exact h2, fun hb => ho.exact h1 (h3 hb), ?_, ?_⟩
    · apply SlotsOk.congr pre _ _ h4
      · intro i hi
        apply ho.link
        have := (hidx i (by simp [hi])).2.1 trivial
        simpa using this
      · intro j hj
        apply hsame j (by simp [Node.ids, hj])
        intro he; subst he
        exact hnd.1 (by simp [hj])
    · apply SlotsOk.congr post _ _ h5
      · intro i hi
        apply ho.link
        have := (hidx i (by simp [hi])).2.1 trivial
        simpa using this
      · intro j hj
        apply hsame j (by simp [Node.ids, hj])
        intro he; subst he
        exact hnd.1 (by simp [hj])

end

end Mdf
