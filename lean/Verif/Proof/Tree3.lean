import Verif.Proof.Block3
import Verif.Proof.TreeWrite

/-! Writing a tree of MDF 3 blocks. -/

namespace Mdf

section
variable {I : Nat → Info3}

/-! ### The predicates depend on the blocks of the tree only -/

/-- Nothing that matters for block `id` has changed. -/
def SameFor3 (I : Nat → Info3) (S S' : FileSt) (id : Nat) : Prop :=
  S'.st id = S.st id ∧ (0 < S.pos id → BExact3 I S id → BExact3 I S' id)

theorem SameFor3.pos {S S' : FileSt} {id : Nat} (h : SameFor3 I S S' id) : S'.pos id = S.pos id := by
  unfold FileSt.pos; rw [h.1]

theorem SameFor3.link {S S' : FileSt} {id : Nat} (h : SameFor3 I S S' id) (i : Nat) : S'.link id i = S.link id i := by
  unfold FileSt.link; rw [h.1]

mutual
theorem NodeOk3.congr {S S' : FileSt} {b : Bool} (n : Node) (h : ∀ j ∈ n.ids, SameFor3 I S S' j) (hf : NodeOk3 I S b n) :
    NodeOk3 I S' b n := by
  match n with
  | .mk id pre post =>
    simp only [NodeOk3] at hf ⊢
    obtain ⟨h1, h2, h3, h4, h5⟩ := hf
    have hid := h id (by simp [Node.ids])
    refine ⟨by rw [hid.pos]; exact h1, by rw [hid.1]; exact h2, fun hb => hid.2 h1 (h3 hb), ?_, ?_⟩
    · exact SlotsOk3.congr pre (fun i _ => hid.link i) (fun j hj => h j (by simp [Node.ids, hj])) h4
    · exact SlotsOk3.congr post (fun i _ => hid.link i) (fun j hj => h j (by simp [Node.ids, hj])) h5
theorem SlotsOk3.congr {S S' : FileSt} {b : Bool} {id : Nat} (l : Slots) (hl : ∀ i ∈ l.indices, S'.link id i = S.link id i)
    (h : ∀ j ∈ l.ids, SameFor3 I S S' j) (hf : SlotsOk3 I S b id l) : SlotsOk3 I S' b id l := by
  match l with
  | .nil => trivial
  | .cons s kids rest =>
    simp only [SlotsOk3] at hf ⊢
    exact ⟨KidsOk3.congr kids (hl _ (by simp [Slots.indices])) (fun j hj => h j (by simp [Slots.ids, hj])) hf.1,
      SlotsOk3.congr rest (fun i hi => hl i (by simp [Slots.indices, hi])) (fun j hj => h j (by simp [Slots.ids, hj])) hf.2⟩
theorem KidsOk3.congr {S S' : FileSt} {b : Bool} {s : Slot} {tid ti : Nat} (l : Kids) (hl : S'.link tid ti = S.link tid ti)
    (h : ∀ j ∈ l.ids, SameFor3 I S S' j) (hf : KidsOk3 I S b s tid ti l) : KidsOk3 I S' b s tid ti l := by
  match l with
  | .nil => simp only [KidsOk3] at hf ⊢; rw [hl]; exact hf
  | .cons n rest =>
    simp only [KidsOk3] at hf ⊢
    have hn : ∀ j ∈ n.ids, SameFor3 I S S' j := fun j hj => h j (by simp [Kids.ids, hj])
    have hr : ∀ j ∈ rest.ids, SameFor3 I S S' j := fun j hj => h j (by simp [Kids.ids, hj])
    have hid := hn n.id n.id_mem
    rw [hid.pos, hl]
    rcases hf with ⟨a, b, c, d, e⟩ | ⟨a, b, c, d⟩
    · left
      exact ⟨a, b, c, NodeFresh.congr n (fun j hj => (hn j hj).1) d, KidsFresh.congr rest (fun j hj => (hr j hj).1) e⟩
    · right
      exact ⟨a, b, NodeOk3.congr n hn c, fun hc => KidsOk3.congr rest (hid.link 0) hr (d hc)⟩
end

theorem KidsOk3.of_fresh {S : FileSt} {s : Slot} {tid ti : Nat} (l : Kids) (hl : S.link tid ti = 0) (hf : KidsFresh S l) :
    KidsOk3 I S false s tid ti l := by
  match l with
  | .nil => simp only [KidsOk3]; exact hl
  | .cons n r =>
    simp only [KidsFresh] at hf
    simp only [KidsOk3]
    left
    refine ⟨?_, trivial, hl, hf.1, hf.2⟩
    cases n
    simp only [NodeFresh] at hf
    exact hf.1.1

theorem SlotsOk3.of_fresh {S : FileSt} {id : Nat} (l : Slots) (hl : ∀ i ∈ l.indices, S.link id i = 0) (hf : SlotsFresh S l) :
    SlotsOk3 I S false id l := by
  match l with
  | .nil => trivial
  | .cons s kids rest =>
    simp only [SlotsFresh] at hf
    simp only [SlotsOk3]
    exact ⟨KidsOk3.of_fresh kids (hl s.index (by simp [Slots.indices])) hf.1,
      SlotsOk3.of_fresh rest (fun i hi => hl i (by simp [Slots.indices, hi])) hf.2⟩

/-! ### What writing does to the blocks it does not own -/

structure Post3 (I : Nat → Info3) (F : List Nat) (S S' : FileSt) : Prop where
  inv : FileInv3 I S'
  ne : S'.data ≠ []
  thrown : S'.thrown = S.thrown
  same : ∀ j, j ∉ F → SameFor3 I S S' j
  keep : ∀ j, 0 < S.pos j → S'.pos j = S.pos j
  body : ∀ j, (S'.st j).body = (S.st j).body
  grow : S.data.length ≤ S'.data.length
  free : ∀ q, q < S.data.length → S.Free3 q → S'.data[q]? = S.data[q]? ∧ S'.Free3 q

theorem Post3.mono {F G : List Nat} {S S' : FileSt} (h : Post3 I F S S') (hFG : ∀ j ∈ F, j ∈ G) : Post3 I G S S' :=
  ⟨h.inv, h.ne, h.thrown, fun j hj => h.same j (fun hf => hj (hFG j hf)), h.keep, h.body, h.grow, h.free⟩

theorem Post3.trans {F : List Nat} {S S' S'' : FileSt} (h : Post3 I F S S') (h' : Post3 I F S' S'') : Post3 I F S S'' := by
  refine ⟨h'.inv, h'.ne, h'.thrown.trans h.thrown, ?_, ?_, fun j => (h'.body j).trans (h.body j), Nat.le_trans h.grow h'.grow,
    fun q hq hf => ?_⟩
  · intro j hj
    have a := h.same j hj
    have b := h'.same j hj
    exact ⟨b.1.trans a.1, fun hp he => b.2 (by rw [a.pos]; exact hp) (a.2 hp he)⟩
  · intro j hp
    rw [h'.keep j (by rw [h.keep j hp]; exact hp), h.keep j hp]
  · obtain ⟨a, b⟩ := h.free q hq hf
    obtain ⟨c, d⟩ := h'.free q (Nat.lt_of_lt_of_le hq h.grow) b
    exact ⟨c.trans a, d⟩

theorem Post3.refl {S : FileSt} (F : List Nat) (h : FileInv3 I S) (hd : S.data ≠ []) : Post3 I F S S :=
  ⟨h, hd, rfl, fun _ _ => ⟨rfl, fun _ x => x⟩, fun _ _ => rfl, fun _ => rfl, Nat.le_refl _, fun _ _ h => ⟨rfl, h⟩⟩

theorem BFrame3.sameFor {S S' : FileSt} {id j : Nat} (hf : BFrame3 S S' id) (hj : j ≠ id) : SameFor3 I S S' j :=
  ⟨hf.st j hj, fun hp he => hf.exact hj hp he⟩

theorem updateLink3_post (S : FileSt) (id i v : Nat) (h : FileInv3 I S) (hd : S.data ≠ []) (hi : LinkOk3 I S id i) :
    Post3 I [id] S (S.updateLink3 I id i v) := by
  have hf := updateLink3_frame (I := I) S id i v h
  refine ⟨updateLink3_inv S id i v h, hf.ne hd, updateLink3_thrown S id i v hi, ?_, fun j _ => updateLink3_pos S id i v j, ?_, hf.grow, hf.free⟩
  · intro j hj
    exact hf.sameFor (by simpa using hj)
  · intro j
    by_cases hj : j = id
    · subst hj; rw [updateLink3_st_same S j i v hi]
    · rw [updateLink3_st_other S id i v hj]

theorem start3_post (S : FileSt) (id : Nat) (h : FileInv3 I S) (hd : S.data ≠ []) : Post3 I [id] S (S.start3 I id) := by
  have hf := start3_frame (I := I) S id
  refine ⟨start3_inv S id h, hf.ne hd, start3_thrown S id, ?_, fun j _ => start3_pos S id j, ?_, hf.grow, hf.free⟩
  · intro j hj
    exact hf.sameFor (by simpa using hj)
  · intro j
    by_cases hj : j = id
    · subst hj
      unfold FileSt.start3
      split
      · rfl
      · show ((S.set j _).st j).body = _; rw [set_st_same]
    · rw [hf.st j hj]

theorem writeSelf3_post (S : FileSt) (id : Nat) (h : FileInv3 I S) (hd : S.data ≠ [])
    (hlen : S.pos id = 0 → (S.st id).len = (I id).first (S.st id).body.length % 2 ^ 16) : Post3 I [id] S (S.writeSelf3 I id) := by
  obtain ⟨a, _, hf, _, e, _, g, k⟩ := writeSelf3_spec (I := I) S id hd h hlen
  refine ⟨a, hf.ne hd, e, ?_, ?_, ?_, hf.grow, hf.free⟩
  · intro j hj
    exact hf.sameFor (by simpa using hj)
  · intro j hp
    by_cases hj : j = id
    · subst hj; exact k hp
    · exact hf.pos hj
  · intro j
    by_cases hj : j = id
    · subst hj; exact g
    · rw [hf.st j hj]

theorem updateLink3_link_same (S : FileSt) (id i v : Nat) (hi : LinkOk3 I S id i) :
    (S.updateLink3 I id i v).link id i = v := by
  unfold FileSt.link
  rw [updateLink3_st_same S id i v hi]
  simp [List.getD_eq_getElem?_getD, hi.1]

theorem updateLink3_link_other (S : FileSt) (id i v k : Nat) (hi : LinkOk3 I S id i) (hk : k ≠ i) :
    (S.updateLink3 I id i v).link id k = S.link id k := by
  unfold FileSt.link
  rw [updateLink3_st_same S id i v hi]
  simp only [List.getD_eq_getElem?_getD]
  rw [List.getElem?_set_ne (by omega)]

/-! ### The block that holds the link -/

/-- What happens to the block `tid` whose links lead to the blocks that are written: only the links of `idx` change. -/
structure Owner3 (I : Nat → Info3) (S S' : FileSt) (tid : Nat) (idx : List Nat) : Prop where
  link : ∀ i, i ∉ idx → S'.link tid i = S.link tid i
  len : (S'.st tid).links.length = (S.st tid).links.length
  size : (S'.st tid).len = (S.st tid).len
  pos : S'.pos tid = S.pos tid
  exact : 0 < S.pos tid → BExact3 I S tid → BExact3 I S' tid

theorem Owner3.refl (S : FileSt) (tid : Nat) (idx : List Nat) : Owner3 I S S tid idx :=
  ⟨fun _ _ => rfl, rfl, rfl, rfl, fun _ x => x⟩

theorem Owner3.trans {S S' S'' : FileSt} {tid : Nat} {idx : List Nat} (h : Owner3 I S S' tid idx) (h' : Owner3 I S' S'' tid idx) :
    Owner3 I S S'' tid idx :=
  ⟨fun i hi => (h'.link i hi).trans (h.link i hi), h'.len.trans h.len, h'.size.trans h.size, h'.pos.trans h.pos,
    fun hp he => h'.exact (by rw [h.pos]; exact hp) (h.exact hp he)⟩

theorem Owner3.mono {S S' : FileSt} {tid : Nat} {idx idx' : List Nat} (h : Owner3 I S S' tid idx) (hs : ∀ i ∈ idx, i ∈ idx') :
    Owner3 I S S' tid idx' := ⟨fun i hi => h.link i (fun hj => hi (hs i hj)), h.len, h.size, h.pos, h.exact⟩

theorem Owner3.of_same {S S' : FileSt} {tid : Nat} (h : SameFor3 I S S' tid) (idx : List Nat) : Owner3 I S S' tid idx :=
  ⟨fun i _ => h.link i, by rw [h.1], by rw [h.1], h.pos, h.2⟩

theorem updateLink3_owner (S : FileSt) (id i v : Nat) (h : FileInv3 I S) (hi : LinkOk3 I S id i) :
    Owner3 I S (S.updateLink3 I id i v) id [i] := by
  refine ⟨?_, ?_, ?_, updateLink3_pos S id i v id, ?_⟩
  · intro k hk
    exact updateLink3_link_other S id i v k hi (by simpa using hk)
  · rw [updateLink3_st_same S id i v hi]; simp
  · rw [updateLink3_st_same S id i v hi]
  · intro hp he
    exact (updateLink3_mirror (I := I) S id i v h hp).2 he

/-- A finished block of a list stays finished when its link to the next block is set. -/
theorem NodeOk3.owner {S S' : FileSt} (n : Node) (hs : NodeShape3 I true n) (ho : Owner3 I S S' n.id [0])
    (hsame : ∀ j ∈ n.ids, j ≠ n.id → SameFor3 I S S' j) (hnd : n.ids.Nodup) {b : Bool} (h : NodeOk3 I S b n) : NodeOk3 I S' b n := by
  match n with
  | .mk id pre post =>
    simp only [Node.id] at ho hsame
    simp only [NodeOk3] at h ⊢
    simp only [NodeShape3] at hs
    obtain ⟨h1, h2, h3, h4, h5⟩ := h
    obtain ⟨_, _, _, hidx, _, _, _⟩ := hs
    simp only [Node.ids, List.nodup_cons] at hnd
    refine ⟨by rw [ho.pos]; exact h1, by rw [ho.len]; exact h2, fun hb => ho.exact h1 (h3 hb), ?_, ?_⟩
    · apply SlotsOk3.congr pre _ _ h4
      · intro i hi
        apply ho.link
        have := (hidx i (by simp [hi])).2 trivial
        simpa using this
      · intro j hj
        apply hsame j (by simp [Node.ids, hj])
        intro he; subst he
        exact hnd.1 (by simp [hj])
    · apply SlotsOk3.congr post _ _ h5
      · intro i hi
        apply ho.link
        have := (hidx i (by simp [hi])).2 trivial
        simpa using this
      · intro j hj
        apply hsame j (by simp [Node.ids, hj])
        intro he; subst he
        exact hnd.1 (by simp [hj])

end

end Mdf
