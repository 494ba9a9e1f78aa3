import Verif.Proof.TreeRead3

/-! MDF 3 files during measurements. -/

namespace Mdf

variable {I : Nat → Info3}

/-! ### The links a tree uses -/

mutual
def Node.uses : Node → List (Nat × Nat)
  | .mk id pre post => pre.uses id ++ post.uses id
def Slots.uses (id : Nat) : Slots → List (Nat × Nat)
  | .nil => []
  | .cons s kids rest => kids.uses id s.index ++ rest.uses id
def Kids.uses (tid ti : Nat) : Kids → List (Nat × Nat)
  | .nil => [(tid, ti)]
  | .cons n rest => (tid, ti) :: (n.uses ++ rest.uses n.id 0)
end

mutual
theorem Node.uses_fits {Sc : Schema} {j i : Nat} (n : Node) (h : NodeFits3 I Sc n) (hu : (j, i) ∈ n.uses) :
    i = 0 ∨ ∃ s ∈ Sc (I j).kind, s.index = i := by
  match n with
  | .mk id pre post =>
    simp only [NodeFits3] at h
    simp only [Node.uses, List.mem_append] at hu
    rcases hu with hu | hu
    · rcases Slots.uses_fits pre h.2.1 hu with ⟨rfl, s, hs, hi⟩ | h'
      · right; exact ⟨s, by rw [h.1]; simp [hs], hi⟩
      · exact h'
    · rcases Slots.uses_fits post h.2.2 hu with ⟨rfl, s, hs, hi⟩ | h'
      · right; exact ⟨s, by rw [h.1]; simp [hs], hi⟩
      · exact h'
theorem Slots.uses_fits {Sc : Schema} {j i : Nat} (l : Slots) {id : Nat} (h : SlotsFits3 I Sc l) (hu : (j, i) ∈ l.uses id) :
    (j = id ∧ ∃ s ∈ l.slots, s.index = i) ∨ (i = 0 ∨ ∃ s ∈ Sc (I j).kind, s.index = i) := by
  match l with
  | .nil => simp [Slots.uses] at hu
  | .cons s kids rest =>
    simp only [SlotsFits3] at h
    simp only [Slots.uses, List.mem_append] at hu
    rcases hu with hu | hu
    · rcases Kids.uses_fits kids h.1 hu with ⟨h1, h2⟩ | h'
      · left; exact ⟨h1, s, by simp [Slots.slots], h2.symm⟩
      · right; exact h'
    · rcases Slots.uses_fits rest h.2 hu with ⟨h1, s', hs, hi⟩ | h'
      · left; exact ⟨h1, s', by simp [Slots.slots, hs], hi⟩
      · right; exact h'
theorem Kids.uses_fits {Sc : Schema} {j i : Nat} (l : Kids) {tid ti : Nat} (h : KidsFits3 I Sc l) (hu : (j, i) ∈ l.uses tid ti) :
    (j = tid ∧ i = ti) ∨ (i = 0 ∨ ∃ s ∈ Sc (I j).kind, s.index = i) := by
  match l with
  | .nil => left; simpa [Kids.uses] using hu
  | .cons n rest =>
    simp only [KidsFits3] at h
    simp only [Kids.uses, List.mem_cons, List.mem_append, Prod.mk.injEq] at hu
    rcases hu with hu | hu | hu
    · left; exact hu
    · right; exact Node.uses_fits n h.1 hu
    · rcases Kids.uses_fits rest h.2 hu with ⟨_, h2⟩ | h'
      · right; left; exact h2
      · right; exact h'
end

/-! ### Writing a tree changes only the links the tree uses -/

theorem updateLink3_link_ne (S : FileSt) (id i v j k : Nat) (h : (j, k) ≠ (id, i)) :
    (S.updateLink3 I id i v).link j k = S.link j k := by
  unfold FileSt.link
  by_cases hj : j = id
  · subst hj
    have hk : k ≠ i := fun e => h (by rw [e])
    unfold FileSt.updateLink3
    split
    · rfl
    · split
      · rfl
      · show ((S.set j _).st j).links.getD k 0 = _
        rw [set_st_same]
        simp only [List.getD_eq_getElem?_getD]
        rw [List.getElem?_set_ne (by omega)]
  · rw [updateLink3_st_other S id i v hj]

theorem writeSelf3_keeps (S : FileSt) (id j : Nat) (h : 0 < S.pos j) :
    (S.writeSelf3 I id).st j = S.st j := by
  unfold FileSt.writeSelf3
  split
  · rfl
  next hp =>
    have hj : j ≠ id := fun e => hp (e ▸ h)
    have h1 : (S.append3 I id).st j = S.st j := by unfold FileSt.append3; exact set_st_other S _ hj
    cases (I id).final with
    | none => exact h1
    | some f =>
      show ((S.append3 I id).updateBlockSize3 id _).st j = _
      unfold FileSt.updateBlockSize3
      split
      · exact h1
      · split
        · exact h1
        · show ((S.append3 I id).set id _).st j = _
          rw [set_st_other _ _ hj, h1]

theorem start3_keeps (S : FileSt) (id j : Nat) (h : 0 < S.pos j) : (S.start3 I id).st j = S.st j := by
  by_cases hj : j = id
  · subst hj; rw [start3_written S j h]
  · exact (start3_frame (I := I) S id).st j hj

/-- Block `j` is in the file, its position and link `k` do not change. -/
def LinkKept (S S' : FileSt) (j k : Nat) : Prop := 0 < S'.pos j ∧ S'.pos j = S.pos j ∧ S'.link j k = S.link j k

theorem LinkKept.refl {S : FileSt} {j k : Nat} (h : 0 < S.pos j) : LinkKept S S j k := ⟨h, rfl, rfl⟩

theorem LinkKept.trans {S S' S'' : FileSt} {j k : Nat} (h : LinkKept S S' j k) (h' : LinkKept S' S'' j k) : LinkKept S S'' j k :=
  ⟨h'.1, h'.2.1.trans h.2.1, h'.2.2.trans h.2.2⟩

theorem LinkKept.of_st {S S' : FileSt} {j k : Nat} (hp : 0 < S.pos j) (h : S'.st j = S.st j) : LinkKept S S' j k := by
  unfold LinkKept FileSt.pos FileSt.link
  rw [h]
  exact ⟨hp, rfl, rfl⟩

mutual
theorem writeNode3_kept (n : Node) : ∀ (S : FileSt) (j k : Nat), 0 < S.pos j → (j, k) ∉ n.uses → LinkKept S (writeNode3 I S n) j k := by
  intro S j k hp hu
  match n with
  | .mk id pre post =>
    simp only [Node.uses, List.mem_append, not_or] at hu
    simp only [writeNode3]
    split
    · have a := LinkKept.of_st (k := k) hp (writeSelf3_keeps (I := I) S id j hp)
      exact a.trans (writeSlots3_kept post _ id j k a.1 hu.2)
    · have a := LinkKept.of_st (k := k) hp (start3_keeps (I := I) S id j hp)
      have b := writeSlots3_kept pre _ id j k a.1 hu.1
      have c := LinkKept.of_st (k := k) b.1 (writeSelf3_keeps (I := I) _ id j b.1)
      exact ((a.trans b).trans c).trans (writeSlots3_kept post _ id j k c.1 hu.2)
theorem writeSlots3_kept (l : Slots) : ∀ (S : FileSt) (id j k : Nat), 0 < S.pos j → (j, k) ∉ l.uses id →
    LinkKept S (writeSlots3 I S id l) j k := by
  intro S id j k hp hu
  match l with
  | .nil => exact LinkKept.refl hp
  | .cons s kids rest =>
    simp only [Slots.uses, List.mem_append, not_or] at hu
    simp only [writeSlots3]
    have a := writeKids3_kept kids S s.opt id s.index j k hp hu.1
    exact a.trans (writeSlots3_kept rest _ id j k a.1 hu.2)
theorem writeKids3_kept (l : Kids) : ∀ (S : FileSt) (opt : UpdOpt) (tid ti j k : Nat), 0 < S.pos j → (j, k) ∉ l.uses tid ti →
    LinkKept S (writeKids3 I S opt tid ti l) j k := by
  intro S opt tid ti j k hp hu
  match l with
  | .nil => exact LinkKept.refl hp
  | .cons n rest =>
    simp only [Kids.uses, List.mem_cons, List.mem_append, not_or] at hu
    simp only [writeKids3]
    split
    · have a := writeNode3_kept n S j k hp hu.2.1
      have b : LinkKept (writeNode3 I S n) ((writeNode3 I S n).updateLink3 I tid ti ((writeNode3 I S n).pos n.id)) j k :=
        ⟨by rw [updateLink3_pos]; exact a.1, updateLink3_pos _ _ _ _ _, updateLink3_link_ne _ _ _ _ _ _ hu.1⟩
      exact (a.trans b).trans (writeKids3_kept rest _ opt n.id 0 j k b.1 hu.2.2)
    · exact writeKids3_kept rest _ opt n.id 0 j k hp hu.2.2
end

/-! ### Trees that are in the file -/

mutual
theorem NodeOk3.all {S : FileSt} (n : Node) {c : Bool} (hs : NodeShape3 I c n) (h : NodeOk3 I S true n) :
    ∀ j ∈ n.ids, 0 < S.pos j ∧ (S.st j).links.length = (I j).nlinks ∧ (I j).head ≤ (I j).nlinks ∧ BExact3 I S j := by
  match n with
  | .mk id pre post =>
    simp only [NodeOk3] at h
    simp only [NodeShape3] at hs
    obtain ⟨h1, h2, h3, h4, h5⟩ := h
    obtain ⟨_, s2, _, _, _, s6, s7⟩ := hs
    intro j hj
    simp only [Node.ids, List.mem_cons, List.mem_append] at hj
    rcases hj with rfl | hj | hj
    · exact ⟨h1, h2, s2, h3 trivial⟩
    · exact SlotsOk3.all pre s6 h4 j hj
    · exact SlotsOk3.all post s7 h5 j hj
theorem SlotsOk3.all {S : FileSt} (l : Slots) {id : Nat} (hs : SlotsShape3 I l) (h : SlotsOk3 I S true id l) :
    ∀ j ∈ l.ids, 0 < S.pos j ∧ (S.st j).links.length = (I j).nlinks ∧ (I j).head ≤ (I j).nlinks ∧ BExact3 I S j := by
  match l with
  | .nil => intro j hj; simp [Slots.ids] at hj
  | .cons s kids rest =>
    simp only [SlotsOk3] at h
    simp only [SlotsShape3] at hs
    intro j hj
    simp only [Slots.ids, List.mem_append] at hj
    rcases hj with hj | hj
    · exact KidsOk3.all kids hs.1 h.1 j hj
    · exact SlotsOk3.all rest hs.2 h.2 j hj
theorem KidsOk3.all {S : FileSt} (l : Kids) {s : Slot} {tid ti : Nat} (hs : KidsShape3 I s l) (h : KidsOk3 I S true s tid ti l) :
    ∀ j ∈ l.ids, 0 < S.pos j ∧ (S.st j).links.length = (I j).nlinks ∧ (I j).head ≤ (I j).nlinks ∧ BExact3 I S j := by
  match l with
  | .nil => intro j hj; simp [Kids.ids] at hj
  | .cons n rest =>
    simp only [KidsOk3] at h
    simp only [KidsShape3] at hs
    obtain ⟨s1, _, s3, s4⟩ := hs
    rcases h with ⟨_, h, _⟩ | ⟨_, _, o3, o4⟩
    · exact absurd h (by simp)
    · intro j hj
      simp only [Kids.ids, List.mem_append] at hj
      rcases hj with hj | hj
      · exact NodeOk3.all n s1 (by simpa using o3) j hj
      · cases hc : s.chain with
        | true => exact KidsOk3.all rest s4 (o4 hc) j hj
        | false =>
          have := s3 hc
          match rest with
          | .nil => simp [Kids.ids] at hj
          | .cons _ _ => simp [Kids.isNil] at this
end

mutual
theorem NodeOk3.below {S : FileSt} (n : Node) {c : Bool} (hs : NodeShape3 I c n) (h : NodeOk3 I S true n) :
    ∀ m ∈ n.nodes, NodeOk3 I S true m ∧ (∃ c, NodeShape3 I c m) ∧ (∀ j ∈ m.ids, j ∈ n.ids) ∧ (n.ids.Nodup → m.ids.Nodup) := by
  match n with
  | .mk id pre post =>
    intro m hm
    simp only [Node.nodes, List.mem_cons, List.mem_append] at hm
    rcases hm with rfl | hm | hm
    · exact ⟨h, ⟨c, hs⟩, fun _ hj => hj, fun x => x⟩
    · simp only [NodeOk3] at h
      simp only [NodeShape3] at hs
      obtain ⟨a, b, c, d⟩ := SlotsOk3.below pre hs.2.2.2.2.2.1 h.2.2.2.1 m hm
      refine ⟨a, b, fun j hj => by simp [Node.ids, c j hj], fun hn => d ?_⟩
      simp only [Node.ids, List.nodup_cons] at hn
      exact (List.nodup_append.1 hn.2).1
    · simp only [NodeOk3] at h
      simp only [NodeShape3] at hs
      obtain ⟨a, b, c, d⟩ := SlotsOk3.below post hs.2.2.2.2.2.2 h.2.2.2.2 m hm
      refine ⟨a, b, fun j hj => by simp [Node.ids, c j hj], fun hn => d ?_⟩
      simp only [Node.ids, List.nodup_cons] at hn
      exact (List.nodup_append.1 hn.2).2.1
theorem SlotsOk3.below {S : FileSt} (l : Slots) {id : Nat} (hs : SlotsShape3 I l) (h : SlotsOk3 I S true id l) :
    ∀ m ∈ l.nodes, NodeOk3 I S true m ∧ (∃ c, NodeShape3 I c m) ∧ (∀ j ∈ m.ids, j ∈ l.ids) ∧ (l.ids.Nodup → m.ids.Nodup) := by
  match l with
  | .nil => intro m hm; simp [Slots.nodes] at hm
  | .cons s kids rest =>
    simp only [SlotsOk3] at h
    simp only [SlotsShape3] at hs
    intro m hm
    simp only [Slots.nodes, List.mem_append] at hm
    rcases hm with hm | hm
    · obtain ⟨a, b, c, d⟩ := KidsOk3.below kids hs.1 h.1 m hm
      exact ⟨a, b, fun j hj => by simp [Slots.ids, c j hj], fun hn => d (by
        simp only [Slots.ids] at hn; exact (List.nodup_append.1 hn).1)⟩
    · obtain ⟨a, b, c, d⟩ := SlotsOk3.below rest hs.2 h.2 m hm
      exact ⟨a, b, fun j hj => by simp [Slots.ids, c j hj], fun hn => d (by
        simp only [Slots.ids] at hn; exact (List.nodup_append.1 hn).2.1)⟩
theorem KidsOk3.below {S : FileSt} (l : Kids) {s : Slot} {tid ti : Nat} (hs : KidsShape3 I s l) (h : KidsOk3 I S true s tid ti l) :
    ∀ m ∈ l.nodes, NodeOk3 I S true m ∧ (∃ c, NodeShape3 I c m) ∧ (∀ j ∈ m.ids, j ∈ l.ids) ∧ (l.ids.Nodup → m.ids.Nodup) := by
  match l with
  | .nil => intro m hm; simp [Kids.nodes] at hm
  | .cons n rest =>
    simp only [KidsOk3] at h
    simp only [KidsShape3] at hs
    obtain ⟨s1, _, s3, s4⟩ := hs
    rcases h with ⟨_, h, _⟩ | ⟨_, _, o3, o4⟩
    · exact absurd h (by simp)
    · intro m hm
      simp only [Kids.nodes, List.mem_append] at hm
      rcases hm with hm | hm
      · obtain ⟨a, b, c, d⟩ := NodeOk3.below n s1 (by simpa using o3) m hm
        exact ⟨a, b, fun j hj => by simp [Kids.ids, c j hj], fun hn => d (by
          simp only [Kids.ids] at hn; exact (List.nodup_append.1 hn).1)⟩
      · cases hc : s.chain with
        | true =>
          obtain ⟨a, b, c, d⟩ := KidsOk3.below rest s4 (o4 hc) m hm
          exact ⟨a, b, fun j hj => by simp [Kids.ids, c j hj], fun hn => d (by
            simp only [Kids.ids] at hn; exact (List.nodup_append.1 hn).2.1)⟩
        | false =>
          have := s3 hc
          match rest with
          | .nil => simp [Kids.nodes] at hm
          | .cons _ _ => simp [Kids.isNil] at this
end

/-- What has to stay for a tree to be in the file. -/
structure Relink3 (I : Nat → Info3) (S S' : FileSt) (ids : List Nat) (uses : List (Nat × Nat)) : Prop where
  pos : ∀ j ∈ ids, S'.pos j = S.pos j
  len : ∀ j ∈ ids, (S'.st j).links.length = (S.st j).links.length
  exact : ∀ j ∈ ids, BExact3 I S' j
  link : ∀ j i, (j, i) ∈ uses → S'.link j i = S.link j i

theorem Relink3.mono {S S' : FileSt} {ids ids' : List Nat} {uses uses' : List (Nat × Nat)} (h : Relink3 I S S' ids uses)
    (h1 : ∀ j ∈ ids', j ∈ ids) (h2 : ∀ p ∈ uses', p ∈ uses) : Relink3 I S S' ids' uses' :=
  ⟨fun j hj => h.pos j (h1 j hj), fun j hj => h.len j (h1 j hj), fun j hj => h.exact j (h1 j hj), fun j i hj => h.link j i (h2 _ hj)⟩

mutual
theorem NodeOk3.relink {S S' : FileSt} (n : Node) (hr : Relink3 I S S' n.ids n.uses) (h : NodeOk3 I S true n) : NodeOk3 I S' true n := by
  match n with
  | .mk id pre post =>
    simp only [NodeOk3] at h ⊢
    obtain ⟨h1, h2, h3, h4, h5⟩ := h
    have hid : id ∈ (Node.mk id pre post).ids := by simp [Node.ids]
    refine ⟨by rw [hr.pos id hid]; exact h1, by rw [hr.len id hid]; exact h2, fun _ => hr.exact id hid, ?_, ?_⟩
    · exact SlotsOk3.relink pre (hr.mono (fun j hj => by simp [Node.ids, hj]) (fun p hp => by simp [Node.uses, hp])) h4
    · exact SlotsOk3.relink post (hr.mono (fun j hj => by simp [Node.ids, hj]) (fun p hp => by simp [Node.uses, hp])) h5
theorem SlotsOk3.relink {S S' : FileSt} (l : Slots) {id : Nat} (hr : Relink3 I S S' l.ids (l.uses id)) (h : SlotsOk3 I S true id l) :
    SlotsOk3 I S' true id l := by
  match l with
  | .nil => trivial
  | .cons s kids rest =>
    simp only [SlotsOk3] at h ⊢
    exact ⟨KidsOk3.relink kids (hr.mono (fun j hj => by simp [Slots.ids, hj]) (fun p hp => by simp [Slots.uses, hp])) h.1,
      SlotsOk3.relink rest (hr.mono (fun j hj => by simp [Slots.ids, hj]) (fun p hp => by simp [Slots.uses, hp])) h.2⟩
theorem KidsOk3.relink {S S' : FileSt} (l : Kids) {s : Slot} {tid ti : Nat} (hr : Relink3 I S S' l.ids (l.uses tid ti))
    (h : KidsOk3 I S true s tid ti l) : KidsOk3 I S' true s tid ti l := by
  match l with
  | .nil => simp only [KidsOk3] at h ⊢; rw [hr.link tid ti (by simp [Kids.uses])]; exact h
  | .cons n rest =>
    simp only [KidsOk3] at h ⊢
    rcases h with ⟨_, h, _⟩ | ⟨o1, o2, o3, o4⟩
    · exact absurd h (by simp)
    · right
      have hp := hr.pos n.id (by simp [Kids.ids, n.id_mem])
      rw [hp, hr.link tid ti (by simp [Kids.uses])]
      refine ⟨o1, o2, ?_, fun hc => ?_⟩
      · exact NodeOk3.relink n (hr.mono (fun j hj => by simp [Kids.ids, hj]) (fun p hp => by simp [Kids.uses, hp])) o3
      · exact KidsOk3.relink rest (hr.mono (fun j hj => by simp [Kids.ids, hj]) (fun p hp => by simp [Kids.uses, hp])) (o4 hc)
end

/-! ### Blocks below which nothing is written again -/

theorem writeKids3_settled {S : FileSt} {s : Slot} (ho : ∀ last, s.opt.again last = false) (l : Kids) : ∀ {tid ti : Nat},
    KidsShape3 I s l → KidsOk3 I S true s tid ti l → writeKids3 I S s.opt tid ti l = S := by
  match l with
  | .nil => intro tid ti _ _; rfl
  | .cons n rest =>
    intro tid ti hs h
    simp only [KidsOk3] at h
    simp only [KidsShape3] at hs
    rcases h with ⟨_, h, _⟩ | ⟨o1, o2, _, o4⟩
    · exact absurd h (by simp)
    · have hn : S.needUpdate s.opt tid ti n.id rest.isNil = false := by
        have := ho rest.isNil
        cases hopt : s.opt <;> simp_all [FileSt.needUpdate, UpdOpt.again] <;> omega
      simp only [writeKids3]
      rw [hn]
      simp only [Bool.false_eq_true, if_false]
      cases hc : s.chain with
      | true => exact writeKids3_settled ho rest hs.2.2.2 (o4 hc)
      | false =>
        have := hs.2.2.1 hc
        match rest with
        | .nil => rfl
        | .cons _ _ => simp [Kids.isNil] at this

theorem writeSlots3_settled {S : FileSt} {id : Nat} (l : Slots) (ho : ∀ s ∈ l.slots, ∀ last, s.opt.again last = false)
    (hs : SlotsShape3 I l) (h : SlotsOk3 I S true id l) : writeSlots3 I S id l = S := by
  match l with
  | .nil => rfl
  | .cons s kids rest =>
    simp only [SlotsOk3] at h
    simp only [SlotsShape3] at hs
    simp only [writeSlots3]
    rw [writeKids3_settled (ho s (by simp [Slots.slots])) kids hs.1 h.1]
    exact writeSlots3_settled rest (fun s hs => ho s (by simp [Slots.slots, hs])) hs.2 h.2

/-! ### The steps of saving samples -/

theorem setBody_st_same (S : FileSt) (id : Nat) (b : Bytes) : (S.setBody id b).st id = { S.st id with body := b } := set_st_same S id _

theorem setBody_st_other (S : FileSt) {id j : Nat} (b : Bytes) (h : j ≠ id) : (S.setBody id b).st j = S.st j := set_st_other S _ h

theorem setBody_pos (S : FileSt) (id j : Nat) (b : Bytes) : (S.setBody id b).pos j = S.pos j := by
  unfold FileSt.pos
  by_cases h : j = id
  · subst h; rw [setBody_st_same]
  · rw [setBody_st_other S b h]

theorem setBody_links (S : FileSt) (id j : Nat) (b : Bytes) : ((S.setBody id b).st j).links = (S.st j).links := by
  by_cases h : j = id
  · subst h; rw [setBody_st_same]
  · rw [setBody_st_other S b h]

theorem setBody_size (S : FileSt) (id j : Nat) (b : Bytes) (hb : b.length = (S.st id).body.length) :
    (S.setBody id b).size3 j = S.size3 j := by
  unfold FileSt.size3
  by_cases h : j = id
  · subst h; rw [setBody_st_same]; simp only [hb]
  · rw [setBody_st_other S b h]

theorem setBody_free {S : FileSt} {id : Nat} {b : Bytes} (hb : b.length = (S.st id).body.length) {q : Nat} (h : S.Free3 q) :
    (S.setBody id b).Free3 q := by
  intro j hp
  rw [setBody_pos] at hp ⊢
  rw [setBody_size S id j b hb]
  exact h j hp

theorem setBody_inv {S : FileSt} {id : Nat} {b : Bytes} (hb : BodyEdit3 (I id) (S.st id) b) (h : FileInv3 I S) :
    FileInv3 I (S.setBody id b) := by
  constructor
  · intro j hp
    rw [setBody_pos] at hp
    have hm := h.mirror j hp
    by_cases hj : j = id
    · subst hj
      refine Mirror3.of (setBody_st_same S j b) ?_ ?_ ?_
      · show (S.st j).len = (I j).decl b.length
        rw [hb.1]; exact hm.len
      · show S.pos j + (4 + 4 * (S.st j).links.length + b.length) ≤ S.data.length
        rw [hb.1]; exact hm.inside
      · intro i hi hr
        show S.data[S.pos j + i]? = (lay3 (I j) { S.st j with body := b })[i]?
        rw [hb.2 i hr]
        apply hm.bytes i _ hr
        have hi' : i < 4 + 4 * (S.st j).links.length + b.length := hi
        rw [hb.1] at hi'; exact hi'
    · exact hm.agree (setBody_st_other S b hj) (Agree.refl _ _ _) (Nat.le_refl _)
  · intro x y hxy hx hy
    rw [setBody_pos] at hx hy ⊢
    rw [setBody_pos, setBody_size S id x b hb.1, setBody_size S id y b hb.1]
    exact h.disjoint x y hxy hx hy

/-- What holds between two steps. -/
structure Good3 (I : Nat → Info3) (S : FileSt) (n : Node) : Prop where
  inv : FileInv3 I S
  ne : S.data ≠ []
  thrown : S.thrown = false
  ok : NodeOk3 I S true n
  shape : NodeShape3 I false n
  nodup : n.ids.Nodup

/-- A channel group is written again with new values. -/
theorem group_step {S : FileSt} {n m : Node} {body : Bytes} (h : Good3 I S n) (hm : m ∈ n.nodes) (hl : m.leaf3)
    (hb : BodyEdit3 (I m.id) (S.st m.id) body) :
    Good3 I (writeNode3 I (S.setBody m.id body) m) n ∧
    (∀ j, j ≠ m.id → (writeNode3 I (S.setBody m.id body) m).st j = S.st j) ∧
    (∀ j k, (writeNode3 I (S.setBody m.id body) m).link j k = S.link j k) ∧
    (∀ j, (writeNode3 I (S.setBody m.id body) m).pos j = S.pos j) ∧
    ((writeNode3 I (S.setBody m.id body) m).st m.id).body = body ∧
    (∀ q, q < S.data.length → S.Free3 q → (writeNode3 I (S.setBody m.id body) m).data[q]? = S.data[q]? ∧
      (writeNode3 I (S.setBody m.id body) m).Free3 q) ∧
    S.data.length ≤ (writeNode3 I (S.setBody m.id body) m).data.length := by
  obtain ⟨b1, ⟨c, b2⟩, b3, b4⟩ := NodeOk3.below n h.shape h.ok m hm
  have hnd := b4 h.nodup
  match m with
  | .mk id pre post =>
    simp only [Node.id] at hb ⊢
    simp only [NodeOk3] at b1
    simp only [NodeShape3] at b2
    obtain ⟨o1, o2, _, _, o5⟩ := b1
    have hpa : 0 < (S.setBody id body).pos id := by rw [setBody_pos]; exact o1
    obtain ⟨r1, r2, r3⟩ := rewrite3_spec (I := I) (S.setBody id body) id hpa (setBody_inv hb h.inv)
    have hW : writeNode3 I (S.setBody id body) (.mk id pre post)
        = writeSlots3 I ((S.setBody id body).rewrite3 I id) id post := by
      simp only [writeNode3]
      rw [if_pos hpa]
      unfold FileSt.writeSelf3
      rw [if_pos hpa]
    have hst : ∀ j, j ≠ id → ((S.setBody id body).rewrite3 I id).st j = S.st j := by
      intro j hj
      show (S.setBody id body).st j = _
      exact setBody_st_other S body hj
    have hlink : ∀ j k, ((S.setBody id body).rewrite3 I id).link j k = S.link j k := by
      intro j k
      show (S.setBody id body).link j k = _
      unfold FileSt.link; rw [setBody_links]
    have hpos : ∀ j, ((S.setBody id body).rewrite3 I id).pos j = S.pos j := fun j => setBody_pos S id j body
    have hexact : ∀ j, j ≠ id → 0 < S.pos j → BExact3 I S j → BExact3 I ((S.setBody id body).rewrite3 I id) j := by
      intro j hj hp he
      have e1 : BExact3 I (S.setBody id body) j := he.agree (setBody_st_other S body hj) (Agree.refl _ _ _)
      exact r3.exact hj (by rw [setBody_pos]; exact hp) e1
    simp only [Node.ids, List.nodup_cons, List.mem_append, not_or] at hnd
    have hpost : SlotsOk3 I ((S.setBody id body).rewrite3 I id) true id post := by
      apply SlotsOk3.congr post (fun i _ => hlink id i) _ o5
      intro j hj
      have hji : j ≠ id := fun e => hnd.1.2 (e ▸ hj)
      exact ⟨hst j hji, fun hp he => hexact j hji hp he⟩
    have hset := writeSlots3_settled (I := I) post hl b2.2.2.2.2.2.2 hpost
    rw [hW, hset]
    refine ⟨⟨r1, ?_, h.thrown, ?_, h.shape, h.nodup⟩, hst, hlink, hpos, ?_, ?_, r3.grow⟩
    · exact r3.ne h.ne
    · apply NodeOk3.relink n _ h.ok
      refine ⟨fun j _ => hpos j, fun j _ => ?_, fun j hj => ?_, fun j i _ => hlink j i⟩
      · show ((S.setBody id body).st j).links.length = _
        rw [setBody_links]
      · by_cases hji : j = id
        · subst hji; exact r2
        · obtain ⟨p1, _, _, p4⟩ := NodeOk3.all n h.shape h.ok j hj
          exact hexact j hji p1 p4
    · show ((S.setBody id body).st id).body = body
      rw [setBody_st_same]
    · intro q hq hf
      exact r3.free q hq (setBody_free hb.1 hf)

/-- All groups are written again. -/
theorem groups_step {n : Node} (cgs : List (Node × Bytes)) : ∀ {S : FileSt}, Good3 I S n →
    (∀ p ∈ cgs, p.1 ∈ n.nodes ∧ p.1.leaf3 ∧ BodyEdit3 (I p.1.id) (S.st p.1.id) p.2) → (cgs.map (·.1.id)).Nodup →
    Good3 I (cgs.foldl (fun S p => writeNode3 I (S.setBody p.1.id p.2) p.1) S) n ∧
    (∀ j k, (cgs.foldl (fun S p => writeNode3 I (S.setBody p.1.id p.2) p.1) S).link j k = S.link j k) ∧
    (∀ j, (cgs.foldl (fun S p => writeNode3 I (S.setBody p.1.id p.2) p.1) S).pos j = S.pos j) ∧
    (∀ j, j ∉ cgs.map (·.1.id) → (cgs.foldl (fun S p => writeNode3 I (S.setBody p.1.id p.2) p.1) S).st j = S.st j) ∧
    (∀ p ∈ cgs, ((cgs.foldl (fun S p => writeNode3 I (S.setBody p.1.id p.2) p.1) S).st p.1.id).body = p.2) ∧
    (∀ q, q < S.data.length → S.Free3 q →
      (cgs.foldl (fun S p => writeNode3 I (S.setBody p.1.id p.2) p.1) S).data[q]? = S.data[q]? ∧
      (cgs.foldl (fun S p => writeNode3 I (S.setBody p.1.id p.2) p.1) S).Free3 q) := by
  induction cgs with
  | nil => intro S h _ _; exact ⟨h, fun _ _ => rfl, fun _ => rfl, fun _ _ => rfl, by simp, fun _ _ hf => ⟨rfl, hf⟩⟩
  | cons p cgs ih =>
    intro S h hp hn
    simp only [List.foldl_cons]
    simp only [List.map_cons, List.nodup_cons] at hn
    obtain ⟨q1, q2, q3⟩ := hp p (by simp)
    obtain ⟨g1, g2, g3, g3p, g4, g5, g6⟩ := group_step h q1 q2 q3
    generalize hS1 : writeNode3 I (S.setBody p.1.id p.2) p.1 = S1 at *
    have hne : ∀ x ∈ cgs, x.1.id ≠ p.1.id := fun x hx e => hn.1 (List.mem_map.2 ⟨x, hx, e⟩)
    obtain ⟨i1, i2, i2p, i3, i4, i5⟩ := ih (S := S1) g1 (fun x hx => by
      obtain ⟨a, b, c⟩ := hp x (by simp [hx])
      exact ⟨a, b, by rw [g2 _ (hne x hx)]; exact c⟩) hn.2
    refine ⟨i1, fun j k => (i2 j k).trans (g3 j k), fun j => (i2p j).trans (g3p j), ?_, ?_, ?_⟩
    · intro j hj
      simp only [List.map_cons, List.mem_cons, not_or] at hj
      rw [i3 j hj.2, g2 j hj.1]
    · intro x hx
      rcases List.mem_cons.1 hx with rfl | hx
      · rw [i3 _ hn.1, g4]
      · exact i4 x hx
    · intro q hq hf
      obtain ⟨a, b⟩ := g5 q hq hf
      obtain ⟨c, d⟩ := i5 q (Nat.lt_of_lt_of_le hq g6) b
      exact ⟨c.trans a, d⟩

/-- The link to the data is set. -/
theorem link_step {S : FileSt} {n : Node} (h : Good3 I S n) {dg d v : Nat} (hdg : dg ∈ n.ids) (hd : d < (I dg).head)
    (hu : (dg, d) ∉ n.uses) :
    Good3 I (S.updateLink3 I dg d v) n ∧ (S.updateLink3 I dg d v).link dg d = v ∧
    (∀ j, j ≠ dg → (S.updateLink3 I dg d v).st j = S.st j) ∧ (∀ j, ((S.updateLink3 I dg d v).st j).body = (S.st j).body) ∧
    (∀ j, (S.updateLink3 I dg d v).pos j = S.pos j) ∧
    (∀ q, q < S.data.length → S.Free3 q → (S.updateLink3 I dg d v).data[q]? = S.data[q]? ∧ (S.updateLink3 I dg d v).Free3 q) ∧
    S.data.length ≤ (S.updateLink3 I dg d v).data.length := by
  obtain ⟨p1, p2, p3, p4⟩ := NodeOk3.all n h.shape h.ok dg hdg
  have hok : LinkOk3 I S dg d := ⟨by omega, fun _ => hd⟩
  have hpost := updateLink3_post (I := I) S dg d v h.inv h.ne hok
  refine ⟨⟨hpost.inv, hpost.ne, by rw [hpost.thrown]; exact h.thrown, ?_, h.shape, h.nodup⟩, updateLink3_link_same S dg d v hok,
    fun j hj => updateLink3_st_other S dg d v hj, hpost.body, fun j => updateLink3_pos S dg d v j, hpost.free, hpost.grow⟩
  apply NodeOk3.relink n _ h.ok
  refine ⟨fun j _ => updateLink3_pos S dg d v j, fun j _ => ?_, fun j hj => ?_, fun j i hi => ?_⟩
  · by_cases hj : j = dg
    · subst hj; rw [updateLink3_st_same S j d v hok]; simp
    · rw [updateLink3_st_other S dg d v hj]
  · by_cases hjd : j = dg
    · subst hjd; exact (updateLink3_mirror (I := I) S j d v h.inv p1).2 p4
    · obtain ⟨q1, _, _, q4⟩ := NodeOk3.all n h.shape h.ok j hj
      exact (hpost.same j (by simpa using hjd)).2 q1 q4
  · apply updateLink3_link_ne
    intro e
    exact hu (e ▸ hi)

/-- Bytes are appended to the file. -/
theorem data_step {S : FileSt} {n : Node} (h : Good3 I S n) (bs : Bytes) :
    Good3 I { S with data := S.data ++ bs } n := by
  have hm : ∀ j, 0 < S.pos j → Mirror3 I { S with data := S.data ++ bs } j := fun j hj =>
    (h.inv.mirror j hj).agree rfl (agree_append _ _ (h.inv.mirror j hj).inside) (by simp)
  refine ⟨⟨hm, h.inv.disjoint⟩, by simp [h.ne], h.thrown, ?_, h.shape, h.nodup⟩
  apply NodeOk3.congr n _ h.ok
  intro j _
  exact ⟨rfl, fun hp he => he.agree rfl (agree_append _ _ (h.inv.mirror j hp).inside)⟩

/-! ### Histories -/

/-- What is recorded for the data groups. -/
structure Rec3 (I : Nat → Info3) (dk d : Nat) (S : FileSt) (j : Nat) (bs : Bytes) : Prop where
  written : 0 < S.pos j
  kind : (I j).kind = dk
  link : 0 < S.link j d
  bytes : HasAt S.data (S.link j d) bs
  free : ∀ k, k < bs.length → S.Free3 (S.link j d + k)

theorem HasAt.inside {data bs : Bytes} {p k : Nat} (h : HasAt data p bs) (hk : k < bs.length) : p + k < data.length := by
  have := h k hk
  rw [List.getElem?_eq_getElem hk] at this
  exact (List.getElem?_eq_some_iff.1 this).1

theorem Rec3.step {dk d : Nat} {S S' : FileSt} {j : Nat} {bs : Bytes} (h : Rec3 I dk d S j bs) (hp : S'.pos j = S.pos j)
    (hl : S'.link j d = S.link j d)
    (hf : ∀ q, q < S.data.length → S.Free3 q → S'.data[q]? = S.data[q]? ∧ S'.Free3 q) : Rec3 I dk d S' j bs := by
  refine ⟨by rw [hp]; exact h.written, h.kind, by rw [hl]; exact h.link, ?_, ?_⟩
  · intro k hk
    rw [hl, (hf _ (h.bytes.inside hk) (h.free k hk)).1]
    exact h.bytes k hk
  · intro k hk
    rw [hl]
    exact (hf _ (h.bytes.inside hk) (h.free k hk)).2

def Node.pre : Node → Slots
  | .mk _ pre _ => pre

theorem NodeGrown3.pre_eq {S : FileSt} {n n' : Node} (h : NodeGrown3 S n n') : n'.pre = n.pre := by
  cases n; cases n'
  simp only [NodeGrown3] at h
  exact h.2.1

theorem fresh_index (l : List (Nat × Nat)) : ∃ k, ∀ p ∈ l, p.2 < k := by
  induction l with
  | nil => exact ⟨0, by simp⟩
  | cons a l ih =>
    obtain ⟨k, hk⟩ := ih
    refine ⟨max k (a.2 + 1), ?_⟩
    intro p hp
    rcases List.mem_cons.1 hp with rfl | hp
    · omega
    · have := hk p hp; omega

/-- Blocks in the file stay where they are. -/
theorem writeSlots3_pos (l : Slots) (S : FileSt) (id j : Nat) (h : 0 < S.pos j) : (writeSlots3 I S id l).pos j = S.pos j := by
  obtain ⟨k, hk⟩ := fresh_index (l.uses id)
  exact (writeSlots3_kept l S id j k h (fun hm => by have := hk _ hm; simp at this)).2.1

/-- The root of the tree is where the file ended. -/
theorem root_pos {S : FileSt} {n : Node} (h : NodeFresh S n) (hpre : n.pre = .nil) (hd : S.data ≠ []) :
    (writeNode3 I S n).pos n.id = S.data.length := by
  match n with
  | .mk id pre post =>
    simp only [Node.pre] at hpre
    subst hpre
    simp only [NodeFresh] at h
    obtain ⟨l1, l2, l3⟩ := start3_links (I := I) S id h.1 h.2.1
    have hps : (S.start3 I id).pos id = 0 := by rw [start3_pos]; exact h.1
    have hdata : (S.start3 I id).data = S.data := by unfold FileSt.start3; split <;> rfl
    have happ := writeSelf3_append (I := I) (S.start3 I id) id hps (by rw [hdata]; exact hd) l3
    have hpos : ((S.start3 I id).writeSelf3 I id).pos id = S.data.length := by
      unfold FileSt.pos; rw [happ.1]; unfold appended3; simp only; rw [hdata]
    simp only [Node.id, writeNode3, writeSlots3]
    rw [if_neg (by omega)]
    have hl : 0 < S.data.length := List.length_pos_iff.2 hd
    have := writeSlots3_pos (I := I) post ((S.start3 I id).writeSelf3 I id) id id (by omega)
    rw [this, hpos]

theorem unused_link {Sc : Schema} {dk d : Nat} {n : Node} (hf : NodeFits3 I Sc n) (h0 : d ≠ 0) (hsc : ∀ s ∈ Sc dk, s.index ≠ d) {j : Nat}
    (hj : (I j).kind = dk) : (j, d) ∉ n.uses := by
  intro hu
  rcases Node.uses_fits n hf hu with h | ⟨s, hs, hi⟩
  · exact h0 h
  · rw [hj] at hs; exact hsc s hs hi

/-- What holds after any history. -/
structure SessOk3 (I : Nat → Info3) (Sc : Schema) (dk d start : Nat) (S : FileSt) (n : Node) (log : Nat → Bytes) : Prop where
  good : Good3 I S n
  fits : NodeFits3 I Sc n
  root : n.pre = .nil → S.pos n.id = start
  recs : ∀ j, log j ≠ [] → Rec3 I dk d S j (log j)

theorem samples_ok {Sc : Schema} {dk d start : Nat} (h0 : d ≠ 0) (hsc : ∀ s ∈ Sc dk, s.index ≠ d) {S : FileSt} {n : Node}
    {log : Nat → Bytes} (h : SessOk3 I Sc dk d start S n log) {dg : Nat} (bytes : Bytes) {cgs : List (Node × Bytes)}
    (hdg : dg ∈ n.ids) (hk : (I dg).kind = dk) (hd : d < (I dg).head)
    (hcg : ∀ p ∈ cgs, p.1 ∈ n.nodes ∧ p.1.leaf3 ∧ BodyEdit3 (I p.1.id) (S.st p.1.id) p.2)
    (hnd : (cgs.map (·.1.id)).Nodup) (hdc : dg ∉ cgs.map (·.1.id))
    (hend : 0 < S.link dg d → S.link dg d + (log dg).length = S.data.length) :
    SessOk3 I Sc dk d start (S.saveSamples3 I dg d bytes cgs) n (fun j => if j = dg then log dg ++ bytes else log j) ∧
    (∀ j, j ∉ cgs.map (·.1.id) → ((S.saveSamples3 I dg d bytes cgs).st j).body = (S.st j).body) ∧
    (∀ p ∈ cgs, ((S.saveSamples3 I dg d bytes cgs).st p.1.id).body = p.2) := by
  have hu := unused_link h.fits h0 hsc hk
  -- the link
  have step1 : ∃ S1, S1 = (if 0 < S.link dg d then S else S.updateLink3 I dg d S.data.length) ∧ Good3 I S1 n ∧
      0 < S1.link dg d ∧ S1.link dg d + (log dg).length = S1.data.length ∧
      (∀ j, j ≠ dg → S1.st j = S.st j) ∧ (∀ j, (S1.st j).body = (S.st j).body) ∧ (∀ j, S1.pos j = S.pos j) ∧
      (∀ j, log j ≠ [] → Rec3 I dk d S1 j (log j)) := by
    by_cases hl : 0 < S.link dg d
    · exact ⟨S, by rw [if_pos hl], h.good, hl, hend hl, fun _ _ => rfl, fun _ => rfl, fun _ => rfl, h.recs⟩
    · refine ⟨S.updateLink3 I dg d S.data.length, by rw [if_neg hl], ?_⟩
      obtain ⟨l1, l2, l3, l3b, l4, l5, l6⟩ := link_step (v := S.data.length) h.good hdg hd hu
      have hempty : log dg = [] := by
        by_cases he : log dg = []
        · exact he
        · exact absurd (h.recs dg he).link hl
      have hlen : (S.updateLink3 I dg d S.data.length).data.length = S.data.length := by
        obtain ⟨p1, p2, p3, p4⟩ := NodeOk3.all n h.good.shape h.good.ok dg hdg
        have hin := (h.good.inv.mirror dg p1).inside
        have hz : S.size3 dg = 4 + 4 * (S.st dg).links.length + (S.st dg).body.length := rfl
        unfold FileSt.updateLink3
        split
        · rfl
        · split
          · rfl
          · show (putAt S.data (S.pos dg + (4 + d * 4)) (leBytes 4 S.data.length)).length = S.data.length
            rw [putAt_length (by omega), leBytes_length]
            omega
      have hpos := List.length_pos_iff.2 h.good.ne
      refine ⟨l1, by rw [l2]; exact hpos, by rw [l2, hempty, hlen]; simp, l3, l3b, l4, ?_⟩
      intro j hj
      have hjd : j ≠ dg := fun e => hj (e ▸ hempty)
      exact (h.recs j hj).step (l4 j) (by unfold FileSt.link; rw [l3 j hjd]) l5
  obtain ⟨S1, hS1, g1, k1, k2, k3, k4, k5, k6⟩ := step1
  -- the records
  have g2 := data_step g1 bytes
  have hfree2 : ∀ q, S1.Free3 q → ({ S1 with data := S1.data ++ bytes } : FileSt).Free3 q := fun q hf => hf
  have hst : ∀ p ∈ cgs, ({ S1 with data := S1.data ++ bytes } : FileSt).st p.1.id = S.st p.1.id := by
    intro p hp
    exact k3 _ (fun e => hdc (e ▸ List.mem_map.2 ⟨p, hp, rfl⟩))
  obtain ⟨i1, i2, i2p, i3, i4, i5⟩ := groups_step (I := I) cgs g2 (fun p hp => by
    obtain ⟨a, b, c⟩ := hcg p hp
    exact ⟨a, b, by rw [hst p hp]; exact c⟩) hnd
  have hW : S.saveSamples3 I dg d bytes cgs
      = cgs.foldl (fun S p => writeNode3 I (S.setBody p.1.id p.2) p.1) { S1 with data := S1.data ++ bytes } := by
    unfold FileSt.saveSamples3; rw [hS1]
  rw [hW]
  generalize cgs.foldl (fun S p => writeNode3 I (S.setBody p.1.id p.2) p.1) { S1 with data := S1.data ++ bytes } = S' at *
  have hpos' : ∀ j, S'.pos j = S.pos j := fun j => (i2p j).trans (k5 j)
  have hfree : ∀ q, q < S1.data.length → S1.Free3 q → S'.data[q]? = S1.data[q]? ∧ S'.Free3 q := by
    intro q hq hf
    obtain ⟨a, b⟩ := i5 q (by simp only [List.length_append]; omega) hf
    refine ⟨?_, b⟩
    rw [a]
    exact List.getElem?_append_left hq
  refine ⟨⟨i1, h.fits, fun hpre => by rw [hpos']; exact h.root hpre, ?_⟩, ?_, i4⟩
  · intro j hj
    by_cases hjd : j = dg
    · subst hjd
      rw [if_pos rfl] at hj ⊢
      have hlink : S'.link j d = S1.link j d := i2 j d
      have hold : ∀ k, k < (log j).length → (S'.data[S1.link j d + k]? = (log j)[k]?) ∧ S'.Free3 (S1.link j d + k) := by
        intro k hk
        have hne : log j ≠ [] := fun e => by simp [e] at hk
        have hr := k6 j hne
        obtain ⟨a, b⟩ := hfree _ (hr.bytes.inside hk) (hr.free k hk)
        exact ⟨by rw [a]; exact hr.bytes k hk, b⟩
      have hnew : ∀ k, k < bytes.length → (S'.data[S1.data.length + k]? = bytes[k]?) ∧ S'.Free3 (S1.data.length + k) := by
        intro k hk
        have hf : ({ S1 with data := S1.data ++ bytes } : FileSt).Free3 (S1.data.length + k) := by
          intro id hp
          right
          have := (g1.inv.mirror id hp).inside
          have e : ({ S1 with data := S1.data ++ bytes } : FileSt).pos id + ({ S1 with data := S1.data ++ bytes } : FileSt).size3 id
              = S1.pos id + S1.size3 id := rfl
          omega
        obtain ⟨a, b⟩ := i5 (S1.data.length + k) (by simp only [List.length_append]; omega) hf
        refine ⟨?_, b⟩
        rw [a]
        show (S1.data ++ bytes)[_]? = _
        rw [List.getElem?_append_right (by omega)]
        congr 1; omega
      have hw : 0 < S.pos j := (NodeOk3.all n h.good.shape h.good.ok j hdg).1
      refine ⟨by rw [hpos']; exact hw, hk, by rw [hlink]; exact k1, ?_, ?_⟩
      · intro k hkl
        rw [hlink]
        rw [List.length_append] at hkl
        by_cases hlt : k < (log j).length
        · rw [List.getElem?_append_left hlt]; exact (hold k hlt).1
        · rw [List.getElem?_append_right (by omega)]
          have := (hnew (k - (log j).length) (by omega)).1
          rw [← this]
          congr 1; omega
      · intro k hkl
        rw [hlink]
        rw [List.length_append] at hkl
        by_cases hlt : k < (log j).length
        · exact (hold k hlt).2
        · have := (hnew (k - (log j).length) (by omega)).2
          rw [show S1.link j d + k = S1.data.length + (k - (log j).length) by omega]
          exact this
    · rw [if_neg hjd] at hj ⊢
      have hr := k6 j hj
      exact hr.step ((hpos' j).trans (k5 j).symm) (i2 j d) hfree
  · intro j hj
    rw [i3 j hj]
    exact k4 j

theorem Session3.ok {Sc : Schema} {dk d start : Nat} (h0 : d ≠ 0) (hsc : ∀ s ∈ Sc dk, s.index ≠ d) {S : FileSt} {n : Node}
    {log : Nat → Bytes} (h : Session3 I Sc dk d start S n log) : SessOk3 I Sc dk d start S n log := by
  induction h with
  | first a1 a2 a3 a4 a5 a6 a7 a8 =>
    next S n =>
    have hd : S.data ≠ [] := List.length_pos_iff.1 (by omega)
    have hp := writeNode3_spec _ _ false a1 hd a6 a8 (Or.inl a5)
    exact ⟨⟨hp.post.inv, hp.post.ne, by rw [hp.post.thrown]; exact a4, hp.ok, a6, a8⟩, a7,
      fun hpre => by rw [root_pos a5 hpre hd]; exact a2, fun j hj => absurd rfl hj⟩
  | again _ he hs hf hn ih =>
    next S S' n n' log _ =>
    have g := ih.good
    have ok := NodeOk3.grown (he.quiet g.inv) _ _ (fun j _ hj => hj) hn g.ok he.grown
    have hp := writeNode3_spec _ _ false (he.inv g.inv) (by rw [he.data]; exact g.ne) hs hn (Or.inr ok)
    refine ⟨⟨hp.post.inv, hp.post.ne, by rw [hp.post.thrown, he.thrown]; exact g.thrown, hp.ok, hs, hn⟩, hf, ?_, ?_⟩
    · intro hpre
      have hid : n'.id = n.id := he.grown.id_eq
      have h1 := g.ok.written
      rw [hp.post.keep _ (by rw [he.pos, hid]; exact h1), he.pos, hid]
      exact ih.root (by rw [← he.grown.pre_eq]; exact hpre)
    · intro j hj
      have hr := ih.recs j hj
      have hw := hr.written
      have hkept := writeNode3_kept (I := I) n' S' j d (by rw [he.pos]; exact hw) (unused_link hf h0 hsc hr.kind)
      have hl : S'.link j d = S.link j d := edited_link (fun id hp => (he.kept id hp).2.1) hw d
      apply hr.step (hkept.2.1.trans (he.pos j)) (hkept.2.2.trans hl)
      intro q hq hfree
      obtain ⟨a, b⟩ := hp.post.free q (by rw [he.data]; exact hq) (he.free hfree)
      exact ⟨by rw [a, he.data], b⟩
  | samples dg bytes cgs _ b1 b2 b3 b4 b5 b6 b7 ih =>
    exact (samples_ok h0 hsc ih bytes b1 b2 b3 b4 b5 b6 b7).1

end Mdf
