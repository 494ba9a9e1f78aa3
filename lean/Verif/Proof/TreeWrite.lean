import Verif.Proof.Tree

/-! The main theorem about writing a tree of blocks. -/

namespace Mdf

section
variable {I : Nat → Info}

theorem foldl_set_length (S : FileSt) (refs : List (Nat × Nat)) (ls : List Nat) :
    (refs.foldl (fun ls r => ls.set r.1 (S.pos r.2)) ls).length = ls.length := by
  induction refs generalizing ls with
  | nil => rfl
  | cons r rs ih => simp only [List.foldl_cons]; rw [ih]; simp

theorem foldl_set_other (S : FileSt) (refs : List (Nat × Nat)) (ls : List Nat) (i : Nat) (h : ∀ r ∈ refs, r.1 ≠ i) :
    (refs.foldl (fun ls r => ls.set r.1 (S.pos r.2)) ls)[i]? = ls[i]? := by
  induction refs generalizing ls with
  | nil => rfl
  | cons r rs ih =>
    simp only [List.foldl_cons]
    rw [ih _ (fun q hq => h q (by simp [hq])), List.getElem?_set_ne (h r (by simp))]

/-- The links of a new block after the start of `Write`. -/
theorem start_links (S : FileSt) (id : Nat) (hp : S.pos id = 0) (hl : (S.st id).links = []) :
    ((S.start I id).st id).links.length = (I id).nlinks ∧
    ∀ i, (∀ r ∈ (I id).refs, r.1 ≠ i) → (S.start I id).link id i = 0 := by
  have hst : ((S.start I id).st id).links
      = (I id).refs.foldl (fun ls r => ls.set r.1 (S.pos r.2)) (resizeLinks (S.st id).links (I id).nlinks) := by
    unfold FileSt.start
    rw [if_neg (by omega)]
    show ((S.set id _).st id).links = _
    rw [set_st_same]
  refine ⟨?_, ?_⟩
  · rw [hst, foldl_set_length, hl]; simp [resizeLinks]
  · intro i hi
    unfold FileSt.link
    rw [List.getD_eq_getElem?_getD, hst, foldl_set_other S _ _ i hi, hl]
    simp [resizeLinks, List.getElem?_replicate]
    split <;> rfl

/-- Writing the first block of a list, if need be, and setting the link to it. -/
def headStep (I : Nat → Info) (S : FileSt) (opt : UpdOpt) (tid ti : Nat) (n : Node) (last : Bool) : FileSt :=
  if S.needUpdate opt tid ti n.id last then (writeNode I S n).updateLink tid ti ((writeNode I S n).pos n.id) else S

theorem writeKids_cons (S : FileSt) (opt : UpdOpt) (tid ti : Nat) (n : Node) (rest : Kids) :
    writeKids I S opt tid ti (.cons n rest) = writeKids I (headStep I S opt tid ti n rest.isNil) opt n.id 0 rest := by
  simp only [writeKids, headStep]
  split <;> rfl

/-- What holds after a tree was written. -/
structure NodePost (I : Nat → Info) (S S' : FileSt) (c : Bool) (n : Node) : Prop where
  post : Post I n.ids S S'
  ok : NodeOk I S' true n
  next : c = true → S'.link n.id 0 = S.link n.id 0

theorem NodeOk.written {S : FileSt} {b : Bool} {n : Node} (h : NodeOk I S b n) : 0 < S.pos n.id := by
  cases n; simp only [NodeOk] at h; exact h.1

theorem NodeOk.links {S : FileSt} {b : Bool} {n : Node} (h : NodeOk I S b n) :
    (S.st n.id).links.length = (I n.id).nlinks := by
  cases n; simp only [NodeOk] at h; exact h.2.1

theorem NodeShape.chain_links {n : Node} (h : NodeShape I true n) : 0 < (I n.id).nlinks := by
  cases n; simp only [NodeShape] at h; exact h.2.1 trivial

theorem NodeFresh.unwritten {S : FileSt} {n : Node} (h : NodeFresh S n) : S.pos n.id = 0 ∧ (S.st n.id).links = [] := by
  cases n; simp only [NodeFresh] at h; exact ⟨h.1, h.2.1⟩

theorem needUpdate_fresh {S : FileSt} {opt : UpdOpt} {tid ti id : Nat} {last : Bool} (h : S.pos id = 0)
    (hl : S.link tid ti = 0) : S.needUpdate opt tid ti id last = true := by
  cases opt <;> simp [FileSt.needUpdate, h, hl]

theorem needUpdate_not {S : FileSt} {opt : UpdOpt} {tid ti id : Nat} {last : Bool}
    (h : S.needUpdate opt tid ti id last = false) : opt ≠ .all := by
  intro he; subst he; simp [FileSt.needUpdate] at h

mutual
theorem NodeOk.weaken {S : FileSt} (n : Node) (h : NodeOk I S true n) : NodeOk I S false n := by
  match n with
  | .mk id pre post =>
    simp only [NodeOk] at h ⊢
    exact ⟨h.1, h.2.1, fun e => absurd e (by simp), SlotsOk.weaken pre h.2.2.2.1, SlotsOk.weaken post h.2.2.2.2⟩
theorem SlotsOk.weaken {S : FileSt} {id : Nat} (l : Slots) (h : SlotsOk I S true id l) : SlotsOk I S false id l := by
  match l with
  | .nil => trivial
  | .cons s kids rest =>
    simp only [SlotsOk] at h ⊢
    exact ⟨KidsOk.weaken kids h.1, SlotsOk.weaken rest h.2⟩
theorem KidsOk.weaken {S : FileSt} {s : Slot} {tid ti : Nat} (l : Kids) (h : KidsOk I S true s tid ti l) :
    KidsOk I S false s tid ti l := by
  match l with
  | .nil => simp only [KidsOk] at h ⊢; exact h
  | .cons n rest =>
    simp only [KidsOk] at h ⊢
    rcases h with ⟨_, h, _⟩ | ⟨a, b, c, d⟩
    · exact absurd h (by simp)
    · right
      refine ⟨a, b, ?_, fun hc => KidsOk.weaken rest (d hc)⟩
      have hn := NodeOk.weaken n (by simpa using c)
      by_cases hopt : s.opt = .all
      · simpa [hopt] using hn
      · simpa [hopt] using c
end

/-- The step for the first block of a list. -/
theorem headStep_spec {S : FileSt} {s : Slot} {tid ti : Nat} {n : Node} {rest : Kids}
    (ih : ∀ S c, FileInv I S → S.data ≠ [] → NodeShape I c n → n.ids.Nodup → (NodeFresh S n ∨ NodeOk I S false n) →
      NodePost I S (writeNode I S n) c n)
    (h : FileInv I S) (hd : S.data ≠ []) (hshape : NodeShape I s.chain n) (hnd : (n.ids ++ rest.ids).Nodup)
    (htid : tid ∉ n.ids) (hti : ti < (S.st tid).links.length) (hok : KidsOk I S false s tid ti (.cons n rest)) :
    let S' := headStep I S s.opt tid ti n rest.isNil
    Post I (tid :: n.ids) S S' ∧ NodeOk I S' true n ∧ S'.link tid ti = S'.pos n.id ∧ Owner S S' tid [ti] ∧
    (s.chain = true → tid ∉ rest.ids → KidsOk I S' false s n.id 0 rest) := by
  intro S'
  have hnd1 : n.ids.Nodup := (List.nodup_append.1 hnd).1
  have hdisj : ∀ j ∈ rest.ids, j ∉ n.ids := fun j hj hj' => (List.nodup_append.1 hnd).2.2 j hj' j hj rfl
  simp only [KidsOk] at hok
  rcases hok with ⟨h1, _, h3, h4, h5⟩ | ⟨h1, h2, h3, h4⟩
  · -- a new block
    have hneed : S.needUpdate s.opt tid ti n.id rest.isNil = true := needUpdate_fresh h1 h3
    have hS' : S' = (writeNode I S n).updateLink tid ti ((writeNode I S n).pos n.id) := by
      show headStep I S s.opt tid ti n rest.isNil = _
      unfold headStep; rw [if_pos hneed]
    obtain ⟨p1, p2, p3⟩ := ih S s.chain h hd hshape hnd1 (Or.inl h4)
    generalize hW : writeNode I S n = W at *
    have hWt : SameFor S W tid := p1.same tid htid
    have hti' : ti < (W.st tid).links.length := by rw [hWt.1]; exact hti
    have hu := updateLink_post (I := I) W tid ti (W.pos n.id) p1.inv p1.ne hti'
    have hnt : n.id ≠ tid := fun e => htid (e ▸ n.id_mem)
    have hsame : ∀ j, j ≠ tid → SameFor W S' j := by
      intro j hj; rw [hS']; exact hu.same j (by simpa using hj)
    have hpn : S'.pos n.id = W.pos n.id := (hsame n.id hnt).pos
    refine ⟨?_, ?_, ?_, ?_, ?_⟩
    · rw [hS']
      exact (p1.mono (fun j hj => by simp [hj])).trans (hu.mono (fun j hj => by simp at hj; simp [hj]))
    · exact NodeOk.congr n (fun j hj => hsame j (fun e => htid (e ▸ hj))) p2
    · rw [hpn, hS']; exact updateLink_link_same W tid ti _ hti'
    · have ho := updateLink_owner (I := I) W tid ti (W.pos n.id) p1.inv hti'
      rw [← hS'] at ho
      exact (Owner.of_same hWt [ti]).trans ho
    · intro hc htr
      apply KidsOk.of_fresh
      · rw [(hsame n.id hnt).link, p3 hc]
        unfold FileSt.link; rw [h4.unwritten.2]; rfl
      · apply KidsFresh.congr rest _ h5
        intro j hj
        rw [(hsame j (fun e => htr (e ▸ hj))).1, (p1.same j (hdisj j hj)).1]
  · -- a block in the file
    by_cases hneed : S.needUpdate s.opt tid ti n.id rest.isNil = true
    · have hok' : NodeOk I S false n ∨ NodeOk I S true n := by
        by_cases hopt : s.opt = .all
        · left; simpa [hopt] using h3
        · right; simpa [hopt] using h3
      have hweak : NodeFresh S n ∨ NodeOk I S false n := by
        rcases hok' with h | h
        · exact Or.inr h
        · right; exact NodeOk.weaken n h
      obtain ⟨p1, p2, p3⟩ := ih S s.chain h hd hshape hnd1 hweak
      have hWt : SameFor S (writeNode I S n) tid := p1.same tid htid
      have hS' : S' = writeNode I S n := by
        show headStep I S s.opt tid ti n rest.isNil = _
        unfold headStep
        rw [if_pos hneed]
        unfold FileSt.updateLink
        rw [if_neg (by rw [hWt.1]; omega), if_pos]
        rw [hWt.link, h2, p1.keep n.id h1]
      rw [hS']
      refine ⟨p1.mono (fun j hj => by simp [hj]), p2, ?_, Owner.of_same hWt [ti], ?_⟩
      · rw [hWt.link, h2, p1.keep n.id h1]
      · intro hc _
        exact KidsOk.congr rest (p3 hc) (fun j hj => p1.same j (hdisj j hj)) (h4 hc)
    · have hf : S.needUpdate s.opt tid ti n.id rest.isNil = false := by simpa using hneed
      have hopt := needUpdate_not hf
      have hS' : S' = S := by
        show headStep I S s.opt tid ti n rest.isNil = _
        unfold headStep; rw [if_neg hneed]
      rw [hS']
      exact ⟨Post.refl _ h hd, by simpa [hopt] using h3, h2, Owner.refl _ _ _, fun hc _ => h4 hc⟩

theorem writeSelf_links (S : FileSt) (id : Nat) (h : FileInv I S) (hd : S.data ≠ []) (i : Nat) :
    (S.writeSelf I id).link id i = S.link id i := by
  unfold FileSt.link
  rw [(writeSelf_spec (I := I) S id hd h).2.2.2.2.2.1]

/-- The node case, from the theorem for the lists before and after the block. -/
theorem node_spec {S : FileSt} {c : Bool} {id : Nat} {pre post : Slots}
    (ihpre : ∀ S, FileInv I S → S.data ≠ [] → id ∉ pre.ids → pre.ids.Nodup → pre.indices.Nodup → SlotsShape I pre →
      (∀ i ∈ pre.indices, i < (S.st id).links.length) → SlotsOk I S false id pre →
      Post I (id :: pre.ids) S (writeSlots I S id pre) ∧ SlotsOk I (writeSlots I S id pre) true id pre ∧
      Owner S (writeSlots I S id pre) id pre.indices)
    (ihpost : ∀ S, FileInv I S → S.data ≠ [] → id ∉ post.ids → post.ids.Nodup → post.indices.Nodup → SlotsShape I post →
      (∀ i ∈ post.indices, i < (S.st id).links.length) → SlotsOk I S false id post →
      Post I (id :: post.ids) S (writeSlots I S id post) ∧ SlotsOk I (writeSlots I S id post) true id post ∧
      Owner S (writeSlots I S id post) id post.indices)
    (h : FileInv I S) (hd : S.data ≠ []) (hshape : NodeShape I c (.mk id pre post)) (hnd : (Node.mk id pre post).ids.Nodup)
    (hok : NodeFresh S (.mk id pre post) ∨ NodeOk I S false (.mk id pre post)) :
    NodePost I S (writeNode I S (.mk id pre post)) c (.mk id pre post) := by
  simp only [NodeShape] at hshape
  obtain ⟨_, hn0, hidx, hidx', hr0, hs1, hs2⟩ := hshape
  simp only [Node.ids, List.nodup_cons, List.mem_append, not_or] at hnd
  obtain ⟨⟨hid1, hid2⟩, hnd2⟩ := hnd
  obtain ⟨hndpre, hndpost, hdisj⟩ := List.nodup_append.1 hnd2
  obtain ⟨hixpre, hixpost, hixdisj⟩ := List.nodup_append.1 hidx
  -- after the start
  have hp0 := start_post (I := I) S id h hd
  have hst : ((S.start I id).st id).links.length = (I id).nlinks ∧ SlotsOk I (S.start I id) false id pre ∧
      SlotsOk I (S.start I id) false id post ∧ (c = true → (S.start I id).link id 0 = S.link id 0) := by
    rcases hok with hf | hf
    · simp only [NodeFresh] at hf
      obtain ⟨f1, f2, f3, f4⟩ := hf
      obtain ⟨l1, l2⟩ := start_links (I := I) S id f1 f2
      have hfr := start_frame (I := I) S id
      refine ⟨l1, ?_, ?_, ?_⟩
      · apply SlotsOk.of_fresh pre
        · intro i hi; exact l2 i (hidx' i (by simp [hi])).2.2
        · exact SlotsFresh.congr pre (fun j hj => hfr.st j (fun e => hid1 (e ▸ hj))) f3
      · apply SlotsOk.of_fresh post
        · intro i hi; exact l2 i (hidx' i (by simp [hi])).2.2
        · exact SlotsFresh.congr post (fun j hj => hfr.st j (fun e => hid2 (e ▸ hj))) f4
      · intro hc
        rw [l2 0 (hr0 hc)]
        unfold FileSt.link; rw [f2]; rfl
    · simp only [NodeOk] at hf
      obtain ⟨f1, f2, _, f4, f5⟩ := hf
      rw [start_written S id f1]
      exact ⟨f2, f4, f5, fun _ => rfl⟩
  obtain ⟨hl0, ok1, ok2, hnx⟩ := hst
  generalize hS0 : S.start I id = S0 at *
  -- the lists before
  obtain ⟨q1, q2, q3⟩ := ihpre S0 hp0.inv hp0.ne hid1 hndpre hixpre hs1
    (fun i hi => by rw [hl0]; exact (hidx' i (by simp [hi])).1) ok1
  have ok2' : SlotsOk I (writeSlots I S0 id pre) false id post := by
    apply SlotsOk.congr post _ _ ok2
    · intro i hi; exact q3.link i (fun hj => hixdisj i hj i hi rfl)
    · intro j hj
      apply q1.same
      simp only [List.mem_cons, not_or]
      exact ⟨fun e => hid2 (e ▸ hj), fun hj' => hdisj j hj' j hj rfl⟩
  generalize hS1 : writeSlots I S0 id pre = S1 at *
  -- the block
  have hw := writeSelf_spec (I := I) S1 id q1.ne q1.inv
  have hwp := writeSelf_post (I := I) S1 id q1.inv q1.ne
  have hwl := fun i => writeSelf_links (I := I) S1 id q1.inv q1.ne i
  have hsame2 : ∀ j, j ≠ id → SameFor S1 (S1.writeSelf I id) j := fun j hj => hwp.same j (by simpa using hj)
  generalize hS2 : S1.writeSelf I id = S2 at *
  have hl2 : (S2.st id).links.length = (I id).nlinks := by rw [hw.2.2.2.2.2.1, q3.len, hl0]
  have okpre2 : SlotsOk I S2 true id pre :=
    SlotsOk.congr pre (fun i _ => hwl i) (fun j hj => hsame2 j (fun e => hid1 (e ▸ hj))) q2
  have okpost2 : SlotsOk I S2 false id post :=
    SlotsOk.congr post (fun i _ => hwl i) (fun j hj => hsame2 j (fun e => hid2 (e ▸ hj))) ok2'
  -- the lists after
  obtain ⟨t1, t2, t3⟩ := ihpost S2 hwp.inv hwp.ne hid2 hndpost hixpost hs2
    (fun i hi => by rw [hl2]; exact (hidx' i (by simp [hi])).1) okpost2
  have hW : writeNode I S (.mk id pre post) = writeSlots I S2 id post := by
    simp only [writeNode]; rw [hS0, hS1, hS2]
  rw [hW]
  refine ⟨?_, ?_, ?_⟩
  · have m0 : Post I (Node.mk id pre post).ids S S0 := hp0.mono (fun j hj => by simp at hj; simp [hj, Node.ids])
    have m1 : Post I (Node.mk id pre post).ids S0 S1 := q1.mono (fun j hj => by
      rcases List.mem_cons.1 hj with e | e <;> simp [Node.ids, e])
    have m2 : Post I (Node.mk id pre post).ids S1 S2 := hwp.mono (fun j hj => by simp at hj; simp [hj, Node.ids])
    have m3 : Post I (Node.mk id pre post).ids S2 (writeSlots I S2 id post) := t1.mono (fun j hj => by
      rcases List.mem_cons.1 hj with e | e <;> simp [Node.ids, e])
    exact ((m0.trans m1).trans m2).trans m3
  · simp only [NodeOk]
    refine ⟨by rw [t3.pos]; exact hw.2.2.2.1, by rw [t3.len]; exact hl2, fun _ => t3.exact hw.2.2.2.1 hw.2.1, ?_, t2⟩
    apply SlotsOk.congr pre _ _ okpre2
    · intro i hi; exact t3.link i (fun hj => hixdisj i hi i hj rfl)
    · intro j hj
      apply t1.same
      simp only [List.mem_cons, not_or]
      exact ⟨fun e => hid1 (e ▸ hj), fun hj' => hdisj j hj j hj' rfl⟩
  · intro hc
    show (writeSlots I S2 id post).link id 0 = S.link id 0
    rw [t3.link 0 (fun hj => (hidx' 0 (by simp [hj])).2.1 hc rfl), hwl 0,
      q3.link 0 (fun hj => (hidx' 0 (by simp [hj])).2.1 hc rfl), hnx hc]

mutual
theorem writeNode_spec (n : Node) : ∀ S c, FileInv I S → S.data ≠ [] → NodeShape I c n → n.ids.Nodup →
    (NodeFresh S n ∨ NodeOk I S false n) → NodePost I S (writeNode I S n) c n := by
  intro S c h hd hshape hnd hok
  match n with
  | .mk id pre post =>
    exact node_spec (fun S a1 a2 a3 a4 a5 a6 a7 a8 => writeSlots_spec pre S id a1 a2 a3 a4 a5 a6 a7 a8)
      (fun S a1 a2 a3 a4 a5 a6 a7 a8 => writeSlots_spec post S id a1 a2 a3 a4 a5 a6 a7 a8) h hd hshape hnd hok
theorem writeSlots_spec (l : Slots) : ∀ S id, FileInv I S → S.data ≠ [] → id ∉ l.ids → l.ids.Nodup → l.indices.Nodup →
    SlotsShape I l → (∀ i ∈ l.indices, i < (S.st id).links.length) → SlotsOk I S false id l →
    Post I (id :: l.ids) S (writeSlots I S id l) ∧ SlotsOk I (writeSlots I S id l) true id l ∧
    Owner S (writeSlots I S id l) id l.indices := by
  intro S id h hd hid hnd hix hshape hlen hok
  match l with
  | .nil =>
    simp only [writeSlots]
    exact ⟨Post.refl _ h hd, trivial, Owner.refl _ _ _⟩
  | .cons s kids rest =>
    simp only [writeSlots]
    simp only [Slots.ids, List.mem_append, not_or] at hid
    simp only [Slots.ids] at hnd
    obtain ⟨hnd1, hnd2, hdisj⟩ := List.nodup_append.1 hnd
    simp only [Slots.indices, List.nodup_cons] at hix
    simp only [SlotsShape] at hshape
    simp only [SlotsOk] at hok
    obtain ⟨p1, p2, p3⟩ := writeKids_spec kids S s id s.index h hd hid.1 hnd1 hshape.1
      (hlen s.index (by simp [Slots.indices])) hok.1
    have hok2 : SlotsOk I (writeKids I S s.opt id s.index kids) false id rest := by
      apply SlotsOk.congr rest _ _ hok.2
      · intro i hi
        apply p3.link
        simp only [List.mem_singleton]
        intro e; subst e; exact hix.1 hi
      · intro j hj
        apply p1.same
        simp only [List.mem_cons, not_or]
        exact ⟨fun e => hid.2 (e ▸ hj), fun hj' => hdisj j hj' j hj rfl⟩
    generalize hW : writeKids I S s.opt id s.index kids = W at *
    obtain ⟨r1, r2, r3⟩ := writeSlots_spec rest W id p1.inv p1.ne hid.2 hnd2 hix.2 hshape.2
      (fun i hi => by rw [p3.len]; exact hlen i (by simp [Slots.indices, hi])) hok2
    refine ⟨?_, ?_, ?_⟩
    · exact (p1.mono (fun j hj => by rcases List.mem_cons.1 hj with e | e <;> simp [Slots.ids, e])).trans
        (r1.mono (fun j hj => by rcases List.mem_cons.1 hj with e | e <;> simp [Slots.ids, e]))
    · simp only [SlotsOk]
      refine ⟨?_, r2⟩
      apply KidsOk.congr kids _ _ p2
      · exact r3.link _ hix.1
      · intro j hj
        apply r1.same
        simp only [List.mem_cons, not_or]
        exact ⟨fun e => hid.1 (e ▸ hj), fun hj' => hdisj j hj j hj' rfl⟩
    · exact (p3.mono (fun i hi => by simp at hi; simp [Slots.indices, hi])).trans
        (r3.mono (fun i hi => by simp [Slots.indices, hi]))
theorem writeKids_spec (l : Kids) : ∀ S s tid ti, FileInv I S → S.data ≠ [] → tid ∉ l.ids → l.ids.Nodup → KidsShape I s l →
    ti < (S.st tid).links.length → KidsOk I S false s tid ti l →
    Post I (tid :: l.ids) S (writeKids I S s.opt tid ti l) ∧ KidsOk I (writeKids I S s.opt tid ti l) true s tid ti l ∧
    Owner S (writeKids I S s.opt tid ti l) tid [ti] := by
  intro S s tid ti h hd htid hnd hshape hti hok
  match l with
  | .nil =>
    simp only [writeKids]
    refine ⟨Post.refl _ h hd, ?_, Owner.refl _ _ _⟩
    simp only [KidsOk] at hok ⊢; exact hok
  | .cons n rest =>
    rw [writeKids_cons]
    simp only [Kids.ids, List.mem_append, not_or] at htid
    simp only [Kids.ids] at hnd
    simp only [KidsShape] at hshape
    obtain ⟨hs1, _, hs3, hs4⟩ := hshape
    obtain ⟨hnd1, hnd2, hdisj⟩ := List.nodup_append.1 hnd
    have hh := headStep_spec (I := I) (s := s) (ti := ti) (rest := rest)
      (fun S c a1 a2 a3 a4 a5 => writeNode_spec n S c a1 a2 a3 a4 a5) h hd hs1 hnd htid.1 hti hok
    simp only at hh
    obtain ⟨p1, p2, p3, p4, p5⟩ := hh
    generalize hW : headStep I S s.opt tid ti n rest.isNil = W at *
    by_cases hc : s.chain = true
    · have hnid : n.id ∉ rest.ids := fun hj => hdisj n.id n.id_mem n.id hj rfl
      have hshape1 : NodeShape I true n := by rw [hc] at hs1; exact hs1
      obtain ⟨r1, r2, r3⟩ := writeKids_spec rest W s n.id 0 p1.inv p1.ne hnid hnd2 hs4
        (by rw [p2.links]; exact hshape1.chain_links) (p5 hc htid.2)
      have hsm : ∀ j, j ≠ n.id → j ∉ rest.ids → SameFor W (writeKids I W s.opt n.id 0 rest) j := by
        intro j h1 h2
        apply r1.same
        simp only [List.mem_cons, not_or]
        exact ⟨h1, h2⟩
      have htn : tid ≠ n.id := fun e => htid.1 (e ▸ n.id_mem)
      have hst := hsm tid htn htid.2
      refine ⟨?_, ?_, ?_⟩
      · exact (p1.mono (fun j hj => by rcases List.mem_cons.1 hj with e | e <;> simp [Kids.ids, e])).trans
          (r1.mono (fun j hj => by
            rcases List.mem_cons.1 hj with e | e
            · subst e; simp [Kids.ids, n.id_mem]
            · simp [Kids.ids, e]))
      · simp only [KidsOk]
        right
        refine ⟨by rw [r3.pos]; exact p2.written, by rw [hst.link, r3.pos]; exact p3, ?_, fun _ => r2⟩
        apply NodeOk.owner n hshape1 r3 _ hnd1
        · exact p2
        · intro j hj hne
          exact hsm j hne (fun hj' => hdisj j hj j hj' rfl)
      · exact p4.trans (Owner.of_same hst [ti])
    · have hcf : s.chain = false := by simpa using hc
      have hnil := hs3 hcf
      match rest with
      | .nil =>
        simp only [writeKids]
        refine ⟨p1.mono (fun j hj => by rcases List.mem_cons.1 hj with e | e <;> simp [Kids.ids, e]), ?_, p4⟩
        simp only [KidsOk]
        right
        exact ⟨p2.written, p3, p2, fun e => absurd e hc⟩
      | .cons _ _ => simp [Kids.isNil] at hnil
end

end

end Mdf
