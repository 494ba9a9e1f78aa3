import Verif.Proof.Tree3

/-! The main theorem about writing a tree of MDF 3 blocks. -/

namespace Mdf

section
variable {I : Nat → Info3}

/-- The members of a new block after the start of `Write`. -/
theorem start3_links (S : FileSt) (id : Nat) (hp : S.pos id = 0) (hl : (S.st id).links = []) :
    ((S.start3 I id).st id).links.length = (I id).nlinks ∧ (∀ i, (S.start3 I id).link id i = 0) ∧
    ((S.start3 I id).st id).len = (I id).first ((S.start3 I id).st id).body.length % 2 ^ 16 := by
  have hst : (S.start3 I id).st id
      = { S.st id with len := (I id).first (S.st id).body.length % 2 ^ 16, links := resizeLinks (S.st id).links (I id).nlinks } := by
    unfold FileSt.start3
    rw [if_neg (by omega)]
    exact set_st_same _ _ _
  refine ⟨?_, ?_, ?_⟩
  · rw [hst, hl]; simp [resizeLinks]
  · intro i
    unfold FileSt.link
    rw [List.getD_eq_getElem?_getD, hst, hl]
    simp [resizeLinks, List.getElem?_replicate]
    split <;> rfl
  · rw [hst]

/-- Writing the first block of a list, if need be, and setting the link to it. -/
def headStep3 (I : Nat → Info3) (S : FileSt) (opt : UpdOpt) (tid ti : Nat) (n : Node) (last : Bool) : FileSt :=
  if S.needUpdate opt tid ti n.id last then (writeNode3 I S n).updateLink3 I tid ti ((writeNode3 I S n).pos n.id) else S

theorem writeKids3_cons (S : FileSt) (opt : UpdOpt) (tid ti : Nat) (n : Node) (rest : Kids) :
    writeKids3 I S opt tid ti (.cons n rest) = writeKids3 I (headStep3 I S opt tid ti n rest.isNil) opt n.id 0 rest := by
  simp only [writeKids3, headStep3]
  split <;> rfl

/-- What holds after a tree was written. -/
structure NodePost3 (I : Nat → Info3) (S S' : FileSt) (c : Bool) (n : Node) : Prop where
  post : Post3 I n.ids S S'
  ok : NodeOk3 I S' true n
  next : c = true → S'.link n.id 0 = S.link n.id 0

theorem NodeOk3.written {S : FileSt} {b : Bool} {n : Node} (h : NodeOk3 I S b n) : 0 < S.pos n.id := by
  cases n; simp only [NodeOk3] at h; exact h.1

theorem NodeOk3.links {S : FileSt} {b : Bool} {n : Node} (h : NodeOk3 I S b n) :
    (S.st n.id).links.length = (I n.id).nlinks := by
  cases n; simp only [NodeOk3] at h; exact h.2.1

theorem NodeShape3.chain_links {n : Node} (h : NodeShape3 I true n) : 0 < (I n.id).head ∧ (I n.id).head ≤ (I n.id).nlinks := by
  cases n; simp only [NodeShape3] at h; exact ⟨h.1 trivial, h.2.1⟩

theorem needUpdate_again {S : FileSt} {opt : UpdOpt} {tid ti id : Nat} {last : Bool}
    (h : S.needUpdate opt tid ti id last = false) : opt.again last = false := by
  cases opt <;> simp_all [FileSt.needUpdate, UpdOpt.again]

mutual
theorem NodeOk3.weaken {S : FileSt} (n : Node) (h : NodeOk3 I S true n) : NodeOk3 I S false n := by
  match n with
  | .mk id pre post =>
    simp only [NodeOk3] at h ⊢
    exact ⟨h.1, h.2.1, fun e => absurd e (by simp), h.2.2.2.1, SlotsOk3.weaken post h.2.2.2.2⟩
theorem SlotsOk3.weaken {S : FileSt} {id : Nat} (l : Slots) (h : SlotsOk3 I S true id l) : SlotsOk3 I S false id l := by
  match l with
  | .nil => trivial
  | .cons s kids rest =>
    simp only [SlotsOk3] at h ⊢
    exact ⟨KidsOk3.weaken kids h.1, SlotsOk3.weaken rest h.2⟩
theorem KidsOk3.weaken {S : FileSt} {s : Slot} {tid ti : Nat} (l : Kids) (h : KidsOk3 I S true s tid ti l) :
    KidsOk3 I S false s tid ti l := by
  match l with
  | .nil => simp only [KidsOk3] at h ⊢; exact h
  | .cons n rest =>
    simp only [KidsOk3] at h ⊢
    rcases h with ⟨_, h, _⟩ | ⟨a, b, c, d⟩
    · exact absurd h (by simp)
    · right
      refine ⟨a, b, ?_, fun hc => KidsOk3.weaken rest (d hc)⟩
      have hn := NodeOk3.weaken n (by simpa using c)
      cases hopt : s.opt.again rest.isNil
      · simpa [hopt] using c
      · simpa [hopt] using hn
end

/-- The step for the first block of a list. -/
theorem headStep3_spec {S : FileSt} {s : Slot} {tid ti : Nat} {n : Node} {rest : Kids}
    (ih : ∀ S c, FileInv3 I S → S.data ≠ [] → NodeShape3 I c n → n.ids.Nodup → (NodeFresh S n ∨ NodeOk3 I S false n) →
      NodePost3 I S (writeNode3 I S n) c n)
    (h : FileInv3 I S) (hd : S.data ≠ []) (hshape : NodeShape3 I s.chain n) (hnd : (n.ids ++ rest.ids).Nodup)
    (htid : tid ∉ n.ids) (hti : LinkOk3 I S tid ti) (hok : KidsOk3 I S false s tid ti (.cons n rest)) :
    let S' := headStep3 I S s.opt tid ti n rest.isNil
    Post3 I (tid :: n.ids) S S' ∧ NodeOk3 I S' true n ∧ S'.link tid ti = S'.pos n.id ∧ Owner3 I S S' tid [ti] ∧
    (s.chain = true → tid ∉ rest.ids → KidsOk3 I S' false s n.id 0 rest) := by
  intro S'
  have hnd1 : n.ids.Nodup := (List.nodup_append.1 hnd).1
  have hdisj : ∀ j ∈ rest.ids, j ∉ n.ids := fun j hj hj' => (List.nodup_append.1 hnd).2.2 j hj' j hj rfl
  simp only [KidsOk3] at hok
  rcases hok with ⟨h1, _, h3, h4, h5⟩ | ⟨h1, h2, h3, h4⟩
  · -- a new block
    have hneed : S.needUpdate s.opt tid ti n.id rest.isNil = true := needUpdate_fresh h1 h3
    have hS' : S' = (writeNode3 I S n).updateLink3 I tid ti ((writeNode3 I S n).pos n.id) := by
      show headStep3 I S s.opt tid ti n rest.isNil = _
      unfold headStep3; rw [if_pos hneed]
    obtain ⟨p1, p2, p3⟩ := ih S s.chain h hd hshape hnd1 (Or.inl h4)
    generalize hW : writeNode3 I S n = W at *
    have hWt : SameFor3 I S W tid := p1.same tid htid
    have hti' : LinkOk3 I W tid ti := by unfold LinkOk3; rw [hWt.1, hWt.pos]; exact hti
    have hu := updateLink3_post (I := I) W tid ti (W.pos n.id) p1.inv p1.ne hti'
    have hnt : n.id ≠ tid := fun e => htid (e ▸ n.id_mem)
    have hsame : ∀ j, j ≠ tid → SameFor3 I W S' j := by
      intro j hj; rw [hS']; exact hu.same j (by simpa using hj)
    have hpn : S'.pos n.id = W.pos n.id := (hsame n.id hnt).pos
    refine ⟨?_, ?_, ?_, ?_, ?_⟩
    · rw [hS']
      exact (p1.mono (fun j hj => by simp [hj])).trans (hu.mono (fun j hj => by simp at hj; simp [hj]))
    · exact NodeOk3.congr n (fun j hj => hsame j (fun e => htid (e ▸ hj))) p2
    · rw [hpn, hS']; exact updateLink3_link_same W tid ti _ hti'
    · have ho := updateLink3_owner (I := I) W tid ti (W.pos n.id) p1.inv hti'
      rw [← hS'] at ho
      exact (Owner3.of_same hWt [ti]).trans ho
    · intro hc htr
      apply KidsOk3.of_fresh
      · rw [(hsame n.id hnt).link, p3 hc]
        unfold FileSt.link; rw [h4.unwritten.2]; rfl
      · apply KidsFresh.congr rest _ h5
        intro j hj
        rw [(hsame j (fun e => htr (e ▸ hj))).1, (p1.same j (hdisj j hj)).1]
  · -- a block in the file
    by_cases hneed : S.needUpdate s.opt tid ti n.id rest.isNil = true
    · have hok' : NodeOk3 I S false n ∨ NodeOk3 I S true n := by
        cases hopt : s.opt.again rest.isNil
        · right; simpa [hopt] using h3
        · left; simpa [hopt] using h3
      have hweak : NodeFresh S n ∨ NodeOk3 I S false n := by
        rcases hok' with h | h
        · exact Or.inr h
        · right; exact NodeOk3.weaken n h
      obtain ⟨p1, p2, p3⟩ := ih S s.chain h hd hshape hnd1 hweak
      have hWt : SameFor3 I S (writeNode3 I S n) tid := p1.same tid htid
      have hS' : S' = writeNode3 I S n := by
        show headStep3 I S s.opt tid ti n rest.isNil = _
        unfold headStep3
        rw [if_pos hneed]
        unfold FileSt.updateLink3
        rw [if_neg (by rw [hWt.1, hWt.pos]; exact hti.cond), if_pos]
        rw [hWt.link, h2, p1.keep n.id h1]
      rw [hS']
      refine ⟨p1.mono (fun j hj => by simp [hj]), p2, ?_, Owner3.of_same hWt [ti], ?_⟩
      · rw [hWt.link, h2, p1.keep n.id h1]
      · intro hc _
        exact KidsOk3.congr rest (p3 hc) (fun j hj => p1.same j (hdisj j hj)) (h4 hc)
    · have hf : S.needUpdate s.opt tid ti n.id rest.isNil = false := by simpa using hneed
      have hopt := needUpdate_again hf
      have hS' : S' = S := by
        show headStep3 I S s.opt tid ti n rest.isNil = _
        unfold headStep3; rw [if_neg hneed]
      rw [hS']
      exact ⟨Post3.refl _ h hd, by simpa [hopt] using h3, h2, Owner3.refl _ _ _, fun hc _ => h4 hc⟩

theorem writeSelf3_links (S : FileSt) (id : Nat) (h : FileInv3 I S) (hd : S.data ≠ [])
    (hlen : S.pos id = 0 → (S.st id).len = (I id).first (S.st id).body.length % 2 ^ 16) (i : Nat) :
    (S.writeSelf3 I id).link id i = S.link id i := by
  unfold FileSt.link
  rw [(writeSelf3_spec (I := I) S id hd h hlen).2.2.2.2.2.1]

/-- The block itself and the lists after it. -/
theorem node_rest3 {S : FileSt} {c : Bool} {id : Nat} {pre post : Slots}
    (ihpost : ∀ S, FileInv3 I S → S.data ≠ [] → id ∉ post.ids → post.ids.Nodup → post.indices.Nodup → SlotsShape3 I post →
      (∀ i ∈ post.indices, LinkOk3 I S id i) → SlotsOk3 I S false id post →
      Post3 I (id :: post.ids) S (writeSlots3 I S id post) ∧ SlotsOk3 I (writeSlots3 I S id post) true id post ∧
      Owner3 I S (writeSlots3 I S id post) id post.indices)
    (h : FileInv3 I S) (hd : S.data ≠ []) (hshape : NodeShape3 I c (.mk id pre post)) (hnd : (Node.mk id pre post).ids.Nodup)
    (hlen : S.pos id = 0 → (S.st id).len = (I id).first (S.st id).body.length % 2 ^ 16)
    (hl : (S.st id).links.length = (I id).nlinks) (okpre : SlotsOk3 I S true id pre) (okpost : SlotsOk3 I S false id post) :
    NodePost3 I S (writeSlots3 I (S.writeSelf3 I id) id post) c (.mk id pre post) := by
  simp only [NodeShape3] at hshape
  obtain ⟨_, hhn, hidx, hidx', hpi, hs1, hs2⟩ := hshape
  simp only [Node.ids, List.nodup_cons, List.mem_append, not_or] at hnd
  obtain ⟨⟨hid1, hid2⟩, hnd2⟩ := hnd
  obtain ⟨hndpre, hndpost, hdisj⟩ := List.nodup_append.1 hnd2
  obtain ⟨hixpre, hixpost, hixdisj⟩ := List.nodup_append.1 hidx
  have hw := writeSelf3_spec (I := I) S id hd h hlen
  have hwp := writeSelf3_post (I := I) S id h hd hlen
  have hwl := fun i => writeSelf3_links (I := I) S id h hd hlen i
  have hsame2 : ∀ j, j ≠ id → SameFor3 I S (S.writeSelf3 I id) j := fun j hj => hwp.same j (by simpa using hj)
  generalize hS2 : S.writeSelf3 I id = S2 at *
  have hl2 : (S2.st id).links.length = (I id).nlinks := by rw [hw.2.2.2.2.2.1, hl]
  have okpre2 : SlotsOk3 I S2 true id pre :=
    SlotsOk3.congr pre (fun i _ => hwl i) (fun j hj => hsame2 j (fun e => hid1 (e ▸ hj))) okpre
  have okpost2 : SlotsOk3 I S2 false id post :=
    SlotsOk3.congr post (fun i _ => hwl i) (fun j hj => hsame2 j (fun e => hid2 (e ▸ hj))) okpost
  obtain ⟨t1, t2, t3⟩ := ihpost S2 hwp.inv hwp.ne hid2 hndpost hixpost hs2
    (fun i hi => ⟨by rw [hl2]; exact (hidx' i (by simp [hi])).1, fun _ => hpi i hi⟩) okpost2
  refine ⟨?_, ?_, ?_⟩
  · have m2 : Post3 I (Node.mk id pre post).ids S S2 := hwp.mono (fun j hj => by simp at hj; simp [hj, Node.ids])
    have m3 : Post3 I (Node.mk id pre post).ids S2 (writeSlots3 I S2 id post) := t1.mono (fun j hj => by
      rcases List.mem_cons.1 hj with e | e <;> simp [Node.ids, e])
    exact m2.trans m3
  · simp only [NodeOk3]
    refine ⟨by rw [t3.pos]; exact hw.2.2.2.1, by rw [t3.len]; exact hl2, fun _ => t3.exact hw.2.2.2.1 hw.2.1, ?_, t2⟩
    apply SlotsOk3.congr pre _ _ okpre2
    · intro i hi; exact t3.link i (fun hj => hixdisj i hi i hj rfl)
    · intro j hj
      apply t1.same
      simp only [List.mem_cons, not_or]
      exact ⟨fun e => hid1 (e ▸ hj), fun hj' => hdisj j hj j hj' rfl⟩
  · intro hc
    show (writeSlots3 I S2 id post).link id 0 = S.link id 0
    rw [t3.link 0 (fun hj => (hidx' 0 (by simp [hj])).2 hc rfl), hwl 0]

/-- The node case, from the theorem for the lists before and after the block. -/
theorem node_spec3 {S : FileSt} {c : Bool} {id : Nat} {pre post : Slots}
    (ihpre : ∀ S, FileInv3 I S → S.data ≠ [] → id ∉ pre.ids → pre.ids.Nodup → pre.indices.Nodup → SlotsShape3 I pre →
      (∀ i ∈ pre.indices, LinkOk3 I S id i) → SlotsOk3 I S false id pre →
      Post3 I (id :: pre.ids) S (writeSlots3 I S id pre) ∧ SlotsOk3 I (writeSlots3 I S id pre) true id pre ∧
      Owner3 I S (writeSlots3 I S id pre) id pre.indices)
    (ihpost : ∀ S, FileInv3 I S → S.data ≠ [] → id ∉ post.ids → post.ids.Nodup → post.indices.Nodup → SlotsShape3 I post →
      (∀ i ∈ post.indices, LinkOk3 I S id i) → SlotsOk3 I S false id post →
      Post3 I (id :: post.ids) S (writeSlots3 I S id post) ∧ SlotsOk3 I (writeSlots3 I S id post) true id post ∧
      Owner3 I S (writeSlots3 I S id post) id post.indices)
    (h : FileInv3 I S) (hd : S.data ≠ []) (hshape : NodeShape3 I c (.mk id pre post)) (hnd : (Node.mk id pre post).ids.Nodup)
    (hok : NodeFresh S (.mk id pre post) ∨ NodeOk3 I S false (.mk id pre post)) :
    NodePost3 I S (writeNode3 I S (.mk id pre post)) c (.mk id pre post) := by
  rcases hok with hf | hf
  · simp only [NodeFresh] at hf
    obtain ⟨f1, f2, f3, f4⟩ := hf
    obtain ⟨l1, l2, l3⟩ := start3_links (I := I) S id f1 f2
    have hfr := start3_frame (I := I) S id
    have hp0 := start3_post (I := I) S id h hd
    have hps : (S.start3 I id).pos id = 0 := by rw [start3_pos]; exact f1
    have hshape' := hshape
    have hnd' := hnd
    simp only [NodeShape3] at hshape
    obtain ⟨_, hhn, hidx, hidx', hpi, hs1, hs2⟩ := hshape
    simp only [Node.ids, List.nodup_cons, List.mem_append, not_or] at hnd
    obtain ⟨⟨hid1, hid2⟩, hnd2⟩ := hnd
    obtain ⟨hndpre, hndpost, hdisj⟩ := List.nodup_append.1 hnd2
    obtain ⟨hixpre, hixpost, hixdisj⟩ := List.nodup_append.1 hidx
    have ok1 : SlotsOk3 I (S.start3 I id) false id pre := by
      apply SlotsOk3.of_fresh pre (fun i _ => l2 i)
      exact SlotsFresh.congr pre (fun j hj => hfr.st j (fun e => hid1 (e ▸ hj))) f3
    have ok2 : SlotsOk3 I (S.start3 I id) false id post := by
      apply SlotsOk3.of_fresh post (fun i _ => l2 i)
      exact SlotsFresh.congr post (fun j hj => hfr.st j (fun e => hid2 (e ▸ hj))) f4
    have hW : writeNode3 I S (.mk id pre post)
        = writeSlots3 I ((writeSlots3 I (S.start3 I id) id pre).writeSelf3 I id) id post := by
      simp only [writeNode3]; rw [if_neg (by omega)]
    rw [hW]
    generalize hS0 : S.start3 I id = S0 at *
    obtain ⟨q1, q2, q3⟩ := ihpre S0 hp0.inv hp0.ne hid1 hndpre hixpre hs1
      (fun i hi => ⟨by rw [l1]; exact (hidx' i (by simp [hi])).1, fun hc => by omega⟩) ok1
    have ok2' : SlotsOk3 I (writeSlots3 I S0 id pre) false id post := by
      apply SlotsOk3.congr post _ _ ok2
      · intro i hi; exact q3.link i (fun hj => hixdisj i hj i hi rfl)
      · intro j hj
        apply q1.same
        simp only [List.mem_cons, not_or]
        exact ⟨fun e => hid2 (e ▸ hj), fun hj' => hdisj j hj' j hj rfl⟩
    generalize hS1 : writeSlots3 I S0 id pre = S1 at *
    obtain ⟨n1, n2, n3⟩ := node_rest3 (c := c) ihpost q1.inv q1.ne hshape' hnd'
      (fun _ => by rw [q3.size, q1.body]; exact l3) (by rw [q3.len, l1]) q2 ok2'
    refine ⟨?_, n2, ?_⟩
    · have m0 : Post3 I (Node.mk id pre post).ids S S0 := hp0.mono (fun j hj => by simp at hj; simp [hj, Node.ids])
      have m1 : Post3 I (Node.mk id pre post).ids S0 S1 := q1.mono (fun j hj => by
        rcases List.mem_cons.1 hj with e | e <;> simp [Node.ids, e])
      exact (m0.trans m1).trans n1
    · intro hc
      rw [n3 hc]
      show S1.link id 0 = S.link id 0
      rw [q3.link 0 (fun hj => (hidx' 0 (by simp [hj])).2 hc rfl), l2 0]
      unfold FileSt.link; rw [f2]; rfl
  · have hf' := hf
    simp only [NodeOk3] at hf
    obtain ⟨f1, f2, _, f4, f5⟩ := hf
    have hW : writeNode3 I S (.mk id pre post) = writeSlots3 I (S.writeSelf3 I id) id post := by
      simp only [writeNode3]; rw [if_pos f1]
    rw [hW]
    exact node_rest3 ihpost h hd hshape hnd (fun hc => by omega) f2 f4 f5

mutual
theorem writeNode3_spec (n : Node) : ∀ S c, FileInv3 I S → S.data ≠ [] → NodeShape3 I c n → n.ids.Nodup →
    (NodeFresh S n ∨ NodeOk3 I S false n) → NodePost3 I S (writeNode3 I S n) c n := by
  intro S c h hd hshape hnd hok
  match n with
  | .mk id pre post =>
    exact node_spec3 (fun S a1 a2 a3 a4 a5 a6 a7 a8 => writeSlots3_spec pre S id a1 a2 a3 a4 a5 a6 a7 a8)
      (fun S a1 a2 a3 a4 a5 a6 a7 a8 => writeSlots3_spec post S id a1 a2 a3 a4 a5 a6 a7 a8) h hd hshape hnd hok
theorem writeSlots3_spec (l : Slots) : ∀ S id, FileInv3 I S → S.data ≠ [] → id ∉ l.ids → l.ids.Nodup → l.indices.Nodup →
    SlotsShape3 I l → (∀ i ∈ l.indices, LinkOk3 I S id i) → SlotsOk3 I S false id l →
    Post3 I (id :: l.ids) S (writeSlots3 I S id l) ∧ SlotsOk3 I (writeSlots3 I S id l) true id l ∧
    Owner3 I S (writeSlots3 I S id l) id l.indices := by
  intro S id h hd hid hnd hix hshape hlen hok
  match l with
  | .nil =>
    simp only [writeSlots3]
    exact ⟨Post3.refl _ h hd, trivial, Owner3.refl _ _ _⟩
  | .cons s kids rest =>
    simp only [writeSlots3]
    simp only [Slots.ids, List.mem_append, not_or] at hid
    simp only [Slots.ids] at hnd
    obtain ⟨hnd1, hnd2, hdisj⟩ := List.nodup_append.1 hnd
    simp only [Slots.indices, List.nodup_cons] at hix
    simp only [SlotsShape3] at hshape
    simp only [SlotsOk3] at hok
    obtain ⟨p1, p2, p3⟩ := writeKids3_spec kids S s id s.index h hd hid.1 hnd1 hshape.1
      (hlen s.index (by simp [Slots.indices])) hok.1
    have hok2 : SlotsOk3 I (writeKids3 I S s.opt id s.index kids) false id rest := by
      apply SlotsOk3.congr rest _ _ hok.2
      · intro i hi
        apply p3.link
        simp only [List.mem_singleton]
        intro e; subst e; exact hix.1 hi
      · intro j hj
        apply p1.same
        simp only [List.mem_cons, not_or]
        exact ⟨fun e => hid.2 (e ▸ hj), fun hj' => hdisj j hj' j hj rfl⟩
    generalize hW : writeKids3 I S s.opt id s.index kids = W at *
    obtain ⟨r1, r2, r3⟩ := writeSlots3_spec rest W id p1.inv p1.ne hid.2 hnd2 hix.2 hshape.2
      (fun i hi => by unfold LinkOk3; rw [p3.len, p3.pos]; exact hlen i (by simp [Slots.indices, hi])) hok2
    refine ⟨?_, ?_, ?_⟩
    · exact (p1.mono (fun j hj => by rcases List.mem_cons.1 hj with e | e <;> simp [Slots.ids, e])).trans
        (r1.mono (fun j hj => by rcases List.mem_cons.1 hj with e | e <;> simp [Slots.ids, e]))
    · simp only [SlotsOk3]
      refine ⟨?_, r2⟩
      apply KidsOk3.congr kids _ _ p2
      · exact r3.link _ hix.1
      · intro j hj
        apply r1.same
        simp only [List.mem_cons, not_or]
        exact ⟨fun e => hid.1 (e ▸ hj), fun hj' => hdisj j hj j hj' rfl⟩
    · exact (p3.mono (fun i hi => by simp at hi; simp [Slots.indices, hi])).trans
        (r3.mono (fun i hi => by simp [Slots.indices, hi]))
theorem writeKids3_spec (l : Kids) : ∀ S s tid ti, FileInv3 I S → S.data ≠ [] → tid ∉ l.ids → l.ids.Nodup → KidsShape3 I s l →
    LinkOk3 I S tid ti → KidsOk3 I S false s tid ti l →
    Post3 I (tid :: l.ids) S (writeKids3 I S s.opt tid ti l) ∧ KidsOk3 I (writeKids3 I S s.opt tid ti l) true s tid ti l ∧
    Owner3 I S (writeKids3 I S s.opt tid ti l) tid [ti] := by
  intro S s tid ti h hd htid hnd hshape hti hok
  match l with
  | .nil =>
    simp only [writeKids3]
    refine ⟨Post3.refl _ h hd, ?_, Owner3.refl _ _ _⟩
    simp only [KidsOk3] at hok ⊢; exact hok
  | .cons n rest =>
    rw [writeKids3_cons]
    simp only [Kids.ids, List.mem_append, not_or] at htid
    simp only [Kids.ids] at hnd
    simp only [KidsShape3] at hshape
    obtain ⟨hs1, _, hs3, hs4⟩ := hshape
    obtain ⟨hnd1, hnd2, hdisj⟩ := List.nodup_append.1 hnd
    have hh := headStep3_spec (I := I) (s := s) (ti := ti) (rest := rest)
      (fun S c a1 a2 a3 a4 a5 => writeNode3_spec n S c a1 a2 a3 a4 a5) h hd hs1 hnd htid.1 hti hok
    simp only at hh
    obtain ⟨p1, p2, p3, p4, p5⟩ := hh
    generalize hW : headStep3 I S s.opt tid ti n rest.isNil = W at *
    by_cases hc : s.chain = true
    · have hnid : n.id ∉ rest.ids := fun hj => hdisj n.id n.id_mem n.id hj rfl
      have hshape1 : NodeShape3 I true n := by rw [hc] at hs1; exact hs1
      obtain ⟨r1, r2, r3⟩ := writeKids3_spec rest W s n.id 0 p1.inv p1.ne hnid hnd2 hs4
        ⟨by rw [p2.links]; exact Nat.lt_of_lt_of_le hshape1.chain_links.1 hshape1.chain_links.2, fun _ => hshape1.chain_links.1⟩ (p5 hc htid.2)
      have hsm : ∀ j, j ≠ n.id → j ∉ rest.ids → SameFor3 I W (writeKids3 I W s.opt n.id 0 rest) j := by
        intro j h1 h2
        apply r1.same
        simp only [List.mem_cons, not_or]
        exact ⟨h1, h2⟩
      have htn : tid ≠ n.id := fun e => htid.1 (e ▸ n.id_mem)
      have hst := hsm tid htn htid.2
      refine ⟨?_, ?_, ?_⟩
      · exact (p1.mono (fun j hj => by rcases List.mem_cons.1 hj with e | e <;> simp [Kids.ids, e])).trans
          (r1.mono (fun j hj => by
            rcases List.mem_cons.1 hj with e | e
            · subst e; simp [Kids.ids, n.id_mem]
            · simp [Kids.ids, e]))
      · simp only [KidsOk3]
        right
        refine ⟨by rw [r3.pos]; exact p2.written, by rw [hst.link, r3.pos]; exact p3, ?_, fun _ => r2⟩
        apply NodeOk3.owner n hshape1 r3 _ hnd1
        · exact p2
        · intro j hj hne
          exact hsm j hne (fun hj' => hdisj j hj j hj' rfl)
      · exact p4.trans (Owner3.of_same hst [ti])
    · have hcf : s.chain = false := by simpa using hc
      have hnil := hs3 hcf
      match rest with
      | .nil =>
        simp only [writeKids3]
        refine ⟨p1.mono (fun j hj => by rcases List.mem_cons.1 hj with e | e <;> simp [Kids.ids, e]), ?_, p4⟩
        simp only [KidsOk3]
        right
        exact ⟨p2.written, p3, p2, fun e => absurd e hc⟩
      | .cons _ _ => simp [Kids.isNil] at hnil
end

end

end Mdf
