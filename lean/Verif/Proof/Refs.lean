import Verif.Spec.Refs
import Verif.Proof.TreeRead

/-! What the links to blocks of others are after a tree was written. -/

namespace Mdf

section
variable {I : Nat → Info}

mutual
theorem Node.before_mem (t h : Nat) (n : Node) (hb : n.before t h) : t ∈ n.ids ∧ h ∈ n.ids := by
  match n with
  | .mk id pre post =>
    simp only [Node.before] at hb
    simp only [Node.ids, List.mem_cons, List.mem_append]
    rcases hb with hb | hb | ⟨hb, hb'⟩
    · have := Slots.before_mem t h pre hb; exact ⟨Or.inr (Or.inl this.1), Or.inr (Or.inl this.2)⟩
    · have := Slots.before_mem t h post hb; exact ⟨Or.inr (Or.inr this.1), Or.inr (Or.inr this.2)⟩
    · exact ⟨hb'.elim Or.inl (fun x => Or.inr (Or.inl x)), Or.inr (Or.inr hb)⟩
theorem Slots.before_mem (t h : Nat) (l : Slots) (hb : l.before t h) : t ∈ l.ids ∧ h ∈ l.ids := by
  match l with
  | .nil => simp only [Slots.before] at hb
  | .cons s kids rest =>
    simp only [Slots.before] at hb
    simp only [Slots.ids, List.mem_append]
    rcases hb with hb | hb | ⟨hb, hb'⟩
    · have := Kids.before_mem t h kids hb; exact ⟨Or.inl this.1, Or.inl this.2⟩
    · have := Slots.before_mem t h rest hb; exact ⟨Or.inr this.1, Or.inr this.2⟩
    · exact ⟨Or.inl hb, Or.inr hb'⟩
theorem Kids.before_mem (t h : Nat) (l : Kids) (hb : l.before t h) : t ∈ l.ids ∧ h ∈ l.ids := by
  match l with
  | .nil => simp only [Kids.before] at hb
  | .cons n rest =>
    simp only [Kids.before] at hb
    simp only [Kids.ids, List.mem_append]
    rcases hb with hb | hb | ⟨hb, hb'⟩
    · have := Node.before_mem t h n hb; exact ⟨Or.inl this.1, Or.inl this.2⟩
    · have := Kids.before_mem t h rest hb; exact ⟨Or.inr this.1, Or.inr this.2⟩
    · exact ⟨Or.inl hb, Or.inr hb'⟩
end

mutual
theorem NodeOk.all_written {S : FileSt} {c : Bool} (n : Node) (h : NodeOk I S true n) (hs : NodeShape I c n) : ∀ j ∈ n.ids, 0 < S.pos j := by
  match n with
  | .mk id pre post =>
    simp only [NodeOk] at h
    simp only [NodeShape] at hs
    intro j hj
    simp only [Node.ids, List.mem_cons, List.mem_append] at hj
    rcases hj with rfl | hj | hj
    · exact h.1
    · exact SlotsOk.all_written pre h.2.2.2.1 hs.2.2.2.2.2.1 j hj
    · exact SlotsOk.all_written post h.2.2.2.2 hs.2.2.2.2.2.2 j hj
theorem SlotsOk.all_written {S : FileSt} {id : Nat} (l : Slots) (h : SlotsOk I S true id l) (hs : SlotsShape I l) : ∀ j ∈ l.ids, 0 < S.pos j := by
  match l with
  | .nil => intro j hj; simp [Slots.ids] at hj
  | .cons s kids rest =>
    simp only [SlotsOk] at h
    simp only [SlotsShape] at hs
    intro j hj
    simp only [Slots.ids, List.mem_append] at hj
    rcases hj with hj | hj
    · exact KidsOk.all_written kids h.1 hs.1 j hj
    · exact SlotsOk.all_written rest h.2 hs.2 j hj
theorem KidsOk.all_written {S : FileSt} {s : Slot} {tid ti : Nat} (l : Kids) (h : KidsOk I S true s tid ti l) (hs : KidsShape I s l) :
    ∀ j ∈ l.ids, 0 < S.pos j := by
  match l with
  | .nil => intro j hj; simp [Kids.ids] at hj
  | .cons n rest =>
    simp only [KidsOk] at h
    simp only [KidsShape] at hs
    rcases h with ⟨_, h, _⟩ | ⟨-, -, h3, h4⟩
    · exact absurd h (by simp)
    · intro j hj
      simp only [Kids.ids, List.mem_append] at hj
      rcases hj with hj | hj
      · exact NodeOk.all_written n (by simpa using h3) hs.1 j hj
      · by_cases hc : s.chain = true
        · exact KidsOk.all_written rest (h4 hc) hs.2.2.2 j hj
        · have hn := hs.2.2.1 (by simpa using hc)
          match rest with
          | .nil => simp [Kids.ids] at hj
          | .cons _ _ => simp [Kids.isNil] at hn
end

/-- What the links of block `h` to blocks of others are after `S` became `S'`, where `bf` is the order of writing. -/
def RefsOf (I : Nat → Info) (S S' : FileSt) (bf : Nat → Nat → Prop) (h : Nat) : Prop :=
  (I h).RefsOk → ∀ r ∈ (I h).refs,
    (0 < S.pos h → S'.link h r.1 = S.link h r.1) ∧
    (S.pos h = 0 → (0 < S.pos r.2 ∨ bf r.2 h → S'.link h r.1 = S'.pos r.2 ∧ 0 < S'.pos r.2) ∧
      (¬ (0 < S.pos r.2 ∨ bf r.2 h) → S'.link h r.1 = 0))

/-- A part of the writing: it gives places to the blocks `ids`; `claims` are those whose links are described. -/
structure Part (I : Nat → Info) (S S' : FileSt) (ids claims : List Nat) (bf : Nat → Nat → Prop) : Prop where
  refs : ∀ h ∈ claims, RefsOf I S S' bf h
  written : ∀ j ∈ ids, 0 < S'.pos j
  mem : ∀ t h, bf t h → t ∈ ids ∧ h ∈ claims
  keep : ∀ j, 0 < S.pos j → S'.pos j = S.pos j
  other : ∀ j, j ∉ ids → S'.pos j = S.pos j

theorem Part.iff {S S' : FileSt} {ids claims : List Nat} {bf bf' : Nat → Nat → Prop} (h : Part I S S' ids claims bf)
    (hb : ∀ t k, bf t k ↔ bf' t k) : Part I S S' ids claims bf' := by
  have : bf = bf' := by funext t k; exact propext (hb t k)
  rw [← this]; exact h

theorem Part.known {S S' : FileSt} {ids claims : List Nat} {bf : Nat → Nat → Prop} (h : Part I S S' ids claims bf) (t : Nat) :
    0 < S'.pos t ↔ 0 < S.pos t ∨ t ∈ ids := by
  constructor
  · intro hp
    by_cases ht : t ∈ ids
    · exact Or.inr ht
    · rw [h.other t ht] at hp; exact Or.inl hp
  · rintro (hp | ht)
    · rw [h.keep t hp]; exact hp
    · exact h.written t ht

/-- One part after the other. -/
theorem Part.seq {S S1 S2 : FileSt} {A B CA CB : List Nat} {bA bB : Nat → Nat → Prop} (h1 : Part I S S1 A CA bA) (h2 : Part I S1 S2 B CB bB)
    (hd : ∀ j ∈ CA, j ∉ CB) (hdA : ∀ j ∈ CB, j ∉ A)
    (hk : ∀ h ∈ CA, ∀ r ∈ (I h).refs, S2.link h r.1 = S1.link h r.1)
    (hk2 : ∀ h ∈ CB, ∀ r ∈ (I h).refs, S1.link h r.1 = S.link h r.1) :
    Part I S S2 (A ++ B) (CA ++ CB) (fun t h => bA t h ∨ bB t h ∨ (t ∈ A ∧ h ∈ CB)) := by
  refine ⟨?_, ?_, ?_, ?_, ?_⟩
  · intro h hm hr r hrr
    rcases List.mem_append.1 hm with hm | hm
    · obtain ⟨r1, r2⟩ := h1.refs h hm hr r hrr
      rw [hk h hm r hrr]
      refine ⟨r1, fun h0 => ⟨?_, ?_⟩⟩
      · rintro (hp | hp | hp | hp)
        · obtain ⟨a, b⟩ := (r2 h0).1 (Or.inl hp)
          rw [h2.keep _ b]; exact ⟨a, b⟩
        · obtain ⟨a, b⟩ := (r2 h0).1 (Or.inr hp)
          rw [h2.keep _ b]; exact ⟨a, b⟩
        · exact absurd (h2.mem _ _ hp).2 (hd h hm)
        · exact absurd hp.2 (hd h hm)
      · intro hp
        exact (r2 h0).2 (fun hc => hp (hc.elim Or.inl (fun x => Or.inr (Or.inl x))))
    · obtain ⟨r1, r2⟩ := h2.refs h hm hr r hrr
      have hpos : S1.pos h = S.pos h := h1.other h (hdA h hm)
      rw [hpos] at r1 r2
      refine ⟨fun hp => (r1 hp).trans (hk2 h hm r hrr), fun h0 => ⟨?_, ?_⟩⟩
      · rintro (hp | hp | hp | hp)
        · exact (r2 h0).1 (Or.inl ((h1.known _).2 (Or.inl hp)))
        · exact (r2 h0).1 (Or.inl ((h1.known _).2 (Or.inr (h1.mem _ _ hp).1)))
        · exact (r2 h0).1 (Or.inr hp)
        · exact (r2 h0).1 (Or.inl ((h1.known _).2 (Or.inr hp.1)))
      · intro hp
        apply (r2 h0).2
        rintro (hc | hc)
        · rcases (h1.known _).1 hc with hc | hc
          · exact hp (Or.inl hc)
          · exact hp (Or.inr (Or.inr (Or.inr ⟨hc, hm⟩)))
        · exact hp (Or.inr (Or.inr (Or.inl hc)))
  · intro j hj
    rcases List.mem_append.1 hj with hj | hj
    · have := h1.written j hj
      rw [h2.keep j this]; exact this
    · exact h2.written j hj
  · rintro t h (hb | hb | hb)
    · have := h1.mem t h hb; exact ⟨List.mem_append_left _ this.1, List.mem_append_left _ this.2⟩
    · have := h2.mem t h hb; exact ⟨List.mem_append_right _ this.1, List.mem_append_right _ this.2⟩
    · exact ⟨List.mem_append_left _ hb.1, List.mem_append_right _ hb.2⟩
  · intro j hp
    rw [h2.keep j (by rw [h1.keep j hp]; exact hp), h1.keep j hp]
  · intro j hj
    rw [List.mem_append, not_or] at hj
    rw [h2.other j hj.2, h1.other j hj.1]

theorem foldl_set_at (S : FileSt) (refs : List (Nat × Nat)) (ls : List Nat) (hn : (refs.map (·.1)).Nodup) (r : Nat × Nat) (hr : r ∈ refs)
    (hl : r.1 < ls.length) : (refs.foldl (fun ls r => ls.set r.1 (S.pos r.2)) ls)[r.1]? = some (S.pos r.2) := by
  induction refs generalizing ls with
  | nil => cases hr
  | cons q qs ih =>
    simp only [List.map_cons, List.nodup_cons] at hn
    simp only [List.foldl_cons]
    rcases List.mem_cons.1 hr with rfl | hr
    · rw [foldl_set_other S qs _ r.1 (fun q hq he => hn.1 (he ▸ List.mem_map_of_mem hq)), List.getElem?_set_self hl]
    · exact ih _ hn.2 hr (by simpa using hl)

/-- The links of a new block to blocks of others are the places these blocks have when its writing begins. -/
theorem start_refs (S : FileSt) (id : Nat) (hp : S.pos id = 0) (hr : (I id).RefsOk) (r : Nat × Nat) (hm : r ∈ (I id).refs) :
    (S.start I id).link id r.1 = S.pos r.2 := by
  have hst : ((S.start I id).st id).links
      = (I id).refs.foldl (fun ls r => ls.set r.1 (S.pos r.2)) (resizeLinks (S.st id).links (I id).nlinks) := by
    unfold FileSt.start
    rw [if_neg (by omega)]
    show ((S.set id _).st id).links = _
    rw [set_st_same]
  unfold FileSt.link
  rw [List.getD_eq_getElem?_getD, hst, foldl_set_at S _ _ hr.1 r hm]
  · rfl
  · have := hr.2 r hm
    simp only [resizeLinks, List.length_append, List.length_take, List.length_replicate]
    omega

/-- Nothing is to be done for blocks that are in the file. -/
theorem Part.refl {S : FileSt} {ids : List Nat} {bf : Nat → Nat → Prop} (hw : ∀ j ∈ ids, 0 < S.pos j) (hm : ∀ t h, bf t h → t ∈ ids ∧ h ∈ ids) :
    Part I S S ids ids bf :=
  ⟨fun h hh _ _ _ => ⟨fun _ => rfl, fun h0 => absurd (hw h hh) (by omega)⟩, hw, hm, fun _ _ => rfl, fun _ _ => rfl⟩

/-- Afterwards something else changes. -/
theorem Part.after {S S1 S2 : FileSt} {ids claims : List Nat} {bf : Nat → Nat → Prop} (h : Part I S S1 ids claims bf)
    (hp : ∀ j, S2.pos j = S1.pos j) (hl : ∀ j ∈ claims, ∀ r ∈ (I j).refs, S2.link j r.1 = S1.link j r.1) : Part I S S2 ids claims bf := by
  refine ⟨?_, fun j hj => by rw [hp]; exact h.written j hj, h.mem, fun j hj => by rw [hp]; exact h.keep j hj,
    fun j hj => by rw [hp]; exact h.other j hj⟩
  intro j hj hr r hrr
  obtain ⟨r1, r2⟩ := h.refs j hj hr r hrr
  rw [hl j hj r hrr, hp]
  exact ⟨r1, r2⟩

theorem headStep_refs {S : FileSt} {s : Slot} {tid ti : Nat} {n : Node} {rest : Kids}
    (ih : ∀ S c, FileInv I S → S.data ≠ [] → NodeShape I c n → n.ids.Nodup → (NodeFresh S n ∨ NodeOk I S false n) →
      Part I S (writeNode I S n) n.ids n.ids (fun t h => n.before t h))
    (h : FileInv I S) (hd : S.data ≠ []) (hshape : NodeShape I s.chain n) (hnd : n.ids.Nodup)
    (htid : tid ∉ n.ids) (hok : KidsOk I S false s tid ti (.cons n rest)) :
    Part I S (headStep I S s.opt tid ti n rest.isNil) n.ids n.ids (fun t h => n.before t h) := by
  have hupd : (NodeFresh S n ∨ NodeOk I S false n) →
      Part I S ((writeNode I S n).updateLink tid ti ((writeNode I S n).pos n.id)) n.ids n.ids (fun t h => n.before t h) := by
    intro hf
    apply (ih S s.chain h hd hshape hnd hf).after
    · intro j; exact updateLink_pos _ _ _ _ _
    · intro j hj r _
      unfold FileSt.link
      have hne : j ≠ tid := fun e => htid (e ▸ hj)
      rw [updateLink_st_other _ _ _ _ hne]
  simp only [KidsOk] at hok
  unfold headStep
  by_cases hneed : S.needUpdate s.opt tid ti n.id rest.isNil = true
  · rw [if_pos hneed]
    apply hupd
    rcases hok with ⟨_, _, _, h4, _⟩ | ⟨_, _, h3, _⟩
    · exact Or.inl h4
    · by_cases hopt : s.opt = .all
      · right; simpa [hopt] using h3
      · right; exact NodeOk.weaken n (by simpa [hopt] using h3)
  · rw [if_neg hneed]
    have hf : S.needUpdate s.opt tid ti n.id rest.isNil = false := by simpa using hneed
    have hopt := needUpdate_not hf
    rcases hok with ⟨h1, _, h3, _, _⟩ | ⟨_, _, h3, _⟩
    · exact absurd (needUpdate_fresh h1 h3) hneed
    · have h3' : NodeOk I S true n := by simpa [hopt] using h3
      exact Part.refl (h3'.all_written n hshape) (fun t h hb => n.before_mem t h hb)

theorem node_refs {S : FileSt} {c : Bool} {id : Nat} {pre post : Slots}
    (ihpre : ∀ S, FileInv I S → S.data ≠ [] → id ∉ pre.ids → pre.ids.Nodup → pre.indices.Nodup → SlotsShape I pre →
      (∀ i ∈ pre.indices, i < (S.st id).links.length) → SlotsOk I S false id pre →
      Part I S (writeSlots I S id pre) pre.ids pre.ids (fun t h => pre.before t h))
    (ihpost : ∀ S, FileInv I S → S.data ≠ [] → id ∉ post.ids → post.ids.Nodup → post.indices.Nodup → SlotsShape I post →
      (∀ i ∈ post.indices, i < (S.st id).links.length) → SlotsOk I S false id post →
      Part I S (writeSlots I S id post) post.ids post.ids (fun t h => post.before t h))
    (h : FileInv I S) (hd : S.data ≠ []) (hshape : NodeShape I c (.mk id pre post)) (hnd : (Node.mk id pre post).ids.Nodup)
    (hok : NodeFresh S (.mk id pre post) ∨ NodeOk I S false (.mk id pre post)) :
    Part I S (writeNode I S (.mk id pre post)) (Node.mk id pre post).ids (Node.mk id pre post).ids (fun t h => (Node.mk id pre post).before t h) := by
  simp only [NodeShape] at hshape
  obtain ⟨_, hn0, hidx, hidx', hr0, hs1, hs2⟩ := hshape
  simp only [Node.ids, List.nodup_cons, List.mem_append, not_or] at hnd
  obtain ⟨⟨hid1, hid2⟩, hnd2⟩ := hnd
  obtain ⟨hndpre, hndpost, hdisj⟩ := List.nodup_append.1 hnd2
  obtain ⟨hixpre, hixpost, hixdisj⟩ := List.nodup_append.1 hidx
  -- after the start
  have hp0 := start_post (I := I) S id h hd
  have hpos0 : ∀ j, (S.start I id).pos j = S.pos j := start_pos S id
  have hfr := start_frame (I := I) S id
  have hst : ((S.start I id).st id).links.length = (I id).nlinks ∧ SlotsOk I (S.start I id) false id pre ∧
      SlotsOk I (S.start I id) false id post := by
    rcases hok with hf | hf
    · simp only [NodeFresh] at hf
      obtain ⟨f1, f2, f3, f4⟩ := hf
      obtain ⟨l1, l2⟩ := start_links (I := I) S id f1 f2
      refine ⟨l1, ?_, ?_⟩
      · apply SlotsOk.of_fresh pre
        · intro i hi; exact l2 i (hidx' i (by simp [hi])).2.2
        · exact SlotsFresh.congr pre (fun j hj => hfr.st j (fun e => hid1 (e ▸ hj))) f3
      · apply SlotsOk.of_fresh post
        · intro i hi; exact l2 i (hidx' i (by simp [hi])).2.2
        · exact SlotsFresh.congr post (fun j hj => hfr.st j (fun e => hid2 (e ▸ hj))) f4
    · simp only [NodeOk] at hf
      obtain ⟨f1, f2, _, f4, f5⟩ := hf
      rw [start_written S id f1]
      exact ⟨f2, f4, f5⟩
  obtain ⟨hl0, ok1, ok2⟩ := hst
  have href0 : (I id).RefsOk → ∀ r ∈ (I id).refs, (0 < S.pos id → (S.start I id).link id r.1 = S.link id r.1) ∧
      (S.pos id = 0 → (S.start I id).link id r.1 = S.pos r.2) := by
    intro hr r hm
    refine ⟨fun hp => by rw [start_written S id hp], fun hp => start_refs S id hp hr r hm⟩
  generalize hS0 : S.start I id = S0 at *
  -- the lists before
  have hpre := fun i hi => by
    have := (hidx' i (List.mem_append_left _ hi)).1
    rwa [← hl0] at this
  obtain ⟨q1, q2, q3⟩ := writeSlots_spec pre S0 id hp0.inv hp0.ne hid1 hndpre hixpre hs1 hpre ok1
  have P1 := ihpre S0 hp0.inv hp0.ne hid1 hndpre hixpre hs1 hpre ok1
  have ok2' : SlotsOk I (writeSlots I S0 id pre) false id post := by
    apply SlotsOk.congr post _ _ ok2
    · intro i hi; exact q3.link i (fun hj => hixdisj i hj i hi rfl)
    · intro j hj
      apply q1.same
      simp only [List.mem_cons, not_or]
      exact ⟨fun e => hid2 (e ▸ hj), fun hj' => hdisj j hj' j hj rfl⟩
  generalize hS1 : writeSlots I S0 id pre = S1 at *
  -- the block
  have hw := writeSelf_spec (I := I) S1 id q1.ne q1.inv
  have hwp := writeSelf_post (I := I) S1 id q1.inv q1.ne
  have hwl := fun i => writeSelf_links (I := I) S1 id q1.inv q1.ne i
  have hsame2 : ∀ j, j ≠ id → SameFor S1 (S1.writeSelf I id) j := fun j hj => hwp.same j (by simpa using hj)
  generalize hS2 : S1.writeSelf I id = S2 at *
  have hl2 : (S2.st id).links.length = (I id).nlinks := by rw [hw.2.2.2.2.2.1, q3.len, hl0]
  have okpost2 : SlotsOk I S2 false id post :=
    SlotsOk.congr post (fun i _ => hwl i) (fun j hj => hsame2 j (fun e => hid2 (e ▸ hj))) ok2'
  have P2 : Part I S1 S2 [id] [] (fun _ _ => False) :=
    ⟨fun _ hh => absurd hh List.not_mem_nil, fun j hj => by rw [List.mem_singleton] at hj; rw [hj]; exact hw.2.2.2.1,
      fun _ _ hf => hf.elim, hwp.keep, fun j hj => (hsame2 j (fun e => hj (by simp [e]))).pos⟩
  -- the lists after
  have hpost := fun i hi => by
    have := (hidx' i (List.mem_append_right _ hi)).1
    rwa [← hl2] at this
  obtain ⟨t1, t2, t3⟩ := writeSlots_spec post S2 id hwp.inv hwp.ne hid2 hndpost hixpost hs2 hpost okpost2
  have P3 := ihpost S2 hwp.inv hwp.ne hid2 hndpost hixpost hs2 hpost okpost2
  have hW : writeNode I S (.mk id pre post) = writeSlots I S2 id post := by
    simp only [writeNode]; rw [hS0, hS1, hS2]
  rw [hW]
  have P12 := P1.seq P2 (fun _ _ => List.not_mem_nil) (fun j hj => absurd hj List.not_mem_nil)
    (fun j hj r _ => (hsame2 j (fun e => hid1 (e ▸ hj))).link r.1) (fun j hj => absurd hj List.not_mem_nil)
  have P := P12.seq P3
    (fun j hj hj' => hdisj j (by simpa using hj) j hj' rfl)
    (fun j hj hj' => by
      simp only [List.mem_append, List.mem_singleton] at hj'
      rcases hj' with hj' | hj'
      · exact hdisj j hj' j hj rfl
      · exact hid2 (hj' ▸ hj))
    (fun j hj r _ => by
      have hj1 : j ∈ pre.ids := by simpa using hj
      apply SameFor.link
      apply t1.same
      simp only [List.mem_cons, not_or]
      exact ⟨fun e => hid1 (e ▸ hj1), fun hj' => hdisj j hj1 j hj' rfl⟩)
    (fun j hj r _ => by
      rw [(hsame2 j (fun e => hid2 (e ▸ hj))).link]
      apply SameFor.link
      apply q1.same
      simp only [List.mem_cons, not_or]
      exact ⟨fun e => hid2 (e ▸ hj), fun hj' => hdisj j hj' j hj rfl⟩)
  generalize hS3 : writeSlots I S2 id post = S3 at *
  have hbf : ∀ t k, (Node.mk id pre post).before t k ↔
      ((pre.before t k ∨ False ∨ (t ∈ pre.ids ∧ k ∈ ([] : List Nat))) ∨ post.before t k ∨ (t ∈ pre.ids ++ [id] ∧ k ∈ post.ids)) := by
    intro t k
    simp only [Node.before, List.mem_append, List.mem_singleton, List.not_mem_nil, and_false, or_false]
    constructor
    · rintro (hb | hb | ⟨hb, hb' | hb'⟩)
      · exact Or.inl hb
      · exact Or.inr (Or.inl hb)
      · exact Or.inr (Or.inr ⟨Or.inr hb', hb⟩)
      · exact Or.inr (Or.inr ⟨Or.inl hb', hb⟩)
    · rintro (hb | hb | ⟨hb' | hb', hb⟩)
      · exact Or.inl hb
      · exact Or.inr (Or.inl hb)
      · exact Or.inr (Or.inr ⟨hb, Or.inr hb'⟩)
      · exact Or.inr (Or.inr ⟨hb, Or.inl hb'⟩)
  have hids : ∀ j, j ∈ (Node.mk id pre post).ids ↔ j ∈ (pre.ids ++ [id]) ++ post.ids := by
    intro j
    simp only [Node.ids, List.mem_cons, List.mem_append, List.not_mem_nil, or_false]
    constructor
    · rintro (hj | hj | hj)
      · exact Or.inl (Or.inr hj)
      · exact Or.inl (Or.inl hj)
      · exact Or.inr hj
    · rintro ((hj | hj) | hj)
      · exact Or.inr (Or.inl hj)
      · exact Or.inl hj
      · exact Or.inr (Or.inr hj)
  have hnot : ∀ t, ¬ (Node.mk id pre post).before t id := by
    intro t hb
    simp only [Node.before] at hb
    rcases hb with hb | hb | hb
    · exact hid1 (Slots.before_mem t id pre hb).2
    · exact hid2 (Slots.before_mem t id post hb).2
    · exact hid2 hb.1
  have P' := P.iff (fun t k => (hbf t k).symm)
  have hkeep : ∀ j, 0 < S.pos j → S3.pos j = S.pos j := fun j hj => by
    rw [P'.keep j (by rw [hpos0]; exact hj), hpos0]
  refine ⟨?_, fun j hj => P'.written j ((hids j).1 hj), fun t k hb => Node.before_mem t k _ hb, hkeep,
    fun j hj => by rw [P'.other j (fun e => hj ((hids j).2 e)), hpos0]⟩
  intro k hk hr r hrr
  by_cases hki : k = id
  · subst hki
    have hlink : S3.link k r.1 = S0.link k r.1 := by
      rw [t3.link r.1 (fun hi => (hidx' r.1 (List.mem_append_right _ hi)).2.2 r hrr rfl), hwl,
        q3.link r.1 (fun hi => (hidx' r.1 (List.mem_append_left _ hi)).2.2 r hrr rfl)]
    obtain ⟨a, b⟩ := href0 hr r hrr
    rw [hlink]
    refine ⟨a, fun h0 => ⟨?_, ?_⟩⟩
    · rintro (hp | hp)
      · rw [b h0, hkeep _ hp]; exact ⟨rfl, hp⟩
      · exact absurd hp (hnot _)
    · intro hp
      rw [b h0]
      have : ¬ 0 < S.pos r.2 := fun hc => hp (Or.inl hc)
      omega
  · have hk' : k ∈ (pre.ids ++ []) ++ post.ids := by
      have := (hids k).1 hk
      simp only [List.mem_append, List.mem_singleton, hki, or_false, List.append_nil] at this ⊢
      exact this
    obtain ⟨a, b⟩ := P'.refs k hk' hr r hrr
    rw [hpos0] at a b
    rw [hpos0] at b
    refine ⟨fun hp => ?_, b⟩
    rw [a hp]
    unfold FileSt.link
    rw [hfr.st k hki]

mutual
theorem writeNode_refs (n : Node) : ∀ S c, FileInv I S → S.data ≠ [] → NodeShape I c n → n.ids.Nodup →
    (NodeFresh S n ∨ NodeOk I S false n) → Part I S (writeNode I S n) n.ids n.ids (fun t h => n.before t h) := by
  intro S c h hd hshape hnd hok
  match n with
  | .mk id pre post =>
    exact node_refs (fun S a1 a2 a3 a4 a5 a6 a7 a8 => writeSlots_refs pre S id a1 a2 a3 a4 a5 a6 a7 a8)
      (fun S a1 a2 a3 a4 a5 a6 a7 a8 => writeSlots_refs post S id a1 a2 a3 a4 a5 a6 a7 a8) h hd hshape hnd hok
theorem writeSlots_refs (l : Slots) : ∀ S id, FileInv I S → S.data ≠ [] → id ∉ l.ids → l.ids.Nodup → l.indices.Nodup →
    SlotsShape I l → (∀ i ∈ l.indices, i < (S.st id).links.length) → SlotsOk I S false id l →
    Part I S (writeSlots I S id l) l.ids l.ids (fun t h => l.before t h) := by
  intro S id h hd hid hnd hix hshape hlen hok
  match l with
  | .nil =>
    simp only [writeSlots]
    exact Part.refl (fun j hj => absurd hj List.not_mem_nil) (fun t h hb => Slots.before_mem t h .nil hb)
  | .cons s kids rest =>
    simp only [writeSlots]
    simp only [Slots.ids, List.mem_append, not_or] at hid
    simp only [Slots.ids] at hnd
    obtain ⟨hnd1, hnd2, hdisj⟩ := List.nodup_append.1 hnd
    simp only [Slots.indices, List.nodup_cons] at hix
    simp only [SlotsShape] at hshape
    simp only [SlotsOk] at hok
    obtain ⟨p1, p2, p3⟩ := writeKids_spec kids S s id s.index h hd hid.1 hnd1 hshape.1
      (hlen s.index (by simp [Slots.indices])) hok.1
    have P1 := writeKids_refs kids S s id s.index h hd hid.1 hnd1 hshape.1
      (hlen s.index (by simp [Slots.indices])) hok.1
    have hok2 : SlotsOk I (writeKids I S s.opt id s.index kids) false id rest := by
      apply SlotsOk.congr rest _ _ hok.2
      · intro i hi
        apply p3.link
        simp only [List.mem_singleton]
        intro e; subst e; exact hix.1 hi
      · intro j hj
        apply p1.same
        simp only [List.mem_cons, not_or]
        exact ⟨fun e => hid.2 (e ▸ hj), fun hj' => hdisj j hj' j hj rfl⟩
    have hlen2 := fun i hi => by
      have := hlen i (List.mem_cons_of_mem _ hi)
      rwa [← p3.len] at this
    have P2 := writeSlots_refs rest (writeKids I S s.opt id s.index kids) id p1.inv p1.ne hid.2 hnd2 hix.2 hshape.2 hlen2 hok2
    obtain ⟨r1, r2, r3⟩ := writeSlots_spec rest (writeKids I S s.opt id s.index kids) id p1.inv p1.ne hid.2 hnd2 hix.2 hshape.2 hlen2 hok2
    exact (P1.seq P2 (fun j hj hj' => hdisj j hj j hj' rfl) (fun j hj hj' => hdisj j hj' j hj rfl)
      (fun j hj r _ => (r1.same j (by
        simp only [List.mem_cons, not_or]
        exact ⟨fun e => hid.1 (e ▸ hj), fun hj' => hdisj j hj j hj' rfl⟩)).link r.1)
      (fun j hj r _ => (p1.same j (by
        simp only [List.mem_cons, not_or]
        exact ⟨fun e => hid.2 (e ▸ hj), fun hj' => hdisj j hj' j hj rfl⟩)).link r.1)).iff (fun t k => by
          simp only [Slots.before])
theorem writeKids_refs (l : Kids) : ∀ S s tid ti, FileInv I S → S.data ≠ [] → tid ∉ l.ids → l.ids.Nodup → KidsShape I s l →
    ti < (S.st tid).links.length → KidsOk I S false s tid ti l →
    Part I S (writeKids I S s.opt tid ti l) l.ids l.ids (fun t h => l.before t h) := by
  intro S s tid ti h hd htid hnd hshape hti hok
  match l with
  | .nil =>
    simp only [writeKids]
    exact Part.refl (fun j hj => absurd hj List.not_mem_nil) (fun t h hb => Kids.before_mem t h .nil hb)
  | .cons n rest =>
    rw [writeKids_cons]
    simp only [Kids.ids, List.mem_append, not_or] at htid
    simp only [Kids.ids] at hnd
    simp only [KidsShape] at hshape
    obtain ⟨hs1, _, hs3, hs4⟩ := hshape
    obtain ⟨hnd1, hnd2, hdisj⟩ := List.nodup_append.1 hnd
    have hh := headStep_spec (I := I) (s := s) (ti := ti) (rest := rest)
      (fun S c a1 a2 a3 a4 a5 => writeNode_spec n S c a1 a2 a3 a4 a5) h hd hs1 hnd htid.1 hti hok
    have P1 := headStep_refs (I := I) (s := s) (ti := ti) (rest := rest)
      (fun S c a1 a2 a3 a4 a5 => writeNode_refs n S c a1 a2 a3 a4 a5) h hd hs1 hnd1 htid.1 hok
    simp only at hh
    obtain ⟨p1, p2, p3, p4, p5⟩ := hh
    generalize hW : headStep I S s.opt tid ti n rest.isNil = W at *
    by_cases hc : s.chain = true
    · have hnid : n.id ∉ rest.ids := fun hj => hdisj n.id n.id_mem n.id hj rfl
      have hshape1 : NodeShape I true n := by rw [hc] at hs1; exact hs1
      have hlen : 0 < (W.st n.id).links.length := by rw [p2.links]; exact hshape1.chain_links
      obtain ⟨r1, r2, r3⟩ := writeKids_spec rest W s n.id 0 p1.inv p1.ne hnid hnd2 hs4 hlen (p5 hc htid.2)
      have P2 := writeKids_refs rest W s n.id 0 p1.inv p1.ne hnid hnd2 hs4 hlen (p5 hc htid.2)
      have href : ∀ r ∈ (I n.id).refs, r.1 ≠ 0 := by
        cases n; simp only [NodeShape] at hshape1; exact hshape1.2.2.2.2.1 trivial
      exact (P1.seq P2 (fun j hj hj' => hdisj j hj j hj' rfl) (fun j hj hj' => hdisj j hj' j hj rfl)
        (fun j hj r hr => by
          by_cases hjn : j = n.id
          · subst hjn
            exact r3.link r.1 (by simpa using href r hr)
          · apply SameFor.link
            apply r1.same
            simp only [List.mem_cons, not_or]
            exact ⟨hjn, fun hj' => hdisj j hj j hj' rfl⟩)
        (fun j hj r _ => (p1.same j (by
          simp only [List.mem_cons, not_or]
          exact ⟨fun e => htid.2 (e ▸ hj), fun hj' => hdisj j hj' j hj rfl⟩)).link r.1)).iff (fun t k => by
            simp only [Kids.before])
    · have hnil := hs3 (by simpa using hc)
      match rest with
      | .nil =>
        simp only [writeKids]
        refine ⟨fun k hk => ?_, fun j hj => P1.written j (by simpa [Kids.ids] using hj), fun t k hb => Kids.before_mem t k _ hb, P1.keep,
          fun j hj => P1.other j (by simpa [Kids.ids] using hj)⟩
        have hbf : (fun t h => n.before t h) = (fun t h => (Kids.cons n .nil).before t h) := by
          funext t h; simp [Kids.before, Kids.ids]
        rw [← hbf]
        exact P1.refs k (by simpa [Kids.ids] using hk)
      | .cons _ _ => simp [Kids.isNil] at hnil
end

end

end Mdf
