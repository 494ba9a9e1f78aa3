import Verif.Proof.Reader

/-! Calls of a reader that may fail: nothing foreign comes into the description, objects stay; and MDF 3. -/

namespace Mdf

def CgObj.Sound (d : Img) (att : List RBlk) (c : CgObj) : Prop :=
  ReadsTo (d.blk .cn att) (c.self.blk.link 1) (blks c.cn) ∧ ReadsTo (d.blk .sr att) (c.self.blk.link 4) (blks c.sr)

def HdObj.RestEmpty (h : HdObj) : Prop := (∀ g ∈ h.dg, ∀ c ∈ g.cg, c.cn = [] ∧ c.sr = []) ∧ h.ch = [] ∧ h.ev = []

def HdObj.AttDone (h : HdObj) : Prop := h.att ≠ [] ∨ validLink (h.link 3) = false

structure HdObj.Inv4 (d : Img) (h : HdObj) : Prop where
  start : h.read = false → h = HdObj.fresh
  links : h.read = true → h.links = d.hdLinks.1
  sound : h.Sound d
  att : h.AttDone ∨ h.RestEmpty

theorem CgObj.sound_empty (d : Img) (att : List RBlk) (c : CgObj) (h : c.cn = [] ∧ c.sr = []) : c.Sound d att := by
  unfold CgObj.Sound
  rw [h.1, h.2]
  exact ⟨.nil _, .nil _⟩

theorem inv4_fresh (d : Img) : HdObj.fresh.Inv4 d := by
  refine ⟨fun _ => rfl, fun h => by simp [HdObj.fresh] at h, ?_, .inr ⟨by simp [HdObj.fresh], rfl, rfl⟩⟩
  refine ⟨.nil _, .nil _, by simp [HdObj.fresh], .nil _, by simp [HdObj.fresh], .nil _, .nil _⟩

theorem mapCg_empty (os : List Obj) : ∀ c ∈ os.map (fun o => (⟨o, [], []⟩ : CgObj)), c.cn = [] ∧ c.sr = [] := by
  intro c hc
  obtain ⟨o, _, rfl⟩ := List.mem_map.mp hc
  exact ⟨rfl, rfl⟩

namespace Img
variable (d : Img)

theorem header4_inv (h : HdObj) (p : h.Inv4 d) : (d.header4 h).1.Inv4 d := by
  by_cases hr : h.read = true
  · rw [d.header4_fix h hr]; exact p
  · have := p.start (by simpa using hr)
    subst this
    have key : (d.header4 HdObj.fresh).1.read = true ∧ (d.header4 HdObj.fresh).1.links = d.hdLinks.1 ∧
        ReadsTo (d.blk .fh []) (d.hdLinks.1.getD 1 0) (blks (d.header4 HdObj.fresh).1.fh) ∧ (d.header4 HdObj.fresh).1.dg = [] ∧
        (d.header4 HdObj.fresh).1.att = [] ∧ (d.header4 HdObj.fresh).1.ch = [] ∧ (d.header4 HdObj.fresh).1.ev = [] := by
      unfold header4
      simp only [HdObj.fresh, Bool.false_eq_true, if_false]
      split
      · split
        · exact ⟨rfl, rfl, .nil _, rfl, rfl, rfl, rfl⟩
        · exact ⟨rfl, rfl, readLinkList_to _ _ _ _ _ (.nil _), rfl, rfl, rfl, rfl⟩
      · exact ⟨rfl, rfl, .nil _, rfl, rfl, rfl, rfl⟩
    obtain ⟨k1, k2, k3, k4, k5, k6, k7⟩ := key
    generalize (d.header4 HdObj.fresh).1 = h' at *
    refine ⟨fun hf => by rw [k1] at hf; simp at hf, fun _ => k2, ⟨?_, ?_, ?_, ?_, ?_, ?_, ?_⟩, .inr ⟨?_, k6, k7⟩⟩
    · unfold HdObj.link; rw [k2]; exact k3
    · rw [k4]; exact .nil _
    · simp [k4]
    · rw [k5]; exact .nil _
    · simp [k4]
    · rw [k6]; exact .nil _
    · rw [k7]; exact .nil _
    · simp [k4]

theorem header4_read (h : HdObj) : (d.header4 h).1.read = true := by
  by_cases hr : h.read = true
  · rw [d.header4_fix h hr]; exact hr
  · unfold header4
    simp only [hr]
    simp only [Bool.false_eq_true, if_false]
    split
    · split <;> rfl
    · rfl

theorem dgList4_inv (h : HdObj) (hr : h.read = true) (p : h.Inv4 d) : (d.dgList4 h).1.read = true ∧ (d.dgList4 h).1.Inv4 d := by
  unfold dgList4
  split
  · rename_i he
    refine ⟨hr, fun hf => by simp only at hf; rw [hr] at hf; simp at hf, p.links, ⟨p.sound.1, ?_, ?_, p.sound.2.2.2.1, ?_, p.sound.2.2.2.2.2⟩, ?_⟩
    · have := walk_to (d.blk .dg []) d.fuel (h.link 0) h.made
      show ReadsTo (d.blk .dg []) (h.link 0) _
      simpa [blks, Function.comp_def] using this
    · intro g hg
      obtain ⟨o, _, rfl⟩ := List.mem_map.mp hg
      exact .nil _
    · intro g hg
      obtain ⟨o, _, rfl⟩ := List.mem_map.mp hg
      simp
    · rcases p.att with ha | ha
      · exact .inl ha
      · refine .inr ⟨?_, ha.2⟩
        intro g hg
        obtain ⟨o, _, rfl⟩ := List.mem_map.mp hg
        simp
  · exact ⟨hr, p⟩

theorem cgLists4_inv (h : HdObj) (hr : h.read = true) (p : h.Inv4 d) : (d.cgLists4 h).1.read = true ∧ (d.cgLists4 h).1.Inv4 d := by
  have hrel := eachObj_rel d.cgList4 (fun x y => y.self = x.self ∧ (y = x ∨ (ReadsTo (d.blk .cg []) (x.self.blk.link 1) (y.cg.map (·.self.blk)) ∧
      ∀ c ∈ y.cg, c.cn = [] ∧ c.sr = []))) (fun _ => ⟨rfl, .inl rfl⟩) (fun g m => by
      unfold cgList4
      split
      · refine ⟨rfl, .inr ⟨?_, mapCg_empty _⟩⟩
        have := walk_to (d.blk .cg []) d.fuel (g.self.blk.link 1) m
        simpa [blks, Function.comp_def] using this
      · exact ⟨rfl, .inl rfl⟩) h.dg h.made
  refine ⟨hr, fun hf => by change h.read = false at hf; rw [hr] at hf; simp at hf, p.links, ⟨p.sound.1, ?_, ?_, p.sound.2.2.2.1, ?_, p.sound.2.2.2.2.2⟩, ?_⟩
  · have : (d.cgLists4 h).1.dg.map (·.self.blk) = h.dg.map (·.self.blk) :=
      (forall₂_map_eq hrel _ fun x y h => by simp [h.1]).symm
    rw [this]; exact p.sound.2.1
  · intro g hg
    obtain ⟨x, hx, h1, h2⟩ := forall₂_mem_right hrel g hg
    rcases h2 with rfl | h2
    · exact p.sound.2.2.1 g hx
    · rw [h1]; exact h2.1
  · intro g hg
    obtain ⟨x, hx, h1, h2⟩ := forall₂_mem_right hrel g hg
    rcases h2 with rfl | h2
    · exact p.sound.2.2.2.2.1 g hx
    · intro c hc; exact CgObj.sound_empty d _ c (h2.2 c hc)
  · rcases p.att with ha | ha
    · exact .inl ha
    · refine .inr ⟨?_, ha.2⟩
      intro g hg
      obtain ⟨x, hx, h1, h2⟩ := forall₂_mem_right hrel g hg
      rcases h2 with rfl | h2
      · exact ha.1 g hx
      · exact h2.2

theorem atList4_inv (h : HdObj) (hr : h.read = true) (p : h.Inv4 d) : (d.atList4 h).1.read = true ∧ (d.atList4 h).1.Inv4 d ∧
    ((d.atList4 h).2 = .ok → (d.atList4 h).1.AttDone) := by
  rcases p.att with ha | ha
  · have : d.atList4 h = (h, .ok) := by
      unfold atList4 readObjList
      rcases ha with ha | ha
      · simp only [ha, if_false]
      · split
        · rename_i he
          simp only [walk_not_valid _ _ _ _ ha]
          cases h; simp only at he ⊢; rw [he]
        · rfl
    rw [this]
    exact ⟨hr, p, fun _ => ha⟩
  · refine ⟨hr, ⟨fun hf => by change h.read = false at hf; rw [hr] at hf; simp at hf, p.links, ⟨p.sound.1, p.sound.2.1, p.sound.2.2.1, ?_, ?_, ?_, ?_⟩, .inr ha⟩, ?_⟩
    · exact readLinkList_to _ _ _ _ _ p.sound.2.2.2.1
    · intro g hg c hc
      exact CgObj.sound_empty d _ c (ha.1 g hg c hc)
    · show ReadsTo _ _ (blks h.ch); rw [ha.2.1]; exact .nil _
    · show ReadsTo _ _ (blks h.ev); rw [ha.2.2]; exact .nil _
    · intro hok
      by_cases he : h.att = []
      · have hok' : (readObjList (d.blk .at []) d.fuel [] (h.link 3) h.made).2.2 = .ok := by rw [← he]; exact hok
        have := (readLinkList_ok _ _ _ _ hok').nil_or
        rcases this with hn | hn
        · left
          show (readObjList (d.blk .at []) d.fuel h.att (h.link 3) h.made).1 ≠ []
          rw [he]
          intro h0
          rw [h0] at hn
          simp [blks] at hn
        · exact .inr hn
      · left
        show (readObjList (d.blk .at []) d.fuel h.att (h.link 3) h.made).1 ≠ []
        rcases readLinkList_sub (d.blk .at []) d.fuel h.att (h.link 3) h.made with h0 | h0
        · exact absurd h0 he
        · rw [h0]; exact he

theorem info4_inv (h : HdObj) (hr : h.read = true) (p : h.Inv4 d) : ((d.info4 h).1.read = true ∧ (d.info4 h).1.Inv4 d) ∧
    ((d.info4 h).2 = .ok → (d.info4 h).1.AttDone) := by
  unfold info4
  have keep : ∀ h : HdObj, h.read = true ∧ h.Inv4 d → (d.dgList4.seq d.cgLists4 h).1.read = true ∧ (d.dgList4.seq d.cgLists4 h).1.Inv4 d :=
    fun h => seq_keep (fun h => h.read = true ∧ h.Inv4 d) (fun h hp => d.dgList4_inv h hp.1 hp.2) (fun h hp => d.cgLists4_inv h hp.1 hp.2) h
  refine ⟨seq_keep (fun h => h.read = true ∧ h.Inv4 d) keep (fun h hp => ⟨(d.atList4_inv h hp.1 hp.2).1, (d.atList4_inv h hp.1 hp.2).2.1⟩) h ⟨hr, p⟩, ?_⟩
  intro hok
  obtain ⟨h1, h2⟩ := seq_ok.mp hok
  rw [seq_fst h1]
  obtain ⟨k1, k2⟩ := keep h ⟨hr, p⟩
  exact (d.atList4_inv _ k1 k2).2.2 h2

theorem cnList4_sound (att : List RBlk) (c : CgObj) (made : Nat) (hs : c.Sound d att) : (d.cnList4 att c made).1.Sound d att := by
  unfold CgObj.Sound
  rw [d.cnList4_self]
  unfold cnList4
  simp only
  split
  · exact ⟨readLinkList_to _ _ _ _ _ hs.1, readLinkList_to _ _ _ _ _ hs.2⟩
  · exact ⟨readLinkList_to _ _ _ _ _ hs.1, hs.2⟩

theorem channels4_inv (h : HdObj) (hp : h.read = true ∧ h.Inv4 d ∧ h.AttDone) :
    (d.channels4 h).1.read = true ∧ (d.channels4 h).1.Inv4 d ∧ (d.channels4 h).1.AttDone := by
  obtain ⟨hr, p, ha⟩ := hp
  have hrel := d.channels4_rel h
  have hs := eachObj_rel (d.cnLists4 (blks h.att)) (fun x y => (∀ c ∈ x.cg, c.Sound d (blks h.att)) → ∀ c ∈ y.cg, c.Sound d (blks h.att))
    (fun _ h => h) (fun g m hg c hc => by
      have := eachObj_rel (d.cnList4 (blks h.att)) (fun x y => x.Sound d (blks h.att) → y.Sound d (blks h.att)) (fun _ h => h)
        (fun c m hc => d.cnList4_sound _ c m hc) g.cg m
      obtain ⟨x, hx, hxc⟩ := forall₂_mem_right this c hc
      exact hxc (hg x hx)) h.dg h.made
  refine ⟨hr, ⟨fun hf => by change h.read = false at hf; rw [hr] at hf; simp at hf, p.links, ⟨p.sound.1, ?_, ?_, p.sound.2.2.2.1, ?_, p.sound.2.2.2.2.2⟩, .inl ha⟩, ha⟩
  · have : (d.channels4 h).1.dg.map (·.self.blk) = h.dg.map (·.self.blk) :=
      (forall₂_map_eq hrel _ fun x y h => by simp [h.1]).symm
    rw [this]; exact p.sound.2.1
  · intro g hg
    obtain ⟨x, hx, h1, h2⟩ := forall₂_mem_right hrel g hg
    rw [h2, h1]; exact p.sound.2.2.1 x hx
  · intro g hg c hc
    obtain ⟨x, hx, h1⟩ := forall₂_mem_right hs g hg
    exact h1 (p.sound.2.2.2.2.1 x hx) c hc

theorem chList4_inv (h : HdObj) (hp : h.read = true ∧ h.Inv4 d ∧ h.AttDone) :
    (d.chList4 h).1.read = true ∧ (d.chList4 h).1.Inv4 d ∧ (d.chList4 h).1.AttDone := by
  obtain ⟨hr, p, ha⟩ := hp
  exact ⟨hr, ⟨fun hf => by change h.read = false at hf; rw [hr] at hf; simp at hf, p.links, ⟨p.sound.1, p.sound.2.1, p.sound.2.2.1, p.sound.2.2.2.1,
    p.sound.2.2.2.2.1, readLinkList_to _ _ _ _ _ p.sound.2.2.2.2.2.1, p.sound.2.2.2.2.2.2⟩, .inl ha⟩, ha⟩

theorem evList4_inv (h : HdObj) (hp : h.read = true ∧ h.Inv4 d ∧ h.AttDone) :
    (d.evList4 h).1.read = true ∧ (d.evList4 h).1.Inv4 d ∧ (d.evList4 h).1.AttDone := by
  obtain ⟨hr, p, ha⟩ := hp
  exact ⟨hr, ⟨fun hf => by change h.read = false at hf; rw [hr] at hf; simp at hf, p.links, ⟨p.sound.1, p.sound.2.1, p.sound.2.2.1, p.sound.2.2.2.1,
    p.sound.2.2.2.2.1, p.sound.2.2.2.2.2.1, readLinkList_to _ _ _ _ _ p.sound.2.2.2.2.2.2⟩, .inl ha⟩, ha⟩

theorem rest4_inv (h : HdObj) (hp : h.read = true ∧ h.Inv4 d ∧ h.AttDone) : (d.rest4 h).1.Inv4 d :=
  (seq_keep (fun h => h.read = true ∧ h.Inv4 d ∧ h.AttDone) (fun h hp => seq_keep (fun h => h.read = true ∧ h.Inv4 d ∧ h.AttDone)
    (fun h hp => d.channels4_inv h hp) (fun h hp => d.chList4_inv h hp) h hp) (fun h hp => d.evList4_inv h hp) h hp).2.1

end Img

theorem rcall4_inv (d : Img) (c : RCall) (h : HdObj) (p : h.Inv4 d) : (c.run4 d h).1.Inv4 d := by
  have k1 := d.header4_inv h p
  have k2 := d.header4_read h
  have k3 := d.info4_inv _ k2 k1
  cases c with
  | header => exact k1
  | info =>
    show (d.header4.seq d.info4 h).1.Inv4 d
    by_cases hok : (d.header4 h).2 = .ok
    · rw [seq_fst hok]; exact k3.1.2
    · rw [seq_stop hok]; exact k1
  | everything =>
    show ((d.header4.seq d.info4).seq d.rest4 h).1.Inv4 d
    by_cases hok : (d.header4 h).2 = .ok
    · by_cases hok2 : (d.info4 (d.header4 h).1).2 = .ok
      · rw [seq_fst (by rw [seq_fst hok]; exact hok2), seq_fst hok]
        exact d.rest4_inv _ ⟨k3.1.1, k3.1.2, k3.2 hok2⟩
      · rw [seq_stop (by rw [seq_fst hok]; exact hok2), seq_fst hok]; exact k3.1.2
    · rw [seq_stop (by rw [seq_stop hok]; exact hok), seq_stop hok]; exact k1

/-! ### Objects stay -/

def CgObj.ids (c : CgObj) : List Nat := c.self.id :: (c.cn.map (·.id) ++ c.sr.map (·.id))
def DgObj.ids (g : DgObj) : List Nat := g.self.id :: g.cg.flatMap CgObj.ids

theorem live_eq (h : HdObj) : h.live = h.fh.map (·.id) ++ h.att.map (·.id) ++ h.ch.map (·.id) ++ h.ev.map (·.id) ++ h.dg.flatMap DgObj.ids := rfl

theorem flatMap_subset {α : Type} (k : α → List Nat) {l l' : List α} (h : List.Forall₂ (fun x y => k x ⊆ k y) l l') :
    l.flatMap k ⊆ l'.flatMap k := by
  intro i hi
  obtain ⟨x, hx, hix⟩ := List.mem_flatMap.mp hi
  obtain ⟨y, hy, hxy⟩ := forall₂_mem_left h x hx
  exact List.mem_flatMap.mpr ⟨y, hy, hxy hix⟩

theorem readLinkList_ids (rd : Nat → Option RBlk) (fuel : Nat) (old : List Obj) (link made : Nat) :
    old.map (·.id) ⊆ (readObjList rd fuel old link made).1.map (·.id) := by
  rcases readLinkList_sub rd fuel old link made with h | h
  · simp [h]
  · rw [h]; exact fun _ h => h

/-- A step that makes objects and destroys none. -/
def ReadM.Keeps (a : ReadM) : Prop := ∀ h, h.live ⊆ (a h).1.live

theorem Keeps.seq {a b : ReadM} (ha : a.Keeps) (hb : b.Keeps) : (a.seq b).Keeps := by
  intro h
  by_cases hok : (a h).2 = .ok
  · rw [seq_fst hok]; exact fun i hi => hb _ (ha h hi)
  · rw [seq_stop hok]; exact ha h

namespace Img
variable (d : Img)

theorem header4_keeps : d.header4.Keeps := by
  intro h
  unfold header4
  split
  · exact fun _ h => h
  · simp only
    split
    · split
      · exact fun _ h => h
      · have : ∀ r : List Obj × Nat × ReadOut, h.fh.map (·.id) ⊆ r.1.map (·.id) → ∀ v,
            h.live ⊆ (({ h with read := true, links := d.hdLinks.1, val := v, fh := r.1, made := r.2.1 } : HdObj)).live := by
          intro r hr v i hi
          simp only [live_eq, List.mem_append] at hi ⊢
          rcases hi with (((hi | hi) | hi) | hi) | hi
          · exact .inl (.inl (.inl (.inl (hr hi))))
          · exact .inl (.inl (.inl (.inr hi)))
          · exact .inl (.inl (.inr hi))
          · exact .inl (.inr hi)
          · exact .inr hi
        exact this _ (readLinkList_ids _ _ _ _ _) _
    · exact fun _ h => h

theorem live_dg (h : HdObj) (dg : List DgObj) (m : Nat) (hs : h.dg.flatMap DgObj.ids ⊆ dg.flatMap DgObj.ids) :
    h.live ⊆ ({ h with dg := dg, made := m } : HdObj).live := by
  intro i hi
  simp only [live_eq, List.mem_append] at hi ⊢
  rcases hi with hi | hi
  · exact .inl hi
  · exact .inr (hs hi)

theorem dgList4_keeps : d.dgList4.Keeps := by
  intro h
  unfold dgList4
  split
  · rename_i he
    exact live_dg h _ _ (by simp [he])
  · exact fun _ h => h

theorem cgLists4_keeps : d.cgLists4.Keeps := by
  intro h
  unfold cgLists4
  refine live_dg h _ _ (flatMap_subset _ (eachObj_rel _ _ (fun _ _ h => h) (fun g m => ?_) _ _))
  unfold cgList4
  split
  · rename_i he
    simp [DgObj.ids, he]
  · exact fun _ h => h

theorem atList4_keeps : d.atList4.Keeps := by
  intro h i hi
  unfold atList4
  simp only [live_eq, List.mem_append] at hi ⊢
  rcases hi with (((hi | hi) | hi) | hi) | hi
  · exact .inl (.inl (.inl (.inl hi)))
  · exact .inl (.inl (.inl (.inr (readLinkList_ids _ _ _ _ _ hi))))
  · exact .inl (.inl (.inr hi))
  · exact .inl (.inr hi)
  · exact .inr hi

theorem channels4_keeps : d.channels4.Keeps := by
  intro h
  unfold channels4
  refine live_dg h _ _ (flatMap_subset _ (eachObj_rel _ _ (fun _ _ h => h) (fun g m => ?_) _ _))
  have : g.cg.flatMap CgObj.ids ⊆ (d.cnLists4 (h.att.map (·.blk)) g m).1.cg.flatMap CgObj.ids := by
    refine flatMap_subset _ (eachObj_rel _ _ (fun _ _ h => h) (fun c m => ?_) _ _)
    intro i hi
    have h1 := d.cnList4_self (h.att.map (·.blk)) c m
    unfold CgObj.ids at hi ⊢
    rw [h1]
    rcases List.mem_cons.mp hi with rfl | hi
    · exact List.mem_cons_self
    · refine List.mem_cons_of_mem _ ?_
      unfold cnList4
      simp only
      split
      · rcases List.mem_append.mp hi with hi | hi
        · exact List.mem_append.mpr (.inl (readLinkList_ids _ _ _ _ _ hi))
        · exact List.mem_append.mpr (.inr (readLinkList_ids _ _ _ _ _ hi))
      · rcases List.mem_append.mp hi with hi | hi
        · exact List.mem_append.mpr (.inl (readLinkList_ids _ _ _ _ _ hi))
        · exact List.mem_append.mpr (.inr hi)
  intro i hi
  unfold DgObj.ids at hi ⊢
  rcases List.mem_cons.mp hi with rfl | hi
  · exact List.mem_cons_self
  · exact List.mem_cons_of_mem _ (this hi)

theorem chList4_keeps : d.chList4.Keeps := by
  intro h i hi
  unfold chList4
  simp only [live_eq, List.mem_append] at hi ⊢
  rcases hi with (((hi | hi) | hi) | hi) | hi
  · exact .inl (.inl (.inl (.inl hi)))
  · exact .inl (.inl (.inl (.inr hi)))
  · exact .inl (.inl (.inr (readLinkList_ids _ _ _ _ _ hi)))
  · exact .inl (.inr hi)
  · exact .inr hi

theorem evList4_keeps : d.evList4.Keeps := by
  intro h i hi
  unfold evList4
  simp only [live_eq, List.mem_append] at hi ⊢
  rcases hi with (((hi | hi) | hi) | hi) | hi
  · exact .inl (.inl (.inl (.inl hi)))
  · exact .inl (.inl (.inl (.inr hi)))
  · exact .inl (.inl (.inr hi))
  · exact .inl (.inr (readLinkList_ids _ _ _ _ _ hi))
  · exact .inr hi

end Img

theorem run4_keeps (d : Img) (c : RCall) : (c.run4 d).Keeps := by
  have hi := Keeps.seq d.header4_keeps (Keeps.seq (Keeps.seq d.dgList4_keeps d.cgLists4_keeps) d.atList4_keeps)
  cases c with
  | header => exact d.header4_keeps
  | info => exact hi
  | everything => exact Keeps.seq hi (Keeps.seq (Keeps.seq d.channels4_keeps d.chList4_keeps) d.evList4_keeps)

/-! ### MDF 3 -/

namespace Img
variable (d : Img)

theorem walkDg3_ok : ∀ (fuel link made : Nat), (d.walkDg3 fuel link made).2.2 = .ok →
    ReadsAll (d.blk .dg []) link ((d.walkDg3 fuel link made).1.map (·.self.blk)) ∧
    ∀ g ∈ (d.walkDg3 fuel link made).1, ReadsAll (d.blk .cg []) (g.self.blk.link 1) (g.cg.map (·.self.blk)) ∧
      ∀ c ∈ g.cg, c.cn = [] ∧ c.sr = []
  | 0, link, made, h => by
    simp only [walkDg3] at h ⊢
    cases hv : validLink link
    · exact ⟨.nil hv, by simp⟩
    · simp [hv] at h
  | fuel + 1, link, made, h => by
    unfold walkDg3 at h ⊢
    cases hv : validLink link
    · simp only [hv, Bool.false_eq_true, if_false]; exact ⟨.nil hv, by simp⟩
    · simp only [hv, if_true] at h ⊢
      cases hr : d.blk .dg [] link with
      | none => simp [hr] at h
      | some b =>
        simp only [hr] at h ⊢
        have hw := walk_ok (d.blk .cg []) d.fuel (b.link 1) (made + 1)
        generalize walk (d.blk .cg []) d.fuel (b.link 1) (made + 1) = r at h hw ⊢
        obtain ⟨r1, r2, r3⟩ := r
        cases r3 with
        | ok =>
          simp only at h hw ⊢
          obtain ⟨i1, i2⟩ := walkDg3_ok fuel (b.link 0) r2 h
          refine ⟨.cons hv hr i1, ?_⟩
          intro g hg
          rcases List.mem_cons.mp hg with rfl | hg
          · refine ⟨?_, mapCg_empty _⟩
            have := hw trivial
            simpa [blks, Function.comp_def] using this
          · exact i2 g hg
        | thrown => simp at h
        | hang => simp at h

theorem walkDg3_made : ∀ (fuel link made : Nat), made ≤ (d.walkDg3 fuel link made).2.1 ∧
    ∀ g ∈ (d.walkDg3 fuel link made).1, ∀ i ∈ g.ids, made ≤ i ∧ i < (d.walkDg3 fuel link made).2.1
  | 0, link, made => by simp [walkDg3]
  | fuel + 1, link, made => by
    unfold walkDg3
    cases hv : validLink link
    · simp
    · simp only [if_true]
      cases hr : d.blk .dg [] link with
      | none => simp
      | some b =>
        dsimp only
        have hw := walk_made (d.blk .cg []) d.fuel (b.link 1) (made + 1)
        generalize walk (d.blk .cg []) d.fuel (b.link 1) (made + 1) = r at hw ⊢
        obtain ⟨r1, r2, r3⟩ := r
        cases r3 with
        | ok =>
          simp only at hw ⊢
          have ih := walkDg3_made fuel (b.link 0) r2
          refine ⟨by have := ih.1; omega, ?_⟩
          intro g hg i hi
          rcases List.mem_cons.mp hg with rfl | hg
          · unfold DgObj.ids at hi
            rcases List.mem_cons.mp hi with rfl | hi
            · have := ih.1; omega
            · obtain ⟨c, hc, hic⟩ := List.mem_flatMap.mp hi
              obtain ⟨o, ho, rfl⟩ := List.mem_map.mp hc
              simp only [CgObj.ids, List.map_nil, List.append_nil, List.mem_singleton] at hic
              have := hw.2 o ho
              have := ih.1
              omega
          · have := ih.2 g hg i hi; omega
        | thrown => simp only at hw ⊢; exact ⟨by omega, by simp⟩
        | hang => simp only at hw ⊢; exact ⟨by omega, by simp⟩

theorem cnList3_self (c : CgObj) (made : Nat) : (d.cnList3 c made).1.self = c.self := by
  unfold cnList3
  simp only
  split <;> rfl

theorem cnList3_ok (g : CgObj) (made : Nat) (he : g.cn = [] ∧ g.sr = []) (hok : (d.cnList3 g made).2.2 = .ok) :
    ReadsAll (d.blk .cn []) (g.self.blk.link 1) (blks (d.cnList3 g made).1.cn) ∧
    ReadsAll (d.blk .sr []) (g.self.blk.link 3) (blks (d.cnList3 g made).1.sr) := by
  unfold cnList3 at hok ⊢
  simp only [he] at hok ⊢
  split
  · rename_i hr
    simp only [hr] at hok
    exact ⟨readLinkList_ok _ _ _ _ hr, readLinkList_ok _ _ _ _ hok⟩
  · rename_i hr
    split at hok
    · rename_i hr'; exact absurd hr' hr
    · exact absurd hok hr

theorem cnLists3_rel (h : HdObj) : List.Forall₂ (fun x y : DgObj => y.self = x.self ∧ y.cg.map (·.self.blk) = x.cg.map (·.self.blk))
    h.dg (d.rest3 h).1.dg :=
  eachObj_rel _ _ (fun _ => ⟨rfl, rfl⟩) (fun g m => ⟨rfl, by
    have := eachObj_rel d.cnList3 (fun x y => y.self = x.self) (fun _ => rfl) (fun x m => d.cnList3_self x m) g.cg m
    exact (forall₂_map_eq this _ fun x y h => by simp [h]).symm⟩) h.dg h.made

theorem rest3_ok (h : HdObj) (w : h.InfoWhole3 d) (he : ∀ g ∈ h.dg, ∀ c ∈ g.cg, c.cn = [] ∧ c.sr = []) (hok : (d.rest3 h).2 = .ok) :
    (d.rest3 h).1.InfoWhole3 d ∧ (d.rest3 h).1.RestWhole3 d := by
  have hrel := d.cnLists3_rel h
  have ho := eachObj_ok d.cnLists3 h.dg h.made hok
  refine ⟨⟨?_, ?_⟩, ?_⟩
  · have : (d.rest3 h).1.dg.map (·.self.blk) = h.dg.map (·.self.blk) :=
      (forall₂_map_eq hrel _ fun x y h => by simp [h.1]).symm
    rw [this]; exact w.1
  · intro g hg
    obtain ⟨x, hx, h1, h2⟩ := forall₂_mem_right hrel g hg
    rw [h2, h1]; exact w.2 x hx
  · intro g hg
    obtain ⟨x, hx, m, rfl, hm⟩ := forall₂_mem_right ho g hg
    intro c hc
    obtain ⟨y, hy, m', rfl, hm'⟩ := forall₂_mem_right (eachObj_ok d.cnList3 x.cg m hm) c hc
    rw [d.cnList3_self]
    exact d.cnList3_ok y m' (he x hx y hy) hm'

theorem header3_read (h : HdObj) : (d.header3 h).1.read = true := by
  unfold header3
  split
  · assumption
  · simp only
    split
    · split <;> rfl
    · rfl

theorem header3_dg (h : HdObj) : (d.header3 h).1.dg = h.dg ∧ (d.header3 h).1.made = h.made ∧ (d.header3 h).1.fh = h.fh ∧
    (d.header3 h).1.att = h.att ∧ (d.header3 h).1.ch = h.ch ∧ (d.header3 h).1.ev = h.ev := by
  unfold header3
  split
  · exact ⟨rfl, rfl, rfl, rfl, rfl, rfl⟩
  · simp only
    split
    · split <;> exact ⟨rfl, rfl, rfl, rfl, rfl, rfl⟩
    · exact ⟨rfl, rfl, rfl, rfl, rfl, rfl⟩

end Img

/-- States of a reader of an MDF 3 file: only data groups are made, all of them before. -/
structure HdObj.Inv3 (d : Img) (h : HdObj) : Prop where
  start : h.read = false → h = HdObj.fresh
  header : h.read = true → d.hdLinks.2 = true → d.hdVal.isSome = true → d.hdMd = true → h.HeaderWhole d
  none : h.fh = [] ∧ h.att = [] ∧ h.ch = [] ∧ h.ev = []
  made : ∀ i ∈ h.live, i < h.made

theorem inv3_fresh (d : Img) : HdObj.fresh.Inv3 d :=
  ⟨fun _ => rfl, fun h => by simp [HdObj.fresh] at h, ⟨rfl, rfl, rfl, rfl⟩, by simp [HdObj.fresh, HdObj.live]⟩

namespace Img
variable (d : Img)

theorem header3_inv (h : HdObj) (p : h.Inv3 d) : (d.header3 h).1.Inv3 d := by
  obtain ⟨k1, k2, k3, k4, k5, k6⟩ := d.header3_dg h
  refine ⟨fun hf => by rw [d.header3_read h] at hf; simp at hf, ?_, ?_, ?_⟩
  · intro _ h1 h2 h3
    by_cases hr : h.read = true
    · have : (d.header3 h).1 = h := by unfold header3; simp [hr]
      rw [this]; exact p.header hr h1 h2 h3
    · unfold header3
      simp only [hr, h1, if_true]
      obtain ⟨v, hv⟩ := Option.isSome_iff_exists.mp h2
      rw [hv]
      exact ⟨h1, rfl, hv, h3⟩
  · rw [k3, k4, k5, k6]; exact p.none
  · intro i hi
    rw [k2]
    apply p.made
    rw [live_eq] at hi ⊢
    rwa [k1, k3, k4, k5, k6] at hi

theorem live3 (h : HdObj) (hn : h.fh = [] ∧ h.att = [] ∧ h.ch = [] ∧ h.ev = []) : h.live = h.dg.flatMap DgObj.ids := by
  rw [live_eq, hn.1, hn.2.1, hn.2.2.1, hn.2.2.2]; simp

theorem info3_inv (h : HdObj) (hr : h.read = true) (p : h.Inv3 d) : (d.info3 h).1.Inv3 d ∧ (d.info3 h).1.read = true := by
  refine ⟨⟨fun hf => by change h.read = false at hf; rw [hr] at hf; simp at hf, p.header, p.none, ?_⟩, hr⟩
  intro i hi
  rw [live3 (d.info3 h).1 p.none] at hi
  obtain ⟨g, hg, hig⟩ := List.mem_flatMap.mp hi
  exact ((d.walkDg3_made d.fuel (h.link 0) h.made).2 g hg i hig).2

/-- None of the objects from before are left. -/
theorem info3_destroys (h : HdObj) (p : h.Inv3 d) : ∀ i ∈ h.live, i ∉ (d.info3 h).1.live := by
  intro i hi hi'
  have h1 := p.made i hi
  rw [live3 (d.info3 h).1 p.none] at hi'
  obtain ⟨g, hg, hig⟩ := List.mem_flatMap.mp hi'
  have := ((d.walkDg3_made d.fuel (h.link 0) h.made).2 g hg i hig).1
  omega

theorem readLinkList_old (rd : Nat → Option RBlk) (fuel : Nat) (old : List Obj) (link made : Nat) :
    ∀ o ∈ (readObjList rd fuel old link made).1, o ∈ old ∨ (made ≤ o.id ∧ o.id < (readObjList rd fuel old link made).2.1) := by
  unfold readObjList
  split
  · intro o ho; exact .inr ((walk_made rd fuel link made).2 o ho)
  · intro o ho; exact .inl ho

theorem cnList3_ids (c : CgObj) (made : Nat) : made ≤ (d.cnList3 c made).2.1 ∧
    ∀ i ∈ (d.cnList3 c made).1.ids, i ∈ c.ids ∨ (made ≤ i ∧ i < (d.cnList3 c made).2.1) := by
  have h1 := readLinkList_made (d.blk .cn []) d.fuel c.cn (c.self.blk.link 1) made
  have o1 := readLinkList_old (d.blk .cn []) d.fuel c.cn (c.self.blk.link 1) made
  unfold cnList3
  simp only
  generalize readObjList (d.blk .cn []) d.fuel c.cn (c.self.blk.link 1) made = r at h1 o1 ⊢
  have h2 := readLinkList_made (d.blk .sr []) d.fuel c.sr (c.self.blk.link 3) r.2.1
  have o2 := readLinkList_old (d.blk .sr []) d.fuel c.sr (c.self.blk.link 3) r.2.1
  generalize readObjList (d.blk .sr []) d.fuel c.sr (c.self.blk.link 3) r.2.1 = q at h2 o2 ⊢
  split
  · refine ⟨by simp only; omega, ?_⟩
    intro i hi
    simp only [CgObj.ids, List.mem_cons, List.mem_append, List.mem_map] at hi ⊢
    rcases hi with rfl | ⟨o, ho, rfl⟩ | ⟨o, ho, rfl⟩
    · exact .inl (.inl rfl)
    · rcases o1 o ho with h | h
      · exact .inl (.inr (.inl ⟨o, h, rfl⟩))
      · exact .inr (by omega)
    · rcases o2 o ho with h | h
      · exact .inl (.inr (.inr ⟨o, h, rfl⟩))
      · exact .inr (by omega)
  · refine ⟨h1, ?_⟩
    intro i hi
    simp only [CgObj.ids, List.mem_cons, List.mem_append, List.mem_map] at hi ⊢
    rcases hi with rfl | ⟨o, ho, rfl⟩ | ho
    · exact .inl (.inl rfl)
    · rcases o1 o ho with h | h
      · exact .inl (.inr (.inl ⟨o, h, rfl⟩))
      · exact .inr (by omega)
    · exact .inl (.inr (.inr ho))

end Img

theorem eachObj_ids {α : Type} (ids : α → List Nat) (f : α → Nat → α × Nat × ReadOut)
    (hf : ∀ x made, made ≤ (f x made).2.1 ∧ ∀ i ∈ ids (f x made).1, i ∈ ids x ∨ (made ≤ i ∧ i < (f x made).2.1)) :
    ∀ (xs : List α) (made : Nat), made ≤ (eachObj f xs made).2.1 ∧
      ∀ i ∈ (eachObj f xs made).1.flatMap ids, i ∈ xs.flatMap ids ∨ (made ≤ i ∧ i < (eachObj f xs made).2.1)
  | [], made => by simp [eachObj]
  | x :: xs, made => by
    have hx := hf x made
    unfold eachObj
    split
    · rename_i x' made' he
      rw [he] at hx
      have ih := eachObj_ids ids f hf xs made'
      simp only at hx ⊢
      refine ⟨by omega, ?_⟩
      intro i hi
      simp only [List.flatMap_cons, List.mem_append] at hi ⊢
      rcases hi with hi | hi
      · rcases hx.2 i hi with h | h
        · exact .inl (.inl h)
        · exact .inr (by omega)
      · rcases ih.2 i hi with h | h
        · exact .inl (.inr h)
        · exact .inr (by omega)
    · rename_i x' made' o _ he
      rw [he] at hx
      simp only at hx ⊢
      refine ⟨hx.1, ?_⟩
      intro i hi
      simp only [List.flatMap_cons, List.mem_append] at hi ⊢
      rcases hi with hi | hi
      · rcases hx.2 i hi with h | h
        · exact .inl (.inl h)
        · exact .inr h
      · exact .inl (.inr hi)

namespace Img
variable (d : Img)

theorem cnLists3_ids (g : DgObj) (made : Nat) : made ≤ (d.cnLists3 g made).2.1 ∧
    ∀ i ∈ (d.cnLists3 g made).1.ids, i ∈ g.ids ∨ (made ≤ i ∧ i < (d.cnLists3 g made).2.1) := by
  have := eachObj_ids CgObj.ids d.cnList3 d.cnList3_ids g.cg made
  refine ⟨this.1, ?_⟩
  intro i hi
  unfold DgObj.ids at hi ⊢
  rcases List.mem_cons.mp hi with rfl | hi
  · exact .inl List.mem_cons_self
  · rcases this.2 i hi with h | h
    · exact .inl (List.mem_cons_of_mem _ h)
    · exact .inr h

theorem rest3_inv (h : HdObj) (hr : h.read = true) (p : h.Inv3 d) : (d.rest3 h).1.Inv3 d ∧ h.made ≤ (d.rest3 h).1.made ∧
    ∀ i ∈ (d.rest3 h).1.live, i ∈ h.live ∨ h.made ≤ i := by
  have := eachObj_ids DgObj.ids d.cnLists3 d.cnLists3_ids h.dg h.made
  have key : ∀ i ∈ (d.rest3 h).1.live, i ∈ h.live ∨ (h.made ≤ i ∧ i < (d.rest3 h).1.made) := by
    intro i hi
    rw [live3 (d.rest3 h).1 p.none] at hi
    rw [live3 h p.none]
    exact this.2 i hi
  refine ⟨⟨fun hf => by change h.read = false at hf; rw [hr] at hf; simp at hf, p.header, p.none, ?_⟩, this.1,
    fun i hi => (key i hi).imp_right (·.1)⟩
  intro i hi
  rcases key i hi with h1 | h1
  · exact Nat.lt_of_lt_of_le (p.made i h1) this.1
  · exact h1.2

end Img

theorem rcall3_inv (d : Img) (c : RCall) (h : HdObj) (p : h.Inv3 d) : (c.run3 d h).1.Inv3 d := by
  have k1 := d.header3_inv h p
  have k2 := d.header3_read h
  have k3 := d.info3_inv _ k2 k1
  cases c with
  | header => exact k1
  | info =>
    show (d.header3.seq d.info3 h).1.Inv3 d
    by_cases hok : (d.header3 h).2 = .ok
    · rw [seq_fst hok]; exact k3.1
    · rw [seq_stop hok]; exact k1
  | everything =>
    show ((d.header3.seq d.info3).seq d.rest3 h).1.Inv3 d
    by_cases hok : (d.header3 h).2 = .ok
    · by_cases hok2 : (d.info3 (d.header3 h).1).2 = .ok
      · rw [seq_fst (by rw [seq_fst hok]; exact hok2), seq_fst hok]
        exact (d.rest3_inv _ k3.2 k3.1).1
      · rw [seq_stop (by rw [seq_fst hok]; exact hok2), seq_fst hok]; exact k3.1
    · rw [seq_stop (by rw [seq_stop hok]; exact hok), seq_stop hok]; exact k1

/-- The states calls lead to. -/
theorem runCalls_inv {run : RCall → ReadM} {P : HdObj → Prop} (hstep : ∀ c h, P h → P (run c h).1) :
    ∀ (cs : List RCall) (h : HdObj), P h → ∀ r, runCalls run cs h = some r → P r.1
  | [], h, hp, r, hr => by
    simp only [runCalls, Option.some.injEq] at hr
    rw [← hr]; exact hp
  | c :: cs, h, hp, r, hr => by
    unfold runCalls at hr
    have hs := hstep c h hp
    split at hr
    · simp at hr
    · rename_i h' o hno he
      rw [he] at hs
      obtain ⟨q, hq, rfl⟩ := Option.map_eq_some_iff.mp hr
      exact runCalls_inv hstep cs h' hs q hq

end Mdf
