import Verif.Model.XAxis

/-!
# C118: the channel for the X axis

What a reader gets for the reference set by `IChannel::DefaultX`, and the channel that `IChannelGroup::GetXChannel` finds.
-/

namespace Mdf

/-- A state of the file between two blocks: positions are before the end, no two blocks share one. -/
structure XInv (s : XFile) : Prop where
  last_pos : 0 < s.last
  lt : ∀ i, s.pos i < s.last
  inj : ∀ i j, s.pos i ≠ 0 → s.pos i = s.pos j → i = j

/-- Writing blocks: those are in the file now, nothing else has changed. -/
structure XGrow (s s' : XFile) (ids : List Nat) : Prop where
  inv : XInv s'
  le : s.last ≤ s'.last
  pos : ∀ i, i ∉ ids → s'.pos i = s.pos i
  links : ∀ i, i ∉ ids → s'.links i = s.links i
  writ : ∀ i ∈ ids, s'.pos i ≠ 0

/-- The kinds of the blocks of a reference are those that the interface allows. -/
def ChElem.Typed (kind : Nat → Nat) (x : ChElem) : Prop :=
  (∀ j, x.dg = some j → kind j = kDg) ∧ (∀ j, x.cg = some j → kind j = kCg) ∧ (∀ j, x.cn = some j → kind j = kCn)

/-- The blocks of a reference are among these. -/
def ChElem.Within (ids : List Nat) (x : ChElem) : Prop :=
  (∀ j, x.dg = some j → j ∈ ids) ∧ (∀ j, x.cg = some j → j ∈ ids) ∧ (∀ j, x.cn = some j → j ∈ ids)

/-- The part of a reference that lies in these blocks. -/
def ChElem.only (ids : List Nat) (x : ChElem) : ChElem :=
  ⟨x.dg.filter (· ∈ ids), x.cg.filter (· ∈ ids), x.cn.filter (· ∈ ids)⟩

/-- A file and a description of which nothing is written yet; blocks have sizes and all are searched by `Find`. -/
structure XStart (size : Nat → Nat) (order : List Nat) (s : XFile) (ds : List XDg) : Prop where
  inv : XInv s
  size : ∀ i, 0 < size i
  fresh : ∀ i ∈ ds.flatMap XDg.ids, s.pos i = 0
  nodup : (ds.flatMap XDg.ids).Nodup
  order : ∀ i ∈ ds.flatMap XDg.ids, i ∈ order

/-- As the interface suggests: what is set for any channel is read. -/
def C118_Statement : Prop :=
  ∀ (size kind : Nat → Nat) (order : List Nat) (s : XFile) (ds : List XDg), XStart size order s ds →
    (s.writeHd size kind order ds).last < 2 ^ 63 →
    ∀ d ∈ ds, ∀ g ∈ d.cgs, ∀ t ∈ g.cns, ∀ c ∈ t.self :: t.comp, c.flag = true → c.x.Typed kind → c.x.Within (ds.flatMap XDg.ids) →
      (s.writeHd size kind order ds).readX kind order c = c.x

theorem XGrow.refl {s : XFile} (h : XInv s) : XGrow s s [] := ⟨h, Nat.le_refl _, fun _ _ => rfl, fun _ _ => rfl, by simp⟩

theorem XGrow.trans {s s' s'' : XFile} {a b : List Nat} (h : XGrow s s' a) (k : XGrow s' s'' b) (hd : ∀ i ∈ a, i ∉ b) :
    XGrow s s'' (a ++ b) where
  inv := k.inv
  le := Nat.le_trans h.le k.le
  pos i hi := by
    rw [List.mem_append, not_or] at hi
    rw [k.pos i hi.2, h.pos i hi.1]
  links i hi := by
    rw [List.mem_append, not_or] at hi
    rw [k.links i hi.2, h.links i hi.1]
  writ i hi := by
    rcases List.mem_append.mp hi with ha | hb
    · rw [k.pos i (hd i ha)]
      exact h.writ i ha
    · exact k.writ i hb

theorem place_grow {size : Nat → Nat} {s : XFile} (h : XInv s) (hs : ∀ i, 0 < size i) (i : Nat) (_hi : s.pos i = 0) :
    XGrow s (s.place size i) [i] where
  inv := by
    have := hs i
    have hl := h.last_pos
    refine ⟨by simp only [XFile.place]; omega, fun j => ?_, fun j k hj hjk => ?_⟩
    · simp only [XFile.place]
      have := h.lt j
      split <;> omega
    · simp only [XFile.place] at hj hjk
      have := h.lt j
      have := h.lt k
      by_cases h1 : j = i <;> by_cases h2 : k = i
      · rw [h1, h2]
      · rw [if_pos h1, if_neg h2] at hjk
        omega
      · rw [if_neg h1, if_pos h2] at hjk
        omega
      · rw [if_neg h1, if_neg h2] at hjk
        rw [if_neg h1] at hj
        exact h.inj j k hj hjk
  le := by simp only [XFile.place]; omega
  pos j hj := by
    simp only [List.mem_singleton] at hj
    simp only [XFile.place, if_neg hj]
  links j _ := rfl
  writ j hj := by
    simp only [List.mem_singleton] at hj
    have := h.last_pos
    simp only [XFile.place, if_pos hj]
    omega

/-- Setting the links of a block counts as writing it. -/
theorem setLinks_grow {s s' : XFile} {i : Nat} {l : Nat × Nat × Nat} {ids : List Nat} (hi : i ∈ ids) (h : XGrow s s' ids) :
    XGrow s (s'.setLinks i l) ids where
  inv := ⟨h.inv.last_pos, h.inv.lt, h.inv.inj⟩
  le := h.le
  pos := h.pos
  links j hj := by
    have : j ≠ i := fun e => hj (e ▸ hi)
    simp only [XFile.setLinks, if_neg this]
    exact h.links j hj
  writ := h.writ

theorem writeCn_eq {size : Nat → Nat} {s : XFile} {c : XCn} (hi : s.pos c.id = 0) :
    s.writeCn size c = (s.place size c.id).setLinks c.id (if c.flag then s.linksOf c.x else (0, 0, 0)) := by
  unfold XFile.writeCn
  rw [if_neg (by simp [hi])]
  rfl

theorem writeCn_grow {size : Nat → Nat} {s : XFile} (c : XCn) (h : XInv s) (hs : ∀ i, 0 < size i) (hi : s.pos c.id = 0) :
    XGrow s (s.writeCn size c) [c.id] := by
  rw [writeCn_eq hi]
  exact setLinks_grow (by simp) (place_grow h hs c.id hi)

/-- Writing one after the other. -/
theorem fold_grow {α : Type} {f : XFile → α → XFile} {ids : α → List Nat}
    (hf : ∀ s e, XInv s → (∀ i ∈ ids e, s.pos i = 0) → (ids e).Nodup → XGrow s (f s e) (ids e)) :
    ∀ (es : List α) (s : XFile), XInv s → (∀ i ∈ es.flatMap ids, s.pos i = 0) → (es.flatMap ids).Nodup →
      XGrow s (es.foldl f s) (es.flatMap ids)
  | [], _, h, _, _ => XGrow.refl h
  | e :: es, s, h, hfr, hn => by
    rw [List.flatMap_cons] at hfr hn ⊢
    rw [List.nodup_append] at hn
    have hd : ∀ i ∈ ids e, i ∉ es.flatMap ids := fun i hi hj => hn.2.2 i hi i hj rfl
    have h1 := hf s e h (fun i hi => hfr i (List.mem_append_left _ hi)) hn.1
    refine h1.trans (fold_grow hf es _ h1.inv (fun i hi => ?_) hn.2.1) hd
    rw [h1.pos i (fun hj => hd i hj hi)]
    exact hfr i (List.mem_append_right _ hi)

theorem flatMap_one (cs : List XCn) : cs.flatMap (fun c => [c.id]) = cs.map (·.id) := by
  induction cs with
  | nil => rfl
  | cons a as ih => rw [List.flatMap_cons, ih]; rfl

theorem comp_grow {size : Nat → Nat} (hs : ∀ i, 0 < size i) (cs : List XCn) (s : XFile) (h : XInv s)
    (hf : ∀ i ∈ cs.map (·.id), s.pos i = 0) (hn : (cs.map (·.id)).Nodup) : XGrow s (cs.foldl (XFile.writeCn size) s) (cs.map (·.id)) := by
  have := fold_grow (f := XFile.writeCn size) (ids := fun c => [c.id])
    (fun s e h hf _ => writeCn_grow e h hs (hf _ (by simp))) cs s h
  rw [flatMap_one] at this
  exact this hf hn

theorem writeTop_eq {size : Nat → Nat} {s : XFile} {t : XTop} (hi : s.pos t.self.id = 0) :
    s.writeTop size t = (t.comp.foldl (XFile.writeCn size) s).writeCn size t.self := by
  unfold XFile.writeTop
  rw [if_neg (by simp [hi])]

theorem writeTop_grow {size : Nat → Nat} (hs : ∀ i, 0 < size i) (s : XFile) (t : XTop) (h : XInv s)
    (hf : ∀ i ∈ t.ids, s.pos i = 0) (hn : t.ids.Nodup) : XGrow s (s.writeTop size t) t.ids := by
  unfold XTop.ids at hf hn ⊢
  rw [List.nodup_append] at hn
  have hd : t.self.id ∉ t.comp.map (·.id) := fun hm => hn.2.2 _ hm _ (by simp) rfl
  rw [writeTop_eq (hf _ (by simp))]
  have h1 := comp_grow hs t.comp s h (fun i hi => hf i (List.mem_append_left _ hi)) hn.1
  refine h1.trans (writeCn_grow t.self h1.inv hs ?_) (fun i hi hj => ?_)
  · rw [h1.pos _ hd]
    exact hf _ (by simp)
  · rw [List.mem_singleton] at hj
    exact hd (hj ▸ hi)

/-- Writing parts and then the block itself. -/
theorem then_place {size : Nat → Nat} (hs : ∀ i, 0 < size i) {s s' : XFile} {ids : List Nat} {i : Nat} (h : XGrow s s' ids)
    (hi : s.pos i = 0) (hn : i ∉ ids) : XGrow s (s'.place size i) (ids ++ [i]) ∧ s'.pos i = 0 := by
  have hp : s'.pos i = 0 := by rw [h.pos i hn, hi]
  refine ⟨h.trans (place_grow h.inv hs i hp) (fun j hj hk => ?_), hp⟩
  rw [List.mem_singleton] at hk
  exact hn (hk ▸ hj)

theorem writeCg_grow {size : Nat → Nat} (hs : ∀ i, 0 < size i) (s : XFile) (g : XCg) (h : XInv s)
    (hf : ∀ i ∈ g.ids, s.pos i = 0) (hn : g.ids.Nodup) :
    XGrow s (s.writeCg size g) g.ids ∧ s.writeCg size g = (g.cns.foldl (XFile.writeTop size) s).place size g.id := by
  unfold XCg.ids at hf hn ⊢
  rw [List.nodup_append] at hn
  have h1 := fold_grow (f := XFile.writeTop size) (ids := XTop.ids) (fun s e h hf hn => writeTop_grow hs s e h hf hn) g.cns s h
    (fun i hi => hf i (List.mem_append_left _ hi)) hn.1
  obtain ⟨h2, h3⟩ := then_place hs h1 (hf g.id (by simp)) (fun hm => hn.2.2 _ hm _ (by simp) rfl)
  have he : s.writeCg size g = (g.cns.foldl (XFile.writeTop size) s).place size g.id := by
    unfold XFile.writeCg
    simp only
    rw [if_neg (by simp [h3])]
  exact ⟨he ▸ h2, he⟩

theorem updX_same {kind : Nat → Nat} {order : List Nat} (ts : List XTop) (s : XFile) :
    (ts.foldl (XFile.updX kind order) s).pos = s.pos ∧ (ts.foldl (XFile.updX kind order) s).last = s.last ∧
      ∀ i, i ∉ ts.map (·.self.id) → (ts.foldl (XFile.updX kind order) s).links i = s.links i := by
  induction ts generalizing s with
  | nil => exact ⟨rfl, rfl, fun _ _ => rfl⟩
  | cons t ts ih =>
    obtain ⟨h1, h2, h3⟩ := ih (s.updX kind order t)
    have hu : (s.updX kind order t).pos = s.pos ∧ (s.updX kind order t).last = s.last ∧
        ∀ i, i ≠ t.self.id → (s.updX kind order t).links i = s.links i := by
      unfold XFile.updX
      split
      · refine ⟨rfl, rfl, fun i hi => ?_⟩
        simp only [XFile.setLinks, if_neg hi]
      · exact ⟨rfl, rfl, fun _ _ => rfl⟩
    refine ⟨h1.trans hu.1, h2.trans hu.2.1, fun i hi => ?_⟩
    rw [List.map_cons, List.mem_cons, not_or] at hi
    rw [List.foldl_cons, h3 i hi.2, hu.2.2 i hi.1]

/-- The tops of a data group. -/
def XDg.tops (d : XDg) : List XTop := d.cgs.flatMap XCg.cns

theorem tops_ids {d : XDg} {i : Nat} (h : i ∈ d.tops.map (·.self.id)) : i ∈ d.cgs.flatMap XCg.ids := by
  simp only [XDg.tops, List.mem_map, List.mem_flatMap] at h
  obtain ⟨t, ⟨g, hg, ht⟩, he⟩ := h
  refine List.mem_flatMap.mpr ⟨g, hg, List.mem_append_left _ (List.mem_flatMap.mpr ⟨t, ht, ?_⟩)⟩
  exact List.mem_append_right _ (by simp [he])

theorem writeDg_grow {size kind : Nat → Nat} {order : List Nat} (hs : ∀ i, 0 < size i) (s : XFile) (d : XDg) (h : XInv s)
    (hf : ∀ i ∈ d.ids, s.pos i = 0) (hn : d.ids.Nodup) :
    XGrow s (s.writeDg size kind order d) d.ids ∧
      s.writeDg size kind order d = d.tops.foldl (XFile.updX kind order) ((d.cgs.foldl (XFile.writeCg size) s).place size d.id) := by
  unfold XDg.ids at hf hn ⊢
  rw [List.nodup_append] at hn
  have h1 := fold_grow (f := XFile.writeCg size) (ids := XCg.ids) (fun s e h hf hn => (writeCg_grow hs s e h hf hn).1) d.cgs s h
    (fun i hi => hf i (List.mem_append_left _ hi)) hn.1
  obtain ⟨h2, h3⟩ := then_place hs h1 (hf d.id (by simp)) (fun hm => hn.2.2 _ hm _ (by simp) rfl)
  have he : s.writeDg size kind order d = d.tops.foldl (XFile.updX kind order) ((d.cgs.foldl (XFile.writeCg size) s).place size d.id) := by
    unfold XFile.writeDg XDg.tops
    simp only
    rw [if_neg (by simp [h3]), List.foldl_flatMap]
  refine ⟨he ▸ ?_, he⟩
  obtain ⟨u1, u2, u3⟩ := updX_same (kind := kind) (order := order) d.tops ((d.cgs.foldl (XFile.writeCg size) s).place size d.id)
  refine ⟨⟨?_, ?_, ?_⟩, ?_, ?_, ?_, ?_⟩
  · rw [u2]; exact h2.inv.last_pos
  · rw [u1, u2]; exact h2.inv.lt
  · rw [u1]; exact h2.inv.inj
  · rw [u2]; exact h2.le
  · rw [u1]; exact h2.pos
  · intro i hi
    rw [u3 i (fun hm => hi (List.mem_append_left _ (tops_ids hm)))]
    exact h2.links i hi
  · rw [u1]; exact h2.writ

theorem writeHd_grow {size kind : Nat → Nat} {order : List Nat} (hs : ∀ i, 0 < size i) (ds : List XDg) (s : XFile) (h : XInv s)
    (hf : ∀ i ∈ ds.flatMap XDg.ids, s.pos i = 0) (hn : (ds.flatMap XDg.ids).Nodup) :
    XGrow s (s.writeHd size kind order ds) (ds.flatMap XDg.ids) :=
  fold_grow (f := XFile.writeDg size kind order) (ids := XDg.ids) (fun s e h hf hn => (writeDg_grow hs s e h hf hn).1) ds s h hf hn

/-- What is found at the position that a block had at some time: the block, if it was written at that time. -/
theorem xfind {s : XFile} (h : XInv s) (hl : s.last < 2 ^ 63) {order : List Nat} {j : Nat} (hj : j ∈ order) {p : Nat}
    (hp : p ≠ 0 → s.pos j = p) : findBlock s.pos order p = if p = 0 then none else some j := by
  unfold findBlock validLink
  by_cases h0 : p = 0
  · simp [h0]
  · have hp := hp h0
    have := h.lt j
    rw [if_neg h0, if_pos (by simp only [Bool.and_eq_true, decide_eq_true_eq]; omega)]
    cases hf : order.find? (fun k => s.pos k == p) with
    | none =>
      rw [List.find?_eq_none] at hf
      exact absurd (by simp [hp]) (hf j hj)
    | some k =>
      have hk : s.pos k = p := by simpa using List.find?_some hf
      rw [h.inj j k (by omega) (by omega)]

/-- One component: links made at state `a` looked up at a later state `s`. -/
theorem xcomp {s : XFile} {a : Nat → Nat} (h : XInv s) (hl : s.last < 2 ^ 63) {order : List Nat} {kind : Nat → Nat} {k : Nat}
    {o : Option Nat} (y : Option Nat) (hk : ∀ j, o = some j → kind j = k) (ho : ∀ j, o = some j → j ∈ order)
    (ha : ∀ j, a j ≠ 0 → s.pos j = a j) :
    (match findBlock s.pos order (posOf a o) with | none => y | some j => asKind kind k (some j)) =
      if posOf a o = 0 then y else o := by
  cases o with
  | none => rfl
  | some j =>
    simp only [posOf]
    rw [xfind h hl (ho j rfl) (ha j)]
    by_cases h0 : a j = 0
    · simp [h0]
    · simp [h0, asKind, Option.filter, hk j rfl]

theorem defaultX_linksOf {s : XFile} {a : XFile} (h : XInv s) (hl : s.last < 2 ^ 63) {order : List Nat} {kind : Nat → Nat} {x y : ChElem}
    (hk : x.Typed kind) (ho : x.Within order) (ha : ∀ j, a.pos j ≠ 0 → s.pos j = a.pos j) :
    s.defaultX kind order true (a.linksOf x) y =
      ⟨if posOf a.pos x.dg = 0 then y.dg else x.dg, if posOf a.pos x.cg = 0 then y.cg else x.cg,
        if posOf a.pos x.cn = 0 then y.cn else x.cn⟩ := by
  unfold XFile.defaultX XFile.linksOf
  simp only [if_true]
  have h1 := xcomp h hl y.dg hk.1 ho.1 ha
  have h2 := xcomp h hl y.cg hk.2.1 ho.2.1 ha
  have h3 := xcomp h hl y.cn hk.2.2 ho.2.2 ha
  exact congr (congr (congrArg ChElem.mk h1) h2) h3

/-- The reference itself: nothing is found, or the same. -/
theorem defaultX_self {s : XFile} {a : XFile} (h : XInv s) (hl : s.last < 2 ^ 63) {order : List Nat} {kind : Nat → Nat} {x : ChElem}
    (hk : x.Typed kind) (ho : x.Within order) (ha : ∀ j, a.pos j ≠ 0 → s.pos j = a.pos j) :
    s.defaultX kind order true (a.linksOf x) x = x := by
  rw [defaultX_linksOf h hl hk ho ha]
  simp

/-- What was written stays where it is. -/
theorem XGrow.mono {a b : XFile} {ids : List Nat} (h : XGrow a b ids) (hf : ∀ i ∈ ids, a.pos i = 0) (j : Nat) (hj : a.pos j ≠ 0) :
    b.pos j = a.pos j := h.pos j fun hm => hj (hf j hm)

theorem XGrow.iff {a b : XFile} {ids : List Nat} (h : XGrow a b ids) (j : Nat) (hj : a.pos j = 0) : b.pos j ≠ 0 ↔ j ∈ ids := by
  refine ⟨fun hb => ?_, h.writ j⟩
  by_cases hm : j ∈ ids
  · exact hm
  · rw [h.pos j hm] at hb
    exact absurd hj hb

/-- One element of a list that is written. -/
structure XAt {α : Type} (f : XFile → α → XFile) (ids : α → List Nat) (s : XFile) (pre : List α) (e : α) (post : List α) : Prop where
  before : XGrow s (pre.foldl f s) (pre.flatMap ids)
  fresh : ∀ i ∈ ids e, (pre.foldl f s).pos i = 0
  nodup : (ids e).Nodup
  here : XGrow (pre.foldl f s) (f (pre.foldl f s) e) (ids e)
  after : XGrow (f (pre.foldl f s) e) ((pre ++ e :: post).foldl f s) (post.flatMap ids)
  free : ∀ i ∈ post.flatMap ids, (f (pre.foldl f s) e).pos i = 0
  d1 : ∀ i ∈ pre.flatMap ids, i ∉ ids e
  d2 : ∀ i ∈ ids e, i ∉ post.flatMap ids

theorem fold_at {α : Type} {f : XFile → α → XFile} {ids : α → List Nat}
    (hf : ∀ s e, XInv s → (∀ i ∈ ids e, s.pos i = 0) → (ids e).Nodup → XGrow s (f s e) (ids e))
    (pre : List α) (e : α) (post : List α) (s : XFile) (h : XInv s) (hfr : ∀ i ∈ (pre ++ e :: post).flatMap ids, s.pos i = 0)
    (hn : ((pre ++ e :: post).flatMap ids).Nodup) : XAt f ids s pre e post := by
  rw [List.flatMap_append, List.flatMap_cons] at hfr hn
  rw [List.nodup_append, List.nodup_append] at hn
  obtain ⟨n1, ⟨n2, n3, n4⟩, n5⟩ := hn
  have d1 : ∀ i ∈ pre.flatMap ids, i ∉ ids e := fun i hi hj => n5 i hi i (List.mem_append_left _ hj) rfl
  have d2 : ∀ i ∈ ids e, i ∉ post.flatMap ids := fun i hi hj => n4 i hi i hj rfl
  have d3 : ∀ i ∈ pre.flatMap ids, i ∉ post.flatMap ids := fun i hi hj => n5 i hi i (List.mem_append_right _ hj) rfl
  have h1 := fold_grow hf pre s h (fun i hi => hfr i (List.mem_append_left _ hi)) n1
  have fr : ∀ i ∈ ids e, (pre.foldl f s).pos i = 0 := fun i hi => by
    rw [h1.pos i (fun hm => d1 i hm hi)]
    exact hfr i (List.mem_append_right _ (List.mem_append_left _ hi))
  have h2 := hf _ e h1.inv fr n2
  have fe : ∀ i ∈ post.flatMap ids, (f (pre.foldl f s) e).pos i = 0 := fun i hi => by
    rw [h2.pos i (fun hm => d2 i hm hi), h1.pos i (fun hm => d3 i hm hi)]
    exact hfr i (List.mem_append_right _ (List.mem_append_right _ hi))
  refine ⟨h1, fr, n2, h2, ?_, fe, d1, d2⟩
  have h3 := fold_grow hf post _ h2.inv fe n3
  rw [List.foldl_append, List.foldl_cons]
  exact h3

/-- A channel with its composition in a file that is written. -/
structure XLoc (size kind : Nat → Nat) (order : List Nat) (s : XFile) (ds : List XDg) (before upto : List Nat) (t : XTop) (a b : XFile) :
    Prop where
  /-- `a` is the state before it is written. -/
  grow : XGrow s a before
  fresh : ∀ i ∈ t.ids, a.pos i = 0
  nodup : t.ids.Nodup
  /-- `b` is the state after its data group. -/
  growB : XGrow s b upto
  keepB : ∀ j, (a.writeTop size t).pos j ≠ 0 → b.pos j = (a.writeTop size t).pos j
  comp : ∀ i ∈ t.comp.map (·.id), b.links i = (a.writeTop size t).links i
  self : b.links t.self.id = if t.self.flag then b.linksOf (b.defaultX kind order true ((a.writeTop size t).links t.self.id) t.self.x)
    else (a.writeTop size t).links t.self.id
  keep : ∀ j, b.pos j ≠ 0 → (s.writeHd size kind order ds).pos j = b.pos j
  links : ∀ i ∈ t.ids, (s.writeHd size kind order ds).links i = b.links i
  inv : XInv (s.writeHd size kind order ds)

theorem updX_at {kind : Nat → Nat} {order : List Nat} (l r : List XTop) (t : XTop) (s : XFile)
    (hl : t.self.id ∉ l.map (·.self.id)) (hr : t.self.id ∉ r.map (·.self.id)) :
    ((l ++ t :: r).foldl (XFile.updX kind order) s).links t.self.id =
      if t.self.flag then s.linksOf (s.defaultX kind order true (s.links t.self.id) t.self.x) else s.links t.self.id := by
  rw [List.foldl_append, List.foldl_cons, (updX_same r _).2.2 _ hr]
  obtain ⟨u1, -, u3⟩ := updX_same (kind := kind) (order := order) l s
  generalize l.foldl (XFile.updX kind order) s = s' at u1 u3
  unfold XFile.updX
  by_cases hf : t.self.flag = true
  · rw [if_pos hf, if_pos hf]
    simp only [XFile.setLinks, if_true]
    unfold XFile.linksOf XFile.defaultX
    rw [u1, u3 _ hl, hf]
  · rw [if_neg hf, if_neg hf, u3 _ hl]

theorem locate {size kind : Nat → Nat} {order : List Nat} {s : XFile} {ds pre post : List XDg} {d : XDg} {gpre gpost : List XCg} {g : XCg}
    {tpre tpost : List XTop} {t : XTop} (hst : XStart size order s ds) (hd : ds = pre ++ d :: post) (hg : d.cgs = gpre ++ g :: gpost)
    (ht : g.cns = tpre ++ t :: tpost) :
    XLoc size kind order s ds (pre.flatMap XDg.ids ++ (gpre.flatMap XCg.ids ++ tpre.flatMap XTop.ids)) (pre.flatMap XDg.ids ++ d.ids) t
      (tpre.foldl (XFile.writeTop size) (gpre.foldl (XFile.writeCg size) (s.writeHd size kind order pre)))
      ((s.writeHd size kind order pre).writeDg size kind order d) := by
  have hs := hst.size
  have A := fold_at (f := XFile.writeDg size kind order) (ids := XDg.ids) (fun s e h hf hn => (writeDg_grow hs s e h hf hn).1) pre d post s
    hst.inv (hd ▸ hst.fresh) (hd ▸ hst.nodup)
  have hw := (writeDg_grow (kind := kind) (order := order) hs _ d A.before.inv A.fresh A.nodup).2
  have hdn := A.nodup
  have hdf := A.fresh
  unfold XDg.ids at hdn hdf
  rw [List.nodup_append] at hdn
  have B := fold_at (f := XFile.writeCg size) (ids := XCg.ids) (fun s e h hf hn => (writeCg_grow hs s e h hf hn).1) gpre g gpost
    (s.writeHd size kind order pre) A.before.inv (fun i hi => hdf i (List.mem_append_left _ (hg ▸ hi))) (hg ▸ hdn.1)
  have hgw := (writeCg_grow hs _ g B.before.inv B.fresh B.nodup).2
  have hgn := B.nodup
  have hgf := B.fresh
  unfold XCg.ids at hgn hgf
  rw [List.nodup_append] at hgn
  have C := fold_at (f := XFile.writeTop size) (ids := XTop.ids) (fun s e h hf hn => writeTop_grow hs s e h hf hn) tpre t tpost
    (gpre.foldl (XFile.writeCg size) (s.writeHd size kind order pre)) B.before.inv
    (fun i hi => hgf i (List.mem_append_left _ (ht ▸ hi))) (ht ▸ hgn.1)
  have tg : ∀ i ∈ g.cns.flatMap XTop.ids, i ∈ g.ids := fun i hi => List.mem_append_left _ hi
  have tt : ∀ i ∈ t.ids, i ∈ g.cns.flatMap XTop.ids := fun i hi => by
    rw [ht, List.flatMap_append, List.flatMap_cons]
    exact List.mem_append_right _ (List.mem_append_left _ hi)
  have gd : ∀ i ∈ d.cgs.flatMap XCg.ids, i ∈ d.ids := fun i hi => List.mem_append_left _ hi
  have gg : ∀ i ∈ g.ids, i ∈ d.cgs.flatMap XCg.ids := fun i hi => by
    rw [hg, List.flatMap_append, List.flatMap_cons]
    exact List.mem_append_right _ (List.mem_append_left _ hi)
  have td : ∀ i ∈ t.ids, i ∈ d.ids := fun i hi => gd i (gg i (tg i (tt i hi)))
  have tid : t.self.id ∈ t.ids := List.mem_append_right _ (by simp)
  have hgid : g.id ∉ g.cns.flatMap XTop.ids := fun hm => hgn.2.2 _ hm _ (by simp) rfl
  have hdid : d.id ∉ d.cgs.flatMap XCg.ids := fun hm => hdn.2.2 _ hm _ (by simp) rfl
  -- the group and the data group after the channel
  have G1 : XGrow (tpre.foldl (XFile.writeTop size) (gpre.foldl (XFile.writeCg size) (s.writeHd size kind order pre)) |>.writeTop size t)
      ((gpre.foldl (XFile.writeCg size) (s.writeHd size kind order pre)).writeCg size g) (tpost.flatMap XTop.ids ++ [g.id]) := by
    rw [hgw, ht]
    refine (then_place hs C.after ?_ (fun hm => hgid ?_)).1
    · rw [C.here.pos _ (fun hm => hgid (tt _ hm)), C.before.pos _ (fun hm => hgid ?_)]
      · exact hgf _ (by simp)
      · rw [ht, List.flatMap_append]
        exact List.mem_append_left _ hm
    · rw [ht, List.flatMap_append, List.flatMap_cons]
      exact List.mem_append_right _ (List.mem_append_right _ hm)
  have F1 : ∀ i ∈ tpost.flatMap XTop.ids ++ [g.id],
      ((tpre.foldl (XFile.writeTop size) (gpre.foldl (XFile.writeCg size) (s.writeHd size kind order pre))).writeTop size t).pos i = 0 := by
    intro i hi
    rcases List.mem_append.mp hi with hi | hi
    · exact C.free i hi
    · rw [List.mem_singleton] at hi
      subst hi
      rw [C.here.pos _ (fun hm => hgid (tt _ hm)), C.before.pos _ (fun hm => hgid ?_)]
      · exact hgf _ (by simp)
      · rw [ht, List.flatMap_append]
        exact List.mem_append_left _ hm
  have BA := B.after
  rw [← hg] at BA
  have D : (d.cgs.foldl (XFile.writeCg size) (s.writeHd size kind order pre)).pos d.id = 0 := by
    have := fold_grow (f := XFile.writeCg size) (ids := XCg.ids) (fun s e h hf hn => (writeCg_grow hs s e h hf hn).1) d.cgs
      (s.writeHd size kind order pre) A.before.inv (fun i hi => hdf i (List.mem_append_left _ hi)) hdn.1
    rw [this.pos _ hdid]
    exact hdf _ (by simp)
  have P := place_grow BA.inv hs d.id D
  have L : ∀ i ∈ t.ids, ((d.cgs.foldl (XFile.writeCg size) (s.writeHd size kind order pre)).place size d.id).links i =
      ((tpre.foldl (XFile.writeTop size) (gpre.foldl (XFile.writeCg size) (s.writeHd size kind order pre))).writeTop size t).links i := by
    intro i hi
    have h1 := G1.links i (fun hm => by
      rcases List.mem_append.mp hm with hm | hm
      · exact C.d2 i hi hm
      · rw [List.mem_singleton] at hm
        exact hgid (hm ▸ tt i hi))
    have h2 := BA.links i (B.d2 i (tg i (tt i hi)))
    exact h2.trans h1
  have M : ∀ j, ((tpre.foldl (XFile.writeTop size) (gpre.foldl (XFile.writeCg size) (s.writeHd size kind order pre))).writeTop size t).pos j ≠ 0 →
      ((d.cgs.foldl (XFile.writeCg size) (s.writeHd size kind order pre)).place size d.id).pos j =
      ((tpre.foldl (XFile.writeTop size) (gpre.foldl (XFile.writeCg size) (s.writeHd size kind order pre))).writeTop size t).pos j := by
    intro j hj
    have h1 := G1.mono F1 j hj
    have h2 := BA.mono B.free j (by rw [h1]; exact hj)
    have h3 := P.mono (fun i hi => by rw [List.mem_singleton] at hi; rw [hi]; exact D) j (by rw [h2, h1]; exact hj)
    rw [h3, h2, h1]
  obtain ⟨u1, -, u3⟩ := updX_same (kind := kind) (order := order) d.tops
    ((d.cgs.foldl (XFile.writeCg size) (s.writeHd size kind order pre)).place size d.id)
  have hw' : (s.writeHd size kind order pre).writeDg size kind order d = d.tops.foldl (XFile.updX kind order)
    ((d.cgs.foldl (XFile.writeCg size) (s.writeHd size kind order pre)).place size d.id) := hw
  have cnsIds : ∀ (gs : List XCg) (i : Nat), i ∈ (gs.flatMap XCg.cns).map (·.self.id) → i ∈ gs.flatMap XCg.ids := fun gs i hi =>
    tops_ids (d := ⟨0, gs⟩) hi
  have topIds : ∀ (ts : List XTop) (i : Nat), i ∈ ts.map (·.self.id) → i ∈ ts.flatMap XTop.ids := fun ts i hi => by
    obtain ⟨u, hu, he⟩ := List.mem_map.mp hi
    exact List.mem_flatMap.mpr ⟨u, hu, List.mem_append_right _ (by simp [he])⟩
  have tops : d.tops = (gpre.flatMap XCg.cns ++ tpre) ++ t :: (tpost ++ gpost.flatMap XCg.cns) := by
    unfold XDg.tops
    rw [hg, List.flatMap_append, List.flatMap_cons, ht]
    simp
  have nl : ∀ i ∈ t.ids, i ∉ (gpre.flatMap XCg.cns ++ tpre).map (·.self.id) := fun i hi hm => by
    rw [List.map_append] at hm
    rcases List.mem_append.mp hm with hm | hm
    · exact B.d1 i (cnsIds _ i hm) (tg i (tt i hi))
    · exact C.d1 i (topIds _ i hm) hi
  have nr : ∀ i ∈ t.ids, i ∉ (tpost ++ gpost.flatMap XCg.cns).map (·.self.id) := fun i hi hm => by
    rw [List.map_append] at hm
    rcases List.mem_append.mp hm with hm | hm
    · exact C.d2 i hi (topIds _ i hm)
    · exact B.d2 i (tg i (tt i hi)) (cnsIds _ i hm)
  have tn := C.nodup
  unfold XTop.ids at tn
  rw [List.nodup_append] at tn
  have after := A.after
  rw [← hd] at after
  refine ⟨?_, C.fresh, C.nodup, ?_, ?_, ?_, ?_, ?_, ?_, ?_⟩
  · refine A.before.trans (B.before.trans C.before fun i hi hm => ?_) fun i hi hm => ?_
    · refine B.d1 i hi (tg i ?_)
      rw [ht, List.flatMap_append]
      exact List.mem_append_left _ hm
    · refine A.d1 i hi (gd i ?_)
      rcases List.mem_append.mp hm with hm | hm
      · rw [hg, List.flatMap_append]
        exact List.mem_append_left _ hm
      · refine gg i (tg i ?_)
        rw [ht, List.flatMap_append]
        exact List.mem_append_left _ hm
  · exact A.before.trans A.here A.d1
  · intro j hj
    rw [hw', u1]
    exact M j hj
  · intro i hi
    have hti : i ∈ t.ids := List.mem_append_left _ hi
    rw [hw', u3 i ?_, L i hti]
    rw [tops, List.map_append, List.map_cons]
    intro hm
    rcases List.mem_append.mp hm with hm | hm
    · exact nl i hti hm
    · rcases List.mem_cons.mp hm with hm | hm
      · exact tn.2.2 i hi t.self.id (by simp) hm
      · exact nr i hti hm
  · rw [hw']
    unfold XFile.linksOf XFile.defaultX
    rw [u1, tops, updX_at _ _ _ _ (nl _ tid) (nr _ tid), L _ tid]
    rfl
  · intro j hj
    exact after.mono A.free j hj
  · intro i hi
    exact after.links i (A.d2 i (td i hi))
  · exact after.inv

/-- The part of the reference that was written before. -/
theorem only_eq {s a : XFile} {ids all : List Nat} {x : ChElem} (hg : XGrow s a ids) (hx : x.Within all) (hf : ∀ i ∈ all, s.pos i = 0) :
    (⟨if posOf a.pos x.dg = 0 then none else x.dg, if posOf a.pos x.cg = 0 then none else x.cg,
      if posOf a.pos x.cn = 0 then none else x.cn⟩ : ChElem) = x.only ids := by
  have one : ∀ o : Option Nat, (∀ j, o = some j → j ∈ all) → (if posOf a.pos o = 0 then none else o) = o.filter (· ∈ ids) := by
    intro o ho
    cases o with
    | none => rfl
    | some j =>
      have := hg.iff j (hf j (ho j rfl))
      by_cases hm : j ∈ ids
      · simp [posOf, this.mpr hm, Option.filter, hm]
      · have h0 : a.pos j = 0 := by
          by_cases h : a.pos j = 0
          · exact h
          · exact absurd (this.mp h) hm
        simp [posOf, h0, Option.filter, hm]
  unfold ChElem.only
  rw [one _ hx.1, one _ hx.2.1, one _ hx.2.2]

/-- The links that a channel of a group has in the end are those of its reference at the end of its data group. -/
theorem channel_links {size kind : Nat → Nat} {order : List Nat} {s : XFile} {ds pre post : List XDg} {d : XDg} {g : XCg} {t : XTop}
    (hst : XStart size order s ds) (hl : (s.writeHd size kind order ds).last < 2 ^ 63) (hd : ds = pre ++ d :: post) (hg : g ∈ d.cgs)
    (ht : t ∈ g.cns) (hf : t.self.flag = true) (hk : t.self.x.Typed kind) (hx : t.self.x.Within (ds.flatMap XDg.ids)) :
    ∃ b, XGrow s b (pre.flatMap XDg.ids ++ d.ids) ∧ (s.writeHd size kind order ds).links t.self.id = b.linksOf t.self.x ∧
      (∀ j, b.pos j ≠ 0 → (s.writeHd size kind order ds).pos j = b.pos j) ∧ XInv (s.writeHd size kind order ds) ∧
      t.self.x.Within order := by
  obtain ⟨gpre, gpost, hg⟩ := List.append_of_mem hg
  obtain ⟨tpre, tpost, ht⟩ := List.append_of_mem ht
  have X := locate (kind := kind) hst hd hg ht
  have ho : t.self.x.Within order :=
    ⟨fun j hj => hst.order j (hx.1 j hj), fun j hj => hst.order j (hx.2.1 j hj), fun j hj => hst.order j (hx.2.2 j hj)⟩
  refine ⟨_, X.growB, ?_, X.keep, X.inv, ho⟩
  rw [X.links _ (List.mem_append_right _ (by simp)), X.self, if_pos hf]
  have tn := X.nodup
  have tf := X.fresh
  unfold XTop.ids at tn tf
  rw [List.nodup_append] at tn
  have h1 := comp_grow hst.size t.comp _ X.grow.inv (fun i hi => tf i (List.mem_append_left _ hi)) tn.1
  have hs : (t.comp.foldl (XFile.writeCn size) (tpre.foldl (XFile.writeTop size)
      (gpre.foldl (XFile.writeCg size) (s.writeHd size kind order pre)))).pos t.self.id = 0 := by
    rw [h1.pos _ (fun hm => tn.2.2 _ hm _ (by simp) rfl)]
    exact tf _ (by simp)
  have hk' := X.keepB
  rw [writeTop_eq (tf _ (by simp)), writeCn_eq hs, if_pos hf] at hk'
  rw [writeTop_eq (tf _ (by simp)), writeCn_eq hs, if_pos hf]
  simp only [XFile.setLinks, if_true]
  rw [defaultX_self X.growB.inv ?_ hk ho ?_]
  · have := hd ▸ (writeHd_grow (kind := kind) (order := order) hst.size ds s hst.inv hst.fresh hst.nodup)
    have hle : ((s.writeHd size kind order pre).writeDg size kind order d).last ≤ (s.writeHd size kind order ds).last := by
      have A := fold_at (f := XFile.writeDg size kind order) (ids := XDg.ids) (fun s e h hf hn => (writeDg_grow hst.size s e h hf hn).1)
        pre d post s hst.inv (hd ▸ hst.fresh) (hd ▸ hst.nodup)
      have := A.after.le
      rw [← hd] at this
      exact this
    omega
  · intro j hj
    have hne : j ≠ t.self.id := fun e => hj (e ▸ hs)
    have := hk' j
    simp only [XFile.setLinks, XFile.place, if_neg hne] at this
    exact this hj

/-- A channel of a group (not of a composition) gets of its reference what lies in its own data group or in one before it. -/
theorem C118_channel_partial {size kind : Nat → Nat} {order : List Nat} {s : XFile} {ds pre post : List XDg} {d : XDg} {g : XCg} {t : XTop}
    (hst : XStart size order s ds) (hl : (s.writeHd size kind order ds).last < 2 ^ 63) (hd : ds = pre ++ d :: post) (hg : g ∈ d.cgs)
    (ht : t ∈ g.cns) (hf : t.self.flag = true) (hk : t.self.x.Typed kind) (hx : t.self.x.Within (ds.flatMap XDg.ids)) :
    (s.writeHd size kind order ds).readX kind order t.self = t.self.x.only (pre.flatMap XDg.ids ++ d.ids) := by
  obtain ⟨b, h1, h2, h3, h4, ho⟩ := channel_links (kind := kind) hst hl hd hg ht hf hk hx
  unfold XFile.readX
  rw [hf, h2, defaultX_linksOf h4 hl hk ho h3]
  exact only_eq h1 hx hst.fresh

/-- The channel found for the X axis is that of the reference if it lies in the same data group or in one before, otherwise silently the
master of the own group. -/
theorem C118_found {size kind : Nat → Nat} {order : List Nat} {s : XFile} {ds pre post : List XDg} {d : XDg} {g : XCg} {t : XTop}
    (hst : XStart size order s ds) (hl : (s.writeHd size kind order ds).last < 2 ^ 63) (hd : ds = pre ++ d :: post) (hg : g ∈ d.cgs)
    (ht : t ∈ g.cns) (hf : t.self.flag = true) (hk : t.self.x.Typed kind) (hx : t.self.x.Within (ds.flatMap XDg.ids))
    {j : Nat} (hj : t.self.x.cn = some j) :
    (s.writeHd size kind order ds).getX kind order g t.self =
      if j ∈ pre.flatMap XDg.ids ++ d.ids then some j else (g.cns.find? (·.master)).map (·.self.id) := by
  obtain ⟨b, h1, h2, h3, h4, ho⟩ := channel_links (kind := kind) hst hl hd hg ht hf hk hx
  unfold XFile.getX
  have hi := h1.iff j (hst.fresh j (hx.2.2 j hj))
  simp only [h2, XFile.linksOf, hj, posOf, hf, true_and]
  by_cases hm : j ∈ pre.flatMap XDg.ids ++ d.ids
  · rw [if_pos (hi.mpr hm), if_pos hm, xfind h4 hl (ho.2.2 j hj) (h3 j), if_neg (hi.mpr hm)]
    simp [asKind, Option.filter, hk.2.2 j hj]
  · rw [if_neg (fun h => hm (hi.mp h)), if_neg hm]

/-- Without a reference of its own (or with one without a channel) the master of the group is found. -/
theorem C118_master {s : XFile} {kind : Nat → Nat} {order : List Nat} {g : XCg} {c : XCn} (h : c.flag = false ∨ (s.links c.id).2.2 = 0) :
    s.getX kind order g c = (g.cns.find? (·.master)).map (·.self.id) := by
  unfold XFile.getX
  simp only
  rw [if_neg]
  rcases h with h | h <;> simp [h]

/-- A link at which there is no block (a damaged file) gives the master of the group as well. -/
theorem C118_unknown_link {s : XFile} {kind : Nat → Nat} {order : List Nat} {g : XCg} {c : XCn}
    (h : ∀ j ∈ order, s.pos j ≠ (s.links c.id).2.2) : s.getX kind order g c = (g.cns.find? (·.master)).map (·.self.id) := by
  have hf : findBlock s.pos order (s.links c.id).2.2 = none := by
    unfold findBlock
    split
    · rw [List.find?_eq_none]
      intro j hj
      simp [h j hj]
    · rfl
  unfold XFile.getX
  simp only [hf]
  split <;> rfl

/-- Once written, another reference set by `DefaultX(y)` is not returned: the getter finds the one that was written. -/
theorem C118_set_again_ignored {size kind : Nat → Nat} {order : List Nat} {s : XFile} {ds pre post : List XDg} {d : XDg} {g : XCg} {t : XTop}
    (hst : XStart size order s ds) (hl : (s.writeHd size kind order ds).last < 2 ^ 63) (hd : ds = pre ++ d :: post) (hg : g ∈ d.cgs)
    (ht : t ∈ g.cns) (hf : t.self.flag = true) (hk : t.self.x.Typed kind) (hx : t.self.x.Within (pre.flatMap XDg.ids ++ d.ids))
    {j1 j2 j3 : Nat} (hj : t.self.x = ⟨some j1, some j2, some j3⟩) (y : ChElem) :
    (s.writeHd size kind order ds).defaultX kind order true ((s.writeHd size kind order ds).links t.self.id) y = t.self.x := by
  have sub : ∀ i ∈ pre.flatMap XDg.ids ++ d.ids, i ∈ ds.flatMap XDg.ids := fun i hi => by
    rw [hd, List.flatMap_append, List.flatMap_cons, ← List.append_assoc]
    exact List.mem_append_left _ hi
  obtain ⟨b, h1, h2, h3, h4, ho⟩ := channel_links (kind := kind) hst hl hd hg ht hf hk
    ⟨fun j hj => sub j (hx.1 j hj), fun j hj => sub j (hx.2.1 j hj), fun j hj => sub j (hx.2.2 j hj)⟩
  rw [h2, defaultX_linksOf h4 hl hk ho h3]
  have w1 := h1.writ j1 (hx.1 j1 (by rw [hj]))
  have w2 := h1.writ j2 (hx.2.1 j2 (by rw [hj]))
  have w3 := h1.writ j3 (hx.2.2 j3 (by rw [hj]))
  simp [hj, posOf, w1, w2, w3]

/-- A channel of a composition gets of its reference only what was written before itself: neither its own group nor its own data group. -/
theorem C118_composition_partial {size kind : Nat → Nat} {order : List Nat} {s : XFile} {ds pre post : List XDg} {d : XDg} {gpre gpost : List XCg} {g : XCg}
    {tpre tpost : List XTop} {t : XTop} {cpre cpost : List XCn} {c : XCn} (hst : XStart size order s ds)
    (hl : (s.writeHd size kind order ds).last < 2 ^ 63) (hd : ds = pre ++ d :: post) (hg : d.cgs = gpre ++ g :: gpost)
    (ht : g.cns = tpre ++ t :: tpost) (hc : t.comp = cpre ++ c :: cpost) (hf : c.flag = true) (hk : c.x.Typed kind)
    (hx : c.x.Within (ds.flatMap XDg.ids)) :
    (s.writeHd size kind order ds).readX kind order c =
      c.x.only (pre.flatMap XDg.ids ++ (gpre.flatMap XCg.ids ++ tpre.flatMap XTop.ids) ++ cpre.map (·.id)) := by
  have X := locate (kind := kind) hst hd hg ht
  have ho : c.x.Within order :=
    ⟨fun j hj => hst.order j (hx.1 j hj), fun j hj => hst.order j (hx.2.1 j hj), fun j hj => hst.order j (hx.2.2 j hj)⟩
  have tn := X.nodup
  have tf := X.fresh
  unfold XTop.ids at tn tf
  rw [List.nodup_append] at tn
  generalize hA : tpre.foldl (XFile.writeTop size) (gpre.foldl (XFile.writeCg size) (s.writeHd size kind order pre)) = a at X tf
  have hcm : c.id ∈ t.comp.map (·.id) := by rw [hc]; simp
  have A := fold_at (f := XFile.writeCn size) (ids := fun c => [c.id]) (fun s e h hf _ => writeCn_grow e h hst.size (hf _ (by simp)))
    cpre c cpost a X.grow.inv (fun i hi => tf i (List.mem_append_left _ (by rw [hc, ← flatMap_one]; exact hi)))
    (by rw [flatMap_one, ← hc]; exact tn.1)
  have AB := A.before
  have AF := A.after
  have Af := A.free
  rw [flatMap_one] at AB AF Af
  rw [← hc] at AF
  have hfc : (cpre.foldl (XFile.writeCn size) a).pos c.id = 0 := A.fresh _ (by simp)
  have hgr := comp_grow hst.size t.comp a X.grow.inv (fun i hi => tf i (List.mem_append_left _ hi)) tn.1
  have hs : (t.comp.foldl (XFile.writeCn size) a).pos t.self.id = 0 := by
    rw [hgr.pos _ (fun hm => tn.2.2 _ hm _ (by simp) rfl)]
    exact tf _ (by simp)
  have hself := writeCn_grow t.self hgr.inv hst.size hs
  have hlinks : (s.writeHd size kind order ds).links c.id = (cpre.foldl (XFile.writeCn size) a).linksOf c.x := by
    rw [X.links _ (List.mem_append_left _ hcm), X.comp _ hcm, writeTop_eq (tf _ (by simp)),
      hself.links _ (fun hm => tn.2.2 _ hcm _ hm rfl), AF.links _ (by
        have := A.d2 c.id (by simp)
        rw [flatMap_one] at this
        exact this), writeCn_eq hfc, if_pos hf]
    simp [XFile.setLinks]
  have hkeep : ∀ j, (cpre.foldl (XFile.writeCn size) a).pos j ≠ 0 →
      (s.writeHd size kind order ds).pos j = (cpre.foldl (XFile.writeCn size) a).pos j := by
    intro j hj
    have h1 := A.here.mono A.fresh j hj
    have h2 := AF.mono Af j (by rw [h1]; exact hj)
    have h3 := hself.mono (fun i hi => by rw [List.mem_singleton] at hi; rw [hi]; exact hs) j (by rw [h2, h1]; exact hj)
    have h4 := X.keepB j
    rw [writeTop_eq (tf _ (by simp)), h3, h2, h1] at h4
    have h5 := X.keep j (by rw [h4 hj]; exact hj)
    rw [h5, h4 hj]
  unfold XFile.readX
  rw [hf, hlinks, defaultX_linksOf X.inv hl hk ho hkeep]
  refine only_eq (X.grow.trans AB fun i hi hm => ?_) hx hst.fresh
  have h0 := tf i (List.mem_append_left _ (by rw [hc, List.map_append]; exact List.mem_append_left _ hm))
  exact X.grow.writ i hi h0

/-- Writing blocks again that are in the file changes nothing: references are never completed later. -/
theorem C118_never_repaired {size kind : Nat → Nat} {order : List Nat} {s : XFile} {ds : List XDg} (hst : XStart size order s ds) :
    (s.writeHd size kind order ds).writeHd size kind order ds = s.writeHd size kind order ds := by
  have hw := (writeHd_grow (kind := kind) (order := order) hst.size ds s hst.inv hst.fresh hst.nodup).writ
  generalize s.writeHd size kind order ds = a at hw
  have fold_id : ∀ {α : Type} (f : XFile → α → XFile) (es : List α), (∀ e ∈ es, f a e = a) → es.foldl f a = a := by
    intro α f es
    induction es with
    | nil => intro _; rfl
    | cons e es ih =>
      intro h
      rw [List.foldl_cons, h e (by simp)]
      exact ih fun e' he => h e' (by simp [he])
  refine fold_id _ ds fun d hd => ?_
  have hwd : ∀ i ∈ d.ids, a.pos i ≠ 0 := fun i hi => hw i (List.mem_flatMap.mpr ⟨d, hd, hi⟩)
  have hcg : d.cgs.foldl (XFile.writeCg size) a = a := by
    refine fold_id _ _ fun g hg => ?_
    have hwg : ∀ i ∈ g.ids, a.pos i ≠ 0 := fun i hi => hwd i (List.mem_append_left _ (List.mem_flatMap.mpr ⟨g, hg, hi⟩))
    have hcn : g.cns.foldl (XFile.writeTop size) a = a := by
      refine fold_id _ _ fun t ht => ?_
      unfold XFile.writeTop
      rw [if_pos (hwg _ (List.mem_append_left _ (List.mem_flatMap.mpr ⟨t, ht, List.mem_append_right _ (by simp)⟩)))]
    unfold XFile.writeCg
    simp only [hcn]
    rw [if_pos (hwg _ (List.mem_append_right _ (by simp)))]
  unfold XFile.writeDg
  simp only [hcg]
  rw [if_pos (hwd _ (List.mem_append_right _ (by simp)))]

/-! Two data groups: 1 with group 2, its master 3, a channel 4 that refers to channel 9 of the other data group and has in its composition
channel 5, which refers to the master of its own group, and a channel 6 that refers to that master; 7 with group 8 and channel 9, which
refers to channel 6. -/

def xFile0 : XFile := ⟨fun _ => 0, 64, fun _ => (0, 0, 0)⟩
def xKind (i : Nat) : Nat := if i = 1 ∨ i = 7 then kDg else if i = 2 ∨ i = 8 then kCg else kCn
def xCg1 : XCg := ⟨2, [⟨⟨3, false, ⟨none, none, none⟩⟩, true, []⟩, ⟨⟨4, true, ⟨some 7, some 8, some 9⟩⟩, false, [⟨5, true, ⟨some 1, some 2, some 3⟩⟩]⟩,
  ⟨⟨6, true, ⟨some 1, some 2, some 3⟩⟩, false, []⟩]⟩
def xDg1 : XDg := ⟨1, [xCg1]⟩
def xCg2 : XCg := ⟨8, [⟨⟨9, true, ⟨some 1, some 2, some 6⟩⟩, true, []⟩]⟩
def xDg2 : XDg := ⟨7, [xCg2]⟩
def xOrder : List Nat := [1, 2, 3, 4, 5, 6, 7, 8, 9]

theorem xStart : XStart (fun _ => 100) xOrder xFile0 [xDg1, xDg2] where
  inv := ⟨by decide, fun _ => by show 0 < 64; decide, fun i j h => absurd rfl h⟩
  size _ := by decide
  fresh _ _ := rfl
  nodup := by decide
  order := by decide

/-- The property fails: the reference of channel 4 to a later data group is lost. -/
theorem C118_false : ¬ C118_Statement := by
  intro h
  have := h (fun _ => 100) xKind xOrder xFile0 [xDg1, xDg2] xStart (by decide) xDg1 (by simp) _ (List.mem_singleton.mpr rfl)
    ⟨⟨4, true, ⟨some 7, some 8, some 9⟩⟩, false, [⟨5, true, ⟨some 1, some 2, some 3⟩⟩]⟩ (by simp [xCg1]) ⟨4, true, ⟨some 7, some 8, some 9⟩⟩ (by simp) rfl
    (by simp [ChElem.Typed, xKind, kDg, kCg, kCn]) (by simp [ChElem.Within, xDg1, xDg2, xCg1, xCg2, XDg.ids, XCg.ids, XTop.ids])
  revert this
  decide

/-- It fails for compositions within one data group as well: channel 5 of the composition keeps the master, but neither group. -/
theorem C118_composition_lost :
    (xFile0.writeHd (fun _ => 100) xKind xOrder [xDg1, xDg2]).readX xKind xOrder ⟨5, true, ⟨some 1, some 2, some 3⟩⟩ = ⟨none, none, some 3⟩ := by
  decide

example : (xFile0.writeHd (fun _ => 100) xKind xOrder [xDg1, xDg2]).readX xKind xOrder ⟨6, true, ⟨some 1, some 2, some 3⟩⟩ =
    ⟨some 1, some 2, some 3⟩ := by
  rw [show (⟨6, true, ⟨some 1, some 2, some 3⟩⟩ : XCn) = (⟨⟨6, true, ⟨some 1, some 2, some 3⟩⟩, false, []⟩ : XTop).self from rfl,
    C118_channel_partial (pre := []) (post := [xDg2]) xStart (by decide) rfl (List.mem_singleton.mpr rfl) (by simp [xCg1]) rfl
      (by simp [ChElem.Typed, xKind, kDg, kCg, kCn]) (by simp [ChElem.Within, xDg1, xDg2, xCg1, xCg2, XDg.ids, XCg.ids, XTop.ids])]
  decide

/-- For channel 4 the master 3 of its own group is found; for channel 9 channel 6 of the other data group, although 9 is a master. -/
example : (xFile0.writeHd (fun _ => 100) xKind xOrder [xDg1, xDg2]).getX xKind xOrder xCg1 ⟨4, true, ⟨some 7, some 8, some 9⟩⟩ = some 3 ∧
    (xFile0.writeHd (fun _ => 100) xKind xOrder [xDg1, xDg2]).getX xKind xOrder xCg2 ⟨9, true, ⟨some 1, some 2, some 6⟩⟩ = some 6 := by
  decide

example : (xFile0.writeHd (fun _ => 100) xKind xOrder [xDg1, xDg2]).getX xKind xOrder xCg2 ⟨9, true, ⟨some 1, some 2, some 6⟩⟩ =
    if 6 ∈ [xDg1].flatMap XDg.ids ++ xDg2.ids then some 6 else (xCg2.cns.find? (·.master)).map (·.self.id) :=
  C118_found (t := ⟨⟨9, true, ⟨some 1, some 2, some 6⟩⟩, true, []⟩) (pre := [xDg1]) (post := []) xStart (by decide) rfl (by simp [xDg2]) (by simp [xCg2]) rfl
    (by simp [ChElem.Typed, xKind, kDg, kCg, kCn]) (by simp [ChElem.Within, xDg1, xDg2, xCg1, xCg2, XDg.ids, XCg.ids, XTop.ids]) rfl

example : (xFile0.writeHd (fun _ => 100) xKind xOrder [xDg1, xDg2]).getX xKind xOrder xCg1 ⟨3, false, ⟨none, none, none⟩⟩ = some 3 :=
  C118_master (.inl rfl)

example : ({ xFile0 with links := fun _ => (0, 0, 77) } : XFile).getX xKind xOrder xCg1 ⟨4, true, ⟨none, none, none⟩⟩ = some 3 :=
  C118_unknown_link (by decide)

example (y : ChElem) : (xFile0.writeHd (fun _ => 100) xKind xOrder [xDg1, xDg2]).defaultX xKind xOrder true
    ((xFile0.writeHd (fun _ => 100) xKind xOrder [xDg1, xDg2]).links 6) y = ⟨some 1, some 2, some 3⟩ :=
  C118_set_again_ignored (t := ⟨⟨6, true, ⟨some 1, some 2, some 3⟩⟩, false, []⟩) (pre := []) (post := [xDg2]) xStart (by decide) rfl
    (List.mem_singleton.mpr rfl) (by simp [xCg1]) rfl (by simp [ChElem.Typed, xKind, kDg, kCg, kCn])
    (by simp [ChElem.Within, xDg1, xCg1, XDg.ids, XCg.ids, XTop.ids]) rfl y

example : (xFile0.writeHd (fun _ => 100) xKind xOrder [xDg1, xDg2]).readX xKind xOrder ⟨5, true, ⟨some 1, some 2, some 3⟩⟩ =
    (⟨some 1, some 2, some 3⟩ : ChElem).only ([] ++ ([] ++ [3]) ++ []) :=
  C118_composition_partial (pre := []) (post := [xDg2]) (d := xDg1) (gpre := []) (gpost := []) (tpre := [⟨⟨3, false, ⟨none, none, none⟩⟩, true, []⟩])
    (tpost := [⟨⟨6, true, ⟨some 1, some 2, some 3⟩⟩, false, []⟩]) (cpre := []) (cpost := []) xStart (by decide) rfl rfl rfl rfl rfl
    (by simp [ChElem.Typed, xKind, kDg, kCg, kCn]) (by simp [ChElem.Within, xDg1, xDg2, xCg1, xCg2, XDg.ids, XCg.ids, XTop.ids])

example : ((xFile0.writeHd (fun _ => 100) xKind xOrder [xDg1, xDg2]).writeHd (fun _ => 100) xKind xOrder [xDg1, xDg2]) =
    xFile0.writeHd (fun _ => 100) xKind xOrder [xDg1, xDg2] := C118_never_repaired xStart

end Mdf
