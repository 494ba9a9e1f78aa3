import Verif.Proof.CommentAttr

/-! Structured comments: what is read of the nodes that are written. -/

namespace Mdf

theorem isTagName_mk (tag want : Bytes) (a : List (Bytes × Bytes)) (v : Bytes) (k : List XmlTree) :
    (XmlTree.mk tag a v k).isTagName want = (XmlTree.mk tag [] [] []).isTagName want := rfl

theorem asRead_mk (l : Nat) (tag : Bytes) (a : List (Bytes × Bytes)) (v : Bytes) (k : List XmlTree) :
    (XmlTree.mk tag a v k).asRead l = .mk tag a (if k.isEmpty then v else gaps l k.length) (allAsRead (l + 1) k) := by
  rw [XmlTree.asRead]

theorem asRead_leafNode (l : Nat) (tag : Bytes) (a : List (Bytes × Bytes)) (v : Bytes) :
    (XmlTree.mk tag a v []).asRead l = .mk tag a v [] := by
  rw [asRead_mk]; rfl

theorem allAsRead_append (l : Nat) (a b : List XmlTree) : allAsRead l (a ++ b) = allAsRead l a ++ allAsRead l b := by
  simp [allAsRead_map]

theorem ownKeys_nil : OwnKeys [] := ⟨by decide, by decide, by decide⟩

theorem write_nil {s : MdStd} (hs : s.Good) : s.write [] = allAttrs s [] := write_own (own := []) hs ownKeys_nil

theorem plainLine_nil : PlainLine [] := by intro c hc; cases hc

theorem plainText_nil : PlainText [] := by intro c hc; cases hc

theorem plainLine_true (b : Bool) : PlainLine (if b then wTrue else []) := by
  cases b
  · exact plainLine_nil
  · exact (by decide : ∀ c ∈ wTrue, 0x20#8 ≤ c)

/-! ## Texts -/

theorem str_read {s : MdStr} (hs : s.Good) {own : List (Bytes × Bytes)} (hk : OwnKeys (own.map (·.1))) (tag : Bytes) (kids : List XmlTree) :
    MdStr.read {} (.mk tag (allAttrs s.std own) s.text kids) = s.readBack own := by
  rw [MdStr.read]
  simp only [XmlTree.attrs, XmlTree.value]
  rw [strRead_own hs.1 hk]
  rfl

theorem str_nodes {tag : Bytes} (ht : tag ≠ tTX) (l : Nat) : ∀ {ss : List MdStr}, (∀ s ∈ ss, s.Good) →
    allAsRead l (ss.flatMap (·.nodes tag)) = (nonEmpty ss).map fun s => .mk tag (allAttrs s.std []) s.text []
  | [], _ => by simp [nonEmpty, allAsRead]
  | s :: ss, h => by
    have hs := h s (by simp)
    have ih := str_nodes ht l (fun t (hm : t ∈ ss) => h t (by simp [hm]))
    rw [List.flatMap_cons, allAsRead_append, ih]
    by_cases he : s.text = []
    · simp [MdStr.nodes, nonEmpty, he, ht, allAsRead]
    · simp only [MdStr.nodes, he, false_and, if_false, allAsRead, asRead_leafNode, write_nil hs.1]
      simp [nonEmpty, he]

theorem str_nodes_good {tag : Bytes} (hx : XmlName tag) {ss : List MdStr} (h : ∀ s ∈ ss, s.Good) :
    AllGood (ss.flatMap (·.nodes tag)) := by
  rw [allGood_iff]
  intro k hk
  obtain ⟨s, hs, hk⟩ := List.mem_flatMap.mp hk
  rw [MdStr.nodes] at hk
  split at hk
  · cases hk
  · rw [List.mem_singleton] at hk
    subst hk
    rw [write_nil (h s hs).1]
    exact ⟨hx, allAttrs_good (h s hs).1 ownKeys_nil (fun a ha => by cases ha), (h s hs).2, trivial⟩

/-! ## Properties -/

theorem prop_keys (p : MdProp) : OwnKeys (p.own.map (·.1)) := by
  show OwnKeys [kName, kDesc, kType, kUnit, kUnitRef, kRo]
  exact ⟨by decide, by decide, by decide⟩

theorem prop_attrs {p : MdProp} (hp : p.Good) : p.attrs = allAttrs p.std p.own := write_own (own := p.own) hp.1 (prop_keys p)

theorem type_readBack (t : MdType) : MdType.ofWord (trim (if t = .string then [] else t.word)) = t.readBack := by
  cases t <;> decide

theorem prop_readHead {p : MdProp} (hp : p.Good) : MdProp.readHead p.attrs = some { p.readBack with value := [] } := by
  rw [prop_attrs hp, MdProp.readHead, read_own hp.1 (prop_keys p)]
  have hn : attrText (allAttrs p.std p.own) kName = p.name := by
    rw [attrText_own hp.1 (prop_keys p) (v := p.name) (by simp [MdProp.own])]
    exact hp.2.1.2.1
  simp only [Option.map_some, hn]
  rw [attrText_own hp.1 (prop_keys p) (v := p.desc) (by simp [MdProp.own]),
    attrText_own hp.1 (prop_keys p) (k := kType) (v := if p.type = .string then [] else p.type.word) (by simp [MdProp.own]),
    attrText_own hp.1 (prop_keys p) (v := p.unit) (by simp [MdProp.own]),
    attrText_own hp.1 (prop_keys p) (v := p.unitRef) (by simp [MdProp.own]),
    attrBool_own hp.1 (prop_keys p) (b := p.readOnly) (by simp [MdProp.own]), type_readBack]
  rfl

theorem prop_read {p : MdProp} (hp : p.Good) (l : Nat) : MdProp.read (p.node.asRead l) = some p.readBack := by
  rw [MdProp.node, asRead_leafNode, MdProp.read]
  simp only [XmlTree.attrs, XmlTree.value]
  rw [prop_readHead hp]
  rfl

theorem type_line (t : MdType) : PlainLine (if t = .string then [] else t.word) := by
  cases t <;> (unfold PlainLine; decide)

theorem prop_goodAttrs {p : MdProp} (hp : p.Good) : GoodAttrs p.attrs := by
  rw [prop_attrs hp]
  refine allAttrs_good hp.1 (prop_keys p) ?_
  intro a ha
  simp only [MdProp.own, List.mem_cons, List.not_mem_nil, or_false] at ha
  obtain ⟨h1, h2, h3, h4, h5, h6⟩ := hp
  rcases ha with rfl | rfl | rfl | rfl | rfl | rfl
  · exact h2.2.2
  · exact h3
  · exact type_line _
  · exact h4
  · exact h5
  · exact plainLine_true _

theorem prop_good {p : MdProp} (hp : p.Good) : p.node.Good :=
  ⟨⟨_, _, rfl, by decide, by decide⟩, prop_goodAttrs hp, hp.2.2.2.2.2, trivial⟩

theorem enum_read {e : MdEnum} (he : e.Good) (l : Nat) : MdEnum.read (e.node.asRead l) = some e.readBack := by
  rw [MdEnum.node, asRead_mk, MdEnum.read]
  simp only [XmlTree.attrs, XmlTree.kids]
  rw [prop_readHead he.1, str_nodes (by decide) _ he.2]
  simp only [Option.map_some, MdEnum.readBack]
  congr 2
  rw [List.filter_eq_self.mpr, List.map_map]
  · apply List.map_congr_left
    intro s hs
    have hs' : s ∈ e.values := (List.mem_filter.mp hs).1
    exact str_read (own := []) (he.2 s hs') ownKeys_nil _ _
  · intro t ht
    obtain ⟨s, _, rfl⟩ := List.mem_map.mp ht
    exact (by decide : (XmlTree.mk tEli [] [] []).isTagName tEli = true)

theorem enum_good {e : MdEnum} (he : e.Good) : e.node.Good :=
  ⟨⟨_, _, rfl, by decide, by decide⟩, prop_goodAttrs he.1, plainText_nil, str_nodes_good ⟨_, _, rfl, by decide, by decide⟩ he.2⟩

/-! ## Trees -/

theorem allReadBack_map (ts : List MdTree) : allReadBack ts = ts.map MdTree.readBack := by
  induction ts with
  | nil => rfl
  | cons t ts ih => rw [allReadBack, ih]; rfl

theorem readBack_name (t : MdTree) : t.readBack.name = t.name := by
  obtain ⟨s, n, d, p, ts, l, e⟩ := t
  rw [MdTree.readBack]
  rfl

theorem sortedBy_map {α : Type} {key : α → Bytes} {l : List α} :
    SortedBy key l ↔ (l.map key).Pairwise (fun a b => nameLt a b = true) := by
  rw [List.pairwise_map]
  rfl

theorem any_name_false {α : Type} {key : α → Bytes} {n : Bytes} {l : List α} (h : ∀ x ∈ l, key x ≠ n) :
    l.any (fun x => key x == n) = false := by
  simpa using h

theorem fromKids_props (s : MdStd) (n d : Bytes) (l : Nat) (rest : List XmlTree) : ∀ {ps acc : List MdProp}, (∀ p ∈ ps, p.Good) →
    SortedBy MdProp.name (acc ++ ps) →
    (MdTree.mk s n d acc [] [] []).fromKids (allAsRead l (ps.map MdProp.node) ++ rest) =
      (MdTree.mk s n d (acc ++ ps.map MdProp.readBack) [] [] []).fromKids rest
  | [], acc, _, _ => by simp [allAsRead]
  | p :: ps, acc, h, hs => by
    have hp := h p (by simp)
    have hlt : ∀ q ∈ acc, nameLt q.name p.name = true := fun q hq => (List.pairwise_append.mp hs).2.2 q hq p (by simp)
    have hadd : (MdTree.mk s n d acc [] [] []).addProp p.readBack = .mk s n d (acc ++ [p.readBack]) [] [] [] := by
      rw [MdTree.addProp, if_neg]
      · rw [mapInsert_last (x := p.readBack) (key := MdProp.name) hlt]
      · have hne : p.readBack.name.isEmpty = false := by simpa [MdProp.readBack] using hp.2.1.1
        have := any_name_false (key := MdProp.name) (n := p.readBack.name) (fun q hq => nameLt_ne (hlt q hq))
        simp [MdTree.duplicate, MdTree.props, MdTree.trees, MdTree.lists, MdTree.enums, hne, this]
    rw [List.map_cons, allAsRead, List.cons_append, MdTree.fromKids, asRead_isTagName,
      if_pos (by exact (by decide : (XmlTree.mk tE [] [] []).isTagName tE = true)), prop_read hp]
    dsimp only
    rw [hadd, fromKids_props s n d l rest (fun q hq => h q (by simp [hq]))]
    · simp
    · have : ((acc ++ [p.readBack] ++ ps).map MdProp.name) = (acc ++ p :: ps).map MdProp.name := by simp [MdProp.readBack]
      rw [sortedBy_map, this, ← sortedBy_map]
      exact hs

theorem fromKids_enums (s : MdStd) (n d : Bytes) (P : List MdProp) (T L : List MdTree) (l : Nat) : ∀ {es acc : List MdEnum},
    (∀ e ∈ es, e.Good) → SortedBy (fun e => e.prop.name) (acc ++ es) →
    (∀ e ∈ es, (∀ p ∈ P, p.name ≠ e.prop.name) ∧ (∀ t ∈ T, t.name ≠ e.prop.name) ∧ ∀ l ∈ L, l.name ≠ e.prop.name) →
    (MdTree.mk s n d P T L acc).fromKids (allAsRead l (es.map MdEnum.node)) =
      (MdTree.mk s n d P T L (acc ++ es.map MdEnum.readBack), false)
  | [], acc, _, _, _ => by simp [allAsRead, MdTree.fromKids]
  | e :: es, acc, h, hs, hd => by
    have he := h e (by simp)
    have hde := hd e (by simp)
    have hlt : ∀ q ∈ acc, nameLt q.prop.name e.prop.name = true := fun q hq => (List.pairwise_append.mp hs).2.2 q hq e (by simp)
    have hadd : (MdTree.mk s n d P T L acc).addEnum e.readBack = .mk s n d P T L (acc ++ [e.readBack]) := by
      rw [MdTree.addEnum, if_neg]
      · rw [mapInsert_last (x := e.readBack) (key := fun e => e.prop.name) hlt]
      · have hne : e.readBack.prop.name.isEmpty = false := by simpa [MdEnum.readBack, MdProp.readBack] using he.1.2.1.1
        have h1 := any_name_false (key := fun e : MdEnum => e.prop.name) (n := e.readBack.prop.name) (fun q hq => nameLt_ne (hlt q hq))
        have h2 := any_name_false (key := MdProp.name) (n := e.readBack.prop.name) hde.1
        have h3 := any_name_false (key := MdTree.name) (n := e.readBack.prop.name) hde.2.1
        have h4 := any_name_false (key := MdTree.name) (n := e.readBack.prop.name) hde.2.2
        simp [MdTree.duplicate, MdTree.props, MdTree.trees, MdTree.lists, MdTree.enums, hne, h1, h2, h3, h4]
    rw [List.map_cons, allAsRead, MdTree.fromKids, asRead_isTagName,
      if_neg (by exact (by decide : ¬ (XmlTree.mk tElist [] [] []).isTagName tE = true)), asRead_isTagName,
      if_neg (by exact (by decide : ¬ (XmlTree.mk tElist [] [] []).isTagName tTree = true)), asRead_isTagName,
      if_neg (by exact (by decide : ¬ (XmlTree.mk tElist [] [] []).isTagName tList = true)), asRead_isTagName,
      if_pos (by exact (by decide : (XmlTree.mk tElist [] [] []).isTagName tElist = true)), enum_read he]
    dsimp only
    rw [hadd, fromKids_enums s n d P T L l (fun q hq => h q (by simp [hq])) _ (fun q hq => hd q (by simp [hq]))]
    · simp
    · have : ((acc ++ [e.readBack] ++ es).map fun e => e.prop.name) = (acc ++ e :: es).map fun e => e.prop.name := by
        simp [MdEnum.readBack, MdProp.readBack]
      rw [sortedBy_map, this, ← sortedBy_map]
      exact hs

/-- The attributes of a tree or list. -/
def MdTree.own (t : MdTree) : List (Bytes × Bytes) := [(kName, t.name), (kDesc, t.desc)]

theorem tree_keys (t : MdTree) : OwnKeys (t.own.map (·.1)) := by
  show OwnKeys [kName, kDesc]
  exact ⟨by decide, by decide, by decide⟩

theorem MdTree.Good.head {t : MdTree} (h : t.Good) : t.std.Good ∧ trim t.name = t.name ∧ PlainLine t.name ∧ PlainLine t.desc := by
  obtain ⟨s, n, d, p, ts, l, e⟩ := t
  rw [MdTree.Good] at h
  exact ⟨h.1, h.2.1, h.2.2.1, h.2.2.2.1⟩

theorem tree_attrs {t : MdTree} (h : t.Good) :
    t.std.write (setAll [] [(kName, t.name), (kDesc, t.desc)]) = allAttrs t.std t.own := write_own (own := t.own) h.head.1 (tree_keys t)

theorem tree_head {t : MdTree} (h : t.Good) : MdStd.read {} (allAttrs t.std t.own) = some (t.std.readBack t.own) ∧
    attrText (allAttrs t.std t.own) kName = t.name ∧ attrText (allAttrs t.std t.own) kDesc = trim t.desc := by
  refine ⟨read_own h.head.1 (tree_keys t), ?_, ?_⟩
  · rw [attrText_own h.head.1 (tree_keys t) (v := t.name) (by simp [MdTree.own]), h.head.2.1]
  · rw [attrText_own h.head.1 (tree_keys t) (v := t.desc) (by simp [MdTree.own])]

theorem tree_goodAttrs {t : MdTree} (h : t.Good) : GoodAttrs (allAttrs t.std t.own) := by
  refine allAttrs_good h.head.1 (tree_keys t) ?_
  intro a ha
  simp only [MdTree.own, List.mem_cons, List.not_mem_nil, or_false] at ha
  rcases ha with rfl | rfl
  · exact h.head.2.2.1
  · exact h.head.2.2.2

theorem addTree_new (s : MdStd) (n d : Bytes) (P : List MdProp) (acc : List MdTree) (t : MdTree) (h : ∀ q ∈ acc, nameLt q.name t.name = true) :
    (MdTree.mk s n d P acc [] []).addTree t = .mk s n d P (acc ++ [t]) [] [] := by
  rw [MdTree.addTree, if_neg]
  · rw [mapInsert_last h]
  · rw [any_name_false (key := MdTree.name) (n := t.name) (fun q hq => nameLt_ne (h q hq))]
    simp

theorem addList_new (s : MdStd) (n d : Bytes) (P : List MdProp) (T acc : List MdTree) (t : MdTree) (h : ∀ q ∈ acc, nameLt q.name t.name = true)
    (hne : t.name ≠ []) (hP : ∀ p ∈ P, p.name ≠ t.name) (hT : ∀ q ∈ T, q.name ≠ t.name) :
    (MdTree.mk s n d P T acc []).addList t = .mk s n d P T (acc ++ [t]) [] := by
  rw [MdTree.addList, if_neg]
  · rw [mapInsert_last h]
  · have h1 := any_name_false (key := MdTree.name) (n := t.name) (fun q hq => nameLt_ne (h q hq))
    have h2 := any_name_false (key := MdProp.name) (n := t.name) hP
    have h3 := any_name_false (key := MdTree.name) (n := t.name) hT
    have h4 : t.name.isEmpty = false := by simpa using hne
    simp [MdTree.duplicate, MdTree.props, MdTree.trees, MdTree.lists, MdTree.enums, h1, h2, h3, h4]

theorem sorted_step {acc ts : List MdTree} {t : MdTree} (h : SortedBy MdTree.name (acc ++ t :: ts)) :
    SortedBy MdTree.name (acc ++ [t.readBack] ++ ts) := by
  have : ((acc ++ [t.readBack] ++ ts).map MdTree.name) = (acc ++ t :: ts).map MdTree.name := by simp [readBack_name]
  rw [sortedBy_map, this, ← sortedBy_map]
  exact h

mutual
theorem inner_read : ∀ (t : MdTree), t.Good → ∀ (l : Nat) (s : MdStd) (n d : Bytes),
    (MdTree.mk s n d [] [] [] []).fromKids (allAsRead l t.inner) =
      (.mk s n d (t.props.map MdProp.readBack) (allReadBack t.trees) (allReadBack t.lists) (t.enums.map MdEnum.readBack), false)
  | .mk std name desc props trees lists enums, h, l, s, n, d => by
    rw [MdTree.Good] at h
    obtain ⟨_, _, _, _, hp, hps, ht, hts, hl, hls, he, hes, hld, hed⟩ := h
    rw [MdTree.inner, allAsRead_append, allAsRead_append, allAsRead_append, List.append_assoc, List.append_assoc,
      fromKids_props s n d l _ hp (by simpa using hps), trees_read trees ht [] (by simpa using hts),
      lists_read lists hl [] (by simpa using hls) ?_, fromKids_enums s n d _ _ _ l he (by simpa using hes) ?_]
    · simp [MdTree.props, MdTree.trees, MdTree.lists, MdTree.enums]
    · intro e hm
      obtain ⟨h1, h2, h3⟩ := hed e hm
      refine ⟨?_, ?_, ?_⟩
      · intro p hp
        simp only [List.nil_append, List.mem_map] at hp
        obtain ⟨q, hq, rfl⟩ := hp
        exact h1 q hq
      · intro t ht
        simp only [List.nil_append, allReadBack_map, List.mem_map] at ht
        obtain ⟨q, hq, rfl⟩ := ht
        rw [readBack_name]
        exact h2 q hq
      · intro t ht
        simp only [List.nil_append, allReadBack_map, List.mem_map] at ht
        obtain ⟨q, hq, rfl⟩ := ht
        rw [readBack_name]
        exact h3 q hq
    · intro x hm
      obtain ⟨h1, h2, h3⟩ := hld x hm
      refine ⟨h1, ?_, ?_⟩
      · intro p hp
        simp only [List.nil_append, List.mem_map] at hp
        obtain ⟨q, hq, rfl⟩ := hp
        exact h2 q hq
      · intro t ht
        simp only [List.nil_append, allReadBack_map, List.mem_map] at ht
        obtain ⟨q, hq, rfl⟩ := ht
        rw [readBack_name]
        exact h3 q hq
theorem trees_read : ∀ (ts : List MdTree), AllTreesGood ts → ∀ (acc : List MdTree), SortedBy MdTree.name (acc ++ ts) →
    ∀ {s : MdStd} {n d : Bytes} {P : List MdProp} {l : Nat} {rest : List XmlTree},
    (MdTree.mk s n d P acc [] []).fromKids (allAsRead l (treeNodes ts) ++ rest) =
      (MdTree.mk s n d P (acc ++ allReadBack ts) [] []).fromKids rest
  | [], _, acc, _, s, n, d, P, l, rest => by simp [treeNodes, allAsRead, allReadBack]
  | t :: ts, h, acc, hs, s, n, d, P, l, rest => by
    rw [AllTreesGood] at h
    have hlt : ∀ q ∈ acc, nameLt q.name t.name = true := fun q hq => (List.pairwise_append.mp hs).2.2 q hq t (by simp)
    have ih := inner_read t h.1 (l + 1) (t.std.readBack t.own) t.name (trim t.desc)
    have hh := tree_head h.1
    rw [treeNodes, allAsRead, List.cons_append, MdTree.fromKids, asRead_isTagName,
      if_neg (by exact (by decide : ¬ (XmlTree.mk tTree [] [] []).isTagName tE = true)), asRead_isTagName,
      if_pos (by exact (by decide : (XmlTree.mk tTree [] [] []).isTagName tTree = true)), tree_attrs h.1, asRead_mk, MdTree.fromNode,
      if_neg (by decide)]
    have h0 : MdTree.empty.std = {} := rfl
    rw [h0, hh.1]
    dsimp only
    rw [hh.2.1, hh.2.2]
    have h1 : MdTree.setHead (t.std.readBack t.own) t.name (trim t.desc) .empty = .mk (t.std.readBack t.own) t.name (trim t.desc) [] [] [] [] := rfl
    rw [h1, ih]
    dsimp only
    have h2 : MdTree.mk (t.std.readBack t.own) t.name (trim t.desc) (t.props.map MdProp.readBack) (allReadBack t.trees) (allReadBack t.lists)
        (t.enums.map MdEnum.readBack) = t.readBack := by
      obtain ⟨a, b, c, d, e, f, g⟩ := t
      rw [MdTree.readBack]
      rfl
    rw [h2, addTree_new _ _ _ _ _ _ (by rw [readBack_name]; exact hlt), trees_read ts h.2 _ (sorted_step hs)]
    simp [allReadBack]
theorem lists_read : ∀ (ts : List MdTree), AllTreesGood ts → ∀ (acc : List MdTree), SortedBy MdTree.name (acc ++ ts) →
    ∀ {s : MdStd} {n d : Bytes} {P : List MdProp} {T : List MdTree} {l : Nat} {rest : List XmlTree},
    (∀ t ∈ ts, t.name ≠ [] ∧ (∀ p ∈ P, p.name ≠ t.name) ∧ ∀ q ∈ T, q.name ≠ t.name) →
    (MdTree.mk s n d P T acc []).fromKids (allAsRead l (listNodes ts) ++ rest) =
      (MdTree.mk s n d P T (acc ++ allReadBack ts) []).fromKids rest
  | [], _, acc, _, s, n, d, P, T, l, rest, _ => by simp [listNodes, allAsRead, allReadBack]
  | t :: ts, h, acc, hs, s, n, d, P, T, l, rest, hd => by
    rw [AllTreesGood] at h
    have hlt : ∀ q ∈ acc, nameLt q.name t.name = true := fun q hq => (List.pairwise_append.mp hs).2.2 q hq t (by simp)
    have ih := inner_read t h.1 (l + 2) (t.std.readBack t.own) t.name (trim t.desc)
    have hh := tree_head h.1
    have hdt := hd t (by simp)
    rw [listNodes, allAsRead, List.cons_append, MdTree.fromKids, asRead_isTagName,
      if_neg (by exact (by decide : ¬ (XmlTree.mk tList [] [] []).isTagName tE = true)), asRead_isTagName,
      if_neg (by exact (by decide : ¬ (XmlTree.mk tList [] [] []).isTagName tTree = true)), asRead_isTagName,
      if_pos (by exact (by decide : (XmlTree.mk tList [] [] []).isTagName tList = true)), tree_attrs h.1, asRead_mk, listFromNode, hh.1]
    dsimp only
    rw [hh.2.1, hh.2.2]
    have h1 : MdTree.setHead (t.std.readBack t.own) t.name (trim t.desc) .empty = .mk (t.std.readBack t.own) t.name (trim t.desc) [] [] [] [] := rfl
    rw [h1, allAsRead, allAsRead, MdTree.fromItems, asRead_isTagName,
      if_pos (by exact (by decide : (XmlTree.mk tLi [] [] []).isTagName tLi = true)), asRead_mk, MdTree.fromNode, if_pos (.inr rfl), ih]
    dsimp only
    rw [MdTree.fromItems]
    dsimp only
    have h2 : MdTree.mk (t.std.readBack t.own) t.name (trim t.desc) (t.props.map MdProp.readBack) (allReadBack t.trees) (allReadBack t.lists)
        (t.enums.map MdEnum.readBack) = t.readBack := by
      obtain ⟨a, b, c, d, e, f, g⟩ := t
      rw [MdTree.readBack]
      rfl
    rw [h2, addList_new _ _ _ _ _ _ _ (by rw [readBack_name]; exact hlt) (by rw [readBack_name]; exact hdt.1)
      (by rw [readBack_name]; exact hdt.2.1) (by rw [readBack_name]; exact hdt.2.2),
      lists_read ts h.2 _ (sorted_step hs) (fun q hq => hd q (by simp [hq]))]
    simp [allReadBack]
end

mutual
theorem inner_good : ∀ (t : MdTree), t.Good → AllGood t.inner
  | .mk std name desc props trees lists enums, h => by
    rw [MdTree.Good] at h
    obtain ⟨_, _, _, _, hp, hps, ht, hts, hl, hls, he, hes, hld, hed⟩ := h
    have h1 := trees_good trees ht
    have h2 := lists_good lists hl
    rw [allGood_iff] at *
    intro k hk
    rw [MdTree.inner, List.mem_append, List.mem_append, List.mem_append] at hk
    rcases hk with ((hk | hk) | hk) | hk
    · obtain ⟨p, hm, rfl⟩ := List.mem_map.mp hk
      exact prop_good (hp p hm)
    · exact h1 k hk
    · exact h2 k hk
    · obtain ⟨e, hm, rfl⟩ := List.mem_map.mp hk
      exact enum_good (he e hm)
theorem trees_good : ∀ (ts : List MdTree), AllTreesGood ts → AllGood (treeNodes ts)
  | [], _ => by rw [treeNodes]; trivial
  | t :: ts, h => by
    rw [AllTreesGood] at h
    rw [treeNodes, AllGood]
    refine ⟨?_, trees_good ts h.2⟩
    rw [tree_attrs h.1]
    exact ⟨⟨_, _, rfl, by decide, by decide⟩, tree_goodAttrs h.1, plainText_nil, inner_good t h.1⟩
theorem lists_good : ∀ (ts : List MdTree), AllTreesGood ts → AllGood (listNodes ts)
  | [], _ => by rw [listNodes]; trivial
  | t :: ts, h => by
    rw [AllTreesGood] at h
    rw [listNodes, AllGood]
    refine ⟨?_, lists_good ts h.2⟩
    rw [tree_attrs h.1]
    refine ⟨⟨_, _, rfl, by decide, by decide⟩, tree_goodAttrs h.1, plainText_nil, ?_, trivial⟩
    exact ⟨⟨_, _, rfl, by decide, by decide⟩, ⟨by simp, fun a ha => by cases ha⟩, plainText_nil, inner_good t h.1⟩
end

end Mdf
