import Verif.Proof.XmlTags

namespace Mdf

/-! ## Reading a written property -/

theorem allAsRead_map (level : Nat) (ks : List XmlTree) : allAsRead level ks = ks.map (XmlTree.asRead level) := by
  induction ks with
  | nil => rfl
  | cons k ks ih => rw [allAsRead, ih]; rfl

theorem allGood_iff (ks : List XmlTree) : AllGood ks ↔ ∀ k ∈ ks, k.Good := by
  induction ks with
  | nil => simp [AllGood]
  | cons k ks ih => simp [AllGood, ih]

theorem allTrimmed_map (ts : List Tag) : allTrimmed ts = ts.map Tag.trimmed := by
  induction ts with
  | nil => rfl
  | cons k ks ih => rw [allTrimmed, ih]; rfl

theorem lTrim_blank : ∀ {s : Bytes}, (∀ c ∈ s, isSpace c = true) → lTrim s = []
  | [], _ => rfl
  | c :: s, h => by rw [lTrim, if_pos (h c (by simp)), lTrim_blank (fun d hd => h d (by simp [hd]))]

theorem trim_blank {s : Bytes} (h : ∀ c ∈ s, isSpace c = true) : trim s = [] := by
  rw [trim, lTrim_blank h]; rfl

theorem gaps_blank (level n : Nat) : ∀ c ∈ gaps level n, c = 0x20#8 ∨ c = 0x0A#8 := by
  intro c hc
  simp only [gaps, List.cons_append, List.mem_cons, List.mem_append, List.mem_flatten, List.mem_replicate] at hc
  rcases hc with rfl | ⟨l, ⟨_, rfl⟩, hc⟩ | hc
  · exact .inr rfl
  · rcases List.mem_append.1 hc with hc | hc
    · exact indent_blank _ c hc
    · exact .inr (List.mem_singleton.1 hc)
  · exact indent_blank _ c hc

theorem trim_gaps (level n : Nat) : trim (gaps level n) = [] := by
  refine trim_blank ?_
  intro c hc
  rcases gaps_blank level n c hc with rfl | rfl <;> decide

theorem gaps_plain (level n : Nat) : PlainText (gaps level n) := by
  intro c hc
  rcases gaps_blank level n c hc with rfl | rfl
  · exact .inl (by decide)
  · exact .inr (.inr rfl)

theorem TagAttrs.good {ks : List Bytes} {as : List (Bytes × Bytes)} (h : TagAttrs ks as) (hs : ∀ k ∈ ks, k ∈ knownKeys) :
    GoodAttrs as := by
  refine ⟨h.nodup, ?_⟩
  intro a ha
  refine ⟨?_, h.line a ha⟩
  have hk : ∀ k ∈ knownKeys, ∃ c r, k = c :: r ∧ isNameStart c = true ∧ ∀ d ∈ r, isNameChar d = true := by
    intro k hk
    simp only [knownKeys, List.mem_cons, List.not_mem_nil, or_false] at hk
    rcases hk with rfl | rfl | rfl | rfl | rfl | rfl | rfl | rfl <;> exact ⟨_, _, rfl, by decide, by decide⟩
  exact hk _ (hs _ (h.keys a ha))

theorem xmlName_e : XmlName tE := ⟨_, _, rfl, by decide, by decide⟩
theorem xmlName_tree : XmlName tTree := ⟨_, _, rfl, by decide, by decide⟩

mutual
theorem TagNode.good : ∀ (k : XmlTree), TagNode k → k.Good
  | .mk tag as v kids, h => by
    simp only [TagNode] at h
    simp only [XmlTree.Good]
    obtain ⟨hv, ⟨rfl, rfl, ha⟩ | ⟨rfl, _, ha, hk⟩⟩ := h
    · exact ⟨xmlName_e, ha.good (fun _ h => h), hv, trivial⟩
    · exact ⟨xmlName_tree, ha.good (by decide), hv, tagNodes_good kids hk⟩
theorem tagNodes_good : ∀ (ks : List XmlTree), TagNodes ks → AllGood ks
  | [], _ => trivial
  | k :: ks, h => by
    simp only [TagNodes] at h
    exact ⟨TagNode.good k h.1, tagNodes_good ks h.2⟩
end

mutual
theorem asRead_tagNode : ∀ (k : XmlTree) (l : Nat), TagNode k → TagNode (k.asRead l) ∧ absTag (k.asRead l) = absTag k
  | .mk tag as v kids, l, h => by
    simp only [TagNode] at h
    simp only [XmlTree.asRead, TagNode, absTag]
    obtain ⟨hv, ⟨rfl, rfl, ha⟩ | ⟨rfl, hkn, ha, hk⟩⟩ := h
    · simp only [List.isEmpty_nil, if_true, allAsRead]
      exact ⟨⟨hv, .inl ⟨trivial, trivial, ha⟩⟩, trivial⟩
    · obtain ⟨k, kids, rfl⟩ := List.exists_cons_of_ne_nil hkn
      obtain ⟨i1, i2⟩ := asRead_tagNodes (k :: kids) (l + 1) hk
      rw [i2]
      simp only [allAsRead, List.isEmpty_cons, Bool.false_eq_true, if_false]
      refine ⟨⟨gaps_plain _ _, .inr ⟨trivial, by simp, ha, ?_⟩⟩, trivial⟩
      simpa only [allAsRead] using i1
theorem asRead_tagNodes : ∀ (ks : List XmlTree) (l : Nat), TagNodes ks → TagNodes (allAsRead l ks) ∧ absTags (allAsRead l ks) = absTags ks
  | [], _, _ => ⟨trivial, rfl⟩
  | k :: ks, l, h => by
    simp only [TagNodes] at h
    obtain ⟨i1, i2⟩ := asRead_tagNode k l h.1
    obtain ⟨j1, j2⟩ := asRead_tagNodes ks l h.2
    simp only [allAsRead, TagNodes, absTags]
    exact ⟨⟨i1, j1⟩, by rw [i2, j2]⟩
end

theorem attribute_known {ks : List Bytes} {as : List (Bytes × Bytes)} (h : TagAttrs ks as) (hs : ∀ k ∈ ks, k ∈ knownKeys)
    (tag v : Bytes) (kids : List XmlTree) {key : Bytes} (hk : key ∈ knownKeys) :
    (XmlTree.mk tag as v kids).attribute key = (rawAttr as key).map trim := by
  unfold XmlTree.attribute rawAttr
  simp only [XmlTree.attrs]
  rw [find_known (fun a ha => hs _ (h.keys a ha)) hk, Option.map_map]
  rfl

theorem trim_getD (r : Option Bytes) : (r.map trim).getD [] = trim (r.getD []) := by cases r <;> rfl

theorem fetch_info {ks : List Bytes} {as : List (Bytes × Bytes)} (h : TagAttrs ks as) (hs : ∀ k ∈ ks, k ∈ knownKeys)
    (tag v : Bytes) (kids : List XmlTree) (w : Bytes) (hw : trim v = trim w) :
    fetchTag (.mk tag as v kids) = .mk (absInfo as w).trimmed (fetchTags kids) := by
  have hci : ((rawAttr as kCi).map trim).map decNumber = (rawAttr as kCi).map decNumber := by
    cases hr : rawAttr as kCi with
    | none => rfl
    | some x =>
      obtain ⟨n, rfl⟩ := h.raw_creator hr
      simp [decText_trim]
  have hro : (((rawAttr as kRo).map trim).map boolText).getD false = (rawAttr as kRo).isSome := by
    cases hr : rawAttr as kRo with
    | none => rfl
    | some x =>
      have hx := h.raw_ro hr
      subst hx
      decide
  rw [fetchTag]
  rw [attribute_known h hs _ _ _ (key := kName) (by decide), attribute_known h hs _ _ _ (key := kDesc) (by decide),
    attribute_known h hs _ _ _ (key := kCi) (by decide), attribute_known h hs _ _ _ (key := kType) (by decide),
    attribute_known h hs _ _ _ (key := kLang) (by decide), attribute_known h hs _ _ _ (key := kRo) (by decide),
    attribute_known h hs _ _ _ (key := kUnit) (by decide), attribute_known h hs _ _ _ (key := kUnitRef) (by decide)]
  rw [hci, hro, hw]
  simp only [trim_getD, absInfo, TagInfo.trimmed]

mutual
theorem fetch_asRead : ∀ (k : XmlTree) (l : Nat), TagNode k → fetchTag (k.asRead l) = (absTag k).trimmed
  | .mk tag as v kids, l, h => by
    simp only [TagNode] at h
    simp only [XmlTree.asRead, absTag, Tag.trimmed]
    obtain ⟨hv, ⟨rfl, rfl, ha⟩ | ⟨rfl, hkn, ha, hk⟩⟩ := h
    · exact fetch_info ha (fun _ h => h) _ _ _ v rfl
    · obtain ⟨k, kids, rfl⟩ := List.exists_cons_of_ne_nil hkn
      rw [fetch_info ha (by decide) _ _ _ [] (by
        simp only [List.isEmpty_cons, Bool.false_eq_true, if_false]; rw [trim_gaps]; rfl)]
      rw [fetch_asReads (k :: kids) (l + 1) hk]
      simp
theorem fetch_asReads : ∀ (ks : List XmlTree) (l : Nat), TagNodes ks → fetchTags (allAsRead l ks) = allTrimmed (absTags ks)
  | [], _, _ => rfl
  | k :: ks, l, h => by
    simp only [TagNodes] at h
    simp only [allAsRead, absTags, allTrimmed, fetchTags]
    rw [fetch_asRead k l h.1, fetch_asReads ks l h.2, if_pos]
    obtain ⟨tag, as, v, kids⟩ := k
    have := h.1
    simp only [TagNode] at this
    rcases this.2 with ⟨rfl, _, _⟩ | ⟨rfl, _, _, _⟩
    · rfl
    · rfl
end

/-! ## Documents -/

/-- A child of the root node: a plain name, and no children unless it holds the common properties. -/
structure DocKid (k : XmlTree) : Prop where
  name : PlainName k.tag
  attrs : GoodAttrs k.attrs
  value : PlainText k.value
  leaf : sameWord tCommon k.tag = false → k.kids = []
  common : sameWord tCommon k.tag = true → ∀ c ∈ k.kids, TagNode c

/-- A comment as the library writes it. -/
structure Doc (t : XmlTree) : Prop where
  name : XmlName t.tag
  attrs : GoodAttrs t.attrs
  value : PlainText t.value
  kids : ∀ k ∈ t.kids, DocKid k

/-- The common properties of a document. -/
def commonsOf (t : XmlTree) : List Tag :=
  match t.kids.find? (·.isTagName tCommon) with
  | none => []
  | some c => c.kids.map absTag

theorem afterColon_none : ∀ {s : Bytes}, 0x3A#8 ∉ s → afterColon s = none
  | [], _ => rfl
  | c :: s, h => by
    rw [afterColon, if_neg (fun hc => h (by simp [hc])), afterColon_none (fun hm => h (List.mem_cons_of_mem _ hm))]

theorem isTagName_plain {t : XmlTree} (h : PlainName t.tag) (tag : Bytes) : t.isTagName tag = sameWord tag t.tag := by
  rw [XmlTree.isTagName, afterColon_none h.2]
  simp

theorem sameWord_iff (a b : Bytes) : sameWord a b = true ↔ a.map lowerByte = b.map lowerByte := by simp [sameWord]

theorem sameWord_refl (a : Bytes) : sameWord a a = true := by simp [sameWord]

theorem sameWord_trans {a b c : Bytes} (h : sameWord a c = true) (h' : sameWord b c = true) : sameWord a b = true := by
  rw [sameWord_iff] at *
  rw [h, h']

theorem sameWord_left {a b : Bytes} (h : sameWord a b = true) (c : Bytes) : sameWord a c = sameWord b c := by
  rw [sameWord_iff] at h
  simp [sameWord, h]

theorem trim_name {s : Bytes} (h : XmlName s) : trim s = s := by
  have hs : ∀ c ∈ s, isSpace c = false := by
    intro c hc
    have hn := h.chars c hc
    simp only [isNameChar, isNameStart, Bool.or_eq_true, Bool.and_eq_true, beq_iff_eq, decide_eq_true_eq] at hn
    simp only [isSpace, Bool.or_eq_false_iff, Bool.and_eq_false_iff, beq_eq_false_iff_ne, decide_eq_false_iff_not, ne_eq,
      BitVec.le_def, ← BitVec.toNat_inj, BitVec.toNat_ofNat] at hn ⊢
    have := c.isLt
    omega
  exact trim_id (fun c hc => hs c (List.mem_of_mem_head? hc)) (fun c hc => hs c (List.mem_of_mem_getLast? hc))

theorem DocKid.good {k : XmlTree} (h : DocKid k) : k.Good := by
  obtain ⟨tag, as, v, kids⟩ := k
  simp only [XmlTree.Good]
  refine ⟨h.name.1, h.attrs, h.value, ?_⟩
  rw [allGood_iff]
  intro c hc
  by_cases hw : sameWord tCommon tag = true
  · exact TagNode.good c (h.common hw c hc)
  · have := h.leaf (show sameWord tCommon tag = false by simpa using hw)
    simp only [XmlTree.kids] at this
    subst this
    simp at hc

theorem Doc.good {t : XmlTree} (h : Doc t) : t.Good := by
  obtain ⟨tag, as, v, kids⟩ := t
  simp only [XmlTree.Good]
  exact ⟨h.name, h.attrs, h.value, (allGood_iff _).2 fun k hk => (h.kids k hk).good⟩

theorem asRead_tag (k : XmlTree) (l : Nat) : (k.asRead l).tag = k.tag := by cases k; simp [XmlTree.asRead, XmlTree.tag]
theorem asRead_attrs (k : XmlTree) (l : Nat) : (k.asRead l).attrs = k.attrs := by cases k; simp [XmlTree.asRead, XmlTree.attrs]
theorem asRead_kids (k : XmlTree) (l : Nat) : (k.asRead l).kids = k.kids.map (XmlTree.asRead (l + 1)) := by
  cases k; simp [XmlTree.asRead, XmlTree.kids, allAsRead_map]
theorem asRead_leaf (k : XmlTree) (l : Nat) (h : k.kids = []) : (k.asRead l).value = k.value := by
  cases k
  simp only [XmlTree.kids] at h
  subst h
  simp [XmlTree.asRead, XmlTree.value]

theorem asRead_isTagName (k : XmlTree) (l : Nat) (tag : Bytes) : (k.asRead l).isTagName tag = k.isTagName tag := by
  simp [XmlTree.isTagName, asRead_tag]

theorem asRead_value_plain {k : XmlTree} (l : Nat) (h : PlainText k.value) : PlainText (k.asRead l).value := by
  obtain ⟨tag, as, v, kids⟩ := k
  simp only [XmlTree.asRead, XmlTree.value]
  split
  · exact h
  · exact gaps_plain _ _

theorem DocKid.asRead {k : XmlTree} (h : DocKid k) (l : Nat) : DocKid (k.asRead l) := by
  constructor
  · rw [asRead_tag]; exact h.name
  · rw [asRead_attrs]; exact h.attrs
  · exact asRead_value_plain l h.value
  · rw [asRead_tag, asRead_kids]
    intro hw
    rw [h.leaf hw]; rfl
  · rw [asRead_tag, asRead_kids]
    intro hw c hc
    obtain ⟨d, hd, rfl⟩ := List.mem_map.1 hc
    exact (asRead_tagNode d _ (h.common hw d hd)).1

theorem Doc.asRead {t : XmlTree} (h : Doc t) : Doc (t.asRead 0) := by
  constructor
  · rw [asRead_tag]; exact h.name
  · rw [asRead_attrs]; exact h.attrs
  · exact asRead_value_plain 0 h.value
  · rw [asRead_kids]
    intro k hk
    obtain ⟨d, hd, rfl⟩ := List.mem_map.1 hk
    exact (h.kids d hd).asRead _

theorem find_asRead (ks : List XmlTree) (l : Nat) (tag : Bytes) :
    (ks.map (XmlTree.asRead l)).find? (·.isTagName tag) = (ks.find? (·.isTagName tag)).map (XmlTree.asRead l) := by
  rw [List.find?_map]
  congr 2
  funext k
  exact asRead_isTagName k l tag

theorem property_asRead {t : XmlTree} (h : Doc t) {tag : Bytes} (hc : sameWord tCommon tag = false) :
    (t.asRead 0).property tag = t.property tag := by
  rw [XmlTree.property, XmlTree.property, asRead_kids, find_asRead]
  cases hf : t.kids.find? (·.isTagName tag) with
  | none => rfl
  | some k =>
    have hk := h.kids k (List.mem_of_find?_eq_some hf)
    have hn := List.find?_some hf
    rw [isTagName_plain hk.name] at hn
    simp only [Option.map_some]
    rw [asRead_leaf]
    refine hk.leaf ?_
    cases hw : sameWord tCommon k.tag with
    | false => rfl
    | true =>
      rw [sameWord_trans hw hn] at hc
      exact absurd hc (by simp)

theorem common_tagNodes {t : XmlTree} (h : Doc t) {c : XmlTree} (hf : t.kids.find? (·.isTagName tCommon) = some c) :
    ∀ k ∈ c.kids, TagNode k := by
  have hk := h.kids c (List.mem_of_find?_eq_some hf)
  have hn := List.find?_some hf
  rw [isTagName_plain hk.name] at hn
  exact hk.common hn

theorem commonsOf_asRead {t : XmlTree} (h : Doc t) : commonsOf (t.asRead 0) = commonsOf t := by
  rw [commonsOf, commonsOf, asRead_kids, find_asRead]
  cases hf : t.kids.find? (·.isTagName tCommon) with
  | none => rfl
  | some c =>
    simp only [Option.map_some]
    rw [asRead_kids, List.map_map]
    refine List.map_congr_left ?_
    intro k hk
    exact (asRead_tagNode k _ (common_tagNodes h hf k hk)).2

theorem commonTags_asRead {t : XmlTree} (h : Doc t) : (t.asRead 0).commonTags = allTrimmed (commonsOf t) := by
  rw [XmlTree.commonTags, commonsOf, asRead_kids, find_asRead]
  cases hf : t.kids.find? (·.isTagName tCommon) with
  | none => rfl
  | some c =>
    simp only [Option.map_some]
    rw [asRead_kids, ← allAsRead_map, fetch_asReads _ _ ((tagNodes_iff _).2 (common_tagNodes h hf)), absTags_map]

theorem find_named {ks : List XmlTree} (h : ∀ k ∈ ks, TagNode k) {p : XmlTree → Bool} {q : Tag → Bool} (l : Nat)
    (hp : ∀ k, TagNode k → p k = q (absTag k)) :
    ((ks.map (XmlTree.asRead l)).find? p).map fetchTag = ((ks.map absTag).find? q).map Tag.trimmed := by
  induction ks with
  | nil => rfl
  | cons k ks ih =>
    have hk := h k (by simp)
    obtain ⟨h1, h2⟩ := asRead_tagNode k l hk
    rw [List.map_cons, List.map_cons, List.find?_cons, List.find?_cons, hp _ h1, h2]
    cases q (absTag k) with
    | true => simp [fetch_asRead k l hk]
    | false => exact ih (fun x hx => h x (by simp [hx]))

theorem commonTag_asRead {t : XmlTree} (h : Doc t) (name : Bytes) :
    (t.asRead 0).commonTag name = (findTag (commonsOf t) name).map Tag.trimmed := by
  rw [XmlTree.commonTag, commonsOf, asRead_kids, find_asRead]
  cases hf : t.kids.find? (·.isTagName tCommon) with
  | none => rfl
  | some c =>
    simp only [Option.map_some]
    rw [asRead_kids]
    have hk := common_tagNodes h hf
    have h1 := find_named hk (p := isNamed tTree name) (q := fun t => t.isTree && sameWord t.info.name name) 2
      (fun k hk => isNamed_tree hk name)
    have h2 := find_named hk (p := isNamed tE name) (q := fun t => !t.isTree && sameWord t.info.name name) 2
      (fun k hk => isNamed_leaf hk name)
    unfold findTag
    cases e1 : (c.kids.map (XmlTree.asRead 2)).find? (isNamed tTree name) <;>
    cases e2 : (c.kids.map (XmlTree.asRead 2)).find? (isNamed tE name) <;>
    cases e3 : (c.kids.map absTag).find? (fun t => t.isTree && sameWord t.info.name name) <;>
    cases e4 : (c.kids.map absTag).find? (fun t => !t.isTree && sameWord t.info.name name) <;>
    rw [e1, e3] at h1 <;> rw [e2, e4] at h2 <;> simp_all

/-! ## Changing a document -/

theorem find_change_same {p : XmlTree → Bool} {new : XmlTree} {f : XmlTree → XmlTree} {ks : List XmlTree}
    (hf : ∀ k, p k = true → p (f k) = true) (hn : p new = true) :
    (changeNode p new f ks).find? p = some (f ((ks.find? p).getD new)) := by
  induction ks with
  | nil => simp [changeNode, hf new hn]
  | cons k ks ih =>
    rw [changeNode]
    by_cases hk : p k = true
    · rw [if_pos hk, List.find?_cons, hf k hk, List.find?_cons, hk]
      rfl
    · rw [if_neg hk, List.find?_cons, List.find?_cons]
      simp only [Bool.not_eq_true] at hk
      rw [hk]
      exact ih

theorem find_change_other {p q : XmlTree → Bool} {new : XmlTree} {f : XmlTree → XmlTree} {ks : List XmlTree}
    (hf : ∀ k ∈ ks, p k = true → q k = false ∧ q (f k) = false) (hn : q (f new) = false) :
    (changeNode p new f ks).find? q = ks.find? q := by
  induction ks with
  | nil => simp [changeNode, hn]
  | cons k ks ih =>
    rw [changeNode]
    by_cases hk : p k = true
    · rw [if_pos hk, List.find?_cons, List.find?_cons, (hf k (by simp) hk).1, (hf k (by simp) hk).2]
    · rw [if_neg hk, List.find?_cons, List.find?_cons, ih (fun x hx => hf x (by simp [hx]))]

theorem mem_change {p : XmlTree → Bool} {new : XmlTree} {f : XmlTree → XmlTree} {ks : List XmlTree} {x : XmlTree}
    (h : x ∈ changeNode p new f ks) : x ∈ ks ∨ (∃ k ∈ ks, p k = true ∧ x = f k) ∨ x = f new := by
  induction ks with
  | nil => simp [changeNode] at h; exact .inr (.inr h)
  | cons k ks ih =>
    rw [changeNode] at h
    by_cases hk : p k = true
    · rw [if_pos hk] at h
      rcases List.mem_cons.1 h with rfl | h
      · exact .inr (.inl ⟨k, by simp, hk, rfl⟩)
      · exact .inl (by simp [h])
    · rw [if_neg hk] at h
      rcases List.mem_cons.1 h with rfl | h
      · exact .inl (by simp)
      · rcases ih h with h | ⟨y, hy, h2⟩ | h
        · exact .inl (by simp [h])
        · exact .inr (.inl ⟨y, by simp [hy], h2⟩)
        · exact .inr (.inr h)

theorem setValue_tag (v : Bytes) (k : XmlTree) : (k.setValue v).tag = k.tag := by cases k; rfl
theorem setValue_isTagName (v : Bytes) (k : XmlTree) (tag : Bytes) : (k.setValue v).isTagName tag = k.isTagName tag := by
  simp [XmlTree.isTagName, setValue_tag]
theorem mapKids_tag (f : List XmlTree → List XmlTree) (k : XmlTree) : (k.mapKids f).tag = k.tag := by cases k; rfl
theorem mapKids_attrs (f : List XmlTree → List XmlTree) (k : XmlTree) : (k.mapKids f).attrs = k.attrs := by cases k; rfl
theorem mapKids_value (f : List XmlTree → List XmlTree) (k : XmlTree) : (k.mapKids f).value = k.value := by cases k; rfl
theorem mapKids_kids (f : List XmlTree → List XmlTree) (k : XmlTree) : (k.mapKids f).kids = f k.kids := by cases k; rfl
theorem mapKids_isTagName (f : List XmlTree → List XmlTree) (k : XmlTree) (tag : Bytes) :
    (k.mapKids f).isTagName tag = k.isTagName tag := by
  simp [XmlTree.isTagName, mapKids_tag]

theorem newNode_plain {tag : Bytes} (h : PlainName tag) : newNode tag = .mk tag [] [] [] := by
  rw [newNode, trim_name h.1]

theorem setProperty_doc {t : XmlTree} (h : Doc t) {tag v : Bytes} (ht : PlainName tag) (hv : PlainText v)
    (hc : sameWord tCommon tag = false) : Doc (t.setProperty tag v) := by
  rw [XmlTree.setProperty]
  constructor
  · rw [mapKids_tag]; exact h.name
  · rw [mapKids_attrs]; exact h.attrs
  · rw [mapKids_value]; exact h.value
  · rw [mapKids_kids]
    intro k hk
    rcases mem_change hk with hk | ⟨x, hx, hp, rfl⟩ | rfl
    · exact h.kids k hk
    · have hk := h.kids x hx
      obtain ⟨tg, as, w, kids⟩ := x
      exact ⟨hk.name, hk.attrs, hv, hk.leaf, hk.common⟩
    · rw [newNode_plain ht]
      refine ⟨ht, ⟨by simp [XmlTree.setValue, XmlTree.attrs], by intro a ha; simp [XmlTree.setValue, XmlTree.attrs] at ha⟩, hv,
        fun _ => rfl, ?_⟩
      intro hw
      rw [show ((XmlTree.mk tag [] [] []).setValue v).tag = tag from rfl, hc] at hw
      exact absurd hw (by simp)

theorem property_set_same (t : XmlTree) {tag tag' v : Bytes} (ht : PlainName tag) (h : Doc t) (hs : sameWord tag' tag = true) :
    (t.setProperty tag v).property tag' = trim v := by
  rw [XmlTree.property, XmlTree.setProperty, mapKids_kids]
  have hp : ∀ k : XmlTree, (0x3A#8 ∉ k.tag) → k.isTagName tag' = k.isTagName tag := by
    intro k hk
    rw [XmlTree.isTagName, XmlTree.isTagName, afterColon_none hk, sameWord_left hs]
  have hfind : ∀ ks : List XmlTree, (∀ k ∈ ks, 0x3A#8 ∉ k.tag) → ks.find? (·.isTagName tag') = ks.find? (·.isTagName tag) := by
    intro ks
    induction ks with
    | nil => intro _; rfl
    | cons k ks ih =>
      intro hk
      rw [List.find?_cons, List.find?_cons, hp k (hk k (by simp)), ih (fun x hx => hk x (by simp [hx]))]
  rw [hfind, find_change_same]
  · simp only
    cases (t.kids.find? (·.isTagName tag)).getD (newNode tag)
    rfl
  · intro k hk
    rw [setValue_isTagName]; exact hk
  · rw [newNode_plain ht, XmlTree.isTagName]
    simp [XmlTree.tag, sameWord_refl]
  · intro k hk
    rcases mem_change hk with hk | ⟨x, hx, _, rfl⟩ | rfl
    · exact (h.kids k hk).name.2
    · rw [setValue_tag]; exact (h.kids x hx).name.2
    · rw [setValue_tag, newNode_plain ht]; exact ht.2

theorem find_set_other {t : XmlTree} (h : Doc t) {tag tag' v : Bytes} (ht : PlainName tag) (hs : sameWord tag' tag = false) :
    (t.setProperty tag v).kids.find? (·.isTagName tag') = t.kids.find? (·.isTagName tag') := by
  rw [XmlTree.setProperty, mapKids_kids, find_change_other]
  · intro k hk hp
    rw [setValue_isTagName]
    rw [isTagName_plain (h.kids k hk).name] at hp ⊢
    cases hw : sameWord tag' k.tag with
    | false => exact ⟨rfl, rfl⟩
    | true =>
      rw [sameWord_trans hw hp] at hs
      exact absurd hs (by simp)
  · rw [setValue_isTagName, newNode_plain ht, isTagName_plain (t := .mk tag [] [] []) ht]
    exact hs

theorem property_set_other {t : XmlTree} (h : Doc t) {tag tag' v : Bytes} (ht : PlainName tag) (hs : sameWord tag' tag = false) :
    (t.setProperty tag v).property tag' = t.property tag' := by
  rw [XmlTree.property, find_set_other h ht hs, XmlTree.property]

theorem commonsOf_set {t : XmlTree} (h : Doc t) {tag v : Bytes} (ht : PlainName tag) (hs : sameWord tCommon tag = false) :
    commonsOf (t.setProperty tag v) = commonsOf t := by
  rw [commonsOf, find_set_other h ht hs, commonsOf]

theorem plainName_common : PlainName tCommon := ⟨⟨_, _, rfl, by decide, by decide⟩, by decide⟩
theorem plainName_tx : PlainName tTX := ⟨⟨_, _, rfl, by decide, by decide⟩, by decide⟩

theorem addCommon_kids (t : XmlTree) (tags : List Tag) :
    (t.addCommon tags).kids = changeNode (·.isTagName tCommon) (newNode tCommon) (·.mapKids (insAll tags)) t.kids := by
  rw [XmlTree.addCommon, mapKids_kids]
  congr 1
  funext k
  exact insertTags_kids tags k

theorem addCommon_doc {t : XmlTree} (h : Doc t) {tags : List Tag} (ht : AllPlain tags) : Doc (t.addCommon tags) := by
  constructor
  · rw [XmlTree.addCommon, mapKids_tag]; exact h.name
  · rw [XmlTree.addCommon, mapKids_attrs]; exact h.attrs
  · rw [XmlTree.addCommon, mapKids_value]; exact h.value
  · rw [addCommon_kids]
    intro k hk
    rcases mem_change hk with hk | ⟨x, hx, hp, rfl⟩ | rfl
    · exact h.kids k hk
    · have hk := h.kids x hx
      rw [isTagName_plain hk.name] at hp
      refine ⟨?_, ?_, ?_, ?_, ?_⟩
      · rw [mapKids_tag]; exact hk.name
      · rw [mapKids_attrs]; exact hk.attrs
      · rw [mapKids_value]; exact hk.value
      · rw [mapKids_tag, hp]; intro hw; exact absurd hw (by simp)
      · rw [mapKids_kids]
        intro _
        exact (insAll_abs tags ht x.kids (hk.common hp)).1
    · rw [newNode_plain plainName_common]
      refine ⟨plainName_common, ⟨by simp [XmlTree.mapKids, XmlTree.attrs], by intro a ha; simp [XmlTree.mapKids, XmlTree.attrs] at ha⟩,
        by intro c hc; simp [XmlTree.mapKids, XmlTree.value] at hc, ?_, ?_⟩
      · intro hw
        exact absurd (show sameWord tCommon tCommon = false from hw) (by decide)
      · intro _
        exact (insAll_abs tags ht [] (by simp)).1

theorem property_addCommon {t : XmlTree} (h : Doc t) {tags : List Tag} {tag : Bytes} (hc : sameWord tCommon tag = false) :
    (t.addCommon tags).property tag = t.property tag := by
  rw [XmlTree.property, addCommon_kids, find_change_other, XmlTree.property]
  · intro k hk hp
    rw [mapKids_isTagName]
    rw [isTagName_plain (h.kids k hk).name] at hp ⊢
    cases hw : sameWord tag k.tag with
    | false => exact ⟨rfl, rfl⟩
    | true =>
      rw [sameWord_trans hp hw] at hc
      exact absurd hc (by simp)
  · rw [mapKids_isTagName, newNode_plain plainName_common, isTagName_plain (t := .mk tCommon [] [] []) plainName_common]
    cases hw : sameWord tag tCommon with
    | false => exact hw
    | true =>
      rw [sameWord_trans (sameWord_refl tCommon) hw] at hc
      exact absurd hc (by simp)

theorem commonsOf_add {t : XmlTree} (h : Doc t) {tags : List Tag} (ht : AllPlain tags) :
    commonsOf (t.addCommon tags) = addTags tags (commonsOf t) := by
  rw [commonsOf, addCommon_kids, find_change_same]
  · simp only
    rw [mapKids_kids, commonsOf]
    cases hf : t.kids.find? (·.isTagName tCommon) with
    | none => exact (insAll_abs tags ht [] (by simp)).2.1
    | some c => exact (insAll_abs tags ht c.kids (common_tagNodes h hf)).2.1
  · intro k hk
    rw [mapKids_isTagName]; exact hk
  · rw [newNode_plain plainName_common, isTagName_plain (t := .mk tCommon [] [] []) plainName_common]
    exact sameWord_refl _

/-! ## Control characters -/

/-- A control character other than tab and line end. -/
def IsControl (c : Byte) : Prop := c < 0x20#8 ∧ c ≠ 0x09#8 ∧ c ≠ 0x0A#8 ∧ c ≠ 0x0D#8

/-- The parser cannot accept the text any more. -/
def Stuck (s : XmlSt) : Prop :=
  s.mode = .bad ∨ (∃ e, s.mode = .textEnt e ∧ ∃ c ∈ e, IsControl c) ∨ ∃ n as k q v e, s.mode = .attrEnt n as k q v e ∧ ∃ c ∈ e, IsControl c

theorem IsControl.facts {c : Byte} (h : IsControl c) : c ≠ 0x3C#8 ∧ c ≠ 0x26#8 ∧ c ≠ 0x3E#8 ∧ c ≠ 0x2F#8 ∧ c ≠ 0x3D#8 ∧ c ≠ 0x27#8 ∧
    c ≠ 0x22#8 ∧ c ≠ 0x3B#8 ∧ isXmlBlank c = false ∧ isXmlChar c = false ∧ isNameStart c = false ∧ isNameChar c = false := by
  obtain ⟨h1, h2, h3, h4⟩ := h
  simp only [isXmlBlank, isXmlChar, isNameChar, isNameStart, Bool.or_eq_false_iff, Bool.and_eq_false_iff, beq_eq_false_iff_ne,
    decide_eq_false_iff_not, ne_eq, BitVec.le_def, BitVec.lt_def, ← BitVec.toNat_inj, BitVec.toNat_ofNat] at *
  omega

theorem entityByte_control {e : Bytes} (h : ∃ c ∈ e, IsControl c) : entityByte e = none := by
  obtain ⟨c, hc, h⟩ := h
  have hn : ∀ l : Bytes, (∀ d ∈ l, 0x20#8 ≤ d) → e ≠ l := by
    rintro l hl rfl
    have := hl c hc
    have := h.1
    simp only [BitVec.le_def, BitVec.lt_def] at *
    omega
  unfold entityByte
  rw [if_neg (hn _ (by decide)), if_neg (hn _ (by decide)), if_neg (hn _ (by decide)), if_neg (hn _ (by decide)),
    if_neg (hn _ (by decide))]

theorem stuck_step {s : XmlSt} (h : Stuck s) (c : Byte) : Stuck (s.step c) := by
  obtain ⟨m, st, r⟩ := s
  rcases h with h | ⟨e, h, he⟩ | ⟨n, as, k, q, v, e, h, he⟩
  · simp only at h
    subst h
    exact .inl rfl
  · simp only at h
    subst h
    simp only [XmlSt.step]
    split
    · rw [entityByte_control he]
      exact .inl rfl
    · obtain ⟨x, hx, hc⟩ := he
      exact .inr (.inl ⟨_, rfl, x, by simp [hx], hc⟩)
  · simp only at h
    subst h
    simp only [XmlSt.step]
    split
    · rw [entityByte_control he]
      exact .inl rfl
    · obtain ⟨x, hx, hc⟩ := he
      exact .inr (.inr ⟨_, _, _, _, _, _, rfl, x, by simp [hx], hc⟩)

theorem control_step (s : XmlSt) {c : Byte} (h : IsControl c) (hq : ∀ n as k q v, s.mode = .attrVal n as k q v → c ≠ q) :
    Stuck (s.step c) := by
  obtain ⟨f1, f2, f3, f4, f5, f6, f7, f8, f9, f10, f11, f12⟩ := h.facts
  obtain ⟨m, st, r⟩ := s
  cases m
  case textEnt e =>
    refine .inr (.inl ⟨e ++ [c], ?_, c, by simp, h⟩)
    simp [XmlSt.step, f8]
  case attrEnt n as k q v e =>
    refine .inr (.inr ⟨n, as, k, q, v, e ++ [c], ?_, c, by simp, h⟩)
    simp [XmlSt.step, f8]
  case attrVal n as k q v =>
    have := hq n as k q v rfl
    refine .inl ?_
    simp [XmlSt.step, this, f1, f2, f9, f10, XmlSt.fail]
  all_goals (refine .inl ?_; simp [XmlSt.step, XmlSt.tagRest, XmlSt.fail, f1, f2, f3, f4, f5, f6, f7, f9, f10, f11, f12])

/-- The quote of an attribute is one of the two quotes. -/
def QuoteOk (s : XmlSt) : Prop :=
  match s.mode with
  | .attrVal _ _ _ q _ => q = 0x27#8 ∨ q = 0x22#8
  | .attrEnt _ _ _ q _ _ => q = 0x27#8 ∨ q = 0x22#8
  | _ => True

theorem quote_fail (s : XmlSt) : QuoteOk s.fail := trivial

theorem quote_tagRest (s : XmlSt) (n : Bytes) (as : List (Bytes × Bytes)) (c : Byte) : QuoteOk (s.tagRest n as c) := by
  unfold XmlSt.tagRest
  repeat' split
  all_goals trivial

theorem quote_text (s : XmlSt) (c : Byte) : QuoteOk (s.text c) := by
  unfold XmlSt.text
  split <;> trivial

theorem quote_add (st : List XmlOpen) (r : Option XmlTree) (t : XmlTree) : QuoteOk (XmlSt.add st r t) := by
  unfold XmlSt.add
  split <;> trivial

theorem quote_step {s : XmlSt} (h : QuoteOk s) (c : Byte) : QuoteOk (s.step c) := by
  obtain ⟨m, st, r⟩ := s
  cases m <;> simp only [XmlSt.step]
  case attrVal n as k q v =>
    repeat' split
    all_goals first | trivial | exact h
  case attrEnt n as k q v e =>
    repeat' split
    all_goals first | trivial | exact h
  case attrEq n as k =>
    split
    · assumption
    · trivial
  case endName n =>
    repeat' split
    · trivial
    · unfold XmlSt.endTag
      repeat' split
      · trivial
      · exact quote_add _ _ _
      · trivial
    · trivial
  all_goals (repeat' split)
  all_goals first | trivial | exact quote_tagRest _ _ _ _ | exact quote_text _ _ | exact quote_add _ _ _

theorem run_control (text : Bytes) : ∀ s : XmlSt, QuoteOk s → (∃ c ∈ text, IsControl c) ∨ Stuck s → Stuck (s.run text) := by
  induction text with
  | nil =>
    intro s _ h
    rcases h with ⟨c, hc, _⟩ | h
    · simp at hc
    · exact h
  | cons d text ih =>
    intro s hq h
    rw [XmlSt.run_cons]
    refine ih _ (quote_step hq d) ?_
    rcases h with ⟨c, hc, hcc⟩ | h
    · rcases List.mem_cons.1 hc with rfl | hc
      · refine .inr (control_step s hcc ?_)
        intro n as k q v hm
        unfold QuoteOk at hq
        rw [hm] at hq
        rcases hq with rfl | rfl
        · exact hcc.facts.2.2.2.2.2.1
        · exact hcc.facts.2.2.2.2.2.2.1
      · exact .inl ⟨c, hc, hcc⟩
    · exact .inr (stuck_step h d)

theorem lineEnds_control {c : Byte} (hc : IsControl c) : ∀ {s : Bytes}, c ∈ s → c ∈ lineEnds s
  | [], h => by simp at h
  | [d], h => by
    have hd : c = d := by simpa using h
    subst hd
    rw [lineEnds, if_neg hc.2.2.2]
    simp
  | d :: e :: s, h => by
    rw [lineEnds]
    rcases List.mem_cons.1 h with rfl | h
    · rw [if_neg hc.2.2.2]
      simp
    · have := lineEnds_control hc h
      split
      · split
        · exact this
        · exact List.mem_cons_of_mem _ this
      · exact List.mem_cons_of_mem _ this

theorem parse_control {s : Bytes} {c : Byte} (h : c ∈ s) (hc : IsControl c) : xmlParse s = none := by
  have := run_control (lineEnds s) XmlSt.init trivial (.inl ⟨c, lineEnds_control hc h, hc⟩)
  unfold xmlParse
  rcases this with h | ⟨e, h, _⟩ | ⟨n, as, k, q, v, e, h, _⟩ <;> rw [h]

theorem escByte_mem_control {c : Byte} (h : IsControl c) : c ∈ escByte c := by
  obtain ⟨f1, f2, f3, f4, f5, f6, f7, _⟩ := h.facts
  rw [escByte_other f1 f3 f2 f7 f6]
  simp

theorem text_mem_control {t k : XmlTree} (hk : k ∈ t.kids) (hl : k.kids = []) {c : Byte} (hc : c ∈ k.value) (h : IsControl c) :
    c ∈ t.text := by
  have h1 : c ∈ xmlString k.value := List.mem_flatMap.2 ⟨c, hc, escByte_mem_control h⟩
  have h2 : ∀ level, c ∈ k.write level := by
    intro level
    obtain ⟨tag, as, v, kids⟩ := k
    simp only [XmlTree.kids] at hl
    subst hl
    simp only [XmlTree.value] at hc h1
    rw [XmlTree.write, if_neg, if_pos (by rfl)]
    · simp [h1]
    · cases v with
      | nil => simp at hc
      | cons => simp
  have h3 : ∀ (ks : List XmlTree) level, k ∈ ks → c ∈ writeNodes level ks := by
    intro ks level
    induction ks with
    | nil => simp
    | cons x ks ih =>
      intro hx
      rw [writeNodes]
      rcases List.mem_cons.1 hx with rfl | hx
      · exact List.mem_append.2 (.inl (h2 level))
      · exact List.mem_append.2 (.inr (ih hx))
  obtain ⟨tag, as, v, kids⟩ := t
  simp only [XmlTree.kids] at hk
  rw [XmlTree.text, XmlTree.write]
  have hne : kids.isEmpty = false := by cases kids <;> simp_all
  rw [if_neg (by simp [hne]), if_neg (by simp [hne])]
  have := h3 kids 1 hk
  simp [this]

theorem noZero_text {t : XmlTree} (h : t.Good) : ∀ c ∈ t.text, c ≠ 0#8 := by
  rintro c hc rfl
  have := parse_control hc (by unfold IsControl; decide)
  rw [parse_text h] at this
  exact absurd this (by simp)

theorem reopened_text {t : XmlTree} (h : t.Good) : reopened t.text = t.body 0 := by
  rw [← trim_text, reopened]
  unfold readStr
  have := readStrLoop_write t.text [] [] (t.text.length + 1)
  rw [List.append_nil] at this
  rw [this, List.take_of_length_le (by omega), takeWhile_all (noZero_text h)]
  simp

theorem reopened_body {t : XmlTree} (h : t.Good) : reopened (t.body 0) = t.body 0 := by
  have hz : ∀ c ∈ t.body 0, c ≠ 0#8 := fun c hc => noZero_text h c (by rw [text_body]; simp [hc])
  rw [reopened]
  unfold readStr
  have := readStrLoop_write (t.body 0) [] [] ((t.body 0).length + 1)
  rw [List.append_nil] at this
  rw [this, List.take_of_length_le (by omega), takeWhile_all hz, List.nil_append]
  show trim (t.body 0) = t.body 0
  rw [trim_id]
  · intro c hc
    rw [body_head] at hc
    simp only [Option.mem_def, Option.some.injEq] at hc
    subst hc; decide
  · intro c hc
    rw [body_last] at hc
    simp only [Option.mem_def, Option.some.injEq] at hc
    subst hc; decide

/-! ## Histories -/

/-- The XML text `s` was written for the document `u`, and perhaps saved and read since. -/
structure Snip (s : Bytes) (u : XmlTree) : Prop where
  doc : Doc u
  text : s = u.text ∨ s = u.body 0

theorem Snip.parse {s : Bytes} {u : XmlTree} (h : Snip s u) : xmlParse s = some (u.asRead 0) := by
  rcases h.text with rfl | rfl
  · exact parse_text h.doc.good
  · exact parse_body h.doc.good

theorem Snip.reopen {s : Bytes} {u : XmlTree} (h : Snip s u) : Snip (reopened s) u := by
  refine ⟨h.doc, .inr ?_⟩
  rcases h.text with rfl | rfl
  · exact reopened_text h.doc.good
  · exact reopened_body h.doc.good

theorem addTags_append (a b ts : List Tag) : addTags (a ++ b) ts = addTags b (addTags a ts) := by
  induction a generalizing ts with
  | nil => rw [List.nil_append, addTags]
  | cons x a ih => rw [List.cons_append, addTags, ih, addTags]

theorem runMeta_snip (ops : List MetaOp) : ∀ (s : Bytes) (u : XmlTree), Snip s u → (∀ op ∈ ops, op.Ok) →
    ∃ s' u', runMeta ops s = some s' ∧ Snip s' u' ∧
      (∀ tag, TextTag tag → u'.property tag = ((lastText tag ops).map trim).getD (u.property tag)) ∧
      commonsOf u' = addTags (setTags ops) (commonsOf u) := by
  induction ops with
  | nil => exact fun s u h _ => ⟨s, u, rfl, h, fun _ _ => rfl, by rw [setTags, addTags]⟩
  | cons op ops ih =>
    intro s u h hok
    have hop := hok op (by simp)
    have hops : ∀ o ∈ ops, o.Ok := fun o ho => hok o (by simp [ho])
    cases op with
    | text tag v =>
      obtain ⟨⟨hn, hc⟩, hv⟩ := hop
      have hd := setProperty_doc h.doc.asRead hn hv hc
      obtain ⟨s', u', h1, h2, h3, h4⟩ := ih _ _ ⟨hd, .inl rfl⟩ hops
      refine ⟨s', u', ?_, h2, ?_, ?_⟩
      · rw [runMeta, MetaOp.run, stringSet, h.parse]
        exact h1
      · intro tag' ht'
        rw [h3 tag' ht', lastText]
        cases lastText tag' ops with
        | some w => rfl
        | none =>
          by_cases hs : sameWord tag' tag = true
          · rw [property_set_same _ hn h.doc.asRead hs, if_pos hs]
            rfl
          · rw [property_set_other h.doc.asRead hn (by simpa using hs), if_neg hs, property_asRead h.doc ht'.2]
            rfl
      · rw [h4, commonsOf_set h.doc.asRead hn hc, commonsOf_asRead h.doc]
        rfl
    | tags l =>
      have hd := addCommon_doc h.doc.asRead hop
      obtain ⟨s', u', h1, h2, h3, h4⟩ := ih _ _ ⟨hd, .inl rfl⟩ hops
      refine ⟨s', u', ?_, h2, ?_, ?_⟩
      · rw [runMeta, MetaOp.run, commonSet, h.parse]
        exact h1
      · intro tag' ht'
        rw [h3 tag' ht', property_addCommon h.doc.asRead ht'.2, property_asRead h.doc ht'.2]
        rfl
      · rw [h4, commonsOf_add h.doc.asRead hop, commonsOf_asRead h.doc, setTags, addTags_append]
    | reopen =>
      obtain ⟨s', u', h1, h2, h3, h4⟩ := ih _ _ h.reopen hops
      exact ⟨s', u', h1, h2, h3, h4⟩

theorem Snip.stringGet {s : Bytes} {u : XmlTree} (h : Snip s u) {tag : Bytes} (ht : TextTag tag) :
    Mdf.stringGet s tag = u.property tag := by
  rw [Mdf.stringGet, h.parse]
  exact property_asRead h.doc ht.2

theorem Snip.commonList {s : Bytes} {u : XmlTree} (h : Snip s u) : Mdf.commonList s = some (allTrimmed (commonsOf u)) := by
  rw [Mdf.commonList, h.parse]
  simp [commonTags_asRead h.doc]

theorem Snip.commonGet {s : Bytes} {u : XmlTree} (h : Snip s u) (name : Bytes) :
    Mdf.commonGet s name = (findTag (commonsOf u) name).map Tag.trimmed := by
  rw [Mdf.commonGet, h.parse]
  simp [commonTag_asRead h.doc]

/-- A root node without children. -/
theorem doc_new {tag : Bytes} (h : XmlName tag) : Doc (newNode tag) := by
  rw [newNode, trim_name h]
  exact ⟨h, ⟨by simp [XmlTree.attrs], by intro a ha; simp [XmlTree.attrs] at ha⟩, by intro c hc; simp [XmlTree.value] at hc,
    by intro k hk; simp [XmlTree.kids] at hk⟩

theorem property_new {tag : Bytes} (t : Bytes) : (newNode tag).property t = [] := rfl

theorem textTag_tx : TextTag tTX := ⟨plainName_tx, by decide⟩

theorem plainText_trim {s : Bytes} (h : PlainText s) : PlainText (trim s) := by
  obtain ⟨pre, post, he, _, _⟩ := trim_split s
  intro c hc
  exact h c (by rw [he]; simp [hc])

theorem trim_trim (s : Bytes) : trim (trim s) = trim s := trim_id (trim_head s) (trim_last s)

theorem createMd_snip {bt : Bytes} (hb : XmlName (bt ++ tHdComment.drop 2)) {c : BlkComment}
    (hc : c = .none ∨ ∃ s, c = .tx s ∧ PlainText s) :
    ∃ u, Snip (createMd bt c) u ∧ commonsOf u = [] ∧
      ∀ tag, TextTag tag → u.property tag = if sameWord tag tTX then startText bt c else [] := by
  have hn := doc_new hb
  have hset : ∀ (u : XmlTree) (v : Bytes), Doc u → PlainText v → Doc (u.setProperty tTX v) :=
    fun u v hu hv => setProperty_doc hu plainName_tx hv (by decide)
  have h0 : PlainText [] := by intro c hc; simp at hc
  have hcn : commonsOf (newNode (bt ++ tHdComment.drop 2)) = [] := rfl
  have htx : ∀ (u : XmlTree) (v tag : Bytes), Doc u → (∀ t, sameWord t tTX = false → u.property t = []) →
      (u.setProperty tTX v).property tag = if sameWord tag tTX then trim v else [] := by
    intro u v tag hu ht
    by_cases hs : sameWord tag tTX = true
    · rw [property_set_same u plainName_tx hu hs, if_pos hs]
    · rw [property_set_other hu plainName_tx (by simpa using hs), if_neg hs]
      exact ht tag (by simpa using hs)
  rcases hc with rfl | ⟨s, rfl, hs⟩
  · by_cases hb2 : bt = [0x48#8, 0x44#8]
    · refine ⟨_, ⟨hset _ [] hn h0, .inl ?_⟩, ?_, ?_⟩
      · rw [createMd, if_pos hb2]
      · rw [commonsOf_set hn plainName_tx (by decide), hcn]
      · intro tag _
        rw [htx _ _ _ hn (fun _ _ => rfl), startText, if_pos hb2]
        rfl
    · refine ⟨_, ⟨hn, .inl ?_⟩, hcn, ?_⟩
      · rw [createMd, if_neg hb2]
      · intro tag _
        rw [startText, if_neg hb2, property_new]
        split <;> rfl
  · have hd1 := hset _ _ hn (plainText_trim hs)
    by_cases hb2 : bt = [0x48#8, 0x44#8]
    · refine ⟨_, ⟨hset _ [] hd1 h0, .inl ?_⟩, ?_, ?_⟩
      · rw [createMd, if_pos hb2]
      · rw [commonsOf_set hd1 plainName_tx (by decide), commonsOf_set hn plainName_tx (by decide), hcn]
      · intro tag _
        rw [htx _ _ _ hd1, startText, if_pos hb2]
        · rfl
        · intro t ht
          rw [htx _ _ _ hn (fun _ _ => rfl), if_neg (by simp [ht])]
    · refine ⟨_, ⟨hd1, .inl ?_⟩, ?_, ?_⟩
      · rw [createMd, if_neg hb2]
      · rw [commonsOf_set hn plainName_tx (by decide), hcn]
      · intro tag _
        rw [htx _ _ _ hn (fun _ _ => rfl), startText, if_neg hb2, trim_trim]
        rfl

end Mdf
