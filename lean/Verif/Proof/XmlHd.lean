import Verif.Proof.XmlDoc

namespace Mdf

/-! ## The texts of the header -/

/-- The property that a setter of the header sets. -/
def HdText.tag (f : HdText) (v : Bytes) : Tag := .mk { name := f.key, type := f.type, value := v } []

theorem HdText.key_plain (f : HdText) : f.key ≠ [] ∧ PlainLine f.key := by
  cases f <;> exact ⟨by decide, by unfold PlainLine; decide⟩

theorem HdText.type_plain (f : HdText) : f.type.isEmpty = false ∧ PlainLine f.type := by
  cases f <;> exact ⟨by decide, by unfold PlainLine; decide⟩

theorem HdText.key_inj (f g : HdText) : sameWord f.key g.key = decide (f = g) := by
  cases f <;> cases g <;> decide

theorem HdText.tag_plain (f : HdText) {v : Bytes} (h : PlainText v) : AllPlain [f.tag v] := by
  have h0 : PlainLine [] := by intro c hc; simp at hc
  simp only [AllPlain, HdText.tag, Tag.Plain, TagInfo.Plain]
  exact ⟨⟨⟨f.key_plain.1, f.key_plain.2, h0, h0, h0, f.type_plain.2, h0, h⟩, trivial⟩, trivial⟩

/-- The first step of a setter, a node for the text, is the same as to set the text to what it is. -/
theorem add_tx (ks : List XmlTree) :
    changeNode (·.isTagName tTX) (newNode tTX) id ks =
    changeNode (·.isTagName tTX) (newNode tTX) (·.setValue (((ks.find? (·.isTagName tTX)).map XmlTree.value).getD [])) ks := by
  induction ks with
  | nil => rfl
  | cons k ks ih =>
    rw [changeNode, changeNode, List.find?_cons]
    cases hk : k.isTagName tTX with
    | true =>
      obtain ⟨tag, as, v, kids⟩ := k
      rfl
    | false => simp only [Bool.false_eq_true, if_false]; rw [ih]

theorem setHd_tree (f : HdText) (v : Bytes) (root : XmlTree) :
    (root.mapKids (changeNode (·.isTagName tTX) (newNode tTX) id)).mapKids
      (changeNode (·.isTagName tCommon) (newNode tCommon) (·.mapKids (changeNode (isNamed tE f.key) (namedNode tE f.key)
        (fun t => (t.setAttribute kType f.type).setValue v)))) =
    (root.setProperty tTX (((root.kids.find? (·.isTagName tTX)).map XmlTree.value).getD [])).addCommon [f.tag v] := by
  obtain ⟨tag, as, w, kids⟩ := root
  simp only [XmlTree.mapKids, XmlTree.setProperty, XmlTree.addCommon, XmlTree.kids, add_tx]
  congr 2
  funext t
  have hk : f.key.isEmpty = false := by have := f.key_plain.1; cases h : f.key <;> simp_all
  simp only [insertTags, insertTag, HdText.tag, hk, List.isEmpty_nil, Bool.false_eq_true, if_false, if_true]
  rw [show setLeaf { name := f.key, type := f.type, value := v } = fun t => (t.setAttribute kType f.type).setValue v from ?_]
  · cases t; rfl
  · funext t
    simp [setLeaf, setText, setCreator, f.type_plain.1]

theorem Doc.retag {t : XmlTree} (h : Doc t) : Doc (.mk tHdComment t.attrs t.value t.kids) :=
  ⟨⟨_, _, rfl, by decide, by decide⟩, h.attrs, h.value, h.kids⟩

theorem property_retag (t : XmlTree) (n tag : Bytes) : (XmlTree.mk n t.attrs t.value t.kids).property tag = t.property tag := rfl
theorem commonsOf_retag (t : XmlTree) (n : Bytes) : commonsOf (XmlTree.mk n t.attrs t.value t.kids) = commonsOf t := rfl

/-- The value of a property of the header in a list of properties. -/
def hdValue (ts : List Tag) (f : HdText) : Bytes :=
  ((ts.find? (fun t => !t.isTree && sameWord t.info.name f.key)).map fun t => trim t.info.value).getD []

theorem hdValue_cons (t : Tag) (ts : List Tag) (f : HdText) :
    hdValue (t :: ts) f = if t.isTree = false ∧ sameWord t.info.name f.key = true then trim t.info.value else hdValue ts f := by
  rw [hdValue, List.find?_cons]
  cases h1 : t.isTree <;> cases h2 : sameWord t.info.name f.key <;> simp [hdValue]

theorem hdValue_changeFirst (i : TagInfo) (f : HdText) (ts : List Tag) :
    hdValue (changeFirst (fun o => sameTag o (.mk i [])) (.mk { name := i.name } []) (fun o => .mk (mergeInfo o.info i) []) ts) f =
    if sameWord i.name f.key then trim i.value else hdValue ts f := by
  have hl : ∀ (j : TagInfo), (Tag.mk j []).isTree = false := fun _ => rfl
  have hi : ∀ (j : TagInfo) l, (Tag.mk j l).info = j := fun _ _ => rfl
  induction ts with
  | nil =>
    rw [changeFirst, hdValue_cons, hl, hi, hi]
    simp [mergeInfo]
  | cons t ts ih =>
    rw [changeFirst]
    by_cases hs : sameTag t (.mk i []) = true
    · rw [if_pos hs, hdValue_cons, hdValue_cons, hl, hi]
      have ht : t.isTree = false ∧ sameWord t.info.name i.name = true := by
        simpa [sameTag, hl, hi] using hs
      rw [show (mergeInfo t.info i).name = t.info.name from rfl, show (mergeInfo t.info i).value = i.value from rfl,
        sameWord_left ht.2 f.key, ht.1]
      cases sameWord i.name f.key <;> simp
    · rw [if_neg hs, hdValue_cons, hdValue_cons, ih]
      by_cases hc : t.isTree = false ∧ sameWord t.info.name f.key = true
      · rw [if_pos hc, if_neg, if_pos hc]
        intro hn
        refine hs ?_
        simp only [sameTag, hl, hi, hc.1, sameWord_trans hc.2 hn]
        rfl
      · rw [if_neg hc, if_neg hc]

theorem hdValue_add (g f : HdText) (v : Bytes) (ts : List Tag) :
    hdValue (addTags [g.tag v] ts) f = if f = g then trim v else hdValue ts f := by
  rw [addTags, addTags, HdText.tag, addTag, if_pos (by rfl), hdValue_changeFirst, HdText.key_inj]
  by_cases h : f = g
  · subst h; simp
  · simp [h, Ne.symm h]

theorem trim_body {t : XmlTree} : trim (t.body 0) = t.body 0 := by rw [← trim_text, trim_trim]

theorem Snip.parse_trim {s : Bytes} {u : XmlTree} (h : Snip s u) : xmlParse (trim s) = some (u.asRead 0) := by
  have ht : trim s = u.body 0 := by
    rcases h.text with rfl | rfl
    · exact trim_text _
    · exact trim_body
  rw [ht]
  exact parse_body h.doc.good

theorem Snip.head {s : Bytes} {u : XmlTree} (h : Snip s u) : s.head? = some 0x3C#8 := by
  have := body_head u 0
  rcases h.text with rfl | rfl
  · rw [text_body, List.head?_append, this]; rfl
  · exact this

theorem Snip.getHd {s : Bytes} {u : XmlTree} (h : Snip s u) (f : HdText) : Mdf.getHd f (.md s) = some (hdValue (commonsOf u) f) := by
  rw [Mdf.getHd, h.parse_trim, Option.map_some, hdValue, commonsOf, asRead_kids, find_asRead]
  cases hf : u.kids.find? (·.isTagName tCommon) with
  | none => rfl
  | some c =>
    simp only [Option.map_some]
    rw [asRead_kids]
    have h2 := find_named (common_tagNodes h.doc hf) (p := isNamed tE f.key)
      (q := fun t => !t.isTree && sameWord t.info.name f.key) 2 (fun k hk => isNamed_leaf hk f.key)
    have h3 : ∀ x : XmlTree, trim x.value = (fetchTag x).info.value := by rintro ⟨tag, as, v, kids⟩; rw [fetchTag]; rfl
    have h4 : ∀ x : Tag, trim x.info.value = x.trimmed.info.value := by rintro ⟨i, tree⟩; rw [Tag.trimmed]; rfl
    have h5 := congrArg (Option.map fun t : Tag => t.info.value) h2
    simp only [Option.map_map, Function.comp_def, ← h3, ← h4] at h5
    rw [← h5]
    cases (c.kids.map (XmlTree.asRead 2)).find? (isNamed tE f.key) <;> rfl

theorem Snip.getDescription {s : Bytes} {u : XmlTree} (h : Snip s u) : Mdf.getDescription (.md s) = u.property tTX := by
  rw [Mdf.getDescription, if_neg (by simp [h.head]), h.parse]
  exact property_asRead h.doc (by decide)

theorem run_prolog {s : Bytes} (h : 0x3C#8 ∉ s) : ∀ st : XmlSt, (st.mode = .prolog ∨ st.mode = .bad) →
    (st.run s).mode = .prolog ∨ (st.run s).mode = .bad := by
  induction s with
  | nil => exact fun st hs => hs
  | cons c s ih =>
    intro st hs
    rw [XmlSt.run, List.foldl_cons]
    refine ih (fun hm => h (List.mem_cons_of_mem _ hm)) _ ?_
    rw [XmlSt.step.eq_def]
    rcases hs with hs | hs
    · rw [hs]
      dsimp only
      rw [if_neg (fun hc => h (by simp [hc]))]
      split
      · exact .inl hs
      · exact .inr rfl
    · rw [hs]; exact .inr hs

theorem lineEnds_lt : ∀ {s : Bytes}, 0x3C#8 ∉ s → 0x3C#8 ∉ lineEnds s
  | [], h => h
  | [c], h => by
    rw [lineEnds]
    split
    · decide
    · exact h
  | c :: d :: s, h => by
    have ih := lineEnds_lt (s := d :: s) (fun hm => h (List.mem_cons_of_mem _ hm))
    rw [lineEnds]
    split
    · split
      · exact ih
      · simp only [List.mem_cons, not_or]
        exact ⟨by decide, ih⟩
    · simp only [List.mem_cons, not_or] at h ⊢
      exact ⟨h.1, ih⟩

theorem parse_plain {s : Bytes} (h : 0x3C#8 ∉ s) : xmlParse s = none := by
  rw [xmlParse]
  rcases run_prolog (lineEnds_lt h) XmlSt.init (.inl rfl) with h1 | h1 <;> rw [h1]

/-- Whether the comment is a document already. -/
def BlkComment.isDoc : BlkComment → Bool
  | .md _ => true
  | _ => false

/-- Whether an operation only saves the file and opens it again. -/
def HdTextOp.isReopen : HdTextOp → Bool
  | .reopen => true
  | _ => false

/-- The comment of a header: still the one it had before the first setting, or a document. -/
def HdState (c : BlkComment) (desc : Bytes) (vals : HdText → Bytes) : Prop :=
  ((c = .none ∧ desc = [] ∨ ∃ s, c = .tx s ∧ 0x3C#8 ∉ s ∧ PlainText s ∧ desc = trim s) ∧ vals = fun _ => []) ∨
  ∃ s u, c = .md s ∧ Snip s u ∧ u.property tTX = desc ∧ vals = hdValue (commonsOf u)

theorem mem_of_trim {s : Bytes} {c : Byte} (h : c ∈ trim s) : c ∈ s := by
  obtain ⟨pre, post, he, _, _⟩ := trim_split s
  rw [he]; simp [h]

theorem reopened_plain {s : Bytes} (h : PlainText s) : reopened s = trim s := by
  have hz : ∀ c ∈ s, c ≠ 0#8 := by
    rintro c hc rfl
    rcases h _ hc with h | h | h <;> exact absurd h (by decide)
  rw [reopened]
  unfold readStr
  have := readStrLoop_write s [] [] (s.length + 1)
  rw [List.append_nil] at this
  rw [this, List.take_of_length_le (by omega), takeWhile_all hz, List.nil_append]

/-- The tree a setter starts from. -/
theorem HdState.root {c : BlkComment} {desc : Bytes} {vals : HdText → Bytes} (h : HdState c desc vals) :
    ∃ u, hdRoot c = some u ∧ Doc u ∧ u.property tTX = (if c.isDoc then desc else []) ∧ hdValue (commonsOf u) = vals := by
  rcases h with ⟨h1, h2⟩ | ⟨s, u, rfl, hs, h1, h2⟩
  · have hn : Doc (newNode tHdComment) := doc_new ⟨_, _, rfl, by decide, by decide⟩
    refine ⟨newNode tHdComment, ?_, hn, ?_, ?_⟩
    · rcases h1 with ⟨rfl, _⟩ | ⟨s, rfl, h3, h4, _⟩
      · rfl
      · rw [hdRoot, parse_plain (fun hm => h3 (mem_of_trim hm)), if_neg (by simpa using h3)]
    · rcases h1 with ⟨rfl, _⟩ | ⟨s, rfl, _⟩ <;> exact property_new _
    · rw [h2]; rfl
  · refine ⟨_, ?_, hs.doc.asRead.retag, ?_, ?_⟩
    · rw [hdRoot, hs.parse_trim]; rfl
    · rw [property_retag, property_asRead hs.doc (by decide), h1]; rfl
    · rw [commonsOf_retag, commonsOf_asRead hs.doc, h2]

theorem HdState.set {c : BlkComment} {desc : Bytes} {vals : HdText → Bytes} (h : HdState c desc vals) (f : HdText) {v : Bytes}
    (hv : PlainText v) : ∃ s, setHd f v c = some (.md s) ∧
      HdState (.md s) (if c.isDoc then desc else []) (fun g => if g = f then trim v else vals g) := by
  obtain ⟨u, h1, h2, h3, h4⟩ := h.root
  rw [setHd, h1, Option.map_some, setHd_tree]
  have hw : PlainText (((u.kids.find? (·.isTagName tTX)).map XmlTree.value).getD []) := by
    cases hf : u.kids.find? (·.isTagName tTX) with
    | none => intro c hc; simp at hc
    | some k => exact (h2.kids k (List.mem_of_find?_eq_some hf)).value
  have hd := setProperty_doc h2 plainName_tx hw (by decide)
  have hd2 := addCommon_doc hd (f.tag_plain hv)
  refine ⟨_, rfl, .inr ⟨_, _, rfl, ⟨hd2, .inl rfl⟩, ?_, ?_⟩⟩
  · rw [property_addCommon hd (by decide), property_set_same u plainName_tx h2 (by decide), ← h3, XmlTree.property]
    cases u.kids.find? (·.isTagName tTX) <;> rfl
  · funext g
    rw [commonsOf_add hd (f.tag_plain hv), commonsOf_set h2 plainName_tx (by decide), hdValue_add, ← h4]

theorem HdState.describe {c : BlkComment} {desc : Bytes} {vals : HdText → Bytes} (h : HdState c desc vals) {v : Bytes}
    (hv : PlainText v) : ∃ s, setDescription v c = some (.md s) ∧ HdState (.md s) (trim v) vals := by
  obtain ⟨u, h1, h2, h3, h4⟩ := h.root
  rw [setDescription, h1, Option.map_some]
  have hd := setProperty_doc h2 plainName_tx hv (by decide)
  refine ⟨_, rfl, .inr ⟨_, _, rfl, ⟨hd, .inl rfl⟩, ?_, ?_⟩⟩
  · exact property_set_same u plainName_tx h2 (by decide)
  · rw [commonsOf_set h2 plainName_tx (by decide), h4]

theorem HdState.reopen {c : BlkComment} {desc : Bytes} {vals : HdText → Bytes} (h : HdState c desc vals) :
    HdState c.reopen desc vals ∧ c.reopen.isDoc = c.isDoc := by
  rcases h with ⟨h1, h2⟩ | ⟨s, u, rfl, hs, h1, h2⟩
  · rcases h1 with ⟨rfl, h3⟩ | ⟨s, rfl, h3, h4, h5⟩
    · exact ⟨.inl ⟨.inl ⟨rfl, h3⟩, h2⟩, rfl⟩
    · rw [BlkComment.reopen, if_neg (fun hh : s.head? = some 0x3C#8 => h3 (List.mem_of_mem_head? hh)), reopened_plain h4]
      refine ⟨.inl ⟨.inr ⟨_, rfl, fun hm => h3 (mem_of_trim hm), plainText_trim h4, ?_⟩, h2⟩, rfl⟩
      rw [trim_trim, h5]
  · rw [BlkComment.reopen, if_pos hs.head]
    exact ⟨.inr ⟨_, u, rfl, hs.reopen, h1, h2⟩, rfl⟩

theorem runHd_state (ops : List HdTextOp) : ∀ (c : BlkComment) (desc : Bytes) (vals : HdText → Bytes), HdState c desc vals →
    (∀ op ∈ ops, op.Ok) → ∃ c', runHd ops c = some c' ∧
      HdState c' (((lastDescription ops).map trim).getD
        (if c.isDoc || ops.all HdTextOp.isReopen then desc else []))
        (fun f => ((lastHd f ops).map trim).getD (vals f)) := by
  induction ops with
  | nil =>
    intro c desc vals h _
    exact ⟨c, rfl, by simpa [lastDescription, lastHd] using h⟩
  | cons op ops ih =>
    intro c desc vals h hok
    have hop := hok op (by simp)
    have hops : ∀ o ∈ ops, o.Ok := fun o ho => hok o (by simp [ho])
    cases op with
    | set f v =>
      obtain ⟨s, h1, h2⟩ := h.set f hop
      obtain ⟨c', h3, h4⟩ := ih _ _ _ h2 hops
      refine ⟨c', ?_, ?_⟩
      · rw [runHd, HdTextOp.run, h1]; exact h3
      · have e1 : ((lastDescription (.set f v :: ops)).map trim).getD
            (if c.isDoc || (HdTextOp.set f v :: ops).all HdTextOp.isReopen then desc else []) =
            ((lastDescription ops).map trim).getD (if (BlkComment.md s).isDoc ||
              ops.all HdTextOp.isReopen then (if c.isDoc then desc else []) else []) := by
          rw [show lastDescription (.set f v :: ops) = lastDescription ops from rfl,
            if_pos (show ((BlkComment.md s).isDoc || _) = true from rfl)]
          cases c <;> simp [BlkComment.isDoc, HdTextOp.isReopen]
        rw [e1]
        have e2 : (fun g => ((lastHd g (.set f v :: ops)).map trim).getD (vals g)) =
            fun g => ((lastHd g ops).map trim).getD (if g = f then trim v else vals g) := by
          funext g
          rw [lastHd]
          cases lastHd g ops with
          | some w => rfl
          | none => by_cases hg : g = f <;> simp [hg]
        rw [e2]
        exact h4
    | describe v =>
      obtain ⟨s, h1, h2⟩ := h.describe hop
      obtain ⟨c', h3, h4⟩ := ih _ _ _ h2 hops
      refine ⟨c', ?_, ?_⟩
      · rw [runHd, HdTextOp.run, h1]; exact h3
      · have e1 : ∀ x, ((lastDescription (.describe v :: ops)).map trim).getD x =
            ((lastDescription ops).map trim).getD (if (BlkComment.md s).isDoc ||
              ops.all HdTextOp.isReopen then trim v else []) := by
          intro x
          rw [lastDescription, if_pos (show ((BlkComment.md s).isDoc || _) = true from rfl)]
          cases lastDescription ops <;> rfl
        rw [e1]
        exact h4
    | reopen =>
      obtain ⟨h1, h2⟩ := h.reopen
      obtain ⟨c', h3, h4⟩ := ih _ _ _ h1 hops
      refine ⟨c', ?_, ?_⟩
      · rw [runHd, HdTextOp.run]; exact h3
      · rw [h2] at h4
        simpa [lastDescription, lastHd, HdTextOp.isReopen] using h4

theorem firstDescription_eq (c : BlkComment) (h : c.isDoc = false) (ops : List HdTextOp) : firstDescription c ops =
    if c.isDoc || ops.all HdTextOp.isReopen then c.plain else [] := by
  rw [h]
  induction ops with
  | nil => rfl
  | cons op ops ih => cases op <;> simp [firstDescription, ih, HdTextOp.isReopen]

end Mdf
