import Verif.Proof.XmlHd

/-!
# C60: metadata and header texts

Texts and common properties set as metadata of a block, and the texts of the header, are kept in an XML text that is read, changed and
written at each setting.
-/

namespace Mdf

/-- **C60**, the XML text: a tree of nodes whose names and texts XML allows is read back from the text written for it, with every name,
attribute and text; only a text of a node with children is lost. -/
theorem C60_tree_read_back {t : XmlTree} (h : t.Good) : xmlParse t.text = some (t.asRead 0) := parse_text h

/-- The characters that have a meaning in XML are replaced in what is written, and are read back. -/
theorem C60_special_characters (tag text : Bytes) (ht : XmlName tag) (h : PlainText text) :
    xmlParse (XmlTree.mk tag [] text []).text = some (.mk tag [] text []) := by
  have hg : (XmlTree.mk tag [] text []).Good := by
    simp only [XmlTree.Good]
    exact ⟨ht, ⟨by simp, by intro a ha; simp at ha⟩, h, by simp only [AllGood]⟩
  rw [parse_text hg, XmlTree.asRead, allAsRead]
  rfl

/-- **C60**, full statement: whatever was set (texts without zero), the getters return the last text of each name and the last property
of each name, also after the file was saved and opened again. -/
def C60_Statement : Prop :=
  ∀ (bt : Bytes) (c : BlkComment) (ops : List MetaOp), (c = .none ∨ ∃ s, c = .tx s ∧ 0#8 ∉ s) →
    (∀ op ∈ ops, (∀ tag v, op = .text tag v → 0#8 ∉ v) ∧ ∀ l, op = .tags l → AllPlain l) →
    ∃ s, runMeta ops (createMd bt c) = some s ∧
      (∀ tag, TextTag tag → stringGet s tag = (lastText tag ops).getD (if sameWord tag tTX then c.plain else [])) ∧
      ∀ name, commonGet s name = (setTags ops).reverse.find? (fun t => sameWord t.info.name name)

/-- **C60**, partial: for every series of settings with texts that hold no control characters but tab and line feed.  Each text is the
last one set with its name, without blanks around it; the common properties are those of the list to which each property was added or,
if there was one of the same name, merged with it.

Missing: other control characters (`C60_control_character`, `C60_carriage_return`), blanks around texts, and properties that are set
a second time (`C60_second_setting`). -/
theorem C60_metadata_partial (bt : Bytes) (hb : XmlName (bt ++ tHdComment.drop 2)) (c : BlkComment)
    (hc : c = .none ∨ ∃ s, c = .tx s ∧ PlainText s) (ops : List MetaOp) (hops : ∀ op ∈ ops, op.Ok) :
    ∃ s, runMeta ops (createMd bt c) = some s ∧
      (∀ tag, TextTag tag →
        stringGet s tag = ((lastText tag ops).map trim).getD (if sameWord tag tTX then startText bt c else [])) ∧
      commonList s = some (allTrimmed (addTags (setTags ops) [])) ∧
      ∀ name, commonGet s name = (findTag (addTags (setTags ops) []) name).map Tag.trimmed := by
  obtain ⟨u, h1, h2, h3⟩ := createMd_snip hb hc
  obtain ⟨s, u', h4, h5, h6, h7⟩ := runMeta_snip ops _ _ h1 hops
  rw [h2] at h7
  refine ⟨s, h4, ?_, ?_, ?_⟩
  · intro tag ht
    rw [h5.stringGet ht, h6 tag ht, h3 tag ht]
  · rw [h5.commonList, h7]
  · intro name
    rw [h5.commonGet, h7]

theorem stored_info_name (t : Tag) : t.stored.info.name = t.info.name := by
  obtain ⟨i, tree⟩ := t
  rw [Tag.stored]
  split <;> rfl

theorem stored_isTree (t : Tag) : t.stored.isTree = t.isTree := by
  obtain ⟨i, tree⟩ := t
  rw [Tag.stored]
  cases tree with
  | nil => rfl
  | cons x xs => simp [Tag.isTree, Tag.tree, allStored]

theorem sameTag_stored (t u : Tag) : sameTag t.stored u = sameTag t u := by
  rw [sameTag, sameTag, stored_info_name, stored_isTree]

theorem changeFirst_none {α : Type} {p : α → Bool} {new : α} {f : α → α} {ts : List α} (h : ∀ o ∈ ts, p o = false) :
    changeFirst p new f ts = ts ++ [f new] := by
  induction ts with
  | nil => rfl
  | cons t ts ih =>
    rw [changeFirst, if_neg (by simp [h t (by simp)]), ih (fun o ho => h o (by simp [ho]))]
    rfl

mutual
theorem addTag_new : ∀ (t : Tag) (acc : List Tag), t.Distinct → (∀ o ∈ acc, sameTag o t = false) → addTag t acc = acc ++ [t.stored]
  | .mk i [], acc, _, h => by
    rw [addTag, if_pos (by rfl), changeFirst_none h, Tag.stored, if_pos (by rfl)]
    simp [mergeInfo, keepOld, Tag.info]
  | .mk i (x :: xs), acc, hd, h => by
    have hd' : AllDistinct (x :: xs) := by rw [Tag.Distinct] at hd; exact hd
    rw [addTag, if_neg (by simp), changeFirst_none h, Tag.stored, if_neg (by simp)]
    rw [show (Tag.mk { name := i.name } []).tree = [] from rfl, addTags_new (x :: xs) [] hd' (by simp), List.nil_append]
    simp [mergeTree, keepOld, Tag.info]
theorem addTags_new : ∀ (ts acc : List Tag), AllDistinct ts → (∀ t ∈ ts, ∀ o ∈ acc, sameTag o t = false) →
    addTags ts acc = acc ++ allStored ts
  | [], acc, _, _ => by rw [addTags, allStored, List.append_nil]
  | t :: ts, acc, hd, h => by
    rw [AllDistinct] at hd
    rw [addTags, addTag_new t acc hd.2.1 (h t (by simp)), addTags_new ts _ hd.2.2, allStored, List.append_assoc]
    · rfl
    · intro u hu o ho
      rcases List.mem_append.1 ho with ho | ho
      · exact h u (by simp [hu]) o ho
      · simp only [List.mem_singleton] at ho
        subst ho
        rw [sameTag_stored]
        exact hd.1 u hu
end

/-- **C60**, properties with names of their own: all of them are read, in the order they were set, with all their values; of a property
with properties below it the name, description and creator. -/
theorem C60_distinct_properties (bt : Bytes) (hb : XmlName (bt ++ tHdComment.drop 2)) (c : BlkComment)
    (hc : c = .none ∨ ∃ s, c = .tx s ∧ PlainText s) (ops : List MetaOp) (hops : ∀ op ∈ ops, op.Ok) (hd : AllDistinct (setTags ops)) :
    ∃ s, runMeta ops (createMd bt c) = some s ∧ commonList s = some (allTrimmed (allStored (setTags ops))) := by
  obtain ⟨s, h1, _, h2, _⟩ := C60_metadata_partial bt hb c hc ops hops
  rw [addTags_new _ _ hd (by simp), List.nil_append] at h2
  exact ⟨s, h1, h2⟩

/-- **C60**, a property that is set a second time: the new value is read, but description, unit, type and language stay as they were
set first, the property stays read-only, and the creator stays. -/
theorem C60_second_setting (bt : Bytes) (hb : XmlName (bt ++ tHdComment.drop 2)) (i j : TagInfo) (hi : i.Plain) (hj : j.Plain)
    (hn : sameWord i.name j.name = true) :
    ∃ s, runMeta [.tags [.mk i []], .tags [.mk j []]] (createMd bt .none) = some s ∧
      commonGet s j.name = some (.mk { name := trim i.name
                                       desc := trim (if i.desc = [] then j.desc else i.desc)
                                       unit := trim (if i.unit = [] then j.unit else i.unit)
                                       unitRef := trim (if i.unitRef = [] then j.unitRef else i.unitRef)
                                       type := trim (if i.type = [] then j.type else i.type)
                                       lang := trim (if i.lang = [] then j.lang else i.lang)
                                       value := trim j.value
                                       readOnly := i.readOnly || j.readOnly
                                       creator := i.creator.or j.creator } []) := by
  have hp : ∀ k : TagInfo, k.Plain → AllPlain [.mk k []] := by
    intro k hk
    simp only [AllPlain, Tag.Plain]
    exact ⟨⟨hk, trivial⟩, trivial⟩
  obtain ⟨s, h1, _, _, h2⟩ := C60_metadata_partial bt hb .none (.inl rfl) [.tags [.mk i []], .tags [.mk j []]] (by
    intro op hop
    rcases List.mem_cons.1 hop with rfl | hop
    · exact hp i hi
    · simp only [List.mem_singleton] at hop
      subst hop
      exact hp j hj)
  refine ⟨s, h1, ?_⟩
  rw [h2]
  have hs : sameTag (.mk i []) (.mk j []) = true := by simp [sameTag, Tag.isTree, Tag.tree, Tag.info, hn]
  have e0 : addTag (.mk i []) [] = [.mk i []] := by
    rw [addTag_new _ _ (by simp only [Tag.Distinct, AllDistinct]) (by simp), Tag.stored, if_pos (by rfl)]
    rfl
  have e1 : addTags (setTags [.tags [.mk i []], .tags [.mk j []]]) [] = [.mk (mergeInfo i j) []] := by
    simp only [setTags, List.append_nil, List.cons_append, List.nil_append, addTags, e0]
    rw [addTag, if_pos (by rfl), changeFirst, if_pos hs]
    rfl
  rw [e1, findTag]
  have e2 : (mergeInfo i j).name = i.name := rfl
  simp only [List.find?_cons, List.find?_nil, Tag.isTree, Tag.tree, Tag.info, e2, hn]
  simp [Tag.trimmed, allTrimmed, TagInfo.trimmed, mergeInfo, keepOld]

/-- **C60**, a control character in one text: after the text was set nothing at all can be read of the metadata, neither the texts nor
the properties that were set before. -/
theorem C60_control_character (bt : Bytes) (hb : XmlName (bt ++ tHdComment.drop 2)) (ops : List MetaOp) (hops : ∀ op ∈ ops, op.Ok)
    (tag text : Bytes) (ht : TextTag tag) (d : Byte) (hd : d ∈ text) (hctl : d < 0x20#8 ∧ d ≠ 0x09#8 ∧ d ≠ 0x0A#8 ∧ d ≠ 0x0D#8) :
    ∃ s, runMeta (ops ++ [.text tag text]) (createMd bt .none) = some s ∧ (∀ name, stringGet s name = []) ∧ commonList s = none ∧
      ∀ name, commonGet s name = none := by
  obtain ⟨u, h1, h2, h3⟩ := createMd_snip hb (c := .none) (.inl rfl)
  obtain ⟨s, u', h4, h5, h6, h7⟩ := runMeta_snip ops _ _ h1 hops
  have happ : ∀ (a b : List MetaOp) (x : Bytes), runMeta (a ++ b) x = (runMeta a x).bind (runMeta b) := by
    intro a
    induction a with
    | nil => intro b x; rfl
    | cons o a ih =>
      intro b x
      rw [List.cons_append, runMeta, runMeta]
      cases o.run x with
      | none => rfl
      | some y => exact ih b y
  let w := (u'.asRead 0).setProperty tag text
  have hrun : runMeta (ops ++ [.text tag text]) (createMd bt .none) = some w.text := by
    rw [happ, h4, Option.bind_some, runMeta, MetaOp.run, stringSet, h5.parse]
    rfl
  have hk : ∃ k ∈ w.kids, k.kids = [] ∧ k.value = text := by
    have hfind : w.kids.find? (·.isTagName tag) =
        some (((((u'.asRead 0).kids.find? (·.isTagName tag)).getD (newNode tag))).setValue text) := by
      show ((u'.asRead 0).setProperty tag text).kids.find? _ = _
      rw [XmlTree.setProperty, mapKids_kids, find_change_same]
      · intro k hk
        rw [setValue_isTagName]; exact hk
      · rw [newNode_plain ht.1, XmlTree.isTagName]
        simp [XmlTree.tag, sameWord_refl]
    refine ⟨_, List.mem_of_find?_eq_some hfind, ?_, ?_⟩
    · cases hf : (u'.asRead 0).kids.find? (·.isTagName tag) with
      | none => rfl
      | some k =>
        have hkd := h5.doc.asRead.kids k (List.mem_of_find?_eq_some hf)
        have hn := List.find?_some hf
        rw [isTagName_plain hkd.name] at hn
        have hl := hkd.leaf (by
          cases hw : sameWord tCommon k.tag with
          | false => rfl
          | true =>
            have := sameWord_trans hw hn
            rw [ht.2] at this
            exact absurd this (by simp))
        cases k
        exact hl
    · cases ((u'.asRead 0).kids.find? (·.isTagName tag)).getD (newNode tag)
      rfl
  obtain ⟨k, hk1, hk2, hk3⟩ := hk
  have hp := parse_control (text_mem_control hk1 hk2 (by rw [hk3]; exact hd) hctl) hctl
  refine ⟨_, hrun, ?_, ?_, ?_⟩
  · intro name; rw [stringGet, hp]
  · rw [commonList, hp]; rfl
  · intro name; rw [commonGet, hp]; rfl

/-- "CN" -/
def exCnType : Bytes := [0x43#8, 0x4E#8]

theorem exCnType_name : XmlName (exCnType ++ tHdComment.drop 2) := ⟨_, _, rfl, by decide, by decide⟩

/-- **C60**, line ends: a text with carriage returns comes back without them. -/
theorem C60_carriage_return :
    (runMeta [.text tTX [0x61#8, 0x0D#8, 0x0A#8, 0x62#8, 0x0D#8, 0x63#8]] (createMd exCnType .none)).map (stringGet · tTX) =
      some [0x61#8, 0x0A#8, 0x62#8, 0x0A#8, 0x63#8] := by
  decide +kernel

/-- **C60**, line feeds in names, units and descriptions: they come back as blanks. -/
theorem C60_line_feed_in_description :
    (runMeta [.tags [.mk { name := [0x61#8], desc := [0x62#8, 0x0A#8, 0x63#8] } []]] (createMd exCnType .none)).bind
      (fun s => (commonGet s [0x61#8]).map fun t => t.info.desc) = some [0x62#8, 0x20#8, 0x63#8] := by
  decide +kernel

/-- **C60**: the full statement does not hold. -/
theorem C60_full_statement_fails : ¬ C60_Statement := by
  intro h
  obtain ⟨s, h1, h2, _⟩ := h exCnType .none [.text tTX [0x61#8, 0x0D#8, 0x0A#8, 0x62#8, 0x0D#8, 0x63#8]] (.inl rfl) (by
    intro op hop
    simp only [List.mem_singleton] at hop
    subst hop
    refine ⟨?_, fun l hl => by simp at hl⟩
    rintro tag v hv
    simp only [MetaOp.text.injEq] at hv
    rw [← hv.2]
    decide)
  have h3 := h2 tTX textTag_tx
  have h4 := C60_carriage_return
  rw [h1, Option.map_some, h3] at h4
  revert h4
  decide

/-- **C60**, the comment of the header: when the first metadata of the header is set, its plain comment is gone; every other block keeps
its comment as the text `TX`. -/
theorem C60_comment_taken_over (bt : Bytes) (hb : XmlName (bt ++ tHdComment.drop 2)) (s : Bytes) (hs : PlainText s)
    (ops : List MetaOp) (hops : ∀ op ∈ ops, op.Ok) (hl : lastText tTX ops = none) :
    ∃ s', runMeta ops (createMd bt (.tx s)) = some s' ∧ stringGet s' tTX = if bt = [0x48#8, 0x44#8] then [] else trim s := by
  obtain ⟨s', h1, h2, _⟩ := C60_metadata_partial bt hb (.tx s) (.inr ⟨s, rfl, hs⟩) ops hops
  refine ⟨s', h1, ?_⟩
  rw [h2 _ textTag_tx, hl]
  rfl

/-! ## The header -/

/-- **C60**, the texts of the header, partial: after any series of settings, each of author, department, project, subject, measurement
and recorder is the last text set for it, and the description is the last one set (without blanks around it), also after the file was
saved and opened again.  A plain comment the header had is its description until the first text is set, and is lost then.

Missing: as for `C60_metadata_partial`, and plain comments with `<`. -/
theorem C60_header_partial (c : BlkComment) (hc : c = .none ∨ ∃ s, c = .tx s ∧ 0x3C#8 ∉ s ∧ PlainText s) (ops : List HdTextOp)
    (hops : ∀ op ∈ ops, op.Ok) :
    ∃ c', runHd ops c = some c' ∧ (∀ f, getHd f c' = some (((lastHd f ops).map trim).getD [])) ∧
      getDescription c' = ((lastDescription ops).map trim).getD (firstDescription c ops) := by
  have h0 : HdState c c.plain (fun _ => []) ∧ c.isDoc = false := by
    rcases hc with rfl | ⟨s, rfl, h1, h2⟩
    · exact ⟨.inl ⟨.inl ⟨rfl, rfl⟩, rfl⟩, rfl⟩
    · exact ⟨.inl ⟨.inr ⟨s, rfl, h1, h2, rfl⟩, rfl⟩, rfl⟩
  obtain ⟨c', h1, h2⟩ := runHd_state ops _ _ _ h0.1 hops
  rw [← firstDescription_eq c h0.2] at h2
  refine ⟨c', h1, ?_, ?_⟩
  · intro f
    rcases h2 with ⟨h3, h4⟩ | ⟨s, u, rfl, hs, _, h4⟩
    · rcases h3 with ⟨rfl, _⟩ | ⟨s, rfl, _⟩ <;> exact congrArg some (congrFun h4 f).symm
    · rw [hs.getHd]
      exact congrArg some (congrFun h4 f).symm
  · rcases h2 with ⟨h3, _⟩ | ⟨s, u, rfl, hs, h3, _⟩
    · rcases h3 with ⟨rfl, h4⟩ | ⟨s, rfl, _, _, h4⟩
      · rw [h4]; rfl
      · rw [h4]; rfl
    · rw [hs.getDescription, h3]

/-! ## Examples -/

/-- A unit, a value with XML characters in it, and a property with two below it, one of them with the name of the first. -/
def exTags : List Tag :=
  [.mk { name := [0x61#8, 0x20#8, 0x26#8], unit := [0x6D#8], value := [0x3C#8, 0x0A#8, 0x27#8], creator := some 12 } [],
   .mk { name := [0x62#8], desc := [0x22#8] } [.mk { name := [0x61#8], readOnly := true } [], .mk { name := [0x62#8], value := [0x3E#8] } []]]

theorem exTags_plain : AllPlain exTags := by
  have h : ∀ i : TagInfo, (i.name ≠ [] ∧ (∀ c ∈ i.name ++ i.desc ++ i.unit ++ i.unitRef ++ i.type ++ i.lang, 0x20#8 ≤ c) ∧
      ∀ c ∈ i.value, 0x20#8 ≤ c ∨ c = 0x09#8 ∨ c = 0x0A#8) → i.Plain := by
    intro i hi
    simp only [List.mem_append] at hi
    exact ⟨hi.1, fun c hc => hi.2.1 c (by simp [hc]), fun c hc => hi.2.1 c (by simp [hc]), fun c hc => hi.2.1 c (by simp [hc]),
      fun c hc => hi.2.1 c (by simp [hc]), fun c hc => hi.2.1 c (by simp [hc]), fun c hc => hi.2.1 c (by simp [hc]), hi.2.2⟩
  simp only [exTags, AllPlain, Tag.Plain]
  exact ⟨⟨h _ (by decide +kernel), trivial⟩,
    ⟨h _ (by decide +kernel), ⟨h _ (by decide +kernel), trivial⟩, ⟨h _ (by decide +kernel), trivial⟩, trivial⟩, trivial⟩

theorem exTags_distinct : AllDistinct exTags := by
  simp only [exTags, AllDistinct, Tag.Distinct]
  decide +kernel

/-- A series of settings that `C60_metadata_partial` and `C60_distinct_properties` speak of. -/
def exXmlOps : List MetaOp :=
  [.text tTX [0x41#8, 0x3C#8], .tags exTags, .reopen, .text [0x74#8, 0x78#8] [0x42#8, 0x26#8], .text [0x6E#8] [0x31#8], .reopen]

theorem exXmlOps_ok : ∀ op ∈ exXmlOps, op.Ok := by
  have h1 : ∀ tag : Bytes, (∃ c r, tag = c :: r ∧ isNameStart c = true ∧ ∀ d ∈ r, isNameChar d = true) → 0x3A#8 ∉ tag →
      sameWord tCommon tag = false → TextTag tag := fun tag a b c => ⟨⟨a, b⟩, c⟩
  intro op hop
  simp only [exXmlOps, List.mem_cons, List.not_mem_nil, or_false] at hop
  rcases hop with rfl | rfl | rfl | rfl | rfl | rfl
  · exact ⟨h1 _ ⟨_, _, rfl, by decide, by decide⟩ (by decide) (by decide), by unfold PlainText; decide⟩
  · exact exTags_plain
  · trivial
  · exact ⟨h1 _ ⟨_, _, rfl, by decide, by decide⟩ (by decide) (by decide), by unfold PlainText; decide⟩
  · exact ⟨h1 _ ⟨_, _, rfl, by decide, by decide⟩ (by decide) (by decide), by unfold PlainText; decide⟩
  · trivial

example : ∃ s, runMeta exXmlOps (createMd exCnType .none) = some s ∧ commonList s = some (allTrimmed (allStored exTags)) :=
  C60_distinct_properties _ exCnType_name _ (.inl rfl) _ exXmlOps_ok (by simpa [exXmlOps, setTags] using exTags_distinct)

/-- The last text set, in capital letters or not, is read. -/
example : (runMeta exXmlOps (createMd exCnType .none)).map (stringGet · tTX) = some [0x42#8, 0x26#8] := by decide +kernel

/-- A bell character in a text. -/
example : ∃ s, runMeta (exXmlOps ++ [.text tTX [7#8]]) (createMd exCnType .none) = some s ∧ (∀ name, stringGet s name = []) ∧
    commonList s = none ∧ ∀ name, commonGet s name = none :=
  C60_control_character _ exCnType_name _ exXmlOps_ok tTX [7#8] textTag_tx 7#8 (by simp) (by decide)

/-- A unit that is changed from `m` to `s`: it is still `m`. -/
example : ∃ s, runMeta [.tags [.mk { name := [0x61#8], unit := [0x6D#8] } []], .tags [.mk { name := [0x61#8], unit := [0x73#8] } []]]
    (createMd exCnType .none) = some s ∧ commonGet s [0x61#8] = some (.mk { name := [0x61#8], unit := [0x6D#8] } []) := by
  have h := C60_second_setting exCnType exCnType_name { name := [0x61#8], unit := [0x6D#8] } { name := [0x61#8], unit := [0x73#8] }
    (by simp only [TagInfo.Plain, PlainLine, PlainText]; decide +kernel)
    (by simp only [TagInfo.Plain, PlainLine, PlainText]; decide +kernel) (by decide)
  exact h

/-- Author and description, saved in between. -/
example : ∃ c', runHd [.describe [0x44#8], .set .author [0x41#8], .reopen, .set .author [0x42#8, 0x26#8], .set .project [0x50#8]] .none =
    some c' ∧ getHd .author c' = some [0x42#8, 0x26#8] ∧ getHd .project c' = some [0x50#8] ∧ getHd .subject c' = some [] ∧
    getDescription c' = [0x44#8] := by
  obtain ⟨c', h1, h2, h3⟩ := C60_header_partial .none (.inl rfl)
    [.describe [0x44#8], .set .author [0x41#8], .reopen, .set .author [0x42#8, 0x26#8], .set .project [0x50#8]] (by
      intro op hop
      simp only [List.mem_cons, List.not_mem_nil, or_false] at hop
      rcases hop with rfl | rfl | rfl | rfl | rfl
      · simp only [HdTextOp.Ok, PlainText]; decide
      · simp only [HdTextOp.Ok, PlainText]; decide
      · trivial
      · simp only [HdTextOp.Ok, PlainText]; decide
      · simp only [HdTextOp.Ok, PlainText]; decide)
  exact ⟨c', h1, h2 _, h2 _, h2 _, h3⟩

/-- The plain comment of a header is lost when the author is set. -/
example : ∃ c', runHd [.reopen, .set .author [0x41#8]] (.tx [0x43#8]) = some c' ∧ getDescription c' = [] := by
  obtain ⟨c', h1, _, h3⟩ := C60_header_partial (.tx [0x43#8]) (.inr ⟨_, rfl, by decide, by unfold PlainText; decide⟩)
    [.reopen, .set .author [0x41#8]] (by
      intro op hop
      simp only [List.mem_cons, List.not_mem_nil, or_false] at hop
      rcases hop with rfl | rfl
      · trivial
      · simp only [HdTextOp.Ok, PlainText]; decide)
  exact ⟨c', h1, h3⟩

end Mdf
