import Verif.Model.SortHead
import Verif.Proof.CommentCopy
import Verif.Proof.XmlHd
import Verif.Props.Attach
import Verif.Props.HdComment
import Verif.Props.CommentKinds

/-!
C121: a sorted file has the header, the attachments and the file histories of its source.
-/

namespace Mdf

/-! ### The texts of the header -/

/-- The property of the header in the nodes of a comment. -/
def nodeText (t : XmlTree) (f : HdText) : Bytes :=
  match t.kids.find? (·.isTagName tCommon) with
  | none => []
  | some c =>
    match c.kids.find? (isNamed tE f.key) with
    | none => []
    | some k => trim (k.asRead 2).value

theorem getHd_node {t : XmlTree} (h : t.Good) (f : HdText) : getHd f (.md t.text) = some (nodeText t f) := by
  rw [getHd, trim_text, parse_body h, Option.map_some, nodeText, asRead_kids, find_asRead]
  cases hf : t.kids.find? (·.isTagName tCommon) with
  | none => rfl
  | some c =>
    simp only [Option.map_some]
    have e : (isNamed tE f.key) ∘ XmlTree.asRead (0 + 1 + 1) = isNamed tE f.key := by
      funext k
      obtain ⟨tag, a, v, ks⟩ := k
      simp only [Function.comp, isNamed, XmlTree.isAttribute, XmlTree.asRead, XmlTree.attrs]
      rfl
    rw [asRead_kids, List.find?_map, e]
    cases c.kids.find? (isNamed tE f.key) <;> rfl

theorem treeNodes_tag : ∀ (ts : List MdTree), ∀ k ∈ treeNodes ts, k.tag = tTree
  | [], k, h => by rw [treeNodes] at h; cases h
  | t :: ts, k, h => by
    rw [treeNodes, List.mem_cons] at h
    rcases h with rfl | h
    · rfl
    · exact treeNodes_tag ts k h

theorem listNodes_tag : ∀ (ts : List MdTree), ∀ k ∈ listNodes ts, k.tag = tList
  | [], k, h => by rw [listNodes] at h; cases h
  | t :: ts, k, h => by
    rw [listNodes, List.mem_cons] at h
    rcases h with rfl | h
    · rfl
    · exact listNodes_tag ts k h

theorem not_named {k : XmlTree} {key tag : Bytes} (h : k.tag = tag) (ht : (XmlTree.mk tag [] [] []).isTagName tE = false) : isNamed tE key k = false := by
  rw [isNamed]
  have : k.isTagName tE = (XmlTree.mk tag [] [] []).isTagName tE := by
    rw [XmlTree.isTagName, XmlTree.isTagName, h]
    rfl
  rw [this, ht]
  rfl

/-- Only the properties are found by name. -/
theorem find_inner (t : MdTree) (key : Bytes) : t.inner.find? (isNamed tE key) = (t.props.map MdProp.node).find? (isNamed tE key) := by
  obtain ⟨s, n, d, P, T, L, E⟩ := t
  have h1 : (treeNodes T).find? (isNamed tE key) = none :=
    List.find?_eq_none.mpr fun k hk => by rw [not_named (treeNodes_tag T k hk) (by decide)]; simp
  have h2 : (listNodes L).find? (isNamed tE key) = none :=
    List.find?_eq_none.mpr fun k hk => by rw [not_named (listNodes_tag L k hk) (by decide)]; simp
  have h3 : (E.map MdEnum.node).find? (isNamed tE key) = none :=
    List.find?_eq_none.mpr fun k hk => by
      obtain ⟨e, _, rfl⟩ := List.mem_map.mp hk
      rw [not_named (tag := tElist) rfl (by decide)]
      simp
  rw [MdTree.inner, List.find?_append, List.find?_append, List.find?_append, h1, h2, h3, Option.or_none, Option.or_none, Option.or_none]
  rfl

/-- The node of the properties. -/
theorem find_common (h : HdCom) : h.node.kids.find? (·.isTagName tCommon) =
    if h.com.common.isActive then some (.mk tCommon [] [] h.com.common.inner) else none := by
  have h1 : ∀ (s : MdStr) (tag : Bytes), (XmlTree.mk tag [] [] []).isTagName tCommon = false → (s.nodes tag).find? (·.isTagName tCommon) = none := by
    intro s tag ht
    rw [MdStr.nodes]
    split
    · rfl
    · have : (XmlTree.mk tag (s.std.write []) s.text []).isTagName tCommon = false := ht
      rw [List.find?_cons, this]
      rfl
  rw [HdCom.node]
  show (_ ++ _ ++ _ ++ _ : List XmlTree).find? _ = _
  rw [List.find?_append, List.find?_append, List.find?_append, h1 _ tTX (by decide), h1 _ tTimeSource (by decide)]
  have h2 : (if h.constants = [] then [] else [XmlTree.mk tConstants [] [] (h.constants.map constNode)]).find? (·.isTagName tCommon) = none := by
    split
    · rfl
    · have : (XmlTree.mk tConstants [] [] (h.constants.map constNode)).isTagName tCommon = false :=
        (by decide : (XmlTree.mk tConstants [] [] []).isTagName tCommon = false)
      rw [List.find?_cons, this]
      rfl
  rw [h2, Option.none_or, Option.none_or, Option.none_or]
  split
  · have : (XmlTree.mk tCommon [] [] h.com.common.inner).isTagName tCommon = true := (by decide : (XmlTree.mk tCommon [] [] []).isTagName tCommon = true)
    rw [List.find?_cons, this]
  · rfl

theorem tidy_attrs (p : MdProp) : p.tidy.attrs = p.attrs := by
  have h := tidy_own p
  unfold MdProp.attrs
  unfold MdProp.own at h
  rw [h]
  rfl

theorem tidy_text (h : HdCom) (f : HdText) : nodeText h.tidy.node f = nodeText h.node f := by
  rw [nodeText, nodeText, find_common, find_common]
  have e1 : h.tidy.com.common = h.com.common.tidy := rfl
  have e2 : h.com.common.tidy.isActive = h.com.common.isActive := by
    obtain ⟨s, n, d, P, T, L, E⟩ := h.com.common
    rw [MdTree.tidy, MdTree.isActive, MdTree.isActive]
    have h2 : ∀ ts : List MdTree, (allTidy ts).isEmpty = ts.isEmpty := fun ts => by cases ts <;> rfl
    simp only [MdTree.name, MdTree.desc, MdTree.props, MdTree.trees, MdTree.lists, MdTree.enums, List.isEmpty_map, h2]
  rw [e1, e2]
  cases h.com.common.isActive
  · rfl
  · simp only [if_true, XmlTree.kids]
    rw [find_inner, find_inner]
    have e3 : h.com.common.tidy.props = h.com.common.props.map MdProp.tidy := by
      obtain ⟨s, n, d, P, T, L, E⟩ := h.com.common
      rw [MdTree.tidy]
      rfl
    rw [e3, List.map_map, List.find?_map, List.find?_map]
    have e4 : (isNamed tE f.key) ∘ (MdProp.node ∘ MdProp.tidy) = (isNamed tE f.key) ∘ MdProp.node := by
      funext p
      simp only [Function.comp, MdProp.node, tidy_attrs, isNamed, XmlTree.isTagName, XmlTree.isAttribute, XmlTree.tag, XmlTree.attrs]
    rw [e4]
    cases h.com.common.props.find? ((isNamed tE f.key) ∘ MdProp.node) with
    | none => rfl
    | some p =>
      simp only [Option.map_some, Function.comp, MdProp.node, asRead_leafNode, XmlTree.value, MdProp.tidy, trim_trim]

/-- What a new header gets. -/
theorem copyFrom_eq (s : HeadSrc) :
    ({} : Head4).copyFrom s = { comment := .md s.hdComment.toXml, ts := Ts4.setNs s.start,
                                flags := (if s.angle.isSome then 0x01#8 else 0x00#8) ||| (if s.distance.isSome then 0x02#8 else 0x00#8),
                                angle := s.angle.getD 0, distance := s.distance.getD 0 } := by
  unfold Head4.copyFrom Head4.setHdComment
  cases s.angle <;> cases s.distance <;> simp [Head4.setAngle, Head4.setDistance]

/-- **C121** (header of an MDF 4 file): with a comment that the library wrote, the comment of the sorted file is that of the source as it is
read, in all its parts, and `Author()` and so on and `StartAngle()` and `StartDistance()` return the same. -/
theorem C121_header (h : HdCom) (hg : h.Good) (hc : h.Clean) (src : Head4) (hs : src.comment = .md h.toXml) :
    let dst := ({} : Head4).copyFrom src.src
    dst.src.hdComment = src.src.hdComment ∧ (∀ f, getHd f dst.comment = getHd f src.comment) ∧
    dst.startAngle = src.startAngle ∧ dst.startDistance = src.startDistance ∧ dst.ts.time = src.ts.time := by
  have e1 : src.src.hdComment = ({} : HdCom).fromXml h.toXml := by
    rw [HeadSrc.hdComment, show src.src.snippet = src.comment.snippet from rfl, hs]
    rfl
  dsimp only
  rw [copyFrom_eq, e1]
  refine ⟨hd_copy hg hc, fun f => ?_, ?_, ?_, rfl⟩
  · show getHd f (.md (({} : HdCom).fromXml h.toXml).toXml) = _
    rw [hs, hd_read hg, HdCom.toXml, hd_back_node hg hc, HdCom.toXml, getHd_node (hd_node_good (hd_tidy_good hg)), getHd_node (hd_node_good hg),
      tidy_text]
  · unfold Head4.startAngle
    show (if ((if src.startAngle.isSome then 0x01#8 else 0x00#8) ||| (if src.startDistance.isSome then 0x02#8 else 0x00#8)) &&& 0x01#8 ≠ 0#8 then
      some (src.startAngle.getD 0) else none) = src.startAngle
    cases src.startAngle <;> cases src.startDistance <;> simp
  · unfold Head4.startDistance
    show (if ((if src.startAngle.isSome then 0x01#8 else 0x00#8) ||| (if src.startDistance.isSome then 0x02#8 else 0x00#8)) &&& 0x02#8 ≠ 0#8 then
      some (src.startDistance.getD 0) else none) = src.startDistance
    cases src.startAngle <;> cases src.startDistance <;> simp

/-- A header of an author, with a comment, a time source and a constant. -/
def exHdSrc : HdCom := HdCom.run exHdOps

theorem exHdSrc_good : exHdSrc.Good := run_hd_good (h := {}) (by
    refine ⟨⟨hd_std_good, plainText_nil⟩, ?_, rfl, rfl, rfl, ⟨hd_std_good, plainText_nil⟩, by simp, List.Pairwise.nil⟩
    show MdTree.empty.Good
    rw [MdTree.empty, MdTree.Good]
    exact ⟨hd_std_good, rfl, plainLine_nil, plainLine_nil, by simp, List.Pairwise.nil, trivial, List.Pairwise.nil, trivial, List.Pairwise.nil,
      by simp, List.Pairwise.nil, by simp, by simp⟩) exHdOps_good

theorem exHdSrc_clean : exHdSrc.Clean := by
  refine ⟨?_, by decide⟩
  show (exHdSrc.com.common).Clean
  have : exHdSrc.com.common = .mk {} [] [] exHdSrc.com.common.props [] [] [] := by rfl
  rw [this, MdTree.Clean]
  refine ⟨rfl, ?_, trivial, trivial, by simp⟩
  unfold MdProp.Clean
  decide

example : getHd .author (({} : Head4).copyFrom (Head4.mk (.md exHdSrc.toXml) ⟨5, 60, 0, 1⟩ 3#8 7 8).src).comment = some exA :=
  ((C121_header exHdSrc exHdSrc_good exHdSrc_clean ⟨.md exHdSrc.toXml, ⟨5, 60, 0, 1⟩, 3#8, 7, 8⟩ rfl).2.1 .author).trans (by decide +kernel)

example : (({} : Head4).copyFrom (Head4.mk (.md exHdSrc.toXml) ⟨5, 60, 0, 1⟩ 3#8 7 8).src).startDistance = some 8 := by decide +kernel

/-- **C121**, full statement for the header: whatever the version of the source, `Author()` and so on and `Description()` return the same for
the sorted file. -/
def C121_Statement : Prop :=
  ∀ s : HeadSrc, (∃ h : Head3, s = h.src) ∨ (∃ (h : Head4) (c : HdCom), c.Good ∧ c.Clean ∧ h.comment = .md c.toXml ∧ s = h.src) →
    let dst := ({} : Head4).copyFrom s
    getHd .author dst.comment = some s.author ∧ getHd .department dst.comment = some s.department ∧
    getHd .project dst.comment = some s.project ∧ getHd .subject dst.comment = some s.subject ∧
    getDescription dst.comment = s.description

theorem empty_texts : (∀ f, getHd f (.md ({} : HdCom).toXml) = some []) ∧ getDescription (.md ({} : HdCom).toXml) = [] := by
  refine ⟨fun f => ?_, by decide +kernel⟩
  cases f <;> decide +kernel

/-- **C121**, finding: all the texts of the header of an MDF 3 file are lost when it is sorted, whatever they are: they are set in the new
header, and then its comment is replaced by an empty one, since an MDF 3 header has none. -/
theorem C121_mdf3_lost (h : Head3) : (∀ f, getHd f (({} : Head4).copyFrom h.src).comment = some []) ∧
    getDescription (({} : Head4).copyFrom h.src).comment = [] ∧ (({} : Head4).copyFrom h.src).ts.time = h.localNs ∧
    (({} : Head4).copyFrom h.src).startAngle = none ∧ (({} : Head4).copyFrom h.src).startDistance = none := by
  rw [copyFrom_eq]
  refine ⟨empty_texts.1, empty_texts.2, rfl, ?_, ?_⟩
  · simp [Head4.startAngle, Head3.src]
  · simp [Head4.startDistance, Head3.src]

example : getHd .author (({} : Head4).copyFrom (Head3.mk exA exB [] [] exA 9).src).comment = some [] ∧
    (Head3.mk exA exB [] [] exA 9).src.author ≠ [] := ⟨(C121_mdf3_lost _).1 .author, by decide⟩

theorem C121_false : ¬ C121_Statement := by
  intro h
  have h1 := (h (Head3.mk [0x41#8] [] [] [] [] 0).src (.inl ⟨_, rfl⟩)).1
  rw [(C121_mdf3_lost _).1] at h1
  exact absurd h1 (by decide)

/-! ### The attachments -/

/-- Copies are new objects. -/
theorem copy_fresh (s : AtSrc) (file : Bytes) : (s.copy file).obj.pos = 0 ∧ (s.copy file).obj.next = none := ⟨rfl, rfl⟩

theorem foldl_copy {α β : Type} (g : α → β) : ∀ (l : List α) (d : List β), l.foldl (fun x a => x ++ [g a]) d = d ++ l.map g
  | [], d => by simp
  | a :: l, d => by rw [List.foldl_cons, foldl_copy g l, List.append_assoc]; rfl

theorem createConfig_lists (d : SortDst) (s : SortSrc) (file : Bytes) :
    (d.createConfig s file).attachments = d.attachments ++ s.attachments.map (·.copy file) ∧
    (d.createConfig s file).histories = d.histories ++ s.histories.map Hist.copy :=
  ⟨foldl_copy _ _ _, foldl_copy _ _ _⟩

/-- The attachment as the reader of the source has it, with its data. -/
def AtSrc.obj (s : AtSrc) (file : Bytes) : AtObj :=
  ⟨0, none, s.name, ⟨s.flags, s.creator, s.md5, s.originalSize, (file.drop s.dataPos).take s.nofBytes⟩⟩

/-- The data of the attachment is in the file; an attachment that is not embedded has none. -/
def AtSrc.InFile (s : AtSrc) (file : Bytes) : Prop := 0 < s.dataPos ∧ s.dataPos + s.nofBytes ≤ file.length

theorem copy_obj (s : AtSrc) (file : Bytes) (h : s.InFile file) : (s.copy file).obj = s.obj file := by
  obtain ⟨h0, h1⟩ := h
  show AtObj.mk 0 none s.name ⟨s.flags, s.creator, s.md5, s.originalSize, _⟩ = _
  rw [AtSrc.obj]
  congr 2
  by_cases hn : 0 < s.nofBytes
  · rw [if_pos ⟨h0, hn⟩, readInBuffer, show s.nofBytes - (file.length - s.dataPos) = 0 by omega]
    exact List.append_nil _
  · rw [if_neg (by omega), show s.nofBytes = 0 by omega, List.take_zero]

/-- The header of a new file to which the copies are added. -/
def AtHead.sorted (free : Nat) (src : List AtSrc) (file : Bytes) : AtHead :=
  ⟨0, (({} : SortDst).createConfig ⟨⟨[], [], [], [], [], none, 0, none, none⟩, src, [], 0, 0⟩ file).attachments.map AtCopy.obj, free⟩

theorem sorted_objs (free : Nat) (src : List AtSrc) (file : Bytes) :
    (AtHead.sorted free src file).objs = src.map fun s => (s.copy file).obj := by
  show List.map _ (SortDst.createConfig _ _ _).attachments = _
  rw [(createConfig_lists _ _ _).1]
  simp

/-- The size is known: the attachment is not looked up again. -/
theorem prepare_known (z : Zlib) (fs : FileSys) (v : AtVals) (name : Bytes) (h : v.originalSize ≠ 0) : v.prepare z fs name = (v, true) := by
  unfold AtVals.prepare
  rw [if_neg h]

/-- **C121**, full statement for the attachments: the new file is written, and its reader lists the attachments of the source in order, with
the same names, settings, checksums and data, whatever files there are when the file is sorted. -/
def C121_AttStatement : Prop :=
  ∀ (z : Zlib) (fs : FileSys) (file : Bytes) (src : List AtSrc) (free : Nat), z.Ok → 0 < free → (∀ s ∈ src, s.InFile file) →
    let r := (AtHead.sorted free src file).write z fs
    r.2 = false ∧ r.1.listed.map AtObj.said = src.map fun s => (s.obj file).said

/-- **C121** (attachments): as the full statement, if no attachment of the source has the size zero; in particular the content that a
reader of the sorted file gets is the one that a reader of the source gets.  `z` and `fs` are not used: nothing is looked up. -/
theorem C121_attachments_partial (z : Zlib) (fs : FileSys) (file : Bytes) (src : List AtSrc) (free : Nat) (hf : 0 < free)
    (hs : ∀ s ∈ src, s.InFile file ∧ s.originalSize ≠ 0) :
    let r := (AtHead.sorted free src file).write z fs
    r.2 = false ∧ r.1.listed.map AtObj.said = (src.map fun s => (s.obj file).said) ∧
    ∀ (i : Nat) (a : AtObj) (s : AtSrc), r.1.listed[i]? = some a → src[i]? = some s →
      ∀ (z' : Zlib) (fs' : FileSys), a.exportData z' fs' = (s.obj file).exportData z' fs' := by
  have ho : (AtHead.sorted free src file).objs = src.map fun s => s.obj file := by
    rw [sorted_objs]
    exact List.map_congr_left fun s h => copy_obj s file (hs s h).1
  have hfresh : ∀ a ∈ (src.map fun s => s.obj file), AtFresh z fs a := by
    intro a ha
    obtain ⟨s, hx, rfl⟩ := List.mem_map.mp ha
    refine ⟨rfl, rfl, ?_⟩
    rw [prepare_known z fs _ _ (hs s hx).2]
  obtain ⟨h1, h2, h3, _, h5⟩ := atPass_linked z fs [] (src.map fun s => s.obj file) free none 0 hf rfl (by simp) hfresh
  rw [List.nil_append] at h1 h2 h3 h5
  have hw : (AtHead.sorted free src file).write z fs =
      (⟨(atPass z fs free none (src.map fun s => s.obj file)).link.getD 0, (atPass z fs free none (src.map fun s => s.obj file)).objs,
        (atPass z fs free none (src.map fun s => s.obj file)).free⟩, (atPass z fs free none (src.map fun s => s.obj file)).thrown) := by
    rw [AtHead.write, ho]
    rfl
  have hsaid : ((AtHead.sorted free src file).write z fs).1.listed.map AtObj.said = src.map fun s => (s.obj file).said := by
    rw [hw, listed_linked _ h3, h5, List.map_nil, List.nil_append, List.map_map]
    refine List.map_congr_left fun s hx => ?_
    show (s.name, _) = _
    rw [prepare_known z fs _ _ (hs s hx).2]
    rfl
  refine ⟨by rw [hw]; exact h1, hsaid, fun i a s ha hi z' fs' => ?_⟩
  have he := congrArg (·[i]?) hsaid
  rw [List.getElem?_map, List.getElem?_map, ha, hi, Option.map_some, Option.map_some] at he
  obtain ⟨p, n, nm, v⟩ := a
  have he := Option.some.inj he
  rw [AtObj.said, AtObj.said, Prod.mk.injEq] at he
  obtain ⟨e1, e2⟩ := he
  dsimp only at e1 e2
  subst e1 e2
  rfl

/-- Two attachments of a source with 110 bytes: "a" embedded with three bytes, "b" only named. -/
def exAtSrc : List AtSrc :=
  [⟨[97#8], exA, .none, 1#16, 2, List.replicate 16 0, 3, 3, 96⟩, ⟨[98#8], [], .none, 0#16, 0, List.replicate 16 0, 5, 0, 96⟩]

theorem exAtSrc_ok : ∀ s ∈ exAtSrc, s.InFile (List.replicate 110 7#8) ∧ s.originalSize ≠ 0 := by
  intro s hs
  simp only [exAtSrc, List.mem_cons, List.not_mem_nil, or_false] at hs
  rcases hs with rfl | rfl
  · exact ⟨⟨by decide, by rw [List.length_replicate]; decide⟩, by decide⟩
  · exact ⟨⟨by decide, by rw [List.length_replicate]; decide⟩, by decide⟩

example : ((AtHead.sorted 168 exAtSrc (List.replicate 110 7#8)).write storeZ fun _ => none).1.listed.map AtObj.said =
    exAtSrc.map fun s => (s.obj (List.replicate 110 7#8)).said :=
  (C121_attachments_partial storeZ (fun _ => none) (List.replicate 110 7#8) exAtSrc 168 (by decide) exAtSrc_ok).2.1

example : (((AtHead.sorted 168 exAtSrc (List.replicate 110 7#8)).write storeZ fun _ => none).1.listed.map fun a =>
    a.exportData storeZ fun _ => none) = [some [7, 7, 7], none] := by decide +kernel

/-- **C121**, finding: what the source has lost at its end is made up of zeros: an attachment whose data the file has only in part gets a
copy of the full size, and nobody is told (an error is only logged). -/
theorem C121_truncated (s : AtSrc) (file : Bytes) (h0 : 0 < s.dataPos) (hn : 0 < s.nofBytes) :
    (s.copy file).obj.vals.data.length = s.nofBytes ∧
    ∀ i < s.nofBytes, (s.copy file).obj.vals.data[i]? = some ((file[s.dataPos + i]?).getD 0#8) := by
  have e : (s.copy file).obj.vals.data = readInBuffer file s.dataPos s.nofBytes := if_pos ⟨h0, hn⟩
  rw [e, readInBuffer, putZeros]
  refine ⟨by simp only [List.length_append, List.length_take, List.length_drop, List.length_replicate]; omega, fun i hi => ?_⟩
  rw [List.getElem?_append, List.length_take, List.length_drop]
  split
  · rename_i hlt
    rw [List.getElem?_take_of_lt hi, List.getElem?_drop, List.getElem?_eq_getElem (by omega), Option.getD_some]
  · rename_i hlt
    rw [List.getElem?_replicate, if_pos (by omega), List.getElem?_eq_none (by omega), Option.getD_none]

example : (AtSrc.copy ⟨[97#8], [], .none, 1#16, 2, [], 3, 3, 2⟩ [1, 2, 3]).obj.vals.data = [3, 0, 0] := by decide

/-- **C121**, finding: an attachment of the size zero (its file was missing or empty when the source was written) is looked up again when
the file is sorted, under the name that it has: a reader of the sorted file gets the content of the file that happens to be there then. -/
theorem C121_found_again (z : Zlib) (hz : z.Ok) (fs : FileSys) (file : Bytes) (s : AtSrc) (f : DiskFile) (free : Nat) (hf : 0 < free)
    (h0 : s.originalSize = 0) (he : (s.copy file).obj.vals.isEmbedded = true) (hfs : fs s.name = some f) (hr : f.readable = true)
    (hok : ¬ AtRefused z (s.copy file).obj.vals f) (fs' : FileSys) :
    let r := (AtHead.sorted free [s] file).write z fs
    r.2 = false ∧ r.1.listed.map (·.exportData z fs') = [some f.content] := by
  have ho : (AtHead.sorted free [s] file).objs = [(s.copy file).obj] := sorted_objs _ _ _
  have hfresh : ∀ a ∈ [(s.copy file).obj], AtFresh z fs a := by
    intro a ha
    rw [List.mem_singleton] at ha
    subst ha
    exact ⟨rfl, rfl, (prepare_describes z fs _ s.name f h0 hfs hr).2.1.mpr hok⟩
  obtain ⟨h1, _, h3, _, h5⟩ := atPass_linked z fs [] [(s.copy file).obj] free none 0 hf rfl (by simp) hfresh
  rw [List.nil_append] at h1 h3 h5
  have hw : (AtHead.sorted free [s] file).write z fs =
      (⟨(atPass z fs free none [(s.copy file).obj]).link.getD 0, (atPass z fs free none [(s.copy file).obj]).objs,
        (atPass z fs free none [(s.copy file).obj]).free⟩, (atPass z fs free none [(s.copy file).obj]).thrown) := by
    rw [AtHead.write, ho]
    rfl
  dsimp only
  refine ⟨by rw [hw]; exact h1, ?_⟩
  rw [hw, listed_linked _ h3]
  rw [List.map_nil, List.nil_append, List.map_singleton] at h5
  cases hobj : (atPass z fs free none [(s.copy file).obj]).objs with
  | nil => rw [hobj] at h5; cases h5
  | cons a l =>
    rw [hobj, List.map_cons, List.cons.injEq, List.map_eq_nil_iff] at h5
    obtain ⟨h5, rfl⟩ := h5
    obtain ⟨p, n, nm, v⟩ := a
    rw [AtObj.said, AtObj.ready, Prod.mk.injEq] at h5
    obtain ⟨e1, e2⟩ := h5
    dsimp only at e1 e2
    subst e1 e2
    rw [List.map_singleton]
    congr 1
    exact export_written z hz fs fs' _ s.name f h0 hfs hr hok p n (.inl he)

/-- **C121**, finding: sorting fails if an attachment of the size zero is not the last one and its file is now there and is refused (it is to
be compressed and is empty). -/
theorem C121_aborts (z : Zlib) (fs : FileSys) (file : Bytes) (pre post : List AtSrc) (s t : AtSrc) (f : DiskFile) (free : Nat)
    (h0 : s.originalSize = 0) (hfs : fs s.name = some f) (hr : f.readable = true) (hx : AtRefused z (s.copy file).obj.vals f) :
    ((AtHead.sorted free (pre ++ s :: t :: post) file).write z fs).2 = true := by
  rw [AtHead.write, sorted_objs, List.map_append, List.map_cons, List.map_cons]
  exact atPass_refused z fs _ _ _ rfl rfl (prepare_refused z fs _ s.name f h0 hfs hr hx) rfl _ _ _

example : ((AtHead.sorted 168 [⟨[98#8], [], .none, 3#16, 0, [], 0, 0, 96⟩, ⟨[97#8], [], .none, 1#16, 0, [], 3, 3, 96⟩] (List.replicate 99 7)).write
    storeZ exFs).2 = true :=
  C121_aborts storeZ exFs _ [] [] _ _ ⟨[], true⟩ 168 rfl rfl rfl ⟨by decide +kernel, by decide +kernel, .inl rfl⟩

/-- An attachment "a", embedded, whose file was missing. -/
def exMissing : AtSrc := ⟨[97#8], [], .none, 1#16, 0, List.replicate 16 0, 0, 0, 96⟩

theorem C121_att_false : ¬ C121_AttStatement := by
  intro h
  have h1 := (h storeZ exFs (List.replicate 100 0#8) [exMissing] 168 storeZ_ok (by decide) (by
    intro s hs
    rw [List.mem_singleton] at hs
    subst hs
    exact ⟨by decide, by rw [List.length_replicate]; decide⟩)).2
  have h2 := (C121_found_again storeZ storeZ_ok exFs (List.replicate 100 0#8) exMissing ⟨[1, 2, 3], true⟩ 168 (by decide) rfl (by decide +kernel)
    rfl rfl (fun h => absurd h.2.1 (by decide +kernel)) (fun _ => none)).2
  cases hl : ((AtHead.sorted 168 [exMissing] (List.replicate 100 0#8)).write storeZ exFs).1.listed with
  | nil => rw [hl] at h1; cases h1
  | cons a l =>
    rw [hl, List.map_cons, List.map_singleton, List.cons.injEq] at h1
    rw [hl, List.map_cons, List.cons.injEq] at h2
    obtain ⟨p, n, nm, v⟩ := a
    have e := h1.1
    rw [AtObj.said, AtObj.said, Prod.mk.injEq] at e
    obtain ⟨e1, e2⟩ := e
    dsimp only at e1 e2
    subst e1 e2
    have h3 := h2.1
    have h4 : (AtObj.mk p n (exMissing.obj (List.replicate 100 0#8)).name (exMissing.obj (List.replicate 100 0#8)).vals).exportData storeZ (fun _ => none) = some [] := by
      have e5 : (AtObj.mk 0 none (exMissing.obj (List.replicate 100 0#8)).name (exMissing.obj (List.replicate 100 0#8)).vals).exportData storeZ
        (fun _ => none) = some [] := by decide +kernel
      exact e5
    rw [h4] at h3
    cases h3

/-- **C121** (texts of an attachment): the type is kept, and of a comment that the library wrote all parts. -/
theorem C121_attachment_texts (s : AtSrc) (file : Bytes) (c : MdCom) (hg : c.Good) (hcl : c.common.Clean) (hn : c.names = {})
    (hf : c.formula = {}) (hc : s.comment = .md (c.toXml bAT)) :
    (s.copy file).type = s.type ∧ ({ s with comment := (s.copy file).comment } : AtSrc).atComment = s.atComment := by
  refine ⟨rfl, ?_⟩
  have e : s.atComment = ({} : MdCom).fromXml (c.toXml bAT) := by
    rw [AtSrc.atComment, hc]
    rfl
  show ({} : MdCom).fromXml (s.atComment.toXml bAT) = s.atComment
  rw [e, com_copy (block := bAT) hg hcl hn hf ⟨_, _, rfl, by decide, by decide⟩]

/-- A comment with a text and a property. -/
def exAtCom : MdCom := { text := { text := exA }, common := .mk {} [] [] [{ name := exA, value := ex1, unit := exB }] [] [] [] }

theorem exAtCom_good : exAtCom.Good := by
  have lA : PlainLine exA := by unfold PlainLine; decide
  have lB : PlainLine exB := by unfold PlainLine; decide
  have tA : PlainText exA := by unfold PlainText; decide
  have t1 : PlainText ex1 := by unfold PlainText; decide
  refine ⟨⟨std_empty_good, tA⟩, names_empty_good, form_empty_good, ?_, rfl, rfl, rfl⟩
  simp only [exAtCom, MdTree.Good, AllTreesGood, forall_eq, List.not_mem_nil, false_implies, implies_true, MdProp.Good, SortedBy,
    List.pairwise_singleton, List.Pairwise.nil, List.mem_cons, or_false, and_true]
  exact ⟨std_empty_good, by decide, plainLine_nil, plainLine_nil, std_empty_good, ⟨by decide, by decide, lA⟩, plainLine_nil, lB, plainLine_nil, t1⟩

theorem exAtCom_clean : exAtCom.common.Clean := by
  rw [exAtCom, MdTree.Clean]
  refine ⟨rfl, ?_, trivial, trivial, by simp⟩
  unfold MdProp.Clean
  decide

example : ((AtSrc.mk exA exB (.md (exAtCom.toXml bAT)) 0 0 [] 1 0 96).copy []).type = exB :=
  (C121_attachment_texts ⟨exA, exB, .md (exAtCom.toXml bAT), 0, 0, [], 1, 0, 96⟩ [] exAtCom exAtCom_good exAtCom_clean rfl rfl rfl).1

/-! ### The file histories, the events and the hierarchies -/

/-- **C121** (file histories): all are there in order, after those the new header has; the time is kept, and of a comment that the library
wrote all parts. -/
theorem C121_histories (d : SortDst) (s : SortSrc) (file : Bytes) :
    (d.createConfig s file).histories.length = d.histories.length + s.histories.length ∧
    (d.createConfig s file).histories.take d.histories.length = d.histories ∧
    ∀ (i : Nat) (x : Hist), s.histories[i]? = some x → ∃ y, (d.createConfig s file).histories[d.histories.length + i]? = some y ∧
      y.ts.time = x.ts.time ∧ ∀ c : FhCom, c.Good → c.Clean → x.comment = .md c.toXml → y.fhComment = x.fhComment := by
  rw [(createConfig_lists d s file).2]
  refine ⟨by rw [List.length_append, List.length_map], List.take_left, fun i x hi => ⟨x.copy, ?_, rfl, fun c hg hc hx => ?_⟩⟩
  · rw [List.getElem?_append_right (by omega), show d.histories.length + i - d.histories.length = i by omega, List.getElem?_map, hi]
    rfl
  · have e : x.fhComment = ({} : FhCom).fromXml c.toXml := by
      rw [Hist.fhComment, hx]
      rfl
    show ({} : FhCom).fromXml x.fhComment.toXml = x.fhComment
    rw [e, fh_copy hg hc]

/-- A history with a comment of a tool. -/
def exFhCom : FhCom := { com := exAtCom, toolId := { text := exA }, toolVendor := { text := exB } }

theorem exFhCom_good : exFhCom.Good := by
  have tA : PlainText exA := by unfold PlainText; decide
  have tB : PlainText exB := by unfold PlainText; decide
  exact ⟨exAtCom_good, ⟨std_empty_good, tA⟩, ⟨std_empty_good, tB⟩, ⟨std_empty_good, plainText_nil⟩, ⟨std_empty_good, plainText_nil⟩⟩

example : (Hist.copy ⟨⟨5, 60, 0, 1⟩, .md exFhCom.toXml⟩).fhComment.toolId.text = exA := by
  obtain ⟨y, h1, h2, h3⟩ := (C121_histories {} ⟨⟨[], [], [], [], [], none, 0, none, none⟩, [], [⟨⟨5, 60, 0, 1⟩, .md exFhCom.toXml⟩], 0, 0⟩ []).2.2
    0 _ rfl
  cases h1
  rw [h3 exFhCom exFhCom_good ⟨exAtCom_clean, by decide, by decide, by decide, by decide⟩ rfl]
  decide +kernel

/-- **C121**, finding: whatever the source has, a new file gets none of its events and none of its hierarchies of channels. -/
theorem C121_events_lost (s : SortSrc) (file : Bytes) :
    (({} : SortDst).createConfig s file).events = 0 ∧ (({} : SortDst).createConfig s file).hierarchies = 0 := ⟨rfl, rfl⟩

end Mdf
