import Verif.Proof.CommentAdd

/-!
**C64**: a structured comment that is written as XML is read back.
-/

namespace Mdf

/-! ### Attributes -/

theorem attrMap_mem_acc : ∀ (as acc : List (Bytes × Bytes)), ((acc ++ as).map (·.1)).Nodup → ∀ a,
    (a ∈ as.foldl (fun m a => mapInsert (·.1) a m) acc ↔ a ∈ acc ∨ a ∈ as)
  | [], acc, _, a => by simp
  | b :: as, acc, h, a => by
    have hn : ∀ y ∈ acc, y.1 ≠ b.1 := by
      intro y hy he
      rw [List.map_append, List.nodup_append] at h
      exact h.2.2 y.1 (List.mem_map_of_mem hy) b.1 (by simp) he
    have hmem : ∀ y, y ∈ mapInsert (·.1) b acc ↔ y = b ∨ y ∈ acc :=
      fun y => ⟨mem_mapInsert, fun hy => hy.elim (fun e => by subst e; exact mem_mapInsert_new hn) mem_mapInsert_old⟩
    rw [List.foldl_cons, attrMap_mem_acc as, hmem]
    · rw [List.mem_cons, or_assoc]
      exact ⟨fun hq => hq.elim (fun e => .inr (.inl e)) (fun hq => hq.elim .inl (fun hq => .inr (.inr hq))),
        fun hq => hq.elim (fun e => .inr (.inl e)) (fun hq => hq.elim .inl (fun hq => .inr (.inr hq)))⟩
    · have hp : (mapInsert (·.1) b acc).Perm (b :: acc) := by
        clear h hmem
        induction acc with
        | nil => exact List.Perm.refl _
        | cons y ys ih =>
          rw [mapInsert, if_neg (fun e => hn y (by simp) e.symm)]
          split
          · exact List.Perm.refl _
          · exact ((ih (fun z hz => hn z (by simp [hz]))).cons y).trans (List.Perm.swap _ _ _)
      have hq : (mapInsert (·.1) b acc ++ as).Perm (acc ++ b :: as) :=
        (hp.append_right as).trans ((List.perm_middle).symm)
      exact (hq.map _).nodup_iff.mpr h

theorem attrMap_mem {as : List (Bytes × Bytes)} (h : (as.map (·.1)).Nodup) (a : Bytes × Bytes) : a ∈ attrMap as ↔ a ∈ as := by
  rw [attrMap, attrMap_mem_acc as [] (by simpa using h)]
  simp

/-! ### The property -/

/-- **C64**: what is read of a comment that was written is the comment. -/
def C64_Statement : Prop := ∀ (block : Bytes) (c : MdCom), XmlName block → c.Good → ({} : MdCom).fromXml (c.toXml block) = c

/-- What is read of a comment that was written, in full: texts lose the blanks around them, the attributes that the library wrote are
also among the attributes of the user, and a few things are lost.  `readBack` says it for each part. -/
theorem C64_read_partial (block : Bytes) (c : MdCom) (hb : XmlName block) (hc : c.Good) :
    ({} : MdCom).fromXml (c.toXml block) = c.readBack := com_read hc hb

/-- The text is XML, and its nodes are those that were written. -/
theorem C64_node_partial (block : Bytes) (c : MdCom) (hb : XmlName block) (hc : c.Good) :
    xmlParse (c.toXml block) = some ((c.node block).asRead 0) := parse_text (com_good hc hb)

/-- The attributes of the user are all read, with their values; those that are added are those of the library. -/
theorem C64_attributes_partial (p : MdProp) (hp : p.Good) (a : Bytes × Bytes) :
    a ∈ p.readBack.std.custom ↔ a ∈ p.std.custom ∨ (a ∈ p.own ∧ a.2 ≠ []) := by
  have hn : ((given p.own ++ p.std.custom).map (·.1)).Nodup := by
    refine (keys_nodup hp.1 (prop_keys p)).sublist (List.Sublist.map _ ?_)
    rw [List.append_assoc]
    exact (given_sublist _).append (List.sublist_append_right _ _)
  show a ∈ attrMap (given p.own ++ p.std.custom) ↔ _
  rw [attrMap_mem hn, List.mem_append, given, List.mem_filter]
  simp only [Bool.not_eq_true', List.isEmpty_eq_false_iff]
  exact or_comm

/-- The properties of the comment, with their names, types, units and values. -/
theorem C64_properties_partial (block : Bytes) (c : MdCom) (hb : XmlName block) (hc : c.Good) :
    (({} : MdCom).fromXml (c.toXml block)).common.props = c.common.props.map MdProp.readBack ∧
    ∀ p ∈ c.common.props, p.readBack.name = p.name ∧ p.readBack.value = trim p.value ∧ p.readBack.unit = trim p.unit ∧
      p.readBack.desc = trim p.desc ∧ p.readBack.readOnly = p.readOnly ∧ (p.type ≠ .hex → p.readBack.type = p.type) := by
  rw [C64_read_partial block c hb hc]
  refine ⟨?_, ?_⟩
  · rw [MdCom.readBack]
    obtain ⟨s, n, d, P, T, L, E⟩ := c.common
    rw [MdTree.readBack]
    rfl
  · intro p _
    refine ⟨rfl, rfl, rfl, rfl, rfl, ?_⟩
    intro h
    show p.type.readBack = p.type
    revert h
    cases p.type <;> first | exact fun _ => rfl | exact fun h => absurd rfl h

/-- Comments that are made with the calls `AddProperty`, `AddTree`, `AddList` and `AddEnumerate` can be written and read, if no tree is
added under the name of a list or an enumeration. -/
theorem C64_built_partial (block : Bytes) (c : MdCom) (ops : List MdOp) (hb : XmlName block)
    (ht : c.text.Good) (hn : c.names.Good) (hf : c.formula.Good) (hops : ∀ o ∈ ops, o.Good)
    (hdis : ∀ o ∈ ops, ∀ q ∈ ops, ∀ n, o.treeName = some n → q.listName ≠ some n) (hc : c.common = ops.foldl MdOp.apply .empty) :
    ({} : MdCom).fromXml (c.toXml block) = c.readBack := by
  have h0 : MdTree.empty.Good := by
    rw [MdTree.empty, MdTree.Good]
    refine ⟨⟨by decide, plainLine_nil, List.Pairwise.nil, by simp⟩, rfl, plainLine_nil, plainLine_nil, by simp, List.Pairwise.nil, trivial,
      List.Pairwise.nil, trivial, List.Pairwise.nil, by simp, List.Pairwise.nil, by simp, by simp⟩
  have h1 := run_good (ops := ops) hops (N := ops.filterMap MdOp.listName)
    (fun o ho n hn => List.mem_filterMap.mpr ⟨o, ho, hn⟩)
    (fun o ho n hn hm => by
      obtain ⟨q, hq, he⟩ := List.mem_filterMap.mp hm
      exact hdis o ho q hq n hn he) h0 ⟨by simp [MdTree.empty, MdTree.lists], by simp [MdTree.empty, MdTree.enums]⟩
  rw [← hc] at h1
  exact C64_read_partial block c hb ⟨ht, hn, hf, h1.1, h1.2.1, h1.2.2.1, h1.2.2.2⟩

/-- A text that is not XML is taken as it is. -/
theorem C64_plain_partial (c : MdCom) (s : Bytes) (b : Byte) (h : b ≠ 0x3C#8) : c.fromXml (b :: s) = { c with text := { text := b :: s } } := by
  rw [MdCom.fromXml, if_pos h]

/-! ### Examples -/

/-- "HD" -/
def exBlockName : Bytes := [0x48#8, 0x44#8]
/-- "a" -/
def exA : Bytes := [0x61#8]
/-- "b" -/
def exB : Bytes := [0x62#8]
/-- "1" -/
def ex1 : Bytes := [0x31#8]

/-- A comment with a property, a tree with a property, a list, an enumeration, names, and a formula with a variable. -/
def exCom : MdCom where
  text := { text := exA, std := { ci := 3, lang := exB, custom := [([0x78#8], ex1)] } }
  common := .mk {} [] [] [{ name := exA, value := ex1, type := .integer, unit := exB, std := { custom := [([0x78#8], exB)] } }]
    [.mk {} exA exB [{ name := exB, value := exA, readOnly := true }] [] [] []]
    [.mk {} exB [] [{ name := exB, value := ex1 }] [] [] []]
    [{ prop := { name := [0x63#8] }, values := [{ text := exA }, { text := exB }] }]
  names := { default := exA, names := [{ text := exB }], description := [{ text := exA }] }
  formula := { syntax_ := { str := { text := exA } }, customs := [{ str := { text := exB }, source := exA }],
               vars := [{ str := { text := exA }, cn := exB, raw := true }] }

theorem std_empty_good : ({} : MdStd).Good := ⟨by decide, plainLine_nil, List.Pairwise.nil, by simp⟩

theorem exCom_good : exCom.Good := by
  have e := std_empty_good
  have lA : PlainLine exA := by unfold PlainLine; decide
  have lB : PlainLine exB := by unfold PlainLine; decide
  have l1 : PlainLine ex1 := by unfold PlainLine; decide
  have tA : PlainText exA := by unfold PlainText; decide
  have tB : PlainText exB := by unfold PlainText; decide
  have t1 : PlainText ex1 := by unfold PlainText; decide
  have n := plainLine_nil
  have t0 := plainText_nil
  have hx : ∀ v, PlainLine v → ∀ a ∈ [(([0x78#8] : Bytes), v)], XmlName a.1 ∧ PlainLine a.2 ∧ ∀ r ∈ reservedKeys, sameWord a.1 r = false := by
    intro v hv a ha
    rw [List.mem_singleton] at ha
    subst ha
    exact ⟨⟨_, _, rfl, by decide, by decide⟩, hv, (by decide : ∀ r ∈ reservedKeys, sameWord [0x78#8] r = false)⟩
  have gA : GoodName exA := ⟨by decide, by decide, lA⟩
  have gB : GoodName exB := ⟨by decide, by decide, lB⟩
  have gC : GoodName [0x63#8] := ⟨by decide, by decide, by unfold PlainLine; decide⟩
  have v : PlainLine wVersion10 := by unfold PlainLine; decide
  have sA : MdStr.Good { text := exA } := ⟨e, tA⟩
  have sB : MdStr.Good { text := exB } := ⟨e, tB⟩
  refine ⟨⟨⟨by decide, lB, List.pairwise_singleton _ _, hx _ l1⟩, tA⟩, ?_, ?_, ?_, rfl, rfl, rfl⟩
  · exact ⟨e, lA, by simpa [exCom] using sB, by simp [exCom], by simp [exCom], by simpa [exCom] using sA⟩
  · refine ⟨e, ⟨sA, v, n⟩, ?_, List.pairwise_singleton _ _, ?_, List.pairwise_singleton _ _⟩
    · intro s hs
      simp only [exCom, List.mem_singleton] at hs
      subst hs
      exact ⟨⟨sB, v, lA⟩, by decide, by decide⟩
    · intro s hs
      simp only [exCom, List.mem_singleton] at hs
      subst hs
      exact ⟨⟨sA, lB, n, n, n, n, n⟩, by decide, by decide⟩
  · simp only [exCom, MdTree.Good, AllTreesGood, forall_eq, and_true, true_and, List.not_mem_nil, false_implies, implies_true,
      and_self, MdProp.Good, MdEnum.Good, SortedBy, List.pairwise_singleton, List.Pairwise.nil, List.mem_cons, or_false, forall_eq_or_imp,
      MdTree.name]
    have e2 : MdStd.Good { custom := [([0x78#8], exB)] } := ⟨by decide, n, List.pairwise_singleton _ _, hx _ lB⟩
    refine ⟨e, by decide, n, n, ⟨e2, gA, n, lB, n, t1⟩, ⟨e, gA.2.1, lA, lB, e, gB, n, n, n, tA⟩, ⟨e, gB.2.1, lB, n, e, gB, n, n, n, t1⟩,
      ⟨⟨e, gC, n, n, n, t0⟩, sA, sB⟩, by decide, by decide⟩

example : ({} : MdCom).fromXml (exCom.toXml exBlockName) = exCom.readBack :=
  C64_read_partial exBlockName exCom ⟨_, _, rfl, by decide, by decide⟩ exCom_good

example : exCom.readBack.common.props.map (fun p => (p.name, p.value, p.unit, p.type)) = [(exA, ex1, exB, .integer)] := by decide
example : exCom.readBack.common.trees.map (fun p => (p.name, p.desc, p.props.map fun p => (p.name, p.readOnly))) = [(exA, exB, [(exB, true)])] := by
  decide
example : exCom.readBack.formula.vars.map (fun v => (v.cn, v.raw)) = [(exB, true)] := by decide

/-! ### What is not read back -/

/-- The attributes that the library wrote are among those of the user after reading. -/
theorem C64_attributes_false : ¬ C64_Statement := by
  intro h
  have := h exBlockName exCom ⟨_, _, rfl, by decide, by decide⟩ exCom_good
  rw [C64_read_partial exBlockName exCom ⟨_, _, rfl, by decide, by decide⟩ exCom_good] at this
  have h2 := congrArg (fun c : MdCom => c.common.props.map fun p => p.std.custom.map (·.1)) this
  exact absurd h2 (by decide)

/-- A comment with a number in hexadecimal form, an enumeration with a value and a variable with indexes. -/
def exLost : MdCom where
  common := (MdTree.empty.addProp { name := exA, value := ex1, type := .hex }).addEnum { prop := { name := exB, value := ex1 } }
  formula := { syntax_ := { str := { text := exA } }, vars := [{ str := { text := exA }, indexes := [1, 2] }] }

/-- A number in hexadecimal form is an integer after reading, the value of an enumeration and the indexes of a variable are lost. -/
theorem C64_lost :
    (exLost.common.props.map (·.type) = [.hex] ∧ exLost.common.enums.map (·.prop.value) = [ex1] ∧ exLost.formula.vars.map (·.indexes) = [[1, 2]]) ∧
    let r := ({} : MdCom).fromXml (exLost.toXml exBlockName)
    r.common.props.map (·.type) = [.integer] ∧ r.common.enums.map (·.prop.value) = [[]] ∧ r.formula.vars.map (·.indexes) = [[]] := by
  refine ⟨by decide, by decide +kernel⟩

/-- A comment with one list, to which a tree of the same name is added. -/
def exClash : MdTree := (MdTree.empty.addList (.mk {} exA [] [{ name := exB, value := ex1 }] [] [] [])).addTree (.mk {} exA [] [] [] [] [])

/-- The list is there before writing and is not there after reading. -/
theorem C64_list_lost : exClash.lists.map MdTree.name = [exA] ∧
    (({} : MdCom).fromXml (({ common := exClash } : MdCom).toXml exBlockName)).common.lists.map MdTree.name = [] := by
  refine ⟨by decide, by decide +kernel⟩

/-- Two properties whose names differ by a blank. -/
def exBlank : MdTree := (MdTree.empty.addProp { name := exA, value := ex1 }).addProp { name := exA ++ [0x20#8], value := exB }

/-- Of two properties whose names differ only by a blank one is lost. -/
theorem C64_blank_lost : exBlank.props.map (·.value) = [ex1, exB] ∧
    (({} : MdCom).fromXml (({ common := exBlank } : MdCom).toXml exBlockName)).common.props.map (·.value) = [ex1] := by
  refine ⟨by decide, by decide +kernel⟩

/-- Two properties, the first of which has an index of 64 bits. -/
def exIndex : MdTree := (MdTree.empty.addProp { name := exA, std := { ci := 2 ^ 63 } }).addProp { name := exB, value := ex1 }

/-- With an index of 64 bits the reading stops: the property and all that come after it are lost. -/
theorem C64_index_lost : exIndex.props.map (·.name) = [exA, exB] ∧
    (({} : MdCom).fromXml (({ common := exIndex } : MdCom).toXml exBlockName)).common.props.map (·.name) = [] := by
  refine ⟨by decide, by decide +kernel⟩

/-- A comment whose names (formula) have an index of 64 bits, and which has a property. -/
def exNamesIndex : MdCom where
  common := MdTree.empty.addProp { name := exB, value := ex1 }
  names := { std := { ci := 2 ^ 63 }, names := [{ text := exA }] }
/-- The same for a formula. -/
def exFormIndex : MdCom where
  common := MdTree.empty.addProp { name := exB, value := ex1 }
  formula := { std := { ci := 2 ^ 63 }, syntax_ := { str := { text := exA } } }

/-- With an index of 64 bits at the names or at the formula they are lost, and so are all properties, which come after them. -/
theorem C64_names_index_lost :
    (let r := ({} : MdCom).fromXml (exNamesIndex.toXml exBlockName)
     r.names.names.map (·.text) = [] ∧ r.common.props.map (·.name) = []) ∧
    (let r := ({} : MdCom).fromXml (exFormIndex.toXml exBlockName)
     r.formula.syntax_.str.text = [] ∧ r.common.props.map (·.name) = []) := by
  refine ⟨by decide +kernel, by decide +kernel⟩

/-- Reading into a comment that is not empty adds to it: a property that is there keeps its value. -/
theorem C64_read_twice : (({ common := MdTree.empty.addProp { name := exA, value := ex1 } } : MdCom).fromXml
    (({ common := MdTree.empty.addProp { name := exA, value := exB } } : MdCom).toXml exBlockName)).common.props.map (·.value) = [ex1] := by
  decide +kernel

end Mdf
