import Verif.Proof.HdComment

/-!
**C67**: the fields of a header comment are returned as they were set, also after the comment was written and read.
-/

namespace Mdf

/-- **C67**: whatever calls are made on a new header comment, a text field, the file index and a constant have the value that was set last. -/
def C67_Statement : Prop := ∀ ops : List HcOp,
  (∀ f, (HdCom.run ops).hdText f = (lastOf (HcOp.textOf f) ops).getD []) ∧
  (HdCom.run ops).fileIndex = (lastOf HcOp.indexOf ops).getD (-1) ∧
  ∀ n, n ≠ [] → (HdCom.run ops).constant n = lastOf (HcOp.constOf n) ops

/-- **C67** (partial: it is the value that was set first).  Time source and comment are those that were set last. -/
theorem C67_set_partial (ops : List HcOp) :
    (∀ f, (HdCom.run ops).hdText f = (firstOf (HcOp.textOf f) ops).getD []) ∧
    (HdCom.run ops).fileIndex = (firstOf HcOp.indexOf ops).getD (-1) ∧
    (∀ n, n ≠ [] → (HdCom.run ops).constant n = firstOf (HcOp.constOf n) ops) ∧
    (HdCom.run ops).timeSource = (lastOf HcOp.sourceOf ops).getD {} ∧ (HdCom.run ops).com.text = (lastOf HcOp.commentOf ops).getD {} := by
  refine ⟨run_hdText ops, ?_, fun n hn => ?_, run_source ops {}, run_comment ops {}⟩
  · rw [HdCom.fileIndex, run_index_text]
    exact index_value _
  · rw [HdCom.run, run_consts n hn (h := {}) List.Pairwise.nil]
    rfl

/-- Where a field is set once only, first and last are the same: the value is the one that was set. -/
theorem C67_once_partial (ops : List HcOp) (f : HdField) (s : Bytes) (pre post : List HcOp) (he : ops = pre ++ .text f s :: post)
    (h1 : ∀ o ∈ pre, o.textOf f = none) : (HdCom.run ops).hdText f = s := by
  rw [run_hdText, firstOf, he, List.findSome?_append, List.findSome?_eq_none_iff.mpr h1, Option.none_or, List.findSome?_cons, HcOp.textOf,
    if_pos rfl]
  rfl

/-- What is read of a header comment that was written, in full. -/
theorem C67_read_partial (h : HdCom) (hg : h.Good) : ({} : HdCom).fromXml h.toXml = h.readBack := hd_read hg

theorem intText_space (v : Int) : ∀ c ∈ intText v, isSpace c = false := by
  have hd : ∀ n, ∀ c ∈ decText n, isSpace c = false := by
    intro n c hc
    have := decText_digits n c hc
    simp only [isSpace, BitVec.le_def] at *
    simp only [Bool.or_eq_false_iff, beq_eq_false_iff_ne, Bool.and_eq_false_iff, decide_eq_false_iff_not, ne_eq, ← BitVec.toNat_inj,
      BitVec.toNat_ofNat] at *
    omega
  unfold intText
  split
  · intro c hc
    rcases List.mem_cons.mp hc with rfl | hc
    · decide
    · exact hd _ c hc
  · exact hd _

theorem trim_intText (v : Int) : trim (intText v) = intText v :=
  trim_id (fun c hc => intText_space v c (List.mem_of_head? hc)) (fun c hc => intText_space v c (List.mem_of_getLast? hc))

/-- After writing and reading, the fields have the same values, the texts without the blanks around them. -/
theorem C67_read_back_partial (ops : List HcOp) (hg : ∀ o ∈ ops, o.Good) (r : HdCom) (hr : r = ({} : HdCom).fromXml (HdCom.run ops).toXml) :
    (∀ f, r.hdText f = trim ((firstOf (HcOp.textOf f) ops).getD [])) ∧
    r.fileIndex = (firstOf HcOp.indexOf ops).getD (-1) ∧
    (∀ n, n ≠ [] → r.constant n = (firstOf (HcOp.constOf n) ops).map trim) ∧
    r.timeSource.text = trim ((lastOf HcOp.sourceOf ops).getD {}).text ∧ r.com.text.text = trim ((lastOf HcOp.commentOf ops).getD {}).text := by
  have hgood : (HdCom.run ops).Good := run_hd_good (h := {}) (by
    refine ⟨⟨hd_std_good, plainText_nil⟩, ?_, rfl, rfl, rfl, ⟨hd_std_good, plainText_nil⟩, by simp, List.Pairwise.nil⟩
    show MdTree.empty.Good
    rw [MdTree.empty, MdTree.Good]
    exact ⟨hd_std_good, rfl, plainLine_nil, plainLine_nil, by simp, List.Pairwise.nil, trivial, List.Pairwise.nil, trivial, List.Pairwise.nil,
      by simp, List.Pairwise.nil, by simp, by simp⟩) hg
  have honly := run_only (ops := ops) (h := {}) (ps := []) ⟨rfl, List.Pairwise.nil⟩
  obtain ⟨s1, s2, s3, s4, s5⟩ := C67_set_partial ops
  rw [hd_read hgood] at hr
  subst hr
  refine ⟨fun f => ?_, ?_, fun n hn => ?_, ?_, ?_⟩
  · rw [← s1 f]
    exact getText_readBack honly (key_slash f)
  · have ht : (HdCom.run ops).readBack.com.common.getText hcFileIndex = ((firstOf HcOp.indexOf ops).map fun v => intText v.toInt).getD [] := by
      have := getText_readBack honly (k := hcFileIndex) (by decide)
      refine Eq.trans this ?_
      refine Eq.trans (congrArg trim (run_index_text ops)) ?_
      cases firstOf HcOp.indexOf ops with
      | none => rfl
      | some v => exact trim_intText _
    rw [HdCom.fileIndex, ht]
    exact index_value _
  · rw [← s3 n hn, HdCom.constant, HdCom.constant, HdCom.readBack]
    dsimp only
    rw [List.find?_map]
    show Option.map _ (Option.map constReadBack (((HdCom.run ops).constants).find? fun c => c.1.text == n)) = _
    cases (HdCom.run ops).constants.find? (fun c => c.1.text == n) <;> rfl
  · rw [← s4, HdCom.readBack]
    dsimp only
    split
    · rename_i he
      rw [he]
      rfl
    · rfl
  · rw [← s5]
    rfl

/-- The alternative names and the formula of a header comment are not written. -/
theorem C67_parts_lost (h : HdCom) (n : MdNames) (f : MdForm) :
    { h with com := { h.com with names := n, formula := f } }.toXml = h.toXml := rfl

/-- "me", "you" -/
theorem C67_second_ignored : ∃ a b : Bytes, a ≠ b ∧ (HdCom.run [.text .author a, .text .author b]).hdText .author = a :=
  ⟨[0x6D#8, 0x65#8], [0x79#8, 0x6F#8, 0x75#8], by decide, by decide⟩

/-- A header comment with a time source, a constant, and a property with an index of 64 bits. -/
def exHdIndex : HdCom where
  com := { common := exIndex }
  timeSource := { text := exB }
  constants := [({ text := exA }, ex1)]

/-- With an index of 64 bits at a property the time source and the constants are lost as well. -/
theorem C67_index_lost : (exHdIndex.constant exA = some ex1 ∧ exHdIndex.timeSource.text = exB) ∧
    let r := ({} : HdCom).fromXml exHdIndex.toXml
    r.constant exA = none ∧ r.timeSource.text = [] := by
  refine ⟨by decide, by decide +kernel⟩

theorem C67_full_statement_fails : ¬ C67_Statement := by
  intro h
  obtain ⟨a, b, hne, e⟩ := C67_second_ignored
  have h1 := (h [.text .author a, .text .author b]).1 .author
  rw [e] at h1
  exact hne h1

/-- The calls of an example. -/
def exHdOps : List HcOp :=
  [.comment { text := exA }, .text .author exA, .text .subject exB, .fileIndex (-5), .timeSource { text := exB }, .constant { text := exA } ex1]

theorem exHdOps_good : ∀ o ∈ exHdOps, o.Good := by
  have e := hd_std_good
  have tA : PlainText exA := by unfold PlainText; decide
  have tB : PlainText exB := by unfold PlainText; decide
  have t1 : PlainText ex1 := by unfold PlainText; decide
  have lA : PlainLine exA := by unfold PlainLine; decide
  intro o ho
  simp only [exHdOps, List.mem_cons, List.not_mem_nil, or_false] at ho
  rcases ho with rfl | rfl | rfl | rfl | rfl | rfl
  · exact ⟨e, tA⟩
  · exact tA
  · exact tB
  · trivial
  · exact ⟨e, tB⟩
  · exact ⟨e, lA, by decide, t1⟩

example : (({} : HdCom).fromXml (HdCom.run exHdOps).toXml).fileIndex = -5 :=
  (C67_read_back_partial exHdOps exHdOps_good _ rfl).2.1

example : (({} : HdCom).fromXml (HdCom.run exHdOps).toXml).constant exA = some ex1 :=
  (C67_read_back_partial exHdOps exHdOps_good _ rfl).2.2.1 exA (by decide)

end Mdf
