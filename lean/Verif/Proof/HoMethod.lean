import Verif.Proof.Ho

set_option linter.unusedSimpArgs false

/-! # Computation methods and the comments of conversions -/

namespace Mdf

/-- What is read of a method that is written. -/
def HoMethod.back (m : HoMethod) : HoMethod where
  category := m.category
  unitRef := trim m.unitRef
  phys := (m.phys.filter HoConstr.HasLimit).map HoConstr.back
  internal := (m.internal.filter HoConstr.HasLimit).map HoConstr.back
  scales := m.scales.map HoScale.back
  defNum := m.defNum.map rnd
  defText := m.defText.map trim

theorem method_kept (m : HoMethod) : m.Kept m.back :=
  ⟨rfl, rfl, rfl, allRel_map _ _ fun c _ => constr_kept c, allRel_map _ _ fun c _ => constr_kept c, allRel_map _ _ fun s _ => scale_kept s,
    readSix_map _, rfl⟩

theorem categoryWord (t : HoCategory) : HoCategory.ofWord (trim t.word) = t ∧ trim t.word ≠ [] := by cases t <;> decide

theorem groupWord (t : HoGroupCategory) : HoGroupCategory.ofWord (trim t.word) = t := by cases t <;> decide

theorem hoRef_leaf (tag v : Bytes) : hoRef (hoRefLeaf tag v) = trim v := by
  have e : attrText (hoRefLeaf tag v).attrs hIdRef = trim v := by
    show attrText [(hIdRef, v)] hIdRef = _
    rw [attrText, List.find?_cons_of_pos (by exact (by decide : sameWord hIdRef hIdRef = true))]
    rfl
  rw [hoRef, e]
  split
  · rename_i h
    rw [h]
    rfl
  · rfl

theorem hoRef_text (tag v : Bytes) : hoRef (.mk tag [] v []) = trim v := rfl

/-- A reference, if it is there. -/
theorem fold_ref {σ : Type} {f : σ → XmlTree → σ} {s : σ} (tag v : Bytes) (set : Bytes → σ)
    (hf : f s (hoRefLeaf tag v) = set (hoRef (hoRefLeaf tag v))) (h0 : set [] = s) (l : Nat) (rest : List XmlTree) :
    (allAsRead l ((if v = [] then [] else [hoRefLeaf tag v]) ++ rest)).foldl f s = (allAsRead l rest).foldl f (set (trim v)) := by
  by_cases h : v = []
  · rw [if_pos h, h]
    show _ = (allAsRead l rest).foldl f (set [])
    rw [h0]
    rfl
  · rw [if_neg h, List.cons_append, List.nil_append, hoRefLeaf, fold_leaf]
    rw [hoRefLeaf] at hf
    rw [hf]
    have := hoRef_leaf tag v
    rw [hoRefLeaf] at this
    rw [this]

/-- The default value. -/
theorem default_read (m : HoMethod) (c : HoCategory) (u : Bytes) (p i : List HoConstr) (ss : List HoScale) (l : Nat) :
    (allAsRead l (hoOptNum (hoTag hV) m.defNum ++ hoOptText (hoTag hVT) m.defText)).foldl HoMethod.readDefault (HoMethod.mk {} c u p i ss none none) =
    HoMethod.mk {} c u p i ss (m.defNum.map rnd) (m.defText.map trim) := by
  rw [← List.append_nil (hoOptText (hoTag hVT) m.defText), fold_optNum (hoTag hV) m.defNum (fun x => HoMethod.mk {} c u p i ss x none) (fun _ => rfl) rfl,
    fold_optText (hoTag hVT) m.defText (fun x => HoMethod.mk {} c u p i ss (m.defNum.map rnd) x) (fun _ => rfl) rfl]
  rfl

/-- The computations and the default value. -/
theorem toPhys_read {m : HoMethod} (hs : ∀ s ∈ m.scales, s.Good) (c : HoCategory) (u : Bytes) (p i : List HoConstr) (l : Nat) :
    (allAsRead l (hoList (hoTag hScales) (m.scales.map HoScale.node) m.scales.isEmpty ++ hoConst (hoTag hDefault) m.defNum m.defText)).foldl
      HoMethod.readPhys (HoMethod.mk {} c u p i [] none none) =
    HoMethod.mk {} c u p i (m.scales.map HoScale.back) (m.defNum.map rnd) (m.defText.map trim) := by
  rw [hoConst, ← List.append_nil (hoList (hoTag hDefault) _ _),
    fold_list (r := HoMethod.mk {} c u p i (m.scales.map HoScale.back) none none) (hoTag hScales) _ _ ?_ _ ?_,
    fold_list (r := HoMethod.mk {} c u p i (m.scales.map HoScale.back) (m.defNum.map rnd) (m.defText.map trim)) (hoTag hDefault) _ _ ?_ _ ?_]
  · rfl
  · intro h
    rw [Bool.and_eq_true, Option.isNone_iff_eq_none, Option.isNone_iff_eq_none] at h
    rw [h.1, h.2]
    rfl
  · intro _ v
    exact default_read m c u p i _ _
  · intro h
    rw [List.isEmpty_iff] at h
    rw [h]
    rfl
  · intro _ v
    show HoMethod.mk {} c u p i ([] ++ _) none none = _
    rw [List.nil_append]
    congr 1
    exact kids_map HoScale.node _ _ _ (fun x _ => by rw [HoScale.node, isTagName_mk]; decide) (fun x hx => scale_read (hs x hx) _)

theorem method_read {m : HoMethod} (hm : m.Good) (l : Nat) : HoMethod.read {} (m.node.asRead l) = m.back := by
  rw [HoMethod.read, HoMethod.node, asRead_mk, XmlTree.kids,
    fold_names (f := HoMethod.readKid) _ (by rintro t a v k (rfl | rfl | rfl) <;> rfl), hoLeaf, fold_leaf]
  have e1 : HoMethod.readKid {} (.mk (hoTag hCategory) [] m.category.word []) = HoMethod.mk {} m.category [] [] [] [] none none := by
    show (if trim m.category.word = [] then _ else HoMethod.mk {} (.ofWord (trim m.category.word)) [] [] [] [] none none) = _
    rw [if_neg (categoryWord _).2, (categoryWord _).1]
  rw [e1, HoMethod.refNodes, fold_ref (hoTag hUnitRef) m.unitRef (fun x => HoMethod.mk {} m.category x [] [] [] none none) rfl rfl,
    HoMethod.toPhys, ← List.append_nil (hoList (hoTag hToPhys) _ _),
    fold_list (r := HoMethod.mk {} m.category (trim m.unitRef) ((m.phys.filter HoConstr.HasLimit).map HoConstr.back) [] [] none none)
      (hoTag hPhys) _ _ ?_ _ ?_,
    fold_list (r := HoMethod.mk {} m.category (trim m.unitRef) ((m.phys.filter HoConstr.HasLimit).map HoConstr.back)
      ((m.internal.filter HoConstr.HasLimit).map HoConstr.back) [] none none) (hoTag hInternal) _ _ ?_ _ ?_,
    fold_list (r := m.back) (hoTag hToPhys) _ _ ?_ _ ?_]
  · rfl
  · intro h
    rw [Bool.and_eq_true, Bool.and_eq_true, List.isEmpty_iff, Option.isNone_iff_eq_none, Option.isNone_iff_eq_none] at h
    rw [HoMethod.back, h.1.1, h.1.2, h.2]
    rfl
  · intro _ v
    exact toPhys_read hm.2.2.1 _ _ _ _ _
  · intro h
    rw [List.isEmpty_iff] at h
    rw [h]
    rfl
  · intro _ v
    show HoMethod.mk {} m.category (trim m.unitRef) _ ([] ++ hoConstrs _) [] none none = _
    rw [constrs_read]
    rfl
  · intro h
    rw [List.isEmpty_iff] at h
    rw [h]
    rfl
  · intro _ v
    show HoMethod.mk {} m.category (trim m.unitRef) ([] ++ hoConstrs _) [] [] none none = _
    rw [constrs_read]
    rfl

theorem good_method {m : HoMethod} (hm : m.Good) : m.node.Good := by
  refine ⟨hoTag_name (by decide), noAttrs_good, plainText_nil, ?_⟩
  refine allGood_append (good_hoNames hm.1) ⟨good_leaf (hoTag_name (by decide)) ?_, ?_⟩
  · cases m.category <;> (unfold PlainText; decide)
  · refine allGood_append ?_ (allGood_append (good_list (hoTag_name (by decide)) (good_constrs _) _)
      (allGood_append (good_list (hoTag_name (by decide)) (good_constrs _) _) ?_))
    · rw [HoMethod.refNodes]
      split
      · trivial
      · exact good_one (good_refLeaf (hoTag_name (by decide)) hm.2.1)
    · refine good_list (hoTag_name (by decide)) (allGood_append (good_list (hoTag_name (by decide)) (good_map fun s hs => good_scale (hm.2.2.1 s hs)) _)
        (good_list (hoTag_name (by decide)) (allGood_append (good_optNum (hoTag_name (by decide)) _)
          (good_optText (hoTag_name (by decide)) hm.2.2.2)) _)) _

/-! ## The text of a comment whose root has attributes -/

theorem xml_root {root : Bytes} {as : List (Bytes × Bytes)} {ks : List XmlTree} (hr : XmlName root) (ha : GoodAttrs as) (hk : AllGood ks) :
    ∃ bs v, (XmlTree.mk root as [] ks).text = 0x3C#8 :: bs ∧ xmlParse (0x3C#8 :: bs) = some (.mk root as v (allAsRead 1 ks)) := by
  have hg : (XmlTree.mk root as [] ks).Good := ⟨hr, ha, plainText_nil, hk⟩
  have hp := parse_text hg
  have hh : (XmlTree.mk root as [] ks).text.head? = some 0x3C#8 := by
    rw [text_body, List.head?_append, body_head]
    rfl
  cases he : (XmlTree.mk root as [] ks).text with
  | nil => rw [he] at hh; cases hh
  | cons b bs =>
    rw [he] at hh hp
    simp only [List.head?_cons, Option.some.injEq] at hh
    subst hh
    exact ⟨bs, _, rfl, by rw [hp, asRead_mk]⟩

theorem rootAttrs_good (a : Bool) : GoodAttrs (hoRootAttrs a) := by
  cases a with
  | false => exact noAttrs_good
  | true => exact oneAttr_good ⟨_, _, rfl, by decide, by decide⟩ (by unfold PlainLine; decide)

theorem tag_method (c : CcCom) : HasTag (hoTag hMethod) c.methodNodes := by
  intro k hk
  rw [CcCom.methodNodes] at hk
  split at hk
  · rw [List.mem_singleton] at hk
    exact ⟨_, _, _, hk⟩
  · cases hk

theorem cc_good {c : CcCom} (hg : c.Good) : AllGood c.kids := by
  obtain ⟨⟨h1, h2, h3, h4, _⟩, g⟩ := hg
  refine allGood_append (good_text h1) (allGood_append (good_names h2) (allGood_append (good_formula h3) (allGood_append ?_ (good_common h4))))
  rw [CcCom.methodNodes]
  split
  · exact good_one (good_method g)
  · trivial

theorem ccCom_read {c : CcCom} (hg : c.Good) : ({} : CcCom).fromXml c.toXml =
    { com := c.com.readBack, method := if c.method.isActive then c.method.back else {} } := by
  obtain ⟨bs, v, e1, e2⟩ := xml_root (root := trim (bCC ++ tComment)) ⟨_, _, rfl, by decide, by decide⟩ (rootAttrs_good c.method.isActive) (cc_good hg)
  obtain ⟨⟨h1, h2, h3, h4, h5, h6, h7⟩, g⟩ := hg
  have k1 : ({} : MdCom).fromKids (allAsRead 1 c.kids) = (c.com.readBack, false) := by
    unfold CcCom.kids
    rw [com_text h1 rfl, com_names h2 rfl, com_formula h3 rfl, com_own (by unfold FreeTag; decide) 1 _ (tag_method _),
      ← List.append_nil c.com.commonNodes, com_common rfl h4 h5 h6 h7]
    rfl
  have k2 : ∀ m, (allAsRead 1 c.kids).foldl CcCom.readKid { com := m } =
      { com := m, method := if c.method.isActive then c.method.back else {} } := by
    intro m
    unfold CcCom.kids
    rw [fold_skip tTX (fun _ _ _ => rfl) 1 _ (tag_nodes _ _), fold_skip tNames (fun _ _ _ => rfl) 1 _ (tag_names _),
      fold_skip tFormula (fun _ _ _ => rfl) 1 _ (tag_formula _), CcCom.methodNodes, ← List.append_nil c.com.commonNodes]
    by_cases ha : c.method.isActive = true
    · rw [if_pos ha, if_pos ha, List.cons_append, List.nil_append, allAsRead, List.foldl_cons]
      have e : CcCom.readKid { com := m } (c.method.node.asRead 1) = { com := m, method := HoMethod.read {} (c.method.node.asRead 1) } := by
        rw [HoMethod.node, asRead_mk]
        rfl
      rw [e, method_read g, fold_skip tCommon (fun _ _ _ => rfl) 1 _ (tag_common _)]
      rfl
    · rw [if_neg ha, if_neg ha, List.nil_append, fold_skip tCommon (fun _ _ _ => rfl) 1 _ (tag_common _)]
      rfl
  rw [CcCom.toXml, e1, CcCom.fromXml.eq_def]
  dsimp only
  rw [if_neg (by simp), e2]
  dsimp only
  rw [XmlTree.kids, k1]
  dsimp only
  rw [k2]

theorem bare_iff (m : HoMethod) : m.Bare ↔ m.isActive = false := by
  obtain ⟨⟨a, b, c⟩, d, e, f, g, h, i, j⟩ := m
  simp only [HoMethod.Bare, HoMethod.isActive, HoNames.isActive, HoMethod.mk.injEq, HoNames.mk.injEq, Bool.or_eq_false_iff]
  cases a <;> cases b <;> cases c <;> cases e <;> cases f <;> cases g <;> cases h <;> cases i <;> cases j <;> simp

end Mdf
