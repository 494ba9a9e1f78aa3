import Verif.Proof.HoMethod

set_option linter.unusedSimpArgs false

/-! # Unit specifications and the comment of the header -/

namespace Mdf

/-! ## Units -/

/-- What is read of a unit. -/
def HoUnit.back (u : HoUnit) : HoUnit where
  id := u.id
  display := trim u.display
  factor := rnd u.factor
  offset := rnd u.offset
  dimRef := trim u.dimRef

theorem unit_kept (u : HoUnit) : u.Kept u.back := ⟨rfl, rfl, rfl, readReal_rnd _, readReal_rnd _, rfl⟩

theorem attr_id {v : Bytes} (h : trim v = v) : attrText [(hId, v)] hId = v := by
  rw [attrText, List.find?_cons_of_pos (by exact (by decide : sameWord hId hId = true))]
  exact h

theorem unit_read {u : HoUnit} (hu : u.Good) (l : Nat) : HoUnit.read {} (u.node.asRead l) = u.back := by
  have e0 : attrText (u.node.asRead l).attrs hId = u.id := by
    rw [HoUnit.node, asRead_mk]
    exact attr_id hu.2.1.2.1
  rw [HoUnit.read, e0, HoUnit.node, asRead_mk, XmlTree.kids,
    fold_names (f := HoUnit.readKid) _ (by rintro t a v k (rfl | rfl | rfl) <;> rfl),
    fold_texts (hoTag hDisplay) u.display (fun x => HoUnit.mk {} u.id x 1 0 []) (fun _ => rfl) rfl]
  have eN : ∀ rest, (allAsRead (l + 1) (u.numNodes ++ rest)).foldl HoUnit.readKid (HoUnit.mk {} u.id (trim u.display) 1 0 []) =
      (allAsRead (l + 1) rest).foldl HoUnit.readKid (HoUnit.mk {} u.id (trim u.display) (rnd u.factor) (rnd u.offset) []) := by
    intro rest
    rw [HoUnit.numNodes]
    by_cases h : u.factor ≠ 1 ∨ u.offset ≠ 0
    · rw [if_pos h, List.cons_append, List.cons_append, List.nil_append, hoNumLeaf, hoNumLeaf, fold_leaf, fold_leaf]
      have e1 : HoUnit.readKid (HoUnit.mk {} u.id (trim u.display) 1 0 []) (.mk (hoTag hFactor) [] (generalText u.factor) []) =
        HoUnit.mk {} u.id (trim u.display) (hoDouble (.mk (hoTag hFactor) [] (generalText u.factor) [])) 0 [] := rfl
      have e2 : ∀ q, HoUnit.readKid (HoUnit.mk {} u.id (trim u.display) q 0 []) (.mk (hoTag hOffset) [] (generalText u.offset) []) =
        HoUnit.mk {} u.id (trim u.display) q (hoDouble (.mk (hoTag hOffset) [] (generalText u.offset) [])) [] := fun _ => rfl
      rw [e1, e2, hoDouble_general, hoDouble_general]
    · have h1 : u.factor = 1 := by
        by_contra hh
        exact h (.inl hh)
      have h2 : u.offset = 0 := by
        by_contra hh
        exact h (.inr hh)
      rw [if_neg h, h1, h2, rnd_one, rnd_zero, List.nil_append]
  rw [eN, ← List.append_nil (hoTexts (hoTag hDimRef) u.dimRef),
    fold_texts (hoTag hDimRef) u.dimRef (fun x => HoUnit.mk {} u.id (trim u.display) (rnd u.factor) (rnd u.offset) x) (fun _ => rfl) rfl]
  rfl

theorem good_unit {u : HoUnit} (hu : u.Good) : u.node.Good := by
  refine ⟨hoTag_name (by decide), oneAttr_good ⟨_, _, rfl, by decide, by decide⟩ hu.2.1.2.2, plainText_nil, ?_⟩
  refine allGood_append (good_hoNames hu.1) (allGood_append (good_texts (hoTag_name (by decide)) hu.2.2.1)
    (allGood_append ?_ (good_texts (hoTag_name (by decide)) hu.2.2.2)))
  rw [HoUnit.numNodes]
  split
  · exact ⟨good_numLeaf (hoTag_name (by decide)) _, good_numLeaf (hoTag_name (by decide)) _, trivial⟩
  · trivial

/-! ## Dimensions -/

/-- What is read of a dimension. -/
def HoDim.back (d : HoDim) : HoDim :=
  ⟨{}, d.id, rnd d.length, rnd d.mass, rnd d.time, rnd d.current, rnd d.temperature, 0, 0⟩

theorem dim_kept (d : HoDim) : d.Kept d.back := by
  refine ⟨rfl, rfl, ?_, rfl, rfl⟩
  intro b h1 h2
  cases b
  case molar => exact absurd rfl h1
  case luminous => exact absurd rfl h2
  all_goals exact readReal_rnd _

theorem fold_exp {σ : Type} {f : σ → XmlTree → σ} {s : σ} (b : HoBase) (q : ℚ) (set : ℚ → σ)
    (hf : ∀ w, f s (.mk b.written [] w []) = set (hoDouble (.mk b.written [] w []))) (h0 : set 0 = s) (l : Nat) (rest : List XmlTree) :
    (allAsRead l (hoExp b q ++ rest)).foldl f s = (allAsRead l rest).foldl f (set (rnd q)) := by
  rw [hoExp]
  by_cases h : q = 0
  · rw [if_pos h, h, rnd_zero, h0]
    rfl
  · rw [if_neg h, List.cons_append, List.nil_append, hoNumLeaf, fold_leaf, hf, hoDouble_general]

theorem tag_exp (b : HoBase) (q : ℚ) : HasTag b.written (hoExp b q) := by
  intro k hk
  rw [hoExp] at hk
  split at hk
  · cases hk
  · rw [List.mem_singleton] at hk
    exact ⟨_, _, _, hk⟩

theorem dim_read {d : HoDim} (hd : d.Good) (l : Nat) : HoDim.read {} (d.node.asRead l) = d.back := by
  have e0 : attrText (d.node.asRead l).attrs hId = d.id := by
    rw [HoDim.node, asRead_mk]
    exact attr_id hd.2.2.1
  rw [HoDim.read, e0, HoDim.node, asRead_mk, XmlTree.kids,
    fold_names (f := HoDim.readKid) _ (by rintro t a v k (rfl | rfl | rfl) <;> rfl),
    fold_exp .length d.length (fun x => HoDim.mk {} d.id x 0 0 0 0 0 0) (fun _ => rfl) rfl,
    fold_exp .mass d.mass (fun x => HoDim.mk {} d.id (rnd d.length) x 0 0 0 0 0) (fun _ => rfl) rfl,
    fold_exp .time d.time (fun x => HoDim.mk {} d.id (rnd d.length) (rnd d.mass) x 0 0 0 0) (fun _ => rfl) rfl,
    fold_exp .current d.current (fun x => HoDim.mk {} d.id (rnd d.length) (rnd d.mass) (rnd d.time) x 0 0 0) (fun _ => rfl) rfl,
    fold_exp .temperature d.temperature (fun x => HoDim.mk {} d.id (rnd d.length) (rnd d.mass) (rnd d.time) (rnd d.current) x 0 0) (fun _ => rfl) rfl,
    fold_skip (HoBase.written .molar) (fun _ _ _ => rfl) _ _ (tag_exp _ _), ← List.append_nil (hoExp .luminous d.luminous),
    fold_skip (HoBase.written .luminous) (fun _ _ _ => rfl) _ _ (tag_exp _ _)]
  rfl

theorem good_exp (b : HoBase) (q : ℚ) : AllGood (hoExp b q) := by
  rw [hoExp]
  split
  · trivial
  · refine good_one (good_numLeaf ?_ q)
    cases b <;> exact ⟨_, _, rfl, by decide, by decide⟩

theorem good_dim {d : HoDim} (hd : d.Good) : d.node.Good := by
  refine ⟨hoTag_name (by decide), oneAttr_good ⟨_, _, rfl, by decide, by decide⟩ hd.2.2.2, plainText_nil, ?_⟩
  exact allGood_append (good_hoNames hd.1) (allGood_append (good_exp _ _) (allGood_append (good_exp _ _) (allGood_append (good_exp _ _)
    (allGood_append (good_exp _ _) (allGood_append (good_exp _ _) (allGood_append (good_exp _ _) (good_exp _ _)))))))

/-! ## Groups -/

theorem refs_read {g : HoGroup} (l : Nat) : ∀ (rs : List Bytes), (∀ r ∈ rs, trim r = r) → ∀ acc,
    (allAsRead l (rs.map (hoRefLeaf (hoTag hUnitRef)))).foldl HoGroup.readRef { g with refs := acc } =
    { g with refs := rs.foldl (fun m x => mapInsert id x m) acc }
  | [], _, _ => rfl
  | r :: rs, h, acc => by
    rw [List.map_cons, allAsRead, hoRefLeaf, asRead_leafNode, List.foldl_cons, List.foldl_cons]
    have e : HoGroup.readRef { g with refs := acc } (.mk (hoTag hUnitRef) [(hIdRef, r)] [] []) =
        { g with refs := mapInsert id (hoRef (.mk (hoTag hUnitRef) [(hIdRef, r)] [] [])) acc } := rfl
    have e2 := hoRef_leaf (hoTag hUnitRef) r
    rw [hoRefLeaf] at e2
    rw [e, e2, h r (by simp)]
    exact refs_read l rs (fun x hx => h x (by simp [hx])) _

theorem group_read {g : HoGroup} (hg : g.Good) (l : Nat) : HoGroup.read {} (g.node.asRead l) = g.trimmed := by
  have tagR : HasTag (hoTag hUnitRefs) (hoList (hoTag hUnitRefs) (g.refs.map (hoRefLeaf (hoTag hUnitRef))) g.refs.isEmpty) := by
    rw [hoList]
    intro k hk
    split at hk
    · cases hk
    · rw [List.mem_singleton] at hk
      exact ⟨_, _, _, hk⟩
  have e0 : HoNames.read {} (g.node.asRead l) = g.names.trimmed := by
    rw [HoNames.read, HoGroup.node, asRead_mk, XmlTree.kids]
    refine names_back hg.1 _ _ ?_
    intro m
    rw [hoLeaf, fold_leaf, ← List.append_nil (hoList (hoTag hUnitRefs) _ _)]
    have e : HoNames.readKid m (.mk (hoTag hCategory) [] g.category.word []) = m := rfl
    rw [e, fold_skip (hoTag hUnitRefs) (fun _ _ _ => rfl) _ _ tagR]
    rfl
  have e1 : ({} : HoGroup).names.read (g.node.asRead l) = g.names.trimmed := e0
  rw [HoGroup.read, e1, HoGroup.node, asRead_mk, XmlTree.kids,
    fold_names (f := HoGroup.readKid) _ (by rintro t a v k (rfl | rfl | rfl) <;> rfl), hoLeaf, fold_leaf]
  have e2 : HoGroup.readKid { names := g.names.trimmed } (.mk (hoTag hCategory) [] g.category.word []) =
      { names := g.names.trimmed, category := g.category } := by
    show HoGroup.mk _ (HoGroupCategory.ofWord (trim g.category.word)) _ = _
    rw [groupWord]
  rw [e2, ← List.append_nil (hoList (hoTag hUnitRefs) _ _), fold_list (r := g.trimmed) (hoTag hUnitRefs) _ _ ?_ _ ?_]
  · rfl
  · intro h
    rw [List.isEmpty_iff] at h
    rw [HoGroup.trimmed, h]
  · intro _ v
    show (allAsRead _ (g.refs.map (hoRefLeaf (hoTag hUnitRef)))).foldl HoGroup.readRef
      { ({ names := g.names.trimmed, category := g.category } : HoGroup) with refs := [] } = _
    rw [refs_read _ g.refs (fun r hr => (hg.2.2.2 r hr).1), mapInsert_all (by rw [List.nil_append]; exact hg.2.2.1)]
    rfl

theorem good_group {g : HoGroup} (hg : g.Good) : g.node.Good := by
  refine ⟨hoTag_name (by decide), noAttrs_good, plainText_nil, ?_⟩
  refine allGood_append (good_hoNames hg.1) ⟨good_leaf (hoTag_name (by decide)) ?_, ?_⟩
  · cases g.category <;> (unfold PlainText; decide)
  · exact good_list (hoTag_name (by decide)) (good_map fun r hr => good_refLeaf (hoTag_name (by decide)) (hg.2.2.2 r hr).2) _

/-! ## Revisions -/

theorem find_texts {tag : Bytes} (v : Bytes) (want : Bytes) (h : (XmlTree.mk tag [] [] []).isTagName want = true) (l : Nat) (rest : List XmlTree) :
    (allAsRead l (hoTexts tag v ++ rest)).find? (·.isTagName want) =
    if v = [] then (allAsRead l rest).find? (·.isTagName want) else some (.mk tag [] v []) := by
  rw [hoTexts]
  by_cases hv : v = []
  · rw [if_pos hv, if_pos hv, List.nil_append]
  · rw [if_neg hv, if_neg hv, List.cons_append, List.nil_append, allAsRead, hoLeaf, asRead_leafNode,
      List.find?_cons_of_pos (by rw [isTagName_mk]; exact h)]

theorem find_other {tag : Bytes} (want : Bytes) (h : (XmlTree.mk tag [] [] []).isTagName want = false) (l : Nat) (rest : List XmlTree) :
    ∀ {ks : List XmlTree} (_ : HasTag tag ks), (allAsRead l (ks ++ rest)).find? (·.isTagName want) = (allAsRead l rest).find? (·.isTagName want)
  | [], _ => rfl
  | k :: ks, hk => by
    obtain ⟨a, v, t, rfl⟩ := hk k (by simp)
    rw [List.cons_append, allAsRead, List.find?_cons_of_neg (by rw [asRead_isTagName, isTagName_mk, h]; simp)]
    exact find_other want h l rest (fun k hm => hk k (by simp [hm]))

theorem company_read (c : HoCompany) (l : Nat) : HoCompany.read (c.node.asRead l) = c.trimmed := by
  obtain ⟨a, b, d⟩ := c
  have k : ((HoCompany.mk a b d).node.asRead l).kids =
      allAsRead (l + 1) (hoTexts (hoTag hData) a ++ (hoTexts (hoTag hLabel) b ++ (hoTexts (hoTag hState) d ++ []))) := by
    rw [HoCompany.node, asRead_mk, List.append_nil]
    rfl
  have e1 : hoDataRef ((HoCompany.mk a b d).node.asRead l) = trim a := by
    rw [hoDataRef, k, find_texts _ _ (by decide)]
    by_cases h : a = []
    · rw [if_pos h, find_other _ (by decide) _ _ (tag_texts _ _), find_other _ (by decide) _ _ (tag_texts _ _), h]
      rfl
    · rw [if_neg h]
      rfl
  have e2 : ((HoCompany.mk a b d).node.asRead l).property hLabel = trim b := by
    rw [XmlTree.property, k, find_other _ (by decide) _ _ (tag_texts _ _), find_texts _ _ (by decide)]
    by_cases h : b = []
    · rw [if_pos h, find_other _ (by decide) _ _ (tag_texts _ _), h]
      rfl
    · rw [if_neg h]
      rfl
  have e3 : ((HoCompany.mk a b d).node.asRead l).property hState = trim d := by
    rw [XmlTree.property, k, find_other _ (by decide) _ _ (tag_texts _ _), find_other _ (by decide) _ _ (tag_texts _ _), find_texts _ _ (by decide)]
    by_cases h : d = []
    · rw [if_pos h, h]
      rfl
    · rw [if_neg h]
      rfl
  rw [HoCompany.read, e1, e2, e3]
  rfl

theorem mod_read (m : HoMod) (l : Nat) : HoMod.read (m.node.asRead l) = m.trimmed := by
  obtain ⟨a, b⟩ := m
  have k : ((HoMod.mk a b).node.asRead l).kids = .mk (hoTag hChange) [] a [] :: allAsRead (l + 1) (hoTexts (hoTag hReason) b ++ []) := by
    rw [HoMod.node, asRead_mk, List.append_nil, XmlTree.kids, allAsRead, hoLeaf, asRead_leafNode]
  have e1 : ((HoMod.mk a b).node.asRead l).property hChange = trim a := by
    rw [XmlTree.property, k, List.find?_cons_of_pos (by rw [isTagName_mk]; decide)]
    rfl
  have e2 : ((HoMod.mk a b).node.asRead l).property hReason = trim b := by
    rw [XmlTree.property, k, List.find?_cons_of_neg (by rw [isTagName_mk]; decide), find_texts _ _ (by decide)]
    by_cases h : b = []
    · rw [if_pos h, h]
      rfl
    · rw [if_neg h]
      rfl
  rw [HoMod.read, e1, e2]
  rfl

theorem rev_read (r : HoRev) (l : Nat) : HoRev.read {} (r.node.asRead l) = r.trimmed := by
  rw [HoRev.read, HoRev.node, asRead_mk, XmlTree.kids, HoRev.refNodes,
    fold_ref (hoTag hMember) r.member (fun x => HoRev.mk x [] [] [] [] []) rfl rfl,
    fold_texts (hoTag hLabel) r.label (fun x => HoRev.mk (trim r.member) x [] [] [] []) (fun _ => rfl) rfl,
    fold_texts (hoTag hState) r.state (fun x => HoRev.mk (trim r.member) (trim r.label) x [] [] []) (fun _ => rfl) rfl,
    fold_texts (hoTag hDate) r.date (fun x => HoRev.mk (trim r.member) (trim r.label) (trim r.state) x [] []) (fun _ => rfl) rfl,
    ← List.append_nil (hoList (hoTag hMods) _ _),
    fold_list (r := HoRev.mk (trim r.member) (trim r.label) (trim r.state) (trim r.date) (r.companies.map HoCompany.trimmed) [])
      (hoTag hCompanies) _ _ ?_ _ ?_,
    fold_list (r := r.trimmed) (hoTag hMods) _ _ ?_ _ ?_]
  · rfl
  · intro h
    rw [List.isEmpty_iff] at h
    rw [HoRev.trimmed, h]
    rfl
  · intro _ v
    show HoRev.mk _ _ _ _ _ ([] ++ _) = _
    rw [List.nil_append, HoRev.trimmed]
    congr 1
    exact kids_map HoMod.node _ _ _ (fun x _ => by rw [HoMod.node, isTagName_mk]; decide) (fun x _ => mod_read x _)
  · intro h
    rw [List.isEmpty_iff] at h
    rw [h]
    rfl
  · intro _ v
    show HoRev.mk _ _ _ _ ([] ++ _) _ = _
    rw [List.nil_append]
    congr 1
    exact kids_map HoCompany.node _ _ _ (fun x _ => by rw [HoCompany.node, isTagName_mk]; decide) (fun x _ => company_read x _)

theorem good_rev {r : HoRev} (hr : r.Good) : r.node.Good := by
  obtain ⟨h1, h2, h3, h4, h5, h6⟩ := hr
  refine ⟨hoTag_name (by decide), noAttrs_good, plainText_nil, ?_⟩
  refine allGood_append ?_ (allGood_append (good_texts (hoTag_name (by decide)) h2) (allGood_append (good_texts (hoTag_name (by decide)) h3)
    (allGood_append (good_texts (hoTag_name (by decide)) h4) (allGood_append (good_list (hoTag_name (by decide)) (good_map ?_) _)
      (good_list (hoTag_name (by decide)) (good_map ?_) _)))))
  · rw [HoRev.refNodes]
    split
    · trivial
    · exact good_one (good_refLeaf (hoTag_name (by decide)) h1)
  · intro c hc
    obtain ⟨a, b, d⟩ := h5 c hc
    exact ⟨hoTag_name (by decide), noAttrs_good, plainText_nil, allGood_append (good_texts (hoTag_name (by decide)) a)
      (allGood_append (good_texts (hoTag_name (by decide)) b) (good_texts (hoTag_name (by decide)) d))⟩
  · intro m hm
    obtain ⟨a, b⟩ := h6 m hm
    exact ⟨hoTag_name (by decide), noAttrs_good, plainText_nil, good_leaf (hoTag_name (by decide)) a, good_texts (hoTag_name (by decide)) b⟩

/-! ## The specification -/

/-- What is read of a specification. -/
def HoSpec.back (s : HoSpec) : HoSpec where
  revisions := s.revisions.map HoRev.trimmed
  dims := s.dims.map HoDim.back
  groups := s.groups.map HoGroup.trimmed
  units := s.units.map HoUnit.back

theorem admin_read (s q : HoSpec) (hq : q.revisions = []) (l : Nat) (rest : List XmlTree) :
    (allAsRead l (s.adminNodes ++ rest)).foldl HoSpec.readKid q =
    (allAsRead l rest).foldl HoSpec.readKid { q with revisions := s.revisions.map HoRev.trimmed } := by
  rw [HoSpec.adminNodes]
  refine fold_list (f := HoSpec.readKid) _ _ _ ?_ _ ?_ rest
  · intro h
    rw [List.isEmpty_iff] at h
    rw [h, List.map_nil, ← hq]
  · intro _ v
    show (allAsRead (l + 1) [.mk (hoTag hRevisions) [] [] (s.revisions.map HoRev.node)]).foldl HoSpec.readAdmin q = _
    rw [allAsRead, allAsRead, List.foldl_cons, List.foldl_nil, asRead_mk]
    show { q with revisions := q.revisions ++ _ } = _
    rw [hq, List.nil_append]
    congr 1
    exact kids_map HoRev.node _ _ _ (fun x _ => by rw [HoRev.node, isTagName_mk]; decide) (fun x _ => rev_read x _)

theorem dims_fold (q : HoSpec) (l : Nat) : ∀ (ds : List HoDim), (∀ d ∈ ds, d.Good) → ∀ acc,
    (allAsRead l (ds.map HoDim.node)).foldl HoSpec.readDim { q with dims := acc } =
    { q with dims := (ds.map HoDim.back).foldl (fun m x => mapInsert HoDim.id x m) acc }
  | [], _, _ => rfl
  | d :: ds, h, acc => by
    have hd := h d (by simp)
    rw [List.map_cons, allAsRead, List.foldl_cons, List.map_cons, List.foldl_cons, HoSpec.readDim,
      if_pos (by rw [asRead_isTagName, HoDim.node, isTagName_mk]; decide), dim_read hd, HoSpec.addDim, if_neg (show d.back.id ≠ [] from hd.2.1)]
    exact dims_fold q l ds (fun x hx => h x (by simp [hx])) _

theorem groups_fold (q : HoSpec) (l : Nat) : ∀ (gs : List HoGroup), (∀ g ∈ gs, g.Good) → ∀ acc,
    (allAsRead l (gs.map HoGroup.node)).foldl HoSpec.readGroup { q with groups := acc } =
    { q with groups := (gs.map HoGroup.trimmed).foldl (fun m x => mapInsert (fun x : HoGroup => x.names.short) x m) acc }
  | [], _, _ => rfl
  | g :: gs, h, acc => by
    have hg := h g (by simp)
    have hn : g.trimmed.names.short ≠ [] := by
      show trim g.names.short ≠ []
      rw [hg.2.1.2.1]
      exact hg.2.1.1
    rw [List.map_cons, allAsRead, List.foldl_cons, List.map_cons, List.foldl_cons, HoSpec.readGroup,
      if_pos (by rw [asRead_isTagName, HoGroup.node, isTagName_mk]; decide), group_read hg, HoSpec.addGroup, if_neg hn]
    exact groups_fold q l gs (fun x hx => h x (by simp [hx])) _

theorem units_fold (q : HoSpec) (l : Nat) : ∀ (us : List HoUnit), (∀ u ∈ us, u.Good) → ∀ acc,
    (allAsRead l (us.map HoUnit.node)).foldl HoSpec.readUnit { q with units := acc } =
    { q with units := (us.map HoUnit.back).foldl (fun m x => mapInsert HoUnit.id x m) acc }
  | [], _, _ => rfl
  | u :: us, h, acc => by
    have hu := h u (by simp)
    rw [List.map_cons, allAsRead, List.foldl_cons, List.map_cons, List.foldl_cons, HoSpec.readUnit,
      if_pos (by rw [asRead_isTagName, HoUnit.node, isTagName_mk]; decide), unit_read hu, HoSpec.addUnit, if_neg (show u.back.id ≠ [] from hu.2.1.1)]
    exact units_fold q l us (fun x hx => h x (by simp [hx])) _

theorem spec_read {s : HoSpec} (hs : s.Good) (l : Nat) (tag : Bytes) (a : List (Bytes × Bytes)) (v : Bytes) :
    HoSpec.read {} (.mk tag a v (allAsRead l (s.adminNodes ++ (hoList (hoTag hDims) (s.dims.map HoDim.node) s.dims.isEmpty ++
        (hoList (hoTag hGroups) (s.groups.map HoGroup.node) s.groups.isEmpty ++
         hoList (hoTag hUnits) (s.units.map HoUnit.node) s.units.isEmpty))))) = s.back := by
  obtain ⟨h1, h2, h3, h4, h5, h6, h7⟩ := hs
  rw [HoSpec.read, XmlTree.kids, admin_read s _ rfl, ← List.append_nil (hoList (hoTag hUnits) _ _),
    fold_list (r := HoSpec.mk (s.revisions.map HoRev.trimmed) (s.dims.map HoDim.back) [] []) (hoTag hDims) _ _ ?_ _ ?_,
    fold_list (r := HoSpec.mk (s.revisions.map HoRev.trimmed) (s.dims.map HoDim.back) (s.groups.map HoGroup.trimmed) []) (hoTag hGroups) _ _ ?_ _ ?_,
    fold_list (r := s.back) (hoTag hUnits) _ _ ?_ _ ?_]
  · rfl
  · intro h
    rw [List.isEmpty_iff] at h
    rw [HoSpec.back, h]
    rfl
  · intro _ v
    show (allAsRead _ (s.units.map HoUnit.node)).foldl HoSpec.readUnit
      { HoSpec.mk (s.revisions.map HoRev.trimmed) (s.dims.map HoDim.back) (s.groups.map HoGroup.trimmed) [] with units := [] } = _
    rw [units_fold _ _ _ h4, mapInsert_all]
    · rfl
    · rw [List.nil_append, SortedBy, List.pairwise_map]
      exact h7
  · intro h
    rw [List.isEmpty_iff] at h
    rw [h]
    rfl
  · intro _ v
    show (allAsRead _ (s.groups.map HoGroup.node)).foldl HoSpec.readGroup
      { HoSpec.mk (s.revisions.map HoRev.trimmed) (s.dims.map HoDim.back) [] [] with groups := [] } = _
    rw [groups_fold _ _ _ h3, mapInsert_all]
    · rfl
    · rw [List.nil_append, SortedBy, List.pairwise_map]
      refine List.Pairwise.imp_of_mem ?_ h6
      intro x y hx hy h
      show nameLt (trim x.names.short) (trim y.names.short) = true
      rw [(h3 x hx).2.1.2.1, (h3 y hy).2.1.2.1]
      exact h
  · intro h
    rw [List.isEmpty_iff] at h
    rw [h]
    rfl
  · intro _ v
    show (allAsRead _ (s.dims.map HoDim.node)).foldl HoSpec.readDim
      { HoSpec.mk (s.revisions.map HoRev.trimmed) [] [] [] with dims := [] } = _
    rw [dims_fold _ _ _ h2, mapInsert_all]
    · rfl
    · rw [List.nil_append, SortedBy, List.pairwise_map]
      exact h5

theorem good_spec {s : HoSpec} (hs : s.Good) : AllGood s.nodes := by
  obtain ⟨h1, h2, h3, h4, _⟩ := hs
  rw [HoSpec.nodes]
  split
  · refine good_one ⟨hoTag_name (by decide), noAttrs_good, plainText_nil, allGood_append ?_ (allGood_append ?_ (allGood_append ?_ ?_))⟩
    · exact good_list (hoTag_name (by decide)) (good_one (by exact ⟨hoTag_name (by decide), noAttrs_good, plainText_nil, good_map fun r hr => good_rev (h1 r hr)⟩)) _
    · exact good_list (hoTag_name (by decide)) (good_map fun r hr => good_dim (h2 r hr)) _
    · exact good_list (hoTag_name (by decide)) (good_map fun r hr => good_group (h3 r hr)) _
    · exact good_list (hoTag_name (by decide)) (good_map fun r hr => good_unit (h4 r hr)) _
  · trivial

theorem spec_inactive {s : HoSpec} (h : s.isActive = false) : s = {} := by
  obtain ⟨a, b, c, d⟩ := s
  simp only [HoSpec.isActive, Bool.or_eq_false_iff] at h
  cases a <;> cases b <;> cases c <;> cases d <;> simp at h ⊢

/-! ## The comment of the header -/

theorem lift_fold : ∀ {ks : List XmlTree} (_ : ∀ k ∈ ks, k.isTagName hSpec = false) (q : HdFull),
    ks.foldl HdFull.readKid q = { q with hd := ks.foldl HdCom.readKid q.hd }
  | [], _, _ => rfl
  | k :: ks, h, q => by
    rw [List.foldl_cons, List.foldl_cons, lift_fold (fun x hx => h x (by simp [hx]))]
    have e : HdFull.readKid q k = { q with hd := q.hd.readKid k } := by
      rw [HdFull.readKid, h k (by simp), HdCom.readKid]
      by_cases h1 : k.isTagName tTimeSource = true
      · rw [if_pos h1]
      · rw [if_neg h1]
        by_cases h2 : k.isTagName tConstants = true
        · rw [if_pos h2]
        · rw [if_neg h2, if_neg (by simp), if_neg h1, if_neg h2]
    rw [e]

theorem tag_source (h : HdCom) : HasTag tTimeSource (h.timeSource.nodes tTimeSource) := tag_nodes _ _

theorem tag_consts (h : HdCom) : HasTag tConstants h.constNodes := by
  intro k hk
  rw [HdCom.constNodes] at hk
  split at hk
  · cases hk
  · rw [List.mem_singleton] at hk
    exact ⟨_, _, _, hk⟩

theorem tag_spec (s : HoSpec) : HasTag (hoTag hSpec) s.nodes := by
  intro k hk
  rw [HoSpec.nodes] at hk
  split at hk
  · rw [List.mem_singleton] at hk
    exact ⟨_, _, _, hk⟩
  · cases hk

theorem not_spec {tag : Bytes} (ht : (XmlTree.mk tag [] [] []).isTagName hSpec = false) {ks : List XmlTree} (h : HasTag tag ks) (l : Nat) :
    ∀ k ∈ allAsRead l ks, k.isTagName hSpec = false := by
  intro k hk
  rw [allAsRead_map] at hk
  obtain ⟨x, hx, rfl⟩ := List.mem_map.mp hk
  obtain ⟨a, v, s, rfl⟩ := h x hx
  rw [asRead_isTagName, isTagName_mk, ht]

theorem own_first {h : HdCom} (hg : h.Good) (c : MdCom) :
    (allAsRead 1 (h.com.text.nodes tTX ++ h.timeSource.nodes tTimeSource ++ h.constNodes)).foldl HdCom.readKid { com := c } =
    { com := c, timeSource := h.readBack.timeSource, constants := h.readBack.constants } := by
  have e := hd_kids_own hg 1 c
  have eq : (h.com.text.nodes tTX ++ h.timeSource.nodes tTimeSource ++
      (if h.constants = [] then [] else [.mk tConstants [] [] (h.constants.map constNode)]) ++
      if h.com.common.isActive then [.mk tCommon [] [] h.com.common.inner] else []) =
      h.com.text.nodes tTX ++ h.timeSource.nodes tTimeSource ++ h.constNodes ++ (h.com.commonNodes ++ []) := by
    rw [List.append_nil]
    rfl
  rw [eq, allAsRead_append, List.foldl_append, fold_skip tCommon (fun _ _ _ => rfl) 1 _ (tag_common _)] at e
  exact e

theorem hdFull_good {h : HdFull} (hg : h.hd.Good) (hu : h.units.Good) : AllGood h.kids := by
  have g := (hd_node_good hg).2.2.2
  have eq : (h.hd.com.text.nodes tTX ++ h.hd.timeSource.nodes tTimeSource ++
      (if h.hd.constants = [] then [] else [.mk tConstants [] [] (h.hd.constants.map constNode)]) ++
      if h.hd.com.common.isActive then [.mk tCommon [] [] h.hd.com.common.inner] else []) =
      h.hd.com.text.nodes tTX ++ (h.hd.timeSource.nodes tTimeSource ++ (h.hd.constNodes ++ h.hd.com.commonNodes)) := by
    rw [List.append_assoc, List.append_assoc]
    rfl
  rw [eq, allGood_iff] at g
  refine allGood_append ?_ (allGood_append ?_ (allGood_append ?_ (allGood_append (good_spec hu) ?_))) <;>
    (rw [allGood_iff]; intro k hk; exact g k (by simp [hk]))

theorem hdFull_read {h : HdFull} (hg : h.hd.Good) (hu : h.units.Good) : ({} : HdFull).fromXml h.toXml =
    { hd := h.hd.readBack, units := h.units.back } := by
  obtain ⟨bs, v, e1, e2⟩ := xml_root (root := trim (hcHD ++ tComment)) ⟨_, _, rfl, by decide, by decide⟩ (rootAttrs_good h.units.isActive) (hdFull_good hg hu)
  have k1 : ({} : MdCom).fromKids (allAsRead 1 h.kids) = (h.hd.readBack.com, false) := by
    obtain ⟨h1, h2, h3, h4, h5, h6, h7, h8⟩ := hg
    unfold HdFull.kids
    rw [com_text h1 rfl, com_own (by unfold FreeTag; decide) 1 _ (tag_source _), com_own (by unfold FreeTag; decide) 1 _ (tag_consts _),
      com_own (by unfold FreeTag; decide) 1 _ (tag_spec _), ← List.append_nil h.hd.com.commonNodes, com_common rfl h2 h3 h4 h5]
    rfl
  have k2 : ∀ m, (allAsRead 1 h.kids).foldl HdFull.readKid { hd := { com := m } } =
      { hd := { com := m, timeSource := h.hd.readBack.timeSource, constants := h.hd.readBack.constants }, units := h.units.back } := by
    intro m
    unfold HdFull.kids
    have eq : h.hd.com.text.nodes tTX ++ (h.hd.timeSource.nodes tTimeSource ++ (h.hd.constNodes ++ (h.units.nodes ++ h.hd.com.commonNodes))) =
        (h.hd.com.text.nodes tTX ++ h.hd.timeSource.nodes tTimeSource ++ h.hd.constNodes) ++ (h.units.nodes ++ (h.hd.com.commonNodes ++ [])) := by
      simp only [List.append_assoc, List.append_nil]
    have e3 : (allAsRead 1 (h.hd.com.text.nodes tTX ++ h.hd.timeSource.nodes tTimeSource ++ h.hd.constNodes)).foldl HdFull.readKid
        { hd := { com := m } } = { hd := { com := m, timeSource := h.hd.readBack.timeSource, constants := h.hd.readBack.constants } } := by
      rw [lift_fold, own_first hg]
      intro k hk
      rw [allAsRead_append, allAsRead_append] at hk
      rcases List.mem_append.mp hk with hk | hk
      · rcases List.mem_append.mp hk with hk | hk
        · exact not_spec (by decide) (tag_nodes _ _) 1 k hk
        · exact not_spec (by decide) (tag_source _) 1 k hk
      · exact not_spec (by decide) (tag_consts _) 1 k hk
    rw [eq, allAsRead_append, List.foldl_append, e3]
    · by_cases ha : h.units.isActive = true
      · rw [HoSpec.nodes, if_pos ha, List.cons_append, List.nil_append, allAsRead, List.foldl_cons, asRead_mk]
        have e : ∀ q : HdFull, ∀ v k, HdFull.readKid q (.mk (hoTag hSpec) [] v k) = { q with units := q.units.read (.mk (hoTag hSpec) [] v k) } := fun _ _ _ => rfl
        rw [e, fold_skip tCommon (fun _ _ _ => rfl) 1 _ (tag_common _)]
        show HdFull.mk _ (HoSpec.read {} _) = _
        rw [spec_read hu]
      · rw [HoSpec.nodes, if_neg ha, List.nil_append, fold_skip tCommon (fun _ _ _ => rfl) 1 _ (tag_common _), spec_inactive (s := h.units) (by simpa using ha)]
        rfl
  rw [HdFull.toXml, e1, HdFull.fromXml.eq_def]
  dsimp only
  rw [if_neg (by simp), e2]
  dsimp only
  rw [XmlTree.kids]
  have k1' : ({} : HdFull).hd.com.fromKids (allAsRead 1 h.kids) = (h.hd.readBack.com, false) := k1
  rw [k1']
  dsimp only
  exact k2 _

/-! ## Adding -/

theorem apply_good {s : HoSpec} {o : HoOp} (hs : s.Good) (ho : o.Good) : (o.apply s).Good := by
  obtain ⟨h1, h2, h3, h4, h5, h6, h7⟩ := hs
  cases o with
  | revision r =>
    refine ⟨?_, h2, h3, h4, h5, h6, h7⟩
    intro x hx
    rcases List.mem_append.mp hx with hx | hx
    · exact h1 x hx
    · rw [List.mem_singleton] at hx
      subst hx
      exact ho
  | dim d =>
    rw [HoOp.apply, HoSpec.addDim, if_neg (by exact ho.2.1)]
    refine ⟨h1, ?_, h3, h4, mapInsert_sorted h5, h6, h7⟩
    intro x hx
    rcases mem_mapInsert hx with rfl | hx
    · exact ho
    · exact h2 x hx
  | group d =>
    rw [HoOp.apply, HoSpec.addGroup, if_neg (by exact ho.2.1.1)]
    refine ⟨h1, h2, ?_, h4, h5, mapInsert_sorted h6, h7⟩
    intro x hx
    rcases mem_mapInsert hx with rfl | hx
    · exact ho
    · exact h3 x hx
  | unit d =>
    rw [HoOp.apply, HoSpec.addUnit, if_neg (by exact ho.2.1.1)]
    refine ⟨h1, h2, h3, ?_, h5, h6, mapInsert_sorted h7⟩
    intro x hx
    rcases mem_mapInsert hx with rfl | hx
    · exact ho
    · exact h4 x hx

theorem run_spec_good : ∀ {ops : List HoOp} {s : HoSpec}, s.Good → (∀ o ∈ ops, o.Good) → (ops.foldl HoOp.apply s).Good
  | [], _, hs, _ => hs
  | o :: ops, s, hs, ho => by
    rw [List.foldl_cons]
    exact run_spec_good (apply_good hs (ho o (by simp))) (fun x hx => ho x (by simp [hx]))

theorem empty_spec_good : ({} : HoSpec).Good :=
  ⟨by simp, by simp, by simp, by simp, List.Pairwise.nil, List.Pairwise.nil, List.Pairwise.nil⟩

theorem run_unit (k : Bytes) : ∀ {ops : List HoOp} {s : HoSpec}, s.Good → (∀ o ∈ ops, o.Good) →
    (ops.foldl HoOp.apply s).units.find? (fun u => u.id == k) = (s.units.find? fun u => u.id == k).or (ops.findSome? (HoOp.unitOf k))
  | [], s, _, _ => by simp
  | o :: ops, s, hs, ho => by
    have hg := ho o (by simp)
    rw [List.foldl_cons, run_unit k (apply_good hs hg) (fun x hx => ho x (by simp [hx])), List.findSome?_cons]
    cases o with
    | revision r => rfl
    | dim d => rw [HoOp.apply, HoSpec.addDim, if_neg (by exact hg.2.1)]; rfl
    | group g => rw [HoOp.apply, HoSpec.addGroup, if_neg (by exact hg.2.1.1)]; rfl
    | unit u =>
      rw [HoOp.apply, HoSpec.addUnit, if_neg (by exact hg.2.1.1)]
      dsimp only
      rw [find_mapInsert k u hs.2.2.2.2.2.2, Option.or_assoc, HoOp.unitOf]
      by_cases h : u.id = k
      · rw [if_pos h]
        cases List.find? (fun u => u.id == k) s.units <;> simp
      · rw [if_neg h, Option.none_or]

theorem run_dim (k : Bytes) : ∀ {ops : List HoOp} {s : HoSpec}, s.Good → (∀ o ∈ ops, o.Good) →
    (ops.foldl HoOp.apply s).dims.find? (fun u => u.id == k) = (s.dims.find? fun u => u.id == k).or (ops.findSome? (HoOp.dimOf k))
  | [], s, _, _ => by simp
  | o :: ops, s, hs, ho => by
    have hg := ho o (by simp)
    rw [List.foldl_cons, run_dim k (apply_good hs hg) (fun x hx => ho x (by simp [hx])), List.findSome?_cons]
    cases o with
    | revision r => rfl
    | unit d => rw [HoOp.apply, HoSpec.addUnit, if_neg (by exact hg.2.1.1)]; rfl
    | group g => rw [HoOp.apply, HoSpec.addGroup, if_neg (by exact hg.2.1.1)]; rfl
    | dim u =>
      rw [HoOp.apply, HoSpec.addDim, if_neg (by exact hg.2.1)]
      dsimp only
      rw [find_mapInsert k u hs.2.2.2.2.1, Option.or_assoc, HoOp.dimOf]
      by_cases h : u.id = k
      · rw [if_pos h]
        cases List.find? (fun u => u.id == k) s.dims <;> simp
      · rw [if_neg h, Option.none_or]

theorem run_group (k : Bytes) : ∀ {ops : List HoOp} {s : HoSpec}, s.Good → (∀ o ∈ ops, o.Good) →
    (ops.foldl HoOp.apply s).groups.find? (fun u => u.names.short == k) =
    (s.groups.find? fun u => u.names.short == k).or (ops.findSome? (HoOp.groupOf k))
  | [], s, _, _ => by simp
  | o :: ops, s, hs, ho => by
    have hg := ho o (by simp)
    rw [List.foldl_cons, run_group k (apply_good hs hg) (fun x hx => ho x (by simp [hx])), List.findSome?_cons]
    cases o with
    | revision r => rfl
    | unit d => rw [HoOp.apply, HoSpec.addUnit, if_neg (by exact hg.2.1.1)]; rfl
    | dim g => rw [HoOp.apply, HoSpec.addDim, if_neg (by exact hg.2.1)]; rfl
    | group u =>
      rw [HoOp.apply, HoSpec.addGroup, if_neg (by exact hg.2.1.1)]
      dsimp only
      rw [find_mapInsert (key := fun u : HoGroup => u.names.short) k u hs.2.2.2.2.2.1, Option.or_assoc, HoOp.groupOf]
      by_cases h : u.names.short = k
      · rw [if_pos h]
        cases List.find? (fun u => u.names.short == k) s.groups <;> simp
      · rw [if_neg h, Option.none_or]

theorem run_revision : ∀ {ops : List HoOp} {s : HoSpec}, (ops.foldl HoOp.apply s).revisions = s.revisions ++ ops.filterMap HoOp.revisionOf
  | [], s => by simp
  | o :: ops, s => by
    rw [List.foldl_cons, run_revision]
    cases o with
    | revision r =>
      show (s.revisions ++ [r]) ++ _ = s.revisions ++ (r :: _)
      rw [List.append_assoc]
      rfl
    | dim d =>
      rw [HoOp.apply, HoSpec.addDim]
      split <;> rfl
    | group g =>
      rw [HoOp.apply, HoSpec.addGroup]
      split <;> rfl
    | unit u =>
      rw [HoOp.apply, HoSpec.addUnit]
      split <;> rfl

end Mdf
