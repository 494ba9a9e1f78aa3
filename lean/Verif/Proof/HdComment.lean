import Verif.Spec.HdComment
import Verif.Proof.CommentApi
import Verif.Proof.Lookup

/-! # The header comment -/

namespace Mdf

/-! ## Reading -/

/-- A child that the comment itself does not know is skipped. -/
theorem fromKids_skip {c : MdCom} {t : XmlTree} {ts : List XmlTree} (h1 : ¬ t.isTagName tTX = true) (h2 : ¬ t.isTagName tCommon = true)
    (h3 : ¬ t.isTagName tFormula = true) (h4 : ¬ t.isTagName tNames = true) : c.fromKids (t :: ts) = c.fromKids ts := by
  rw [MdCom.fromKids, if_neg h1, if_neg h2, if_neg h3, if_neg h4]

theorem common_kids {c : MdCom} {t : MdTree} (h0 : c.common = .empty) (h4 : t.Good) (h5 : t.std = {}) (h6 : t.name = []) (h7 : t.desc = [])
    (l : Nat) : c.fromKids (allAsRead l (if t.isActive then [.mk tCommon [] [] t.inner] else [])) = ({ c with common := t.readBack }, false) := by
  by_cases ha : t.isActive = true
  · have ih := inner_read t h4 (l + 1) {} [] []
    rw [if_pos ha, allAsRead, allAsRead, MdCom.fromKids, asRead_isTagName,
      if_neg (by exact (by decide : ¬ (XmlTree.mk tCommon [] [] []).isTagName tTX = true)), asRead_isTagName,
      if_pos (by exact (by decide : (XmlTree.mk tCommon [] [] []).isTagName tCommon = true)), asRead_mk, MdTree.fromNode, if_pos (.inl rfl),
      h0, show MdTree.empty = .mk {} [] [] [] [] [] [] from rfl, ih]
    dsimp only
    rw [MdCom.fromKids]
    congr 2
    exact common_readBack h5 h6 h7
  · rw [if_neg ha, allAsRead, MdCom.fromKids, tree_inactive h5 (by simpa using ha), ← h0]

theorem const_keys (n : Bytes) : OwnKeys ([(kName, n)].map (·.1)) := names_keys n

theorem const_node {c : MdStr × Bytes} (hc : GoodConst c) : constNode c = .mk tConst (allAttrs c.1.std [(kName, c.1.text)]) c.2 [] := by
  have h := write_own hc.1 (const_keys c.1.text)
  have e : setAll [] [(kName, c.1.text)] = [(kName, c.1.text)] := by
    rw [setAll, List.foldl_cons, List.foldl_nil, if_neg (by simpa using hc.2.1.1)]
    rfl
  rw [e] at h
  rw [constNode, h]

theorem const_read {c : MdStr × Bytes} (hc : GoodConst c) (l : List (MdStr × Bytes)) :
    readConst l (constNode c) = mapInsert (fun x : MdStr × Bytes => x.1.text) (constReadBack c) l := by
  have hn : attrText (allAttrs c.1.std [(kName, c.1.text)]) kName = c.1.text := by
    rw [attrText_own hc.1 (const_keys _) (List.mem_singleton.mpr rfl), hc.2.1.2.1]
  have hr : MdStr.read {} (.mk tConst (allAttrs c.1.std [(kName, c.1.text)]) c.2 []) = ({ std := c.1.std, text := c.2 } : MdStr).readBack [(kName, c.1.text)] :=
    str_read (s := { std := c.1.std, text := c.2 }) ⟨hc.1, hc.2.2⟩ (const_keys _) tConst []
  rw [const_node hc, readConst, if_pos (by exact (by decide : (XmlTree.mk tConst [] [] []).isTagName tConst = true)), hr]
  simp only [XmlTree.attrs, XmlTree.value]
  rw [hn, hc.2.1.2.1, addConstant, if_neg hc.2.1.1]
  rfl

theorem consts_read : ∀ {cs acc : List (MdStr × Bytes)}, (∀ c ∈ cs, GoodConst c) →
    (cs.map constNode).foldl readConst acc = (cs.map constReadBack).foldl (fun m x => mapInsert (fun x : MdStr × Bytes => x.1.text) x m) acc
  | [], _, _ => rfl
  | c :: cs, acc, h => by
    rw [List.map_cons, List.foldl_cons, const_read (h c (by simp)), consts_read (fun x hx => h x (by simp [hx]))]
    rfl

theorem constNode_good {c : MdStr × Bytes} (hc : GoodConst c) : (constNode c).Good := by
  rw [const_node hc]
  refine ⟨⟨_, _, rfl, by decide, by decide⟩, allAttrs_good hc.1 (const_keys _) ?_, hc.2.2, trivial⟩
  intro a ha
  rw [List.mem_singleton] at ha
  subst ha
  exact hc.2.1.2.2

theorem source_nodes {s : MdStr} (hs : s.Good) :
    s.nodes tTimeSource = if s.text = [] then [] else [.mk tTimeSource (allAttrs s.std []) s.text []] := by
  rw [MdStr.nodes]
  by_cases h : s.text = []
  · rw [if_pos ⟨h, by decide⟩, if_pos h]
  · rw [if_neg (fun h' => h h'.1), if_neg h, write_nil hs.1]

theorem hd_node_good {h : HdCom} (hg : h.Good) : h.node.Good := by
  obtain ⟨h1, h2, h3, h4, h5, h6, h7, h8⟩ := hg
  refine ⟨⟨_, _, rfl, by decide, by decide⟩, ⟨by simp, fun a ha => by cases ha⟩, plainText_nil, ?_⟩
  rw [allGood_iff]
  intro k hk
  rw [List.mem_append, List.mem_append, List.mem_append, text_node h1, List.mem_singleton, source_nodes h6] at hk
  rcases hk with ((rfl | hk) | hk) | hk
  · exact ⟨⟨_, _, rfl, by decide, by decide⟩, allAttrs_good h1.1 ownKeys_nil (fun a ha => by cases ha), h1.2, trivial⟩
  · split at hk
    · cases hk
    · rw [List.mem_singleton] at hk
      subst hk
      exact ⟨⟨_, _, rfl, by decide, by decide⟩, allAttrs_good h6.1 ownKeys_nil (fun a ha => by cases ha), h6.2, trivial⟩
  · split at hk
    · cases hk
    · rw [List.mem_singleton] at hk
      subst hk
      refine ⟨⟨_, _, rfl, by decide, by decide⟩, ⟨by simp, fun a ha => by cases ha⟩, plainText_nil, ?_⟩
      rw [allGood_iff]
      intro k hk
      obtain ⟨c, hc, rfl⟩ := List.mem_map.mp hk
      exact constNode_good (h7 c hc)
  · split at hk
    · rw [List.mem_singleton] at hk
      subst hk
      exact ⟨⟨_, _, rfl, by decide, by decide⟩, ⟨by simp, fun a ha => by cases ha⟩, plainText_nil, inner_good _ h2⟩
    · cases hk

/-- The children as they are read. -/
theorem hd_kids_com {h : HdCom} (hg : h.Good) (l : Nat) :
    ({} : MdCom).fromKids (allAsRead l (h.com.text.nodes tTX ++ h.timeSource.nodes tTimeSource ++
      (if h.constants = [] then [] else [.mk tConstants [] [] (h.constants.map constNode)]) ++
      if h.com.common.isActive then [.mk tCommon [] [] h.com.common.inner] else [])) =
    ({ text := h.com.text.readBack [], common := h.com.common.readBack }, false) := by
  obtain ⟨h1, h2, h3, h4, h5, h6, h7, h8⟩ := hg
  rw [text_node h1, List.append_assoc, List.append_assoc, List.cons_append, List.nil_append, allAsRead, asRead_leafNode, MdCom.fromKids,
    if_pos (by exact (by decide : (XmlTree.mk tTX [] [] []).isTagName tTX = true))]
  have e0 : ({} : MdCom).text = {} := rfl
  rw [e0, str_read_nil h1, allAsRead_append, allAsRead_append, source_nodes h6]
  have skip : ∀ {c : MdCom} {tag : Bytes} {a : List (Bytes × Bytes)} {v : Bytes} {k rest : List XmlTree}, tag = tTimeSource ∨ tag = tConstants →
      c.fromKids (allAsRead l [.mk tag a v k] ++ rest) = c.fromKids rest := by
    intro c tag a v k rest ht
    rw [allAsRead, allAsRead, List.cons_append, List.nil_append]
    rcases ht with rfl | rfl
    · exact fromKids_skip (by rw [asRead_isTagName]; exact (by decide : ¬ (XmlTree.mk tTimeSource [] [] []).isTagName tTX = true))
        (by rw [asRead_isTagName]; exact (by decide : ¬ (XmlTree.mk tTimeSource [] [] []).isTagName tCommon = true))
        (by rw [asRead_isTagName]; exact (by decide : ¬ (XmlTree.mk tTimeSource [] [] []).isTagName tFormula = true))
        (by rw [asRead_isTagName]; exact (by decide : ¬ (XmlTree.mk tTimeSource [] [] []).isTagName tNames = true))
    · exact fromKids_skip (by rw [asRead_isTagName]; exact (by decide : ¬ (XmlTree.mk tConstants [] [] []).isTagName tTX = true))
        (by rw [asRead_isTagName]; exact (by decide : ¬ (XmlTree.mk tConstants [] [] []).isTagName tCommon = true))
        (by rw [asRead_isTagName]; exact (by decide : ¬ (XmlTree.mk tConstants [] [] []).isTagName tFormula = true))
        (by rw [asRead_isTagName]; exact (by decide : ¬ (XmlTree.mk tConstants [] [] []).isTagName tNames = true))
  have eS : ∀ (c : MdCom) (rest : List XmlTree), c.fromKids (allAsRead l (if h.timeSource.text = [] then [] else
      [.mk tTimeSource (allAttrs h.timeSource.std []) h.timeSource.text []]) ++ rest) = c.fromKids rest := by
    intro c rest
    split
    · rfl
    · exact skip (.inl rfl)
  have eC : ∀ (c : MdCom) (rest : List XmlTree), c.fromKids (allAsRead l (if h.constants = [] then [] else
      [.mk tConstants [] [] (h.constants.map constNode)]) ++ rest) = c.fromKids rest := by
    intro c rest
    split
    · rfl
    · exact skip (.inr rfl)
  rw [eS, eC]
  exact common_kids rfl h2 h3 h4 h5 l

theorem hd_kids_own {h : HdCom} (hg : h.Good) (l : Nat) (c : MdCom) :
    (allAsRead l (h.com.text.nodes tTX ++ h.timeSource.nodes tTimeSource ++
      (if h.constants = [] then [] else [.mk tConstants [] [] (h.constants.map constNode)]) ++
      if h.com.common.isActive then [.mk tCommon [] [] h.com.common.inner] else [])).foldl HdCom.readKid { com := c } =
    { com := c, timeSource := h.readBack.timeSource, constants := h.readBack.constants } := by
  obtain ⟨h1, h2, h3, h4, h5, h6, h7, h8⟩ := hg
  rw [text_node h1, List.append_assoc, List.append_assoc, List.cons_append, List.nil_append, allAsRead, asRead_leafNode, List.foldl_cons,
    HdCom.readKid, if_neg (by exact (by decide : ¬ (XmlTree.mk tTX [] [] []).isTagName tTimeSource = true)),
    if_neg (by exact (by decide : ¬ (XmlTree.mk tTX [] [] []).isTagName tConstants = true)), allAsRead_append, allAsRead_append,
    source_nodes h6, List.foldl_append, List.foldl_append]
  have eS : (allAsRead l (if h.timeSource.text = [] then [] else [.mk tTimeSource (allAttrs h.timeSource.std []) h.timeSource.text []])).foldl
      HdCom.readKid { com := c } = { com := c, timeSource := h.readBack.timeSource } := by
    by_cases ht : h.timeSource.text = []
    · rw [if_pos ht, HdCom.readBack, if_pos ht]
      rfl
    · rw [if_neg ht, HdCom.readBack, if_neg ht, allAsRead, allAsRead, asRead_leafNode, List.foldl_cons, List.foldl_nil, HdCom.readKid,
        if_pos (by exact (by decide : (XmlTree.mk tTimeSource [] [] []).isTagName tTimeSource = true))]
      have e0 : ({ com := c } : HdCom).timeSource = {} := rfl
      rw [e0, str_read_nil h6]
  have eC : ∀ q : HdCom, q.constants = [] → (allAsRead l (if h.constants = [] then [] else [.mk tConstants [] [] (h.constants.map constNode)])).foldl
      HdCom.readKid q = { q with constants := h.readBack.constants } := by
    intro q hq
    by_cases ht : h.constants = []
    · rw [if_pos ht, HdCom.readBack, ht]
      obtain ⟨a, b, d⟩ := q
      dsimp only at hq
      subst hq
      rfl
    · rw [if_neg ht, allAsRead, allAsRead, List.foldl_cons, List.foldl_nil, HdCom.readKid, asRead_isTagName,
        if_neg (by exact (by decide : ¬ (XmlTree.mk tConstants [] [] []).isTagName tTimeSource = true)), asRead_isTagName,
        if_pos (by exact (by decide : (XmlTree.mk tConstants [] [] []).isTagName tConstants = true)), asRead_mk, XmlTree.kids, hq]
      have e1 : allAsRead (l + 1) (h.constants.map constNode) = h.constants.map constNode := by
        rw [allAsRead_map, List.map_map]
        apply List.map_congr_left
        intro k hk
        rw [Function.comp, constNode, asRead_leafNode]
      have hs : SortedBy (fun x : MdStr × Bytes => x.1.text) ([] ++ h.constants.map constReadBack) := by
        rw [List.nil_append, SortedBy, List.pairwise_map]
        exact h8
      rw [e1, consts_read h7, mapInsert_all hs]
      rfl
  have eP : ∀ q : HdCom, (allAsRead l (if h.com.common.isActive then [.mk tCommon [] [] h.com.common.inner] else [])).foldl HdCom.readKid q = q := by
    intro q
    split
    · rw [allAsRead, allAsRead, List.foldl_cons, List.foldl_nil, HdCom.readKid, asRead_isTagName,
        if_neg (by exact (by decide : ¬ (XmlTree.mk tCommon [] [] []).isTagName tTimeSource = true)), asRead_isTagName,
        if_neg (by exact (by decide : ¬ (XmlTree.mk tCommon [] [] []).isTagName tConstants = true))]
    · rfl
  rw [eS, eC _ rfl, eP]

theorem hd_read {h : HdCom} (hg : h.Good) : ({} : HdCom).fromXml h.toXml = h.readBack := by
  have hp := parse_text (hd_node_good hg)
  have hh : h.node.text.head? = some 0x3C#8 := by
    rw [text_body, List.head?_append, body_head]
    rfl
  rw [HdCom.toXml]
  cases he : h.node.text with
  | nil => rw [he] at hh; cases hh
  | cons b bs =>
    rw [he] at hh hp
    simp only [List.head?_cons, Option.some.injEq] at hh
    subst hh
    rw [HdCom.fromXml.eq_def]
    dsimp only
    rw [if_neg (by simp), hp]
    dsimp only
    rw [HdCom.node, asRead_mk, XmlTree.kids]
    rw [hd_kids_com hg]
    dsimp only
    rw [hd_kids_own hg]
    rfl

/-! ## Setting -/

section
variable {α : Type} {key : α → Bytes}

theorem find_mapInsert (k : Bytes) (x : α) : ∀ {l : List α}, SortedBy key l →
    (mapInsert key x l).find? (fun y => key y == k) = (l.find? fun y => key y == k).or (if key x = k then some x else none)
  | [], _ => by
    rw [mapInsert]
    by_cases h : key x = k <;> simp [h]
  | y :: ys, hs => by
    have h' := List.pairwise_cons.mp hs
    rw [mapInsert]
    split
    · rename_i he
      by_cases h : key x = k
      · rw [List.find?_cons_of_pos (by rw [← he, h]; simp)]
        rfl
      · rw [if_neg h, Option.or_none]
    · rename_i hne
      split
      · rename_i hlt
        by_cases h : key x = k
        · have hn : (y :: ys).find? (fun y => key y == k) = none := by
            rw [List.find?_eq_none]
            intro z hz he
            have hz' : nameLt (key x) (key z) = true := by
              rcases List.mem_cons.mp hz with rfl | hz
              · exact hlt
              · exact nameLt_trans _ _ _ hlt (h'.1 z hz)
            exact nameLt_ne hz' (h.trans (by simpa using he : key z = k).symm)
          rw [List.find?_cons_of_pos (by rw [h]; simp), hn, if_pos h]
          rfl
        · rw [List.find?_cons_of_neg (by simpa using h), if_neg h, Option.or_none]
      · by_cases hy : key y = k
        · rw [List.find?_cons_of_pos (by simpa using hy), List.find?_cons_of_pos (by simpa using hy)]
          rfl
        · rw [List.find?_cons_of_neg (by simpa using hy), List.find?_cons_of_neg (by simpa using hy), find_mapInsert k x h'.2]
end

/-- A comment whose common properties are only properties. -/
structure OnlyProps (t : MdTree) (ps : List MdProp) : Prop where
  eq : t = .mk {} [] [] ps [] [] []
  sorted : SortedBy MdProp.name ps

theorem addProp_only {t : MdTree} {ps : List MdProp} (h : OnlyProps t ps) {x : MdProp} (hx : x.name ≠ []) :
    OnlyProps (t.addProp x) (mapInsert MdProp.name x ps) := by
  obtain ⟨rfl, hs⟩ := h
  refine ⟨?_, mapInsert_sorted hs⟩
  rw [MdTree.addProp]
  split
  · rename_i hd
    simp only [MdTree.duplicate, MdTree.props, MdTree.trees, MdTree.lists, MdTree.enums, List.any_nil, Bool.or_false] at hd
    have hk : ∀ l : List MdProp, SortedBy MdProp.name l → l.any (fun p => p.name == x.name) = true → mapInsert MdProp.name x l = l := by
      intro l
      induction l with
      | nil => intro _ h; cases h
      | cons y ys ih =>
        intro hs hd
        have h' := List.pairwise_cons.mp hs
        rw [mapInsert]
        split
        · rfl
        · rename_i hne
          rw [List.any_cons, Bool.or_eq_true] at hd
          have hd' : ys.any (fun p => p.name == x.name) = true := hd.resolve_left (by
            intro he
            exact hne (by simpa using he : y.name = x.name).symm)
          rw [if_neg, ih h'.2 hd']
          intro hlt
          obtain ⟨z, hz, he⟩ := List.any_eq_true.mp hd'
          have h2 := nameLt_trans _ _ _ hlt (h'.1 z hz)
          exact nameLt_ne h2 (by simpa using he : z.name = x.name).symm
    rw [Bool.or_eq_true] at hd
    rw [hk ps hs (hd.resolve_left (by simpa using hx))]
  · rfl

theorem getText_only {t : MdTree} {ps : List MdProp} (h : OnlyProps t ps) {k : Bytes} (hk : 0x2F#8 ∉ k) :
    t.getText k = ((ps.find? fun p => p.name == k).map MdProp.value).getD [] := by
  obtain ⟨rfl, _⟩ := h
  rw [MdTree.getText, getProp_deep, slashes_none hk, lastPart_none hk, MdTree.deep, if_pos rfl, treesDeep, List.append_nil, List.append_nil]
  rfl

theorem find_map_name {l : List MdProp} {k : Bytes} : (l.map MdProp.readBack).find? (fun p => p.name == k) =
    (l.find? fun p => p.name == k).map MdProp.readBack := by
  rw [List.find?_map]
  rfl

theorem getText_readBack {t : MdTree} {ps : List MdProp} (h : OnlyProps t ps) {k : Bytes} (hk : 0x2F#8 ∉ k) :
    t.readBack.getText k = trim (t.getText k) := by
  rw [getText_only h hk]
  obtain ⟨rfl, _⟩ := h
  rw [MdTree.readBack, MdTree.getText, getProp_deep, slashes_none hk, lastPart_none hk, MdTree.deep, if_pos rfl, allReadBack, treesDeep,
    List.append_nil, List.append_nil]
  simp only [MdTree.props]
  rw [find_map_name]
  cases ps.find? (fun p => p.name == k) <;> rfl

/-- The property that a call adds. -/
def HcOp.propOf : HcOp → Option MdProp
  | .text f s => some { name := f.key, value := s }
  | .fileIndex v => some { name := hcFileIndex, value := intText v.toInt, type := .integer }
  | _ => none

theorem key_inj {f g : HdField} (h : f.key = g.key) : f = g := by
  revert h
  cases f <;> cases g <;> decide

theorem key_index (f : HdField) : f.key ≠ hcFileIndex := by cases f <;> decide

theorem key_slash (f : HdField) : 0x2F#8 ∉ f.key := by cases f <;> decide

/-- What the calls do to the properties. -/
def HcOp.addProp (ps : List MdProp) (o : HcOp) : List MdProp := (o.propOf.map fun p => mapInsert MdProp.name p ps).getD ps

theorem run_only : ∀ {ops : List HcOp} {h : HdCom} {ps : List MdProp}, OnlyProps h.com.common ps →
    OnlyProps (ops.foldl HcOp.apply h).com.common (ops.foldl HcOp.addProp ps)
  | [], _, _, hp => hp
  | o :: ops, h, ps, hp => by
    rw [List.foldl_cons, List.foldl_cons]
    apply run_only
    cases o with
    | text f s => exact addProp_only hp (show f.key ≠ [] by cases f <;> decide)
    | fileIndex v => exact addProp_only hp (show hcFileIndex ≠ [] by decide)
    | timeSource s => exact hp
    | constant c e => exact hp
    | comment s => exact hp

theorem find_props (k : Bytes) : ∀ {ops : List HcOp} {ps : List MdProp}, SortedBy MdProp.name ps →
    (ops.foldl HcOp.addProp ps).find? (fun p => p.name == k) =
      (ps.find? fun p => p.name == k).or (ops.findSome? fun o => o.propOf.bind fun p => if p.name = k then some p else none)
  | [], ps, _ => by simp
  | o :: ops, ps, hs => by
    rw [List.foldl_cons, List.findSome?_cons]
    cases ho : o.propOf with
    | none =>
      rw [HcOp.addProp, ho]
      exact find_props k hs
    | some p =>
      rw [HcOp.addProp, ho]
      show ((ops.foldl HcOp.addProp (mapInsert MdProp.name p ps)).find? _) = _
      rw [find_props k (mapInsert_sorted hs), find_mapInsert k p hs, Option.or_assoc]
      congr 1
      rw [Option.bind_some]
      by_cases hk : p.name = k
      · rw [if_pos hk]
        rfl
      · rw [if_neg hk]
        rfl

theorem run_hdText (ops : List HcOp) (f : HdField) : (HdCom.run ops).hdText f = (firstOf (HcOp.textOf f) ops).getD [] := by
  have h := run_only (ops := ops) (h := {}) (ps := []) ⟨rfl, List.Pairwise.nil⟩
  rw [HdCom.hdText, HdCom.run, getText_only h (key_slash f), find_props _ List.Pairwise.nil, List.find?_nil, Option.none_or, firstOf]
  congr 1
  clear h
  induction ops with
  | nil => rfl
  | cons o ops ih =>
    rw [List.findSome?_cons, List.findSome?_cons]
    cases o with
    | text g s =>
      simp only [HcOp.propOf, HcOp.textOf, Option.bind_some]
      by_cases hg : g = f
      · subst hg
        rw [if_pos rfl, if_pos rfl]
        rfl
      · rw [if_neg (fun e => hg (key_inj e)), if_neg hg]
        exact ih
    | fileIndex v =>
      simp only [HcOp.propOf, HcOp.textOf, Option.bind_some]
      rw [if_neg (fun e => key_index f e.symm)]
      exact ih
    | timeSource s => exact ih
    | constant c e => exact ih
    | comment s => exact ih

theorem run_index_text (ops : List HcOp) :
    (HdCom.run ops).com.common.getText hcFileIndex = ((firstOf HcOp.indexOf ops).map fun v => intText v.toInt).getD [] := by
  have h := run_only (ops := ops) (h := {}) (ps := []) ⟨rfl, List.Pairwise.nil⟩
  rw [HdCom.run, getText_only h (by decide), find_props _ List.Pairwise.nil, List.find?_nil, Option.none_or, firstOf]
  congr 1
  clear h
  induction ops with
  | nil => rfl
  | cons o ops ih =>
    rw [List.findSome?_cons, List.findSome?_cons]
    cases o with
    | text g s =>
      simp only [HcOp.propOf, HcOp.indexOf, Option.bind_some]
      rw [if_neg (key_index g)]
      exact ih
    | fileIndex v => rfl
    | timeSource s => exact ih
    | constant c e => exact ih
    | comment s => exact ih

theorem toInt_range (v : BitVec 64) : -(2 ^ 63) ≤ v.toInt ∧ v.toInt < 2 ^ 63 := by
  have h1 := v.le_toInt
  have h2 := v.toInt_lt
  simp at h1 h2
  omega

theorem index_value (o : Option (BitVec 64)) :
    (if (o.map fun v => intText v.toInt).getD [] = [] then (-1 : BitVec 64)
      else BitVec.ofInt 64 ((stollText ((o.map fun v => intText v.toInt).getD [])).getD (-1))) = o.getD (-1) := by
  cases o with
  | none => rfl
  | some v =>
    rw [Option.map_some, Option.getD_some, if_neg (intText_ne _), stoll_intText (toInt_range v).1 (toInt_range v).2]
    simp

theorem run_consts (n : Bytes) (hn : n ≠ []) : ∀ {ops : List HcOp} {h : HdCom}, SortedBy (fun x : MdStr × Bytes => x.1.text) h.constants →
    (ops.foldl HcOp.apply h).constant n = (h.constant n).or (firstOf (HcOp.constOf n) ops)
  | [], h, _ => by simp [firstOf]
  | o :: ops, h, hs => by
    rw [List.foldl_cons, firstOf, List.findSome?_cons]
    cases o with
    | text g s => exact run_consts n hn hs
    | fileIndex v => exact run_consts n hn hs
    | timeSource s => exact run_consts n hn hs
    | comment s => exact run_consts n hn hs
    | constant c e =>
      have hs' : SortedBy (fun x : MdStr × Bytes => x.1.text) (HcOp.apply h (.constant c e)).constants := by
        show SortedBy _ (addConstant c e h.constants)
        rw [addConstant]
        split
        · exact hs
        · exact mapInsert_sorted hs
      rw [run_consts n hn hs']
      have e1 : (HcOp.apply h (.constant c e)).constant n = (h.constant n).or (HcOp.constOf n (.constant c e)) := by
        rw [HdCom.constant, HdCom.constant]
        show (List.find? _ (addConstant c e h.constants)).map _ = _
        rw [addConstant, HcOp.constOf]
        by_cases hc : c.text = []
        · rw [if_pos hc, if_neg (fun he => hn (he.symm.trans hc)), Option.or_none]
        · rw [if_neg hc, find_mapInsert n (c, e) hs]
          dsimp only
          cases h.constants.find? (fun x => x.1.text == n) with
          | some y => rfl
          | none =>
            by_cases he : c.text = n
            · rw [if_pos he, if_pos he]; rfl
            · rw [if_neg he, if_neg he]; rfl
      rw [e1, Option.or_assoc]
      congr 1
      cases HcOp.constOf n (.constant c e) <;> rfl

theorem run_source : ∀ (ops : List HcOp) (h : HdCom), (ops.foldl HcOp.apply h).timeSource = (lastOf HcOp.sourceOf ops).getD h.timeSource
  | [], _ => rfl
  | o :: ops, h => by
    rw [List.foldl_cons, run_source ops, lastOf, lastOf, List.reverse_cons, List.findSome?_append]
    cases ops.reverse.findSome? HcOp.sourceOf with
    | some s => rfl
    | none => cases o <;> rfl

theorem run_comment : ∀ (ops : List HcOp) (h : HdCom), (ops.foldl HcOp.apply h).com.text = (lastOf HcOp.commentOf ops).getD h.com.text
  | [], _ => rfl
  | o :: ops, h => by
    rw [List.foldl_cons, run_comment ops, lastOf, lastOf, List.reverse_cons, List.findSome?_append]
    cases ops.reverse.findSome? HcOp.commentOf with
    | some s => rfl
    | none => cases o <;> rfl

theorem intText_plain (v : Int) : PlainText (intText v) := by
  have hd : ∀ n, PlainText (decText n) := by
    intro n c hc
    have := decText_digits n c hc
    simp only [BitVec.le_def, ← BitVec.toNat_inj, BitVec.toNat_ofNat] at this ⊢
    omega
  unfold intText
  split
  · intro c hc
    rcases List.mem_cons.mp hc with rfl | hc
    · decide
    · exact hd _ c hc
  · exact hd _

theorem hd_std_good : ({} : MdStd).Good := ⟨by decide, plainLine_nil, List.Pairwise.nil, by simp⟩

theorem key_good (f : HdField) : GoodName f.key := by
  cases f <;> exact ⟨by decide, by decide, by unfold PlainLine; decide⟩

theorem index_good : GoodName hcFileIndex := ⟨by decide, by decide, by unfold PlainLine; decide⟩

theorem addProp_head (p : MdProp) (t : MdTree) : (t.addProp p).std = t.std := by
  obtain ⟨a, b, c, d, e, f, g⟩ := t
  rw [MdTree.addProp]
  split <;> rfl

theorem addProp_head' (p : MdProp) (t : MdTree) : (t.addProp p).name = t.name := by
  obtain ⟨a, b, c, d, e, f, g⟩ := t
  rw [MdTree.addProp]
  split <;> rfl

theorem addProp_head'' (p : MdProp) (t : MdTree) : (t.addProp p).desc = t.desc := by
  obtain ⟨a, b, c, d, e, f, g⟩ := t
  rw [MdTree.addProp]
  split <;> rfl

theorem run_hd_good : ∀ {ops : List HcOp} {h : HdCom}, h.Good → (∀ o ∈ ops, o.Good) → (ops.foldl HcOp.apply h).Good
  | [], _, hg, _ => hg
  | o :: ops, h, hg, ho => by
    rw [List.foldl_cons]
    refine run_hd_good ?_ (fun q hq => ho q (by simp [hq]))
    have hoo := ho o (by simp)
    obtain ⟨h1, h2, h3, h4, h5, h6, h7, h8⟩ := hg
    have hp : ∀ p : MdProp, p.Good → (h.com.common.addProp p).Good ∧ (h.com.common.addProp p).std = {} ∧ (h.com.common.addProp p).name = [] ∧
        (h.com.common.addProp p).desc = [] := by
      intro p hp
      refine ⟨addProp_good h2 hp, ?_⟩
      rw [addProp_head, addProp_head', addProp_head'']
      exact ⟨h3, h4, h5⟩
    cases o with
    | text f s =>
      obtain ⟨a, b, c, d⟩ := hp { name := f.key, value := s } ⟨hd_std_good, key_good f, plainLine_nil, plainLine_nil, plainLine_nil, hoo⟩
      exact ⟨h1, a, b, c, d, h6, h7, h8⟩
    | fileIndex v =>
      obtain ⟨a, b, c, d⟩ := hp { name := hcFileIndex, value := intText v.toInt, type := .integer }
        ⟨hd_std_good, index_good, plainLine_nil, plainLine_nil, plainLine_nil, intText_plain _⟩
      exact ⟨h1, a, b, c, d, h6, h7, h8⟩
    | timeSource s => exact ⟨h1, h2, h3, h4, h5, hoo, h7, h8⟩
    | comment s => exact ⟨hoo, h2, h3, h4, h5, h6, h7, h8⟩
    | constant c e =>
      refine ⟨h1, h2, h3, h4, h5, h6, ?_, ?_⟩
      · intro x hx
        have hx' : x ∈ addConstant c e h.constants := hx
        rw [addConstant] at hx'
        split at hx'
        · exact h7 x hx'
        · rename_i hne
          rcases mem_mapInsert hx' with rfl | hx'
          · exact ⟨hoo.1, ⟨hne, hoo.2.2.1, hoo.2.1⟩, hoo.2.2.2⟩
          · exact h7 x hx'
      · show SortedBy _ (addConstant c e h.constants)
        rw [addConstant]
        split
        · exact h8
        · exact mapInsert_sorted h8

end Mdf
