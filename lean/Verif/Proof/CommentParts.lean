import Verif.Proof.Comment

/-! Structured comments: names, formulas and the whole comment. -/

namespace Mdf

/-! ## Names -/

theorem names_keys (v : Bytes) : OwnKeys ([(kName, v)].map (·.1)) := by
  show OwnKeys [kName]
  exact ⟨by decide, by decide, by decide⟩

theorem given_one (k v : Bytes) : given [(k, v)] = if v.isEmpty then [] else [(k, v)] := by
  cases v <;> rfl

theorem names_perm (s : MdStd) (own : List (Bytes × Bytes)) : (allAttrs s [] ++ given own).Perm (allAttrs s own) := by
  rw [allAttrs, allAttrs, List.append_assoc (given own)]
  exact List.perm_append_comm

theorem names_attrs {s : MdStd} (hs : s.Good) (v : Bytes) : setAll (s.write []) [(kName, v)] = allAttrs s [] ++ given [(kName, v)] := by
  rw [write_nil hs, setAll_new]
  have h := keys_nodup hs (names_keys v)
  have h2 : ((s.base ++ s.custom ++ [(kName, v)]).map (·.1)).Nodup := by
    refine (List.Perm.nodup_iff ?_).mp h
    apply List.Perm.map
    rw [List.append_assoc]
    exact List.perm_append_comm
  refine h2.sublist (List.Sublist.map _ (List.Sublist.append ?_ (List.Sublist.refl _)))
  exact (given_sublist s.base).append (List.Sublist.refl _)

theorem names_goodAttrs {s : MdStd} (hs : s.Good) {v : Bytes} (hv : PlainLine v) : GoodAttrs (allAttrs s [] ++ given [(kName, v)]) := by
  have hp := names_perm s [(kName, v)]
  have hg := allAttrs_good hs (names_keys v) (fun a ha => by
    rw [List.mem_singleton] at ha; subst ha; exact hv)
  refine ⟨(hp.map _).nodup_iff.mpr hg.1, ?_⟩
  intro a ha
  exact hg.2 a (hp.mem_iff.mp ha)

theorem names_default {s : MdStd} (hs : s.Good) (v : Bytes) : attrText (allAttrs s [] ++ given [(kName, v)]) kName = trim v := by
  have h0 : (allAttrs s []).find? (fun a => sameWord a.1 kName) = none := by
    rw [List.find?_eq_none]
    intro a ha
    have ha' : a ∈ given s.base ++ s.custom := ha
    rw [List.mem_append] at ha'
    rcases ha' with ha' | ha'
    · have hm := (given_sublist s.base).subset ha'
      simp only [MdStd.base, List.mem_cons, List.not_mem_nil, or_false] at hm
      rcases hm with rfl | rfl
      · exact (by decide : ¬ sameWord kCi kName = true)
      · exact (by decide : ¬ sameWord kLang kName = true)
    · rw [(hs.2.2.2 a ha').2.2 kName (by decide)]
      simp
  rw [attrText, List.find?_append, h0, given_one]
  by_cases hv : v.isEmpty = true
  · rw [if_pos hv]
    have : v = [] := by simpa using hv
    subst this
    rfl
  · rw [if_neg hv]
    simp [sameWord_refl]

theorem names_std {s : MdStd} (hs : s.Good) (v : Bytes) :
    MdStd.read {} (allAttrs s [] ++ given [(kName, v)]) = some { s with custom := attrMap (s.custom ++ given [(kName, v)]) } := by
  rw [read_append, read_own (own := []) hs ownKeys_nil, Option.bind_some, read_foreign (foreign_own (names_keys v))]
  simp [MdStd.readBack, attrMap, given, List.foldl_append]

theorem str_read_nil {s : MdStr} (hs : s.Good) (tag : Bytes) : MdStr.read {} (.mk tag (allAttrs s.std []) s.text []) = s.readBack [] :=
  str_read (own := []) hs ownKeys_nil tag []

/-- The node of a text. -/
def strNode (tag : Bytes) (s : MdStr) : XmlTree := .mk tag (allAttrs s.std []) s.text []

theorem names_kids : ∀ {ss : List MdStr} (_ : ∀ s ∈ ss, s.Good) (n : MdNames),
    ((nonEmpty ss).map (strNode kName)).foldl MdNames.readKid n = { n with names := n.names ++ (nonBlank ss).map (·.readBack []) }
  | [], _, n => by simp [nonEmpty, nonBlank]
  | s :: ss, h, n => by
    have ih := fun m => names_kids (fun t (hm : t ∈ ss) => h t (by simp [hm])) m
    have hs := h s (by simp)
    by_cases he : s.text = []
    · have h1 : nonEmpty (s :: ss) = nonEmpty ss := by simp [nonEmpty, he]
      have h2 : nonBlank (s :: ss) = nonBlank ss := by simp [nonBlank, show trim s.text = [] by rw [he]; rfl]
      rw [h1, h2, ih]
    · have h1 : nonEmpty (s :: ss) = s :: nonEmpty ss := by simp [nonEmpty, he]
      rw [h1, List.map_cons, List.foldl_cons, MdNames.readKid, strNode, if_pos (by exact (by decide : (XmlTree.mk kName [] [] []).isTagName kName = true)),
        str_read_nil hs]
      by_cases hb : trim s.text = []
      · have h2 : nonBlank (s :: ss) = nonBlank ss := by simp [nonBlank, hb]
        rw [if_pos (show (s.readBack []).text = [] from hb), h2, ih]
      · have h2 : nonBlank (s :: ss) = s :: nonBlank ss := by simp [nonBlank, hb]
        rw [if_neg (show ¬ (s.readBack []).text = [] from hb), h2, ih]
        simp

theorem display_kids : ∀ {ss : List MdStr} (_ : ∀ s ∈ ss, s.Good) (n : MdNames),
    ((nonEmpty ss).map (strNode tDisplay)).foldl MdNames.readKid n = { n with display := n.display ++ (nonBlank ss).map (·.readBack []) }
  | [], _, n => by simp [nonEmpty, nonBlank]
  | s :: ss, h, n => by
    have ih := fun m => display_kids (fun t (hm : t ∈ ss) => h t (by simp [hm])) m
    have hs := h s (by simp)
    by_cases he : s.text = []
    · have h1 : nonEmpty (s :: ss) = nonEmpty ss := by simp [nonEmpty, he]
      have h2 : nonBlank (s :: ss) = nonBlank ss := by simp [nonBlank, show trim s.text = [] by rw [he]; rfl]
      rw [h1, h2, ih]
    · have h1 : nonEmpty (s :: ss) = s :: nonEmpty ss := by simp [nonEmpty, he]
      rw [h1, List.map_cons, List.foldl_cons, MdNames.readKid, strNode,
        if_neg (by exact (by decide : ¬ (XmlTree.mk tDisplay [] [] []).isTagName kName = true)),
        if_pos (by exact (by decide : (XmlTree.mk tDisplay [] [] []).isTagName tDisplay = true)), str_read_nil hs]
      by_cases hb : trim s.text = []
      · have h2 : nonBlank (s :: ss) = nonBlank ss := by simp [nonBlank, hb]
        rw [if_pos (show (s.readBack []).text = [] from hb), h2, ih]
      · have h2 : nonBlank (s :: ss) = s :: nonBlank ss := by simp [nonBlank, hb]
        rw [if_neg (show ¬ (s.readBack []).text = [] from hb), h2, ih]
        simp

theorem vendor_kids : ∀ {ss : List MdStr} (_ : ∀ s ∈ ss, s.Good) (n : MdNames),
    ((nonEmpty ss).map (strNode tVendor)).foldl MdNames.readKid n = { n with vendor := n.vendor ++ (nonBlank ss).map (·.readBack []) }
  | [], _, n => by simp [nonEmpty, nonBlank]
  | s :: ss, h, n => by
    have ih := fun m => vendor_kids (fun t (hm : t ∈ ss) => h t (by simp [hm])) m
    have hs := h s (by simp)
    by_cases he : s.text = []
    · have h1 : nonEmpty (s :: ss) = nonEmpty ss := by simp [nonEmpty, he]
      have h2 : nonBlank (s :: ss) = nonBlank ss := by simp [nonBlank, show trim s.text = [] by rw [he]; rfl]
      rw [h1, h2, ih]
    · have h1 : nonEmpty (s :: ss) = s :: nonEmpty ss := by simp [nonEmpty, he]
      rw [h1, List.map_cons, List.foldl_cons, MdNames.readKid, strNode,
        if_neg (by exact (by decide : ¬ (XmlTree.mk tVendor [] [] []).isTagName kName = true)),
        if_neg (by exact (by decide : ¬ (XmlTree.mk tVendor [] [] []).isTagName tDisplay = true)),
        if_pos (by exact (by decide : (XmlTree.mk tVendor [] [] []).isTagName tVendor = true)), str_read_nil hs]
      by_cases hb : trim s.text = []
      · have h2 : nonBlank (s :: ss) = nonBlank ss := by simp [nonBlank, hb]
        rw [if_pos (show (s.readBack []).text = [] from hb), h2, ih]
      · have h2 : nonBlank (s :: ss) = s :: nonBlank ss := by simp [nonBlank, hb]
        rw [if_neg (show ¬ (s.readBack []).text = [] from hb), h2, ih]
        simp

theorem description_kids : ∀ {ss : List MdStr} (_ : ∀ s ∈ ss, s.Good) (n : MdNames),
    ((nonEmpty ss).map (strNode tDescription)).foldl MdNames.readKid n =
      { n with description := n.description ++ (nonEmpty ss).map (·.readBack []) }
  | [], _, n => by simp [nonEmpty]
  | s :: ss, h, n => by
    have ih := fun m => description_kids (fun t (hm : t ∈ ss) => h t (by simp [hm])) m
    have hs := h s (by simp)
    by_cases he : s.text = []
    · have h1 : nonEmpty (s :: ss) = nonEmpty ss := by simp [nonEmpty, he]
      rw [h1, ih]
    · have h1 : nonEmpty (s :: ss) = s :: nonEmpty ss := by simp [nonEmpty, he]
      rw [h1, List.map_cons, List.foldl_cons, MdNames.readKid, strNode,
        if_neg (by exact (by decide : ¬ (XmlTree.mk tDescription [] [] []).isTagName kName = true)),
        if_neg (by exact (by decide : ¬ (XmlTree.mk tDescription [] [] []).isTagName tDisplay = true)),
        if_neg (by exact (by decide : ¬ (XmlTree.mk tDescription [] [] []).isTagName tVendor = true)),
        if_pos (by exact (by decide : (XmlTree.mk tDescription [] [] []).isTagName tDescription = true)), str_read_nil hs, ih]
      simp

theorem names_read {n : MdNames} (hn : n.Good) (ha : n.isActive = true) (l : Nat) :
    MdNames.read {} (n.node.asRead l) = some n.readBack := by
  obtain ⟨h1, h2, h3, h4, h5, h6⟩ := hn
  rw [MdNames.node, asRead_mk, MdNames.read]
  simp only [XmlTree.attrs, XmlTree.kids]
  rw [names_attrs h1, names_std h1, names_default h1, allAsRead_append, allAsRead_append, allAsRead_append, str_nodes (by decide) _ h3,
    str_nodes (by decide) _ h4, str_nodes (by decide) _ h5, str_nodes (by decide) _ h6]
  simp only [Option.map_some, List.foldl_append]
  have e1 := names_kids h3 { std := { n.std with custom := attrMap (n.std.custom ++ given [(kName, n.default)]) }, default := trim n.default }
  have e2 := fun m => display_kids h4 m
  have e3 := fun m => vendor_kids h5 m
  have e4 := fun m => description_kids h6 m
  unfold strNode at e1 e2 e3 e4
  rw [e1, e2, e3, e4, MdNames.readBack, if_neg]
  · simp
  · rintro ⟨a, b, c, d⟩
    simp [MdNames.isActive, a, b, c, d] at ha

theorem names_good {n : MdNames} (hn : n.Good) : n.node.Good := by
  obtain ⟨h1, h2, h3, h4, h5, h6⟩ := hn
  refine ⟨⟨_, _, rfl, by decide, by decide⟩, ?_, plainText_nil, ?_⟩
  · rw [names_attrs h1]
    exact names_goodAttrs h1 h2
  · have g3 := str_nodes_good (tag := kName) ⟨_, _, rfl, by decide, by decide⟩ h3
    have g4 := str_nodes_good (tag := tDisplay) ⟨_, _, rfl, by decide, by decide⟩ h4
    have g5 := str_nodes_good (tag := tVendor) ⟨_, _, rfl, by decide, by decide⟩ h5
    have g6 := str_nodes_good (tag := tDescription) ⟨_, _, rfl, by decide, by decide⟩ h6
    rw [allGood_iff] at *
    intro k hk
    rw [List.mem_append, List.mem_append, List.mem_append] at hk
    rcases hk with ((hk | hk) | hk) | hk
    · exact g3 k hk
    · exact g4 k hk
    · exact g5 k hk
    · exact g6 k hk

theorem names_inactive {n : MdNames} (ha : n.isActive = false) : n.readBack = {} := by
  rw [MdNames.readBack, if_pos]
  simpa [MdNames.isActive, and_assoc] using ha

/-! ## Formulas -/

/-- The attributes of a formula text. -/
def MdSyn.own (s : MdSyn) (further : Bool) : List (Bytes × Bytes) := [(kVersion, s.version), (kSource, if further then s.source else [])]

theorem syn_keys (s : MdSyn) (b : Bool) : OwnKeys ((s.own b).map (·.1)) := by
  show OwnKeys [kVersion, kSource]
  exact ⟨by decide, by decide, by decide⟩

theorem syn_node {s : MdSyn} (hs : s.Good) :
    s.node tSyntax = .mk tSyntax (allAttrs s.str.std (s.own false)) s.str.text [] ∧
    s.node tCustomSyntax = .mk tCustomSyntax (allAttrs s.str.std (s.own true)) s.str.text [] := by
  constructor
  · rw [← write_own (own := s.own false) hs.1.1 (syn_keys s false), MdSyn.node, if_neg (by decide)]
    rfl
  · rw [← write_own (own := s.own true) hs.1.1 (syn_keys s true), MdSyn.node, if_pos rfl]
    rfl

theorem syn_read {s : MdSyn} (hs : s.Good) (b : Bool) (tag : Bytes) :
    MdSyn.read {} (.mk tag (allAttrs s.str.std (s.own b)) s.str.text []) = s.readBack b := by
  rw [MdSyn.read]
  have h0 : ({} : MdSyn).str = {} := rfl
  rw [h0, str_read hs.1 (syn_keys s b)]
  simp only [XmlTree.attrs]
  rw [attrText_own hs.1.1 (syn_keys s b) (v := s.version) (by simp [MdSyn.own]),
    attrText_own hs.1.1 (syn_keys s b) (k := kSource) (v := if b then s.source else []) (by simp [MdSyn.own])]
  cases b <;> rfl

theorem syn_good {s : MdSyn} (hs : s.Good) (b : Bool) {tag : Bytes} (ht : XmlName tag) :
    (XmlTree.mk tag (allAttrs s.str.std (s.own b)) s.str.text []).Good := by
  refine ⟨ht, allAttrs_good hs.1.1 (syn_keys s b) ?_, hs.1.2, trivial⟩
  intro a ha
  simp only [MdSyn.own, List.mem_cons, List.not_mem_nil, or_false] at ha
  rcases ha with rfl | rfl
  · exact hs.2.1
  · cases b
    · exact plainLine_nil
    · exact hs.2.2

theorem var_keys (v : MdVar) : OwnKeys (v.own.map (·.1)) := by
  show OwnKeys [aCn, aCs, aCp, aGn, aGs, aGp, kIdxPattern, kRaw]
  exact ⟨by decide, by decide, by decide⟩

theorem var_node {v : MdVar} (hv : v.Good) : v.node = .mk tVar (allAttrs v.str.std v.own) v.str.text [] := by
  rw [← write_own (own := v.own) hv.1.1 (var_keys v)]
  rfl

theorem var_read {v : MdVar} (hv : v.Good) : MdVar.read (.mk tVar (allAttrs v.str.std v.own) v.str.text []) = v.readBack := by
  have hs := hv.1.1
  have hk := var_keys v
  rw [MdVar.read]
  simp only [XmlTree.attrs]
  rw [str_read hv.1 hk, attrText_own hs hk (v := v.cn) (by simp [MdVar.own]), attrText_own hs hk (v := v.cs) (by simp [MdVar.own]),
    attrText_own hs hk (v := v.cp) (by simp [MdVar.own]), attrText_own hs hk (v := v.gn) (by simp [MdVar.own]),
    attrText_own hs hk (v := v.gs) (by simp [MdVar.own]), attrText_own hs hk (v := v.gp) (by simp [MdVar.own]),
    attrBool_own hs hk (b := v.raw) (by simp [MdVar.own])]
  rfl

theorem indexText_line : ∀ is : List Nat, PlainLine (indexText is)
  | [] => plainLine_nil
  | [i] => decText_line i
  | i :: j :: is => by
    intro c hc
    rw [indexText, List.mem_append, List.mem_cons] at hc
    rcases hc with hc | hc | hc
    · exact decText_line i c hc
    · subst hc; decide
    · exact indexText_line (j :: is) c hc

theorem var_good {v : MdVar} (hv : v.Good) : v.node.Good := by
  rw [var_node hv]
  refine ⟨⟨_, _, rfl, by decide, by decide⟩, allAttrs_good hv.1.1 (var_keys v) ?_, hv.1.2, trivial⟩
  obtain ⟨_, h1, h2, h3, h4, h5, h6⟩ := hv
  intro a ha
  simp only [MdVar.own, List.mem_cons, List.not_mem_nil, or_false] at ha
  rcases ha with rfl | rfl | rfl | rfl | rfl | rfl | rfl | rfl
  · exact h1
  · exact h2
  · exact h3
  · exact h4
  · exact h5
  · exact h6
  · exact indexText_line _
  · exact plainLine_true _

theorem customs_read (l : Nat) (rest : List XmlTree) : ∀ {ss acc : List MdSyn} {f : MdForm},
    (∀ s ∈ ss, s.Good ∧ s.str.text ≠ [] ∧ trim s.str.text = s.str.text) → SortedBy (fun s : MdSyn => s.str.text) (acc ++ ss) →
    f.customs = acc →
    (allAsRead l (ss.map (·.node tCustomSyntax)) ++ rest).foldl MdForm.readKid f =
      rest.foldl MdForm.readKid { f with customs := acc ++ ss.map (·.readBack true) }
  | [], acc, f, _, _, hf => by simp [allAsRead, ← hf]
  | s :: ss, acc, f, h, hs, hf => by
    obtain ⟨hg, hne, htr⟩ := h s (by simp)
    have hlt : ∀ q ∈ acc, nameLt q.str.text s.str.text = true := fun q hq => (List.pairwise_append.mp hs).2.2 q hq s (by simp)
    have ht : (s.readBack true).str.text = s.str.text := htr
    have hstep : f.readKid (.mk tCustomSyntax (allAttrs s.str.std (s.own true)) s.str.text []) =
        { f with customs := acc ++ [s.readBack true] } := by
      rw [MdForm.readKid, if_neg (by exact (by decide : ¬ (XmlTree.mk tCustomSyntax [] [] []).isTagName tSyntax = true)),
        if_pos (by exact (by decide : (XmlTree.mk tCustomSyntax [] [] []).isTagName tCustomSyntax = true)), syn_read hg, MdForm.addCustom,
        if_neg (by rw [ht]; exact hne), hf, mapInsert_last (key := fun s : MdSyn => s.str.text) (by rw [ht]; exact hlt)]
    rw [List.map_cons, allAsRead, (syn_node hg).2, asRead_leafNode, List.cons_append, List.foldl_cons, hstep,
      customs_read l rest (acc := acc ++ [s.readBack true]) (fun q hq => h q (by simp [hq])) _ rfl]
    · simp
    · have : ((acc ++ [s.readBack true] ++ ss).map fun s : MdSyn => s.str.text) = (acc ++ s :: ss).map fun s => s.str.text := by
        simp [ht]
      rw [sortedBy_map, this, ← sortedBy_map]
      exact hs

theorem vars_read : ∀ {vs acc : List MdVar} {f : MdForm},
    (∀ s ∈ vs, s.Good ∧ s.str.text ≠ [] ∧ trim s.str.text = s.str.text) → SortedBy (fun s : MdVar => s.str.text) (acc ++ vs) →
    f.vars = acc →
    (vs.map fun v => XmlTree.mk tVar (allAttrs v.str.std v.own) v.str.text []).foldl (fun f v => f.addVar (MdVar.read v)) f =
      { f with vars := acc ++ vs.map MdVar.readBack }
  | [], acc, f, _, _, hf => by simp [← hf]
  | s :: ss, acc, f, h, hs, hf => by
    obtain ⟨hg, hne, htr⟩ := h s (by simp)
    have hlt : ∀ q ∈ acc, nameLt q.str.text s.str.text = true := fun q hq => (List.pairwise_append.mp hs).2.2 q hq s (by simp)
    have ht : s.readBack.str.text = s.str.text := htr
    have hstep : f.addVar s.readBack = { f with vars := acc ++ [s.readBack] } := by
      rw [MdForm.addVar, if_neg (by rw [ht]; exact hne), hf, mapInsert_last (key := fun s : MdVar => s.str.text) (by rw [ht]; exact hlt)]
    rw [List.map_cons, List.foldl_cons, var_read hg, hstep, vars_read (acc := acc ++ [s.readBack]) (fun q hq => h q (by simp [hq])) _ rfl]
    · simp
    · have : ((acc ++ [s.readBack] ++ ss).map fun s : MdVar => s.str.text) = (acc ++ s :: ss).map fun s => s.str.text := by simp [ht]
      rw [sortedBy_map, this, ← sortedBy_map]
      exact hs

theorem vars_nodes (l : Nat) {vs : List MdVar} (h : ∀ s ∈ vs, s.Good) :
    allAsRead l (vs.map MdVar.node) = vs.map fun v => XmlTree.mk tVar (allAttrs v.str.std v.own) v.str.text [] := by
  rw [allAsRead_map, List.map_map]
  apply List.map_congr_left
  intro v hv
  rw [Function.comp_apply, var_node (h v hv), asRead_leafNode]

theorem form_read {f : MdForm} (hf : f.Good) (ha : f.syntax_.str.text ≠ []) (l : Nat) :
    MdForm.read {} (f.node.asRead l) = some f.readBack := by
  obtain ⟨h1, h2, h3, h4, h5, h6⟩ := hf
  rw [MdForm.node, asRead_mk, MdForm.read]
  simp only [XmlTree.attrs, XmlTree.kids]
  rw [write_nil h1, read_own (own := []) h1 ownKeys_nil, List.cons_append, allAsRead, (syn_node h2).1, asRead_leafNode, allAsRead_append]
  simp only [Option.map_some]
  rw [List.foldl_cons]
  have hsyn : ∀ g : MdForm, g.syntax_ = {} → g.readKid (.mk tSyntax (allAttrs f.syntax_.str.std (f.syntax_.own false)) f.syntax_.str.text []) =
      { g with syntax_ := f.syntax_.readBack false } := by
    intro g hg
    rw [MdForm.readKid, if_pos (by exact (by decide : (XmlTree.mk tSyntax [] [] []).isTagName tSyntax = true)), hg, syn_read h2]
  rw [hsyn _ rfl, customs_read (l + 1) _ (acc := []) h3 (by simpa using h4) rfl, MdForm.readBack, if_neg ha]
  by_cases hv : f.vars = []
  · rw [if_pos hv]
    simp [allAsRead, hv]
  · rw [if_neg hv, allAsRead, allAsRead, asRead_mk, List.foldl_cons, List.foldl_nil, vars_nodes _ (fun v hv => (h5 v hv).1)]
    rw [MdForm.readKid, if_neg (by exact (by decide : ¬ (XmlTree.mk tVariables [] [] []).isTagName tSyntax = true)),
      if_neg (by exact (by decide : ¬ (XmlTree.mk tVariables [] [] []).isTagName tCustomSyntax = true)),
      if_pos (by exact (by decide : (XmlTree.mk tVariables [] [] []).isTagName tVariables = true))]
    simp only [XmlTree.kids]
    rw [List.filter_eq_self.mpr, vars_read (acc := []) h5 (by simpa using h6) rfl]
    · simp
    · intro t ht
      obtain ⟨s, _, rfl⟩ := List.mem_map.mp ht
      exact (by decide : (XmlTree.mk tVar [] [] []).isTagName tVar = true)

theorem form_good {f : MdForm} (hf : f.Good) : f.node.Good := by
  obtain ⟨h1, h2, h3, h4, h5, h6⟩ := hf
  refine ⟨⟨_, _, rfl, by decide, by decide⟩, ?_, plainText_nil, ?_⟩
  · rw [write_nil h1]
    exact allAttrs_good h1 ownKeys_nil (fun a ha => by cases ha)
  · rw [allGood_iff]
    intro k hk
    rw [List.cons_append, List.mem_cons, List.mem_append] at hk
    rcases hk with rfl | hk | hk
    · rw [(syn_node h2).1]
      exact syn_good h2 false ⟨_, _, rfl, by decide, by decide⟩
    · obtain ⟨s, hs, rfl⟩ := List.mem_map.mp hk
      rw [(syn_node (h3 s hs).1).2]
      exact syn_good (h3 s hs).1 true ⟨_, _, rfl, by decide, by decide⟩
    · split at hk
      · cases hk
      · rw [List.mem_singleton] at hk
        subst hk
        refine ⟨⟨_, _, rfl, by decide, by decide⟩, ⟨by simp, fun a ha => by cases ha⟩, plainText_nil, ?_⟩
        rw [allGood_iff]
        intro k hk
        obtain ⟨v, hv, rfl⟩ := List.mem_map.mp hk
        exact var_good (h5 v hv).1

/-! ## The comment -/

theorem xmlName_append {a b : Bytes} (h : XmlName a) (hb : ∀ c ∈ b, isNameChar c = true) : XmlName (a ++ b) := by
  obtain ⟨c, r, rfl, h1, h2⟩ := h
  refine ⟨c, r ++ b, rfl, h1, ?_⟩
  intro d hd
  rcases List.mem_append.mp hd with hd | hd
  · exact h2 d hd
  · exact hb d hd

theorem root_name {block : Bytes} (h : XmlName block) : XmlName (block ++ tComment) := xmlName_append h (by decide)

theorem text_node {s : MdStr} (hs : s.Good) : s.nodes tTX = [.mk tTX (allAttrs s.std []) s.text []] := by
  rw [MdStr.nodes, if_neg (by simp), write_nil hs.1]

theorem tree_inactive {t : MdTree} (h0 : t.std = {}) (ha : t.isActive = false) : t.readBack = .empty := by
  obtain ⟨s, n, d, p, ts, l, e⟩ := t
  simp only [MdTree.isActive, MdTree.name, MdTree.desc, MdTree.props, MdTree.trees, MdTree.lists, MdTree.enums, Bool.not_eq_false',
    Bool.and_eq_true, List.isEmpty_iff] at ha
  obtain ⟨⟨⟨⟨⟨rfl, rfl⟩, rfl⟩, rfl⟩, rfl⟩, rfl⟩ := ha
  subst h0
  rfl

theorem common_readBack {t : MdTree} (h1 : t.std = {}) (h2 : t.name = []) (h3 : t.desc = []) :
    MdTree.mk {} [] [] (t.props.map MdProp.readBack) (allReadBack t.trees) (allReadBack t.lists) (t.enums.map MdEnum.readBack) =
      t.readBack := by
  obtain ⟨s, n, d, p, ts, ls, e⟩ := t
  simp only [MdTree.std, MdTree.name, MdTree.desc] at h1 h2 h3
  subst h1 h2 h3
  rw [MdTree.readBack]
  rfl

theorem com_good {c : MdCom} (hc : c.Good) {block : Bytes} (hb : XmlName block) : (c.node block).Good := by
  obtain ⟨h1, h2, h3, h4, h5, h6, h7⟩ := hc
  refine ⟨?_, ⟨by simp, fun a ha => by cases ha⟩, plainText_nil, ?_⟩
  · rw [trim_name (root_name hb)]
    exact root_name hb
  · rw [allGood_iff]
    intro k hk
    rw [List.mem_append, List.mem_append, List.mem_append, text_node h1, List.mem_singleton] at hk
    rcases hk with ((rfl | hk) | hk) | hk
    · exact ⟨⟨_, _, rfl, by decide, by decide⟩, allAttrs_good h1.1 ownKeys_nil (fun a ha => by cases ha), h1.2, trivial⟩
    · split at hk
      · rw [List.mem_singleton] at hk
        subst hk
        exact names_good h2
      · cases hk
    · split at hk
      · cases hk
      · rw [List.mem_singleton] at hk
        subst hk
        exact form_good h3
    · split at hk
      · rw [List.mem_singleton] at hk
        subst hk
        exact ⟨⟨_, _, rfl, by decide, by decide⟩, ⟨by simp, fun a ha => by cases ha⟩, plainText_nil, inner_good _ h4⟩
      · cases hk

theorem com_kids {c : MdCom} (hc : c.Good) (l : Nat) :
    ({} : MdCom).fromKids (allAsRead l (c.text.nodes tTX ++ (if c.names.isActive then [c.names.node] else []) ++
      (if c.formula.syntax_.str.text = [] then [] else [c.formula.node]) ++
      if c.common.isActive then [.mk tCommon [] [] c.common.inner] else [])) = (c.readBack, false) := by
  obtain ⟨h1, h2, h3, h4, h5, h6, h7⟩ := hc
  rw [text_node h1, List.append_assoc, List.append_assoc, List.cons_append, List.nil_append, allAsRead, asRead_leafNode, MdCom.fromKids,
    if_pos (by exact (by decide : (XmlTree.mk tTX [] [] []).isTagName tTX = true))]
  have e0 : ({} : MdCom).text = {} := rfl
  rw [e0, str_read_nil h1, allAsRead_append, allAsRead_append]
  have eN : ∀ rest, ({ text := c.text.readBack [] } : MdCom).fromKids (allAsRead l (if c.names.isActive then [c.names.node] else []) ++ rest) =
      ({ text := c.text.readBack [], names := c.names.readBack } : MdCom).fromKids rest := by
    intro rest
    by_cases ha : c.names.isActive = true
    · rw [if_pos ha, allAsRead, allAsRead, List.cons_append, List.nil_append, MdCom.fromKids, asRead_isTagName,
        if_neg (by exact (by decide : ¬ (XmlTree.mk tNames [] [] []).isTagName tTX = true)), asRead_isTagName,
        if_neg (by exact (by decide : ¬ (XmlTree.mk tNames [] [] []).isTagName tCommon = true)), asRead_isTagName,
        if_neg (by exact (by decide : ¬ (XmlTree.mk tNames [] [] []).isTagName tFormula = true)), asRead_isTagName,
        if_pos (by exact (by decide : (XmlTree.mk tNames [] [] []).isTagName tNames = true)), names_read h2 ha]
    · rw [if_neg ha, names_inactive (by simpa using ha)]
      rfl
  have eF : ∀ rest, ({ text := c.text.readBack [], names := c.names.readBack } : MdCom).fromKids
        (allAsRead l (if c.formula.syntax_.str.text = [] then [] else [c.formula.node]) ++ rest) =
      ({ text := c.text.readBack [], names := c.names.readBack, formula := c.formula.readBack } : MdCom).fromKids rest := by
    intro rest
    by_cases ha : c.formula.syntax_.str.text = []
    · rw [if_pos ha, MdForm.readBack, if_pos ha]
      rfl
    · rw [if_neg ha, allAsRead, allAsRead, List.cons_append, List.nil_append, MdCom.fromKids, asRead_isTagName,
        if_neg (by exact (by decide : ¬ (XmlTree.mk tFormula [] [] []).isTagName tTX = true)), asRead_isTagName,
        if_neg (by exact (by decide : ¬ (XmlTree.mk tFormula [] [] []).isTagName tCommon = true)), asRead_isTagName,
        if_pos (by exact (by decide : (XmlTree.mk tFormula [] [] []).isTagName tFormula = true)), form_read h3 ha]
  rw [eN, eF]
  by_cases ha : c.common.isActive = true
  · have ih := inner_read c.common h4 (l + 1) {} [] []
    rw [if_pos ha, allAsRead, allAsRead, MdCom.fromKids, asRead_isTagName,
      if_neg (by exact (by decide : ¬ (XmlTree.mk tCommon [] [] []).isTagName tTX = true)), asRead_isTagName,
      if_pos (by exact (by decide : (XmlTree.mk tCommon [] [] []).isTagName tCommon = true)), asRead_mk, MdTree.fromNode, if_pos (.inl rfl)]
    have e1 : ({ text := c.text.readBack [], names := c.names.readBack, formula := c.formula.readBack } : MdCom).common =
        .mk {} [] [] [] [] [] [] := rfl
    rw [e1, ih]
    dsimp only
    rw [MdCom.fromKids, MdCom.readBack]
    congr
    exact common_readBack h5 h6 h7
  · rw [if_neg ha, allAsRead, MdCom.fromKids, MdCom.readBack, tree_inactive h5 (by simpa using ha)]

theorem com_read {c : MdCom} (hc : c.Good) {block : Bytes} (hb : XmlName block) : ({} : MdCom).fromXml (c.toXml block) = c.readBack := by
  have hp := parse_text (com_good hc hb)
  have hh : (c.node block).text.head? = some 0x3C#8 := by
    rw [text_body, List.head?_append, body_head]
    rfl
  rw [MdCom.toXml]
  cases he : (c.node block).text with
  | nil => rw [he] at hh; cases hh
  | cons b bs =>
    rw [he] at hh hp
    simp only [List.head?_cons, Option.some.injEq] at hh
    subst hh
    rw [MdCom.fromXml.eq_def]
    dsimp only
    rw [if_neg (by simp), hp]
    dsimp only
    rw [MdCom.node, asRead_mk, XmlTree.kids, com_kids hc]

end Mdf
