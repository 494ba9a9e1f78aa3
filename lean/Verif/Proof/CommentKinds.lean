import Verif.Spec.CommentKinds
import Verif.Proof.Number

set_option linter.unusedSimpArgs false

/-! # The comments of channels, events, file history, sources and units -/

namespace Mdf

/-! ## The parts of all comments -/

theorem com_text {c : MdCom} {s : MdStr} (hs : s.Good) (h0 : c.text = {}) (l : Nat) (rest : List XmlTree) :
    c.fromKids (allAsRead l (s.nodes tTX ++ rest)) = { c with text := s.readBack [] }.fromKids (allAsRead l rest) := by
  rw [text_node hs, List.cons_append, List.nil_append, allAsRead, asRead_leafNode, MdCom.fromKids,
    if_pos (by exact (by decide : (XmlTree.mk tTX [] [] []).isTagName tTX = true)), h0, str_read_nil hs]

theorem com_names {c m : MdCom} (hn : m.names.Good) (h0 : c.names = {}) (l : Nat) (rest : List XmlTree) :
    c.fromKids (allAsRead l (m.nameNodes ++ rest)) = { c with names := m.names.readBack }.fromKids (allAsRead l rest) := by
  rw [MdCom.nameNodes]
  by_cases ha : m.names.isActive = true
  · rw [if_pos ha, List.cons_append, List.nil_append, allAsRead, MdCom.fromKids, asRead_isTagName,
      if_neg (by exact (by decide : ¬ (XmlTree.mk tNames [] [] []).isTagName tTX = true)), asRead_isTagName,
      if_neg (by exact (by decide : ¬ (XmlTree.mk tNames [] [] []).isTagName tCommon = true)), asRead_isTagName,
      if_neg (by exact (by decide : ¬ (XmlTree.mk tNames [] [] []).isTagName tFormula = true)), asRead_isTagName,
      if_pos (by exact (by decide : (XmlTree.mk tNames [] [] []).isTagName tNames = true)), h0, names_read hn ha]
  · rw [if_neg ha, names_inactive (by simpa using ha), ← h0]
    rfl

theorem com_formula {c m : MdCom} (hf : m.formula.Good) (h0 : c.formula = {}) (l : Nat) (rest : List XmlTree) :
    c.fromKids (allAsRead l (m.formulaNodes ++ rest)) = { c with formula := m.formula.readBack }.fromKids (allAsRead l rest) := by
  rw [MdCom.formulaNodes]
  by_cases ha : m.formula.syntax_.str.text = []
  · rw [if_pos ha, MdForm.readBack, if_pos ha, ← h0]
    rfl
  · rw [if_neg ha, List.cons_append, List.nil_append, allAsRead, MdCom.fromKids, asRead_isTagName,
      if_neg (by exact (by decide : ¬ (XmlTree.mk tFormula [] [] []).isTagName tTX = true)), asRead_isTagName,
      if_neg (by exact (by decide : ¬ (XmlTree.mk tFormula [] [] []).isTagName tCommon = true)), asRead_isTagName,
      if_pos (by exact (by decide : (XmlTree.mk tFormula [] [] []).isTagName tFormula = true)), h0, form_read hf ha]

theorem com_common {c m : MdCom} (h0 : c.common = .empty) (h4 : m.common.Good) (h5 : m.common.std = {}) (h6 : m.common.name = [])
    (h7 : m.common.desc = []) (l : Nat) (rest : List XmlTree) :
    c.fromKids (allAsRead l (m.commonNodes ++ rest)) = { c with common := m.common.readBack }.fromKids (allAsRead l rest) := by
  rw [MdCom.commonNodes]
  by_cases ha : m.common.isActive = true
  · have ih := inner_read m.common h4 (l + 1) {} [] []
    rw [if_pos ha, List.cons_append, List.nil_append, allAsRead, MdCom.fromKids, asRead_isTagName,
      if_neg (by exact (by decide : ¬ (XmlTree.mk tCommon [] [] []).isTagName tTX = true)), asRead_isTagName,
      if_pos (by exact (by decide : (XmlTree.mk tCommon [] [] []).isTagName tCommon = true)), asRead_mk, MdTree.fromNode, if_pos (.inl rfl),
      h0, show MdTree.empty = .mk {} [] [] [] [] [] [] from rfl, ih]
    dsimp only
    congr 2
    exact common_readBack h5 h6 h7
  · rw [if_neg ha, tree_inactive h5 (by simpa using ha), ← h0]
    rfl

/-- All nodes of a list have the same name. -/
def HasTag (tag : Bytes) (ks : List XmlTree) : Prop := ∀ k ∈ ks, ∃ a v s, k = .mk tag a v s

/-- A name that the reader of all comments does not know. -/
def FreeTag (tag : Bytes) : Prop :=
  ((XmlTree.mk tag [] [] []).isTagName tTX = false ∧ (XmlTree.mk tag [] [] []).isTagName tCommon = false) ∧
  (XmlTree.mk tag [] [] []).isTagName tFormula = false ∧ (XmlTree.mk tag [] [] []).isTagName tNames = false

theorem com_own {tag : Bytes} (ht : FreeTag tag) (l : Nat) (rest : List XmlTree) : ∀ {ks : List XmlTree} (_ : HasTag tag ks) (c : MdCom),
    c.fromKids (allAsRead l (ks ++ rest)) = c.fromKids (allAsRead l rest)
  | [], _, _ => rfl
  | k :: ks, h, c => by
    obtain ⟨a, v, s, rfl⟩ := h k (by simp)
    rw [List.cons_append, allAsRead, fromKids_skip]
    · exact com_own ht l rest (fun k hk => h k (by simp [hk])) c
    · rw [asRead_isTagName, isTagName_mk, ht.1.1]; simp
    · rw [asRead_isTagName, isTagName_mk, ht.1.2]; simp
    · rw [asRead_isTagName, isTagName_mk, ht.2.1]; simp
    · rw [asRead_isTagName, isTagName_mk, ht.2.2]; simp

/-! ## The own parts -/

section
variable {σ : Type} {f : σ → XmlTree → Option σ} {s : σ}

theorem loop_skip (tag : Bytes) (hf : ∀ a v k, f s (.mk tag a v k) = some s) (l : Nat) (rest : List XmlTree) :
    ∀ {ks : List XmlTree} (_ : HasTag tag ks), kidLoop f s (allAsRead l (ks ++ rest)) = kidLoop f s (allAsRead l rest)
  | [], _ => rfl
  | k :: ks, h => by
    obtain ⟨a, v, t, rfl⟩ := h k (by simp)
    rw [List.cons_append, allAsRead, asRead_mk, kidLoop, hf]
    exact loop_skip tag hf l rest (fun k hk => h k (by simp [hk]))

theorem loop_num {n : MdNum} (hn : n.Good) (t : MdType) (tag : Bytes) (set : MdNum → σ)
    (hf : ∀ a v k, f s (.mk tag a v k) = (MdNum.read { type := t } (.mk tag a v k)).map set) (h0 : set { type := t } = s) (l : Nat)
    (rest : List XmlTree) :
    kidLoop f s (allAsRead l (n.nodes tag ++ rest)) = kidLoop f (set (n.readAs t)) (allAsRead l rest) := by
  rw [num_nodes hn, MdNum.readAs]
  by_cases he : n.number = []
  · rw [if_pos he, if_pos he, h0]
    rfl
  · rw [if_neg he, if_neg he, List.cons_append, List.nil_append, allAsRead, asRead_leafNode, kidLoop, hf, num_read hn]
    rfl

/-- What is read of a text. -/
def MdStr.readAs (x : MdStr) : MdStr := if x.text = [] then {} else x.readBack []

theorem str_nodes_eq {x : MdStr} (hx : x.Good) {tag : Bytes} (ht : tag ≠ tTX) :
    x.nodes tag = if x.text = [] then [] else [.mk tag (allAttrs x.std []) x.text []] := by
  rw [MdStr.nodes]
  by_cases h : x.text = []
  · rw [if_pos ⟨h, ht⟩, if_pos h]
  · rw [if_neg (fun h' => h h'.1), if_neg h, write_nil hx.1]

theorem loop_str {x : MdStr} (hx : x.Good) (tag : Bytes) (ht : tag ≠ tTX) (set : MdStr → σ)
    (hf : ∀ a v k, f s (.mk tag a v k) = some (set (MdStr.read {} (.mk tag a v k)))) (h0 : set {} = s) (l : Nat) (rest : List XmlTree) :
    kidLoop f s (allAsRead l (x.nodes tag ++ rest)) = kidLoop f (set x.readAs) (allAsRead l rest) := by
  rw [str_nodes_eq hx ht, MdStr.readAs]
  by_cases he : x.text = []
  · rw [if_pos he, if_pos he, h0]
    rfl
  · rw [if_neg he, if_neg he, List.cons_append, List.nil_append, allAsRead, asRead_leafNode, kidLoop, hf, str_read_nil hx]

theorem loop_names {n : MdNames} (hn : n.Good) (tag : Bytes) (set : MdNames → σ)
    (hf : ∀ a v k, f s (.mk tag a v k) = (MdNames.read {} (.mk tag a v k)).map set) (h0 : set {} = s) (l : Nat) (rest : List XmlTree) :
    kidLoop f s (allAsRead l ((if n.isActive then [n.nodeAs tag] else []) ++ rest)) = kidLoop f (set n.readBack) (allAsRead l rest) := by
  by_cases ha : n.isActive = true
  · have hr := names_read hn ha l
    have he : MdNames.read {} (.mk tag n.node.attrs [] (allAsRead (l + 1) n.node.kids)) = some n.readBack := by
      rw [← hr, MdNames.node, asRead_mk]
      rfl
    rw [if_pos ha, List.cons_append, List.nil_append, allAsRead, MdNames.nodeAs, asRead_mk, kidLoop, hf]
    have he' : MdNames.read {} (.mk tag n.node.attrs (if n.node.kids.isEmpty then [] else gaps l n.node.kids.length)
        (allAsRead (l + 1) n.node.kids)) = some n.readBack := he
    rw [he']
    rfl
  · rw [if_neg ha, names_inactive (by simpa using ha), h0]
    rfl
end

/-! ## Names of nodes -/

theorem tag_nodes (s : MdStr) (tag : Bytes) : HasTag tag (s.nodes tag) := by
  intro k hk
  rw [MdStr.nodes] at hk
  split at hk
  · cases hk
  · rw [List.mem_singleton] at hk
    exact ⟨_, _, _, hk⟩

theorem tag_num (n : MdNum) (tag : Bytes) : HasTag tag (n.nodes tag) := by
  intro k hk
  rw [MdNum.nodes] at hk
  split at hk
  · cases hk
  · rw [List.mem_singleton] at hk
    exact ⟨_, _, _, hk⟩

theorem tag_names (c : MdCom) : HasTag tNames c.nameNodes := by
  intro k hk
  rw [MdCom.nameNodes] at hk
  split at hk
  · rw [List.mem_singleton] at hk
    exact ⟨_, _, _, hk⟩
  · cases hk

theorem tag_formula (c : MdCom) : HasTag tFormula c.formulaNodes := by
  intro k hk
  rw [MdCom.formulaNodes] at hk
  split at hk
  · cases hk
  · rw [List.mem_singleton] at hk
    exact ⟨_, _, _, hk⟩

theorem tag_common (c : MdCom) : HasTag tCommon c.commonNodes := by
  intro k hk
  rw [MdCom.commonNodes] at hk
  split at hk
  · rw [List.mem_singleton] at hk
    exact ⟨_, _, _, hk⟩
  · cases hk

theorem tag_if {tag : Bytes} {p : Prop} [Decidable p] {a : List (Bytes × Bytes)} {v : Bytes} {k : List XmlTree} :
    HasTag tag (if p then [.mk tag a v k] else []) := by
  intro x hx
  split at hx
  · rw [List.mem_singleton] at hx
    exact ⟨_, _, _, hx⟩
  · cases hx

theorem tag_nodeAs (n : MdNames) (tag : Bytes) : HasTag tag (if n.isActive then [n.nodeAs tag] else []) := tag_if

/-! ## The nodes are good -/

theorem allGood_append {a b : List XmlTree} (ha : AllGood a) (hb : AllGood b) : AllGood (a ++ b) := by
  rw [allGood_iff] at *
  intro k hk
  rcases List.mem_append.mp hk with h | h
  · exact ha k h
  · exact hb k h

theorem good_text {s : MdStr} (hs : s.Good) : AllGood (s.nodes tTX) := by
  rw [text_node hs]
  exact ⟨⟨⟨_, _, rfl, by decide, by decide⟩, allAttrs_good hs.1 ownKeys_nil (fun a ha => by cases ha), hs.2, trivial⟩, trivial⟩

theorem good_str {s : MdStr} (hs : s.Good) {tag : Bytes} (ht : tag ≠ tTX) (hx : XmlName tag) : AllGood (s.nodes tag) := by
  rw [str_nodes_eq hs ht]
  split
  · trivial
  · exact ⟨⟨hx, allAttrs_good hs.1 ownKeys_nil (fun a ha => by cases ha), hs.2, trivial⟩, trivial⟩

theorem good_num {n : MdNum} (hn : n.Good) {tag : Bytes} (hx : XmlName tag) : AllGood (n.nodes tag) := by
  rw [num_nodes hn]
  split
  · trivial
  · exact ⟨num_good hn hx, trivial⟩

theorem good_names {c : MdCom} (hn : c.names.Good) : AllGood c.nameNodes := by
  rw [MdCom.nameNodes]
  split
  · exact ⟨names_good hn, trivial⟩
  · trivial

theorem good_nodeAs {n : MdNames} (hn : n.Good) {tag : Bytes} (hx : XmlName tag) : AllGood (if n.isActive then [n.nodeAs tag] else []) := by
  split
  · have h := names_good hn
    rw [MdNames.node, XmlTree.Good] at h
    refine ⟨?_, trivial⟩
    rw [MdNames.nodeAs, XmlTree.Good]
    exact ⟨hx, h.2.1, plainText_nil, h.2.2.2⟩
  · trivial

theorem good_formula {c : MdCom} (hf : c.formula.Good) : AllGood c.formulaNodes := by
  rw [MdCom.formulaNodes]
  split
  · trivial
  · exact ⟨form_good hf, trivial⟩

theorem good_common {c : MdCom} (h : c.common.Good) : AllGood c.commonNodes := by
  rw [MdCom.commonNodes]
  split
  · exact ⟨⟨⟨_, _, rfl, by decide, by decide⟩, ⟨by simp, fun a ha => by cases ha⟩, plainText_nil, inner_good _ h⟩, trivial⟩
  · trivial

/-- The text of a good tree starts with `<`, and gives the tree. -/
theorem xml_open {root : Bytes} {ks : List XmlTree} (hr : XmlName root) (hk : AllGood ks) :
    ∃ bs v, (XmlTree.mk root [] [] ks).text = 0x3C#8 :: bs ∧ xmlParse (0x3C#8 :: bs) = some (.mk root [] v (allAsRead 1 ks)) := by
  have hg : (XmlTree.mk root [] [] ks).Good := ⟨hr, ⟨by simp, fun a ha => by cases ha⟩, plainText_nil, hk⟩
  have hp := parse_text hg
  have hh : (XmlTree.mk root [] [] ks).text.head? = some 0x3C#8 := by
    rw [text_body, List.head?_append, body_head]
    rfl
  cases he : (XmlTree.mk root [] [] ks).text with
  | nil => rw [he] at hh; cases hh
  | cons b bs =>
    rw [he] at hh hp
    simp only [List.head?_cons, Option.some.injEq] at hh
    subst hh
    exact ⟨bs, _, rfl, by rw [hp, asRead_mk]⟩

/-! ## Channels -/

theorem offset_keys (v : Bytes) : ((MdStd.base {} ++ [(kOffset, v)]).map (·.1)).Nodup := by
  show [kCi, kLang, kOffset].Nodup
  decide

theorem offset_nodup {s : MdStd} (hs : s.Good) (v : Bytes) : ((s.base ++ s.custom ++ [(kOffset, v)]).map (·.1)).Nodup := by
  have h1 : ((([(kOffset, v)] ++ s.base) ++ s.custom).map (·.1)).Nodup := by
    rw [List.map_append, List.nodup_append]
    refine ⟨?_, sortedBy_nodup hs.2.2.1, ?_⟩
    · show [kOffset, kCi, kLang].Nodup
      decide
    · intro a ha b hb
      obtain ⟨y, hy, rfl⟩ := List.mem_map.mp hb
      have hk : a ∈ reservedKeys := by
        have : ∀ a ∈ [kOffset, kCi, kLang], a ∈ reservedKeys := by decide
        exact this a ha
      exact fun he => sameWord_ne ((hs.2.2.2 y hy).2.2 a hk) he.symm
  refine (List.Perm.nodup_iff ?_).mp h1
  apply List.Perm.map
  rw [List.append_assoc]
  exact List.perm_append_comm

/-- The attributes of the linker name. -/
def MdStr.linkerAttrs (s : MdStr) : List (Bytes × Bytes) := allAttrs s.std [] ++ given [(kOffset, offsetText s.offset)]

theorem linker_attrs {s : MdStr} (hs : s.Good) : setAll (s.std.write []) [(kOffset, offsetText s.offset)] = s.linkerAttrs := by
  rw [write_nil hs.1, setAll_new, MdStr.linkerAttrs]
  refine (offset_nodup hs.1 _).sublist (List.Sublist.map _ (List.Sublist.append ?_ (List.Sublist.refl _)))
  exact (given_sublist s.std.base).append (List.Sublist.refl _)

theorem offsetText_line (o : Option Nat) : PlainLine (offsetText o) := by
  cases o with
  | none => exact plainLine_nil
  | some n =>
    rw [offsetText]
    split
    · exact decText_line n
    · exact plainLine_nil

theorem good_linker {s : MdStr} (hs : s.Good) : AllGood s.linkerNodes := by
  rw [MdStr.linkerNodes, linker_attrs hs]
  split
  · trivial
  · refine ⟨⟨⟨_, _, rfl, by decide, by decide⟩, ⟨?_, ?_⟩, hs.2, trivial⟩, trivial⟩
    · refine (offset_nodup hs.1 _).sublist (List.Sublist.map _ (List.Sublist.append ?_ (given_sublist _)))
      exact (given_sublist s.std.base).append (List.Sublist.refl _)
    · intro a ha
      rcases List.mem_append.mp ha with h | h
      · exact (allAttrs_good (own := []) hs.1 ownKeys_nil (by simp)).2 a h
      · have hm := (given_sublist _).subset h
        rw [List.mem_singleton] at hm
        subst hm
        exact ⟨reserved_xmlName kOffset (by decide), offsetText_line _⟩

/-- What is read of the linker name. -/
def MdStr.linkerBack (s : MdStr) : MdStr := if s.text = [] then {} else { s.readBack [] with offset := s.offset.filter (· > 0) }

theorem linker_read {s : MdStr} (hs : s.Good) (ho : ∀ o ∈ s.offset, o < 2 ^ 64) (tag : Bytes) :
    MdStr.read {} (.mk tag s.linkerAttrs s.text []) = { s.readBack [] with offset := s.offset.filter (· > 0) } := by
  have h0 : (allAttrs s.std []).foldl MdStr.readAttr {} = { std := s.std.readBack [] } := strRead_own hs.1 ownKeys_nil
  have h1 : s.linkerAttrs.foldl MdStr.readAttr {} = { std := s.std.readBack [], offset := s.offset.filter (· > 0) } := by
    rw [MdStr.linkerAttrs, List.foldl_append, h0, given_one]
    cases hb : s.offset with
    | none => rfl
    | some o =>
      by_cases hz : o > 0
      · have hd : (decText o).isEmpty = false := by simpa using decText_ne o
        rw [offsetText, if_pos hz, hd, if_neg (by simp), List.foldl_cons, List.foldl_nil]
        show ({ std := s.std.readBack [], offset := stoullText (decText o) } : MdStr) = _
        rw [stoullText_decText (ho o (by rw [hb]; rfl)), Option.filter_some, if_pos (by simpa using hz)]
      · have h0 : o = 0 := by omega
        subst h0
        rfl
  show ({ s.linkerAttrs.foldl MdStr.readAttr {} with text := trim s.text } : MdStr) = _
  rw [h1]
  rfl

theorem tag_linker (s : MdStr) : HasTag tLinkerName s.linkerNodes := by
  intro k hk
  rw [MdStr.linkerNodes] at hk
  split at hk
  · cases hk
  · rw [List.mem_singleton] at hk
    exact ⟨_, _, _, hk⟩

theorem tag_mono (m : Option MdMono) : HasTag tMonotony (monoNodes m) := by
  intro k hk
  cases m with
  | none => cases hk
  | some m => exact ⟨_, _, _, List.mem_singleton.mp hk⟩

theorem good_mono (m : Option MdMono) : AllGood (monoNodes m) := by
  cases m with
  | none => trivial
  | some m =>
    refine ⟨⟨⟨_, _, rfl, by decide, by decide⟩, ⟨by simp, fun a ha => by cases ha⟩, ?_, trivial⟩, trivial⟩
    unfold PlainText
    cases m <;> decide

theorem mono_word (m : MdMono) : MdMono.ofWord (trim m.word) = m ∧ trim m.word ≠ [] := by cases m <;> decide

theorem cn_good {c : CnCom} (hg : c.Good) : AllGood c.kids := by
  obtain ⟨⟨h1, h2, h3, h4, _⟩, g1, _, g3, g4, g5⟩ := hg
  exact allGood_append (good_text h1) (allGood_append (good_names h2) (allGood_append (good_linker g1)
    (allGood_append (good_num g3 ⟨_, _, rfl, by decide, by decide⟩) (allGood_append (good_mono _)
    (allGood_append (good_num g4 ⟨_, _, rfl, by decide, by decide⟩) (allGood_append (good_formula h3)
    (allGood_append (good_num g5 ⟨_, _, rfl, by decide, by decide⟩) (good_common h4))))))))

theorem cn_com {c : CnCom} (hg : c.Good) : ({} : MdCom).fromKids (allAsRead 1 c.kids) = (c.com.readBack, false) := by
  obtain ⟨⟨h1, h2, h3, h4, h5, h6, h7⟩, g1, _, g3, g4, g5⟩ := hg
  unfold CnCom.kids
  rw [com_text h1 rfl, com_names h2 rfl, com_own (by unfold FreeTag; decide) 1 _ (tag_linker _),
    com_own (by unfold FreeTag; decide) 1 _ (tag_num _ _), com_own (by unfold FreeTag; decide) 1 _ (tag_mono _),
    com_own (by unfold FreeTag; decide) 1 _ (tag_num _ _), com_formula h3 rfl, com_own (by unfold FreeTag; decide) 1 _ (tag_num _ _),
    ← List.append_nil c.com.commonNodes, com_common rfl h4 h5 h6 h7]
  rfl

theorem cn_own {c : CnCom} (hg : c.Good) (m : MdCom) : kidLoop CnCom.readKid { com := m } (allAsRead 1 c.kids) =
    ({ com := m, linkerName := c.linkerName.linkerBack, linkerAddress := c.linkerAddress.readAs .hex, monotony := c.monotony,
       raster := c.raster.readAs .decimal, address := c.address.readAs .hex }, false) := by
  obtain ⟨⟨h1, h2, h3, h4, h5, h6, h7⟩, g1, g2, g3, g4, g5⟩ := hg
  have eL : ∀ rest, kidLoop CnCom.readKid { com := m } (allAsRead 1 (c.linkerName.linkerNodes ++ rest)) =
      kidLoop CnCom.readKid { com := m, linkerName := c.linkerName.linkerBack } (allAsRead 1 rest) := by
    intro rest
    rw [MdStr.linkerNodes, MdStr.linkerBack, linker_attrs g1]
    by_cases he : c.linkerName.text = []
    · rw [if_pos he, if_pos he]
      rfl
    · rw [if_neg he, if_neg he, List.cons_append, List.nil_append, allAsRead, asRead_leafNode, kidLoop]
      have e : CnCom.readKid { com := m } (.mk tLinkerName c.linkerName.linkerAttrs c.linkerName.text []) =
          some { com := m, linkerName := MdStr.read {} (.mk tLinkerName c.linkerName.linkerAttrs c.linkerName.text []) } := rfl
      rw [e, linker_read g1 g2]
  have eM : ∀ (q : CnCom) (rest : List XmlTree), q.monotony = none → kidLoop CnCom.readKid q (allAsRead 1 (monoNodes c.monotony ++ rest)) =
      kidLoop CnCom.readKid { q with monotony := c.monotony } (allAsRead 1 rest) := by
    intro q rest hq
    cases c.monotony with
    | none => cases q; cases hq; rfl
    | some x =>
      rw [monoNodes, List.cons_append, List.nil_append, allAsRead, asRead_leafNode, kidLoop]
      have e : CnCom.readKid q (.mk tMonotony [] x.word []) =
          some (if trim x.word = [] then q else { q with monotony := some (.ofWord (trim x.word)) }) := rfl
      rw [e, if_neg (mono_word x).2, (mono_word x).1]
  unfold CnCom.kids
  rw [loop_skip tTX (fun _ _ _ => rfl) 1 _ (tag_nodes _ _), loop_skip tNames (fun _ _ _ => rfl) 1 _ (tag_names _), eL,
    loop_num g3 .hex tLinkerAddress (fun n => CnCom.mk m c.linkerName.linkerBack n none { type := .decimal } { type := .hex }) (fun _ _ _ => rfl) rfl,
    eM _ _ rfl, loop_num g4 .decimal tRaster (fun n => CnCom.mk m c.linkerName.linkerBack
      (c.linkerAddress.readAs .hex) c.monotony n { type := .hex }) (fun _ _ _ => rfl) rfl,
    loop_skip tFormula (fun _ _ _ => rfl) 1 _ (tag_formula _),
    loop_num g5 .hex tAddress (fun n => CnCom.mk m c.linkerName.linkerBack (c.linkerAddress.readAs .hex) c.monotony (c.raster.readAs .decimal) n) (fun _ _ _ => rfl) rfl,
    ← List.append_nil c.com.commonNodes, loop_skip tCommon (fun _ _ _ => rfl) 1 _ (tag_common _)]
  rfl

theorem cn_read {c : CnCom} (hg : c.Good) : ({} : CnCom).fromXml c.toXml =
    { com := c.com.readBack, linkerName := c.linkerName.linkerBack, linkerAddress := c.linkerAddress.readAs .hex, monotony := c.monotony,
      raster := c.raster.readAs .decimal, address := c.address.readAs .hex } := by
  obtain ⟨bs, v, h1, h2⟩ := xml_open (root := trim (bCN ++ tComment)) ⟨_, _, rfl, by decide, by decide⟩ (cn_good hg)
  rw [CnCom.toXml, h1, CnCom.fromXml.eq_def]
  dsimp only
  rw [if_neg (by simp), h2]
  dsimp only
  rw [XmlTree.kids, cn_com hg]
  dsimp only
  rw [cn_own hg]

/-! ## Events -/

theorem ev_good {c : EvCom} (hg : c.Good) : AllGood c.kids := by
  obtain ⟨⟨h1, h2, h3, h4, _⟩, g1, g2, g3⟩ := hg
  exact allGood_append (good_text h1) (allGood_append (good_num g1 ⟨_, _, rfl, by decide, by decide⟩)
    (allGood_append (good_num g2 ⟨_, _, rfl, by decide, by decide⟩) (allGood_append (good_formula h3)
    (allGood_append (good_num g3 ⟨_, _, rfl, by decide, by decide⟩) (good_common h4)))))

theorem ev_read {c : EvCom} (hg : c.Good) : ({} : EvCom).fromXml c.toXml =
    { com := { c.com.readBack with names := {} }, pre := c.pre.readAs .float, post := c.post.readAs .float, timeout := c.timeout.readAs .float } := by
  obtain ⟨bs, v, e1, e2⟩ := xml_open (root := trim (bEV ++ tComment)) ⟨_, _, rfl, by decide, by decide⟩ (ev_good hg)
  obtain ⟨⟨h1, h2, h3, h4, h5, h6, h7⟩, g1, g2, g3⟩ := hg
  have k1 : ({} : MdCom).fromKids (allAsRead 1 c.kids) = ({ c.com.readBack with names := {} }, false) := by
    unfold EvCom.kids
    rw [com_text h1 rfl, com_own (by unfold FreeTag; decide) 1 _ (tag_num _ _), com_own (by unfold FreeTag; decide) 1 _ (tag_num _ _),
      com_formula h3 rfl, com_own (by unfold FreeTag; decide) 1 _ (tag_num _ _), ← List.append_nil c.com.commonNodes,
      com_common rfl h4 h5 h6 h7]
    rfl
  have k2 : ∀ m, kidLoop EvCom.readKid { com := m } (allAsRead 1 c.kids) =
      ({ com := m, pre := c.pre.readAs .float, post := c.post.readAs .float, timeout := c.timeout.readAs .float }, false) := by
    intro m
    unfold EvCom.kids
    rw [loop_skip tTX (fun _ _ _ => rfl) 1 _ (tag_nodes _ _), loop_num g1 .float tPre (fun n => EvCom.mk m n {} {}) (fun _ _ _ => rfl) rfl,
      loop_num g2 .float tPost (fun n => EvCom.mk m (c.pre.readAs .float) n {}) (fun _ _ _ => rfl) rfl,
      loop_skip tFormula (fun _ _ _ => rfl) 1 _ (tag_formula _),
      loop_num g3 .float tTimeout (fun n => EvCom.mk m (c.pre.readAs .float) (c.post.readAs .float) n)
        (fun _ _ _ => rfl) rfl,
      ← List.append_nil c.com.commonNodes, loop_skip tCommon (fun _ _ _ => rfl) 1 _ (tag_common _)]
    rfl
  rw [EvCom.toXml, e1, EvCom.fromXml.eq_def]
  dsimp only
  rw [if_neg (by simp), e2]
  dsimp only
  rw [XmlTree.kids, k1]
  dsimp only
  rw [k2]

/-! ## File history -/

theorem fh_good {c : FhCom} (hg : c.Good) : AllGood c.kids := by
  obtain ⟨⟨h1, h2, h3, h4, _⟩, g1, g2, g3, g4⟩ := hg
  exact allGood_append (good_text h1) (allGood_append (good_str g1 (by decide) ⟨_, _, rfl, by decide, by decide⟩)
    (allGood_append (good_str g2 (by decide) ⟨_, _, rfl, by decide, by decide⟩)
    (allGood_append (good_str g3 (by decide) ⟨_, _, rfl, by decide, by decide⟩)
    (allGood_append (good_str g4 (by decide) ⟨_, _, rfl, by decide, by decide⟩) (good_common h4)))))

theorem fhCom_read {c : FhCom} (hg : c.Good) : ({} : FhCom).fromXml c.toXml =
    { com := { c.com.readBack with names := {}, formula := {} }, toolId := c.toolId.readAs, toolVendor := c.toolVendor.readAs,
      toolVersion := c.toolVersion.readAs, userName := c.userName.readAs } := by
  obtain ⟨bs, v, e1, e2⟩ := xml_open (root := trim (bFH ++ tComment)) ⟨_, _, rfl, by decide, by decide⟩ (fh_good hg)
  obtain ⟨⟨h1, h2, h3, h4, h5, h6, h7⟩, g1, g2, g3, g4⟩ := hg
  have k1 : ({} : MdCom).fromKids (allAsRead 1 c.kids) = ({ c.com.readBack with names := {}, formula := {} }, false) := by
    unfold FhCom.kids
    rw [com_text h1 rfl, com_own (by unfold FreeTag; decide) 1 _ (tag_nodes _ _), com_own (by unfold FreeTag; decide) 1 _ (tag_nodes _ _),
      com_own (by unfold FreeTag; decide) 1 _ (tag_nodes _ _), com_own (by unfold FreeTag; decide) 1 _ (tag_nodes _ _),
      ← List.append_nil c.com.commonNodes, com_common rfl h4 h5 h6 h7]
    rfl
  have k2 : kidLoop FhCom.readKid {} (allAsRead 1 c.kids) =
      ({ toolId := c.toolId.readAs, toolVendor := c.toolVendor.readAs, toolVersion := c.toolVersion.readAs,
         userName := c.userName.readAs }, false) := by
    unfold FhCom.kids
    rw [loop_skip tTX (fun _ _ _ => rfl) 1 _ (tag_nodes _ _),
      loop_str g1 tToolId (by decide) (fun n => FhCom.mk {} n {} {} {}) (fun _ _ _ => rfl) rfl,
      loop_str g2 tToolVendor (by decide) (fun n => FhCom.mk {} c.toolId.readAs n {} {}) (fun _ _ _ => rfl) rfl,
      loop_str g3 tToolVersion (by decide) (fun n => FhCom.mk {} c.toolId.readAs c.toolVendor.readAs n {})
        (fun _ _ _ => rfl) rfl,
      loop_str g4 tUserName (by decide) (fun n => FhCom.mk {} c.toolId.readAs c.toolVendor.readAs c.toolVersion.readAs n) (fun _ _ _ => rfl) rfl,
      ← List.append_nil c.com.commonNodes, loop_skip tCommon (fun _ _ _ => rfl) 1 _ (tag_common _)]
    rfl
  rw [FhCom.toXml, e1, FhCom.fromXml.eq_def]
  dsimp only
  rw [if_neg (by simp), e2]
  dsimp only
  rw [XmlTree.kids, k2]
  dsimp only
  rw [k1]

/-! ## Sources -/

theorem si_good {c : SiCom} (hg : c.Good) : AllGood c.kids := by
  obtain ⟨⟨h1, h2, h3, h4, _⟩, g1, g2, g3⟩ := hg
  exact allGood_append (good_text h1) (allGood_append (good_names h2) (allGood_append (good_nodeAs g1 ⟨_, _, rfl, by decide, by decide⟩)
    (allGood_append (good_nodeAs g2 ⟨_, _, rfl, by decide, by decide⟩)
    (allGood_append (good_str g3 (by decide) ⟨_, _, rfl, by decide, by decide⟩) (good_common h4)))))

theorem si_read {c : SiCom} (hg : c.Good) : ({} : SiCom).fromXml c.toXml =
    { com := { c.com.readBack with formula := {} }, path := c.path.readBack, bus := c.bus.readBack, protocol := c.protocol.readAs } := by
  obtain ⟨bs, v, e1, e2⟩ := xml_open (root := trim (bSI ++ tComment)) ⟨_, _, rfl, by decide, by decide⟩ (si_good hg)
  obtain ⟨⟨h1, h2, h3, h4, h5, h6, h7⟩, g1, g2, g3⟩ := hg
  have k1 : ({} : MdCom).fromKids (allAsRead 1 c.kids) = ({ c.com.readBack with formula := {} }, false) := by
    unfold SiCom.kids
    rw [com_text h1 rfl, com_names h2 rfl, com_own (by unfold FreeTag; decide) 1 _ (tag_nodeAs c.path tPath),
      com_own (by unfold FreeTag; decide) 1 _ (tag_nodeAs c.bus tBus), com_own (by unfold FreeTag; decide) 1 _ (tag_nodes _ _),
      ← List.append_nil c.com.commonNodes, com_common rfl h4 h5 h6 h7]
    rfl
  have k2 : kidLoop SiCom.readKid {} (allAsRead 1 c.kids) =
      ({ path := c.path.readBack, bus := c.bus.readBack, protocol := c.protocol.readAs }, false) := by
    unfold SiCom.kids
    rw [loop_skip tTX (fun _ _ _ => rfl) 1 _ (tag_nodes _ _), loop_skip tNames (fun _ _ _ => rfl) 1 _ (tag_names _),
      loop_names g1 tPath (fun n => SiCom.mk {} n {} {}) (fun _ _ _ => rfl) rfl,
      loop_names g2 tBus (fun n => SiCom.mk {} c.path.readBack n {}) (fun _ _ _ => rfl) rfl,
      loop_str g3 tProtocol (by decide) (fun n => SiCom.mk {} c.path.readBack c.bus.readBack n) (fun _ _ _ => rfl) rfl,
      ← List.append_nil c.com.commonNodes, loop_skip tCommon (fun _ _ _ => rfl) 1 _ (tag_common _)]
    rfl
  rw [SiCom.toXml, e1, SiCom.fromXml.eq_def]
  dsimp only
  rw [if_neg (by simp), e2]
  dsimp only
  rw [XmlTree.kids, k2]
  dsimp only
  rw [k1]

/-! ## Units -/

theorem unitRef_keys (v : Bytes) : OwnKeys ([(kUnitRef, v)].map (·.1)) := by
  show OwnKeys [kUnitRef]
  exact ⟨by decide, by decide, by decide⟩

theorem unit_attrs {s : MdStd} (hs : s.Good) (v : Bytes) : setAll (s.write []) [(kUnitRef, v)] = allAttrs s [] ++ given [(kUnitRef, v)] := by
  rw [write_nil hs, setAll_new]
  have h := keys_nodup hs (unitRef_keys v)
  have h2 : ((s.base ++ s.custom ++ [(kUnitRef, v)]).map (·.1)).Nodup := by
    refine (List.Perm.nodup_iff ?_).mp h
    apply List.Perm.map
    rw [List.append_assoc]
    exact List.perm_append_comm
  refine h2.sublist (List.Sublist.map _ (List.Sublist.append ?_ (List.Sublist.refl _)))
  exact (given_sublist s.base).append (List.Sublist.refl _)

theorem unit_goodAttrs {s : MdStd} (hs : s.Good) {v : Bytes} (hv : PlainLine v) : GoodAttrs (allAttrs s [] ++ given [(kUnitRef, v)]) := by
  have hp := names_perm s [(kUnitRef, v)]
  have hg := allAttrs_good hs (unitRef_keys v) (fun a ha => by
    rw [List.mem_singleton] at ha; subst ha; exact hv)
  refine ⟨(hp.map _).nodup_iff.mpr hg.1, ?_⟩
  intro a ha
  exact hg.2 a (hp.mem_iff.mp ha)

theorem unit_default {s : MdStd} (hs : s.Good) (v : Bytes) : attrText (allAttrs s [] ++ given [(kUnitRef, v)]) kUnitRef = trim v := by
  have h0 : (allAttrs s []).find? (fun a => sameWord a.1 kUnitRef) = none := by
    rw [List.find?_eq_none]
    intro a ha
    have ha' : a ∈ given s.base ++ s.custom := ha
    rw [List.mem_append] at ha'
    rcases ha' with ha' | ha'
    · have hm := (given_sublist s.base).subset ha'
      simp only [MdStd.base, List.mem_cons, List.not_mem_nil, or_false] at hm
      rcases hm with rfl | rfl
      · exact (by decide : ¬ sameWord kCi kUnitRef = true)
      · exact (by decide : ¬ sameWord kLang kUnitRef = true)
    · rw [(hs.2.2.2 a ha').2.2 kUnitRef (by decide)]
      simp
  rw [attrText, List.find?_append, h0, given_one]
  by_cases hv : v.isEmpty = true
  · rw [if_pos hv]
    have : v = [] := by simpa using hv
    subst this
    rfl
  · rw [if_neg hv]
    simp [sameWord_refl]

theorem unit_std {s : MdStd} (hs : s.Good) (v : Bytes) :
    MdStd.read {} (allAttrs s [] ++ given [(kUnitRef, v)]) = some { s with custom := attrMap (s.custom ++ given [(kUnitRef, v)]) } := by
  rw [read_append, read_own (own := []) hs ownKeys_nil, Option.bind_some, read_foreign (foreign_own (unitRef_keys v))]
  simp [MdStd.readBack, attrMap, given, List.foldl_append]

/-- What is read of the reference to a unit. -/
def unitBack (s : MdStr) : MdStr :=
  if s.text = [] then {} else { std := { s.std with custom := attrMap (s.std.custom ++ given [(kUnitRef, s.text)]) }, text := trim s.text }

/-- The nodes of the reference to a unit. -/
def unitNodes (s : MdStr) : List XmlTree :=
  if s.text = [] then [] else [.mk tHoUnit (setAll (s.std.write []) [(kUnitRef, s.text)]) [] []]

/-- The text of a unit with the attribute `x`, without a value. -/
def refText (x : Bytes) : Bytes := if trim x = [] then trim [] else trim x

theorem tag_unit (s : MdStr) : HasTag tHoUnit (unitNodes s) := by
  intro k hk
  rw [unitNodes] at hk
  split at hk
  · cases hk
  · rw [List.mem_singleton] at hk
    exact ⟨_, _, _, hk⟩

theorem un_good {c : CcUn} (hg : c.Good) : AllGood c.kids := by
  obtain ⟨⟨h1, h2, h3, h4, _⟩, g1, g2⟩ := hg
  refine allGood_append (good_text h1) (allGood_append (good_names h2) (allGood_append (good_formula h3) (allGood_append (good_common h4) ?_)))
  split
  · trivial
  · refine ⟨⟨⟨_, _, rfl, by decide, by decide⟩, ?_, plainText_nil, trivial⟩, trivial⟩
    rw [unit_attrs g1]
    exact unit_goodAttrs g1 g2

theorem un_read {c : CcUn} (hg : c.Good) {block : Bytes} (hb : block = bCC ∨ block = bCN) : ({} : CcUn).fromXml (c.toXml block) =
    { com := c.com.readBack, unitRef := unitBack c.unitRef } := by
  have hroot : XmlName (trim (block ++ wUnitRoot)) := by
    rcases hb with rfl | rfl
    · exact ⟨_, _, rfl, by decide, by decide⟩
    · exact ⟨_, _, rfl, by decide, by decide⟩
  obtain ⟨bs, v, e1, e2⟩ := xml_open hroot (un_good hg)
  obtain ⟨⟨h1, h2, h3, h4, h5, h6, h7⟩, g1, g2⟩ := hg
  have ek : c.kids = c.com.text.nodes tTX ++ (c.com.nameNodes ++ (c.com.formulaNodes ++ (c.com.commonNodes ++ (unitNodes c.unitRef ++ [])))) := by
    rw [List.append_nil]
    rfl
  have k1 : ({} : MdCom).fromKids (allAsRead 1 c.kids) = (c.com.readBack, false) := by
    rw [ek, com_text h1 rfl, com_names h2 rfl, com_formula h3 rfl, com_common rfl h4 h5 h6 h7,
      com_own (by unfold FreeTag; decide) 1 _ (tag_unit _)]
    rfl
  have k2 : kidLoop CcUn.readKid {} (allAsRead 1 c.kids) = ({ unitRef := unitBack c.unitRef }, false) := by
    rw [ek, loop_skip tTX (fun _ _ _ => rfl) 1 _ (tag_nodes _ _), loop_skip tNames (fun _ _ _ => rfl) 1 _ (tag_names _),
      loop_skip tFormula (fun _ _ _ => rfl) 1 _ (tag_formula _), loop_skip tCommon (fun _ _ _ => rfl) 1 _ (tag_common _), List.append_nil,
      unitNodes, unitBack]
    by_cases he : c.unitRef.text = []
    · rw [if_pos he, if_pos he]
      rfl
    · rw [if_neg he, if_neg he, unit_attrs g1, allAsRead, asRead_leafNode, kidLoop]
      have e : CcUn.readKid {} (.mk tHoUnit (allAttrs c.unitRef.std [] ++ given [(kUnitRef, c.unitRef.text)]) [] []) =
          (MdStd.read {} (allAttrs c.unitRef.std [] ++ given [(kUnitRef, c.unitRef.text)])).map fun s =>
            { unitRef := { std := s, text := refText (attrText (allAttrs c.unitRef.std [] ++ given [(kUnitRef, c.unitRef.text)]) kUnitRef) } } := rfl
      rw [e, unit_std g1, unit_default g1, refText, trim_trim]
      dsimp only [Option.map_some]
      rw [allAsRead, kidLoop]
      by_cases ht : trim c.unitRef.text = []
      · rw [if_pos ht, ht]
        rfl
      · rw [if_neg ht]
  rw [CcUn.toXml, e1, CcUn.fromXml.eq_def]
  dsimp only
  rw [if_neg (by simp), e2]
  dsimp only
  rw [XmlTree.kids, k2]
  dsimp only
  rw [k1]

/-! ## Numbers for the examples and the setters -/

theorem ofU64_good (v : Nat) (t t' : MdType) : ({ MdNum.ofU64 v t with type := t' } : MdNum).Good := by
  refine ⟨hd_std_good, fun a ha => (by cases ha), ?_, plainLine_nil, plainLine_nil, fun c hc => (by cases hc), fun c hc => by cases hc⟩
  show PlainText (if t = .hex then hexText v else decText v)
  split
  · exact fun c hc => Or.inl (hexText_line v c hc)
  · exact fun c hc => Or.inl (decText_line v c hc)

theorem readAs_u64 (v : Nat) (t t' : MdType) (hv : v < 2 ^ 64) : (({ MdNum.ofU64 v t with type := t' } : MdNum).readAs t').u64 = v := by
  have h1 : hexOrDec (MdNum.ofU64 v t).number = some v ∧ trim (MdNum.ofU64 v t).number = (MdNum.ofU64 v t).number ∧
      (MdNum.ofU64 v t).number ≠ [] := by
    rw [MdNum.ofU64]
    dsimp only
    split
    · exact ⟨hexOrDec_hex hv, hexText_trim v, hexText_ne v⟩
    · exact ⟨hexOrDec_dec hv, decText_trim v, decText_ne v⟩
  rw [MdNum.readAs, if_neg h1.2.2]
  show (hexOrDec (trim (MdNum.ofU64 v t).number)).getD 0 = v
  rw [h1.2.1, h1.1]
  rfl

theorem empty_com_good : ({} : MdCom).Good := by
  have h : MdTree.empty.Good := by
    rw [MdTree.empty, MdTree.Good.eq_def]
    exact ⟨hd_std_good, rfl, plainLine_nil, plainLine_nil, by simp, List.Pairwise.nil, trivial, List.Pairwise.nil, trivial, List.Pairwise.nil,
      by simp, List.Pairwise.nil, by simp, by simp⟩
  refine ⟨⟨hd_std_good, plainText_nil⟩, ⟨hd_std_good, plainLine_nil, ?_, ?_, ?_, ?_⟩, ⟨hd_std_good, ⟨⟨hd_std_good, plainText_nil⟩, ?_, plainLine_nil⟩,
    ?_, List.Pairwise.nil, ?_, List.Pairwise.nil⟩, h, rfl, rfl, rfl⟩
  · intro s hs; cases hs
  · intro s hs; cases hs
  · intro s hs; cases hs
  · intro s hs; cases hs
  · show PlainLine wVersion10
    unfold PlainLine
    decide
  · intro s hs; cases hs
  · intro s hs; cases hs

theorem empty_num_good (t : MdType) : ({ type := t } : MdNum).Good :=
  ⟨hd_std_good, fun a ha => (by cases ha), plainText_nil, plainLine_nil, plainLine_nil, fun c hc => (by cases hc), fun c hc => by cases hc⟩

end Mdf
