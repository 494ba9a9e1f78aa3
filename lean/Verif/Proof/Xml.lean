import Verif.Spec.Xml
import Verif.Proof.Text

namespace Mdf

theorem XmlSt.run_append (s : XmlSt) (a b : Bytes) : s.run (a ++ b) = (s.run a).run b := by
  simp [XmlSt.run, List.foldl_append]

theorem XmlSt.run_cons (s : XmlSt) (c : Byte) (b : Bytes) : s.run (c :: b) = (s.step c).run b := rfl

theorem XmlSt.run_nil (s : XmlSt) : s.run [] = s := rfl

/-! ## Names -/

theorem nameChar_ne {c : Byte} (h : isNameChar c = true) :
    c ≠ 0x3C#8 ∧ c ≠ 0x26#8 ∧ c ≠ 0x3E#8 ∧ c ≠ 0x2F#8 ∧ c ≠ 0x3D#8 ∧ c ≠ 0x27#8 ∧ c ≠ 0x20#8 ∧ c ≠ 0x0D#8 ∧ isXmlBlank c = false := by
  revert h
  simp only [isNameChar, isNameStart, isXmlBlank, Bool.or_eq_true, Bool.and_eq_true, beq_iff_eq, decide_eq_true_eq,
    Bool.or_eq_false_iff, beq_eq_false_iff_ne, ne_eq]
  intro h
  have : c.toNat < 256 := c.isLt
  simp only [BitVec.le_def, ← BitVec.toNat_inj] at h ⊢
  simp only [BitVec.toNat_ofNat] at h ⊢
  omega

theorem nameStart_char {c : Byte} (h : isNameStart c = true) : isNameChar c = true := by simp [isNameChar, h]

theorem run_startName (stack : List XmlOpen) (root : Option XmlTree) (r : Bytes) (h : ∀ d ∈ r, isNameChar d = true) :
    ∀ n, (⟨.startName n, stack, root⟩ : XmlSt).run r = ⟨.startName (n ++ r), stack, root⟩ := by
  induction r with
  | nil => intro n; simp [XmlSt.run]
  | cons c r ih =>
    intro n
    rw [XmlSt.run_cons]
    have : (⟨.startName n, stack, root⟩ : XmlSt).step c = ⟨.startName (n ++ [c]), stack, root⟩ := by
      simp only [XmlSt.step, h c (by simp), if_true]
    rw [this, ih (fun d hd => h d (by simp [hd]))]
    simp

theorem run_endName (stack : List XmlOpen) (root : Option XmlTree) (r : Bytes) (h : ∀ d ∈ r, isNameChar d = true) :
    ∀ n, (⟨.endName n, stack, root⟩ : XmlSt).run r = ⟨.endName (n ++ r), stack, root⟩ := by
  induction r with
  | nil => intro n; simp [XmlSt.run]
  | cons c r ih =>
    intro n
    rw [XmlSt.run_cons]
    have : (⟨.endName n, stack, root⟩ : XmlSt).step c = ⟨.endName (n ++ [c]), stack, root⟩ := by
      simp only [XmlSt.step, h c (by simp), if_true]
    rw [this, ih (fun d hd => h d (by simp [hd]))]
    simp

theorem run_attrName (stack : List XmlOpen) (root : Option XmlTree) (tag : Bytes) (as : List (Bytes × Bytes)) (r : Bytes)
    (h : ∀ d ∈ r, isNameChar d = true) :
    ∀ n, (⟨.attrName tag as n, stack, root⟩ : XmlSt).run r = ⟨.attrName tag as (n ++ r), stack, root⟩ := by
  induction r with
  | nil => intro n; simp [XmlSt.run]
  | cons c r ih =>
    intro n
    rw [XmlSt.run_cons]
    have : (⟨.attrName tag as n, stack, root⟩ : XmlSt).step c = ⟨.attrName tag as (n ++ [c]), stack, root⟩ := by
      simp only [XmlSt.step, h c (by simp), if_true]
    rw [this, ih (fun d hd => h d (by simp [hd]))]
    simp

theorem XmlName.chars {s : Bytes} (h : XmlName s) : ∀ c ∈ s, isNameChar c = true := by
  obtain ⟨c, r, rfl, hc, hr⟩ := h
  intro d hd
  rcases List.mem_cons.1 hd with rfl | hd
  · exact nameStart_char hc
  · exact hr d hd

/-- A start tag is read up to the end of its name. -/
theorem run_lt_name (stack : List XmlOpen) (root : Option XmlTree) {tag : Bytes} (h : XmlName tag) :
    (⟨.lt, stack, root⟩ : XmlSt).run tag = ⟨.startName tag, stack, root⟩ := by
  obtain ⟨c, r, rfl, hc, hr⟩ := h
  rw [XmlSt.run_cons]
  have : (⟨.lt, stack, root⟩ : XmlSt).step c = ⟨.startName [c], stack, root⟩ := by
    simp only [XmlSt.step, (nameChar_ne (nameStart_char hc)).2.2.2.1, hc, if_true, if_false]
  rw [this, run_startName _ _ _ hr]
  simp

/-! ## Texts -/

theorem escByte_other {c : Byte} (h1 : c ≠ 0x3C#8) (h2 : c ≠ 0x3E#8) (h3 : c ≠ 0x26#8) (h4 : c ≠ 0x22#8) (h5 : c ≠ 0x27#8) :
    escByte c = [c] := by
  simp [escByte, h1, h2, h3, h4, h5]

theorem run_escByte (p : XmlOpen) (rest : List XmlOpen) (root : Option XmlTree) (c : Byte)
    (h : 0x20#8 ≤ c ∨ c = 0x09#8 ∨ c = 0x0A#8) :
    (⟨.content, p :: rest, root⟩ : XmlSt).run (escByte c) = ⟨.content, { p with value := p.value ++ [c] } :: rest, root⟩ := by
  by_cases h1 : c = 0x3C#8
  · subst h1; rfl
  by_cases h2 : c = 0x3E#8
  · subst h2; rfl
  by_cases h3 : c = 0x26#8
  · subst h3; rfl
  by_cases h4 : c = 0x22#8
  · subst h4; rfl
  by_cases h5 : c = 0x27#8
  · subst h5; rfl
  rw [escByte_other h1 h2 h3 h4 h5, XmlSt.run_cons, XmlSt.run_nil]
  have hx : isXmlChar c = true := by
    simp only [isXmlChar, Bool.or_eq_true, decide_eq_true_eq, beq_iff_eq]
    rcases h with h | h | h
    · exact .inl (.inl h)
    · exact .inl (.inr h)
    · exact .inr h
  simp only [XmlSt.step, h1, h3, hx, if_true, if_false, XmlSt.text]

theorem run_text (rest : List XmlOpen) (root : Option XmlTree) (v : Bytes) (h : PlainText v) : ∀ p : XmlOpen,
    (⟨.content, p :: rest, root⟩ : XmlSt).run (xmlString v) = ⟨.content, { p with value := p.value ++ v } :: rest, root⟩ := by
  induction v with
  | nil => intro p; simp [xmlString, XmlSt.run]
  | cons c v ih =>
    intro p
    rw [xmlString, List.flatMap_cons, XmlSt.run_append, run_escByte p rest root c (h c (by simp))]
    have := ih (fun d hd => h d (by simp [hd])) { p with value := p.value ++ [c] }
    rw [xmlString] at this
    rw [this]
    simp

theorem run_blanks (rest : List XmlOpen) (root : Option XmlTree) (v : Bytes) (h : ∀ c ∈ v, c = 0x20#8 ∨ c = 0x0A#8) : ∀ p : XmlOpen,
    (⟨.content, p :: rest, root⟩ : XmlSt).run v = ⟨.content, { p with value := p.value ++ v } :: rest, root⟩ := by
  induction v with
  | nil => intro p; simp [XmlSt.run]
  | cons c v ih =>
    intro p
    have hs : (⟨.content, p :: rest, root⟩ : XmlSt).step c = ⟨.content, { p with value := p.value ++ [c] } :: rest, root⟩ := by
      rcases h c (by simp) with rfl | rfl <;> rfl
    rw [XmlSt.run_cons, hs, ih (fun d hd => h d (by simp [hd]))]
    simp

theorem run_escByte_attr (stack : List XmlOpen) (root : Option XmlTree) (n : Bytes) (as : List (Bytes × Bytes)) (k v : Bytes) (c : Byte)
    (h : 0x20#8 ≤ c) :
    (⟨.attrVal n as k 0x27#8 v, stack, root⟩ : XmlSt).run (escByte c) = ⟨.attrVal n as k 0x27#8 (v ++ [c]), stack, root⟩ := by
  by_cases h1 : c = 0x3C#8
  · subst h1; rfl
  by_cases h2 : c = 0x3E#8
  · subst h2; rfl
  by_cases h3 : c = 0x26#8
  · subst h3; rfl
  by_cases h4 : c = 0x22#8
  · subst h4; rfl
  by_cases h5 : c = 0x27#8
  · subst h5; rfl
  rw [escByte_other h1 h2 h3 h4 h5, XmlSt.run_cons, XmlSt.run_nil]
  have hx : isXmlChar c = true := by simp [isXmlChar, h]
  simp only [XmlSt.step, h1, h3, h5, hx, if_true, if_false]
  by_cases hb : isXmlBlank c = true
  · have hc : c = 0x20#8 := by
      simp only [isXmlBlank, Bool.or_eq_true, beq_iff_eq] at hb
      rcases hb with (hb | hb) | hb
      · exact hb
      · subst hb; revert h; decide
      · subst hb; revert h; decide
    subst hc
    rfl
  · simp [hb]

theorem run_attrText (stack : List XmlOpen) (root : Option XmlTree) (n : Bytes) (as : List (Bytes × Bytes)) (k : Bytes) (s : Bytes)
    (h : PlainLine s) : ∀ v,
    (⟨.attrVal n as k 0x27#8 v, stack, root⟩ : XmlSt).run (xmlString s) = ⟨.attrVal n as k 0x27#8 (v ++ s), stack, root⟩ := by
  induction s with
  | nil => intro v; simp [xmlString, XmlSt.run]
  | cons c s ih =>
    intro v
    rw [xmlString, List.flatMap_cons, XmlSt.run_append, run_escByte_attr _ _ _ _ _ _ c (h c (by simp))]
    have := ih (fun d hd => h d (by simp [hd])) (v ++ [c])
    rw [xmlString] at this
    rw [this]
    simp

/-- One attribute, from the blank before it on. -/
theorem run_attr (stack : List XmlOpen) (root : Option XmlTree) (n : Bytes) (as : List (Bytes × Bytes)) (k s : Bytes)
    (hk : XmlName k) (hs : PlainLine s) (hn : k ∉ as.map (·.1)) (st : XmlSt)
    (hst : st.step 0x20#8 = ⟨.inTag n as, stack, root⟩) :
    st.run (0x20#8 :: k ++ [0x3D#8, 0x27#8] ++ xmlString s ++ [0x27#8]) = ⟨.attrEnd n (as ++ [(k, s)]), stack, root⟩ := by
  obtain ⟨c, r, rfl, hc, hr⟩ := hk
  have h1 : (⟨.inTag n as, stack, root⟩ : XmlSt).step c = ⟨.attrName n as [c], stack, root⟩ := by
    simp only [XmlSt.step, hc, if_true]
  have h2 : ∀ k, (⟨.attrName n as k, stack, root⟩ : XmlSt).run [0x3D#8, 0x27#8] = ⟨.attrVal n as k 0x27#8 [], stack, root⟩ :=
    fun _ => rfl
  have h3 : as.any (fun a => a.1 == (c :: r)) = false := by
    rw [List.any_eq_false]
    intro a ha he
    exact hn (List.mem_map.2 ⟨a, ha, beq_iff_eq.1 he⟩)
  rw [XmlSt.run_append, XmlSt.run_append, XmlSt.run_append]
  rw [XmlSt.run_cons st, hst, XmlSt.run_cons _ c r, h1, run_attrName _ _ _ _ _ hr, h2, run_attrText _ _ _ _ _ _ hs, XmlSt.run_cons,
    XmlSt.run_nil]
  show (if as.any (fun a => a.1 == (c :: r)) then _ else _) = _
  rw [h3]
  rfl

/-- The state is behind the name or an attribute of a start tag. -/
def TagEnd (st : XmlSt) (n : Bytes) (as : List (Bytes × Bytes)) (stack : List XmlOpen) (root : Option XmlTree) : Prop :=
  ∀ c, isNameChar c = false → ∃ m, st.step c = (⟨m, stack, root⟩ : XmlSt).tagRest n as c

theorem TagEnd.blank {st : XmlSt} {n : Bytes} {as : List (Bytes × Bytes)} {stack : List XmlOpen} {root : Option XmlTree}
    (h : TagEnd st n as stack root) : st.step 0x20#8 = ⟨.inTag n as, stack, root⟩ := by
  obtain ⟨m, hm⟩ := h 0x20#8 (by decide)
  rw [hm]; rfl

theorem tagEnd_name (n : Bytes) (stack : List XmlOpen) (root : Option XmlTree) : TagEnd ⟨.startName n, stack, root⟩ n [] stack root := by
  intro c hc
  refine ⟨.startName n, ?_⟩
  simp [XmlSt.step, hc]

theorem tagEnd_attr (n : Bytes) (as : List (Bytes × Bytes)) (stack : List XmlOpen) (root : Option XmlTree) :
    TagEnd ⟨.attrEnd n as, stack, root⟩ n as stack root := fun _ _ => ⟨.attrEnd n as, rfl⟩

theorem run_attrs {n : Bytes} {stack : List XmlOpen} {root : Option XmlTree} : ∀ (bs as : List (Bytes × Bytes)) (st : XmlSt),
    TagEnd st n as stack root → ((as ++ bs).map (·.1)).Nodup → (∀ a ∈ bs, XmlName a.1 ∧ PlainLine a.2) →
    TagEnd (st.run (writeAttrs bs)) n (as ++ bs) stack root := by
  intro bs
  induction bs with
  | nil => intro as st h _ _; simpa [writeAttrs, XmlSt.run] using h
  | cons b bs ih =>
    intro as st h hnd hb
    obtain ⟨hk, hs⟩ := hb b (by simp)
    have hn : b.1 ∉ as.map (·.1) := by
      intro hm
      rw [List.map_append, List.nodup_append] at hnd
      exact hnd.2.2 _ hm _ (by simp) rfl
    have h1 := run_attr stack root n as b.1 b.2 hk hs hn st h.blank
    rw [writeAttrs, List.flatMap_cons, XmlSt.run_append, h1]
    have h2 := ih (as ++ [b]) _ (tagEnd_attr n (as ++ [b]) stack root) (by simpa using hnd) (fun a ha => hb a (by simp [ha]))
    rw [writeAttrs] at h2
    simpa using h2

theorem run_start {n : Bytes} {stack : List XmlOpen} {root : Option XmlTree} {bs : List (Bytes × Bytes)} {st : XmlSt}
    (hst : st.step 0x3C#8 = ⟨.lt, stack, root⟩) (hn : XmlName n) (hb : GoodAttrs bs) :
    TagEnd (st.run (0x3C#8 :: n ++ writeAttrs bs)) n bs stack root := by
  rw [XmlSt.run_append, XmlSt.run_cons, hst, run_lt_name _ _ hn]
  have := run_attrs bs [] _ (tagEnd_name n stack root) (by simpa using hb.1) hb.2
  simpa using this

theorem run_endTag (p : XmlOpen) (rest : List XmlOpen) (root : Option XmlTree) (h : XmlName p.tag) :
    (⟨.content, p :: rest, root⟩ : XmlSt).run ([0x3C#8, 0x2F#8] ++ p.tag ++ [0x3E#8]) =
    XmlSt.add rest root (.mk p.tag p.attrs p.value p.kids) := by
  rw [XmlSt.run_append, XmlSt.run_append]
  rw [show (⟨.content, p :: rest, root⟩ : XmlSt).run [0x3C#8, 0x2F#8] = ⟨.endName [], p :: rest, root⟩ from rfl,
    run_endName _ _ _ h.chars, XmlSt.run_cons, XmlSt.run_nil]
  rw [show (⟨.endName ([] ++ p.tag), p :: rest, root⟩ : XmlSt).step 0x3E#8 = XmlSt.endTag ⟨.endName ([] ++ p.tag), p :: rest, root⟩
    ([] ++ p.tag) from rfl]
  simp [XmlSt.endTag]

/-! ## Trees -/

/-- A written node without the blanks before it and the line end behind it. -/
def XmlTree.body (level : Nat) : XmlTree → Bytes
  | .mk tag attrs value kids =>
    0x3C#8 :: tag ++ writeAttrs attrs ++
    (if kids.isEmpty && value.isEmpty then [0x2F#8, 0x3E#8]
     else if kids.isEmpty then 0x3E#8 :: xmlString value ++ [0x3C#8, 0x2F#8] ++ tag ++ [0x3E#8]
     else [0x3E#8, 0x0A#8] ++ writeNodes (level + 1) kids ++ indent level ++ [0x3C#8, 0x2F#8] ++ tag ++ [0x3E#8])

theorem write_body (level : Nat) (t : XmlTree) : t.write level = indent level ++ t.body level ++ [0x0A#8] := by
  obtain ⟨tag, attrs, value, kids⟩ := t
  rw [XmlTree.write, XmlTree.body]
  split
  · simp
  · split <;> simp

theorem indent_blank (level : Nat) : ∀ c ∈ indent level, c = 0x20#8 ∨ c = 0x0A#8 := by
  intro c hc
  exact .inl (List.eq_of_mem_replicate hc)

mutual
theorem run_body : ∀ (t : XmlTree) (level : Nat), t.Good → ∀ (stack : List XmlOpen) (root : Option XmlTree) (st : XmlSt),
    st.step 0x3C#8 = ⟨.lt, stack, root⟩ → st.run (t.body level) = XmlSt.add stack root (t.asRead level)
  | .mk tag attrs value kids, level, hg, stack, root, st, hst => by
    simp only [XmlTree.Good] at hg
    obtain ⟨hn, ha, hv, hk⟩ := hg
    have hs := run_start (bs := attrs) hst hn ha
    rw [XmlTree.body, XmlTree.asRead, XmlSt.run_append]
    generalize st.run (0x3C#8 :: tag ++ writeAttrs attrs) = s1 at hs
    have hopen : s1.step 0x3E#8 = ⟨.content, ⟨tag, attrs, [], []⟩ :: stack, root⟩ := by
      obtain ⟨m, hm⟩ := hs 0x3E#8 (by decide)
      rw [hm]; rfl
    cases kids with
    | nil =>
      by_cases he : value.isEmpty = true
      · rw [if_pos (by simp [he])]
        have hv0 : value = [] := List.isEmpty_iff.1 he
        subst hv0
        obtain ⟨m, hm⟩ := hs 0x2F#8 (by decide)
        rw [XmlSt.run_cons, hm, XmlSt.run_cons, XmlSt.run_nil]
        rfl
      · rw [if_neg (by simp [he]), if_pos (by rfl)]
        rw [show (0x3E#8 :: xmlString value ++ [0x3C#8, 0x2F#8] ++ tag ++ [0x3E#8] : Bytes) =
          0x3E#8 :: (xmlString value ++ ([0x3C#8, 0x2F#8] ++ tag ++ [0x3E#8])) by simp, XmlSt.run_cons, hopen, XmlSt.run_append,
          run_text _ _ _ hv]
        have := run_endTag ⟨tag, attrs, value, []⟩ stack root hn
        simpa [allAsRead] using this
    | cons k ks =>
      rw [if_neg (by simp), if_neg (by simp)]
      rw [show ([0x3E#8, 0x0A#8] ++ writeNodes (level + 1) (k :: ks) ++ indent level ++ [0x3C#8, 0x2F#8] ++ tag ++ [0x3E#8] : Bytes) =
          0x3E#8 :: ([0x0A#8] ++ (writeNodes (level + 1) (k :: ks) ++ (indent level ++ ([0x3C#8, 0x2F#8] ++ tag ++ [0x3E#8])))) by simp,
        XmlSt.run_cons, hopen, XmlSt.run_append, run_blanks _ _ _ (by simp), XmlSt.run_append, run_nodes (k :: ks) (level + 1) hk,
        XmlSt.run_append, run_blanks _ _ _ (indent_blank level)]
      have := run_endTag ⟨tag, attrs, gaps level (k :: ks).length, allAsRead (level + 1) (k :: ks)⟩ stack root hn
      simpa [gaps] using this
theorem run_nodes : ∀ (ts : List XmlTree) (level : Nat), AllGood ts → ∀ (p : XmlOpen) (rest : List XmlOpen) (root : Option XmlTree),
    (⟨.content, p :: rest, root⟩ : XmlSt).run (writeNodes level ts) =
    ⟨.content, { p with value := p.value ++ (List.replicate ts.length (indent level ++ [0x0A#8])).flatten
                        kids := p.kids ++ allAsRead level ts } :: rest, root⟩
  | [], level, _, p, rest, root => by simp [writeNodes, allAsRead, XmlSt.run]
  | t :: ts, level, hg, p, rest, root => by
    simp only [AllGood] at hg
    rw [writeNodes, write_body, XmlSt.run_append, XmlSt.run_append, XmlSt.run_append, run_blanks _ _ _ (indent_blank level),
      run_body t level hg.1 _ _ _ (show XmlSt.step _ _ = ⟨.lt, _, _⟩ from rfl)]
    simp only [XmlSt.add]
    rw [run_blanks _ _ _ (by simp), run_nodes ts level hg.2]
    simp [allAsRead, List.replicate_succ]
end

/-! ## The whole text -/

theorem lineEnds_id : ∀ s : Bytes, 0x0D#8 ∉ s → lineEnds s = s
  | [], _ => rfl
  | [c], h => by
    rw [lineEnds, if_neg (fun hc => h (by simp [hc]))]
  | c :: d :: s, h => by
    rw [lineEnds, if_neg (fun hc => h (by simp [hc])), lineEnds_id (d :: s) (fun hm => h (List.mem_cons_of_mem _ hm))]

theorem noCr_name {s : Bytes} (h : XmlName s) : 0x0D#8 ∉ s := fun hm => (nameChar_ne (h.chars _ hm)).2.2.2.2.2.2.2.1 rfl

theorem noCr_escByte {c : Byte} (h : c ≠ 0x0D#8) : 0x0D#8 ∉ escByte c := by
  by_cases h1 : c = 0x3C#8
  · subst h1; decide
  by_cases h2 : c = 0x3E#8
  · subst h2; decide
  by_cases h3 : c = 0x26#8
  · subst h3; decide
  by_cases h4 : c = 0x22#8
  · subst h4; decide
  by_cases h5 : c = 0x27#8
  · subst h5; decide
  rw [escByte_other h1 h2 h3 h4 h5]
  simpa using h.symm

theorem noCr_xmlString {s : Bytes} (h : PlainText s) : 0x0D#8 ∉ xmlString s := by
  intro hm
  obtain ⟨c, hc, hm⟩ := List.mem_flatMap.1 hm
  refine noCr_escByte ?_ hm
  rintro rfl
  rcases h _ hc with h | h | h <;> revert h <;> decide

theorem PlainLine.text {s : Bytes} (h : PlainLine s) : PlainText s := fun c hc => .inl (h c hc)

theorem noCr_indent (level : Nat) : 0x0D#8 ∉ indent level := by
  intro hm
  have := List.eq_of_mem_replicate hm
  revert this; decide

theorem noCr_attrs {as : List (Bytes × Bytes)} (h : GoodAttrs as) : 0x0D#8 ∉ writeAttrs as := by
  intro hm
  obtain ⟨a, ha, hm⟩ := List.mem_flatMap.1 hm
  obtain ⟨h1, h2⟩ := h.2 a ha
  simp only [List.mem_append, List.mem_cons, List.not_mem_nil, or_false] at hm
  rcases hm with (((hm | hm) | hm) | hm) | hm
  · revert hm; decide
  · exact noCr_name h1 hm
  · revert hm; decide
  · exact noCr_xmlString h2.text hm
  · revert hm; decide

mutual
theorem noCr_body : ∀ (t : XmlTree) (level : Nat), t.Good → 0x0D#8 ∉ t.body level
  | .mk tag attrs value kids, level, hg => by
    simp only [XmlTree.Good] at hg
    obtain ⟨hn, ha, hv, hk⟩ := hg
    have h1 := noCr_name hn
    have h2 := noCr_attrs ha
    have h3 := noCr_xmlString hv
    have h4 := noCr_nodes kids (level + 1) hk
    have h5 := noCr_indent level
    rw [XmlTree.body]
    split
    · simp [h1, h2]
    · split <;> simp [h1, h2, h3, h4, h5]
theorem noCr_nodes : ∀ (ts : List XmlTree) (level : Nat), AllGood ts → 0x0D#8 ∉ writeNodes level ts
  | [], level, _ => by simp [writeNodes]
  | t :: ts, level, hg => by
    simp only [AllGood] at hg
    rw [writeNodes, write_body]
    simp [noCr_body t level hg.1, noCr_nodes ts level hg.2, noCr_indent]
end

theorem run_init_body {t : XmlTree} (h : t.Good) : XmlSt.init.run (t.body 0) = ⟨.epilog, [], some (t.asRead 0)⟩ := by
  rw [run_body t 0 h [] none XmlSt.init rfl]
  rfl

theorem parse_body {t : XmlTree} (h : t.Good) : xmlParse (t.body 0) = some (t.asRead 0) := by
  rw [xmlParse, lineEnds_id _ (noCr_body t 0 h), run_init_body h]

theorem text_body (t : XmlTree) : t.text = t.body 0 ++ [0x0A#8] := by
  rw [XmlTree.text, write_body]
  simp [indent]

theorem parse_text {t : XmlTree} (h : t.Good) : xmlParse t.text = some (t.asRead 0) := by
  have hc : 0x0D#8 ∉ t.body 0 ++ [0x0A#8] := by simp [noCr_body t 0 h]
  rw [xmlParse, text_body, lineEnds_id _ hc, XmlSt.run_append, run_init_body h]
  rfl

theorem body_head (t : XmlTree) (level : Nat) : (t.body level).head? = some 0x3C#8 := by
  obtain ⟨tag, attrs, value, kids⟩ := t
  simp [XmlTree.body]

theorem body_last (t : XmlTree) (level : Nat) : (t.body level).getLast? = some 0x3E#8 := by
  obtain ⟨tag, attrs, value, kids⟩ := t
  rw [XmlTree.body, List.getLast?_eq_some_iff]
  split
  · exact ⟨0x3C#8 :: tag ++ writeAttrs attrs ++ [0x2F#8], by simp⟩
  · split
    · exact ⟨0x3C#8 :: tag ++ writeAttrs attrs ++ (0x3E#8 :: xmlString value ++ [0x3C#8, 0x2F#8] ++ tag), by simp⟩
    · exact ⟨0x3C#8 :: tag ++ writeAttrs attrs ++
        ([0x3E#8, 0x0A#8] ++ writeNodes (level + 1) kids ++ indent level ++ [0x3C#8, 0x2F#8] ++ tag), by simp⟩

theorem trim_text (t : XmlTree) : trim t.text = t.body 0 := by
  have h1 : lTrim t.text = t.text := by
    refine lTrim_id ?_
    intro c hc
    rw [text_body, List.head?_append, body_head] at hc
    simp only [Option.mem_def, Option.some_or, Option.some.injEq] at hc
    subst hc; decide
  rw [trim, h1, rTrim, text_body, List.reverse_append]
  rw [show ([0x0A#8] : Bytes).reverse ++ (t.body 0).reverse = 0x0A#8 :: (t.body 0).reverse from rfl, lTrim, if_pos (by decide), lTrim_id,
    List.reverse_reverse]
  intro c hc
  rw [List.head?_reverse, body_last] at hc
  simp only [Option.mem_def, Option.some.injEq] at hc
  subst hc; decide

end Mdf
