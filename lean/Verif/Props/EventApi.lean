import Verif.Model.EventApi
import Verif.Proof.XmlHd
import Verif.Proof.Ho
import Verif.Props.CommentKinds

/-!
C122: the description, the trigger intervals and the texts of an event.
-/

namespace Mdf

/-! ### What was set -/

/-- The text that a call sets. -/
def EvCall.descOf : EvCall → Option Bytes
  | .desc s => some s
  | _ => none

/-- The interval before the trigger that a call sets. -/
def EvCall.preOf : EvCall → Option ℚ
  | .pre q => some q
  | _ => none

/-- The interval after the trigger that a call sets. -/
def EvCall.postOf : EvCall → Option ℚ
  | .post q => some q
  | _ => none

/-- What the last of the calls that set it gives. -/
def lastCall {α : Type} (f : EvCall → Option α) (xs : List EvCall) : Option α := xs.reverse.findSome? f

theorem lastCall_cons {α : Type} (f : EvCall → Option α) (x : EvCall) (xs : List EvCall) : lastCall f (x :: xs) = (lastCall f xs).or (f x) := by
  rw [lastCall, List.reverse_cons, List.findSome?_append]
  cases h : f x <;> simp [List.findSome?, h, lastCall]

/-- Texts that XML can hold; the comment is not replaced as a whole. -/
def EvCall.Plain : EvCall → Prop
  | .desc s => PlainText s
  | .tags l => AllPlain l
  | .comment _ => False
  | _ => True

/-- The call on the metadata. -/
def EvCall.op : EvCall → MetaOp
  | .desc s => .text tTX s
  | .pre q => .text tPre (generalText q)
  | .post q => .text tPost (generalText q)
  | .tags l => .tags l
  | _ => .reopen

theorem tag_pre : TextTag tPre := ⟨⟨⟨_, _, rfl, by decide, by decide⟩, by decide⟩, by decide⟩
theorem tag_post : TextTag tPost := ⟨⟨⟨_, _, rfl, by decide, by decide⟩, by decide⟩, by decide⟩
theorem tag_tx : TextTag tTX := ⟨plainName_tx, by decide⟩

theorem op_ok {x : EvCall} (h : x.Plain) : x.op.Ok := by
  cases x with
  | desc s => exact ⟨tag_tx, h⟩
  | pre q => exact ⟨tag_pre, general_plain q⟩
  | post q => exact ⟨tag_post, general_plain q⟩
  | tags l => exact h
  | comment c => exact h.elim
  | reopen => trivial

theorem evCall_run {s : Bytes} {u : XmlTree} (hs : Snip s u) {x : EvCall} (h : x.Plain) : evCall (.md s) x = (x.op.run s).map .md := by
  cases x with
  | comment c => exact h.elim
  | reopen =>
    show some (BlkComment.reopen (.md s)) = some (.md (reopened s))
    rw [BlkComment.reopen, if_pos hs.head]
  | _ => rfl

theorem evCalls_run : ∀ (xs : List EvCall) {s : Bytes} {u : XmlTree}, Snip s u → (∀ x ∈ xs, x.Plain) →
    evCalls xs (.md s) = (runMeta (xs.map EvCall.op) s).map .md
  | [], s, u, _, _ => rfl
  | x :: xs, s, u, hs, h => by
    rw [evCalls, evCall_run hs (h x (by simp)), List.map_cons, runMeta]
    obtain ⟨s', u', h1, h2, _⟩ := runMeta_snip [x.op] s u hs (by
      intro o ho
      rw [List.mem_singleton] at ho
      subst ho
      exact op_ok (h x (by simp)))
    have e : x.op.run s = some s' := by
      rw [runMeta] at h1
      cases hr : x.op.run s with
      | none => rw [hr] at h1; cases h1
      | some y =>
        rw [hr] at h1
        exact h1
    rw [e]
    exact evCalls_run xs h2 fun y hy => h y (by simp [hy])

theorem last_pre (xs : List EvCall) (h : ∀ x ∈ xs, x.Plain) : lastText tPre (xs.map EvCall.op) = (lastCall EvCall.preOf xs).map generalText := by
  have d1 : sameWord tPre tTX = false := by decide
  have d2 : sameWord tPre tPre = true := by decide
  have d3 : sameWord tPre tPost = false := by decide
  induction xs with
  | nil => rfl
  | cons x xs ih =>
    have ih := ih fun y hy => h y (by simp [hy])
    rw [List.map_cons, lastCall_cons]
    cases x with
    | comment c => exact (h (.comment c) (by simp)).elim
    | _ => cases hl : lastCall EvCall.preOf xs <;> simp [EvCall.op, lastText, ih, EvCall.preOf, d1, d2, d3, hl]

theorem last_post (xs : List EvCall) (h : ∀ x ∈ xs, x.Plain) : lastText tPost (xs.map EvCall.op) = (lastCall EvCall.postOf xs).map generalText := by
  have d1 : sameWord tPost tTX = false := by decide
  have d2 : sameWord tPost tPre = false := by decide
  have d3 : sameWord tPost tPost = true := by decide
  induction xs with
  | nil => rfl
  | cons x xs ih =>
    have ih := ih fun y hy => h y (by simp [hy])
    rw [List.map_cons, lastCall_cons]
    cases x with
    | comment c => exact (h (.comment c) (by simp)).elim
    | _ => cases hl : lastCall EvCall.postOf xs <;> simp [EvCall.op, lastText, ih, EvCall.postOf, d1, d2, d3, hl]

theorem last_desc (xs : List EvCall) (h : ∀ x ∈ xs, x.Plain) : lastText tTX (xs.map EvCall.op) = lastCall EvCall.descOf xs := by
  have d1 : sameWord tTX tTX = true := by decide
  have d2 : sameWord tTX tPre = false := by decide
  have d3 : sameWord tTX tPost = false := by decide
  induction xs with
  | nil => rfl
  | cons x xs ih =>
    have ih := ih fun y hy => h y (by simp [hy])
    rw [List.map_cons, lastCall_cons]
    cases x with
    | comment c => exact (h (.comment c) (by simp)).elim
    | _ => cases hl : lastCall EvCall.descOf xs <;> simp [EvCall.op, lastText, ih, EvCall.descOf, d1, d2, d3, hl]

/-! ### The setters and getters -/

/-- **C122**, full statement: `Description()`, `PreTrig()` and `PostTrig()` return what was set last, also after the file was saved and
opened again, and the description of an event that has a plain text for a comment is this text. -/
def C122_Statement : Prop :=
  ∀ (c : BlkComment) (xs : List EvCall), c = .none ∨ (∃ s, c = .tx s ∧ PlainText s) → (∀ x ∈ xs, x.Plain) →
    (∀ q, .pre q ∈ xs ∨ .post q ∈ xs → dblRound q = q) →
    ∃ r, evCalls xs c = some r ∧ evDesc r = trim ((lastCall EvCall.descOf xs).getD c.plain) ∧
      evPre r = (lastCall EvCall.preOf xs).getD 0 ∧ evPost r = (lastCall EvCall.postOf xs).getD 0

theorem float_get {s : Bytes} {u : XmlTree} (h : Snip s u) {tag : Bytes} (ht : TextTag tag) : floatGet s tag = (stodText (u.property tag)).getD 0 := by
  rw [floatGet, h.parse]
  show (stodText (XmlTree.property _ _)).getD 0 = _
  rw [property_asRead h.doc ht.2]

theorem general_trim (q : ℚ) : trim (generalText q) = generalText q :=
  trim_id (fun c hc => generalText_space q c (List.mem_of_head? hc)) (fun c hc => generalText_space q c (List.mem_of_getLast? hc))

theorem float_last {o : Option ℚ} : (stodText (((o.map generalText).map trim).getD [])).getD 0 = rnd (o.getD 0) := by
  cases o with
  | none =>
    rw [Option.getD_none, rnd_zero]
    rfl
  | some q =>
    show (stodText (trim (generalText q))).getD 0 = rnd q
    rw [general_trim, stodText_general]
    rfl

/-- **C122** (setters), after at least one setter was called: the description is the last one set, without blanks around it, or else the
plain text that the comment was; the intervals are the last ones set, rounded to six significant digits, or else 0; whatever else was set
before, between or after, and however often the file was saved and opened again. -/
theorem C122_set_partial (c : BlkComment) (hc : c = .none ∨ ∃ s, c = .tx s ∧ PlainText s) (x : EvCall) (xs : List EvCall)
    (hx : x ≠ .reopen) (h : ∀ y ∈ x :: xs, y.Plain) :
    ∃ r, evCalls (x :: xs) c = some r ∧ evDesc r = ((lastCall EvCall.descOf (x :: xs)).map trim).getD c.plain ∧
      ReadReal ((lastCall EvCall.preOf (x :: xs)).getD 0) (evPre r) ∧ ReadReal ((lastCall EvCall.postOf (x :: xs)).getD 0) (evPost r) ∧
      commonList (createMd bEV r) = some (allTrimmed (addTags (setTags ((x :: xs).map EvCall.op)) [])) := by
  obtain ⟨u, h1, h2, h3⟩ := createMd_snip (bt := bEV) ⟨_, _, rfl, by decide, by decide⟩ hc
  have e1 : evCalls (x :: xs) c = evCalls (x :: xs) (.md (createMd bEV c)) := by
    rw [evCalls, evCalls]
    congr 1
    cases x with
    | reopen => exact absurd rfl hx
    | _ => rfl
  obtain ⟨s, v, h4, h5, h6, h7⟩ := runMeta_snip ((x :: xs).map EvCall.op) _ u h1 (by
    intro o ho
    obtain ⟨y, hy, rfl⟩ := List.mem_map.mp ho
    exact op_ok (h y hy))
  refine ⟨.md s, ?_, ?_, ?_, ?_, ?_⟩
  · rw [e1, evCalls_run _ h1 h, h4]
    rfl
  · show stringGet s tTX = _
    rw [h5.stringGet tag_tx, h6 _ tag_tx, last_desc _ h, h3 _ tag_tx, if_pos (by decide)]
    rfl
  · show ReadReal _ (floatGet s tPre)
    rw [float_get h5 tag_pre, h6 _ tag_pre, last_pre _ h, h3 _ tag_pre, if_neg (by decide), float_last]
    exact readReal_rnd _
  · show ReadReal _ (floatGet s tPost)
    rw [float_get h5 tag_post, h6 _ tag_post, last_post _ h, h3 _ tag_post, if_neg (by decide), float_last]
    exact readReal_rnd _
  · show commonList s = _
    rw [h5.commonList, h7, h2]

/-- An event is described, gets its intervals, is saved and opened again. -/
def exEvCalls : List EvCall := [.pre (1 / 2), .desc exA, .reopen, .post 3, .pre (1 / 4)]

example : ∃ r, evCalls exEvCalls .none = some r ∧ evDesc r = exA ∧ evPre r = 1 / 4 ∧ evPost r = 3 := by
  refine ⟨(evCalls exEvCalls .none).getD .none, ?_, ?_, ?_, ?_⟩ <;> decide +kernel

example : ∀ y ∈ exEvCalls, y.Plain := by
  intro y hy
  simp only [exEvCalls, List.mem_cons, List.not_mem_nil, or_false] at hy
  rcases hy with rfl | rfl | rfl | rfl | rfl
  · trivial
  · show PlainText exA
    unfold PlainText
    decide
  all_goals trivial

/-- A number that is the nearest `double` to a number of six significant digits is kept as it is. -/
theorem C122_six_kept {d : ℚ} (hd : IsSix d) : evPre (.md ((floatSet tPre (dblRound d) (createMd bEV .none)).getD [])) = dblRound d := by
  obtain ⟨u, h1, _, _⟩ := createMd_snip (bt := bEV) ⟨_, _, rfl, by decide, by decide⟩ (.inl rfl : (.none : BlkComment) = .none ∨ _)
  obtain ⟨s, v, h4, h5, h6, _⟩ := runMeta_snip [.text tPre (generalText (dblRound d))] _ u h1 (by
    intro o ho
    rw [List.mem_singleton] at ho
    subst ho
    exact ⟨tag_pre, general_plain _⟩)
  have e : floatSet tPre (dblRound d) (createMd bEV .none) = some s := by
    rw [runMeta, MetaOp.run] at h4
    change (floatSet tPre (dblRound d) (createMd bEV .none)).bind (runMeta []) = some s at h4
    cases hf : floatSet tPre (dblRound d) (createMd bEV .none) with
    | none => rw [hf] at h4; cases h4
    | some y =>
      rw [hf] at h4
      exact h4
  rw [e]
  show floatGet s tPre = _
  rw [float_get h5 tag_pre, h6 _ tag_pre]
  show (stodText (trim (generalText (dblRound d)))).getD 0 = dblRound d
  rw [general_trim, stodText_general, six_kept hd]
  rfl

example : IsSix (1 / 10) := ⟨100000, -6, by norm_num, by norm_num⟩

/-- **C122**, finding: an interval of 1234567 s is returned as 1234570 s. -/
theorem C122_digits_lost : ∃ r, evCalls [.pre 1234567] .none = some r ∧ evPre r = 1234570 := by
  refine ⟨(evCalls [.pre 1234567] .none).getD .none, ?_, ?_⟩ <;> decide +kernel

theorem C122_false : ¬ C122_Statement := by
  intro h
  obtain ⟨r, h1, _, h2, _⟩ := h .none [.pre 1234567] (.inl rfl) (by
    intro x hx
    rw [List.mem_singleton] at hx
    subst hx
    trivial) (by
    intro q hq
    have : q = 1234567 := by simpa using hq
    rw [this]
    decide +kernel)
  obtain ⟨r', h3, h4⟩ := C122_digits_lost
  rw [h1] at h3
  cases h3
  rw [h4] at h2
  exact absurd h2 (by decide +kernel)

/-- **C122** (new event): an event without a comment, also one that was saved and opened any number of times, has no description and its
intervals are 0. -/
theorem C122_new (n : Nat) : ∃ r, evCalls (List.replicate n .reopen) .none = some r ∧ evDesc r = [] ∧ evPre r = 0 ∧ evPost r = 0 := by
  refine ⟨.none, ?_, rfl, rfl, rfl⟩
  induction n with
  | zero => rfl
  | succ n ih => exact ih

example : evCalls (List.replicate 2 .reopen) .none = some .none := rfl

/-- **C122**, finding: the description of an event that has a plain text for a comment (a TX block, which the format allows) is not
returned, whatever it is, until some setter makes an MD block of it. -/
theorem C122_plain_lost (s : Bytes) (h : 0x3C#8 ∉ s) : evDesc (.tx s) = [] ∧
    (PlainText s → ∃ r, evCalls [.pre 0] (.tx s) = some r ∧ evDesc r = trim s) := by
  refine ⟨?_, fun hp => ?_⟩
  · show stringGet s tTX = []
    rw [stringGet, parse_plain h]
  · obtain ⟨r, h1, h2, _⟩ := C122_set_partial (.tx s) (.inr ⟨s, rfl, hp⟩) (.pre 0) [] (by simp) (by
      intro x hx
      rw [List.mem_singleton] at hx
      subst hx
      trivial)
    exact ⟨r, h1, h2⟩

example : evDesc (.tx exA) = [] ∧ ∃ r, evCalls [.pre 0] (.tx exA) = some r ∧ evDesc r = trim exA :=
  ⟨(C122_plain_lost exA (by decide)).1, (C122_plain_lost exA (by decide)).2 (by unfold PlainText; decide)⟩

/-! ### The comment as a whole -/

theorem find_not_tag {tag t : Bytes} {ks rest : List XmlTree} (hk : HasTag tag ks) (ht : (XmlTree.mk tag [] [] []).isTagName t = false) :
    (ks ++ rest).find? (·.isTagName t) = rest.find? (·.isTagName t) := by
  rw [List.find?_append]
  have : ks.find? (·.isTagName t) = none := by
    refine List.find?_eq_none.mpr fun k hk' => ?_
    obtain ⟨a, v, s, rfl⟩ := hk k hk'
    have e : (XmlTree.mk tag a v s).isTagName t = (XmlTree.mk tag [] [] []).isTagName t := rfl
    rw [e, ht]
    simp
  rw [this, Option.none_or]

theorem find_num {tag : Bytes} (n : MdNum) (rest : List XmlTree) (ht : (XmlTree.mk tag [] [] []).isTagName tag = true)
    (hr : rest.find? (·.isTagName tag) = none) :
    (match (n.nodes tag ++ rest).find? (·.isTagName tag) with | some k => trim (k.asRead 1).value | none => []) = trim n.number := by
  rw [MdNum.nodes]
  by_cases hn : n.number = []
  · rw [if_pos hn, List.nil_append, hr, hn]
    rfl
  · rw [if_neg hn]
    have e : ∀ a v s, (XmlTree.mk tag a v s).isTagName tag = true := fun _ _ _ => ht
    rw [List.singleton_append, List.find?_cons, e]
    rfl

theorem formula_tag (c : MdCom) : HasTag tFormula c.formulaNodes := by
  intro k hk
  rw [MdCom.formulaNodes] at hk
  split at hk
  · cases hk
  · rw [List.mem_singleton] at hk
    subst hk
    exact ⟨_, _, _, rfl⟩

theorem common_tag (c : MdCom) : HasTag tCommon c.commonNodes := by
  intro k hk
  rw [MdCom.commonNodes] at hk
  split at hk
  · rw [List.mem_singleton] at hk
    exact ⟨_, _, _, hk⟩
  · cases hk

/-- **C122** (comment): after `SetEvComment` the intervals are the numbers of the comment, as `std::stod` reads their texts, and the
description is its text. -/
theorem C122_comment (c : BlkComment) (x : EvCom) (hx : x.Good) : ∃ r, evCall c (.comment x) = some r ∧
    evDesc r = trim x.com.text.text ∧ evPre r = (stodText (trim x.pre.number)).getD 0 ∧ evPost r = (stodText (trim x.post.number)).getD 0 := by
  obtain ⟨bs, v, e1, e2⟩ := xml_open (root := trim (bEV ++ tComment)) ⟨_, _, rfl, by decide, by decide⟩ (ev_good hx)
  refine ⟨_, rfl, ?_, ?_, ?_⟩
  · show stringGet x.toXml tTX = _
    rw [stringGet, EvCom.toXml, e1, e2]
    show XmlTree.property _ _ = _
    rw [XmlTree.property, XmlTree.kids, allAsRead_map, find_asRead, EvCom.kids, MdStr.nodes, if_neg (fun h => h.2 rfl), List.singleton_append,
      List.find?_cons]
    have e : ∀ a v s, (XmlTree.mk tTX a v s).isTagName tTX = true := fun _ _ _ => (by decide : (XmlTree.mk tTX [] [] []).isTagName tTX = true)
    rw [e]
    rfl
  · show floatGet x.toXml tPre = _
    rw [floatGet, EvCom.toXml, e1, e2]
    show (stodText (XmlTree.property _ _)).getD 0 = _
    congr 2
    rw [XmlTree.property, XmlTree.kids, allAsRead_map, find_asRead, EvCom.kids, find_not_tag (tag_nodes _ _) (by decide)]
    have := find_num (tag := tPre) x.pre (x.post.nodes tPost ++ (x.com.formulaNodes ++ (x.timeout.nodes tTimeout ++ x.com.commonNodes))) (by decide) (by
      rw [find_not_tag (tag_num _ _) (by decide), find_not_tag (formula_tag _) (by decide), find_not_tag (tag_num _ _) (by decide),
        ← List.append_nil x.com.commonNodes, find_not_tag (common_tag _) (by decide)]
      rfl)
    rw [← this]
    cases List.find? (fun k => XmlTree.isTagName k tPre) (x.pre.nodes tPre ++ (x.post.nodes tPost ++ (x.com.formulaNodes ++ (x.timeout.nodes tTimeout ++ x.com.commonNodes)))) <;> rfl
  · show floatGet x.toXml tPost = _
    rw [floatGet, EvCom.toXml, e1, e2]
    show (stodText (XmlTree.property _ _)).getD 0 = _
    congr 2
    rw [XmlTree.property, XmlTree.kids, allAsRead_map, find_asRead, EvCom.kids, find_not_tag (tag_nodes _ _) (by decide), find_not_tag (tag_num _ _) (by decide)]
    have := find_num (tag := tPost) x.post (x.com.formulaNodes ++ (x.timeout.nodes tTimeout ++ x.com.commonNodes)) (by decide) (by
      rw [find_not_tag (formula_tag _) (by decide), find_not_tag (tag_num _ _) (by decide),
        ← List.append_nil x.com.commonNodes, find_not_tag (common_tag _) (by decide)]
      rfl)
    rw [← this]
    cases List.find? (fun k => XmlTree.isTagName k tPost) (x.post.nodes tPost ++ (x.com.formulaNodes ++ (x.timeout.nodes tTimeout ++ x.com.commonNodes))) <;> rfl

/-- A comment with a text and an interval of half a second before the trigger. -/
def exEvCom : EvCom := { com := { text := { text := exA } }, pre := MdNum.ofDouble (1 / 2) }

example : exEvCom.Good := by
  obtain ⟨h1, h2⟩ := empty_com_good
  have hn : exEvCom.pre.Good := by
    exact ⟨hd_std_good, by decide, by unfold PlainText; decide +kernel, plainLine_nil, plainLine_nil, by simp [exEvCom, MdNum.ofDouble],
      by simp [exEvCom, MdNum.ofDouble]⟩
  exact ⟨⟨⟨hd_std_good, by unfold PlainText; decide⟩, h2⟩, hn, empty_num_good _, empty_num_good _⟩

example : ∃ r, evCall (.tx exA) (.comment exEvCom) = some r ∧ evDesc r = exA ∧ evPre r = 1 / 2 ∧ evPost r = 0 := by
  refine ⟨_, rfl, ?_, ?_, ?_⟩ <;> decide +kernel

/-! ### Texts -/

/-- The bytes of a text. -/
def asciiBytes (s : String) : Bytes := s.toList.map fun c => BitVec.ofNat 8 c.toNat

/-- **C122** (texts): `TypeToString`, `RangeToString`, `CauseToString` of an event and `TypeToString` of a hierarchy give the name of the value,
and the empty text for any other number. -/
theorem C122_names (v : Byte) :
    evTypeText v = ((["Recording", "Recording Interrupt", "Acquisition Interrupt", "Start Recording", "Stop Recording", "Trigger", "Marker"].map
      asciiBytes)[v.toNat]?).getD [] ∧
    evRangeText v = ((["Point", "Start", "End"].map asciiBytes)[v.toNat]?).getD [] ∧
    evCauseText v = ((["Other", "Error", "Tool", "Script", "User"].map asciiBytes)[v.toNat]?).getD [] ∧
    evUnit v = ((["", "s", "rad", "m", "#"].map asciiBytes)[v.toNat]?).getD [] ∧
    chTypeText v = ((["Group", "Function", "Structure", "Map List", "Input Variables", "Output Variables", "Local Variables",
      "Calibration Objects Definition", "Calibration Objects Reference"].map asciiBytes)[v.toNat]?).getD [] := by
  revert v
  decide +kernel

/-- **C122** (position): the text of `ValueToString` is a number and, if the kind of synchronisation is known, a blank and the unit; the number
is the product rounded to six significant digits. -/
theorem C122_value_text (base : Int) (factor : ℚ) (sync : Byte) :
    ∃ t r, evValueText base factor sync = t ++ (if evUnit sync = [] then [] else 0x20#8 :: evUnit sync) ∧ exactText t = some r ∧
      NearestSix (dblRound (dblRound base * factor)) r :=
  ⟨_, _, rfl, general_exact _, sixRound_nearest _⟩

example : evValueText 5 (1 / 2) 1 = asciiBytes "2.5 s" := by decide +kernel

/-- **C122**, finding: two events one second apart have the same text. -/
theorem C122_value_same : evValueText 2000000 1 1 = evValueText 2000001 1 1 := by decide +kernel

end Mdf
