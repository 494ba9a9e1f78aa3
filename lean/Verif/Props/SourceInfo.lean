import Verif.Model.SourceInfo
import Verif.Props.CommentKinds
import Verif.Proof.HdComment

/-!
# C115: The source information of a bus group says what the adapter was told

The name, path, type and bus, and in the comment the channel, the identity and length of the message, its name and the protocol.
-/

namespace Mdf

/-- A tree with properties only. -/
def PropsOnly (t : MdTree) : Prop := t.trees = [] ∧ t.lists = [] ∧ t.enums = [] ∧ SortedBy MdProp.name t.props

theorem src_addProp (t : MdTree) (x : MdProp) (h : PropsOnly t) (hx : x.name ≠ []) :
    PropsOnly (t.addProp x) ∧ ∀ k, (t.addProp x).props.find? (fun p => p.name == k) =
      (t.props.find? fun p => p.name == k).or (if x.name = k then some x else none) := by
  obtain ⟨s, n, d, P, T, L, E⟩ := t
  obtain ⟨h1, h2, h3, h4⟩ := h
  simp only [MdTree.trees, MdTree.lists, MdTree.enums, MdTree.props] at h1 h2 h3 h4
  subst h1 h2 h3
  rw [MdTree.addProp]
  split
  · rename_i hd
    simp only [MdTree.duplicate, MdTree.props, MdTree.trees, MdTree.lists, MdTree.enums, List.any_nil, Bool.or_false, Bool.or_eq_true,
      List.isEmpty_iff, hx, false_or, List.any_eq_true, beq_iff_eq] at hd
    refine ⟨⟨rfl, rfl, rfl, h4⟩, fun k => ?_⟩
    simp only [MdTree.props]
    by_cases hk : x.name = k
    · obtain ⟨p, hp, hpn⟩ := hd
      have : (P.find? fun p => p.name == k).isSome := by
        rw [List.find?_isSome]
        exact ⟨p, hp, by simp [hpn, hk]⟩
      obtain ⟨q, hq⟩ := Option.isSome_iff_exists.1 this
      rw [hq]
      rfl
    · rw [if_neg hk, Option.or_none]
  · refine ⟨⟨rfl, rfl, rfl, mapInsert_sorted h4⟩, fun k => ?_⟩
    exact find_mapInsert k x h4

theorem src_addProps (xs : List MdProp) (hx : ∀ x ∈ xs, x.name ≠ []) : ∀ t, PropsOnly t → PropsOnly (t.addProps xs) ∧
    ∀ k, (t.addProps xs).props.find? (fun p => p.name == k) = (t.props.find? fun p => p.name == k).or (xs.find? fun p => p.name == k) := by
  induction xs with
  | nil =>
    intro t h
    exact ⟨h, fun k => by simp [MdTree.addProps]⟩
  | cons x xs ih =>
    intro t h
    have h1 := src_addProp t x h (hx x List.mem_cons_self)
    have h2 := ih (fun y hy => hx y (List.mem_cons_of_mem _ hy)) _ h1.1
    refine ⟨h2.1, fun k => ?_⟩
    show ((t.addProp x).addProps xs).props.find? _ = _
    rw [h2.2 k, h1.2 k, List.find?_cons]
    by_cases hk : x.name = k
    · simp [hk]
    · have : (x.name == k) = false := by simpa using hk
      simp [hk, this]

/-- Texts an XML text can hold. -/
def SrcAdapter.Plain (a : SrcAdapter) : Prop := PlainText a.protocol ∧ PlainText a.message

theorem plain_dec (n : Nat) : PlainText (decText n) := fun c hc => Or.inl (decText_line n c hc)

theorem srcNum_good (name : Bytes) (h : GoodName name) (v : Nat) : (srcNum name v).Good :=
  ⟨hd_std_good, h, plainLine_nil, plainLine_nil, plainLine_nil, plain_dec v⟩

theorem srcProps_mem (a : SrcAdapter) (p : MdProp) (h : p ∈ a.props) :
    p = srcNum kChannelNo a.channel.toNat ∨ p = srcNum kMessageId a.messageId.toNat ∨ p = srcNum kMessageLength a.messageLength.toNat ∨
    p = { name := kMessage, value := a.message } := by
  simp only [SrcAdapter.props, List.mem_append] at h
  rcases h with h | h | h | h <;> split at h <;> simp only [List.mem_cons, List.not_mem_nil, or_false] at h
  · exact .inl h
  · exact .inr (.inl h)
  · exact .inr (.inr (.inl h))
  · exact .inr (.inr (.inr h))

theorem srcKeys : GoodName kChannelNo ∧ GoodName kMessageId ∧ GoodName kMessageLength ∧ GoodName kMessage :=
  ⟨⟨by decide, by decide, by unfold PlainLine; decide⟩, ⟨by decide, by decide, by unfold PlainLine; decide⟩,
    ⟨by decide, by decide, by unfold PlainLine; decide⟩, ⟨by decide, by decide, by unfold PlainLine; decide⟩⟩

theorem srcProps_good (a : SrcAdapter) (h : a.Plain) : ∀ p ∈ a.props, p.Good := by
  intro p hp
  obtain ⟨k1, k2, k3, k4⟩ := srcKeys
  rcases srcProps_mem a p hp with rfl | rfl | rfl | rfl
  · exact srcNum_good _ k1 _
  · exact srcNum_good _ k2 _
  · exact srcNum_good _ k3 _
  · exact ⟨hd_std_good, k4, plainLine_nil, plainLine_nil, plainLine_nil, h.2⟩

theorem emptyTree_good : MdTree.empty.Good := empty_com_good.2.2.2.1

theorem addProps_head (xs : List MdProp) : ∀ t : MdTree, (t.addProps xs).std = t.std ∧ (t.addProps xs).name = t.name ∧ (t.addProps xs).desc = t.desc := by
  induction xs with
  | nil => exact fun t => ⟨rfl, rfl, rfl⟩
  | cons x xs ih =>
    intro t
    have := ih (t.addProp x)
    rw [addProp_head, addProp_head', addProp_head''] at this
    exact this

theorem srcComment_good (a : SrcAdapter) (h : a.Plain) : a.comment.Good := by
  obtain ⟨_, g2, g3, _⟩ := empty_com_good
  have hh := addProps_head a.props MdTree.empty
  refine ⟨⟨⟨hd_std_good, ?_⟩, g2, g3, (addProps_good emptyTree_good (srcProps_good a h)).1, hh.1, hh.2.1, hh.2.2⟩, g2, g2, ?_⟩
  · intro c hc
    left
    have : PlainLine wBusConfig := by unfold PlainLine; decide
    exact this c hc
  · simp only [SrcAdapter.comment]
    split
    · exact ⟨hd_std_good, h.1⟩
    · exact ⟨hd_std_good, plainText_nil⟩

theorem readBack_getProp (t : MdTree) (h : PropsOnly t) (k : Bytes) (hk : afterSlash k = none) :
    t.readBack.getProp k = (t.props.find? fun p => p.name == k).map MdProp.readBack := by
  obtain ⟨s, n, d, P, T, L, E⟩ := t
  obtain ⟨h1, h2, h3, h4⟩ := h
  simp only [MdTree.trees, MdTree.lists, MdTree.enums, MdTree.props] at h1 h2 h3 h4
  subst h1 h2 h3
  rw [MdTree.readBack.eq_def]
  simp only [allReadBack, MdTree.getProp.eq_def, hk, treesProp, MdTree.props]
  rw [List.find?_map]
  have : ((fun p : MdProp => p.name == k) ∘ MdProp.readBack) = fun p => p.name == k := rfl
  rw [this]
  cases (P.find? fun p => p.name == k) <;> rfl

/-- What is found in the comment of a source, whatever the key. -/
theorem src_read (a : SrcAdapter) (h : a.Plain) (i : SrcInfo) (hi : i.xml = some a.comment.toXml) :
    i.comment.com.text.text = wBusConfig ∧ i.comment.protocol.text = trim a.protocol ∧
    ∀ k, afterSlash k = none → i.comment.com.common.getProp k = (a.props.find? fun p => p.name == k).map MdProp.readBack := by
  obtain ⟨r, h1, h2, _, h3, _, _, _, h4⟩ := C87_source_partial a.comment (srcComment_good a h)
  have e : i.comment = r := by
    rw [SrcInfo.comment, hi]
    exact h1
  rw [e]
  refine ⟨?_, ?_, fun k hk => ?_⟩
  · rw [h2]
    show trim wBusConfig = wBusConfig
    decide
  · have hp : a.comment.protocol.text = a.protocol := by
      simp only [SrcAdapter.comment]
      split
      · rfl
      · rename_i hn
        simp only [ne_eq, Decidable.not_not] at hn
        rw [hn]
    unfold ReadText at h4
    split at h4
    · rename_i he
      rw [h4, ← hp, he]
      rfl
    · rw [h4.2, hp]
  · rw [h3]
    have hn : ∀ x ∈ a.props, x.name ≠ [] := fun x hx => (srcProps_good a h x hx).2.1.1
    have ho := src_addProps a.props hn MdTree.empty ⟨rfl, rfl, rfl, List.Pairwise.nil⟩
    show (MdTree.empty.addProps a.props).readBack.getProp k = _
    rw [readBack_getProp _ ho.1 k hk, ho.2 k]
    rfl

/-- A property holds a number. -/
def HoldsNum (p : Option MdProp) (v : Nat) : Prop := ∃ q, p = some q ∧ q.type = .integer ∧ stoullText q.value = some v ∧
  ∀ now, q.getNum now = some (BitVec.ofNat 64 v)

theorem srcNum_holds (name : Bytes) (v : Nat) (hv : v < 2 ^ 64) : HoldsNum (some (srcNum name v).readBack) v := by
  have e : (srcNum name v).readBack.value = decText v := decText_trim v
  have hs := stoullText_decText hv
  refine ⟨_, rfl, rfl, by rw [e]; exact hs, fun now => ?_⟩
  have ht : (srcNum name v).readBack.type = .integer := rfl
  have hx : ¬ ((decText v).length > 2 ∧ (decText v).take 2 = [0x30#8, 0x78#8]) := by
    rintro ⟨_, h⟩
    have hm : (0x78#8 : Byte) ∈ decText v := List.mem_of_mem_take (i := 2) (by rw [h]; simp)
    have := (decText_digits v _ hm).2
    revert this
    decide
  rw [MdProp.getNum, ht]
  simp only [e]
  rw [if_neg hx, plainNum, if_neg (decText_ne v), hs]
  rfl

/-- The comment for any settings: the channel, the identity and the length as numbers and the name as text, each if it was set, and the
protocol.  Texts are read without blanks around them. -/
theorem C115_comment (a : SrcAdapter) (h : a.Plain) (hc : a.commented = true) (group : Bytes) (i : SrcInfo)
    (hi : i = a.groupInfo group ∨ i = a.channelInfo group) :
    i.comment.com.text.text = wBusConfig ∧ i.comment.protocol.text = trim a.protocol ∧
    (a.channel ≠ 0 → HoldsNum (i.comment.com.common.getProp kChannelNo) a.channel.toNat) ∧
    (a.messageId ≠ 0 → HoldsNum (i.comment.com.common.getProp kMessageId) a.messageId.toNat) ∧
    (a.messageLength ≠ 0 → HoldsNum (i.comment.com.common.getProp kMessageLength) a.messageLength.toNat) ∧
    (a.message ≠ [] → i.comment.com.common.getText kMessage = trim a.message) ∧
    (a.channel = 0 → i.comment.com.common.getProp kChannelNo = none) ∧ (a.messageId = 0 → i.comment.com.common.getProp kMessageId = none) ∧
    (a.messageLength = 0 → i.comment.com.common.getProp kMessageLength = none) ∧
    (a.message = [] → i.comment.com.common.getProp kMessage = none) := by
  have hx : i.xml = some a.comment.toXml := by
    rcases hi with rfl | rfl
    · simp [SrcAdapter.groupInfo, hc]
    · simp [SrcAdapter.channelInfo, hc]
  obtain ⟨h1, h2, h3⟩ := src_read a h i hx
  have n1 : (kChannelNo == kMessageId) = false := by decide
  have n2 : (kChannelNo == kMessageLength) = false := by decide
  have n3 : (kChannelNo == kMessage) = false := by decide
  have n4 : (kMessageId == kChannelNo) = false := by decide
  have n5 : (kMessageId == kMessageLength) = false := by decide
  have n6 : (kMessageId == kMessage) = false := by decide
  have n7 : (kMessageLength == kChannelNo) = false := by decide
  have n8 : (kMessageLength == kMessageId) = false := by decide
  have n9 : (kMessageLength == kMessage) = false := by decide
  have n10 : (kMessage == kChannelNo) = false := by decide
  have n11 : (kMessage == kMessageId) = false := by decide
  have n12 : (kMessage == kMessageLength) = false := by decide
  have f1 : a.props.find? (fun p => p.name == kChannelNo) = if a.channel ≠ 0 then some (srcNum kChannelNo a.channel.toNat) else none := by
    simp only [SrcAdapter.props]
    split <;> split <;> split <;> split <;> simp [srcNum, n4, n7, n10]
  have f2 : a.props.find? (fun p => p.name == kMessageId) = if a.messageId ≠ 0 then some (srcNum kMessageId a.messageId.toNat) else none := by
    simp only [SrcAdapter.props]
    split <;> split <;> split <;> split <;> simp [srcNum, n1, n8, n11]
  have f3 : a.props.find? (fun p => p.name == kMessageLength) = if a.messageLength ≠ 0 then some (srcNum kMessageLength a.messageLength.toNat) else none := by
    simp only [SrcAdapter.props]
    split <;> split <;> split <;> split <;> simp [srcNum, n2, n5, n12]
  have f4 : a.props.find? (fun p => p.name == kMessage) = if a.message ≠ [] then some { name := kMessage, value := a.message } else none := by
    simp only [SrcAdapter.props]
    split <;> split <;> split <;> split <;> simp [srcNum, n3, n6, n9]
  have g1 := h3 kChannelNo (by decide)
  have g2 := h3 kMessageId (by decide)
  have g3 := h3 kMessageLength (by decide)
  have g4 := h3 kMessage (by decide)
  rw [f1] at g1
  rw [f2] at g2
  rw [f3] at g3
  rw [f4] at g4
  refine ⟨h1, h2, fun e => ?_, fun e => ?_, fun e => ?_, fun e => ?_, fun e => ?_, fun e => ?_, fun e => ?_, fun e => ?_⟩
  · rw [g1, if_pos e]
    exact srcNum_holds _ _ (Nat.lt_trans a.channel.isLt (by decide))
  · rw [g2, if_pos e]
    exact srcNum_holds _ _ a.messageId.isLt
  · rw [g3, if_pos e]
    exact srcNum_holds _ _ a.messageLength.isLt
  · rw [MdTree.getText, g4, if_pos e]
    rfl
  · rw [g1, if_neg (by simp [e])]
    rfl
  · rw [g2, if_neg (by simp [e])]
    rfl
  · rw [g3, if_neg (by simp [e])]
    rfl
  · rw [g4, if_neg (by simp [e])]
    rfl

/-- CAN, channel 2, message 0x123 of 8 bytes. -/
def exSource : SrcAdapter :=
  { busType := 0x1, busName := [0x43#8, 0x41#8, 0x4E#8], channel := 2, messageId := 0x123, messageLength := 8, message := [0x6D#8], protocol := [0x70#8] }

example : exSource.Plain ∧ exSource.commented = true := by
  refine ⟨⟨?_, ?_⟩, by decide⟩
  · unfold PlainText
    decide
  · unfold PlainText
    decide

/-- **C115, full statement**: every setting can be read. -/
def C115_Statement : Prop :=
  ∀ (a : SrcAdapter) (group : Bytes), a.Plain → ∀ i, i = a.groupInfo group ∨ i = a.channelInfo group →
    (a.channel ≠ 0 → HoldsNum (i.comment.com.common.getProp kChannelNo) a.channel.toNat) ∧
    (a.messageId ≠ 0 → HoldsNum (i.comment.com.common.getProp kMessageId) a.messageId.toNat) ∧
    (a.messageLength ≠ 0 → HoldsNum (i.comment.com.common.getProp kMessageLength) a.messageLength.toNat) ∧
    (a.message ≠ [] → i.comment.com.common.getText kMessage = trim a.message) ∧
    i.comment.protocol.text = trim a.protocol

/-- What holds: all settings, if one of channel, identity, name or protocol is set. -/
theorem C115_settings_partial (a : SrcAdapter) (group : Bytes) (h : a.Plain) (i : SrcInfo) (hi : i = a.groupInfo group ∨ i = a.channelInfo group)
    (hl : a.messageLength = 0 ∨ a.commented = true) :
    (a.channel ≠ 0 → HoldsNum (i.comment.com.common.getProp kChannelNo) a.channel.toNat) ∧
    (a.messageId ≠ 0 → HoldsNum (i.comment.com.common.getProp kMessageId) a.messageId.toNat) ∧
    (a.messageLength ≠ 0 → HoldsNum (i.comment.com.common.getProp kMessageLength) a.messageLength.toNat) ∧
    (a.message ≠ [] → i.comment.com.common.getText kMessage = trim a.message) ∧
    i.comment.protocol.text = trim a.protocol := by
  by_cases hc : a.commented = true
  · obtain ⟨_, h2, h3, h4, h5, h6, _⟩ := C115_comment a h hc group i hi
    exact ⟨h3, h4, h5, h6, h2⟩
  · have hl := hl.resolve_right hc
    have hc' := hc
    simp only [SrcAdapter.commented, Bool.or_eq_true, decide_eq_true_eq, not_or, Decidable.not_not] at hc'
    obtain ⟨⟨⟨c1, c2⟩, c3⟩, c4⟩ := hc'
    have hx : i.xml = none := by
      rcases hi with rfl | rfl
      · simp [SrcAdapter.groupInfo, hc]
      · simp [SrcAdapter.channelInfo, hc]
    refine ⟨fun e => absurd c3 e, fun e => absurd c2 e, fun e => absurd hl e, fun e => absurd c4 e, ?_⟩
    rw [SrcInfo.comment, hx, c1]
    rfl

/-- A length set alone is lost. -/
theorem C115_length_lost (a : SrcAdapter) (group : Bytes) (h : a.commented = false) :
    (a.groupInfo group).xml = none ∧ (a.channelInfo group).xml = none ∧ (a.groupInfo group).comment.com.common.getProp kMessageLength = none := by
  have h1 : (a.groupInfo group).xml = none := by simp [SrcAdapter.groupInfo, h]
  refine ⟨h1, by simp [SrcAdapter.channelInfo, h], ?_⟩
  rw [SrcInfo.comment, h1]
  rfl

theorem C115_false : ¬ C115_Statement := by
  intro h
  have hp : ({ busType := 0x1, busName := [], messageLength := 8 } : SrcAdapter).Plain := ⟨plainText_nil, plainText_nil⟩
  obtain ⟨_, _, h1, _⟩ := h _ [] hp _ (.inl rfl)
  obtain ⟨q, h2, _⟩ := h1 (by decide)
  rw [(C115_length_lost _ [] (by decide)).2.2] at h2
  cases h2

/-- The name of the source of a group: the first text that is set of the network, the device, the bus and the group. -/
theorem C115_name (a : SrcAdapter) (group : Bytes) :
    (a.groupInfo group).path = group ∧
    (∀ t, [a.network, a.device, a.busName, group].find? (fun t => !t.isEmpty) = some t → (a.groupInfo group).name = t) ∧
    (∀ t, [a.network, group].find? (fun t => !t.isEmpty) = some t → (a.channelInfo group).name = t) ∧
    (∀ t, [a.device, group].find? (fun t => !t.isEmpty) = some t → (a.channelInfo group).path = t) := by
  have two : ∀ (x t : Bytes), [x, group].find? (fun t => !t.isEmpty) = some t → (if x ≠ [] then x else group) = t := by
    intro x t h
    cases x with
    | nil =>
      cases group with
      | nil => simp at h
      | cons y ys => simpa using h
    | cons y ys => simpa using h
  refine ⟨rfl, ?_, fun t => two a.network t, fun t => two a.device t⟩
  intro t h
  simp only [SrcAdapter.groupInfo]
  cases hn : a.network with
  | cons y ys => simpa [hn] using h
  | nil =>
    cases hd : a.device with
    | cons y ys => simpa [hn, hd] using h
    | nil =>
      simp only [ne_eq, not_true_eq_false, if_false]
      refine two a.busName t ?_
      simpa [hn, hd] using h

/-- The bus is that of the adapter, and different buses have different codes. -/
theorem C115_bus (a : SrcAdapter) (group : Bytes) :
    (a.groupInfo group).bus = srcBus a.busType ∧ (a.channelInfo group).bus = srcBus a.busType ∧
    ((a.groupInfo group).type = 2 ↔ a.busType ≠ 0) ∧ ((a.channelInfo group).type = 2 ↔ a.busType ≠ 0) ∧
    (srcBus a.busType = 2 ↔ a.busType = 0x1) ∧ (srcBus a.busType = 3 ↔ a.busType = 0x2) ∧ (srcBus a.busType = 4 ↔ a.busType = 0x8) ∧
    (srcBus a.busType = 5 ↔ a.busType = 0x4) ∧ (srcBus a.busType = 7 ↔ a.busType = 0x10) := by
  have ht : srcType a.busType = 2 ↔ a.busType ≠ 0 := by
    unfold srcType
    split <;> simp_all
  refine ⟨rfl, rfl, ht, ht, ?_⟩
  unfold srcBus
  split
  · rename_i h
    rw [h]
    decide
  · rename_i h1
    split
    · rename_i h
      rw [h]
      decide
    · rename_i h2
      split
      · rename_i h
        rw [h]
        decide
      · rename_i h3
        split
        · rename_i h
          rw [h]
          decide
        · rename_i h4
          split
          · rename_i h
            rw [h]
            decide
          · rename_i h5
            simp only [h1, h2, h3, h4, h5]
            decide

/-- An adapter whose bus type has more than one bit says that the bus is unknown. -/
example : (({ busType := 0x3, busName := [] } : SrcAdapter).groupInfo []).bus = 1 := by decide

/-! ### The fixed bus channel -/

/-- A filter on a channel or message makes the bus channel a constant. -/
def C115_Fixed_Statement : Prop := ∀ (channel : Byte) (f : BusFilter), channel ≠ 0 → f ≠ .noFilter → fixedChannel channel f = true

/-- Never: the filter of the adapter is not looked at. -/
theorem C115_fixed_never (channel : Byte) (f : BusFilter) : fixedChannel channel f = false := by
  simp [fixedChannel]

theorem C115_fixed_false : ¬ C115_Fixed_Statement := by
  intro h
  have := h 1 (.channel 1) (by decide) (by decide)
  rw [C115_fixed_never] at this
  cases this

end Mdf
