import Verif.Model.BusName
import Verif.Proof.Lin

/-!
Properties of the names of bus groups: C83.
-/

namespace Mdf

/-! ### Parts of names -/

theorem text_prefix_split (p cs rest : List Char) (h : '_' ∉ p) : p.isPrefixOf (cs ++ '_' :: rest) = p.isPrefixOf cs := by
  induction p generalizing cs with
  | nil => cases cs <;> rfl
  | cons a p ih =>
    rw [List.mem_cons, not_or] at h
    cases cs with
    | nil =>
      have : (a == '_') = false := by simpa using Ne.symm h.1
      simp [List.isPrefixOf, this]
    | cons d ds => simp only [List.cons_append, List.isPrefixOf, ih ds h.2]

/-- A text with an underscore at its beginning only is not found across an underscore. -/
theorem contains_split (p x rest : List Char) (h : '_' ∉ p) :
    containsName ('_' :: p) (x ++ '_' :: rest) = (containsName ('_' :: p) x || containsName ('_' :: p) ('_' :: rest)) := by
  induction x with
  | nil => simp [containsName]
  | cons c cs ih =>
    rw [List.cons_append, containsName, ih, containsName.eq_def ('_' :: p) (c :: cs)]
    simp only [List.isPrefixOf, text_prefix_split p cs rest h, Bool.or_assoc]

theorem contains_digits (a : Char) (q : List Char) (n : Nat) (ha : a.isDigit = false) :
    containsName ('_' :: a :: q) ('_' :: Nat.toDigits 10 n) = false := by
  have h1 : containsName ('_' :: a :: q) (Nat.toDigits 10 n) = false := by
    have := contains_skip (a :: q) [] (Nat.toDigits 10 n) Nat.underscore_not_in_toDigits
    rw [List.append_nil] at this
    rw [this]
    rfl
  rw [containsName, h1]
  cases hd : Nat.toDigits 10 n with
  | nil => rfl
  | cons d ds =>
    have hdig : d.isDigit = true := Nat.isDigit_of_mem_toDigits (b := 10) (by decide) (by decide) (by rw [hd]; exact List.mem_cons_self)
    have hne : (a == d) = false := by
      rw [beq_eq_false_iff_ne]
      rintro rfl
      rw [ha] at hdig
      cases hdig
    simp [List.isPrefixOf, hne]

/-- A text that can be looked for: an underscore, a letter and more without underscores. -/
def Searchable (t : List Char) : Prop := ∃ a q, t = '_' :: a :: q ∧ a.isDigit = false ∧ '_' ∉ a :: q

theorem usedBusName_plain (bus : List Char) (h : '_' ∉ bus) : '_' ∉ usedBusName bus := by
  unfold usedBusName
  split
  · decide
  · split
    · decide
    · exact h

/-- Only the kind in the name of a group is found by such texts. -/
theorem group_contains (t bus base : List Char) (f : BusFilter) (ht : Searchable t) (hb : '_' ∉ bus) :
    containsName t (makeGroupName bus f base) = containsName t ('_' :: base) := by
  obtain ⟨a, q, rfl, ha, hq⟩ := ht
  have hu := usedBusName_plain bus hb
  have one : ∀ c : Char, containsName ('_' :: a :: q) [c] = false := by
    intro c
    simp [containsName, List.isPrefixOf]
  have nil : containsName ('_' :: a :: q) [] = false := rfl
  have tail : ∀ n, containsName ('_' :: a :: q) ('_' :: (base ++ '_' :: Nat.toDigits 10 n)) = containsName ('_' :: a :: q) ('_' :: base) := by
    intro n
    rw [← List.cons_append, contains_split _ _ _ hq, contains_digits a q n ha, Bool.or_false]
  cases f with
  | noFilter => exact contains_skip _ _ _ hu
  | channel c =>
    simp only [makeGroupName]
    rw [contains_skip _ _ _ hu, contains_split _ _ _ hq, channelText, one, Bool.false_or]
  | messageId c id =>
    simp only [makeGroupName]
    rw [contains_skip _ _ _ hu, contains_split _ _ _ hq, tail]
    split
    · rw [channelText, one, Bool.false_or]
    · rw [nil, Bool.false_or]

/-! ### The kind of a message -/

/-- **C83, full statement**, kinds: in the groups made by the adapters, a CAN, LIN or Ethernet message is stored as one of the kind of the group,
and MOST and FlexRay messages are stored in the groups of their kind only.  For every bus name and filter. -/
def C83_Statement : Prop :=
  ∀ (bus : List Char) (f : BusFilter),
    (∀ k : CanFrame, canKindOf (makeGroupName bus f k.groupBase) = some k) ∧
    (∀ k : LinKind, linKindOf (makeGroupName bus f k.groupBase) = some k) ∧
    (∀ k : EthKind, ethKindOf k.groupName = some k) ∧
    (∀ k k' : MostKind, mostAccepts k' (makeGroupName bus f k.groupBase) = true ↔ k' = k) ∧
    (∀ k k' : FlxKind, flxAccepts k' (makeGroupName bus f k.groupBase) = true ↔ k' = k)

theorem canText (k : CanFrame) : Searchable k.text := by
  cases k <;> exact ⟨_, _, rfl, by decide, by decide⟩

theorem linText (k : LinKind) : Searchable k.text := by
  cases k <;> exact ⟨_, _, rfl, by decide, by decide⟩

theorem mostText (k : MostKind) : Searchable k.text := by
  cases k <;> exact ⟨_, _, rfl, by decide, by decide⟩

theorem flxText (k : FlxKind) : Searchable k.text := by
  cases k <;> exact ⟨_, _, rfl, by decide, by decide⟩

theorem C83_can_kind_partial (bus : List Char) (f : BusFilter) (hb : '_' ∉ bus) (k : CanFrame) :
    canKindOf (makeGroupName bus f k.groupBase) = some k := by
  have : canKindOf (makeGroupName bus f k.groupBase) = canKindOf ('_' :: k.groupBase) := by
    unfold canKindOf
    congr 1
    funext k'
    exact group_contains _ _ _ f (canText k') hb
  rw [this]
  cases k <;> decide +kernel

theorem C83_lin_kind_partial (bus : List Char) (f : BusFilter) (hb : '_' ∉ bus) (k : LinKind) :
    linKindOf (makeGroupName bus f k.groupBase) = some k := by
  have : linKindOf (makeGroupName bus f k.groupBase) = linKindOf ('_' :: k.groupBase) := by
    unfold linKindOf
    congr 1
    funext k'
    exact group_contains _ _ _ f (linText k') hb
  rw [this]
  cases k <;> decide +kernel

theorem C83_eth_kind (k : EthKind) : ethKindOf k.groupName = some k := by
  cases k <;> decide +kernel

/-- MOST messages are stored in the groups of their kind only. -/
theorem C83_most_kind_partial (bus : List Char) (f : BusFilter) (hb : '_' ∉ bus) (k k' : MostKind) :
    mostAccepts k' (makeGroupName bus f k.groupBase) = true ↔ k' = k := by
  unfold mostAccepts
  rw [group_contains _ _ _ f (mostText k') hb]
  cases k <;> cases k' <;> decide +kernel

/-- FlexRay messages are stored in the groups of their kind; and in no others, except that frames are stored in groups for frame headers. -/
theorem C83_flexray_kind_partial (bus : List Char) (f : BusFilter) (hb : '_' ∉ bus) (k k' : FlxKind) :
    flxAccepts k' (makeGroupName bus f k.groupBase) = true ↔ k' = k ∨ (k' = .frame ∧ k = .frameHeader) := by
  unfold flxAccepts
  rw [group_contains _ _ _ f (flxText k') hb]
  cases k <;> cases k' <;> decide +kernel

/-- The names the adapters use by default. -/
example : '_' ∉ "CAN".toList ∧ '_' ∉ "LIN".toList ∧ '_' ∉ "MOST".toList ∧ '_' ∉ "FlexRay".toList := by decide

/-- A bus name with the name of a kind in it: wake up messages are stored as frames. -/
theorem C83_bus_name : linKindOf (makeGroupName "Body_Frame".toList .noFilter LinKind.wakeUp.groupBase) = some .frame := by decide +kernel

/-- FlexRay frames are stored in groups for frame headers. -/
theorem C83_frame_header : flxAccepts .frame (makeGroupName "FlexRay".toList (.messageId 0 7) FlxKind.frameHeader.groupBase) = true := by
  decide +kernel

theorem C83_false : ¬ C83_Statement := by
  intro h
  have := (h "FlexRay".toList (.messageId 0 7)).2.2.2.2 .frameHeader .frame
  exact absurd (this.1 C83_frame_header) (by decide)

/-! ### The names -/

theorem channelText_inj (c d : Byte) (h : Char.ofNat c.toNat = Char.ofNat d.toNat) : c = d := by
  have e : ∀ c : Byte, (Char.ofNat c.toNat).toNat = c.toNat := by
    intro c
    have h : ∀ x : Fin 256, (Char.ofNat x.val).toNat = x.val := by decide +kernel
    exact h c.toFin
  exact BitVec.eq_of_toNat_eq (by rw [← e c, ← e d, h])

theorem split_eq {a b : List Char} {x y : List Char} (ha : '_' ∉ a) (hb : '_' ∉ b) (h : a ++ '_' :: x = b ++ '_' :: y) : a = b ∧ x = y := by
  induction a generalizing b with
  | nil =>
    cases b with
    | nil => exact ⟨rfl, by simpa using h⟩
    | cons d b =>
      simp only [List.nil_append, List.cons_append, List.cons.injEq] at h
      rw [← h.1] at hb
      simp at hb
  | cons c a ih =>
    rw [List.mem_cons, not_or] at ha
    cases b with
    | nil =>
      simp only [List.nil_append, List.cons_append, List.cons.injEq] at h
      exact absurd h.1.symm ha.1
    | cons d b =>
      rw [List.mem_cons, not_or] at hb
      simp only [List.cons_append, List.cons.injEq] at h
      obtain ⟨e1, e2⟩ := ih ha.2 hb.2 h.2
      exact ⟨by rw [h.1, e1], e2⟩

theorem not_underscore {a : List Char} {x y : List Char} (ha : '_' ∉ a) (hn : a ≠ []) : a ++ x ≠ '_' :: y := by
  cases a with
  | nil => exact absurd rfl hn
  | cons c a =>
    rw [List.mem_cons, not_or] at ha
    intro h
    simp only [List.cons_append, List.cons.injEq] at h
    exact ha.1 h.1.symm

/-- The groups an adapter makes for different kinds, channels and identities have different names. -/
theorem C83_names_differ (bus base base' : List Char) (f f' : BusFilter) (h1 : '_' ∉ base) (h2 : base ≠ []) (h3 : '_' ∉ base')
    (h4 : base' ≠ []) (h : makeGroupName bus f base = makeGroupName bus f' base') : f = f' ∧ base = base' := by
  have pos : ∀ c : Byte, 0 < c ∨ c = 0 := by
    intro c
    by_cases hc : c = 0
    · exact .inr hc
    · left
      have : c.toNat ≠ 0 := fun e => hc (BitVec.eq_of_toNat_eq e)
      exact BitVec.lt_def.2 (Nat.pos_of_ne_zero this)
  have dig : ∀ i j : BitVec 64, Nat.toDigits 10 i.toNat = Nat.toDigits 10 j.toNat → i = j := by
    intro i j e
    have := congrArg (fun l => Nat.ofDigitChars 10 l 0) e
    simp only [Nat.ofDigitChars_ten_toDigits] at this
    exact BitVec.eq_of_toNat_eq this
  have body : ∀ y, base = base' ++ '_' :: y → False := by
    intro y e
    rw [e] at h1
    simp at h1
  have body' : ∀ y, base' = base ++ '_' :: y → False := by
    intro y e
    rw [e] at h3
    simp at h3
  have lt0 : ¬ (0 : Byte) < 0 := by decide
  unfold makeGroupName at h
  cases f with
  | noFilter =>
    cases f' with
    | noFilter =>
      have h := List.append_cancel_left h
      simp only [List.cons.injEq, true_and] at h
      exact ⟨rfl, h⟩
    | channel c =>
      have h := List.append_cancel_left h
      simp only [channelText, List.cons_append, List.nil_append, List.cons.injEq] at h
      exact absurd (by rw [List.append_nil]; exact h.2) (not_underscore (x := []) h1 h2)
    | messageId c id =>
      have h := List.append_cancel_left h
      rcases pos c with hc | rfl
      · simp only [if_pos hc, channelText, List.cons_append, List.nil_append, List.cons.injEq] at h
        exact absurd (by rw [List.append_nil]; exact h.2) (not_underscore (x := []) h1 h2)
      · simp only [if_neg lt0, List.nil_append, List.cons.injEq, true_and] at h
        exact (body _ h).elim
  | channel c =>
    cases f' with
    | noFilter =>
      have h := List.append_cancel_left h
      simp only [channelText, List.cons_append, List.nil_append, List.cons.injEq] at h
      exact absurd (by rw [List.append_nil]; exact h.2.symm) (not_underscore (x := []) h3 h4)
    | channel d =>
      have h := List.append_cancel_left h
      simp only [channelText, List.cons_append, List.nil_append, List.cons.injEq, true_and] at h
      exact ⟨by rw [channelText_inj c d h.1], h.2⟩
    | messageId d id =>
      have h := List.append_cancel_left h
      rcases pos d with hd | rfl
      · simp only [if_pos hd, channelText, List.cons_append, List.nil_append, List.cons.injEq, true_and] at h
        exact (body _ h.2).elim
      · simp only [if_neg lt0, channelText, List.cons_append, List.nil_append, List.cons.injEq] at h
        exact absurd h.2.symm (not_underscore h3 h4)
  | messageId c id =>
    cases f' with
    | noFilter =>
      have h := List.append_cancel_left h
      rcases pos c with hc | rfl
      · simp only [if_pos hc, channelText, List.cons_append, List.nil_append, List.cons.injEq] at h
        exact absurd (by rw [List.append_nil]; exact h.2.symm) (not_underscore (x := []) h3 h4)
      · simp only [if_neg lt0, List.nil_append, List.cons.injEq, true_and] at h
        exact (body' _ h.symm).elim
    | channel d =>
      have h := List.append_cancel_left h
      rcases pos c with hc | rfl
      · simp only [if_pos hc, channelText, List.cons_append, List.nil_append, List.cons.injEq, true_and] at h
        exact (body' _ h.2.symm).elim
      · simp only [if_neg lt0, channelText, List.cons_append, List.nil_append, List.cons.injEq] at h
        exact absurd h.2 (not_underscore h1 h2)
    | messageId d id' =>
      have h := List.append_cancel_left h
      rcases pos c with hc | rfl <;> rcases pos d with hd | rfl
      · simp only [if_pos hc, if_pos hd, channelText, List.cons_append, List.nil_append, List.cons.injEq, true_and] at h
        obtain ⟨e1, e2⟩ := split_eq h1 h3 h.2
        exact ⟨by rw [channelText_inj c d h.1, dig _ _ e2], e1⟩
      · simp only [if_pos hc, if_neg lt0, channelText, List.cons_append, List.nil_append, List.cons.injEq] at h
        exact absurd h.2.symm (not_underscore h3 h4)
      · simp only [if_pos hd, if_neg lt0, channelText, List.cons_append, List.nil_append, List.cons.injEq] at h
        exact absurd h.2 (not_underscore h1 h2)
      · simp only [if_neg lt0, List.nil_append, List.cons.injEq, true_and] at h
        obtain ⟨e1, e2⟩ := split_eq h1 h3 h
        exact ⟨by rw [dig _ _ e2], e1⟩

/-- The hypotheses hold of the kinds. -/
example : (∀ k : CanFrame, '_' ∉ k.groupBase ∧ k.groupBase ≠ []) ∧ (∀ k : LinKind, '_' ∉ k.groupBase ∧ k.groupBase ≠ []) ∧
    (∀ k : MostKind, '_' ∉ k.groupBase ∧ k.groupBase ≠ []) ∧ (∀ k : FlxKind, '_' ∉ k.groupBase ∧ k.groupBase ≠ []) := by
  refine ⟨?_, ?_, ?_, ?_⟩ <;> intro k <;> cases k <;> decide

/-- What one expects of the name of a group for one channel: the number of the channel is in it. -/
def C83_Channel_Statement : Prop :=
  ∀ (bus : List Char) (c : Byte) (base : List Char),
    makeGroupName bus (.channel c) base = usedBusName bus ++ (Nat.toDigits 10 c.toNat ++ '_' :: base)

/-- It is not: the number is used as the code of a character, for channel 1 the name is "CAN", a control character and "_DataFrame". -/
theorem C83_channel_character : makeGroupName "CAN".toList (.channel 1) CanFrame.data.groupBase =
    ['C', 'A', 'N', Char.ofNat 1] ++ "_DataFrame".toList := by decide +kernel

theorem C83_channel_false : ¬ C83_Channel_Statement := by
  intro h
  have := h "CAN".toList 1 CanFrame.data.groupBase
  rw [C83_channel_character] at this
  revert this
  decide +kernel

end Mdf
