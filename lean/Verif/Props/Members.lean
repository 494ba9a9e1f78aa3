import Verif.Model.Members
import Verif.Proof.SessionRun

/-!
# Property C119: members of a structure have places of their own in the record

The members of a structure share the bytes of the structure with it, and no bytes with any other channel of the group: setting a member
shows in no other channel.
-/

namespace Mdf

/-! ### What the calls leave -/

theorem withBytes_keeps (c : Chan) (n : Nat) : (c.withBytes n).byteOffset = c.byteOffset ∧ (c.withBytes n).invalidPos = c.invalidPos ∧
    (c.withBytes n).arraySize = c.arraySize ∧ (c.withBytes n).bitOffset = c.bitOffset := ⟨rfl, rfl, rfl, rfl⟩

theorem withDataType_keeps (c : Chan) (d : DataType) : (c.withDataType d).byteOffset = c.byteOffset ∧
    (c.withDataType d).invalidPos = c.invalidPos ∧ (c.withDataType d).arraySize = c.arraySize ∧
    (c.withDataType d).bitOffset = c.bitOffset := by
  unfold Chan.withDataType Chan.withBytes
  cases d <;> dsimp only <;> (try split) <;> exact ⟨rfl, rfl, rfl, rfl⟩

theorem MemberCall.apply_keeps (c : Chan) (m : MemberCall) : (m.apply c).invalidPos = c.invalidPos ∧ (m.apply c).arraySize = c.arraySize ∧
    ((∀ n, m ≠ .byteOffset n) → (m.apply c).byteOffset = c.byteOffset) := by
  cases m with
  | dataType d => exact ⟨(withDataType_keeps c d).2.1, (withDataType_keeps c d).2.2.1, fun _ => (withDataType_keeps c d).1⟩
  | byteOffset n => exact ⟨rfl, rfl, fun h => absurd rfl (h n)⟩
  | _ => exact ⟨rfl, rfl, fun _ => rfl⟩

theorem member_keeps (calls : List MemberCall) : ∀ c : Chan, (calls.foldl MemberCall.apply c).invalidPos = c.invalidPos ∧
    (calls.foldl MemberCall.apply c).arraySize = c.arraySize ∧
    ((∀ n, .byteOffset n ∉ calls) → (calls.foldl MemberCall.apply c).byteOffset = c.byteOffset) := by
  induction calls with
  | nil => intro c; exact ⟨rfl, rfl, fun _ => rfl⟩
  | cons m calls ih =>
    intro c
    obtain ⟨h1, h2, h3⟩ := ih (m.apply c)
    obtain ⟨k1, k2, k3⟩ := MemberCall.apply_keeps c m
    refine ⟨h1.trans k1, h2.trans k2, fun h => ?_⟩
    rw [List.foldl_cons, h3 (fun n hn => h n (List.mem_cons_of_mem _ hn)), k3]
    rintro n rfl
    exact h n List.mem_cons_self

/-- **C119** (what a member has).  Whatever is called, in any order: the member's validity bit is number 0 of the group, and unless its byte
offset is set, the member starts at byte 0 of the record. -/
theorem C119_defaults (s : Ses) (g : Nat) (calls : List MemberCall) :
    (s.member g calls).invalidPos = 0 ∧ (s.member g calls).arraySize = 1 ∧
    (s.member g calls).nofDataBytes = (s.layout g).nofDataBytes ∧
    ((∀ n, .byteOffset n ∉ calls) → (s.member g calls).byteOffset = 0) := by
  obtain ⟨h1, h2, h3⟩ := member_keeps calls newMember
  exact ⟨h1, h2, rfl, h3⟩

/-- **C119** (what was set last counts).  The byte offset, bit offset and size of a member are those set last, as far as their types hold them. -/
theorem C119_last_call (s : Ses) (g : Nat) (calls : List MemberCall) (n : Nat) :
    (n < 2 ^ 32 → (s.member g (calls ++ [.byteOffset n])).byteOffset = n) ∧
    (n < 2 ^ 8 → (s.member g (calls ++ [.bitOffset n])).bitOffset = n) ∧
    (n < 2 ^ 32 → (s.member g (calls ++ [.bitCount n])).bitCount = n) ∧
    (n < 2 ^ 29 → (s.member g (calls ++ [.dataBytes n])).bitCount = 8 * n ∧ (s.member g (calls ++ [.dataBytes n])).dataBytes = n) := by
  unfold Ses.member
  simp only [List.foldl_append, List.foldl_cons, List.foldl_nil, MemberCall.apply, Chan.withBytes, Chan.dataBytes]
  refine ⟨fun h => by omega, fun h => by omega, fun h => by omega, fun h => ⟨by omega, ?_⟩⟩
  have e : n * 8 % 2 ^ 64 % 2 ^ 32 = 8 * n := by omega
  rw [e, if_neg (by omega)]
  omega

/-- No groups. -/
def exMemberless : Ses := { groups := [], master := fun _ => none }

/-- **C119** (sizes by type).  A new member is an unsigned number of no size, without validity bit; naming a number type gives it four bytes
if it has no size, and keeps the size it has; CANopen dates have seven and times six bytes whatever was set; other types keep the size.  Of a
bit offset the low eight bits are kept. -/
theorem C119_type_sizes (s : Ses) (g : Nat) (calls : List MemberCall) (d : DataType) (n : Nat) :
    ((s.member g []).type = .fixedLength ∧ (s.member g []).dataType = .unsignedLe ∧ (s.member g []).bitCount = 0 ∧
      (s.member g []).bitOffset = 0 ∧ (s.member g []).invalidFlag = false) ∧
    (s.member g (calls ++ [.dataType d])).dataType = d ∧
    (s.member g (calls ++ [.dataType d])).bitCount =
      (match d with
        | .canOpenDate => 56
        | .canOpenTime => 48
        | .unsignedLe | .unsignedBe | .signedLe | .signedBe | .floatLe | .floatBe =>
          if (s.member g calls).bitCount = 0 then 32 else (s.member g calls).bitCount
        | _ => (s.member g calls).bitCount) ∧
    (s.member g (calls ++ [.bitOffset n])).bitOffset = n % 256 := by
  refine ⟨⟨rfl, rfl, rfl, rfl, rfl⟩, ?_, ?_, ?_⟩
  · unfold Ses.member
    simp only [List.foldl_append, List.foldl_cons, List.foldl_nil, MemberCall.apply, Chan.withDataType]
    cases d <;> dsimp only [Chan.withBytes] <;> (try split) <;> rfl
  · unfold Ses.member
    simp only [List.foldl_append, List.foldl_cons, List.foldl_nil, MemberCall.apply, Chan.withDataType]
    generalize calls.foldl MemberCall.apply newMember = c
    have h0 : ∀ d, ({ c with dataType := d } : Chan).dataBytes = 0 ↔ c.bitCount = 0 := by
      intro d
      unfold Chan.dataBytes
      dsimp only
      split <;> omega
    by_cases hz : c.bitCount = 0
    · cases d <;> simp only [Chan.withBytes, Chan.dataBytes, hz] <;> rfl
    · cases d <;> simp only [Chan.withBytes, mt (h0 _).1 hz, hz, if_false]
  · unfold Ses.member
    simp only [List.foldl_append, List.foldl_cons, List.foldl_nil, MemberCall.apply]
    omega

/-- Non-vacuity: a date, a number without size, a number of one byte. -/
example : (exMemberless.member 0 [.dataBytes 3, .dataType .canOpenDate]).bitCount = 56 ∧
    (exMemberless.member 0 [.dataType .floatLe]).bitCount = 32 ∧ (exMemberless.member 0 [.dataBytes 1, .dataType .signedBe]).bitCount = 8 := by
  decide

/-! ### The statement -/

/-- **C119** (as one would expect).  Setting a member of the structure `k` changes the value and the validity of no other channel of the
group. -/
def C119_Statement : Prop :=
  ∀ (s : Ses), s.Fits → ∀ (g k k' : Nat) (parent c : Chan), s.chan g k = some parent → s.chan g k' = some c → k' ≠ k →
    ∀ (calls : List MemberCall) (v : SetVal) (valid : Bool) (buf out sd sd' : Bytes), buf.length = (s.layout g).recordSize →
      (s.member g calls).setValue v valid 0 buf sd = some (out, sd') →
      ∀ (i : Nat) (full : Bytes), i < max 1 c.arraySize → c.channelValue full out i = c.channelValue full buf i

/-- A time of 8 bytes and a structure of 4 bytes. -/
def exStruct : Ses :=
  { groups := [[{ newMember with type := .master, dataType := .unsignedLe, bitCount := 64 },
      { newMember with dataType := .byteArray, bitCount := 32, invalidFlag := true }]],
    master := fun _ => none }

theorem exStruct_fits : exStruct.Fits := by
  refine ⟨by decide, ?_⟩
  intro cs hcs
  simp only [exStruct, List.mem_singleton] at hcs
  subst hcs
  refine ⟨by decide, by decide, by decide, by decide⟩

/-- The number 7. -/
def exSeven : NumCasts := ⟨7, 7, 0, 0, [], none⟩

set_option maxRecDepth 4000 in
/-- A member of two bytes without byte offset, set to 7: the time is 7. -/
theorem C119_false : ¬ C119_Statement := by
  intro h
  have hf := h exStruct exStruct_fits 0 1 0 _ _ rfl rfl (by decide) [.dataType .unsignedLe, .dataBytes 2] (.num exSeven) true
    (List.replicate 13 0) ([7, 0, 0, 0, 0, 0, 0, 0, 0, 0, 0, 0, 0]) [] [] (by decide) (by decide) 0 [] (by decide)
  revert hf
  decide

/-! ### Members in their place -/

/-- Setting a part of a channel touches that channel only. -/
theorem FramedBy.part {m p : Chan} {buf out : Bytes} (h : FramedBy m buf out) (hf : m.invalidFlag = false)
    (h1 : p.byteOffset ≤ m.byteOffset) (h2 : m.byteOffset + m.span ≤ p.byteOffset + p.span) : FramedBy p buf out := by
  refine ⟨h.len, fun q hq _ => h.keep q ?_ (fun e => ?_)⟩
  · omega
  · rw [hf] at e; exact absurd e (by decide)

/-- **C119** (partial).  Let the byte offset of a member be set so that the member lies in the bytes of its structure (the offset in the
record, not in the structure: the bytes of the channels before the structure, `C09_layout_contiguous`, come first), on whole bytes, without
validity bit.  Then a number, text or array set on it, of any size, is what the member shows, and every other channel of the group shows the
same value and validity as before.  Missing: members without byte offset, members with validity bits, and members on bits. -/
theorem C119_placed_partial (s : Ses) (fits : s.Fits) (g k : Nat) (parent m : Chan) (hp : s.chan g k = some parent)
    (calls : List MemberCall) (hm : m = s.member g calls)
    (place : parent.byteOffset ≤ m.byteOffset ∧ m.byteOffset + m.dataBytes ≤ parent.byteOffset + parent.span)
    (whole : m.bitOffset = 0) (noFlag : m.invalidFlag = false)
    (kind : (m.Numeric ∧ (m.bitCount = 8 ∨ m.bitCount = 16 ∨ m.bitCount = 32 ∨ m.bitCount = 64) ∧
      (m.dataType = .floatLe ∨ m.dataType = .floatBe → m.bitCount = 32 ∨ m.bitCount = 64)) ∨ m.Sized)
    (v : SetVal) (hv : v.Suits m) (valid : Bool) (buf sd : Bytes) (hl : buf.length = (s.layout g).recordSize) :
    ∃ out sd', m.setValue v valid 0 buf sd = some (out, sd') ∧ out.length = buf.length ∧
      (∀ full, sd' <+: full → full.length < 2 ^ 64 → m.channelValue full out 0 = (true, v.plain m)) ∧
      ∀ (k' : Nat) (c : Chan), s.chan g k' = some c → k' ≠ k → (c.Numeric ∨ c.Sized ∨ c.Unsized) →
        ∀ (i : Nat) (full : Bytes), i < max 1 c.arraySize → c.channelValue full out i = c.channelValue full buf i := by
  obtain ⟨d1, d2, d3, -⟩ := C119_defaults s g calls
  rw [← hm] at d1 d2 d3
  obtain ⟨hr, hnd⟩ := fits.inRecord hp hl
  have hspan : m.span = m.dataBytes := by unfold Chan.span; rw [d2, Nat.max_self, Nat.mul_one]
  have hin : InRecord m buf := by
    refine ⟨whole, ?_, ?_, hr.small, fun e => ?_⟩
    · have := hr.inside; rw [hspan, d3, ← hnd]; omega
    · rw [d3, ← hnd]; exact hr.data
    · rw [noFlag] at e; exact absurd e (by decide)
  have hpr : Promised m 0 buf := by
    refine ⟨hin, by omega, ?_, ?_⟩
    · have h1 := hin.data
      have h2 := hin.small
      unfold Chan.ValidPosOk
      rw [d1]
      omega
    · rcases kind with h | h
      · exact Or.inl h
      · exact Or.inr (Or.inl h)
  have hvl : m.type = .variableLength → valid = true := by
    intro e
    rcases kind with h | h
    · exact absurd e h.1.2.1
    · exact absurd e h.2.2.2.2
  obtain ⟨out, sd', e1, e2⟩ := setValue_own hpr v valid sd hv hvl
  obtain ⟨out2, sd2, f1, f2, -⟩ := setValue_done hin v valid (zero_index m) sd
  rw [e1] at f1
  obtain ⟨rfl, rfl⟩ := Prod.mk.inj (Option.some.inj f1)
  refine ⟨out, sd', e1, f2.len, fun full h1 h2 => ?_, ?_⟩
  · rw [e2 full h1 h2]
    unfold Chan.expected
    simp [noFlag]
  · intro k' c hc hne hk i full hi
    have hpc := fits.promised hc hl hk hi
    have hfp := f2.part noFlag place.1 (by rw [hspan]; exact place.2)
    obtain ⟨_, hndc⟩ := fits.inRecord hc hl
    refine channelValue_congr hpc (hfp.same hpc hr (by rw [hnd, hndc]) ?_) full
    exact (fits.before hp hc hne).elim (fun h => Or.inr h) (fun h => Or.inl h)

/-- Non-vacuity: a member at byte 10, in the structure at bytes 8 to 11. -/
example : let m := exStruct.member 0 [.dataType .unsignedLe, .dataBytes 2, .byteOffset 10]
    ∃ parent, exStruct.chan 0 1 = some parent ∧ parent.byteOffset ≤ m.byteOffset ∧
      m.byteOffset + m.dataBytes ≤ parent.byteOffset + parent.span ∧ m.bitOffset = 0 ∧ m.invalidFlag = false ∧ m.bitCount = 16 ∧
      (SetVal.num exSeven).Suits m ∧ m.setValue (.num exSeven) true 0 (List.replicate 13 0) [] =
        some ([0, 0, 0, 0, 0, 0, 0, 0, 0, 0, 7, 0, 0], []) := by
  refine ⟨_, rfl, by decide, by decide, by decide, by decide, by decide, ?_, by decide⟩
  show (7 : Nat) < 2 ^ 16
  decide

/-! ### Members without a place -/

/-- The value a number channel shows depends on its place, size and type only. -/
theorem channelValue_same_place {a m : Chan} (sd record : Bytes) (hd : a.dataType = m.dataType) (ho : a.byteOffset = m.byteOffset)
    (hb : a.bitOffset = m.bitOffset) (hc : a.bitCount = m.bitCount) (ha : a.Numeric) (hm : m.Numeric) :
    (a.channelValue sd record 0).2 = (m.channelValue sd record 0).2 := by
  have hpos : a.bitPos 0 = m.bitPos 0 := by unfold Chan.bitPos; rw [ho, hb, hc]
  have hrc : a.rangeCheck 0 = m.rangeCheck 0 := by unfold Chan.rangeCheck; rw [hpos, hc]
  have h1 : a.getUnsigned record 0 = m.getUnsigned record 0 := by
    unfold Chan.getUnsigned; rw [hrc, hpos, hc, hd, if_neg ha.2.1, if_neg hm.2.1]
  have h2 : a.getSigned record 0 = m.getSigned record 0 := by unfold Chan.getSigned; rw [hrc, hpos, hc, hd]
  have h3 : a.getFloatBits record 0 = m.getFloatBits record 0 := by unfold Chan.getFloatBits; rw [hrc, hpos, hc, hd]
  have key : ∀ {α : Type} (r : Res α) (x y : Bool) (f : α → ChanVal) (i : ChanVal), (r.shown x f i).2 = (r.shown y f i).2 := by
    intro α r x y f i
    cases r <;> rfl
  unfold Chan.channelValue
  rw [hd, h1, h2, h3]
  rcases hm.1 with e | e | e | e | e | e <;> simp only [e] <;> exact key ..

/-- **C119** (a member without byte offset is the first channel).  Set a number on a member whose byte offset was not set: the first channel
of the group, if of the same type and size, then shows that number instead of its own value. -/
theorem C119_overwrites_first (s : Ses) (fits : s.Fits) (g : Nat) (a m : Chan) (ha : s.chan g 0 = some a) (calls : List MemberCall)
    (hm : m = s.member g calls) (noPlace : ∀ n, .byteOffset n ∉ calls) (noBits : m.bitOffset = 0) (noFlag : m.invalidFlag = false)
    (hd : a.dataType = m.dataType) (hc : a.bitCount = m.bitCount) (na : a.Numeric) (nm : m.Numeric)
    (x : NumCasts) (hx : (SetVal.num x).Suits m) (valid : Bool) (buf sd : Bytes) (hl : buf.length = (s.layout g).recordSize) :
    ∃ out, m.setValue (.num x) valid 0 buf sd = some (out, sd) ∧
      ∀ full, (a.channelValue full out 0).2 = (SetVal.num x).plain m := by
  obtain ⟨d1, d2, d3, d4⟩ := C119_defaults s g calls
  rw [← hm] at d1 d2 d3 d4
  have hoff := d4 noPlace
  have hpa := fits.promised ha hl (Or.inl na) (zero_index a)
  obtain ⟨hr, hnd⟩ := fits.inRecord ha hl
  obtain ⟨cs, h1, h2, h3, h4⟩ := Ses.layout_of ha
  have ha0 : a.byteOffset = 0 := by
    have hres : (prepareGroup cs).result[0]? = some a := by
      have := ha
      unfold Ses.chan at this
      rwa [h3] at this
    have := (C09_layout_contiguous cs (fits.layout cs h1).1 0 a hres).1
    simpa using this
  have hdb : m.dataBytes = a.dataBytes := by unfold Chan.dataBytes; rw [hc]
  have hsz := hpa.kind.resolve_right (by
    rintro (h | h)
    · have h5 := h.1; have h6 := na.1; rcases h5 with e | e | e | e | e <;> rw [e] at h6 <;> simp at h6
    · have h5 := h.1; have h6 := na.1; rcases h5 with e | e | e | e | e <;> rw [e] at h6 <;> simp at h6)
  have hspan : m.span = m.dataBytes := by unfold Chan.span; rw [d2, Nat.max_self, Nat.mul_one]
  have hin : InRecord m buf := by
    refine ⟨noBits, ?_, ?_, hr.small, fun e => ?_⟩
    · have h5 := hr.inside
      have h6 := span_of_index a (zero_index a)
      rw [hspan, d3, ← hnd, hoff, hdb]; omega
    · rw [d3, ← hnd]; exact hr.data
    · rw [noFlag] at e; exact absurd e (by decide)
  have hpr : Promised m 0 buf := by
    refine ⟨hin, by omega, ?_, Or.inl ⟨nm, by rw [← hc]; exact hsz.2.1, by rw [← hc, ← hd]; exact hsz.2.2⟩⟩
    have h5 := hin.data
    have h6 := hin.small
    unfold Chan.ValidPosOk
    rw [d1]
    omega
  obtain ⟨out, e1, -, e3⟩ := setNumber_own hpr nm (by rw [← hc]; exact hsz.2.1) (by rw [← hc, ← hd]; exact hsz.2.2) x valid sd hx
  refine ⟨out, e1, fun full => ?_⟩
  rw [channelValue_same_place full out hd (by rw [ha0, hoff]) (by rw [hr.bit0, noBits]) hc na nm, e3 full]
  rfl

set_option maxRecDepth 4000 in
/-- Non-vacuity: a member of the size of the time. -/
example : ∃ a, exStruct.chan 0 0 = some a ∧ (let m := exStruct.member 0 [.dataBytes 8]
    a.dataType = m.dataType ∧ a.bitCount = m.bitCount ∧ m.bitOffset = 0 ∧ m.invalidFlag = false ∧
    (a.channelValue [] [7, 0, 0, 0, 0, 0, 0, 0, 0, 0, 0, 0, 0] 0).2 = (SetVal.num exSeven).plain m) :=
  ⟨_, rfl, by decide, by decide, by decide, by decide, by decide⟩

/-- **C119** (members share).  Two members of numbers of the same type and size whose byte offsets were not set are the same bytes: both show
the same value in every record. -/
theorem C119_members_share (s : Ses) (g : Nat) (c1 c2 : List MemberCall) (m1 m2 : Chan) (h1 : m1 = s.member g c1)
    (h2 : m2 = s.member g c2) (n1 : ∀ n, .byteOffset n ∉ c1) (n2 : ∀ n, .byteOffset n ∉ c2) (b1 : m1.bitOffset = 0)
    (b2 : m2.bitOffset = 0) (hd : m1.dataType = m2.dataType) (hc : m1.bitCount = m2.bitCount) (k1 : m1.Numeric) (k2 : m2.Numeric)
    (sd record : Bytes) :
    (m1.channelValue sd record 0).2 = (m2.channelValue sd record 0).2 := by
  obtain ⟨_, _, _, e1⟩ := C119_defaults s g c1
  obtain ⟨_, _, _, e2⟩ := C119_defaults s g c2
  rw [← h1] at e1
  rw [← h2] at e2
  exact channelValue_same_place sd record hd (by rw [e1 n1, e2 n2]) (by rw [b1, b2]) hc k1 k2

/-- Non-vacuity: two members that differ in their flags only. -/
example : let m1 := exStruct.member 0 [.dataBytes 2]; let m2 := exStruct.member 0 [.invalidFlag true, .dataType .unsignedLe, .dataBytes 2]
    m1 ≠ m2 ∧ m1.dataType = m2.dataType ∧ m1.bitCount = m2.bitCount ∧
    (m1.channelValue [] [7, 1, 0, 0, 0, 0, 0, 0, 0, 0, 0, 0, 0] 0).2 = .num 263 := by decide

/-! ### Validity of members -/

/-- **C119** (no validity bytes).  If no channel of the group has validity bits, those of its members are not stored: setting a member invalid
changes nothing, and the member is always valid, although its flag is set. -/
theorem C119_validity_lost (s : Ses) (fits : s.Fits) (g : Nat) (cs : List Chan) (hg : s.groups[g]? = some cs)
    (none : (s.layout g).nofInvalidBytes = 0) (calls : List MemberCall) (valid : Bool) (buf : Bytes)
    (hl : buf.length = (s.layout g).recordSize) :
    (s.member g calls).setValid valid 0 buf = buf ∧ (s.member g calls).getValid buf 0 = true := by
  obtain ⟨d1, d2, d3, -⟩ := C119_defaults s g calls
  have hlay : s.layout g = prepareGroup cs := by
    unfold Ses.layout; rw [List.getD_eq_getElem?_getD, hg]; rfl
  obtain ⟨f1, f2, f3, f4⟩ := fits.layout cs (List.mem_of_getElem? hg)
  obtain ⟨_, _, _, _, hrs⟩ := C09_layout_disjoint cs f1
  rw [← hlay] at hrs f3
  rw [none] at hrs
  have hnone : buf[(s.member g calls).nofDataBytes]? = Option.none := by
    rw [List.getElem?_eq_none]
    rw [d3, hl]; omega
  have e0 : ((0 : Nat) + 0 % 2 ^ 32) % 2 ^ 32 / 8 = 0 := by decide
  have e1 : ((0 : Nat) + 0) % 2 ^ 64 / 8 = 0 := by decide
  have hmod : ((s.member g calls).nofDataBytes + 0) % 2 ^ 32 = (s.member g calls).nofDataBytes := by rw [d3]; omega
  have hmod2 : ((s.member g calls).nofDataBytes + 0) % 2 ^ 64 = (s.member g calls).nofDataBytes := by rw [d3]; omega
  constructor
  · unfold Chan.setValid
    split
    · simp only [d1, e0, hmod, hnone]
    · rfl
  · unfold Chan.getValid
    split
    · simp only [d1, e1, hmod2, hnone]
    · rfl

/-- A group without validity bits. -/
def exMemberPlain : Ses := { exStruct with groups := [[{ newMember with dataType := .byteArray, bitCount := 32 }]] }

/-- Non-vacuity: a flagged member of it. -/
example : (exMemberPlain.layout 0).nofInvalidBytes = 0 ∧ (exMemberPlain.member 0 [.invalidFlag true]).invalidFlag = true ∧
    (exMemberPlain.member 0 [.invalidFlag true, .dataBytes 1]).setValue (.num exSeven) false 0 [0, 0, 0, 0] [] = some ([7, 0, 0, 0], []) := by
  decide

/-- **C119** (validity shared).  A member with validity bit shares it with the first channel of the group that has one: making the member
invalid or valid makes that channel invalid or valid. -/
theorem C119_validity_shared (s : Ses) (fits : s.Fits) (g k : Nat) (cs : List Chan) (hg : s.groups[g]? = some cs) (c : Chan)
    (hc : s.chan g k = some c) (hf : c.invalidFlag = true) (first : ∀ d ∈ cs.take k, (d.prepare 0).invalidFlag = false)
    (calls : List MemberCall) (hm : (s.member g calls).invalidFlag = true) (valid : Bool) (buf : Bytes)
    (hl : buf.length = (s.layout g).recordSize) :
    c.getValid ((s.member g calls).setValid valid 0 buf) 0 = valid ∧
    (s.member g calls).getValid (c.setValid valid 0 buf) 0 = valid := by
  obtain ⟨d1, d2, d3, -⟩ := C119_defaults s g calls
  have hlay : s.layout g = prepareGroup cs := by
    unfold Ses.layout; rw [List.getD_eq_getElem?_getD, hg]; rfl
  obtain ⟨hr, hnd⟩ := fits.inRecord hc hl
  have hres : (prepareGroup cs).result[k]? = some c := by
    have := hc
    unfold Ses.chan at this
    rwa [hlay] at this
  have hpos := (C09_layout_contiguous cs (fits.layout cs (List.mem_of_getElem? hg)).1 k c hres).2 hf
  have hsum : ∀ l : List Chan, (∀ d ∈ l, (d.prepare 0).invalidFlag = false) → (l.map fun c => (c.prepare 0).validBits).sum = 0 := by
    intro l
    induction l with
    | nil => intro _; rfl
    | cons d l ih =>
      intro h
      rw [List.map_cons, List.sum_cons, ih (fun e he => h e (List.mem_cons_of_mem _ he))]
      have := h d List.mem_cons_self
      unfold Chan.validBits
      rw [this]
      rfl
  rw [hsum _ first] at hpos
  obtain ⟨v1, v2, -, -⟩ := hr.validPos hf (zero_index c)
  have hvp : (s.member g calls).validPos 0 = c.validPos 0 := by
    unfold Chan.validPos
    rw [d1, d3, hpos, hnd]
  have hok : (s.member g calls).ValidPosOk 0 := by
    unfold Chan.ValidPosOk at v1 ⊢
    rw [d1, d3, ← hnd]
    exact ⟨by omega, v1.2⟩
  constructor
  · rw [getValid_eq c 0 _ v1, bitAt_setValid _ valid 0 buf hok, if_pos ⟨hm, by rw [hvp]; exact v2, hvp.symm⟩, hf]
    simp
  · rw [getValid_eq _ 0 _ hok, bitAt_setValid c valid 0 buf v1, if_pos ⟨hf, v2, hvp⟩, hm]
    simp

/-- Non-vacuity: the structure is invalid because a member is. -/
example : ∃ c, exStruct.chan 0 1 = some c ∧ c.invalidFlag = true ∧
    (∀ d ∈ (exStruct.groups.getD 0 []).take 1, (d.prepare 0).invalidFlag = false) ∧
    (exStruct.member 0 [.dataBytes 1, .byteOffset 9, .invalidFlag true]).setValue (.num exSeven) false 0 (List.replicate 13 0) [] =
      some ([0, 0, 0, 0, 0, 0, 0, 0, 0, 7, 0, 0, 1], []) ∧
    c.getValid [0, 0, 0, 0, 0, 0, 0, 0, 0, 7, 0, 0, 1] 0 = false := ⟨_, rfl, by decide, by decide, by decide, by decide⟩

/-! ### Members on bits -/

/-- **C119** (bits).  Setting a number on a member of a few bits replaces the whole byte by the low byte of the number, not moved to the bit
offset; what the member then shows are the bits of the number from the bit offset on. -/
theorem C119_bits (m : Chan) (hd : m.dataType = .unsignedLe) (noFlag : m.invalidFlag = false)
    (hb : 0 < m.bitCount ∧ m.bitOffset + m.bitCount ≤ 8) (buf : Bytes) (hin : m.byteOffset < buf.length)
    (small : buf.length ≤ 2 ^ 28) (value : BitVec 64) (valid : Bool) :
    m.setUnsignedLe value valid 0 buf = some (buf.set m.byteOffset (BitVec.ofNat 8 value.toNat)) ∧
    m.getUnsigned (buf.set m.byteOffset (BitVec.ofNat 8 value.toNat)) 0 =
      .ok (BitVec.ofNat 64 (value.toNat % 256 / 2 ^ m.bitOffset % 2 ^ m.bitCount)) := by
  have hdb : m.dataBytes = 1 := by unfold Chan.dataBytes; split <;> omega
  have hne : buf ≠ [] := by rintro rfl; simp at hin
  have hw : wrBytes buf m.byteOffset [BitVec.ofNat 8 value.toNat] = some (buf.set m.byteOffset (BitVec.ofNat 8 value.toNat)) := by
    unfold wrBytes
    rw [if_pos (by simp only [List.length_singleton]; omega)]
    congr 1
    rw [List.set_eq_take_append_cons_drop, if_pos hin]
    simp
  constructor
  · unfold Chan.setUnsignedLe Chan.setInt
    rw [if_neg hne]
    dsimp only
    rw [hdb, if_neg (by omega), (C08_no_flag m valid 0 buf noFlag).2]
    have e : (m.byteOffset + 1 * 0 % 2 ^ 64) % 2 ^ 64 = m.byteOffset := by omega
    rw [e]
    have e2 : intBytes .le 1 value = some [BitVec.ofNat 8 value.toNat] := rfl
    rw [e2]
    exact hw
  · generalize hout : buf.set m.byteOffset (BitVec.ofNat 8 value.toNat) = out
    have hlen : out.length = buf.length := by rw [← hout, List.length_set]
    have hpos : m.pos 0 = 8 * m.byteOffset + m.bitOffset := by unfold Chan.pos; omega
    rw [(C05_get_unsigned_le m out 0 hd (by omega) (by rw [hpos]; omega) (by omega)).1 (by unfold Chan.Inside; rw [hpos]; omega), hpos]
    congr 2
    unfold fieldLe
    have hs := leNat_slice out m.byteOffset 1 (by omega)
    have hone : (out.drop m.byteOffset).take 1 = [BitVec.ofNat 8 value.toNat] := by
      rw [List.take_one, List.head?_drop, ← hout, List.getElem?_set_self hin]
      rfl
    rw [hone] at hs
    have hv : leNat [BitVec.ofNat 8 value.toNat] = value.toNat % 256 := by
      unfold leNat leNat
      rw [BitVec.toNat_ofNat]
      omega
    rw [hv] at hs
    rw [Nat.pow_add, ← Nat.div_div_eq_div_mul, ← hs]
    apply Nat.eq_of_testBit_eq
    intro i
    simp only [Nat.testBit_mod_two_pow, Nat.testBit_div_two_pow]
    by_cases hi : i < m.bitCount
    · have : m.bitOffset + i < 8 * 1 := by omega
      simp [hi] <;> omega
    · simp [hi]

/-- **C119** (bits lost).  A number that fits the bits of a member behind a bit offset of at least as many bits is lost: the member shows zero
whatever is set; and all other members in the byte change. -/
theorem C119_bits_lost (m : Chan) (hd : m.dataType = .unsignedLe) (noFlag : m.invalidFlag = false)
    (hb : 0 < m.bitCount ∧ m.bitOffset + m.bitCount ≤ 8) (buf : Bytes) (hin : m.byteOffset < buf.length)
    (small : buf.length ≤ 2 ^ 28) (value : BitVec 64) (fitsBits : value.toNat < 2 ^ m.bitCount) (far : m.bitCount ≤ m.bitOffset)
    (valid : Bool) : ∃ out, m.setUnsignedLe value valid 0 buf = some out ∧ m.getUnsigned out 0 = .ok 0#64 ∧
      out[m.byteOffset]? = some (BitVec.ofNat 8 value.toNat) := by
  obtain ⟨h1, h2⟩ := C119_bits m hd noFlag hb buf hin small value valid
  refine ⟨_, h1, ?_, List.getElem?_set_self hin⟩
  rw [h2]
  have h3 : (2 : Nat) ^ m.bitCount ≤ 2 ^ m.bitOffset := Nat.pow_le_pow_right (by omega) far
  have h4 : value.toNat % 256 ≤ value.toNat := Nat.mod_le ..
  rw [Nat.div_eq_of_lt (by omega)]
  simp

/-- **C119** (bits kept).  At bit offset zero the number is kept (but the rest of the byte is not). -/
theorem C119_bits_first (m : Chan) (hd : m.dataType = .unsignedLe) (noFlag : m.invalidFlag = false)
    (hb : 0 < m.bitCount ∧ m.bitCount ≤ 8) (h0 : m.bitOffset = 0) (buf : Bytes) (hin : m.byteOffset < buf.length)
    (small : buf.length ≤ 2 ^ 28) (value : BitVec 64) (fitsBits : value.toNat < 2 ^ m.bitCount) (valid : Bool) :
    ∃ out, m.setUnsignedLe value valid 0 buf = some out ∧ m.getUnsigned out 0 = .ok value := by
  obtain ⟨h1, h2⟩ := C119_bits m hd noFlag (by omega) buf hin small value valid
  refine ⟨_, h1, ?_⟩
  rw [h2, h0]
  have h3 : (2 : Nat) ^ m.bitCount ≤ 2 ^ 8 := Nat.pow_le_pow_right (by omega) hb.2
  have e : value.toNat % 256 = value.toNat := Nat.mod_eq_of_lt (by omega)
  rw [e, Nat.pow_zero, Nat.div_one, Nat.mod_eq_of_lt fitsBits]
  simp

/-- Non-vacuity: a flag at bit 3 of byte 9, beside one at bit 0. -/
example : let m := exStruct.member 0 [.bitCount 1, .byteOffset 9, .bitOffset 3]
    let m0 := exStruct.member 0 [.bitCount 1, .byteOffset 9]
    m.dataType = .unsignedLe ∧ m.invalidFlag = false ∧ m.bitOffset = 3 ∧ m.bitCount = 1 ∧ m0.bitOffset = 0 ∧
    m.setUnsignedLe 1 true 0 (List.replicate 13 0) = some [0, 0, 0, 0, 0, 0, 0, 0, 0, 1, 0, 0, 0] ∧
    m.getUnsigned [0, 0, 0, 0, 0, 0, 0, 0, 0, 1, 0, 0, 0] 0 = .ok 0 ∧
    m0.getUnsigned [0, 0, 0, 0, 0, 0, 0, 0, 0, 1, 0, 0, 0] 0 = .ok 1 := by decide

end Mdf
