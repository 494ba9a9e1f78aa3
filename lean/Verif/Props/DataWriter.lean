import Verif.Proof.DataWriter

/-!
# Property C85: records made by the bulk data writer

Specification vocabulary: `Verif.Spec.DataWriter` (`dwGiven`, `Chan.dwExpected`, `DwCalls`) and `Verif.Spec.Session`.
-/

namespace Mdf

/-- The writer of a group after `InitMeasurement`, whose sample buffer holds `buffer`. -/
def Ses.dataWriter (s : Ses) (g : Nat) (buffer : Bytes) : DataWriter := DataWriter.create (s.id g) buffer (s.layout g).result

/-- C85.  Whatever calls are made (with the layouts of the writer, in any order and number): nothing is written outside the buffer, the
record has the id and the size of the records of the group, and a channel shows the value last set since the last `Reset` or raw record,
with the validity of that record, or else what that record shows.  Setting a channel changes no other channel and, of an array, the first
element only.

Needed (see the negations below): a value set on this channel has the size of the channel. -/
theorem C85_values_partial {s : Ses} (hf : s.Fits) {g k : Nat} {c : Chan} (hc : s.chan g k = some c) (hk : c.Numeric ∨ c.Sized)
    {buffer : Bytes} (hl : buffer.length = (s.layout g).recordSize) {calls : List DwCall} (hcalls : DwCalls s g calls)
    (hsuits : ∀ l v, .set l v ∈ calls → l.index = k → c.Numeric ∧ v.Typed ∧ v.Suits c ∧ v.size = c.dataBytes) :
    ∃ w, (s.dataWriter g buffer).run calls = some w ∧ ∀ now,
      (w.commit now).id = s.id g ∧ (w.commit now).time = now ∧ (w.commit now).data.length = (s.layout g).recordSize ∧
      c.channelValue [] (w.commit now).data 0 = c.dwExpected (dwGiven (s.layout g).recordSize k (buffer, none) calls) ∧
      ∀ i, 0 < i → i < c.arraySize →
        c.channelValue [] (w.commit now).data i = c.channelValue [] (dwGiven (s.layout g).recordSize k (buffer, none) calls).1 i := by
  obtain ⟨w, h1, h2, h3⟩ := dw_run hf hc hk calls (w := s.dataWriter g buffer) hcalls
    (fun l v hm hi => ⟨(hsuits l v hm hi).1, (hsuits l v hm hi).2.2.2⟩) (DwHolds.start c hl)
  change DwHolds c _ _ (dwGiven (s.layout g).recordSize k (buffer, none) calls) at h3
  refine ⟨w, h1, fun now => ⟨h2, rfl, h3.len, ?_, ?_⟩⟩
  · show c.channelValue [] w.buffer 0 = _
    have hset : ∀ (calls : List DwCall) (cur : Bytes × Option CppVal) v, (dwGiven (s.layout g).recordSize k cur calls).2 = some v →
        cur.2 = some v ∨ ∃ l, .set l v ∈ calls ∧ l.index = k := by
      intro calls
      induction calls with
      | nil => intro cur v h; exact Or.inl h
      | cons a calls ih =>
        intro cur v h
        cases a with
        | reset =>
          rcases ih _ v h with h | ⟨l, h, hi⟩
          · cases h
          · exact Or.inr ⟨l, List.mem_cons_of_mem _ h, hi⟩
        | set l u =>
          rw [dwGiven] at h
          rcases ih _ v h with h | ⟨l, h, hi⟩
          · split at h
            · rename_i hi
              simp only [Option.some.injEq] at h
              subst h
              exact Or.inr ⟨l, List.mem_cons_self, hi⟩
            · exact Or.inl h
          · exact Or.inr ⟨l, List.mem_cons_of_mem _ h, hi⟩
        | raw r n =>
          rw [dwGiven.eq_def] at h
          cases r with
          | none =>
            rcases ih _ v h with h | ⟨l, h, hi⟩
            · exact Or.inl h
            · exact Or.inr ⟨l, List.mem_cons_of_mem _ h, hi⟩
          | some r =>
            rcases ih _ v h with h | ⟨l, h, hi⟩
            · split at h
              · cases h
              · exact Or.inl h
            · exact Or.inr ⟨l, List.mem_cons_of_mem _ h, hi⟩
    have hpr := hf.promised hc h3.len (hk.elim Or.inl fun h => Or.inr (Or.inl h)) (i := 0) (by omega)
    generalize hcur : dwGiven (s.layout g).recordSize k (buffer, none) calls = cur at *
    obtain ⟨r, o⟩ := cur
    cases o with
    | none =>
      have hpr' := hf.promised hc h3.base (hk.elim Or.inl fun h => Or.inr (Or.inl h)) (i := 0) (by omega)
      exact channelValue_congr hpr' (h3.same 0 (by omega) hpr.vp (Or.inl rfl)) []
    | some v =>
      rcases hset calls (buffer, none) v (by rw [hcur]) with h | ⟨l, hm, hi⟩
      · cases h
      obtain ⟨hn, ht, hs, hv⟩ := hsuits l v hm hi
      obtain ⟨⟨o, ho, hb⟩, hval⟩ := h3.own v rfl
      rw [channelValue_bytes hpr hn ho ht hs hv hb, hval hpr.vp]
      rfl
  · intro i h0 hi
    have hpr := hf.promised hc h3.base (hk.elim Or.inl fun h => Or.inr (Or.inl h)) (i := i) (by omega)
    exact channelValue_congr hpr (h3.same i (by omega) hpr.vp (Or.inr (by omega))) []

/-- C85.  As it is used: the record is cleared, then each of some channels is set.  A channel that was set shows the last value, as valid;
a channel that was not set shows zero. -/
theorem C85_after_reset_partial {s : Ses} (hf : s.Fits) {g k : Nat} {c : Chan} (hc : s.chan g k = some c) (hn : c.Numeric)
    {buffer : Bytes} (hl : buffer.length = (s.layout g).recordSize) {sets : List (DwLayout × CppVal)}
    (hcalls : ∀ x ∈ sets, x.1 ∈ (s.dataWriter g buffer).layouts)
    (hsuits : ∀ x ∈ sets, x.1.index = k → x.2.Typed ∧ x.2.Suits c ∧ x.2.size = c.dataBytes) :
    ∃ w, (s.dataWriter g buffer).run (.reset :: sets.map fun x => .set x.1 x.2) = some w ∧
      c.channelValue [] w.buffer 0 =
        match (sets.filter fun x => decide (x.1.index = k)).getLast? with
        | some x => (true, x.2.plain c)
        | none => (true, c.unset) := by
  have hmem : ∀ l v, DwCall.set l v ∈ DwCall.reset :: sets.map (fun x => .set x.1 x.2) → (l, v) ∈ sets := by
    intro l v h
    rcases List.mem_cons.1 h with h | h
    · cases h
    · obtain ⟨x, hx, he⟩ := List.mem_map.1 h
      cases he
      exact hx
  have hc' : DwCalls s g (.reset :: sets.map fun x => .set x.1 x.2) := by
    refine ⟨fun l v h => hcalls _ (hmem l v h), fun r n h => ?_⟩
    rcases List.mem_cons.1 h with h | h
    · cases h
    · obtain ⟨x, hx, he⟩ := List.mem_map.1 h
      cases he
  obtain ⟨w, h1, h2⟩ := C85_values_partial hf hc (Or.inl hn) hl hc' fun l v h hi => ⟨hn, hsuits _ (hmem l v h) hi⟩
  refine ⟨w, h1, ((h2 0).2.2.2.1).trans ?_⟩
  rw [dwGiven]
  have hgiven : ∀ (sets : List (DwLayout × CppVal)) (cur : Bytes × Option CppVal),
      dwGiven (s.layout g).recordSize k cur (sets.map fun x => .set x.1 x.2) =
        (cur.1, match (sets.filter fun x => decide (x.1.index = k)).getLast? with
          | some x => some x.2
          | none => cur.2) := by
    intro sets
    induction sets with
    | nil => intro cur; rfl
    | cons x sets ih =>
      intro cur
      rw [List.map_cons, dwGiven, ih]
      by_cases hx : x.1.index = k
      · rw [List.filter_cons_of_pos (by simpa using hx), if_pos hx, List.getLast?_cons]
        cases (sets.filter fun x => decide (x.1.index = k)).getLast? <;> rfl
      · rw [List.filter_cons_of_neg (by simpa using hx), if_neg hx]
  rw [hgiven]
  have hz : (List.replicate (s.layout g).recordSize (0 : Byte)).length = (s.layout g).recordSize := List.length_replicate
  have hpr := hf.promised hc hz (Or.inl hn) (i := 0) (by omega)
  cases (sets.filter fun x => decide (x.1.index = k)).getLast? with
  | none => exact channelValue_unset hpr hn.2.1 []
  | some x =>
    show (c.getValid _ 0, _) = (true, _)
    rw [getValid_eq c 0 _ hpr.vp, bitAt_zeros]
    simp

/-- C85.  There is one layout for each channel that is no master, in the order of the channels, with the place of the channel. -/
theorem C85_layouts (s : Ses) (g : Nat) (buffer : Bytes) :
    (∀ l, l ∈ (s.dataWriter g buffer).layouts ↔ ∃ k c, s.chan g k = some c ∧ c.type ≠ .master ∧
      l = ⟨k, c.byteOffset, c.dataBytes, c.dataType⟩) ∧
    ((s.dataWriter g buffer).layouts.map (·.index)).Pairwise (· < ·) := by
  constructor
  · intro l
    constructor
    · intro h
      obtain ⟨k, c, h1, h2, h3⟩ := dwLayouts_mem _ 0 h
      rw [Nat.zero_add] at h2
      exact ⟨k, c, h1, h3, h2⟩
    · rintro ⟨k, c, h1, h2, rfl⟩
      have := mem_dwLayouts _ 0 (k := k) h1 h2
      rw [Nat.zero_add] at this
      exact this
  · show ((dwLayouts 0 (s.layout g).result).map (·.index)).Pairwise (· < ·)
    generalize 0 = j
    induction (s.layout g).result generalizing j with
    | nil => exact List.Pairwise.nil
    | cons c cs ih =>
      rw [dwLayouts]
      split
      · exact ih (j + 1)
      · rw [List.map_cons, List.pairwise_cons]
        refine ⟨?_, ih (j + 1)⟩
        intro n hn
        obtain ⟨l, hl, rfl⟩ := List.mem_map.1 hn
        obtain ⟨k, d, _, h2, _⟩ := dwLayouts_mem _ _ hl
        rw [h2]
        show j < j + 1 + k
        omega

/-- C85.  Whatever layout is given to `SetValue`, also one made by the application or of another group: no byte outside the buffer is
touched, and the buffer keeps its size. -/
theorem C85_any_layout (buffer : Bytes) (l : DwLayout) (v : CppVal) :
    ∃ out, dwSet buffer l v = some out ∧ out.length = buffer.length ∧
      ∀ j, j < l.byteOffset ∨ l.byteOffset + v.size ≤ j → out[j]? = buffer[j]? := by
  rw [dwSet_eq]
  by_cases h1 : l.dataBytes ≠ v.size
  · exact ⟨buffer, by rw [if_pos h1], rfl, fun _ _ => rfl⟩
  rw [if_neg h1]
  replace h1 : l.dataBytes = v.size := Decidable.not_not.1 h1
  by_cases h2 : l.byteOffset + l.dataBytes > buffer.length
  · exact ⟨buffer, by rw [if_pos h2], rfl, fun _ _ => rfl⟩
  rw [if_neg h2]
  cases numOrder l.dataType with
  | none => exact ⟨buffer, rfl, rfl, fun _ _ => rfl⟩
  | some o =>
    have hw := wrBytes_eq_some (buf := buffer) (off := l.byteOffset) (data := orderBytes o v.size v.nat)
      (by rw [orderBytes_length]; omega)
    refine ⟨_, hw, wrBytes_length hw, fun j hj => ?_⟩
    rw [wrBytes_getElem? hw, orderBytes_length, if_neg (by omega)]

/-- C85.  A raw record is taken if and only if it has the size of the record (and is no null pointer, unless the record is empty). -/
theorem C85_raw (buffer : Bytes) :
    (∀ r : Bytes, dwRaw buffer (some r) r.length = if r.length = buffer.length then some (true, r) else some (false, buffer)) ∧
    (∀ n, dwRaw buffer none n = some (decide (n = 0 ∧ buffer = []), buffer)) := by
  constructor
  · intro r
    unfold dwRaw
    by_cases h : r.length = buffer.length
    · rw [if_pos h, if_neg (fun x => x h)]
      by_cases h0 : r.length = 0
      · rw [if_pos h0]
        have e1 : r = [] := List.length_eq_zero_iff.1 h0
        have e2 : buffer = [] := List.length_eq_zero_iff.1 (by omega)
        rw [e1, e2]
      · rw [if_neg h0]
        simp only [Nat.lt_irrefl, if_false, List.take_length]
    · rw [if_neg h, if_pos h]
  · intro n
    unfold dwRaw
    by_cases h : n = buffer.length
    · rw [if_neg (fun x => x h)]
      by_cases h0 : n = 0
      · have e : buffer = [] := List.length_eq_zero_iff.1 (by omega)
        rw [if_pos h0]
        simp [h0, e]
      · rw [if_neg h0]
        simp [h0]
    · rw [if_pos h]
      have : ¬ (n = 0 ∧ buffer = []) := by
        rintro ⟨rfl, rfl⟩
        exact h rfl
      simp [this]

/-- C85.  A record of the right size can be added as a sample at any time: it gets the time of the sample, keeps its size, and
all channels but the master show what they showed. -/
theorem C85_added {s : Ses} (hf : s.Fits) {g : Nat} (t time : Nat) {smp : Sample} (hid : smp.id = s.id g)
    (hl : smp.data.length = (s.layout g).recordSize) :
    ∃ out, s.addSample t smp time = some out ∧ out.id = smp.id ∧ out.time = time ∧ out.data.length = smp.data.length ∧
      ∀ k c, s.chan g k = some c → (c.Numeric ∨ c.Sized) → (∀ tk, s.master g ≠ some (k, tk)) → ∀ i, i < max 1 c.arraySize →
        c.channelValue [] out.data i = c.channelValue [] smp.data i := by
  have key : s.addSample t smp time =
      some { smp with time := time, data := s.render { smp with time := time, stamp := some t } } := by
    have hg : smp.id - s.base = g := by rw [hid]; unfold Ses.id; omega
    unfold Ses.addSample Ses.render
    simp only
    rw [hg]
    cases hm : s.master g with
    | none => rfl
    | some m =>
      simp only
      cases hc : s.chan g m.1 with
      | none => rfl
      | some c =>
        simp only
        cases ht : c.timestampBytes m.2 (subTime time t) with
        | none => rfl
        | some data =>
          simp only
          have hlen := timestampBytes_length ht
          obtain ⟨hr, -⟩ := hf.inRecord hc hl
          have := bytes_le_span c
          have := hr.inside
          have := hr.data
          rw [wrBytes_eq_some (by omega)]
          rfl
  have hlen := render_length hf (g := g) { smp with time := time, stamp := some t } hid hl
  refine ⟨_, key, rfl, rfl, hlen, ?_⟩
  intro k c hc hk hm i hi
  exact render_shows hf hc (hk.elim Or.inl fun h => Or.inr (Or.inl h)) hi hm { smp with time := time, stamp := some t } hid hl []

/-! ### Examples and what does not hold -/

/-- A group with a master, a big endian number of 16 bits in an array of two with validity bits, a text, a double and an integer of 64
bits. -/
def exDw : Ses :=
  { groups :=
      [[⟨.master, .floatLe, 0, 0, 64, false, 0, 0, 1⟩, ⟨.fixedLength, .unsignedBe, 0, 0, 16, true, 0, 0, 2⟩,
        ⟨.fixedLength, .stringUtf8, 0, 0, 16, false, 0, 0, 1⟩, ⟨.fixedLength, .floatLe, 0, 0, 32, false, 0, 0, 1⟩,
        ⟨.fixedLength, .signedLe, 0, 0, 64, false, 0, 0, 1⟩]],
    master := fun _ => some (0, ⟨fun t => BitVec.ofInt 64 t, fun t => BitVec.ofInt 64 t, fun _ => 0, fun t => BitVec.ofInt 64 t⟩) }

theorem exDw_fits : exDw.Fits := by
  refine ⟨by decide, ?_⟩
  intro cs h
  simp only [exDw, List.mem_cons, List.not_mem_nil, or_false] at h
  subst h
  decide

/-- The writer after `InitMeasurement`. -/
def exDwWriter : DataWriter := exDw.dataWriter 0 (List.replicate 27 0)

example : exDwWriter.buffer.length = (exDw.layout 0).recordSize ∧ exDwWriter.layouts =
    [⟨1, 8, 2, .unsignedBe⟩, ⟨2, 12, 2, .stringUtf8⟩, ⟨3, 14, 4, .floatLe⟩, ⟨4, 18, 8, .signedLe⟩] := by decide +kernel

/-- What channel `k` shows after the calls. -/
def exDwShown (calls : List DwCall) (k : Nat) : Option (Bool × ChanVal) :=
  (exDwWriter.run calls).bind fun w => (exDw.chan 0 k).map fun c => c.channelValue [] w.buffer 0

def exDwSet (k : Nat) (v : CppVal) : DwCall := .set (exDwWriter.layouts.getD k ⟨0, 0, 0, .byteArray⟩) v

example : DwCalls exDw 0 [.reset, exDwSet 0 (.int false 2 513), exDwSet 3 (.int true 8 (-2)), exDwSet 2 (.flt 4 0x3FC00000)] := by
  refine ⟨?_, ?_⟩
  · intro l v h
    simp only [List.mem_cons, List.not_mem_nil, or_false, exDwSet, DwCall.set.injEq, reduceCtorEq, false_or] at h
    rcases h with ⟨rfl, rfl⟩ | ⟨rfl, rfl⟩ | ⟨rfl, rfl⟩ <;> decide +kernel
  · intro r n h
    simp [exDwSet] at h

example : (exDwWriter.run [.reset, exDwSet 0 (.int false 2 513), exDwSet 3 (.int true 8 (-2)), exDwSet 2 (.flt 4 0x3FC00000)]).map
      (·.buffer) =
    some [0, 0, 0, 0, 0, 0, 0, 0, 2, 1, 0, 0, 0, 0, 0, 0, 192, 63, 254, 255, 255, 255, 255, 255, 255, 255, 0] := by decide +kernel

example : exDwShown [.reset, exDwSet 0 (.int false 2 513), exDwSet 3 (.int true 8 (-2)), exDwSet 2 (.flt 4 0x3FC00000)] 1 =
      some (true, .num 513) ∧
    exDwShown [.reset, exDwSet 0 (.int false 2 513), exDwSet 3 (.int true 8 (-2)), exDwSet 2 (.flt 4 0x3FC00000)] 4 =
      some (true, .int (-2)) ∧
    exDwShown [exDwSet 0 (.int false 2 513), .reset, exDwSet 0 (.int true 2 7)] 1 = some (true, .num 7) := by decide +kernel

/-- What an application might expect: the value last set on a channel is the value it shows, whatever C++ type of number it was given in. -/
def C85_Statement : Prop :=
  ∀ (s : Ses), s.Fits → ∀ (g k : Nat) (c : Chan), s.chan g k = some c → c.Numeric → ∀ (buffer : Bytes),
    buffer.length = (s.layout g).recordSize → ∀ calls, DwCalls s g calls →
    (∀ l v, .set l v ∈ calls → l.index = k → v.Typed ∧ v.Suits c) → ∀ w, (s.dataWriter g buffer).run calls = some w →
    ∀ v, (dwGiven (s.layout g).recordSize k (buffer, none) calls).2 = some v → (c.channelValue [] w.buffer 0).2 = v.plain c

/-- C85.  A value of another size than the channel is ignored, and nothing tells so: the integer 5 as `int` does not get into a channel of
64 bits. -/
theorem C85_other_size (buffer : Bytes) (l : DwLayout) (v : CppVal) (h : v.size ≠ l.dataBytes) : dwSet buffer l v = some buffer := by
  unfold dwSet
  rw [if_pos (fun e => h e.symm)]

theorem C85_other_size_lost : exDwShown [.reset, exDwSet 3 (.int true 4 5)] 4 = some (true, .int 0) := by decide +kernel

theorem C85_false : ¬ C85_Statement := by
  intro h
  have hc : exDw.chan 0 4 = some ⟨.fixedLength, .signedLe, 18, 0, 64, false, 0, 26, 1⟩ := by decide +kernel
  have hrun : (exDw.dataWriter 0 (List.replicate 27 0)).run [exDwSet 3 (.int true 4 5)] = some exDwWriter := by decide +kernel
  have hn : Chan.Numeric ⟨.fixedLength, .signedLe, 18, 0, 64, false, 0, 26, 1⟩ := by simp [Chan.Numeric]
  have hcalls : DwCalls exDw 0 [exDwSet 3 (.int true 4 5)] := by
    refine ⟨?_, ?_⟩
    · intro l v h
      simp only [List.mem_cons, List.not_mem_nil, or_false, exDwSet, DwCall.set.injEq] at h
      obtain ⟨rfl, rfl⟩ := h
      decide +kernel
    · intro r n h
      simp [exDwSet] at h
  have := h exDw exDw_fits 0 4 _ hc hn (List.replicate 27 0) (by decide +kernel) _ hcalls ?_ _ hrun (.int true 4 5) (by decide +kernel)
  · revert this
    decide +kernel
  · intro l v hm _
    simp only [List.mem_cons, List.not_mem_nil, or_false, exDwSet, DwCall.set.injEq] at hm
    obtain ⟨-, rfl⟩ := hm
    exact ⟨⟨by omega, by decide, by decide⟩, Or.inr ⟨Or.inl rfl, by decide, by decide⟩⟩

/-- C85.  A number of another kind and the same size is stored by its bits: the float 1.5 in an integer channel is another number. -/
theorem C85_other_kind : dwSet [0, 0, 0, 0] ⟨0, 0, 4, .unsignedLe⟩ (.flt 4 0x3FC00000) =
    dwSet [0, 0, 0, 0] ⟨0, 0, 4, .unsignedLe⟩ (.int false 4 1069547520) := by decide

/-- C85.  A value set in a record where the channel is marked as not valid stays not valid: `SetValue` leaves the validity bits alone. -/
theorem C85_stays_not_valid : exDwShown [.raw (some (List.replicate 26 0 ++ [1])) 27, exDwSet 0 (.int false 2 513)] 1 =
    some (false, .num 513) := by decide +kernel

/-- C85.  A writer made before `InitMeasurement`, when the group has no sample buffer, ignores all values and gives empty records; adding
one as a sample writes the time of the master outside of it. -/
theorem C85_made_early (cs : List Chan) (id : Nat) (sets : List (DwLayout × CppVal)) (now : Nat)
    (hsize : ∀ x ∈ sets, 0 < x.2.size) :
    ((DataWriter.create id [] cs).run (sets.map fun x => .set x.1 x.2)).map (fun w => (w.commit now).data) = some [] := by
  have key : (DataWriter.create id [] cs).run (sets.map fun x => .set x.1 x.2) = some (DataWriter.create id [] cs) := by
    induction sets with
    | nil => rfl
    | cons x sets ih =>
      rw [List.map_cons, DataWriter.run, DataWriter.step]
      have hx := hsize x List.mem_cons_self
      have hset : dwSet (DataWriter.create id [] cs).buffer x.1 x.2 = some [] := by
        show dwSet [] x.1 x.2 = some []
        unfold dwSet
        split
        · rfl
        · rename_i h
          replace h := Decidable.not_not.1 h
          rw [if_pos (by simp only [List.length_nil]; omega)]
      rw [hset]
      exact ih fun y hy => hsize y (List.mem_cons_of_mem _ hy)
  rw [key]
  rfl

theorem C85_early_undefined : exDw.addSample 1000 ((DataWriter.create 0 [] (exDw.layout 0).result).commit 2000) 2000 = none := by
  decide +kernel

end Mdf
