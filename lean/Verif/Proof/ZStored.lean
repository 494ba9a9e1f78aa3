import Verif.Proof.ZStream

/-!
A zlib which only makes stored blocks (RFC 1950, RFC 1951 section 3.2.4), of at most `bs` bytes each.  This is what zlib does with data that
cannot be compressed, with `bs` depending on its memory level.  It shows that what is asked of zlib in Verif/Spec/ZStream.lean can be met.
-/

set_option linter.unusedSimpArgs false

namespace Mdf

/-- The header of a stored block. -/
def storedHead (final : Bool) (n : Nat) : Bytes :=
  [if final then 1 else 0, BitVec.ofNat 8 n, BitVec.ofNat 8 (n / 256), BitVec.ofNat 8 (255 - n % 256), BitVec.ofNat 8 (255 - n / 256 % 256)]

/-- The blocks of the data; `fuel` is at least the number of bytes. -/
def storedBlocks (bs : Nat) : (fuel : Nat) → Bytes → Bytes
  | 0, d => storedHead true d.length ++ d
  | fuel + 1, d =>
    if d.length ≤ bs then storedHead true d.length ++ d
    else storedHead false bs ++ d.take bs ++ storedBlocks bs fuel (d.drop bs)

/-- The checksum of RFC 1950. -/
def adler32 (d : Bytes) : Bytes :=
  let r := d.foldl (fun (p : Nat × Nat) b => ((p.1 + b.toNat) % 65521, (p.2 + p.1 + b.toNat) % 65521)) (1, 0)
  [BitVec.ofNat 8 (r.2 / 256), BitVec.ofNat 8 r.2, BitVec.ofNat 8 (r.1 / 256), BitVec.ofNat 8 r.1]

/-- A stream of stored blocks. -/
def storedCode (bs : Nat) (d : Bytes) : Bytes := [0x78, 0x01] ++ storedBlocks bs d.length d ++ adler32 d

/-- Where the decoder is. -/
inductive StSt where
  | skip (k : Nat)
  | head (l : Bytes)
  | data (n : Nat) (final : Bool)
  | trail (k : Nat)
  | done
deriving DecidableEq, Repr

/-- The state after a block. -/
def StSt.next (final : Bool) : StSt := if final then .trail 3 else .head []

/-- The decoder takes one byte. -/
def StSt.feed : StSt → Byte → StSt × Bytes
  | .skip 0, _ => (.head [], [])
  | .skip (k + 1), _ => (.skip k, [])
  | .head [f, x, y, _], _ =>
    let n := x.toNat + 256 * y.toNat
    (if n = 0 then .next (f == 1) else .data (n - 1) (f == 1), [])
  | .head l, b => (.head (l ++ [b]), [])
  | .data 0 f, b => (.next f, [b])
  | .data (n + 1) f, b => (.data n f, [b])
  | .trail 0, _ => (.done, [])
  | .trail (k + 1), _ => (.trail k, [])
  | .done, _ => (.done, [])

def StSt.emits : StSt → Bool
  | .data _ _ => true
  | _ => false

/-- The decoder takes bytes. -/
def StSt.run : StSt → Bytes → StSt × Bytes
  | s, [] => (s, [])
  | s, b :: l => let f := s.feed b; let r := StSt.run f.1 l; (r.1, f.2 ++ r.2)

/-- The decoder takes bytes until the end of the stream or until there is no room for a byte it would put out. -/
def StSt.go : StSt → Bytes → Nat → StSt × Nat × Bytes
  | s, [], _ => (s, 0, [])
  | s, b :: l, room =>
    if s = .done ∨ (s.emits = true ∧ room = 0) then (s, 0, [])
    else
      let f := s.feed b
      let r := StSt.go f.1 l (room - f.2.length)
      (r.1, r.2.1 + 1, f.2 ++ r.2.2)

def storedInf : ZInf where
  σ := StSt
  init := .skip 1
  call s input room :=
    let r := s.go input room
    ⟨r.1, r.2.1, r.2.2, if r.1 = .done then .streamEnd else .ok⟩

/-- All is taken in, nothing is put out before the end. -/
def storedDef (bs : Nat) : ZDef where
  σ := Bytes × Nat
  init := ([], 0)
  call s input room finish :=
    if finish then
      let code := storedCode bs (s.1 ++ input)
      let out := (code.drop s.2).take room
      ⟨(s.1 ++ input, s.2 + out.length), input.length, out, if s.2 + out.length = code.length then .streamEnd else .ok⟩
    else ⟨(s.1 ++ input, s.2), input.length, [], .ok⟩

theorem StSt.feed_emits (s : StSt) (b : Byte) : (s.feed b).2.length = if s.emits then 1 else 0 := by
  unfold StSt.feed
  split <;> rfl

theorem StSt.run_append (s : StSt) (x y : Bytes) :
    s.run (x ++ y) = (((s.run x).1.run y).1, (s.run x).2 ++ ((s.run x).1.run y).2) := by
  induction x generalizing s with
  | nil => rfl
  | cons b x ih => simp only [List.cons_append, StSt.run, ih, List.append_assoc]

theorem StSt.go_spec (s : StSt) (input : Bytes) (room : Nat) :
    (s.go input room).2.1 ≤ input.length ∧ s.run (input.take (s.go input room).2.1) = ((s.go input room).1, (s.go input room).2.2) ∧
    (s.go input room).2.2.length ≤ room ∧
    (∀ j, j < (s.go input room).2.1 → (s.run (input.take j)).1 ≠ .done) ∧
    ((s.go input room).1 = .done ∨ (s.go input room).2.1 = input.length ∨
      ((s.go input room).2.2.length = room ∧ (s.go input room).1.emits = true ∧ (s.go input room).2.1 < input.length)) := by
  induction input generalizing s room with
  | nil => simp [StSt.go, StSt.run]
  | cons b l ih =>
    simp only [StSt.go]
    by_cases hc : s = .done ∨ (s.emits = true ∧ room = 0)
    · rw [if_pos hc]
      refine ⟨Nat.zero_le _, rfl, Nat.zero_le _, fun j h => absurd h (Nat.not_lt_zero _), ?_⟩
      rcases hc with h | h
      · exact .inl h
      · exact .inr (.inr ⟨h.2.symm, h.1, by simp⟩)
    · rw [if_neg hc]
      obtain ⟨h1, h2, h3, h4, h5⟩ := ih (s.feed b).1 (room - (s.feed b).2.length)
      have hf := StSt.feed_emits s b
      have hroom : (s.feed b).2.length ≤ room := by
        rw [hf]
        cases he : s.emits with
        | false => simp
        | true =>
          have : room ≠ 0 := fun h => hc (.inr ⟨he, h⟩)
          simp only [if_true]
          omega
      simp only [List.length_cons, List.take_succ_cons, StSt.run, h2, List.length_append]
      refine ⟨by omega, trivial, by omega, ?_, ?_⟩
      · intro j hj
        cases j with
        | zero => exact fun h => hc (.inl h)
        | succ j => exact h4 j (by omega)
      · rcases h5 with h | h | ⟨a, b', c⟩
        · exact .inl h
        · exact .inr (.inl (by omega))
        · exact .inr (.inr ⟨by omega, b', by omega⟩)

/-- A byte decoder which comes to its end with the last byte of the stream, and not before, decodes it. -/
def storedReads (code data : Bytes) (hrun : (StSt.skip 1).run code = (.done, data))
    (hbefore : ∀ i, i < code.length → ((StSt.skip 1).run (code.take i)).1 ≠ .done) : storedInf.Reads code data := by
  let at_ : StSt → Nat → Nat → Prop := fun s i o =>
    i ≤ code.length ∧ ∃ out, (StSt.skip 1).run (code.take i) = (s, out) ∧ out.length = o
  have pre : ∀ i s out, (StSt.skip 1).run (code.take i) = (s, out) → out <+: data := by
    intro i s out h
    have := StSt.run_append (.skip 1) (code.take i) (code.drop i)
    rw [List.take_append_drop, hrun, h] at this
    simp only [Prod.mk.injEq] at this
    rw [this.2]
    exact List.prefix_append ..
  have main : ∀ s i o input room, at_ s i o → input <+: code.drop i ∨ code.drop i <+: input →
      i + (s.go input room).2.1 ≤ code.length ∧ (s.go input room).2.2 <+: data.drop o ∧
      (StSt.skip 1).run (code.take (i + (s.go input room).2.1)) =
        ((s.go input room).1, data.take o ++ (s.go input room).2.2) ∧ o ≤ data.length := by
    rintro s i o input room ⟨hi, out, hs, ho⟩ hin
    obtain ⟨h1, h2, h3, h4, h5⟩ := StSt.go_spec s input room
    obtain ⟨k, hk⟩ : ∃ k, k = (s.go input room).2.1 := ⟨_, rfl⟩
    rw [← hk] at h1 h2 h4 h5 ⊢
    have hle : i + k ≤ code.length := by
      by_cases hle : i + k ≤ code.length
      · exact hle
      · have hd : input.take (code.length - i) = code.drop i := by
          rcases hin with h | h
          · have := h.length_le
            rw [List.length_drop] at this
            omega
          · obtain ⟨t, rfl⟩ := h
            rw [List.take_append_of_le_length (by rw [List.length_drop]; omega), List.take_of_length_le (by rw [List.length_drop]; omega)]
        have hx := h4 (code.length - i) (by omega)
        rw [hd] at hx
        have := StSt.run_append (.skip 1) (code.take i) (code.drop i)
        rw [List.take_append_drop, hrun, hs] at this
        simp only [Prod.mk.injEq] at this
        exact absurd this.1.symm hx
    have htk : code.take (i + k) = code.take i ++ input.take k := by
      have e : input.take k = (code.drop i).take k := by
        rcases hin with ⟨t, h⟩ | ⟨t, h⟩
        · rw [← h, List.take_append_of_le_length h1]
        · rw [← h, List.take_append_of_le_length (by rw [List.length_drop]; omega)]
      rw [e, List.take_add]
    have hp := pre i s out hs
    have ho' : data.take o = out := by
      obtain ⟨t, ht⟩ := hp
      rw [← ht, ← ho, List.take_left]
    have hr : (StSt.skip 1).run (code.take (i + k)) = ((s.go input room).1, data.take o ++ (s.go input room).2.2) := by
      rw [htk, StSt.run_append, hs]
      simp only
      rw [h2, ho']
    refine ⟨hle, ?_, hr, ?_⟩
    · obtain ⟨t, ht⟩ := pre _ _ _ hr
      refine ⟨t, ?_⟩
      rw [List.append_assoc] at ht
      have hol : (data.take o).length = o := by rw [ho', ho]
      have := congrArg (List.drop o) ht
      rw [List.drop_append_of_le_length (by omega), List.drop_of_length_le (by omega), List.nil_append] at this
      exact this
    · have := hp.length_le; omega
  have atDone : ∀ i out, i ≤ code.length → (StSt.skip 1).run (code.take i) = (.done, out) → i = code.length ∧ out = data := by
    intro i out hi h
    by_cases he : i < code.length
    · exact absurd (by rw [h]) (hbefore i he)
    · have : i = code.length := by omega
      rw [this, List.take_length, hrun] at h
      simp only [Prod.mk.injEq, true_and] at h
      exact ⟨this, h.symm⟩
  have lenO : ∀ o (x : Bytes), o ≤ data.length → (data.take o ++ x).length = o + x.length := by
    intro o x h
    rw [List.length_append, List.length_take, Nat.min_eq_left h]
  have ret_end : ∀ s input room, (storedInf.call s input room).ret = .streamEnd → (StSt.go s input room).1 = .done := by
    intro s input room h
    by_cases hd : (StSt.go s input room).1 = .done
    · exact hd
    · simp only [storedInf, if_neg hd] at h
      cases h
  exact {
    at_ := at_
    start := ⟨Nat.zero_le _, [], rfl, rfl⟩
    step := by
      intro s i o input room hat _ hin
      obtain ⟨m1, m2, m3, m4⟩ := main s i o input room hat hin
      obtain ⟨h1, h2, h3, h4, h5⟩ := StSt.go_spec s input room
      exact ⟨h1, m1, h3, m2, m1, _, m3, lenO _ _ m4⟩
    noError := by
      intro s i o input room _ _ _
      simp only [storedInf]
      split <;> simp
    atEnd := by
      intro s i o input room hat _ hin hr
      obtain ⟨m1, m2, m3, m4⟩ := main s i o input room hat hin
      rw [ret_end s input room hr] at m3
      obtain ⟨e1, e2⟩ := atDone _ _ m1 m3
      refine ⟨e1, ?_⟩
      rw [← e2]
      exact (lenO _ _ m4).symm
    goesOn := by
      intro s i o input room hat _ hin hr ho
      obtain ⟨m1, m2, m3, m4⟩ := main s i o input room hat hin
      obtain ⟨h1, h2, h3, h4, h5⟩ := StSt.go_spec s input room
      have hnd : (StSt.go s input room).1 ≠ .done := by
        intro hd
        apply hr
        simp only [storedInf, if_pos hd]
      refine ⟨?_, ?_⟩
      · rcases h5 with h | h | h
        · exact absurd h hnd
        · exact h
        · have := h.1
          simp only [storedInf] at ho
          omega
      · by_cases he : i + (StSt.go s input room).2.1 < code.length
        · exact he
        · have : i + (StSt.go s input room).2.1 = code.length := by omega
          rw [this, List.take_length, hrun] at m3
          simp only [Prod.mk.injEq] at m3
          exact absurd m3.1.symm hnd
    whole := by
      intro room hroom hlen
      obtain ⟨m1, m2, m3, m4⟩ := main (.skip 1) 0 0 code room ⟨Nat.zero_le _, [], rfl, rfl⟩ (.inl (List.prefix_refl _))
      obtain ⟨h1, h2, h3, h4, h5⟩ := StSt.go_spec (.skip 1) code room
      rw [Nat.zero_add] at m3
      have hd : (StSt.go (.skip 1) code room).1 = .done := by
        rcases h5 with h | h | ⟨a, b, c⟩
        · exact h
        · rw [h, List.take_length, hrun] at m3
          simp only [Prod.mk.injEq] at m3
          exact m3.1.symm
        · exfalso
          obtain ⟨k, hk⟩ : ∃ k, k = (StSt.go (.skip 1) code room).2.1 := ⟨_, rfl⟩
          rw [← hk] at c m3
          have hx : (StSt.skip 1).run (code.take (k + 1)) = ((StSt.skip 1).run (code.take (k + 1))) := rfl
          conv at hx => rhs; rw [List.take_succ_eq_append_getElem c, StSt.run_append, m3]
          have := (pre (k + 1) _ _ hx).length_le
          simp only [StSt.run, List.length_append, List.append_nil, StSt.feed_emits, b, if_true, List.take_zero, List.length_nil] at this
          omega
      show (if (StSt.go (.skip 1) code room).1 = .done then ZRet.streamEnd else ZRet.ok) = .streamEnd
      rw [if_pos hd] }

theorem run_storedHead (f : Bool) (n : Nat) (hn : n < 65536) :
    (StSt.head []).run (storedHead f n) = (if n = 0 then .next f else .data (n - 1) f, []) := by
  have e : (BitVec.ofNat 8 n).toNat + 256 * (BitVec.ofNat 8 (n / 256)).toNat = n := by
    simp only [BitVec.toNat_ofNat]
    omega
  have ef : ((if f then 1 else 0 : Byte) == 1) = f := by cases f <;> rfl
  simp only [storedHead, StSt.run, StSt.feed, List.nil_append, List.cons_append, e, ef, List.append_nil]

theorem run_data (f : Bool) : ∀ (d : Bytes) (n : Nat), d.length = n + 1 → (StSt.data n f).run d = (.next f, d) := by
  intro d
  induction d with
  | nil => intro n h; simp at h
  | cons b l ih =>
    intro n h
    simp only [List.length_cons] at h
    cases n with
    | zero =>
      have : l = [] := List.eq_nil_of_length_eq_zero (by omega)
      subst this
      rfl
    | succ n => simp only [StSt.run, StSt.feed, ih n (by omega), List.cons_append, List.nil_append]

theorem run_storedBlock (f : Bool) (d : Bytes) (h : d.length < 65536) :
    (StSt.head []).run (storedHead f d.length ++ d) = (.next f, d) := by
  rw [StSt.run_append, run_storedHead f _ h]
  simp only
  by_cases h0 : d.length = 0
  · rw [if_pos h0, List.eq_nil_of_length_eq_zero h0]; rfl
  · rw [if_neg h0, run_data f d _ (by omega)]; rfl

theorem run_storedBlocks (bs : Nat) (h0 : 0 < bs) (h1 : bs < 65536) : ∀ (fuel : Nat) (d : Bytes), d.length ≤ fuel →
    (StSt.head []).run (storedBlocks bs fuel d) = (.trail 3, d) := by
  intro fuel
  induction fuel with
  | zero =>
    intro d h
    exact run_storedBlock true d (by omega)
  | succ fuel ih =>
    intro d h
    simp only [storedBlocks]
    by_cases hd : d.length ≤ bs
    · rw [if_pos hd]
      exact run_storedBlock true d (by omega)
    · rw [if_neg hd]
      have hl : (d.take bs).length = bs := by rw [List.length_take]; omega
      have hb := run_storedBlock false (d.take bs) (by omega)
      rw [hl] at hb
      rw [StSt.run_append, hb]
      simp only [StSt.next]
      rw [if_neg (by decide), ih _ (by rw [List.length_drop]; omega)]
      simp only [List.take_append_drop]

theorem storedCode_last (bs : Nat) (h0 : 0 < bs) (h1 : bs < 65536) (d : Bytes) :
    ∃ c b, storedCode bs d = c ++ [b] ∧ (StSt.skip 1).run c = (.trail 0, d) := by
  obtain ⟨p, hp⟩ : ∃ p : Nat × Nat, p = d.foldl (fun (p : Nat × Nat) b => ((p.1 + b.toNat) % 65521, (p.2 + p.1 + b.toNat) % 65521)) (1, 0) :=
    ⟨_, rfl⟩
  refine ⟨[0x78, 0x01] ++ storedBlocks bs d.length d ++ [BitVec.ofNat 8 (p.2 / 256), BitVec.ofNat 8 p.2, BitVec.ofNat 8 (p.1 / 256)],
    BitVec.ofNat 8 p.1, ?_, ?_⟩
  · rw [List.append_assoc]
    rw [storedCode, adler32, ← hp]
    rfl
  · rw [StSt.run_append, StSt.run_append]
    have : (StSt.skip 1).run [0x78, 0x01] = (.head [], []) := rfl
    rw [this]
    simp only
    rw [run_storedBlocks bs h0 h1 _ _ (Nat.le_refl _)]
    simp [StSt.run, StSt.feed]

theorem run_done (x : Bytes) : StSt.done.run x = (.done, []) := by
  induction x with
  | nil => rfl
  | cons b x ih => simp only [StSt.run, StSt.feed, ih, List.append_nil]

theorem run_storedCode (bs : Nat) (h0 : 0 < bs) (h1 : bs < 65536) (d : Bytes) : (StSt.skip 1).run (storedCode bs d) = (.done, d) := by
  obtain ⟨c, b, e, h⟩ := storedCode_last bs h0 h1 d
  rw [e, StSt.run_append, h]
  simp [StSt.run, StSt.feed]

theorem storedCode_before (bs : Nat) (h0 : 0 < bs) (h1 : bs < 65536) (d : Bytes) (i : Nat) (hi : i < (storedCode bs d).length) :
    ((StSt.skip 1).run ((storedCode bs d).take i)).1 ≠ .done := by
  obtain ⟨c, b, e, h⟩ := storedCode_last bs h0 h1 d
  rw [e, List.length_append] at hi
  simp only [List.length_cons, List.length_nil] at hi
  rw [e, List.take_append_of_le_length (by omega)]
  intro hd
  have := StSt.run_append (.skip 1) (c.take i) (c.drop i)
  rw [List.take_append_drop, h, hd, run_done] at this
  simp at this

/-- The number of blocks. -/
def storedCount (bs n : Nat) : Nat := max 1 ((n + bs - 1) / bs)

theorem storedCount_one (bs : Nat) (h0 : 0 < bs) (n : Nat) (h : n ≤ bs) : storedCount bs n = 1 := by
  have : (n + bs - 1) / bs < 2 := (Nat.div_lt_iff_lt_mul h0).2 (by omega)
  unfold storedCount
  omega

theorem storedCount_step (bs : Nat) (h0 : 0 < bs) (n : Nat) (h : bs < n) : storedCount bs n = storedCount bs (n - bs) + 1 := by
  have e : (n + bs - 1) / bs = (n - bs + bs - 1) / bs + 1 := by
    rw [← Nat.add_div_right _ h0]
    congr 1
    omega
  have g : 1 ≤ (n - bs + bs - 1) / bs := (Nat.le_div_iff_mul_le h0).2 (by omega)
  unfold storedCount
  omega

theorem storedBlocks_length (bs : Nat) (h0 : 0 < bs) : ∀ (fuel : Nat) (d : Bytes), d.length ≤ fuel →
    (storedBlocks bs fuel d).length = d.length + 5 * storedCount bs d.length := by
  intro fuel
  induction fuel with
  | zero =>
    intro d h
    simp only [storedBlocks, storedHead, List.length_append, List.length_cons, List.length_nil]
    rw [storedCount_one bs h0 _ (by omega)]
    omega
  | succ fuel ih =>
    intro d h
    simp only [storedBlocks]
    by_cases hd : d.length ≤ bs
    · rw [if_pos hd, storedCount_one bs h0 _ hd]
      simp only [storedHead, List.length_append, List.length_cons, List.length_nil]
      omega
    · rw [if_neg hd, storedCount_step bs h0 _ (by omega)]
      have hl := ih (d.drop bs) (by rw [List.length_drop]; omega)
      rw [List.length_drop] at hl
      simp only [storedHead, List.length_append, List.length_cons, List.length_nil, List.length_take]
      omega

theorem storedCode_length (bs : Nat) (h0 : 0 < bs) (d : Bytes) :
    (storedCode bs d).length = 6 + d.length + 5 * storedCount bs d.length := by
  simp only [storedCode, adler32, List.length_append, List.length_cons, List.length_nil, storedBlocks_length bs h0 _ _ (Nat.le_refl _)]
  omega

/-- What the encoder has done. -/
def storedAt (bs : Nat) (s : Bytes × Nat) (x y : Bytes) : Option Bytes → Prop
  | none => s = (x, 0) ∧ y = []
  | some all => s = (all, y.length) ∧ x = all ∧ y = (storedCode bs all).take y.length

theorem storedCall (bs : Nat) (s : Bytes × Nat) (x y : Bytes) (t : Option Bytes) (input : Bytes) (h : storedAt bs s x y t)
    (ht : ∀ all, t = some all → true = true ∧ x ++ input = all) :
    s = (s.1, y.length) ∧ s.1 ++ input = x ++ input ∧ y = (storedCode bs (x ++ input)).take y.length := by
  cases t with
  | none => obtain ⟨rfl, rfl⟩ := h; exact ⟨rfl, rfl, rfl⟩
  | some all =>
    obtain ⟨rfl, rfl, hy⟩ := h
    have := (ht _ rfl).2
    rw [this]
    exact ⟨rfl, rfl, hy⟩

theorem take_drop_take (c y : Bytes) (room : Nat) (h : y = c.take y.length) :
    y ++ (c.drop y.length).take room = c.take (y ++ (c.drop y.length).take room).length := by
  have e : y ++ (c.drop y.length).take room = c.take (y.length + room) := by
    conv => lhs; lhs; rw [h]
    rw [List.take_add]
  rw [e, List.length_take]
  by_cases hc : y.length + room ≤ c.length
  · rw [Nat.min_eq_left hc]
  · rw [Nat.min_eq_right (by omega), List.take_of_length_le (by omega), List.take_length]

def storedWrites (bs : Nat) (h0 : 0 < bs) : (storedDef bs).Writes (fun c d => c = storedCode bs d) where
  at_ := storedAt bs
  start := ⟨rfl, rfl⟩
  step := by
    intro s x y t input room finish hat hroom ht
    cases finish with
    | false =>
      cases t with
      | some all => exact absurd (ht all rfl).1 (by decide)
      | none =>
        obtain ⟨rfl, rfl⟩ := hat
        simp only [storedDef, if_neg (by decide : ¬ false = true)]
        refine ⟨Nat.le_refl _, Nat.zero_le _, by decide, ?_⟩
        rw [List.take_length]
        exact ⟨rfl, rfl⟩
    | true =>
      obtain ⟨e1, e2, e3⟩ := storedCall bs s x y t input hat ht
      obtain ⟨s1, s2⟩ := s
      simp only [Prod.mk.injEq, true_and] at e1
      simp only at e2
      simp only [storedDef, if_true, e1, e2]
      refine ⟨Nat.le_refl _, by rw [List.length_take]; omega, by split <;> simp, ?_⟩
      rw [List.take_length]
      refine ⟨by rw [List.length_append (as := y)], rfl, take_drop_take _ _ _ e3⟩
  goesOn := by
    intro s x y t input room finish hat hroom ht hout
    cases finish with
    | false =>
      simp only [storedDef, if_neg (by decide : ¬ false = true)]
      exact ⟨trivial, fun h => by cases h⟩
    | true =>
      obtain ⟨e1, e2, e3⟩ := storedCall bs s x y t input hat ht
      obtain ⟨s1, s2⟩ := s
      simp only [Prod.mk.injEq, true_and] at e1
      simp only at e2
      simp only [storedDef, if_true, e1, e2] at hout ⊢
      refine ⟨trivial, fun _ => ?_⟩
      have hy := congrArg List.length e3
      rw [List.length_take] at hy hout
      rw [List.length_drop] at hout
      rw [if_pos (by rw [List.length_take, List.length_drop]; omega)]
  atEnd := by
    intro s x y t input room finish hat hroom ht hret
    cases finish with
    | false =>
      simp only [storedDef, if_neg (by decide : ¬ false = true)] at hret
      cases hret
    | true =>
      obtain ⟨e1, e2, e3⟩ := storedCall bs s x y t input hat ht
      obtain ⟨s1, s2⟩ := s
      simp only [Prod.mk.injEq, true_and] at e1
      simp only at e2
      simp only [storedDef, if_true, e1, e2] at hret ⊢
      refine ⟨trivial, trivial, ?_⟩
      rw [take_drop_take _ _ _ e3, List.length_append]
      split at hret
      · rename_i h
        rw [h, List.take_length]
      · cases hret
  bound := fun n => 6 + n + 5 * storedCount bs n
  bounded := by
    intro s x y t hat
    cases t with
    | none => rw [hat.2]; simp
    | some all =>
      obtain ⟨_, hx, hy⟩ := hat
      have hy := congrArg List.length hy
      rw [List.length_take, storedCode_length bs h0] at hy
      rw [hx]
      omega
  mono := by
    intro a b h
    have : (a + bs - 1) / bs ≤ (b + bs - 1) / bs := Nat.div_le_div_right (by omega)
    simp only [storedCount]
    omega

/-- zlib with stored blocks of at most `bs` bytes. -/
def storedZ (bs : Nat) (h0 : 0 < bs) (h1 : bs < 65536) : ZLib where
  inf := storedInf
  deF := storedDef bs
  codes := fun c d => c = storedCode bs d
  writes := storedWrites bs h0
  reads := by
    intro c d h
    subst h
    exact storedReads _ _ (run_storedCode bs h0 h1 d) (storedCode_before bs h0 h1 d)
  nonempty := by
    intro c d h
    rw [h, storedCode]
    simp

end Mdf
