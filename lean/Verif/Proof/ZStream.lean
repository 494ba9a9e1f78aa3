import Verif.Spec.ZStream

/-! The loops around zlib. -/

namespace Mdf

theorem prefix_drop {α : Type} {a b : List α} (n : Nat) (h : a <+: b) : a.drop n <+: b.drop n := by
  obtain ⟨t, rfl⟩ := h
  by_cases hn : n ≤ a.length
  · rw [List.drop_append_of_le_length hn]; exact List.prefix_append ..
  · rw [List.drop_eq_nil_of_le (by omega : a.length ≤ n)]; exact List.nil_prefix

theorem prefix_append_drop {α : Type} {a b d : List α} {o : Nat} (h1 : a <+: d.drop o) (h2 : b <+: d.drop (o + a.length)) :
    a ++ b <+: d.drop o := by
  obtain ⟨t, ht⟩ := h1
  obtain ⟨u, hu⟩ := h2
  refine ⟨u, ?_⟩
  rw [List.append_assoc, hu, ← List.drop_drop, ← ht, List.drop_left]

namespace ZInf.Reads

variable {z : ZInf} {code data : Bytes}

/-- The input left is still a part of the stream, or the rest of it and more. -/
theorem rest {i u : Nat} {input : Bytes} (h : input <+: code.drop i ∨ code.drop i <+: input) :
    input.drop u <+: code.drop (i + u) ∨ code.drop (i + u) <+: input.drop u := by
  rw [← List.drop_drop]
  exact h.imp (prefix_drop u) (prefix_drop u)

theorem inner (R : z.Reads code data) {chunk : Nat} (hc : 0 < chunk) : ∀ (fuel : Nat) (s : z.σ) (i o : Nat) (input : Bytes),
    R.at_ s i o → input <+: code.drop i ∨ code.drop i <+: input → data.length - o < fuel →
    ∃ s' out ret i', z.inner chunk fuel s input = some (s', out, ret) ∧ out <+: data.drop o ∧ ret ≠ .error ∧
      R.at_ s' i' (o + out.length) ∧ i' ≤ i + input.length ∧
      (ret = .streamEnd → i' = code.length ∧ o + out.length = data.length) ∧
      (ret ≠ .streamEnd → i' = i + input.length ∧ i' < code.length) := by
  intro fuel
  induction fuel with
  | zero => intro s i o input _ _ hf; omega
  | succ fuel ih =>
    intro s i o input hat hin hf
    obtain ⟨hu, hi, hr, hp, hn⟩ := R.step s i o input chunk hat hc hin
    have he := R.noError s i o input chunk hat hc hin
    have hend := R.atEnd s i o input chunk hat hc hin
    have hgo := R.goesOn s i o input chunk hat hc hin
    generalize hcall : z.call s input chunk = r at hu hi hr hp hn he hend hgo
    simp only [ZInf.inner, hcall]
    rw [if_neg he]
    by_cases hfull : r.out.length = chunk
    · rw [if_pos hfull]
      have hlen : r.out.length ≤ data.length - o := by
        have := hp.length_le
        rwa [List.length_drop] at this
      obtain ⟨s', out, ret, i', h1, h2, h3, h4, h5, h6, h7⟩ := ih r.state (i + r.used) (o + r.out.length) (input.drop r.used) hn
        (rest hin) (by omega)
      refine ⟨s', r.out ++ out, ret, i', ?_, prefix_append_drop hp h2, h3, ?_, ?_, ?_, ?_⟩
      · rw [h1]; rfl
      · rw [List.length_append, ← Nat.add_assoc]; exact h4
      · rw [List.length_drop] at h5; omega
      · rw [List.length_append, ← Nat.add_assoc]; exact h6
      · intro h; have := h7 h; rw [List.length_drop] at this; omega
    · rw [if_neg hfull]
      refine ⟨r.state, r.out, r.ret, i + r.used, rfl, hp, he, hn, by omega, hend, ?_⟩
      intro h
      have := hgo h (by omega)
      omega

/-- How many bytes can be read. -/
def avail (src : Bytes) : Option Nat → Nat
  | none => src.length
  | some n => min n src.length

theorem outer (R : z.Reads code data) {chunk fuel : Nat} (hc : 0 < chunk) (hfuel : data.length < fuel) :
    ∀ (rounds : Nat) (s : z.σ) (i o : Nat) (src : Bytes) (left : Option Nat) (ret : ZRet),
    R.at_ s i o → src <+: code.drop i ∨ code.drop i <+: src → i < code.length → ret ≠ .streamEnd → src.length < rounds →
    ∃ out b, z.outer chunk fuel rounds s src left ret = some (out, b) ∧ out <+: data.drop o ∧
      (b = true → out = data.drop o) ∧ (b = true ↔ code.length - i ≤ avail src left) := by
  intro rounds
  induction rounds with
  | zero => intro s i o src left ret _ _ _ _ hl; omega
  | succ rounds ih =>
    intro s i o src left ret hat hin hi hret hl
    obtain ⟨want, hwant⟩ : ∃ want, want = zWant chunk left := ⟨_, rfl⟩
    simp only [ZInf.outer]
    rw [← hwant]
    have hav : avail src left = 0 ↔ src.take want = [] := by
      rw [List.take_eq_nil_iff]
      cases left with
      | none =>
        simp only [avail, hwant, zWant, List.length_eq_zero_iff]
        constructor
        · exact fun h => .inr h
        · rintro (h | h)
          · omega
          · exact h
      | some n =>
        simp only [avail, hwant, zWant]
        constructor
        · intro h
          by_cases hn : n = 0
          · left; omega
          · right; exact List.length_eq_zero_iff.1 (by omega)
        · rintro (h | h)
          · omega
          · rw [h]; simp
    by_cases he : src.take want = []
    · rw [if_pos he]
      refine ⟨[], false, ?_, List.nil_prefix, by simp, ?_⟩
      · cases ret <;> first | rfl | exact absurd rfl hret
      · rw [hav.2 he]
        constructor
        · intro h; cases h
        · intro h; omega
    · rw [if_neg he]
      have hin' : src.take want <+: code.drop i ∨ code.drop i <+: src.take want := by
        rcases hin with h | h
        · exact .inl ((List.take_prefix ..).trans h)
        · exact List.prefix_or_prefix_of_prefix (List.take_prefix want src) h
      obtain ⟨s', out, ret', i', h1, h2, h3, h4, h5, h6, h7⟩ := R.inner hc fuel s i o _ hat hin' (by omega)
      rw [h1]
      simp only
      rw [if_neg h3]
      have hlen : (src.take want).length = min want src.length := List.length_take ..
      have hle : min want src.length ≤ avail src left := by
        cases left with
        | none => simp only [avail]; omega
        | some n => simp only [avail, hwant, zWant]; omega
      by_cases hend : ret' = .streamEnd
      · rw [if_pos hend]
        obtain ⟨e1, e2⟩ := h6 hend
        refine ⟨out, true, rfl, h2, ?_, ?_⟩
        · intro _
          refine List.IsPrefix.eq_of_length h2 ?_
          rw [List.length_drop]
          have := h2.length_le
          rw [List.length_drop] at this
          omega
        · refine ⟨fun _ => ?_, fun _ => rfl⟩
          rw [hlen] at h5
          omega
      · rw [if_neg hend]
        obtain ⟨e1, e2⟩ := h7 hend
        rw [hlen] at e1
        have hpos : 0 < min want src.length := by
          rw [← hlen]; exact List.length_pos_iff.2 he
        have hin2 : src.drop want <+: code.drop i' ∨ code.drop i' <+: src.drop want := by
          by_cases hw : want ≤ src.length
          · rw [e1, Nat.min_eq_left hw]; exact rest hin
          · rw [List.drop_eq_nil_of_le (by omega : src.length ≤ want)]
            exact .inl List.nil_prefix
        obtain ⟨out2, b, g1, g2, g3, g4⟩ := ih s' i' (o + out.length) (src.drop want) (left.map (· - want)) ret' h4 hin2 e2 hend
          (by rw [List.length_drop]; omega)
        refine ⟨out ++ out2, b, ?_, prefix_append_drop h2 g2, ?_, ?_⟩
        · rw [g1]; rfl
        · intro hb
          rw [g3 hb]
          obtain ⟨t, ht⟩ := h2
          rw [← List.drop_drop, ← ht, List.drop_left]
        · rw [g4]
          have hav2 : avail (src.drop want) (left.map (· - want)) = avail src left - want := by
            cases left with
            | none => simp only [avail, Option.map_none, List.length_drop]
            | some n => simp only [avail, Option.map_some, List.length_drop]; omega
          have hal : avail src left ≤ src.length := by
            cases left with
            | none => exact Nat.le_refl _
            | some n => exact Nat.min_le_right ..
          rw [hav2]
          omega

/-- `Inflate(in, out)` and `Inflate(in, out, nof_bytes)`: true is returned if and only if the bytes that can be read hold the whole stream,
and all the data are put out then. -/
theorem stream (R : z.Reads code data) (src : Bytes) (left : Option Nat) (hsrc : src <+: code ∨ code <+: src) (hne : code ≠ []) (fuel : Nat)
    (h1 : data.length < fuel) (h2 : src.length < fuel) :
    ∃ out b, z.stream fuel src left = some (out, b) ∧ out <+: data ∧ (b = true → out = data) ∧
      (b = true ↔ code.length ≤ avail src left) :=
  R.outer (by decide) h1 fuel z.init 0 0 src left .ok R.start hsrc (List.length_pos_iff.2 hne) (by decide) h2

theorem toFile (R : z.Reads code data) (src : Bytes) (hsrc : src <+: code ∨ code <+: src) (hne : code ≠ []) (fuel : Nat)
    (h1 : data.length < fuel) :
    ∃ out b, z.toFile fuel src = some (out, b) ∧ out <+: data ∧ (b = true → out = data) ∧ (b = true ↔ code.length ≤ src.length) := by
  unfold ZInf.toFile
  by_cases hs : src = []
  · rw [if_pos hs]
    refine ⟨[], false, rfl, List.nil_prefix, by simp, ?_⟩
    have := List.length_pos_iff.2 hne
    rw [hs, List.length_nil]
    constructor
    · intro h; cases h
    · intro h; omega
  · rw [if_neg hs]
    obtain ⟨s', out, ret, i', e1, e2, e3, e4, e5, e6, e7⟩ := R.inner (chunk := 16384) (by decide) fuel z.init 0 0 src R.start hsrc h1
    rw [e1]
    refine ⟨out, ret == .streamEnd, rfl, e2, ?_, ?_⟩
    · intro hb
      have hb := eq_of_beq hb
      exact List.IsPrefix.eq_of_length e2 (by have := (e6 hb).2; omega)
    · constructor
      · intro hb
        have := e6 (eq_of_beq hb)
        omega
      · intro hl
        by_cases hr : ret = .streamEnd
        · rw [hr]; rfl
        · have := e7 hr; omega

/-- `Inflate(buf_in, buf_out)` with a buffer of the right size. -/
theorem buffer (R : z.Reads code data) (hne : code ≠ []) (hd : data ≠ []) : z.buffer code data.length = (data, true) := by
  have hl := List.length_pos_iff.2 hd
  have hin : code <+: code.drop 0 ∨ code.drop 0 <+: code := .inl (List.prefix_refl _)
  have hw := R.whole data.length hl (Nat.le_refl _)
  obtain ⟨e1, e2⟩ := R.atEnd z.init 0 0 code data.length R.start hl hin hw
  obtain ⟨_, _, _, hp, _⟩ := R.step z.init 0 0 code data.length R.start hl hin
  have ho : (z.call z.init code data.length).out = data := List.IsPrefix.eq_of_length hp (by omega)
  unfold ZInf.buffer
  rw [if_neg (by simp only [hne, false_or]; omega)]
  simp only
  rw [if_neg (by rw [hw]; decide), ho, hw]
  rw [decide_eq_true (by omega)]
  rfl

/-- A part of the stream, or a buffer which is too small: true is not returned for wrong data. -/
theorem buffer_any (R : z.Reads code data) (src : Bytes) (hsrc : src <+: code ∨ code <+: src) (size : Nat) :
    (z.buffer src size).2 = true → (z.buffer src size).1 = data ∧ src = code := by
  unfold ZInf.buffer
  by_cases h0 : src = [] ∨ size = 0
  · rw [if_pos h0]; intro h; cases h
  · rw [if_neg h0]
    have hl : 0 < size := by omega
    obtain ⟨hu, hi, _, hp, _⟩ := R.step z.init 0 0 src size R.start hl hsrc
    simp only
    by_cases he : (z.call z.init src size).ret = .error
    · rw [if_pos he]; intro h; cases h
    · rw [if_neg he]
      intro h
      simp only [Bool.and_eq_true, decide_eq_true_eq, beq_iff_eq] at h
      obtain ⟨e1, e2⟩ := R.atEnd z.init 0 0 src size R.start hl hsrc h.2
      refine ⟨List.IsPrefix.eq_of_length hp (by simp only; omega), ?_⟩
      rcases hsrc with h' | h'
      · exact List.IsPrefix.eq_of_length h' (by omega)
      · exact (List.IsPrefix.eq_of_length h' (by omega)).symm

end ZInf.Reads

namespace ZDef.Writes

variable {z : ZDef} {codes : Bytes → Bytes → Prop}

theorem inner (R : z.Writes codes) {chunk : Nat} (hc : 0 < chunk) (finish : Bool) : ∀ (fuel : Nat) (s : z.σ) (x y : Bytes) (t : Option Bytes)
    (input : Bytes), R.at_ s x y t → (∀ all, t = some all → finish = true ∧ x ++ input = all) →
    R.bound (x ++ input).length - y.length < fuel →
    ∃ s' out ret, z.inner chunk finish fuel s input = some (s', out, [], ret) ∧ ret ≠ .error ∧
      R.at_ s' (x ++ input) (y ++ out) (if finish then some (x ++ input) else none) ∧
      (finish = true → ret = .streamEnd ∧ codes (y ++ out) (x ++ input)) := by
  intro fuel
  induction fuel with
  | zero => intro s x y t input _ _ hf; omega
  | succ fuel ih =>
    intro s x y t input hat ht hf
    obtain ⟨hu, hr, he, hn⟩ := R.step s x y t input chunk finish hat hc ht
    have hend := R.atEnd s x y t input chunk finish hat hc ht
    have hgo := R.goesOn s x y t input chunk finish hat hc ht
    generalize hcall : z.call s input chunk finish = r at hu hr he hn hend hgo
    simp only [ZDef.inner, hcall]
    rw [if_neg he]
    have hx : x ++ input.take r.used ++ input.drop r.used = x ++ input := by
      rw [List.append_assoc, List.take_append_drop]
    by_cases hfull : r.out.length = chunk
    · rw [if_pos hfull]
      have hb := R.bounded _ _ _ _ hn
      have hm := R.mono (x ++ input.take r.used).length (x ++ input).length (by
        rw [List.length_append, List.length_append, List.length_take]; omega)
      rw [List.length_append (as := y)] at hb
      obtain ⟨s', out, ret, h1, h2, h3, h4⟩ := ih r.state (x ++ input.take r.used) (y ++ r.out) _ (input.drop r.used) hn
        (by
          intro all h
          cases finish
          · cases h
          · simp only [if_true, Option.some.injEq] at h
            exact ⟨rfl, by rw [hx, h]⟩) (by
          rw [hx, List.length_append (as := y)]; omega)
      rw [hx, List.append_assoc] at h3 h4
      refine ⟨s', r.out ++ out, ret, ?_, h2, h3, h4⟩
      rw [h1]; rfl
    · rw [if_neg hfull]
      obtain ⟨g1, g2⟩ := hgo (by omega)
      rw [g1, List.take_length] at hn
      refine ⟨r.state, r.out, r.ret, by rw [g1, List.drop_length], he, hn, ?_⟩
      intro hfin
      exact ⟨g2 hfin, (hend (g2 hfin)).2.2⟩

theorem outer (R : z.Writes codes) {chunk fuel : Nat} (hc : 0 < chunk) : ∀ (rounds : Nat) (s : z.σ) (x y src : Bytes),
    R.at_ s x y none → src.length < rounds → R.bound (x ++ src).length < fuel →
    ∃ out, z.outer chunk fuel rounds s src = some (out, true) ∧ codes (y ++ out) (x ++ src) := by
  intro rounds
  induction rounds with
  | zero => intro s x y src _ h; omega
  | succ rounds ih =>
    intro s x y src hat hl hfuel
    have hm := R.mono (x ++ src.take chunk).length (x ++ src).length (by
      rw [List.length_append, List.length_append, List.length_take]; omega)
    obtain ⟨s', out, ret, h1, h2, h3, h4⟩ := R.inner hc (decide ((src.take chunk).length < chunk)) fuel s x y none (src.take chunk) hat
      (fun all h => by cases h) (by omega)
    simp only [ZDef.outer]
    rw [h1]
    simp only
    rw [if_neg h2, if_neg (by simp)]
    by_cases hfin : (src.take chunk).length < chunk
    · have hd : decide ((src.take chunk).length < chunk) = true := decide_eq_true hfin
      obtain ⟨g1, g2⟩ := h4 hd
      rw [if_pos hd, g1]
      have hlen : (src.take chunk).length = min chunk src.length := List.length_take ..
      rw [List.take_of_length_le (by omega)] at g2
      exact ⟨out, rfl, g2⟩
    · have hd : decide ((src.take chunk).length < chunk) = false := decide_eq_false hfin
      rw [hd] at h3
      rw [if_neg (by rw [hd]; decide)]
      have hlen : (src.take chunk).length = min chunk src.length := List.length_take ..
      have hx : x ++ src.take chunk ++ src.drop chunk = x ++ src := by rw [List.append_assoc, List.take_append_drop]
      obtain ⟨out2, g1, g2⟩ := ih s' (x ++ src.take chunk) (y ++ out) (src.drop chunk) h3 (by rw [List.length_drop]; omega)
        (by rw [hx]; exact hfuel)
      rw [hx, List.append_assoc] at g2
      exact ⟨out ++ out2, by rw [g1]; rfl, g2⟩

/-- `Deflate(in, out)`. -/
theorem stream (R : z.Writes codes) (data : Bytes) (fuel : Nat) (h1 : data.length < fuel) (h2 : R.bound data.length < fuel) :
    ∃ code, z.stream fuel data = some (code, true) ∧ codes code data :=
  R.outer (by decide) fuel z.init [] [] data R.start h1 h2

/-- `Deflate(buf_in, buf_out)`: the stream is complete or it has filled the buffer. -/
theorem buffer (R : z.Writes codes) (data : Bytes) (hd : data ≠ []) :
    ((z.buffer data).2 = true → codes (z.buffer data).1 data) ∧
    ((z.buffer data).2 = false → (z.buffer data).1.length = data.length + 100) := by
  unfold ZDef.buffer
  rw [if_neg hd]
  have hst := R.step z.init [] [] none data (data.length + 100) true R.start (by omega) (fun all h => by cases h)
  have hgo := R.goesOn z.init [] [] none data (data.length + 100) true R.start (by omega) (fun all h => by cases h)
  have hend := R.atEnd z.init [] [] none data (data.length + 100) true R.start (by omega) (fun all h => by cases h)
  simp only
  rw [if_neg hst.2.2.1]
  constructor
  · intro h
    exact (hend (eq_of_beq h)).2.2
  · intro h
    by_cases hlt : (z.call z.init data (data.length + 100) true).out.length < data.length + 100
    · rw [(hgo hlt).2 rfl] at h; cases h
    · have := hst.2.1
      simp only
      omega

end ZDef.Writes

/-- Every compressed form of the data is at most 100 bytes longer: the buffer is large enough. -/
theorem ZLib.buffer_fits (z : ZLib) (data : Bytes) (hd : data ≠ []) (hb : z.writes.bound data.length < data.length + 100) :
    (z.deF.buffer data).2 = true := by
  cases h : (z.deF.buffer data).2 with
  | true => rfl
  | false =>
    have hl := (z.writes.buffer data hd).2 h
    unfold ZDef.buffer at hl
    have hst := z.writes.step z.deF.init [] [] none data (data.length + 100) true z.writes.start (by omega) (fun all h => by cases h)
    rw [if_neg hd] at hl
    simp only at hl
    rw [if_neg hst.2.2.1] at hl
    simp only at hl
    have := z.writes.bounded _ _ _ _ hst.2.2.2
    have hm := z.writes.mono ([] ++ data.take (z.deF.call z.deF.init data (data.length + 100) true).used).length data.length (by
      rw [List.nil_append, List.length_take]; omega)
    rw [List.nil_append (as := (z.deF.call z.deF.init data (data.length + 100) true).out)] at this
    omega

end Mdf
