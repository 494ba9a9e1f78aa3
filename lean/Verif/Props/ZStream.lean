import Verif.Proof.ZStored
import Verif.Props.Transpose

/-!
Properties of compression and of compressed blocks: C81 and C82.
-/

namespace Mdf

/-- What `Deflate(in, out)` makes of data of any size is decompressed to the data by `Inflate(in, out)`, also if other bytes follow, by
`Inflate(in, out, nof_bytes)`, by `Inflate(buf_in, to_file)` and by `Inflate(buf_in, buf_out)`; all of them end, and return true. -/
theorem C81_lossless (z : ZLib) (data : Bytes) :
    ∃ n, ∀ fuel, n ≤ fuel → ∃ code, z.deF.stream fuel data = some (code, true) ∧ ∀ tail, ∃ m, ∀ fuel, m ≤ fuel →
      z.inf.stream fuel (code ++ tail) none = some (data, true) ∧
      z.inf.stream fuel (code ++ tail) (some code.length) = some (data, true) ∧
      z.inf.toFile fuel (code ++ tail) = some (data, true) ∧
      (data ≠ [] → z.inf.buffer code data.length = (data, true)) := by
  refine ⟨data.length + z.writes.bound data.length + 1, fun fuel hf => ?_⟩
  obtain ⟨code, h1, h2⟩ := z.writes.stream data fuel (by omega) (by omega)
  refine ⟨code, h1, fun tail => ⟨data.length + (code ++ tail).length + 1, fun fuel hf => ?_⟩⟩
  have R := z.reads code data h2
  have hne := z.nonempty code data h2
  have hp : code ++ tail <+: code ∨ code <+: code ++ tail := .inr (List.prefix_append ..)
  have hl : (code ++ tail).length = code.length + tail.length := List.length_append ..
  refine ⟨?_, ?_, ?_, fun hd => R.buffer hne hd⟩
  · obtain ⟨out, b, e1, e2, e3, e4⟩ := R.stream (code ++ tail) none hp hne fuel (by omega) (by omega)
    have hb : b = true := e4.2 (by show _ ≤ (code ++ tail).length; omega)
    rw [e1, e3 hb, hb]
  · obtain ⟨out, b, e1, e2, e3, e4⟩ := R.stream (code ++ tail) (some code.length) hp hne fuel (by omega) (by omega)
    have hb : b = true := e4.2 (by show _ ≤ min code.length (code ++ tail).length; omega)
    rw [e1, e3 hb, hb]
  · obtain ⟨out, b, e1, e2, e3, e4⟩ := R.toFile (code ++ tail) hp hne fuel (by omega)
    have hb : b = true := e4.2 (by omega)
    rw [e1, e3 hb, hb]

/-- A stream that is cut, by the end of the file or by the number of bytes that may be read: the beginning of the data is put out, and false
is returned. -/
theorem C81_cut (z : ZLib) (data code : Bytes) (h : z.codes code data) (src : Bytes) (left : Option Nat)
    (hsrc : src <+: code ∨ code <+: src) (hcut : src.length < code.length ∨ ∃ n, left = some n ∧ n < code.length) :
    ∃ m, ∀ fuel, m ≤ fuel → ∃ out, out <+: data ∧ z.inf.stream fuel src left = some (out, false) := by
  refine ⟨data.length + src.length + 1, fun fuel hf => ?_⟩
  obtain ⟨out, b, e1, e2, e3, e4⟩ := (z.reads code data h).stream src left hsrc (z.nonempty _ _ h) fuel (by omega) (by omega)
  refine ⟨out, e2, ?_⟩
  have : b = false := by
    cases hb : b with
    | false => rfl
    | true =>
      have := e4.1 hb
      rcases hcut with hc | ⟨n, rfl, hc⟩
      · cases left with
        | none => simp only [ZInf.Reads.avail] at this; omega
        | some n => simp only [ZInf.Reads.avail] at this; omega
      · simp only [ZInf.Reads.avail] at this; omega
  rw [e1, this]

/-- The same for `Inflate(buf_in, to_file)`. -/
theorem C81_cut_file (z : ZLib) (data code : Bytes) (h : z.codes code data) (src : Bytes) (hsrc : src <+: code) (hcut : src ≠ code) :
    ∃ m, ∀ fuel, m ≤ fuel → ∃ out, out <+: data ∧ z.inf.toFile fuel src = some (out, false) := by
  refine ⟨data.length + 1, fun fuel hf => ?_⟩
  obtain ⟨out, b, e1, e2, e3, e4⟩ := (z.reads code data h).toFile src (.inl hsrc) (z.nonempty _ _ h) fuel (by omega)
  refine ⟨out, e2, ?_⟩
  have : b = false := by
    cases hb : b with
    | false => rfl
    | true => exact absurd (List.IsPrefix.eq_of_length hsrc (by have := e4.1 hb; have := hsrc.length_le; omega)) hcut
  rw [e1, this]

/-- The same for `Inflate(buf_in, buf_out)`, with a buffer of any size: true is returned for the right data only. -/
theorem C81_cut_buffer (z : ZLib) (data code : Bytes) (h : z.codes code data) (src : Bytes) (hsrc : src <+: code) (size : Nat)
    (htrue : (z.inf.buffer src size).2 = true) : (z.inf.buffer src size).1 = data ∧ src = code :=
  (z.reads code data h).buffer_any src (.inl hsrc) size htrue

/-- `Deflate(buf_in, buf_out)`: true is returned for a complete stream only; false is returned if it does not fit. -/
theorem C81_deflate_buffer (z : ZLib) (data : Bytes) (hd : data ≠ []) :
    ((z.deF.buffer data).2 = true → z.codes (z.deF.buffer data).1 data) ∧
    ((z.deF.buffer data).2 = false → (z.deF.buffer data).1.length = data.length + 100) :=
  z.writes.buffer data hd

/-- A zlib as it is asked for exists. -/
example : ZLib := storedZ 16383 (by decide) (by decide)

/-- Three bytes in blocks of two. -/
example : (storedDef 2).stream 2 [7, 8, 9] = some ([0x78, 1, 0, 2, 0, 253, 255, 7, 8, 1, 1, 0, 254, 255, 9, 0, 49, 0, 25], true) ∧
    storedInf.stream 2 [0x78, 1, 0, 2, 0, 253, 255, 7, 8, 1, 1, 0, 254, 255, 9, 0, 49, 0, 25, 77] none = some ([7, 8, 9], true) ∧
    storedInf.stream 2 [0x78, 1, 0, 2, 0, 253, 255, 7, 8, 1, 1, 0, 254, 255, 9, 0, 49, 0, 25, 77] (some 15) =
      some ([7, 8, 9], false) := by
  decide +kernel

/-- What is asked of compressed blocks: they give back the data. -/
def C82_Statement : Prop :=
  ∀ (z : ZLib) (type parameter : Nat) (data : Bytes), ∃ d ok, z.deF.makeDz type parameter data = some (d, ok) ∧ z.inf.dzBuffer d = some data

/-- It holds if the function that makes the block returns true, for plain and for transposed data; the same when the data are copied to a
file.  (The callers do not look at what it returns.) -/
theorem C82_complete_block_partial (z : ZLib) (type parameter : Nat) (data : Bytes) :
    ∃ d ok, z.deF.makeDz type parameter data = some (d, ok) ∧
      (ok = true → z.inf.dzBuffer d = some data ∧
        ∀ rest, ∃ m, ∀ fuel, m ≤ fuel → z.inf.dzFile fuel d rest = some (data, data.length)) ∧
      (ok = false → d.data.length = data.length + 100) := by
  unfold ZDef.makeDz
  by_cases hd : data = []
  · simp only [hd, if_true]
    exact ⟨_, _, rfl, fun _ => ⟨by simp [ZInf.dzBuffer], fun rest => ⟨0, fun fuel _ => by simp [ZInf.dzFile]⟩⟩, by simp⟩
  have hl : data.length ≠ 0 := fun h => hd (List.eq_nil_of_length_eq_zero h)
  by_cases ht : type = 1 ∧ parameter ≠ 0
  · simp only [if_neg hd, if_pos ht.1, if_neg ht.2, if_true]
    obtain ⟨r, h1, h2, _⟩ := C29_layout data parameter ht.2
    obtain ⟨r', g1, g2⟩ := (C29_lossless data parameter).1
    rw [h1, Option.some.injEq] at g1
    subst g1
    have hr : r ≠ [] := fun h => hl (by rw [← h2, h]; rfl)
    rw [h1]
    refine ⟨_, _, rfl, ?_, ?_⟩
    · intro ok
      have hc := (C81_deflate_buffer z r hr).1 ok
      have hb := (z.reads _ _ hc).buffer (z.nonempty _ _ hc) hr
      rw [h2] at hb
      have hcl : (z.deF.buffer r).1.length ≠ 0 := fun h => z.nonempty _ _ hc (List.eq_nil_of_length_eq_zero h)
      simp only [ZInf.dzBuffer, ZInf.dzFile, hl, hcl, or_self, if_false, if_neg (by decide : ¬ (1 = 0)), if_true, hb, g2,
        Option.bind_some, Nat.lt_irrefl, Option.map_some]
      exact ⟨trivial, fun _ => ⟨0, fun _ _ => trivial⟩⟩
    · intro ok
      have := (C81_deflate_buffer z r hr).2 ok
      simp only
      omega
  · have ht' : (if type = 1 then (if parameter = 0 then 0 else 1) else 0) = 0 := by
      by_cases h1 : type = 1
      · rw [if_pos h1, if_pos (Decidable.not_not.1 fun h => ht ⟨h1, h⟩)]
      · rw [if_neg h1]
    simp only [if_neg hd, ht', if_neg (by decide : ¬ (0 = 1))]
    refine ⟨_, _, rfl, ?_, ?_⟩
    · intro ok
      have hc := (C81_deflate_buffer z data hd).1 ok
      have hne := z.nonempty _ _ hc
      have hb := (z.reads _ _ hc).buffer hne hd
      have hcl : (z.deF.buffer data).1.length ≠ 0 := fun h => hne (List.eq_nil_of_length_eq_zero h)
      simp only [ZInf.dzBuffer, ZInf.dzFile, hl, hcl, or_self, if_false, if_true, hb, Nat.lt_irrefl]
      refine ⟨trivial, fun rest => ⟨data.length + ((z.deF.buffer data).1 ++ rest).length + 1, fun fuel hf => ?_⟩⟩
      obtain ⟨out, b, e1, e2, e3, e4⟩ := (z.reads _ _ hc).stream ((z.deF.buffer data).1 ++ rest) (some (z.deF.buffer data).1.length)
        (.inr (List.prefix_append ..)) hne fuel (by omega) (by omega)
      have hbt : b = true := e4.2 (by
        show _ ≤ min (z.deF.buffer data).1.length ((z.deF.buffer data).1 ++ rest).length
        rw [List.length_append]; omega)
      rw [e1, e3 hbt, hbt]
      rfl
    · intro ok
      exact (C81_deflate_buffer z data hd).2 ok

/-- It holds if no compressed form of data of this size has 100 bytes more than the data. -/
theorem C82_small_block_partial (z : ZLib) (type parameter : Nat) (data : Bytes) (hb : z.writes.bound data.length < data.length + 100) :
    ∃ d, z.deF.makeDz type parameter data = some (d, true) ∧ z.inf.dzBuffer d = some data := by
  obtain ⟨d, ok, h1, h2, h3⟩ := C82_complete_block_partial z type parameter data
  have hok : ok = true := by
    unfold ZDef.makeDz at h1
    by_cases hd : data = []
    · simp only [hd, if_true, Option.some.injEq, Prod.mk.injEq] at h1
      exact h1.2.symm
    · have hf : ∀ r : Bytes, r.length = data.length → (z.deF.buffer r).2 = true := fun r hr =>
        z.buffer_fits r (fun h => hd (List.eq_nil_of_length_eq_zero (by rw [← hr, h]; rfl))) (by rw [hr]; exact hb)
      by_cases ht : type = 1 ∧ parameter ≠ 0
      · obtain ⟨r, g1, g2, _⟩ := C29_layout data parameter ht.2
        simp only [if_neg hd, if_pos ht.1, if_neg ht.2, if_true, g1, Option.map_some, Option.some.injEq, Prod.mk.injEq] at h1
        rw [← h1.2, hf r g2]
      · have ht' : (if type = 1 then (if parameter = 0 then 0 else 1) else 0) = 0 := by
          by_cases h1 : type = 1
          · rw [if_pos h1, if_pos (Decidable.not_not.1 fun h => ht ⟨h1, h⟩)]
          · rw [if_neg h1]
        simp only [if_neg hd, ht', if_neg (by decide : ¬ (0 = 1)), Option.some.injEq, Prod.mk.injEq] at h1
        rw [← h1.2, hf data rfl]
  subst hok
  exact ⟨d, h1, (h2 rfl).1⟩

/-- Data which cannot be compressed, stored by zlib in blocks of 16383 bytes: the block is complete if and only if there are no more than
294894 bytes.  (Data blocks have up to 4000000 bytes.) -/
theorem C82_stored_limit (data : Bytes) (hd : data ≠ []) :
    ((storedZ 16383 (by decide) (by decide)).deF.buffer data).2 = true ↔ data.length ≤ 294894 := by
  constructor
  · intro h
    have hc : ((storedDef 16383).buffer data).1 = storedCode 16383 data :=
      (C81_deflate_buffer (storedZ 16383 (by decide) (by decide)) data hd).1 h
    have hl := storedCode_length 16383 (by decide) data
    rw [← hc] at hl
    have hr : ((storedDef 16383).buffer data).1.length ≤ data.length + 100 := by
      have hst := (storedWrites 16383 (by decide)).step (storedDef 16383).init [] [] none data (data.length + 100) true
        (storedWrites 16383 (by decide)).start (by omega) (fun all h => by cases h)
      unfold ZDef.buffer
      rw [if_neg hd]
      simp only
      rw [if_neg hst.2.2.1]
      exact hst.2.1
    simp only [storedCount] at hl
    omega
  · intro h
    refine ZLib.buffer_fits _ data hd ?_
    show 6 + data.length + 5 * storedCount 16383 data.length < data.length + 100
    simp only [storedCount]
    omega

/-- A zlib that stores the data in blocks of one byte, for a small example: of 21 bytes the compressed form is cut, and more bytes are copied
than there are. -/
theorem C82_cut_block : ∃ d, (storedDef 1).makeDz 0 0 (List.replicate 21 7) = some (d, false) ∧ storedInf.dzBuffer d = none ∧
    storedInf.dzFile 2 d [] = some (List.replicate 19 7, 0) := by
  refine ⟨⟨0, 0, 21, (storedCode 1 (List.replicate 21 7)).take 121⟩, ?_, ?_, ?_⟩ <;> decide +kernel

theorem C82_false : ¬ C82_Statement := by
  intro h
  obtain ⟨d, ok, h1, h2⟩ := h (storedZ 1 (by decide) (by decide)) 0 0 (List.replicate 21 7)
  obtain ⟨d', g1, g2, _⟩ := C82_cut_block
  have h1 : (storedDef 1).makeDz 0 0 (List.replicate 21 7) = some (d, ok) := h1
  rw [g1, Option.some.injEq, Prod.mk.injEq] at h1
  have h2 : storedInf.dzBuffer d = some (List.replicate 21 7) := h2
  rw [← h1.1, g2] at h2
  cases h2

example : ∃ d, (storedDef 16383).makeDz 1 3 [1, 2, 3, 4, 5, 6, 7] = some (d, true) ∧ d.origLength = 7 ∧
    storedInf.dzBuffer d = some [1, 2, 3, 4, 5, 6, 7] := by
  refine ⟨⟨1, 3, 7, storedCode 16383 [1, 4, 2, 5, 3, 6, 7]⟩, ?_, ?_, ?_⟩ <;> decide +kernel

end Mdf
