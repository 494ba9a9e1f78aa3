import Verif.Props.Mdf3
import Verif.Props.Ho
import Verif.Model.MetaApi

/-!
# Beginnings and ends

Further theorems of C42, C43 (MDF 3 channels and the end of an MDF 3 measurement), C55 (new conversions and events) and C94 (identities of
units), found by changing the model.
-/

namespace Mdf

/-- C43: with a stop time the save loop writes the samples up to the first one after the stop time; that one is taken from the queue and not
written, those behind it stay in the queue. -/
theorem C43_stop_time (stop : Nat) (h : 0 < stop) (q : List Sample) :
    (drain3 stop q).1 = q.takeWhile (fun s => decide (s.time ≤ stop)) ∧
    (drain3 stop q).2 = (q.dropWhile (fun s => decide (s.time ≤ stop))).drop 1 := by
  induction q with
  | nil => exact ⟨rfl, rfl⟩
  | cons s q ih =>
    unfold drain3
    by_cases hs : s.time ≤ stop
    · rw [if_neg (by omega)]
      simp only [List.takeWhile_cons, List.dropWhile_cons, hs, decide_true, if_true]
      exact ⟨by rw [ih.1], ih.2⟩
    · rw [if_pos ⟨h, by omega⟩]
      simp [hs]

/-- C43: so one sample is lost if there is one after the stop time, and none otherwise. -/
theorem C43_stop_loses (stop : Nat) (h : 0 < stop) (q : List Sample) :
    (drain3 stop q).1.length + (drain3 stop q).2.length + (if ∃ s ∈ q, stop < s.time then 1 else 0) = q.length := by
  induction q with
  | nil => simp [drain3]
  | cons s q ih =>
    unfold drain3
    by_cases hs : s.time ≤ stop
    · rw [if_neg (by omega)]
      have hc : (∃ t ∈ s :: q, stop < t.time) ↔ ∃ t ∈ q, stop < t.time := by
        simp only [List.mem_cons, exists_eq_or_imp]
        exact ⟨fun e => e.resolve_left (by omega), Or.inr⟩
      rw [if_congr hc rfl rfl]
      simp only [List.length_cons]
      rw [← ih]
      omega
    · rw [if_pos ⟨h, by omega⟩, if_pos ⟨s, List.mem_cons_self, by omega⟩]
      simp

/-- Non-vacuity: three samples, the stop time after the first. -/
example : drain3 1 [⟨1, 0, [1], none, none⟩, ⟨2, 0, [2], none, none⟩, ⟨3, 0, [3], none, none⟩] = ([⟨1, 0, [1], none, none⟩], [⟨3, 0, [3], none, none⟩]) := by decide

/-- C42: a new MDF 3 channel is at the start of the record, has no size, is no master and has no conversion. -/
theorem C42_new_channel : Cn3.new.byteOffset = 0 ∧ Cn3.new.bitOffset = 0 ∧ Cn3.new.dataBytes = 0 ∧ Cn3.new.bits = 0 ∧ Cn3.new.byte = 0 ∧
    Cn3.new.start = 0 ∧ Cn3.new.master = false ∧ Cn3.new.cc = none ∧ Cn3.new.dataType false = .unsignedLe := by decide

/-- C42: an MDF 3 channel is one value without validity bit: it is valid in every record, and setting it invalid does nothing. -/
theorem C42_one_value (c : Cn3) (big : Bool) (size : Nat) (buf : Bytes) (i : Nat) (valid : Bool) :
    (c.chan big size).span = (c.chan big size).dataBytes ∧ (c.chan big size).validBits = 0 ∧ (c.chan big size).arraySize = 1 ∧
    (c.chan big size).getValid buf i = true ∧ (c.chan big size).setValid valid i buf = buf := by
  refine ⟨?_, rfl, rfl, C08_no_flag _ valid i buf rfl⟩
  show (c.chan big size).dataBytes * max 1 1 = _
  rw [Nat.max_self, Nat.mul_one]

/-- C55: a new conversion is of type 0 (no conversion), without flags, so without range and decimals, without references and parameters. -/
theorem C55_new_conversion : CcVals.new.type = 0 ∧ CcVals.new.precision = 0 ∧ CcVals.new.flags = 0 ∧ CcVals.new.params = [] ∧
    CcVals.new.rangeMin = 0 ∧ CcVals.new.rangeMax = 0 ∧ CcVals.new.range? = none ∧ CcVals.new.nofRefs = 0 := by decide

/-- C94: the identity of a unit is what was set; the short name becomes the identity too if there was none, and is kept otherwise; nothing
else changes. -/
theorem C94_identity (u : HoUnit) (s : Bytes) : (u.setId s).id = s ∧ (u.names.short = [] → (u.setId s).names.short = s) ∧
    (u.names.short ≠ [] → (u.setId s).names = u.names) ∧ (u.setId s).factor = u.factor ∧ (u.setId s).offset = u.offset := by
  unfold HoUnit.setId
  refine ⟨rfl, fun h => by simp [h], fun h => by simp [h], rfl, rfl⟩

/-- C94: setting an identity first and a second one: the short name is the first one. -/
theorem C94_identity_twice (u : HoUnit) (s t : Bytes) (hu : u.names.short = []) (hs : s ≠ []) :
    ((u.setId s).setId t).id = t ∧ ((u.setId s).setId t).names.short = s := by
  have h1 := (C94_identity u s).2.1 hu
  refine ⟨rfl, ?_⟩
  rw [((C94_identity (u.setId s) t).2.2.1 (by rw [h1]; exact hs)), h1]

/-- Non-vacuity: kilometres. -/
example : (({ } : HoUnit).setId [0x6B, 0x6D]).names.short = [0x6B, 0x6D] ∧
    ((({ } : HoUnit).setId [0x6B, 0x6D]).setId [0x6D]).names.short = [0x6B, 0x6D] := by decide

end Mdf
