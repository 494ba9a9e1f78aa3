import Verif.Proof.TypedObs
import Verif.Props.Observer

/-! Property C95: the values of an observer in the type asked for. -/

namespace Mdf

/-- The record for sample `i` among events, if there was one. -/
def recordOf (events : List Event) (id i : Nat) : Option Bytes := (lastEvent events id i).map (·.data)

/-- The property as wanted: whatever the kind of channel, asking the observer of an integer channel for a sample in an integer type that can hold the
number of the sample gives that number; for a virtual channel this is the number of the sample. -/
def C95_Statement : Prop :=
  ∀ (c : Chan) (recordId nof : Nat) (events : List Event) (i j : Nat) (v : IntTy) (record : Bytes),
    (c.IntChannel ∨ (c.isU ∨ c.isS) ∧ (c.type = .virtualMaster ∨ c.type = .virtualData)) → 0 < v.bits →
    nof * c.arraySize ≤ 2 ^ 64 → (∀ e ∈ events, (e.sample + 1) * c.arraySize ≤ 2 ^ 64) → i < nof → j < c.arraySize →
    recordOf events recordId i = some record → record.length ≤ 2 ^ 28 →
    (c.IntChannel → c.Inside j record.length → v.CanHold (c.numberIn record j) →
      c.askInt v ((c.intObs recordId nof).get ((c.intObs recordId nof).onSamples events) i j) =
        (c.getValid record j, some (c.numberIn record j))) ∧
    (c.type = .virtualMaster ∨ c.type = .virtualData → v.CanHold i →
      c.askInt v ((c.intObs recordId nof).get ((c.intObs recordId nof).onSamples events) i j) = (true, some (i : Int)))

/-- C95, for channels that are stored in the record: whatever the width, the place, the byte order and the sign of an integer channel, asking its observer for
element `j` of sample `i` in an integer type that can hold the number gives exactly the number the record of this sample has at
the place of the channel.  The value is valid if the place is inside the record and the validity bit does not say otherwise.
Missing: virtual channels. -/
theorem C95_integer_partial (c : Chan) (h : c.IntChannel) (recordId nof : Nat) (hsize : nof * c.arraySize ≤ 2 ^ 64) (events : List Event)
    (hw : ∀ e ∈ events, (e.sample + 1) * c.arraySize ≤ 2 ^ 64) (i j : Nat) (hi : i < nof) (hj : j < c.arraySize)
    (record : Bytes) (hr : recordOf events recordId i = some record) (small : record.length ≤ 2 ^ 28) (v : IntTy) (hv : 0 < v.bits) :
    (c.Inside j record.length → v.CanHold (c.numberIn record j) →
      c.askInt v ((c.intObs recordId nof).get ((c.intObs recordId nof).onSamples events) i j) =
        (c.getValid record j, some (c.numberIn record j))) ∧
    (¬ c.Inside j record.length →
      c.askInt v ((c.intObs recordId nof).get ((c.intObs recordId nof).onSamples events) i j) = (false, some 0)) := by
  have hk := (fixed_kind c h.fixed).1
  rw [C40_fixed (c.intObs recordId nof) hk hsize events hw i j hi hj]
  unfold recordOf at hr
  obtain ⟨e, he, hd⟩ := Option.map_eq_some_iff.1 hr
  change lastEvent events (c.intObs recordId nof).recordId i = some e at he
  rw [he]
  change (_ → _ → c.askInt v (c.intIn c.keepTy e.data j) = _) ∧ (_ → c.askInt v (c.intIn c.keepTy e.data j) = _)
  rw [hd, intIn_eq c h record small j hj]
  constructor
  · intro hin hh
    rw [if_pos hin]
    unfold Chan.askInt
    simp only [Option.map_some]
    rw [wide_number c h, cast_id hv hh]
  · intro hin
    rw [if_neg hin]
    unfold Chan.askInt Chan.wide IntTy.cast
    simp only [Option.map_some]
    congr 2
    repeat' split
    all_goals simp

/-- A signed channel of 9 bits in big endian, four bits into the record. -/
def exNine : Chan :=
  { type := .fixedLength, dataType := .signedBe, byteOffset := 0, bitOffset := 4, bitCount := 9, invalidFlag := true, invalidPos := 0,
    nofDataBytes := 2, arraySize := 1 }

example : exNine.IntChannel ∧ exNine.Inside 0 3 ∧ exNine.numberIn [0x1F#8, 0xF0#8, 0x00#8] 0 = -1 ∧
    (IntTy.mk true 16).CanHold (exNine.numberIn [0x1F#8, 0xF0#8, 0x00#8] 0) ∧
    exNine.askInt ⟨true, 16⟩ ((exNine.intObs 7 2).get ((exNine.intObs 7 2).onSamples [⟨0, 7, [0x1F#8, 0xF0#8, 0x00#8]⟩]) 0 0) = (true, some (-1)) ∧
    exNine.askInt ⟨true, 16⟩ ((exNine.intObs 7 2).get ((exNine.intObs 7 2).onSamples [⟨0, 7, [0x1F#8, 0xF0#8, 0x01#8]⟩]) 0 0) = (false, some (-1)) := by
  refine ⟨⟨by decide, by decide, by decide, by decide, by decide, by decide⟩, by decide, by decide, by decide, by decide +kernel, by decide +kernel⟩

/-- C95: all samples at once, and all elements of an array at once, are the single values in order. -/
theorem C95_lists (c : Chan) (v : IntTy) (recordId nof : Nat) (s : ObsSt (Option Int)) (i : Nat) :
    (c.allInt v recordId nof s).length = nof ∧ (c.arrayInt v recordId nof s i).length = c.arraySize ∧
    (∀ k, k < nof → (c.allInt v recordId nof s)[k]? = some (c.askInt v ((c.intObs recordId nof).get s k 0))) ∧
    (∀ j, j < c.arraySize → (c.arrayInt v recordId nof s i)[j]? = some (c.askInt v ((c.intObs recordId nof).get s i j))) := by
  unfold Chan.allInt Chan.arrayInt
  refine ⟨by simp, by simp, ?_, ?_⟩
  · intro k hk; simp [List.getElem?_range hk]
  · intro j hj; simp [List.getElem?_range hj]

example : (exNine.allInt tI64 7 2 ((exNine.intObs 7 2).onSamples [⟨1, 7, [0x1F#8, 0xF0#8, 0x00#8]⟩])) = [(false, some 0), (true, some (-1))] := by
  decide +kernel

/-- C95: asking for a `double` gives a `double` with no other one nearer to the number, and the number itself if it has at most 53 bits; asking
for a text gives the number in decimal. -/
theorem C95_double_text (c : Chan) (h : c.IntChannel) (recordId nof : Nat) (hsize : nof * c.arraySize ≤ 2 ^ 64) (events : List Event)
    (hw : ∀ e ∈ events, (e.sample + 1) * c.arraySize ≤ 2 ^ 64) (i j : Nat) (hi : i < nof) (hj : j < c.arraySize)
    (record : Bytes) (hr : recordOf events recordId i = some record) (small : record.length ≤ 2 ^ 28) (hin : c.Inside j record.length) :
    (∃ d, c.askDouble ((c.intObs recordId nof).get ((c.intObs recordId nof).onSamples events) i j) = (c.getValid record j, some d) ∧
      Nearest (c.numberIn record j) d ∧ (|c.numberIn record j| < 2 ^ 53 → d = c.numberIn record j)) ∧
    c.askText ((c.intObs recordId nof).get ((c.intObs recordId nof).onSamples events) i j) =
      (c.getValid record j, some (intText (c.numberIn record j))) := by
  have hk := (fixed_kind c h.fixed).1
  rw [C40_fixed (c.intObs recordId nof) hk hsize events hw i j hi hj]
  unfold recordOf at hr
  obtain ⟨e, he, hd⟩ := Option.map_eq_some_iff.1 hr
  change lastEvent events (c.intObs recordId nof).recordId i = some e at he
  rw [he]
  change (∃ d, c.askDouble (c.intIn c.keepTy e.data j) = _ ∧ _) ∧ c.askText (c.intIn c.keepTy e.data j) = _
  rw [hd, intIn_eq c h record small j hj, if_pos hin]
  unfold Chan.askDouble Chan.askText
  simp only [Option.map_some]
  rw [wide_number c h]
  exact ⟨⟨_, rfl, dblRound_nearest _, fun hh => dblRound_id (isDbl_int hh)⟩, rfl⟩

example : exNine.askText ((exNine.intObs 7 2).get ((exNine.intObs 7 2).onSamples [⟨0, 7, [0x1F#8, 0xE0#8, 0x00#8]⟩]) 0 0) =
    (true, some [0x2D#8, 0x32#8]) := by decide +kernel

/-- C95 for floats: asking the observer of a float channel of 16, 32 or 64 bits for a `double` gives exactly the number whose bit pattern
is at the place of the channel, also for infinities, negative zero and numbers too small to be normal. -/
theorem C95_float (c : Chan) (h : c.FloatChannel) (recordId nof : Nat) (hsize : nof * c.arraySize ≤ 2 ^ 64) (events : List Event)
    (hw : ∀ e ∈ events, (e.sample + 1) * c.arraySize ≤ 2 ^ 64) (i j : Nat) (hi : i < nof) (hj : j < c.arraySize)
    (record : Bytes) (hr : recordOf events recordId i = some record) (small : record.length ≤ 2 ^ 28) :
    (c.Inside j record.length →
      (c.fltObs recordId nof).get ((c.fltObs recordId nof).onSamples events) i j = (c.getValid record j, some (c.floatNumIn record j))) ∧
    (¬ c.Inside j record.length →
      (c.fltObs recordId nof).get ((c.fltObs recordId nof).onSamples events) i j = (false, some (.fin false 0))) := by
  have hk := (fixed_kind c h.fixed).1
  rw [C40_fixed (c.fltObs recordId nof) hk hsize events hw i j hi hj]
  unfold recordOf at hr
  obtain ⟨e, he, hd⟩ := Option.map_eq_some_iff.1 hr
  change lastEvent events (c.fltObs recordId nof).recordId i = some e at he
  rw [he]
  change (_ → c.fltIn e.data j = _) ∧ (_ → c.fltIn e.data j = _)
  rw [hd, fltIn_eq c h record small j hj]
  exact ⟨fun hin => by rw [if_pos hin], fun hin => by rw [if_neg hin]⟩

/-- A float of 16 bits in little endian. -/
def exHalf : Chan :=
  { type := .fixedLength, dataType := .floatLe, byteOffset := 1, bitOffset := 0, bitCount := 16, invalidFlag := false, invalidPos := 0,
    nofDataBytes := 3, arraySize := 1 }

example : exHalf.FloatChannel ∧ exHalf.Inside 0 3 ∧ exHalf.floatNumIn [0x00#8, 0x01#8, 0xBC#8] 0 = .fin true (1025 / 1024) := by
  refine ⟨⟨by decide, by decide, by decide, by decide, by decide⟩, by decide, by decide +kernel⟩

/-- C95 for virtual channels: the value is the number of the sample as long as the type the values are kept in can hold it. -/
theorem C95_virtual_partial (c : Chan) (ht : c.type = .virtualMaster ∨ c.type = .virtualData) (hu : c.isU = true) (recordId nof : Nat)
    (hbits : c.bitCount = 0 ∨ nof ≤ 2 ^ c.bitCount) (hnof : nof ≤ 2 ^ 63)
    (hsize : nof * c.arraySize ≤ 2 ^ 64) (events : List Event)
    (hw : ∀ e ∈ events, (e.sample + 1) * c.arraySize ≤ 2 ^ 64) (i j : Nat) (hi : i < nof) (hj : j < c.arraySize)
    (record : Bytes) (hr : recordOf events recordId i = some record) (v : IntTy) (hv : 0 < v.bits) (hh : v.CanHold i) :
    c.askInt v ((c.intObs recordId nof).get ((c.intObs recordId nof).onSamples events) i j) = (true, some (i : Int)) := by
  have hk : c.obsKind = .virtual := by unfold Chan.obsKind; rcases ht with h | h <;> rw [h]
  rw [C40_virtual (c.intObs recordId nof) hk hsize events hw i j hi hj]
  unfold recordOf at hr
  obtain ⟨e, he, hd⟩ := Option.map_eq_some_iff.1 hr
  change lastEvent events (c.intObs recordId nof).recordId i = some e at he
  rw [he]
  change c.askInt v (true, some (c.keepTy.cast i)) = _
  have hkeep : c.keepTy.CanHold i := by
    unfold Chan.keepTy IntTy.CanHold
    rw [hu]
    simp only [if_true, Bool.false_eq_true, if_false]
    have hd : c.dataBytes = 0 ∨ nof ≤ 2 ^ (8 * c.dataBytes) := by
      rcases hbits with hb | hb
      · left; unfold Chan.dataBytes; rw [hb]; rfl
      · right
        have h8 : c.bitCount ≤ 8 * c.dataBytes := by unfold Chan.dataBytes; split <;> omega
        exact Nat.le_trans hb (Nat.pow_le_pow_right (by omega) h8)
    generalize c.dataBytes = d at hd
    refine ⟨by omega, ?_⟩
    split
    · next h => subst h; norm_num at hd; omega
    · split
      · next h => subst h; norm_num at hd; omega
      · split
        · next h => subst h; norm_num at hd; omega
        · omega
  have hwide : c.wide i = i := by
    unfold Chan.wide
    rw [hu]
    exact cast_id (by decide) (by show (0 : Int) ≤ i ∧ (i : Int) < 2 ^ 64; omega)
  have hpos : 0 < c.keepTy.bits := by unfold Chan.keepTy; rw [hu]; simp only [if_true]; repeat' split
                                      all_goals omega
  unfold Chan.askInt
  simp only [Option.map_some]
  rw [cast_id hpos hkeep, hwide, cast_id hv hh]

/-- A virtual master as the writer leaves it (`prepareKind`: no bits in the record), with unsigned values. -/
def exVirtual : Chan :=
  { type := .virtualMaster, dataType := .unsignedLe, byteOffset := 0, bitOffset := 0, bitCount := 0, invalidFlag := false, invalidPos := 0,
    nofDataBytes := 1, arraySize := 1 }

example : exVirtual.askInt tU64 ((exVirtual.intObs 7 300).get ((exVirtual.intObs 7 300).onSamples [⟨299, 7, [0]⟩]) 299 0) = (true, some 299) := by
  decide +kernel

/-- C95 is false for virtual channels of signed integers: as the writer leaves them they have no bits in the record, the observer keeps the
values in eight bits, and sample 128 has the value -128. -/
theorem C95_virtual_signed_false : ¬ C95_Statement := by
  intro h
  have := (h { exVirtual with dataType := .signedLe } 7 129 [⟨128, 7, [0]⟩] 128 0 tI64 [0] (Or.inr ⟨Or.inr rfl, Or.inl rfl⟩) (by decide)
    (by decide) (by decide) (by decide) (by decide) (by decide) (by decide)).2 (Or.inl rfl) (by decide)
  revert this
  decide +kernel

/-- What is read in this case. -/
theorem C95_virtual_signed_value :
    ({ exVirtual with dataType := .signedLe } : Chan).askInt tI64
      ((({ exVirtual with dataType := .signedLe } : Chan).intObs 7 129).get
        ((({ exVirtual with dataType := .signedLe } : Chan).intObs 7 129).onSamples [⟨128, 7, [0]⟩]) 128 0) = (true, some (-128)) := by
  decide +kernel

/-- A virtual channel of floats is kept in single precision: samples 16777216 and 16777217 have the same value. -/
theorem C95_virtual_float_false :
    (({ exVirtual with dataType := .floatLe } : Chan).fltObs 7 20000000).virt 16777217 =
      (({ exVirtual with dataType := .floatLe } : Chan).fltObs 7 20000000).virt 16777216 := by
  decide +kernel

/-- A virtual channel with a declared width: the number of the sample is cut to it. -/
theorem C95_virtual_width_false :
    ({ exVirtual with bitCount := 8 } : Chan).askInt tU64
      ((({ exVirtual with bitCount := 8 } : Chan).intObs 7 257).get
        ((({ exVirtual with bitCount := 8 } : Chan).intObs 7 257).onSamples [⟨256, 7, [0]⟩]) 256 0) = (true, some 0) := by
  decide +kernel

/-- C95 from the file: reading the records `recs` of a data group with an observer of an integer channel among its observers, and then asking this observer,
gives the number that the record of the sample has at the place of the channel. -/
theorem C95_reading (cfg : RCfg) (hok : cfg.Ok) (recs : List Rec) (hval : ∀ r ∈ recs, cfg.ValidRec r) (blocks : List Blk) (file : Bytes)
    (hb : Holds blocks (cfg.encode recs)) (needs : Nat → List Nat) (obs : List Nat)
    (hsubs : ∀ id, cfg.subs id = subscribing needs obs id)
    (hcont : ∀ l e, cfg.cont (l ++ [e]) = (notifyObs (fastList needs (cfg.groups.map (·.id)) obs) obs (fun _ => true) e.id).2)
    (c : Chan) (h : c.IntChannel) (recordId o : Nat) (ho : o ∈ obs) (hneed : recordId ∈ needs o)
    (hgroup : recordId ∈ cfg.groups.map (·.id)) (hsize : ∀ g ∈ cfg.groups, g.nof * c.arraySize ≤ 2 ^ 64) :
    ∃ n events, ∀ fuel, n ≤ fuel → cfg.read fuel blocks file = .done events ∧
      ∀ i j record (v : IntTy), i < cfg.nof recordId → j < c.arraySize → (groupRecs recs recordId)[i]? = some record →
        record.length ≤ 2 ^ 28 → c.Inside j record.length → 0 < v.bits → v.CanHold (c.numberIn record j) →
        c.askInt v ((c.intObs recordId (cfg.nof recordId)).get
            ((c.intObs recordId (cfg.nof recordId)).onSamples (received needs (cfg.groups.map (·.id)) obs o events)) i j) =
          (c.getValid record j, some (c.numberIn record j)) := by
  obtain ⟨n, events, hrd⟩ := C40_reading cfg hok recs hval blocks file hb needs obs hsubs hcont (c.intObs recordId (cfg.nof recordId)) o ho hneed
    hgroup (Or.inl (fixed_kind c h.fixed).1) rfl hsize
  refine ⟨n, events, fun fuel hf => ⟨(hrd fuel hf).1, ?_⟩⟩
  intro i j record v hi hj hr small hin hv hh
  rw [(hrd fuel hf).2 i j hi hj]
  change c.askInt v (((groupRecs recs recordId)[i]?.map fun b => c.intIn c.keepTy b j).getD _) = _
  rw [hr, Option.map_some, Option.getD_some, intIn_eq c h record small j hj, if_pos hin]
  unfold Chan.askInt
  simp only [Option.map_some]
  rw [wide_number c h, cast_id hv hh]

end Mdf
