import Verif.Proof.Terminate

/-!
# Reading records

C11 samples written are the samples read; C12 the split into blocks is invisible; C13 empty blocks; C14 unsubscribed
groups; C15 partial reads; C45 truncated data; C46 reading terminates.
-/

namespace Mdf

/-! ### A data group used in the examples: three groups, one of them of variable length -/

def exCfg : RCfg :=
  { idSize := 1, groups := [⟨1, false, 2, 3⟩, ⟨2, false, 0, 3⟩, ⟨3, true, 0, 3⟩], subs := fun _ => true, cont := fun _ => true }

def exRecs : List Rec := [⟨1, [0x11, 0x12]⟩, ⟨3, [0x41, 0x42, 0x43]⟩, ⟨2, []⟩, ⟨1, [0x13, 0x14]⟩]

/-- The data bytes of `exRecs` split into a plain block, a compressed one and a plain one; a record id, a length field
and a record are split over two blocks. -/
def exBlocks : List Blk :=
  [⟨false, [1, 0x11, 0x12, 3, 3, 0], [0xAA, 0xBB]⟩, ⟨true, [0, 0, 0x41], []⟩, ⟨false, [0x42, 0x43, 2, 1, 0x13, 0x14], []⟩]

theorem exCfg_ok : exCfg.Ok :=
  ⟨by decide, by decide, by decide, by decide, by decide⟩

instance (cfg : RCfg) (r : Rec) : Decidable (cfg.ValidRec r) :=
  match h : cfg.group r.id with
  | none => isFalse (by rintro ⟨g, hg, _⟩; rw [h] at hg; cases hg)
  | some g =>
    if hc : (if g.vlsd then r.data.length < 2 ^ 32 else r.data.length = g.size) then isTrue ⟨g, h, hc⟩
    else isFalse (by rintro ⟨g', hg, hc'⟩; rw [h] at hg; cases hg; exact hc hc')

theorem exHolds : Holds exBlocks (exCfg.encode exRecs) := ⟨by decide, by decide⟩

/-! ### C11 -/

/-- All records are delivered if all groups are subscribed and the counters are not too low. -/
theorem deliver_all (cfg : RCfg) (hsub : ∀ g ∈ cfg.groups, cfg.subs g.id = true) (recs : List Rec)
    (hv : ∀ r ∈ recs, cfg.ValidRec r) (hnof : ∀ g ∈ cfg.groups, recs.countP (·.id = g.id) ≤ g.nof) :
    cfg.deliver [] recs = recs.mapIdx fun i r => ⟨(recs.take i).countP (·.id = r.id), r.id, r.data⟩ := by
  have key : ∀ (rs before : List Rec), before ++ rs = recs →
      cfg.deliver before rs = rs.mapIdx fun i r => ⟨(recs.take (before.length + i)).countP (·.id = r.id), r.id, r.data⟩ := by
    intro rs
    induction rs with
    | nil => intros; rfl
    | cons r rs ih =>
      intro before hsplit
      obtain ⟨g, hg, _⟩ := hv r (by rw [← hsplit]; simp)
      obtain ⟨hmem, hid⟩ := group_mem hg
      have hn : cfg.nof r.id = g.nof := by unfold RCfg.nof; rw [hg]; rfl
      have hlt : before.countP (·.id = r.id) < cfg.nof r.id := by
        have := hnof g hmem
        rw [hid, ← hsplit, List.countP_append, List.countP_cons_of_pos (by simp)] at this
        omega
      have hs : cfg.subs r.id = true := by rw [← hid]; exact hsub g hmem
      rw [deliver_cons, if_pos ⟨hs, hlt⟩, ih (before ++ [r]) (by rw [List.append_assoc]; exact hsplit), List.mapIdx_cons]
      simp only [List.cons_append, List.nil_append, List.cons.injEq, Event.mk.injEq, and_true]
      constructor
      · rw [← hsplit, Nat.add_zero, List.take_left' rfl]
      · simp only [List.length_append, List.length_singleton]
        congr 1
        funext i r'
        rw [Nat.add_assoc, Nat.add_comm 1 i]
  rw [key recs [] rfl]
  simp

/-- C11.  The records written to a data group, in any interleaving of its groups and stored in any non-empty blocks,
are notified one by one in the order of writing, each with the bytes written, the record id of its group and the
number of earlier samples of its group as sample index.  (All groups are subscribed, the observers do not stop the
reading, and the sample counter of a group is not less than the number of its records.) -/
theorem C11_samples_written_are_read (cfg : RCfg) (hok : cfg.Ok) (hsub : ∀ g ∈ cfg.groups, cfg.subs g.id = true)
    (hcont : ∀ l, cfg.cont l = true) (recs : List Rec) (hv : ∀ r ∈ recs, cfg.ValidRec r)
    (hnof : ∀ g ∈ cfg.groups, recs.countP (·.id = g.id) ≤ g.nof)
    (blocks : List Blk) (file : Bytes) (hb : Holds blocks (cfg.encode recs)) :
    ∃ n, ∀ fuel, n ≤ fuel → cfg.read fuel blocks file =
      .done (recs.mapIdx fun i r => ⟨(recs.take i).countP (·.id = r.id), r.id, r.data⟩) := by
  refine ⟨(cfg.encode recs ++ []).length + recs.length + 1, fun fuel hf => ?_⟩
  rw [read_spec hok recs hv [] (Or.inl rfl) blocks file (by rw [List.append_nil]; exact hb) fuel (by omega),
    cutAt_nil_of_cont _ _ hcont]
  congr 1
  exact deliver_all cfg hsub recs hv hnof

example : ∃ n, ∀ fuel, n ≤ fuel → exCfg.read fuel exBlocks [0xCC] =
    .done [⟨0, 1, [0x11, 0x12]⟩, ⟨0, 3, [0x41, 0x42, 0x43]⟩, ⟨0, 2, []⟩, ⟨1, 1, [0x13, 0x14]⟩] :=
  C11_samples_written_are_read exCfg exCfg_ok (by decide) (fun _ => rfl) exRecs (by decide) (by decide) exBlocks [0xCC] exHolds

/-- C11, observers that stop, too small sample counters, subscription of some groups and an incomplete record at the
end: the events are those of `deliver` (see Spec/ReadCache.lean), cut after the first one that an observer answers
with `false`. -/
theorem C11_delivered (cfg : RCfg) (hok : cfg.Ok) (recs : List Rec) (hv : ∀ r ∈ recs, cfg.ValidRec r) (tail : Bytes)
    (hT : cfg.Tail tail) (blocks : List Blk) (file : Bytes) (hb : Holds blocks (cfg.encode recs ++ tail)) :
    ∃ n, ∀ fuel, n ≤ fuel → cfg.read fuel blocks file = .done (cutAt cfg.cont [] (cfg.deliver [] recs)) :=
  ⟨_, fun fuel hf => read_spec hok recs hv tail hT blocks file hb fuel (Nat.lt_of_succ_le hf)⟩

example : (∀ r ∈ exRecs, exCfg.ValidRec r) ∧ exCfg.Tail [3, 9, 0, 0] ∧
    Holds (exBlocks ++ [⟨true, [3, 9], []⟩, ⟨true, [0, 0], []⟩]) (exCfg.encode exRecs ++ [3, 9, 0, 0]) := by
  refine ⟨by decide, Or.inr (Or.inr (Or.inr ⟨⟨3, true, 0, 3⟩, by decide, by decide, by decide⟩)), ⟨by decide, by decide⟩⟩

/-! ### C12 -/

/-- C12.  Two ways of storing the same record bytes in non-empty blocks, plain or compressed, are read alike: neither the
block boundaries, nor what follows a block in the file, nor the initial file position matter. -/
theorem C12_split_invisible (cfg : RCfg) (hok : cfg.Ok) (recs : List Rec) (hv : ∀ r ∈ recs, cfg.ValidRec r)
    (blocks₁ blocks₂ : List Blk) (file₁ file₂ : Bytes) (h₁ : Holds blocks₁ (cfg.encode recs))
    (h₂ : Holds blocks₂ (cfg.encode recs)) :
    ∃ n evs, ∀ fuel, n ≤ fuel → cfg.read fuel blocks₁ file₁ = .done evs ∧ cfg.read fuel blocks₂ file₂ = .done evs :=
  ⟨_, _, fun fuel hf =>
    ⟨read_spec hok recs hv [] (Or.inl rfl) blocks₁ file₁ (by rw [List.append_nil]; exact h₁) fuel (Nat.lt_of_succ_le hf),
     read_spec hok recs hv [] (Or.inl rfl) blocks₂ file₂ (by rw [List.append_nil]; exact h₂) fuel (Nat.lt_of_succ_le hf)⟩⟩

example : (∀ r ∈ exRecs, exCfg.ValidRec r) ∧ Holds exBlocks (exCfg.encode exRecs) ∧
    Holds [⟨true, exCfg.encode exRecs, []⟩] (exCfg.encode exRecs) ∧ exBlocks.length = 3 :=
  ⟨by decide, exHolds, ⟨by decide, by decide⟩, rfl⟩

/-- C12 for every byte string, also garbage: the block reader gives what the reader of a plain byte string gives,
unless the data end inside a record of a group nobody subscribes on. -/
theorem C12_refines_flat_reader (cfg : RCfg) (hok : cfg.Ok) (S : Bytes) (evs : List Event) (hS : cfg.flat S = some evs)
    (blocks : List Blk) (file : Bytes) (hb : Holds blocks S) :
    ∃ n, ∀ fuel, n ≤ fuel → cfg.read fuel blocks file = .done evs :=
  ⟨2 * S.length + 1, fun fuel hf => read_flat hok S evs hS blocks file hb fuel (by omega)⟩

theorem flatLoop_isSome {cfg : RCfg} (hs : ∀ id, cfg.subs id = true) : ∀ (fuel : Nat) (sample : Nat → Nat) (events : List Event)
    (S : Bytes), ∃ evs, cfg.flatLoop fuel sample events S = some evs := by
  intro fuel
  induction fuel with
  | zero => intro sample events S; exact ⟨_, rfl⟩
  | succ k ih =>
    intro sample events S
    have hbody : ∀ id g n s, cfg.flatBody id g n sample events s ≠ .cut := by
      intro id g n s
      unfold RCfg.flatBody
      rw [hs id]
      split
      · simp
      · simp only
        split <;> simp
    have hcut : cfg.flatOne sample events S ≠ .cut := by
      unfold RCfg.flatOne
      split
      · simp
      · simp only
        split
        · simp
        · split
          · split
            · simp
            · exact hbody _ _ _ _
          · exact hbody _ _ _ _
    unfold RCfg.flatLoop
    split
    · exact ⟨_, rfl⟩
    · split
      · exact ⟨_, rfl⟩
      · rename_i h; exact absurd h hcut
      · split
        · exact ih _ _ _
        · exact ⟨_, rfl⟩

/-- C12 for every byte string, if all groups are subscribed. -/
theorem C12_split_invisible_any_bytes (cfg : RCfg) (hok : cfg.Ok) (hs : ∀ id, cfg.subs id = true) (S : Bytes)
    (blocks₁ blocks₂ : List Blk) (file₁ file₂ : Bytes) (h₁ : Holds blocks₁ S) (h₂ : Holds blocks₂ S) :
    ∃ n evs, ∀ fuel, n ≤ fuel → cfg.read fuel blocks₁ file₁ = .done evs ∧ cfg.read fuel blocks₂ file₂ = .done evs := by
  obtain ⟨evs, h⟩ := flatLoop_isSome hs S.length (fun _ => 0) [] S
  exact ⟨2 * S.length + 1, evs, fun fuel hf => ⟨read_flat hok S evs h blocks₁ file₁ h₁ fuel (by omega),
    read_flat hok S evs h blocks₂ file₂ h₂ fuel (by omega)⟩⟩

example : exCfg.Ok ∧ (∀ id, exCfg.subs id = true) ∧ Holds [⟨false, [1, 2], [7]⟩, ⟨true, [3, 9, 9], []⟩] [1, 2, 3, 9, 9] ∧
    exCfg.flat [1, 2, 3, 9, 9] = some [⟨0, 1, [2, 3]⟩] := ⟨exCfg_ok, fun _ => rfl, ⟨by decide, by decide⟩, by decide⟩

/-! ### C13 -/

/-- C13 is false of the code: with an empty block in the list the later records are not read. -/
theorem C13_empty_block_hides_data :
    (∀ r ∈ exRecs, exCfg.ValidRec r) ∧
    ∃ blocks : List Blk, blocks.flatMap (·.data) = exCfg.encode exRecs ∧
      (∀ fuel, 3 ≤ fuel → exCfg.read fuel blocks [] = .done [⟨0, 1, [0x11, 0x12]⟩]) ∧
      (∀ fuel, 30 ≤ fuel → ∃ evs, exCfg.read fuel (blocks.filter (·.data ≠ [])) [] = .done evs ∧ evs.length = 4) := by
  refine ⟨by decide, [⟨false, [1, 0x11, 0x12], []⟩, ⟨false, [], []⟩,
    ⟨false, [3, 3, 0, 0, 0, 0x41, 0x42, 0x43, 2, 1, 0x13, 0x14], []⟩], by decide, ?_, ?_⟩
  · intro fuel hf
    obtain ⟨k, rfl⟩ : ∃ k, fuel = k + 3 := ⟨fuel - 3, by omega⟩
    rfl
  · intro fuel hf
    refine ⟨_, read_spec exCfg_ok exRecs (by decide) [] (Or.inl rfl) _ _ ⟨by decide, by decide⟩ fuel ?_, by decide⟩
    have : (exCfg.encode exRecs ++ []).length + exRecs.length = 19 := by decide
    omega

/-! ### C14 -/

theorem deliver_filter (cfg : RCfg) (recs : List Rec) : ∀ before,
    cfg.deliver before recs = ({ cfg with subs := fun _ => true }.deliver before recs).filter fun e => cfg.subs e.id := by
  induction recs with
  | nil => intro; rfl
  | cons r rs ih =>
    intro before
    rw [deliver_cons, deliver_cons, List.filter_append, ← ih, filter_singleton_if]
    congr 1
    simp only [true_and, RCfg.nof, RCfg.group]
    by_cases h1 : cfg.subs r.id = true <;> by_cases h2 : before.countP (·.id = r.id) <
      ((cfg.groups.find? (·.id = r.id)).map (·.nof)).getD 0 <;> simp [h1, h2]

/-- C14.  With a subscription of some groups the observers get exactly those notifications of a reading with all
groups subscribed that belong to the subscribed groups: the same bytes, sample indexes and order. -/
theorem C14_skipping_is_filtering (cfg : RCfg) (hok : cfg.Ok) (hcont : ∀ l, cfg.cont l = true) (recs : List Rec)
    (hv : ∀ r ∈ recs, cfg.ValidRec r) (blocks : List Blk) (file : Bytes) (hb : Holds blocks (cfg.encode recs)) :
    ∃ n all, ∀ fuel, n ≤ fuel →
      { cfg with subs := fun _ => true }.read fuel blocks file = .done all ∧
      cfg.read fuel blocks file = .done (all.filter fun e => cfg.subs e.id) := by
  have hok' : ({ cfg with subs := fun _ => true } : RCfg).Ok := ⟨hok.distinct, hok.width, hok.fits, hok.single, hok.progress⟩
  refine ⟨(cfg.encode recs ++ []).length + recs.length + 1, { cfg with subs := fun _ => true }.deliver [] recs, fun fuel hf => ⟨?_, ?_⟩⟩
  · rw [read_spec hok' recs hv [] (Or.inl rfl) blocks file (by rw [List.append_nil]; exact hb) fuel hf,
      cutAt_nil_of_cont _ _ hcont]
  · rw [read_spec hok recs hv [] (Or.inl rfl) blocks file (by rw [List.append_nil]; exact hb) fuel hf,
      cutAt_nil_of_cont _ _ hcont, deliver_filter]

example : ({ exCfg with subs := fun i => i == 1 } : RCfg).read 30 exBlocks [] =
    .done [⟨0, 1, [0x11, 0x12]⟩, ⟨1, 1, [0x13, 0x14]⟩] := by decide

/-! ### C15 -/

/-- C15 as documented (mdfreader.h lines 216-234: "First sample index to read", "Last sample index to read"): the
samples with index from `lo` to `hi`. -/
def PartialReadCorrect : Prop :=
  ∀ (cfg : RCfg) (lo hi : Nat) (recs : List Rec) (blocks : List Blk) (file : Bytes), cfg.Ok → (∀ l, cfg.cont l = true) →
    (∀ r ∈ recs, cfg.ValidRec r) → Holds blocks (cfg.encode recs) → lo ≤ hi →
    ∃ n, ∀ fuel, n ≤ fuel → cfg.readPartial lo hi fuel blocks file =
      .done ((cfg.deliver [] recs).filter fun e => lo ≤ e.sample ∧ e.sample ≤ hi)

/-- C15, what the code does: `ReadPartialData(lo, hi)` gives exactly those notifications of a full reading whose sample
index plus one is in the range, that is the indexes `lo - 1` to `hi - 1`.  Missing to C15: the indexes are off by
one. -/
theorem C15_partial_read_partial (cfg : RCfg) (hok : cfg.Ok) (hcont : ∀ l, cfg.cont l = true) (lo hi : Nat) (hle : lo ≤ hi)
    (recs : List Rec) (hv : ∀ r ∈ recs, cfg.ValidRec r) (blocks : List Blk) (file : Bytes)
    (hb : Holds blocks (cfg.encode recs)) :
    ∃ n all, ∀ fuel, n ≤ fuel → cfg.read fuel blocks file = .done all ∧
      cfg.readPartial lo hi fuel blocks file = .done (all.filter fun e => lo ≤ e.sample + 1 ∧ e.sample + 1 ≤ hi) := by
  refine ⟨(cfg.encode recs ++ []).length + recs.length + 1, cfg.deliver [] recs, fun fuel hf => ⟨?_, ?_⟩⟩
  · rw [read_spec hok recs hv [] (Or.inl rfl) blocks file (by rw [List.append_nil]; exact hb) fuel hf,
      cutAt_nil_of_cont _ _ hcont]
  · rw [readPartial_spec hok lo hi recs hv blocks file hb fuel (by rw [List.append_nil] at hf; omega), if_neg (by omega),
      cutAt_nil_of_cont _ _ hcont]
    rfl

example : exCfg.read 30 exBlocks [] =
      .done [⟨0, 1, [0x11, 0x12]⟩, ⟨0, 3, [0x41, 0x42, 0x43]⟩, ⟨0, 2, []⟩, ⟨1, 1, [0x13, 0x14]⟩] ∧
    exCfg.readPartial 2 2 30 exBlocks [] = .done [⟨1, 1, [0x13, 0x14]⟩] := by decide

/-- With `hi < lo` the sample `lo` (in the numbering above) is read. -/
theorem C15_swapped_range (cfg : RCfg) (lo hi fuel : Nat) (h : hi < lo) (blocks : List Blk) (file : Bytes) :
    cfg.readPartial lo hi fuel blocks file = cfg.readPartial lo lo fuel blocks file := by
  unfold RCfg.readPartial
  simp [h]

/-- C15 is false of the code: asking for the first sample only gives nothing. -/
theorem C15_off_by_one : ¬ PartialReadCorrect := by
  intro h
  obtain ⟨n, hn⟩ := h exCfg 0 0 exRecs exBlocks [] exCfg_ok (fun _ => rfl) (by decide) exHolds (Nat.le_refl _)
  have h1 := hn (n + 30) (by omega)
  rw [readPartial_spec exCfg_ok 0 0 exRecs (by decide) exBlocks [] exHolds (n + 30) (by
    have : (exCfg.encode exRecs).length + exRecs.length = 19 := by decide
    omega)] at h1
  revert h1
  decide

/-! ### C45 -/

/-- Two groups; the first one (records of 6 bytes) is not subscribed. -/
def exSkip : RCfg :=
  { idSize := 1, groups := [⟨1, false, 6, 5⟩, ⟨2, false, 1, 5⟩], subs := fun i => i == 2, cont := fun _ => true }

theorem exSkip_ok : exSkip.Ok := ⟨by decide, by decide, by decide, by decide, by decide⟩

/-- C45.  Bytes at the end of the data that are not a complete record give no notification.  Missing (and false, see
below): the data end inside the record bytes of a group nobody subscribes on. -/
theorem C45_truncated_data_partial (cfg : RCfg) (hok : cfg.Ok) (recs : List Rec)
    (hv : ∀ r ∈ recs, cfg.ValidRec r) (tail : Bytes) (hT : cfg.Tail tail) (blocks blocks' : List Blk) (file : Bytes)
    (hb : Holds blocks (cfg.encode recs ++ tail)) (hb' : Holds blocks' (cfg.encode recs)) :
    ∃ n evs, ∀ fuel, n ≤ fuel → cfg.read fuel blocks file = .done evs ∧ cfg.read fuel blocks' file = .done evs :=
  ⟨(cfg.encode recs ++ tail).length + (cfg.encode recs ++ []).length + recs.length + 1, _, fun fuel hf =>
    ⟨read_spec hok recs hv tail hT blocks file hb fuel (by omega),
     read_spec hok recs hv [] (Or.inl rfl) blocks' file (by rw [List.append_nil]; exact hb') fuel (by omega)⟩⟩

example : exSkip.Tail [2] ∧ Holds [⟨true, [2, 8, 2], []⟩] (exSkip.encode [⟨2, [8]⟩] ++ [2]) ∧
    Holds [⟨true, [2, 8], []⟩] (exSkip.encode [⟨2, [8]⟩]) :=
  ⟨Or.inr (Or.inr (Or.inr ⟨⟨2, false, 1, 5⟩, by decide, by decide, by decide⟩)), ⟨by decide, by decide⟩, ⟨by decide, by decide⟩⟩

/-- C45 is false of the code: data that end inside a record of a group nobody subscribes on (one of its 6 bytes is
missing), in two compressed blocks, give a sample that was never written. -/
theorem C45_phantom_sample :
    let blocks : List Blk := [⟨true, [2, 2, 1, 9], []⟩, ⟨true, [9, 9, 9, 9], []⟩]
    blocks.flatMap (·.data) = exSkip.encode [⟨2, [2]⟩] ++ [1, 9, 9, 9, 9, 9] ∧
    ∀ fuel, 30 ≤ fuel → exSkip.read fuel blocks [] = .done [⟨0, 2, [2]⟩, ⟨1, 2, [1]⟩] := by
  refine ⟨by decide, fun fuel hf => ?_⟩
  obtain ⟨k, rfl⟩ : ∃ k, fuel = k + 30 := ⟨fuel - 30, by omega⟩
  rfl

/-- ... or make the reader read outside its buffer. -/
theorem C45_truncated_data_ub :
    let cfg : RCfg := { exSkip with groups := [⟨1, false, 9, 5⟩, ⟨2, false, 1, 5⟩] }
    let blocks : List Blk := [⟨true, [2, 2, 1], []⟩, ⟨true, [9, 9, 9, 9, 9], []⟩]
    cfg.Ok ∧ blocks.flatMap (·.data) = cfg.encode [⟨2, [2]⟩] ++ [1, 9, 9, 9, 9, 9] ∧
    ∀ fuel, 30 ≤ fuel → cfg.read fuel blocks [] = .ub := by
  refine ⟨⟨by decide, by decide, by decide, by decide, by decide⟩, by decide, fun fuel hf => ?_⟩
  obtain ⟨k, rfl⟩ : ∃ k, fuel = k + 30 := ⟨fuel - 30, by omega⟩
  rfl

/-! ### C46 -/

/-- C46.  Reading ends for every content of the blocks, also garbage, if without record ids the records are not empty. -/
theorem C46_reading_ends (cfg : RCfg) (hp : cfg.idSize = 0 → ∀ g ∈ cfg.groups, g.vlsd = false → 0 < g.size)
    (blocks : List Blk) (file : Bytes) :
    ∃ n, ∀ fuel, n ≤ fuel → cfg.read fuel blocks file ≠ .running :=
  ⟨(RC.init blocks file).max + 1, fun fuel hf =>
    readLoop_terminates hp (RC.init blocks file).max _ fuel (Nat.sub_le _ _) (by omega)⟩

example : exSkip.idSize = 0 → ∀ g ∈ exSkip.groups, g.vlsd = false → 0 < g.size := by decide

/-- C46 is false of the code for a group of empty records without record ids: if there is any data byte, the reading
does not end. -/
theorem C46_empty_record_never_ends (cfg : RCfg) (g : RGroup) (h0 : cfg.idSize = 0) (hg : cfg.groups = [g]) (hv : g.vlsd = false)
    (hs : g.size = 0) (hcont : ∀ l, cfg.cont l = true) (blocks : List Blk) (file : Bytes)
    (hb : blocks.flatMap (·.data) ≠ []) (fuel : Nat) : cfg.read fuel blocks file = .running := by
  have hmax : 0 < (RC.init blocks file).max := by
    have : (RC.init blocks file).max = (blocks.flatMap (·.data)).length := by simp [RC.init, List.length_flatMap]
    rw [this]; exact List.length_pos_iff.mpr hb
  have key : ∀ fuel (st : RSt), st.rc = RC.init blocks file → cfg.readLoop fuel st = .running := by
    intro fuel
    induction fuel with
    | zero => intros; rfl
    | succ k ih =>
      intro st hst
      have hone : ∃ st', cfg.parseOne st = .ok (true, st') ∧ st'.rc = RC.init blocks file := by
        unfold RCfg.parseOne RCfg.parseRecordId RCfg.find
        simp only [h0, hg, List.head?_cons, Option.map_some, Option.getD_some, Out.bind, List.length_singleton, if_true,
          hv, Bool.false_eq_true, if_false, hs, hst]
        unfold RCfg.body
        have hga : (RC.init blocks file).getArray 0 = .ok ([], RC.init blocks file) := by
          unfold RC.getArray RC.init; simp
        have hsk : (RC.init blocks file).skipBytes 0 = .ok (RC.init blocks file) := by
          unfold RC.skipBytes RC.init; simp [RC.stepInside]
        rw [hga, hsk]
        simp only [Out.bind, hcont]
        split
        · split
          · exact ⟨_, rfl, rfl⟩
          · exact ⟨_, rfl, rfl⟩
        · exact ⟨_, rfl, rfl⟩
      obtain ⟨st', h1, h2⟩ := hone
      unfold RCfg.readLoop
      have hcount : (RC.init blocks file).count = 0 := rfl
      rw [if_neg (by rw [hst, hg]; simp; omega), h1]
      simp only [if_true]
      exact ih st' h2
  exact key fuel _ rfl

example : ([⟨true, [0], []⟩] : List Blk).flatMap (·.data) ≠ [] := by decide

end Mdf
