import Verif.Proof.Groups

/-!
**C59**: data groups that are saved in the same file keep their own samples.
-/

namespace Mdf

theorem DgData.Full.not_cached {d : DgData} (h : d.Full) : d.cached = false := by
  unfold DgData.cached
  rw [List.any_eq_false]
  intro g hg
  obtain h | h := h g hg
  · rw [h]; simp
  · have : g.nof ≠ 0 := by omega
    simp [this]

theorem isNew_iff (d : DgData) : d.isNew = true ↔ d.Unused := by
  unfold DgData.isNew DgData.Unused
  rw [List.all_eq_true]
  exact ⟨fun h g hg => of_decide_eq_true (h g hg), fun h g hg => decide_eq_true (h g hg)⟩

/-- **C59** (which data groups are saved).  A data group gets a queue exactly if one of its channel groups, VLSD groups not counted, has no
samples. -/
theorem C59_queues (d : DgData) : d.cached = true ↔ ∃ g ∈ d.groups, g.vlsd = false ∧ g.nof = 0 := by
  unfold DgData.cached
  rw [List.any_eq_true]
  constructor
  · rintro ⟨g, hg, h⟩
    exact ⟨g, hg, by simpa using h⟩
  · rintro ⟨g, hg, h⟩
    exact ⟨g, hg, by simpa using h⟩

theorem activeCount_snoc (dgs : List DgData) (d : DgData) :
    activeCount (dgs ++ [d]) = if d.isNew then activeCount dgs + 1 else 0 := by
  unfold activeCount
  rw [List.foldl_append]
  rfl

/-- **C59** (when data are compressed).  Without being told to, the writer compresses the data exactly if it saves periodically and the last
two data groups have no samples in any channel group. -/
theorem C59_compression (m : SaveMode) (dgs : List DgData) : m.compressed dgs = true ↔
    m.compress = true ∨ (m.periodic = true ∧ ∃ pre a b, dgs = pre ++ [a, b] ∧ a.Unused ∧ b.Unused) := by
  have key : activeCount dgs > 1 ↔ ∃ pre a b, dgs = pre ++ [a, b] ∧ a.Unused ∧ b.Unused := by
    constructor
    · intro h
      rcases List.eq_nil_or_concat dgs with rfl | ⟨l, b, rfl⟩
      · exact absurd h (by decide)
      · rw [List.concat_eq_append] at h ⊢
        rw [activeCount_snoc] at h
        split at h
        · rename_i hb
          rcases List.eq_nil_or_concat l with rfl | ⟨pre, a, rfl⟩
          · exact absurd h (by decide)
          · rw [List.concat_eq_append] at h ⊢
            rw [activeCount_snoc] at h
            split at h
            · rename_i ha
              exact ⟨pre, a, b, by simp, (isNew_iff a).mp ha, (isNew_iff b).mp hb⟩
            · omega
        · omega
    · rintro ⟨pre, a, b, rfl, ha, hb⟩
      rw [show pre ++ [a, b] = pre ++ [a] ++ [b] by simp, activeCount_snoc, activeCount_snoc, if_pos ((isNew_iff b).mpr hb),
        if_pos ((isNew_iff a).mpr ha)]
      omega
  unfold SaveMode.compressed
  rw [Bool.or_eq_true, Bool.and_eq_true, decide_eq_true_iff, key]
  exact or_congr Iff.rfl And.comm

example : SaveMode.compressed ⟨false, true⟩ [⟨[⟨false, 3⟩], .none⟩, ⟨[⟨false, 0⟩, ⟨true, 0⟩], .none⟩, ⟨[⟨false, 0⟩], .none⟩] = true ∧
    SaveMode.compressed ⟨false, true⟩ [⟨[⟨false, 0⟩], .none⟩, ⟨[⟨false, 0⟩, ⟨false, 1⟩], .none⟩, ⟨[⟨false, 0⟩], .none⟩] = false := by
  decide

/-- The full statement: whatever the file and the mode, a measurement ends and every data group has what it had, followed by what was saved
for it.  It is false, see below. -/
def C59_Statement : Prop :=
  ∀ (enc : Bytes → Bytes) (m : SaveMode) (f : DgFile) (order : List Nat) (saves : List (Nat → SavePart)), f.Ok → Passes m f order saves →
    ∃ f', f.measure enc m order saves = some f' ∧ KeepsOwn f f' order saves

/-- **C59** (partial: the data groups of earlier measurements must have samples in each of their channel groups).  Then the new data
groups, however many, saved in any order of the queues, periodically or not, compressed or not, have their own samples, and the old data groups have
what they had. -/
theorem C59_own_samples_partial (enc : Bytes → Bytes) (m : SaveMode) (f : DgFile) (order : List Nat) (saves : List (Nat → SavePart))
    (ok : f.Ok) (ord : f.Orderly) (hp : Passes m f order saves) :
    ∃ f', f.measure enc m order saves = some f' ∧ KeepsOwn f f' order saves ∧ f'.Ok ∧ ∀ i, i ∉ order → f'.dgs[i]? = f.dgs[i]? := by
  obtain ⟨old, new, hdgs, hold', hnew⟩ := ord
  have hold : ∀ d ∈ old, d.cached = false := fun d hd => (hold' d hd).not_cached
  have hin : ∀ i ∈ order, old.length ≤ i ∧ i < old.length + new.length ∧ ∃ d, f.dgs[i]? = some d ∧ d.data = .none := by
    intro i hi
    obtain ⟨d, hd, hc⟩ := (hp.queues i).mp hi
    rw [hdgs] at hd
    have hlt := (List.getElem?_eq_some_iff.mp hd).1
    rw [List.length_append] at hlt
    have hge : old.length ≤ i := by
      rcases Nat.lt_or_ge i old.length with h | h
      · rw [List.getElem?_append_left h] at hd
        exact absurd hc (by rw [hold d (List.mem_of_getElem? hd)]; simp)
      · exact h
    refine ⟨hge, hlt, d, by rw [hdgs]; exact hd, ?_⟩
    rw [List.getElem?_append_right hge] at hd
    exact (hnew d (List.mem_of_getElem? hd)).2
  have hact := activeCount_append old new (fun d hd => (isNew_iff d).mpr (hnew d hd).1)
  rw [← hdgs] at hact
  have hr : ∀ i ∈ order, SaveReady (m.compressed f.dgs) f i := by
    intro i hi
    obtain ⟨_, _, d, hd, hn⟩ := hin i hi
    refine ⟨d, hd, ?_⟩
    split
    · intro pos len; rw [hn]; simp
    · exact Or.inl hn
  have hw : m.compressed f.dgs = true ∨ order.length ≤ 1 ∨
      (saves.length ≤ 1 ∧ ∀ i ∈ order, ∃ d, f.dgs[i]? = some d ∧ d.data = .none) := by
    by_cases hc : m.compressed f.dgs = true
    · exact Or.inl hc
    · right
      by_cases hper : m.periodic = true
      · left
        have : ¬ activeCount f.dgs > 1 := by
          intro h; apply hc; unfold SaveMode.compressed; rw [hper, decide_eq_true h]; simp
        refine nodup_short hp.nodup ?_
        intro i hi j hj
        have := hin i hi; have := hin j hj
        omega
      · right
        exact ⟨hp.once (by simpa using hper), fun i hi => (hin i hi).2.2⟩
  obtain ⟨f', h, a, o⟩ := passes_ready enc (m.compressed f.dgs) order hp.nodup saves f ok hr hw
  exact ⟨f', h, ⟨a.len, a.streams⟩, a.ok, o⟩

/-- **C59** (first measurement).  In a file without samples every data group has exactly the samples saved for it after the
measurement. -/
theorem C59_first_measurement (enc : Bytes → Bytes) (m : SaveMode) (f : DgFile) (order : List Nat) (saves : List (Nat → SavePart))
    (hnew : ∀ d ∈ f.dgs, d.Unused ∧ d.data = .none) (hp : Passes m f order saves) :
    ∃ f', f.measure enc m order saves = some f' ∧ f'.dgs.length = f.dgs.length ∧
      ∀ i d', f'.dgs[i]? = some d' → d'.stream f'.bytes = if i ∈ order then savedFor i saves else [] := by
  have ok : f.Ok := fun d hd pos len h => by rw [(hnew d hd).2] at h; cases h
  obtain ⟨f', h, ⟨hl, hs⟩, _, _⟩ := C59_own_samples_partial enc m f order saves ok ⟨[], f.dgs, rfl, by simp, hnew⟩ hp
  refine ⟨f', h, hl, ?_⟩
  intro i d' hd'
  have hi : i < f.dgs.length := by rw [← hl]; exact (List.getElem?_eq_some_iff.mp hd').1
  have hd : f.dgs[i]? = some f.dgs[i] := List.getElem?_eq_getElem hi
  rw [hs i _ d' hd hd', show f.dgs[i].stream f.bytes = [] by unfold DgData.stream; rw [(hnew _ (List.getElem_mem hi)).2]]
  rfl

/-- **C59** (further measurements).  Data groups are added to a file in which every channel group has samples, and their blocks are written
behind the others; after the measurement the old data groups have what they had and the new ones their own samples. -/
theorem C59_further_measurement (enc : Bytes → Bytes) (m : SaveMode) (f : DgFile) (blocks : Bytes) (new : List DgData) (order : List Nat)
    (saves : List (Nat → SavePart)) (ok : f.Ok) (hold' : ∀ d ∈ f.dgs, d.Full) (hnew : ∀ d ∈ new, d.Unused ∧ d.data = .none)
    (hp : Passes m { bytes := f.bytes ++ blocks, dgs := f.dgs ++ new } order saves) :
    ∃ f', DgFile.measure enc m order saves { bytes := f.bytes ++ blocks, dgs := f.dgs ++ new } = some f' ∧ f'.Ok ∧
      (∀ (i : Nat) (d : DgData), f.dgs[i]? = some d → f'.dgs[i]? = some d ∧ d.stream f'.bytes = d.stream f.bytes) ∧
      (∀ (i : Nat) (d' : DgData), f.dgs.length ≤ i → f'.dgs[i]? = some d' → d'.stream f'.bytes = if i ∈ order then savedFor i saves else []) := by
  have hold : ∀ d ∈ f.dgs, d.cached = false := fun d hd => (hold' d hd).not_cached
  have ok1 : DgFile.Ok { bytes := f.bytes ++ blocks, dgs := f.dgs ++ new } := by
    intro d hd pos len h
    rcases List.mem_append.mp hd with h1 | h1
    · obtain ⟨a, b⟩ := ok d h1 pos len h
      exact ⟨a, by rw [List.length_append]; omega⟩
    · rw [(hnew d h1).2] at h; cases h
  obtain ⟨f', h, ⟨hl, hs⟩, ok', ho⟩ := C59_own_samples_partial enc m _ order saves ok1 ⟨f.dgs, new, rfl, hold', hnew⟩ hp
  refine ⟨f', h, ok', ?_, ?_⟩
  · intro i d hd
    have hi := (List.getElem?_eq_some_iff.mp hd).1
    have hd1 : (f.dgs ++ new)[i]? = some d := by rw [List.getElem?_append_left hi]; exact hd
    have hni : i ∉ order := by
      intro hm
      obtain ⟨e, he, hc⟩ := (hp.queues i).mp hm
      have he' : (f.dgs ++ new)[i]? = some e := he
      rw [hd1] at he'; cases he'
      rw [hold d (List.mem_of_getElem? hd)] at hc; cases hc
    have hd' : f'.dgs[i]? = some d := (ho i hni).trans hd1
    refine ⟨hd', ?_⟩
    rw [hs i d d hd1 hd', if_neg hni, List.append_nil]
    exact stream_append d _ _ (ok d (List.mem_of_getElem? hd))
  · intro i d' hge hd'
    have hi : i < (f.dgs ++ new).length := by
      have : f'.dgs.length = (f.dgs ++ new).length := hl
      rw [← this]; exact (List.getElem?_eq_some_iff.mp hd').1
    have hd : (f.dgs ++ new)[i]? = some (f.dgs ++ new)[i] := List.getElem?_eq_getElem hi
    have hn : (f.dgs ++ new)[i].data = .none := by
      rw [List.getElem?_append_right hge] at hd
      exact (hnew _ (List.mem_of_getElem? hd)).2
    rw [hs i _ d' hd hd', show (f.dgs ++ new)[i].stream (f.bytes ++ blocks) = [] by unfold DgData.stream; rw [hn]]
    rfl

/-! A file with two measurements: 3 data groups with two channel groups each in the first, one data group in the second. -/

def exNewDg : DgData := ⟨[⟨false, 0⟩, ⟨false, 0⟩], .none⟩

def exPart (n : Nat) : SavePart := ⟨List.replicate (2 * n) (BitVec.ofNat 8 n), [n, n]⟩

def exNewFile : DgFile := ⟨List.replicate 67 0, [exNewDg, exNewDg, exNewDg]⟩

/-- The periodic measurement compresses the data; without periodic saving there are three DT blocks. -/
example : Passes ⟨false, true⟩ exNewFile [2, 0, 1] [fun _ => exPart 0, fun i => exPart (i + 1), fun i => exPart (2 * i + 1)] := by
  refine ⟨by decide, fun i => ⟨fun h => ⟨exNewDg, ?_, by decide⟩, fun ⟨d, hd, _⟩ => ?_⟩, by decide⟩
  · rcases List.mem_cons.mp h with rfl | h
    · rfl
    · rcases List.mem_cons.mp h with rfl | h
      · rfl
      · rw [List.mem_singleton.mp h]; rfl
  · have := (List.getElem?_eq_some_iff.mp hd).1
    have : i < 3 := this
    have : i = 0 ∨ i = 1 ∨ i = 2 := by omega
    rcases this with rfl | rfl | rfl <;> simp

example : (DgFile.measure id ⟨false, true⟩ [2, 0, 1] [fun _ => exPart 0, fun i => exPart (i + 1), fun i => exPart (2 * i + 1)] exNewFile).map
      (fun f => f.dgs.map fun d => (d.stream f.bytes, d.groups.map GrpCount.nof, d.cached)) =
    some [([1, 1, 1, 1], [2, 2], false), ([2, 2, 2, 2, 3, 3, 3, 3, 3, 3], [5, 5], false),
      (List.replicate 6 3 ++ List.replicate 10 5, [8, 8], false)] := by decide

example : (DgFile.measure id ⟨false, false⟩ [2, 0, 1] [fun i => exPart (i + 1)] exNewFile).map
      (fun f => f.dgs.map fun d => (d.data, d.stream f.bytes)) =
    some [(.dt 104 26, [1, 1]), (.dt 136 28, [2, 2, 2, 2]), (.dt 72 30, [3, 3, 3, 3, 3, 3])] := by decide +kernel

/-! ## Where the statement is false -/

/-- **C59** (overlapping blocks).  A data group that has a DT block and is saved again, without compression, gets everything that is in
the file behind its data block as its own: after the save its stream is the rest of the file. -/
theorem C59_extended_over_others (enc : Bytes → Bytes) (f : DgFile) (i : Nat) (d : DgData) (pos len : Nat) (p : SavePart)
    (hd : f.dgs[i]? = some d) (hdt : d.data = .dt pos len) (h24 : pos + 24 ≤ f.bytes.length) :
    ∃ f' d', f.save enc false i p = some f' ∧ f'.dgs[i]? = some d' ∧ d'.stream f'.bytes = f.bytes.drop (pos + 24) ++ p.data := by
  have hi := (List.getElem?_eq_some_iff.mp hd).1
  refine ⟨⟨f.bytes ++ p.data, f.dgs.set i ⟨addCounts d.groups p.counts, .dt pos ((f.bytes ++ p.data).length - pos)⟩⟩,
    ⟨addCounts d.groups p.counts, .dt pos ((f.bytes ++ p.data).length - pos)⟩, ?_, List.getElem?_set_self hi, ?_⟩
  · unfold DgFile.save DgFile.savePlain
    rw [hd]; dsimp only; rw [hdt]; rfl
  · unfold DgData.stream
    dsimp only
    rw [List.drop_append_of_le_length h24, List.take_of_length_le]
    simp only [List.length_append, List.length_drop]
    split <;> omega

/-- A file with the data group of an earlier measurement; one of its channel groups got no samples. -/
def exOldFile : DgFile := ⟨List.replicate 24 7 ++ [1, 1] ++ List.replicate 6 0, [⟨[⟨false, 2⟩, ⟨false, 0⟩], .dt 0 26⟩, exNewDg]⟩

theorem exOld_ok : exOldFile.Ok := by
  intro d hd pos len h
  rcases List.mem_cons.mp hd with rfl | hd
  · cases h; decide
  · rw [List.mem_singleton.mp hd] at h; cases h

theorem exOld_passes (m : SaveMode) (order : List Nat) (h : order = [0, 1] ∨ order = [1, 0]) (parts : Nat → SavePart) :
    Passes m exOldFile order [parts] := by
  refine ⟨by rcases h with rfl | rfl <;> decide, fun i => ⟨fun hi => ?_, fun ⟨d, hd, _⟩ => ?_⟩, fun _ => by simp⟩
  · have : i = 0 ∨ i = 1 := by rcases h with rfl | rfl <;> simpa [or_comm] using hi
    rcases this with rfl | rfl
    · exact ⟨_, rfl, by decide⟩
    · exact ⟨_, rfl, by decide⟩
  · have : i < 2 := (List.getElem?_eq_some_iff.mp hd).1
    have : i = 0 ∨ i = 1 := by omega
    rcases this with rfl | rfl <;> rcases h with rfl | rfl <;> simp

/-- **C59 is false** (overlap): nothing is saved for the old data group, but it gets the data block of the new one, header and all,
behind its own two bytes. -/
theorem C59_overlap : ¬ C59_Statement := by
  intro h
  obtain ⟨f', h1, _, h2⟩ := h id ⟨false, false⟩ exOldFile [1, 0] [fun i => if i = 1 then exPart 1 else ⟨[], []⟩] exOld_ok
    (exOld_passes _ _ (Or.inr rfl) _)
  have h3 : exOldFile.measure id ⟨false, false⟩ [1, 0] [fun i => if i = 1 then exPart 1 else ⟨[], []⟩] =
      some ⟨exOldFile.bytes ++ dtHeader ++ [1, 1],
        [⟨[⟨false, 2⟩, ⟨false, 0⟩], .dt 0 58⟩, ⟨[⟨false, 1⟩, ⟨false, 1⟩], .dt 32 26⟩]⟩ := by rfl
  rw [h3] at h1
  cases h1
  exact absurd (h2 0 _ _ rfl rfl) (by decide)

/-- **C59 is false** (lost samples): with compression, samples saved for the empty channel group of the old data group do not reach the
file. -/
theorem C59_lost_in_old_group (enc : Bytes → Bytes) (f : DgFile) (i : Nat) (d : DgData) (pos len : Nat) (p : SavePart)
    (hd : f.dgs[i]? = some d) (hdt : d.data = .dt pos len) : f.save enc true i p = some f := by
  unfold DgFile.save DgFile.savePacked
  rw [hd]; dsimp only; rw [hdt]; simp

/-- **C59 is false** (the program ends): without compression, an old data group with compressed data and an empty channel group ends the
program when the measurement is stopped, even if nothing is saved for it. -/
theorem C59_terminates (enc : Bytes → Bytes) (f : DgFile) (i : Nat) (d : DgData) (chunks : List Bytes) (p : SavePart)
    (hd : f.dgs[i]? = some d) (hhl : d.data = .hl chunks) : f.save enc false i p = none := by
  unfold DgFile.save DgFile.savePlain
  rw [hd]; dsimp only; rw [hhl]; rfl

example : (exOldFile.save id true 0 (exPart 3)).map (fun f => (f.bytes, f.dgs)) = some (exOldFile.bytes, exOldFile.dgs) := by decide

/-- The empty data groups of a first, compressed measurement get DT blocks in a second one that is not compressed; if this is saved
periodically they overlap, although no data group had a data block. -/
example : (DgFile.measure id ⟨false, true⟩ [0, 2] [fun i => if i = 2 then exPart 1 else ⟨[], []⟩, fun i => if i = 2 then exPart 2 else ⟨[], []⟩]
      ⟨[], [exNewDg, ⟨[⟨false, 2⟩], .hl [[5, 5]]⟩, exNewDg]⟩).map
      (fun f => f.dgs.map fun d => (d.data, d.stream f.bytes)) =
    some [(.dt 0 50, dtHeader ++ [1, 1]), (.hl [[5, 5]], [5, 5]), (.dt 24 30, [1, 1, 2, 2, 2, 2])] := by decide

end Mdf
