import Verif.Proof.Store
import Verif.Props.Queue

/-!
Properties of what the writer stores: C22, C23, and the whole way from saving samples to reading them (C11, C18).
-/

namespace Mdf

/-! ### C22: compressed blocks -/

/-- The contents of the blocks of a compressed measurement, one after the other, are the bytes an uncompressed measurement
stores for the same samples one by one, however the samples are split into blocks. -/
theorem C22_chunks_are_the_stream (cfg : SCfg) (blocks : List (List Sample)) (st : SSt) :
    (cfg.chunks blocks st).flatten = cfg.bytes (cfg.store blocks.flatten st).1 ∧
    (cfg.chunks blocks st).flatten = (cfg.chunks (blocks.flatten.map ([·])) st).flatten := by
  have h1 := chunks_flatten cfg blocks st
  refine ⟨h1, ?_⟩
  rw [h1, chunks_flatten]
  congr 3
  induction blocks.flatten with
  | nil => rfl
  | cons s ss ih => simp [← ih]

/-- Two finished measurements of the same samples, one of them compressed (or both, or none), store the same bytes, for all
schedules of both, if no sample is trimmed and the master times are calculated with the same start time. -/
theorem C22_same_stream {cfg : SCfg} {z z' p p' tr tr' : Bool} {pre pre' t : Nat} {a1 a2 b1 b2 : List Act} {v1 v w1 w : W}
    (hv1 : W.run (cfg.queue z p tr pre) a1 W.init = some v1)
    (hv : W.run (cfg.queue z p tr pre) (.requestStop :: a2) v1 = some v)
    (hw1 : W.run (cfg.queue z' p' tr' pre') b1 W.init = some w1)
    (hw : W.run (cfg.queue z' p' tr' pre') (.requestStop :: b2) w1 = some w)
    (hf : .finalize ∉ a1 ∧ .finalize ∉ b1) (ho : .opened false ∉ a2 ∧ .opened false ∉ b2)
    (hev : v.pc = .ended ∨ v.pc = .gone) (hew : w.pc = .ended ∨ w.pc = .gone)
    (hnv : v.added = v1.added) (hnw : w.added = w1.added) (hsame : v.added.map Sample.core = w.added.map Sample.core)
    (hstored : ∀ s ∈ v.added ++ w.added, ∀ st, 0 < (cfg.bytes (cfg.storeOne SSt.init { s with stamp := st }).1).length) (hk : ∀ s ∈ v.added, (cfg.find s.id).isSome)
    (htv : ∀ x ∈ v.fates, x.2 ≠ .trimmed) (htw : ∀ x ∈ w.fates, x.2 ≠ .trimmed)
    (hsv : ∀ s ∈ v.blocks.flatten, s.stamp = some t) (hsw : ∀ s ∈ w.blocks.flatten, s.stamp = some t) :
    (cfg.chunks v.blocks SSt.init).flatten = (cfg.chunks w.blocks SSt.init).flatten := by
  have hkw : ∀ s ∈ w.added, (cfg.find s.id).isSome := by
    intro s hs
    have : s.core ∈ v.added.map Sample.core := by rw [hsame]; exact List.mem_map_of_mem hs
    obtain ⟨y, hy, hye⟩ := List.mem_map.mp this
    have hid : y.id = s.id := by have := congrArg Sample.id hye; exact this
    rw [← hid]; exact hk y hy
  have e1 := C19_file_holds_saved hv1 hv hf.1 ho.1 hev hnv (fun s h => hstored s (List.mem_append_left _ h)) htv hk
  have e2 := C19_file_holds_saved hw1 hw hf.2 ho.2 hew hnw (fun s h => hstored s (List.mem_append_right _ h)) htw hkw
  have key : ∀ l m : List Sample, l.map Sample.core = m.map Sample.core → (∀ s ∈ l, s.stamp = some t) →
      (∀ s ∈ m, s.stamp = some t) → l = m := by
    intro l
    induction l with
    | nil => intro m h _ _; cases m with | nil => rfl | cons => cases h
    | cons a l ih =>
      intro m h h1 h2
      cases m with
      | nil => cases h
      | cons b m =>
        simp only [List.map_cons, List.cons.injEq] at h
        have ha := h1 a List.mem_cons_self
        have hb := h2 b List.mem_cons_self
        have : a = b := by
          cases a; cases b
          simp only [Sample.core, Sample.mk.injEq] at h ha hb ⊢
          exact ⟨h.1.1, h.1.2.1, h.1.2.2.1, h.1.2.2.2.1, by rw [ha, hb]⟩
        rw [this, ih m h.2 (fun s hs => h1 s (List.mem_cons_of_mem _ hs)) (fun s hs => h2 s (List.mem_cons_of_mem _ hs))]
  rw [chunks_flatten, chunks_flatten, key v.blocks.flatten w.blocks.flatten (by rw [e1, e2, hsame]) hsv hsw]

/-- The offset stored for each block of the list is the number of bytes in all blocks before it, over any number of saves. -/
theorem C22_offsets (saves : List (List Bytes)) :
    (dlSaves 0 saves).map Dl.blocks = saves ∧
    ∀ i, i < saves.flatten.length →
      ((dlSaves 0 saves).flatMap Dl.written)[i]? = some (saves.flatten.take i).flatten.length := by
  obtain ⟨h1, h2⟩ := dlSaves_spec saves 0
  refine ⟨h2, ?_⟩
  intro i hi
  rw [h1, sumsFrom_getElem _ _ _ hi, Nat.zero_add]

example : (dlSaves 0 [[[1, 2, 3], [4]], [], [[5, 6]]]).map Dl.written = [[0, 3], [], [4]] := by decide

/-! ### C23: counters -/

/-- The sample counter of a channel group is the number of its records in the data, after any sequence of samples, in any
blocks. -/
theorem C23_counters (cfg : SCfg) (ss : List Sample) (id : Nat) :
    ((cfg.store ss SSt.init).2.cg id).nof = (cfg.store ss SSt.init).1.countP (·.2.id = id) := by
  rw [store_nof]; exact Nat.zero_add _

/-! ### C18: the index in the record -/

/-- If a sample has variable length data stored in a VLSD group, the last 8 bytes of its record are the offset at which
`ReadVlsdData` reports exactly these data (see C18_vlsd_group_offsets). -/
theorem C18_records_point_to_values {cfg : SCfg} (hd : cfg.Distinct) {ss : List Sample} (hs : ∀ s ∈ ss, cfg.SampleOk s)
    {pre post : List Sample} {s : Sample} {v : Bytes} {g vg : RGroup} (hsplit : ss = pre ++ s :: post) (hv : s.vlsd = some v)
    (hg : cfg.find s.id = some g) (hvg : cfg.vlsdGroup s.id = some vg) (h8 : 8 ≤ (cfg.render s).length)
    (h64 : sdSize (valuesOf vg.id ((cfg.store ss SSt.init).1.map (·.2))) < 2 ^ 64) :
    ∃ index data, (false, ⟨g.id, data⟩) ∈ (cfg.store ss SSt.init).1 ∧
      data.take (data.length - 8) = (cfg.render s).take (data.length - 8) ∧
      leNat (data.drop (data.length - 8)) = index ∧
      ⟨index, v⟩ ∈ callsOf 0 (valuesOf vg.id ((cfg.store ss SSt.init).1.map (·.2))) := by
  subst hsplit
  unfold SCfg.vlsdGroup at hvg
  obtain ⟨hf, hvl⟩ := Option.filter_eq_some_iff.mp hvg
  have hm := SCfg.find_mem hf
  rw [store_append] at h64 ⊢
  simp only [SCfg.store, List.map_append, valuesOf_append, sdSize_append] at h64 ⊢
  have hidx := store_index hd hm hvl pre SSt.init (fun s h => hs s (List.mem_append_left _ h)) (by
    show 0 + _ < _; omega)
  have hone : cfg.storeOne (cfg.store pre SSt.init).2 s =
      ([(true, ⟨vg.id, v⟩), (false, ⟨g.id, patchIndex (cfg.render s) ((cfg.store pre SSt.init).2.cg vg.id).index⟩)],
        (((cfg.store pre SSt.init).2.setCg vg.id (((cfg.store pre SSt.init).2.cg vg.id).write v).2)).count g.id) := by
    have hvg' : cfg.vlsdGroup s.id = some vg := hvg
    unfold SCfg.storeOne
    rw [hg, hv, hvg']
    rfl
  have hidx : ((cfg.store pre SSt.init).2.cg vg.id).index = sdSize (valuesOf vg.id ((cfg.store pre SSt.init).1.map (·.2))) := by
    rw [hidx]; exact Nat.zero_add _
  refine ⟨((cfg.store pre SSt.init).2.cg vg.id).index,
    patchIndex (cfg.render s) ((cfg.store pre SSt.init).2.cg vg.id).index, ?_, ?_, ?_, ?_⟩
  · rw [hone]; simp
  · rw [patchIndex_length]
    unfold patchIndex
    rw [if_pos h8, List.take_append_of_le_length (by rw [List.length_take]; omega), List.take_take, Nat.min_self]
  · rw [patchIndex_length]
    unfold patchIndex
    rw [if_pos h8, List.drop_append_of_le_length (by rw [List.length_take]; omega), List.drop_take, Nat.sub_self]
    rw [List.take_zero, List.nil_append, leNat_leBytes, Nat.mod_eq_of_lt]
    rw [hidx]; omega
  · rw [callsOf_append, callsOf_append, hone]
    refine List.mem_append_right _ (List.mem_append_left _ ?_)
    simp only [List.map_cons, List.map_nil, valuesOf_cons, if_true, List.singleton_append, callsOf]
    rw [hidx, Nat.zero_add]
    exact List.mem_cons_self

/-- A group with 10 byte records whose last 8 bytes are an index, and its VLSD group. -/
def exStore : SCfg := ⟨1, [⟨1, false, 10, 0⟩, ⟨2, true, 0, 0⟩], fun _ => false, fun s => s.data⟩

def exStored : List Sample :=
  [⟨1, 1, [7, 7, 0, 0, 0, 0, 0, 0, 0, 0], some [9, 9, 9], none⟩, ⟨2, 1, [8, 8, 0, 0, 0, 0, 0, 0, 0, 0], some [5], none⟩]

example : (exStore.store exStored SSt.init).1 = [(true, ⟨2, [9, 9, 9]⟩), (false, ⟨1, [7, 7, 0, 0, 0, 0, 0, 0, 0, 0]⟩),
    (true, ⟨2, [5]⟩), (false, ⟨1, [8, 8, 7, 0, 0, 0, 0, 0, 0, 0]⟩)] := by decide +kernel

example : exStore.Distinct ∧ ∀ s ∈ exStored, exStore.SampleOk s := by
  refine ⟨by unfold SCfg.Distinct; decide, ?_⟩
  intro s hs
  simp only [exStored, List.mem_cons, List.not_mem_nil, or_false] at hs
  rcases hs with rfl | rfl
  · exact ⟨⟨⟨1, false, 10, 0⟩, by decide, rfl, rfl, rfl⟩, by intro v hv; cases hv; decide⟩
  · exact ⟨⟨⟨1, false, 10, 0⟩, by decide, rfl, rfl, rfl⟩, by intro v hv; cases hv; decide⟩

/-! ### C11: from saving to reading -/

/-- What the writer stored is read back record by record: each record of each sample, in the order stored, with its group's id
and its index in the group.  The counters used for reading are those the writer stored (C23). -/
theorem C11_stored_is_read {cfg : SCfg} (hd : cfg.Distinct) {blocks : List (List Sample)}
    (hs : ∀ s ∈ blocks.flatten, cfg.SampleOk s) (subs : Nat → Bool) (cont : List Event → Bool)
    (hok : (cfg.reader (cfg.store blocks.flatten SSt.init).2 subs cont).Ok) (hsub : ∀ id, subs id = true)
    (hcont : ∀ l, cont l = true) (file : List Blk) (rest : Bytes) (hb : Holds file (cfg.chunks blocks SSt.init).flatten) :
    let recs := (cfg.store blocks.flatten SSt.init).1.map (·.2)
    ∃ n, ∀ fuel, n ≤ fuel → (cfg.reader (cfg.store blocks.flatten SSt.init).2 subs cont).read fuel file rest =
      .done (recs.mapIdx fun i r => ⟨(recs.take i).countP (·.id = r.id), r.id, r.data⟩) := by
  intro recs
  obtain ⟨henc, hval⟩ := encode_store hd (cfg.store blocks.flatten SSt.init).2 subs cont _ (store_ok hd blocks.flatten SSt.init hs)
  rw [chunks_flatten, ← henc] at hb
  refine C11_samples_written_are_read _ hok (fun g _ => hsub g.id) hcont recs hval ?_ file rest hb
  intro g hg
  obtain ⟨g0, hg0, rfl⟩ := List.mem_map.mp hg
  show _ ≤ ((cfg.store blocks.flatten SSt.init).2.cg g0.id).nof
  rw [C23_counters, List.countP_map]
  exact Nat.le_refl _

/-- A measurement from `InitMeasurement` to `StopMeasurement` in which no sample is trimmed: the blocks hold the samples saved, in order,
with the start time in their master channels. -/
theorem saved_blocks {cfg : SCfg} {z p tr : Bool} {pre t : Nat} {b1 b2 a2 : List Act} {w0 w1 w : W}
    (h0 : W.run (cfg.queue z p tr pre) b1 W.init = some w0)
    (h1 : W.run (cfg.queue z p tr pre) (.start t :: .recalculate :: b2) w0 = some w1)
    (h2 : W.run (cfg.queue z p tr pre) (.requestStop :: a2) w1 = some w)
    (hstart : ∀ t, .start t ∉ b1 ++ b2 ++ a2) (hfin : .finalize ∉ b1 ++ b2) (hopen : .opened false ∉ a2)
    (hend : w.pc = .ended ∨ w.pc = .gone) (hno : w.added = w1.added) (htrim : ∀ x ∈ w.fates, x.2 ≠ .trimmed)
    (hknown : ∀ s ∈ w.added, (cfg.find s.id).isSome)
    (hstored : ∀ s ∈ w.added, ∀ st, 0 < (cfg.bytes (cfg.storeOne SSt.init { s with stamp := st }).1).length) :
    w.blocks.flatten = w.added.map fun s => { s with stamp := some t } := by
  have hall : W.run (cfg.queue z p tr pre) (b1 ++ .start t :: .recalculate :: b2) W.init = some w1 := by
    rw [run_append, h0]; exact h1
  have hallw : W.run (cfg.queue z p tr pre) (b1 ++ .start t :: .recalculate :: (b2 ++ .requestStop :: a2)) W.init = some w := by
    have : b1 ++ .start t :: .recalculate :: (b2 ++ .requestStop :: a2) =
        (b1 ++ .start t :: .recalculate :: b2) ++ .requestStop :: a2 := by simp
    rw [this, run_append, hall]; exact h2
  -- the start time is in all of them
  have hstamp : ∀ s ∈ w.blocks.flatten ++ w.buffer, s.stamp = some t :=
    C49_partial (fun t' h => hstart t' (by simp [h]))
      (fun t' h => hstart t' (by simp at h ⊢; rcases h with h | h <;> simp [h])) (fun h => hfin (by simp [h])) hallw
  have hfin' : .finalize ∉ b1 ++ .start t :: .recalculate :: b2 := by
    intro h
    apply hfin
    simp at h ⊢
    exact h
  have hcore := C19_file_holds_saved hall h2 hfin' hopen hend hno hstored htrim hknown
  have hst : ∀ s ∈ w.blocks.flatten, s.stamp = some t := fun s h => hstamp s (List.mem_append_left _ h)
  revert hcore hst
  generalize w.blocks.flatten = l
  generalize w.added = m
  intro hcore
  induction l generalizing m with
  | nil => intro _; cases m with | nil => rfl | cons => cases hcore
  | cons a l ih =>
    intro hst
    cases m with
    | nil => cases hcore
    | cons b m =>
      simp only [List.map_cons, List.cons.injEq] at hcore
      rw [List.map_cons, ← ih m hcore.2 (fun s h => hst s (List.mem_cons_of_mem _ h))]
      congr 1
      have ha := hst a List.mem_cons_self
      have hc := hcore.1
      cases a; cases b
      simp only [Sample.core, Sample.mk.injEq] at hc ha ⊢
      exact ⟨hc.1, hc.2.1, hc.2.2.1, hc.2.2.2.1, ha⟩

/-- Samples without variable length data: one record for each. -/
theorem store_plain {cfg : SCfg} {t : Nat} (hd : cfg.Distinct) (l : List Sample) : ∀ (st : SSt),
    (∀ s ∈ l, s.vlsd = none ∧ cfg.SampleOk { s with stamp := some t }) →
    (cfg.store (l.map fun s => { s with stamp := some t }) st).1.map (·.2) =
      l.map fun s => ⟨s.id, cfg.render { s with stamp := some t }⟩ := by
  induction l with
  | nil => intro st _; rfl
  | cons s l ih =>
    intro st hl
    obtain ⟨hv, hok⟩ := hl s List.mem_cons_self
    obtain ⟨g, hg, hid, -⟩ := hok.group
    have hid : g.id = s.id := hid
    have hone : (cfg.storeOne st { s with stamp := some t }).1 = [(false, ⟨s.id, cfg.render { s with stamp := some t }⟩)] := by
      unfold SCfg.storeOne
      rw [show ({ s with stamp := some t } : Sample).id = g.id from hid.symm, SCfg.find_of_mem hd hg]
      simp only [hv]
    simp only [List.map_cons, SCfg.store, List.map_append]
    rw [hone, ih _ (fun s h => hl s (List.mem_cons_of_mem _ h))]
    rfl

/-- Nothing is trimmed of a measurement whose samples are all in the pre-trigger window. -/
theorem untrimmed {cfg : SCfg} {z p tr : Bool} {pre t : Nat} {b1 b2 a2 : List Act} {w0 w1 w : W}
    (h0 : W.run (cfg.queue z p tr pre) b1 W.init = some w0)
    (h1 : W.run (cfg.queue z p tr pre) (.start t :: .recalculate :: b2) w0 = some w1)
    (h2 : W.run (cfg.queue z p tr pre) (.requestStop :: a2) w1 = some w)
    (hstart : ∀ t, .start t ∉ b1 ++ b2 ++ a2) (ht : 0 < t ∧ pre ≤ t ∧ t < 2 ^ 64) (htimed : Timed w.added)
    (hbefore : ∀ s ∈ w0.added, s.time ≤ t) (hwin : ∀ s ∈ w.added, t ≤ s.time + pre) : ∀ x ∈ w.fates, x.2 ≠ .trimmed := by
  have hall : W.run (cfg.queue z p tr pre) (b1 ++ .start t :: .recalculate :: b2) W.init = some w1 := by
    rw [run_append, h0]; exact h1
  have hallw : W.run (cfg.queue z p tr pre) (b1 ++ .start t :: .recalculate :: (b2 ++ .requestStop :: a2)) W.init = some w := by
    have : b1 ++ .start t :: .recalculate :: (b2 ++ .requestStop :: a2) =
        (b1 ++ .start t :: .recalculate :: b2) ++ .requestStop :: a2 := by simp
    rw [this, run_append, hall]; exact h2
  have hwin' : W.run (cfg.queue z p tr pre) (.start t :: (.recalculate :: (b2 ++ .requestStop :: a2))) w0 = some w := by
    rw [run_append, h0] at hallw; exact hallw
  intro x hx he
  obtain ⟨i, hi⟩ := List.getElem?_of_mem hx
  obtain ⟨n, hn, hlt⟩ := C20_window_kept h0 hwin' (fun t' h => hstart t' (by simp [h]))
    (fun t' h => hstart t' (by simp at h ⊢; rcases h with h | h <;> simp [h])) ht htimed hbefore i x.1 (by rw [hi, ← he])
  have := hwin n (List.mem_of_getElem? hn)
  have hpre : (cfg.queue z p tr pre).preTrig = pre := rfl
  rw [hpre] at hlt
  omega

/-- The way from saving to reading for a measurement in which no sample is trimmed. -/
theorem C11_untrimmed_is_read {cfg : SCfg} {z p tr : Bool} {pre t : Nat} {b1 b2 a2 : List Act} {w0 w1 w : W}
    (h0 : W.run (cfg.queue z p tr pre) b1 W.init = some w0)
    (h1 : W.run (cfg.queue z p tr pre) (.start t :: .recalculate :: b2) w0 = some w1)
    (h2 : W.run (cfg.queue z p tr pre) (.requestStop :: a2) w1 = some w)
    (hstart : ∀ t, .start t ∉ b1 ++ b2 ++ a2) (hfin : .finalize ∉ b1 ++ b2) (hopen : .opened false ∉ a2)
    (hend : w.pc = .ended ∨ w.pc = .gone) (hno : w.added = w1.added) (htrim : ∀ x ∈ w.fates, x.2 ≠ .trimmed)
    (hd : cfg.Distinct) (hs : ∀ s ∈ w.added, s.vlsd = none ∧ cfg.SampleOk { s with stamp := some t })
    (hstored : ∀ s ∈ w.added, ∀ st, 0 < (cfg.bytes (cfg.storeOne SSt.init { s with stamp := st }).1).length)
    (subs : Nat → Bool) (cont : List Event → Bool) (hsub : ∀ id, subs id = true) (hcont : ∀ l, cont l = true)
    (hok : (cfg.reader (cfg.store w.blocks.flatten SSt.init).2 subs cont).Ok) (file : List Blk) (rest : Bytes)
    (hb : Holds file (cfg.chunks w.blocks SSt.init).flatten) :
    ∃ n, ∀ fuel, n ≤ fuel → (cfg.reader (cfg.store w.blocks.flatten SSt.init).2 subs cont).read fuel file rest =
      .done (w.added.mapIdx fun i s => ⟨(w.added.take i).countP (·.id = s.id), s.id, cfg.render { s with stamp := some t }⟩) := by
  -- all are known
  have hknown : ∀ s ∈ w.added, (cfg.find s.id).isSome := by
    intro s hm
    obtain ⟨g, hg, hid, -⟩ := (hs s hm).2.group
    have hid : g.id = s.id := hid
    rw [← hid, SCfg.find_of_mem hd hg]
    rfl
  have hblocks := saved_blocks h0 h1 h2 hstart hfin hopen hend hno htrim hknown hstored
  have hsok : ∀ s ∈ w.blocks.flatten, cfg.SampleOk s := by
    intro s h
    rw [hblocks] at h
    obtain ⟨y, hy, rfl⟩ := List.mem_map.mp h
    exact (hs y hy).2
  obtain ⟨n, hn⟩ := C11_stored_is_read hd hsok subs cont hok hsub hcont file rest hb
  refine ⟨n, fun fuel hf => ?_⟩
  rw [hn fuel hf]
  rw [hblocks, store_plain hd w.added SSt.init hs]
  simp only [List.mapIdx_eq_zipIdx_map, List.zipIdx_map, List.map_map, Function.comp_def, ← List.map_take, List.countP_map, Prod.map]
  rfl

/-- The whole way.  A measurement is initialised, started at time `t` and stopped; samples without variable length data are
saved from any threads before and while the writer's thread runs, in any interleaving, with or without compression.  Then
reading the file gives every sample, in the order saved, with the record saved and its index among the samples of its group.
(Samples saved after the stop was requested may or may not be written and are left out here; samples before the pre-trigger
window are C20.) -/
theorem C11_saved_is_read {cfg : SCfg} {z p tr : Bool} {pre t : Nat} {b1 b2 a2 : List Act} {w0 w1 w : W}
    (h0 : W.run (cfg.queue z p tr pre) b1 W.init = some w0)
    (h1 : W.run (cfg.queue z p tr pre) (.start t :: .recalculate :: b2) w0 = some w1)
    (h2 : W.run (cfg.queue z p tr pre) (.requestStop :: a2) w1 = some w)
    (hstart : ∀ t, .start t ∉ b1 ++ b2 ++ a2) (hfin : .finalize ∉ b1 ++ b2) (hopen : .opened false ∉ a2)
    (hend : w.pc = .ended ∨ w.pc = .gone) (hno : w.added = w1.added)
    (ht : 0 < t ∧ pre ≤ t ∧ t < 2 ^ 64) (htimed : Timed w.added) (hbefore : ∀ s ∈ w0.added, s.time ≤ t)
    (hwin : ∀ s ∈ w.added, t ≤ s.time + pre)
    (hd : cfg.Distinct) (hs : ∀ s ∈ w.added, s.vlsd = none ∧ cfg.SampleOk { s with stamp := some t })
    (hstored : ∀ s ∈ w.added, ∀ st, 0 < (cfg.bytes (cfg.storeOne SSt.init { s with stamp := st }).1).length)
    (subs : Nat → Bool) (cont : List Event → Bool) (hsub : ∀ id, subs id = true) (hcont : ∀ l, cont l = true)
    (hok : (cfg.reader (cfg.store w.blocks.flatten SSt.init).2 subs cont).Ok) (file : List Blk) (rest : Bytes)
    (hb : Holds file (cfg.chunks w.blocks SSt.init).flatten) :
    ∃ n, ∀ fuel, n ≤ fuel → (cfg.reader (cfg.store w.blocks.flatten SSt.init).2 subs cont).read fuel file rest =
      .done (w.added.mapIdx fun i s => ⟨(w.added.take i).countP (·.id = s.id), s.id, cfg.render { s with stamp := some t }⟩) := by
  have htrim := untrimmed h0 h1 h2 hstart ht htimed hbefore hwin
  exact C11_untrimmed_is_read h0 h1 h2 hstart hfin hopen hend hno htrim hd hs hstored subs cont hsub hcont hok file rest hb

/-- Two groups; samples saved before the start, while the thread waits and while it writes. -/
def exWay : SCfg := ⟨1, [⟨1, false, 2, 0⟩, ⟨2, false, 3, 0⟩], fun _ => false, fun s => s.data⟩

def exWay1 : List Act := [.add (exSample 30), .add ⟨31, 2, [5, 6, 7], none, none⟩, .wake]

def exWay2 : List Act := [.add (exSample 45), .wake, .opened true, .enter, .add ⟨46, 2, [8, 8, 8], none, none⟩, .store false]

def exWay3 : List Act := [.store false, .store false, .store false, .close, .wake, .opened true, .enter, .close, .stopped 50]

example : ∃ w0 w1 w, W.run (exWay.queue false true true 10) exWay1 W.init = some w0 ∧
    W.run (exWay.queue false true true 10) (.start 40 :: .recalculate :: exWay2) w0 = some w1 ∧
    W.run (exWay.queue false true true 10) (.requestStop :: exWay3) w1 = some w ∧ w.pc = .gone ∧ w.added = w1.added ∧
    Timed w.added ∧ (∀ s ∈ w0.added, s.time ≤ 40) ∧ (∀ s ∈ w.added, 40 ≤ s.time + 10 ∧ s.vlsd = none) ∧
    w.added.map Sample.time = [30, 31, 45, 46] ∧
    (exWay.chunks w.blocks SSt.init).flatten = [1, 1, 2, 2, 5, 6, 7, 1, 1, 2, 2, 8, 8, 8] := by
  refine ⟨_, _, _, rfl, rfl, rfl, ?_⟩
  decide +kernel

example (subs : Nat → Bool) (cont : List Event → Bool) (st : SSt) : (exWay.reader st subs cont).Ok := by
  refine ⟨?_, .inr (.inl rfl), fun _ g hg => ?_, fun h => ?_, fun h => ?_⟩
  · show [1, 2].Nodup
    decide
  · show g.id < 256
    obtain ⟨g0, hg0, rfl⟩ := List.mem_map.mp hg
    show g0.id < 256
    clear hg
    revert g0
    decide
  · cases (show 1 = 0 from h)
  · cases (show 1 = 0 from h)

example (s : Sample) (h : (exWay.find s.id).isSome) : 0 < (exWay.bytes (exWay.storeOne SSt.init s).1).length := by
  obtain ⟨g, hg⟩ := Option.isSome_iff_exists.mp h
  have hlen : ∀ (b : Bool) (r : Rec) (l : List (Bool × Rec)), 0 < (exWay.bytes ((b, r) :: l)).length := by
    intro b r l
    simp [SCfg.bytes, exWay, encodeRec, writeRecordId]
    omega
  unfold SCfg.storeOne
  rw [hg]
  dsimp only
  split
  · exact hlen ..
  · split
    · exact hlen ..
    · split <;> exact hlen ..

end Mdf
