import Verif.Proof.Queue

/-!
Properties of the queue between the threads that save samples and the thread that writes them: C19, C20, C21, C37, C38, C49 and
C50.  A run is any sequence of transitions from the state after `InitMeasurement`: every interleaving of the users' calls with
the steps of the writing thread.  `cfg` covers the writers: compressed and uncompressed MDF4, MDF3, and the converter.
-/

namespace Mdf

/-! ### C19: no sample is lost, doubled or reordered between the threads -/

/-- In every reachable state the samples that left the queue, the one in the hands of the thread and those still queued are,
in this order, the samples saved so far; the samples in the file and in the buffer of the next block are those marked as
written, in the same order. -/
theorem C19_exactly_once {cfg : WCfg} {acts : List Act} {w : W} (hr : W.run cfg acts W.init = some w) :
    (w.fates.map (·.1) ++ w.pc.held ++ w.queue).map Sample.core = w.added.map Sample.core ∧
    w.blocks.flatten ++ w.buffer = withFate .written w.fates :=
  have h := (Inv.init cfg).run acts hr
  ⟨h.fifo, h.out⟩

/-- When the measurement is stopped and the thread has ended, every sample saved before the stop was requested has been
written, dropped as older than the pre-trigger window (see C20), or belongs to no channel group; provided the file could be
opened and the measurement was not finalized before it was stopped.  This holds for every schedule, with samples being saved
by other threads all along. -/
theorem C19_all_written {cfg : WCfg} {a1 a2 : List Act} {w1 w : W} (h1 : W.run cfg a1 W.init = some w1)
    (h2 : W.run cfg (.requestStop :: a2) w1 = some w) (hfin : .finalize ∉ a1) (hopen : .opened false ∉ a2)
    (hend : w.pc = .ended ∨ w.pc = .gone) :
    ∀ (i : Nat) (s : Sample), w1.added[i]? = some s → ∃ (s' : Sample) (f : Fate), w.fates[i]? = some (s', f) ∧ s'.core = s.core ∧
      (f = .written ∨ f = .trimmed ∨ f = .unknown) := by
  have hS1 := Stops.init.run a1 h1
  have hR1 := Running.run a1 hfin (w := W.init) ⟨fun _ => by simp [W.init], fun _ x hx => by cases hx⟩ Stops.init h1
  have hI1 := (Inv.init cfg).run a1 h1
  simp only [W.run] at h2
  cases hs : w1.step cfg .requestStop with
  | none => rw [hs] at h2; cases h2
  | some w2 =>
    rw [hs] at h2
    have hS2 := hS1.step _ hs
    have hI2 := hI1.step _ hs
    have hD : Draining w1.added.length w2 := by
      simp only [W.step] at hs
      split at hs
      · cases hs
      · rename_i hq
        cases hs
        have hq : w1.quit = false := by simpa using hq
        refine ⟨rfl, Nat.le_refl _, ?_, ?_⟩
        · intro ho
          have : w1.pc.last = true := by
            have ho : w1.pc.Over := ho
            cases hpc : w1.pc <;> rw [hpc] at ho <;> first | exact ho | rfl | cases ho
          have := hS1.quit this
          rw [hq] at this; cases this
        · intro i x _ hx
          exact hR1.noreset hq x (List.mem_of_getElem? hx)
    have hD' := hD.run a2 hopen hI2 hS2 h2
    have hI := hI2.run a2 h2
    have hS := hS2.run a2 h2
    obtain ⟨more, hm⟩ := run_added a2 hS2 h2
    have hadd : w2.added = w1.added := by
      simp only [W.step] at hs
      split at hs <;> cases hs
      rfl
    rw [hadd] at hm
    intro i s hi
    have hlt : i < w1.added.length := (List.getElem?_eq_some_iff.mp hi).1
    have hfl := hD'.over (by rcases hend with h | h <;> rw [h] <;> trivial)
    have hfi : i < w.fates.length := by omega
    obtain ⟨⟨s', f⟩, hx⟩ : ∃ x, w.fates[i]? = some x := ⟨_, List.getElem?_eq_getElem hfi⟩
    refine ⟨s', f, hx, ?_, ?_⟩
    · have hf := congrArg (·[i]?) hI.fifo
      simp only [hm, List.map_append, List.append_assoc] at hf
      rw [List.getElem?_append_left (by simpa using hfi), List.getElem?_append_left (by simpa using hlt)] at hf
      simpa [hx, hi] using hf
    · have n1 := hD'.noreset i _ hlt hx
      have n2 := hS.nolate _ (List.mem_of_getElem? hx)
      cases f <;> simp_all

/-- If nothing is trimmed (the converter, or any writer whose queue is not trimmed) and every sample has its channel group, the
file holds exactly the saved samples, in the order saved, when the thread has ended. -/
theorem C19_file_holds_saved {cfg : WCfg} {a1 a2 : List Act} {w1 w : W} (h1 : W.run cfg a1 W.init = some w1)
    (h2 : W.run cfg (.requestStop :: a2) w1 = some w) (hfin : .finalize ∉ a1) (hopen : .opened false ∉ a2)
    (hend : w.pc = .ended ∨ w.pc = .gone) (hno : w.added = w1.added)
    (hstored : ∀ s ∈ w.added, ∀ st, 0 < cfg.stored { s with stamp := st })
    (htrim : ∀ x ∈ w.fates, x.2 ≠ .trimmed) (hknown : ∀ s ∈ w.added, cfg.known s.id = true) :
    w.blocks.flatten.map Sample.core = w.added.map Sample.core := by
  have hr : W.run cfg (a1 ++ .requestStop :: a2) W.init = some w := by rw [run_append, h1]; exact h2
  have hI := (Inv.init cfg).run _ hr
  have hF := Flushed.run (cfg := cfg) _ (w := W.init) (fun _ => rfl) Stops.init hr
  have hbuf : w.buffer = [] := by
    refine bytes_zero (fun s hs => ?_) (hF (by rcases hend with h | h <;> rw [h] <;> rfl))
    have hm : s ∈ withFate .written w.fates := by rw [← hI.out]; exact List.mem_append_right _ hs
    unfold withFate at hm
    obtain ⟨x, hx, rfl⟩ := List.mem_map.mp hm
    have hmem : x.1.core ∈ w.added.map Sample.core := by
      rw [← hI.fifo, List.append_assoc, List.map_append]
      exact List.mem_append_left _ (List.mem_map_of_mem (List.mem_map_of_mem (List.mem_filter.mp hx).1))
    obtain ⟨y, hy, hye⟩ := List.mem_map.mp hmem
    have he : x.1 = { y with stamp := x.1.stamp } := by
      have h := Sample.mk.inj hye
      obtain ⟨xs, xf⟩ := x
      cases xs; cases y
      simp only [Sample.mk.injEq] at h ⊢
      exact ⟨h.1.symm, h.2.1.symm, h.2.2.1.symm, h.2.2.2.1.symm, trivial⟩
    rw [he]; exact hstored y hy _
  have hall := C19_all_written h1 h2 hfin hopen hend
  have hheld : w.pc.held = [] := by rcases hend with h | h <;> rw [h] <;> rfl
  have hfifo := hI.fifo
  rw [hheld, List.append_nil] at hfifo
  have hlen := congrArg List.length hfifo
  simp only [List.length_map, List.length_append] at hlen
  have hqe : w.queue = [] := by
    by_cases h0 : w1.added.length = 0
    · rw [hno, h0] at hlen
      exact List.eq_nil_of_length_eq_zero (by omega)
    · obtain ⟨s', f, hx, -⟩ := hall (w1.added.length - 1) _ (List.getElem?_eq_getElem (by omega))
      have := (List.getElem?_eq_some_iff.mp hx).1
      rw [hno] at hlen
      exact List.eq_nil_of_length_eq_zero (by omega)
  have hw : withFate .written w.fates = w.fates.map (·.1) := by
    unfold withFate
    rw [List.filter_eq_self.mpr]
    intro x hx
    obtain ⟨i, hi⟩ := List.getElem?_of_mem hx
    have hlt := (List.getElem?_eq_some_iff.mp hi).1
    rw [hqe, hno] at hlen
    simp only [List.length_nil, Nat.add_zero] at hlen
    obtain ⟨s', f, hx', -, hf⟩ := hall i _ (List.getElem?_eq_getElem (by omega))
    rw [hi] at hx'
    cases hx'
    rcases hf with rfl | rfl | rfl
    · simp
    · exact absurd rfl (htrim _ hx)
    · have hk := Known.run (cfg := cfg) _ (w := W.init) (fun x hx => by cases hx) hr _ hx rfl
      have hmem : s'.core ∈ w.added.map Sample.core := by
        rw [← hfifo, List.map_append]
        exact List.mem_append_left _ (List.mem_map_of_mem (List.mem_map_of_mem hx))
      obtain ⟨y, hy, hye⟩ := List.mem_map.mp hmem
      have hid : y.id = s'.id := by have := congrArg Sample.id hye; exact this
      have := hknown y hy
      rw [hid, hk] at this
      cases this
  have hout := hI.out
  rw [hbuf, List.append_nil, hw] at hout
  rw [hout, ← hfifo, hqe, List.append_nil]

instance (l : List Sample) : Decidable (Timed l) := inferInstanceAs (Decidable (_ ∧ _))

/-- A writer without compression that saves periodically, with a pre-trigger time of 10. -/
def exWriter : WCfg := ⟨false, true, true, 10, 0, fun _ => true, fun _ => 1⟩

def exSample (t : Nat) : Sample := ⟨t, 1, [1, 2], none, none⟩

/-- A run with samples saved while the thread writes. -/
def exRun1 : List Act :=
  [.add (exSample 1), .add (exSample 20), .add (exSample 30), .wake, .start 40, .recalculate, .add (exSample 45), .wake, .opened true, .enter,
    .add (exSample 46), .store false, .store false, .add (exSample 47)]

def exRun2 : List Act := [.store false, .store false, .store false, .close, .wake, .opened true, .enter, .close, .stopped 50]

/-- What an example shows of a state: its position, the times in the file, and the times with their fates. -/
def W.view (w : W) : Pc × List Nat × List (Nat × Fate) :=
  (w.pc, w.blocks.flatten.map Sample.time, w.fates.map fun x => (x.1.time, x.2))

example : ((W.run exWriter exRun1 W.init).bind fun w => W.run exWriter (.requestStop :: exRun2) w).map W.view =
    some (.gone, [20, 30, 45, 46, 47], [(1, .trimmed), (20, .written), (30, .written),
      (45, .written), (46, .written), (47, .written)]) := by
  decide +kernel

/-- The same for compressed data. -/
def exWriterZ : WCfg := { exWriter with compress := true, preTrig := 39, stored := fun s => s.data.length }

example : ((W.run exWriterZ [.add (exSample 1), .start 40, .recalculate, .wake, .add (exSample 45)] W.init).bind fun w =>
      W.run exWriterZ [.requestStop, .wake, .opened true, .enter, .store false, .store false, .close, .stopped 50] w).map W.view =
    some (.gone, [1, 45], [(1, .written), (45, .written)]) := by
  decide +kernel

/-! ### C20: the pre-trigger window -/

/-- Trimming takes samples from the front only and never the last one. -/
theorem C20_trim_front (pre start : Nat) (q : List Sample) :
    (trimQueue pre start q).1 ++ (trimQueue pre start q).2 = q ∧ (q ≠ [] → (trimQueue pre start q).2 ≠ []) :=
  ⟨trimQueue_append .., trimQueue_nonempty pre start q⟩

/-- A sample is only dropped if the sample saved after it is itself older than the pre-trigger time before the start of the
measurement: nothing inside the window is lost, and neither is the last sample before it.  For every schedule, if the samples
are saved in the order of their times and the pre-trigger time is not longer than the start time (see C21). -/
theorem C20_window_kept {cfg : WCfg} {a1 a2 : List Act} {t : Nat} {w1 w : W} (h1 : W.run cfg a1 W.init = some w1)
    (h2 : W.run cfg (.start t :: a2) w1 = some w) (hn1 : ∀ t', .start t' ∉ a1) (hn2 : ∀ t', .start t' ∉ a2)
    (ht : 0 < t ∧ cfg.preTrig ≤ t ∧ t < 2 ^ 64) (htimed : Timed w.added) (hbefore : ∀ s ∈ w1.added, s.time ≤ t) :
    ∀ i s, w.fates[i]? = some (s, .trimmed) → ∃ n, w.added[i + 1]? = some n ∧ n.time + cfg.preTrig < t := by
  have hS1 := Stops.init.run a1 h1
  have hI1 := (Inv.init cfg).run a1 h1
  simp only [W.run] at h2
  cases hs : w1.step cfg (.start t) with
  | none => rw [hs] at h2; cases h2
  | some w2 =>
    rw [hs] at h2
    have hS2 := hS1.step _ hs
    obtain ⟨more, hm⟩ := run_added a2 hS2 h2
    simp only [W.step] at hs
    split at hs
    · cases hs
    · cases hs
      have hI2 : Inv cfg { w1 with state := .started, start := t, stop := 0 } := ⟨hI1.fifo, hI1.out, hI1.size, hI1.plain⟩
      have hm : w.added = w1.added ++ more := hm
      have ht1 : Timed w1.added := by rw [hm] at htimed; exact htimed.left
      have hW1 := Window.run a1 hn1 (w := W.init) ⟨fun i s h => by simp [W.init] at h⟩ (Inv.init cfg) Stops.init (.inl rfl) ht1 h1
      have hW2 : Window cfg { w1 with state := .started, start := t, stop := 0 } := by
        refine ⟨?_⟩
        intro i s hi
        obtain ⟨n, a1, a2⟩ := hW1.1.trimmed i s hi
        refine ⟨n, a1, .inl ⟨ht.1, ?_⟩⟩
        rcases a2 with ⟨b1, -⟩ | ⟨-, m, b1, b2⟩
        · rw [hW1.2] at b1; cases b1
        · exact Nat.lt_of_lt_of_le b2 (hbefore m b1)
      have hW := Window.run a2 hn2 hW2 hI2 hS2 (.inr ht.2) htimed h2
      intro i s hi
      obtain ⟨n, a1, a2⟩ := hW.1.trimmed i s hi
      refine ⟨n, a1, ?_⟩
      have hst : w.start = t := hW.2
      rcases a2 with ⟨b1, b2⟩ | ⟨b1, -⟩
      · rw [hst] at b2; exact b2
      · rw [hst] at b1; omega

/-- Before the start, a sample is only dropped if the one after it is older than the pre-trigger time before the latest
sample. -/
theorem C20_before_start {cfg : WCfg} {acts : List Act} {w : W} (hr : W.run cfg acts W.init = some w)
    (hn : ∀ t, .start t ∉ acts) (htimed : Timed w.added) :
    ∀ i s, w.fates[i]? = some (s, .trimmed) → ∃ n m, w.added[i + 1]? = some n ∧ m ∈ w.added ∧ n.time + cfg.preTrig < m.time := by
  have hW := Window.run acts hn (w := W.init) ⟨fun i s h => by simp [W.init] at h⟩ (Inv.init cfg) Stops.init (.inl rfl) htimed hr
  intro i s hi
  obtain ⟨n, a1, a2⟩ := hW.1.trimmed i s hi
  rcases a2 with ⟨b1, -⟩ | ⟨-, m, b1, b2⟩
  · rw [hW.2] at b1; cases b1
  · exact ⟨n, m, a1, b1, b2⟩

/-- The byte count of the queue is always that of the samples in it. -/
theorem C20_size {cfg : WCfg} {acts : List Act} {w : W} (hr : W.run cfg acts W.init = some w) :
    w.size = (w.queue.map Sample.size).sum := ((Inv.init cfg).run acts hr).size

/-- Without the start the thread trims to the samples of the last ten units of time. -/
example : (W.run exWriter [.add (exSample 1), .add (exSample 12), .add (exSample 25), .add (exSample 30), .wake] W.init).map
    (fun w => (w.fates.map (·.1.time), w.queue.map Sample.time)) = some ([1], [12, 25, 30]) := by decide +kernel

/-! ### C21: a pre-trigger time longer than the time of the start keeps everything -/

/-- The property: with a pre-trigger time that reaches back before time zero no sample is ever dropped. -/
def C21_Statement : Prop :=
  ∀ (cfg : WCfg) (acts : List Act) (w : W), W.run cfg acts W.init = some w → Timed w.added →
    (∀ t, .start t ∈ acts → t < cfg.preTrig) → (∀ s ∈ w.added, s.time < cfg.preTrig) → ∀ x ∈ w.fates, x.2 ≠ .trimmed

/-- It is false: the start time minus the pre-trigger time wraps, and all samples but the last are dropped. -/
theorem C21_false : ¬ C21_Statement := by
  intro h
  have := h { exWriter with preTrig := 100 }
    [.add (exSample 1), .add (exSample 2), .add (exSample 3), .start 5, .recalculate, .wake, .opened true, .enter]
    _ rfl (by decide +kernel)
    (by
      intro t ht
      simp at ht
      subst ht
      show 5 < 100
      omega)
    (by decide +kernel)
    (⟨1, 1, [1, 2], none, some 5⟩, .trimmed) (by decide +kernel)
  exact this rfl

/-- Without a start in the run nothing is dropped, and neither is anything if the pre-trigger time equals the start time. -/
theorem C21_partial {cfg : WCfg} {acts : List Act} {w : W} (hr : W.run cfg acts W.init = some w) (hn : ∀ t, .start t ∉ acts)
    (htimed : Timed w.added) (hpre : ∀ s ∈ w.added, s.time < cfg.preTrig) : ∀ x ∈ w.fates, x.2 ≠ .trimmed := by
  intro x hx hx'
  obtain ⟨i, hi⟩ := List.getElem?_of_mem hx
  obtain ⟨n, m, -, h2, h3⟩ := C20_before_start hr hn htimed i x.1 (by rw [hi, ← hx'])
  have := hpre m h2
  omega

/-! ### C37: the life cycle of a measurement -/

/-- As long as the measurement has neither been started nor stopped (nor finalized), nothing is written. -/
theorem C37_nothing_before_start {cfg : WCfg} {acts : List Act} {w : W} (hr : W.run cfg acts W.init = some w)
    (hstart : ∀ t, .start t ∉ acts) (hfin : .finalize ∉ acts) (hstop : w.quit = false) : w.blocks = [] ∧ w.buffer = [] :=
  (Before.run acts hstart hfin Before.init Stops.init hr).none hstop

/-- After the stop no call changes what has been written or recorded: samples saved late are ignored. -/
theorem C37_nothing_after_stop {cfg : WCfg} {acts : List Act} {w w' : W} (hr : W.run cfg acts w = some w') (hgone : w.pc = .gone)
    (hq : w.quit = true) :
    w'.blocks = w.blocks ∧ w'.buffer = w.buffer ∧ w'.added = w.added ∧ w'.fates = w.fates ∧ w'.queue = w.queue := by
  induction acts generalizing w with
  | nil => cases hr; exact ⟨rfl, rfl, rfl, rfl, rfl⟩
  | cons a acts ih =>
    simp only [W.run] at hr
    cases hs : w.step cfg a with
    | none => rw [hs] at hr; cases hr
    | some w1 =>
      rw [hs] at hr
      have key : w1.pc = .gone ∧ w1.quit = true ∧ w1.blocks = w.blocks ∧ w1.buffer = w.buffer ∧ w1.added = w.added ∧
          w1.fates = w.fates ∧ w1.queue = w.queue := by
        cases a <;> simp [W.step, hgone, hq] at hs
        · subst hs; exact ⟨hgone, hq, rfl, rfl, rfl, rfl, rfl⟩
        · subst hs; exact ⟨rfl, rfl, rfl, rfl, rfl, rfl, rfl⟩
      obtain ⟨k1, k2, k3, k4, k5, k6, k7⟩ := key
      obtain ⟨r1, r2, r3, r4, r5⟩ := ih hr k1 k2
      exact ⟨by rw [r1, k3], by rw [r2, k4], by rw [r3, k5], by rw [r4, k6], by rw [r5, k7]⟩

/-- The property: samples are in the file only if the measurement was started. -/
def C37_Statement : Prop :=
  ∀ (cfg : WCfg) (acts : List Act) (w : W), W.run cfg acts W.init = some w → (∀ t, .start t ∉ acts) → w.blocks.flatten = []

/-- It is false: the save at the end of the thread does not look at the measurement state, so a measurement that is stopped
without having been started has its samples in the file. -/
theorem C37_false : ¬ C37_Statement := by
  intro h
  have := h exWriter [.add (exSample 1), .requestStop, .wake, .opened true, .enter, .store false, .close, .stopped 9] _ rfl
    (by intro t ht; simp at ht)
  revert this
  decide +kernel

/-- The property: finalizing does not lose samples. -/
def C37_FinalizeStatement : Prop :=
  ∀ (cfg : WCfg) (acts : List Act) (w : W), W.run cfg acts W.init = some w → ∀ x ∈ w.fates, x.2 ≠ .reset

/-- It is false: if the measurement is finalized without having been stopped, the thread throws the queue away. -/
theorem C37_finalize_false : ¬ C37_FinalizeStatement := by
  intro h
  have := h exWriter [.start 1, .recalculate, .add (exSample 2), .finalize, .wake] _ rfl (⟨2, 1, [1, 2], none, some 1⟩, .reset)
    (by decide +kernel)
  exact this rfl

/-- What holds: until the stop is requested, without an early finalize, no sample is thrown away. -/
theorem C37_finalize_partial {cfg : WCfg} {acts : List Act} {w : W} (hr : W.run cfg acts W.init = some w)
    (hfin : .finalize ∉ acts) (hq : w.quit = false) : ∀ x ∈ w.fates, x.2 ≠ .reset :=
  (Running.run acts hfin (w := W.init) ⟨fun _ => by simp [W.init], fun _ x hx => by cases hx⟩ Stops.init hr).noreset hq

example : (W.run exWriter [.add (exSample 1), .wake, .add (exSample 2)] W.init).map (fun w => (w.quit, w.blocks)) =
    some (false, []) := by decide +kernel

/-! ### C38: the stop time ends the measurement -/

/-- The property: no sample later than the stop time is in the file. -/
def C38_Statement : Prop :=
  ∀ (cfg : WCfg) (acts : List Act) (t : Nat) (w : W), cfg.trims = true → W.run cfg (acts ++ [.stopped t]) W.init = some w →
    0 < t → ∀ s ∈ w.blocks.flatten, s.time ≤ t

/-- It is false: the stop time is set after the thread has written everything. -/
theorem C38_false : ¬ C38_Statement := by
  intro h
  have := h exWriter [.start 1, .recalculate, .add (exSample 100), .requestStop, .wake, .opened true, .enter, .store false, .close]
    50 _ rfl rfl (by omega) ⟨100, 1, [1, 2], none, some 1⟩ (by decide +kernel)
  revert this
  decide

/-- What holds: the stop time has no effect at all, whatever the schedule; in particular no sample at or before the stop time
is dropped because of it. -/
theorem C38_ineffective_partial {cfg : WCfg} {acts : List Act} {w : W} (hr : W.run cfg acts W.init = some w) :
    ∀ x ∈ w.fates, x.2 ≠ .late := (Stops.init.run acts hr).nolate

/-! ### C49: the master time is relative to the start -/

/-- The property: the master time of every sample in the file is calculated with the start time of the measurement. -/
def C49_Statement : Prop :=
  ∀ (cfg : WCfg) (a1 a2 a3 : List Act) (t : Nat) (w : W), (∀ t, .start t ∉ a1 ++ a2 ++ a3) → .finalize ∉ a1 →
    W.run cfg (a1 ++ [.start t] ++ a2 ++ [.recalculate] ++ a3) W.init = some w →
    ∀ s ∈ w.blocks.flatten ++ w.buffer, s.stamp = some t

/-- It is false: between the change of the state and the calculation the thread may write samples whose master time has not
been calculated. -/
theorem C49_false : ¬ C49_Statement := by
  intro h
  have := h exWriter [.add (exSample 1)] [.wake, .opened true, .enter, .store false, .close] [] 5 _
    (by intro t ht; simp at ht) (by simp) rfl ⟨1, 1, [1, 2], none, none⟩ (by decide +kernel)
  revert this
  decide

/-- What holds: if the thread does not run between the two, the master time of every sample in the file is calculated with the
start time, whatever the schedule before and after. -/
theorem C49_partial {cfg : WCfg} {a1 a3 : List Act} {t : Nat} {w : W} (hn1 : ∀ t, .start t ∉ a1) (hn3 : ∀ t, .start t ∉ a3)
    (hf : .finalize ∉ a1) (hr : W.run cfg (a1 ++ .start t :: .recalculate :: a3) W.init = some w) :
    ∀ s ∈ w.blocks.flatten ++ w.buffer, s.stamp = some t := by
  rw [run_append] at hr
  cases h1 : W.run cfg a1 W.init with
  | none => rw [h1] at hr; cases hr
  | some w1 =>
    rw [h1] at hr
    have hS1 := Stops.init.run a1 h1
    have hB := Before.run a1 hn1 hf Before.init Stops.init h1
    simp only [Option.bind_some, W.run] at hr
    cases hs : w1.step cfg (.start t) with
    | none => rw [hs] at hr; cases hr
    | some w2 =>
      rw [hs] at hr
      have hS2 := hS1.step _ hs
      simp only [Option.bind_some] at hr
      cases hs' : w2.step cfg .recalculate with
      | none => rw [hs'] at hr; cases hr
      | some w3 =>
        rw [hs'] at hr
        have hS3 := hS2.step _ hs'
        have hq : w1.quit = false := by
          cases hq : w1.quit
          · rfl
          · simp [W.step, hq] at hs
        simp only [W.step, hq] at hs
        cases hs
        simp only [W.step] at hs'
        cases hs'
        obtain ⟨b1, b2⟩ := hB.none hq
        have hst : Stamped t { w1 with quit := false, start := t, stop := 0, state := .started, hasMaster := true, queue := w1.queue.map fun s => { s with stamp := some t } } := by
          refine ⟨rfl, rfl, ?_, ?_, ?_, ?_⟩
          · intro s hs
            obtain ⟨y, _, rfl⟩ := List.mem_map.mp hs
            rfl
          · show ∀ s ∈ w1.pc.held, _
            rw [hB.pc hq]; simp [Pc.held]
          · show ∀ s ∈ w1.blocks.flatten, _
            rw [b1]; simp
          · show ∀ s ∈ w1.buffer, _
            rw [b2]; simp
        have := Stamped.run a3 hn3 hst hS3 hr
        intro s hs
        rcases List.mem_append.mp hs with hs | hs
        · exact this.blocks s hs
        · exact this.buffer s hs

example : (W.run exWriter ([.add (exSample 30), .add (exSample 35)] ++ .start 40 :: .recalculate ::
    [.add (exSample 45), .wake, .opened true, .enter, .store false, .store false, .store false, .close]) W.init).map
      (fun w => w.blocks.flatten.map Sample.stamp) = some [some 40, some 40, some 40] := by decide +kernel

/-! ### C50: stopping ends -/

/-- After the stop has been requested the thread makes only a bounded number of steps (as long as no more samples are saved),
and until it has ended it can always make one: `StopMeasurement`, which waits for the thread, returns. -/
theorem C50_stop_ends {cfg : WCfg} {acts : List Act} {w : W} (hr : W.run cfg acts W.init = some w) (hq : w.quit = true) :
    (∀ more w', (∀ a ∈ more, a.thread = true) → W.run cfg more w = some w' → more.length ≤ w.left) ∧
    (w.pc ≠ .ended → w.pc ≠ .gone → ∃ a w', a.thread = true ∧ w.step cfg a = some w') := by
  have hS := Stops.init.run acts hr
  refine ⟨?_, ?_⟩
  · intro more w' ha hm
    have := left_run more ha hS hq hm
    omega
  · intro h1 h2
    cases hpc : w.pc with
    | idle => exact ⟨.wake, _, rfl, by simp only [W.step, hpc, hq]; rfl⟩
    | opening fin last => exact ⟨.opened true, _, rfl, by simp only [W.step, hpc]; rfl⟩
    | ready fin last => exact ⟨.enter, (w.trim cfg).takeNext cfg fin last, rfl, by simp only [W.step, hpc]⟩
    | holding s fin last =>
      refine ⟨.store true, ?_⟩
      simp only [W.step, hpc]
      split
      · split
        · rw [if_pos (.inr trivial)]; exact ⟨_, rfl, rfl⟩
        · exact ⟨_, rfl, rfl⟩
      · exact ⟨_, rfl, rfl⟩
    | closing last =>
      refine ⟨.close, ?_⟩
      simp only [W.step, hpc]
      split
      · exact ⟨_, rfl, rfl⟩
      · exact ⟨_, rfl, rfl⟩
    | ended => exact absurd hpc h1
    | gone => exact absurd hpc h2

example : (W.run exWriter (exRun1 ++ [.requestStop]) W.init).map (fun w => (w.quit, w.left)) = some (true, 22) := by decide +kernel

end Mdf
