import Verif.Props.Lock

/-!
C112, what the thread does with the samples and with exceptions: which samples the loops take from the queue, what is done in the states of the
writer, and that an exception leaves the lock as it was at that point.
-/

namespace Mdf

/-- The samples that are taken from the queue and written: those before the first one that is later than the stop time, which the converter does
not look at. -/
def takenSamples (conv : Bool) (l : List LockSample) : List LockSample := if conv then l else l.takeWhile fun s => !s.late

/-- Without compression every sample of a known group is written, once, without the lock; the queue is looked at before each of them. -/
theorem C112_loop_writes (conv : Bool) (l : List LockSample) :
    (lockLoop4 conv l).count .unlock = ((takenSamples conv l).filter (·.known)).length ∧
    (lockLoop4 conv l).count .lock = ((takenSamples conv l).filter (·.known)).length ∧
    (lockLoop4 conv l).count .touch = 2 * (takenSamples conv l).length + (if (takenSamples conv l).length < l.length then 2 else 1) := by
  induction l with
  | nil => cases conv <;> exact ⟨rfl, rfl, rfl⟩
  | cons s r ih =>
    obtain ⟨h1, h2, h3⟩ := ih
    unfold lockLoop4
    cases conv <;> cases hl : s.late <;> cases hk : s.known <;>
      simp_all [takenSamples, List.count_cons, List.count_append] <;> first | omega | (split_ifs <;> omega)

/-- With compression: the same samples, if the thread finalizes. -/
theorem C112_loop_compressed (conv : Bool) (l : List LockSample) :
    (lockLoopZ conv true l).count .unlock = (takenSamples conv l).length ∧
    (lockLoopZ conv true l).count .lock = (takenSamples conv l).length := by
  induction l with
  | nil => cases conv <;> exact ⟨rfl, rfl⟩
  | cons s r ih =>
    obtain ⟨h1, h2⟩ := ih
    unfold lockLoopZ
    cases conv <;> cases hl : s.late <;> cases hk : s.full <;>
      simp_all [takenSamples, List.count_cons, List.count_append]

/-- And MDF 3. -/
theorem C112_loop_mdf3 (l : List LockSample) :
    (lockLoop3 l).count .unlock = (takenSamples false l).length ∧ (lockLoop3 l).count .lock = (takenSamples false l).length := by
  induction l with
  | nil => exact ⟨rfl, rfl⟩
  | cons s r ih =>
    obtain ⟨h1, h2⟩ := ih
    unfold lockLoop3
    cases hl : s.late <;> simp_all [takenSamples, List.count_cons, List.count_append]

/-- What is done to a queue by a turn of the thread before the measurement is started: the converter leaves it, the others trim it, and the lock is
kept. -/
theorem C112_init (q : QTurn) (h : q.st = .init) :
    turnActs q = (if q.env.cls = .converter then [] else [.touch]) ∧ lockRun true (turnActs q) = lockGood ∧
    (LockAct.touch ∈ turnActs q ↔ q.env.cls ≠ .converter) := by
  unfold turnActs
  rw [h]
  cases q.env.cls <;> simp [lockRun, lockGood]

/-- A writer whose samples are not compressed: when the thread saves, it trims the queue (the converter does not) and writes the samples of
known groups. -/
theorem C112_save_writes (e : QEnv) (hc : e.cls ≠ .mdf3) (hz : e.compress = false) (hd : e.isDg = true) (ho : e.opens = true)
    (ht : e.dt = some true) :
    (lockSave e).count .unlock = ((takenSamples (e.cls = .converter) e.samples).filter (·.known)).length + 2 ∧
    (lockSave e).count .touch = 2 * (takenSamples (e.cls = .converter) e.samples).length +
      (if (takenSamples (e.cls = .converter) e.samples).length < e.samples.length then 2 else 1) +
      (if e.cls = .converter then 0 else 1) := by
  obtain ⟨h1, -, h3⟩ := C112_loop_writes (e.cls = .converter) e.samples
  have hs : lockSave e = lockSave4 e := by
    unfold lockSave
    cases h : e.cls
    · exact absurd h hc
    all_goals simp [hz]
  rw [hs]
  unfold lockSave4
  simp only [hd, ho, ht, Bool.not_true, Bool.false_eq_true, if_false, Bool.false_and, List.count_append, h1, h3]
  cases h : e.cls
  · exact absurd h hc
  all_goals simp [List.count_cons]; omega

/-- An exception leaves the lock as it is at that point: if opening the file throws, it is unlocked, and the next queue finds it so; an exception
before that leaves it locked. -/
theorem C112_exception_lock (e : QEnv) (hc : e.cls = .mdf3) (hd : e.isDg = true) :
    lockTurn true [⟨.stop, false, e, some 1⟩] = [⟨false, false, true⟩] ∧ lockTurn true [⟨.stop, false, e, some 0⟩] = [⟨true, false, true⟩] := by
  have h : ∃ r, lockClean e = .unlock :: r := by
    unfold lockClean
    rw [hc]
    simp only [lockClean3, hd, Bool.not_true, Bool.false_eq_true, if_false]
    exact ⟨_, rfl⟩
  obtain ⟨r, h⟩ := h
  simp only [lockTurn, lockCall, turnActs, h, List.take_succ_cons, List.take_zero, lockRun, and_self]

/-- After that the next queue of an MDF 3 file is not written either. -/
theorem C112_exception_next (e e' : QEnv) (hc : e.cls = .mdf3) (hd : e.isDg = true) (hc' : e'.cls = .mdf3) (hd' : e'.isDg = true) :
    lockTurn true [⟨.stop, false, e, some 1⟩, ⟨.stop, false, e', none⟩] = [⟨false, false, true⟩, ⟨false, false, true⟩] := by
  have h : ∀ e : QEnv, e.cls = .mdf3 → e.isDg = true → ∃ r, lockClean e = .unlock :: r := by
    intro e hc hd
    unfold lockClean
    rw [hc]
    simp only [lockClean3, hd, Bool.not_true, Bool.false_eq_true, if_false]
    exact ⟨_, rfl⟩
  obtain ⟨r, h1⟩ := h e hc hd
  obtain ⟨r', h2⟩ := h e' hc' hd'
  simp only [lockTurn, lockCall, turnActs, h1, h2, List.take_succ_cons, List.take_zero, lockRun]

example : takenSamples false [⟨false, true, false, false⟩, ⟨true, true, false, false⟩, ⟨false, true, false, false⟩] = [⟨false, true, false, false⟩] := by
  decide

example : (lockSave ⟨.writer4, false, false, true, false, true, some true, false, [⟨false, true, false, false⟩, ⟨true, true, false, false⟩]⟩).count .unlock = 3 := by
  decide

end Mdf
