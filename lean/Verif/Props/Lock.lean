import Verif.Model.Lock
import Mathlib.Tactic.SplitIfs

/-! C112: the sample queue is used only while its lock is held, and the lock is held when a queue has been saved. -/

namespace Mdf

/-- A call that is given the lock: it gives it back, it uses the queue only while it has it, and it does not end by an exception. -/
def lockGood : LockRes := ⟨true, false, false⟩

/-- The full claim: whatever the thread meets, every call in a turn ends with the lock held and never used the queue without it. -/
def C112_Statement : Prop := ∀ (qs : List QTurn), (∀ q ∈ qs, q.cut = none) → ∀ x ∈ lockTurn true qs, x = lockGood

theorem lockRun_append (o : Bool) (a b : List LockAct) : lockRun o (a ++ b) =
    if (lockRun o a).threw then lockRun o a
    else { lockRun (lockRun o a).owned b with race := (lockRun o a).race || (lockRun (lockRun o a).owned b).race } := by
  induction a generalizing o with
  | nil => simp [lockRun]
  | cons x a ih =>
    cases x <;> cases o <;> simp only [List.cons_append, lockRun, ih]
    all_goals first
      | rfl
      | (split_ifs <;> simp_all [Bool.or_assoc, Bool.or_comm, Bool.or_left_comm])

/-- Putting together two calls that are good. -/
theorem lockGood_append {a b : List LockAct} (ha : lockRun true a = lockGood) (hb : lockRun true b = lockGood) :
    lockRun true (a ++ b) = lockGood := by
  rw [lockRun_append, ha]; simp only [lockGood] at *; rw [hb]; simp

theorem lockLoop3_good (l : List LockSample) : lockRun true (lockLoop3 l) = lockGood := by
  induction l with
  | nil => rfl
  | cons s r ih =>
    unfold lockLoop3
    cases s.late
    · exact lockGood_append (a := [.touch, .touch]) rfl (lockGood_append (a := [.unlock, .lock]) rfl ih)
    · rfl

theorem lockLoop4_good (c : Bool) (l : List LockSample) : lockRun true (lockLoop4 c l) = lockGood := by
  induction l with
  | nil => rfl
  | cons s r ih =>
    unfold lockLoop4
    refine lockGood_append (a := [.touch, .touch]) rfl ?_
    split_ifs
    · rfl
    · exact ih
    · exact lockGood_append (a := [.unlock, .lock]) rfl ih

theorem lockLoopZ_good (c : Bool) (l : List LockSample) : lockRun true (lockLoopZ c true l) = lockGood := by
  induction l with
  | nil => rfl
  | cons s r ih =>
    unfold lockLoopZ
    refine lockGood_append (a := [.touch, .touch]) rfl ?_
    simp only [if_true]
    split_ifs
    · rfl
    · exact lockGood_append (a := [.unlock, .lock]) rfl ih
    · exact lockGood_append (a := [.unlock, .lock]) rfl ih

theorem lockKept_append {a b : List LockAct} {x y : Bool} (ha : lockRun true a = ⟨true, x, false⟩) (hb : lockRun true b = ⟨true, y, false⟩) :
    lockRun true (a ++ b) = ⟨true, x || y, false⟩ := by
  rw [lockRun_append, ha]; simp only [Bool.false_eq_true, if_false]; rw [hb]

/-- A sample is taken from the queue that does not fit into the buffer: none before it was later than the stop time (which the converter does not
look at). -/
def overflows (conv : Bool) : List LockSample → Bool
  | [] => false
  | s :: r => (conv || !s.late) && (s.full || overflows conv r)

/-- What saving with compression does with the queue while the measurement goes on: the size is read without the lock exactly if a sample
does not fit into the buffer any more. -/
theorem lockLoopZ_save (c : Bool) (l : List LockSample) : lockRun true (lockLoopZ c false l) = ⟨true, overflows c l, false⟩ := by
  induction l with
  | nil => rfl
  | cons s r ih =>
    unfold lockLoopZ overflows
    simp only [Bool.false_eq_true, if_false]
    split_ifs with h1 h2 h3
    · simp only [Bool.and_eq_true, Bool.not_eq_true'] at h1
      simp [h1.1, h1.2, lockRun]
    · have hx : (c || !s.late) = true := by revert h1; cases c <;> cases s.late <;> simp
      rw [hx, h2]
      exact lockKept_append (a := [.touch, .touch, .unlock, .touch, .lock]) rfl ih
    · have hx : (c || !s.late) = true := by revert h1; cases c <;> cases s.late <;> simp
      rw [hx, h2]
      rfl
    · have hx : (c || !s.late) = true := by revert h1; cases c <;> cases s.late <;> simp
      have hf : s.full = false := by simpa using h2
      rw [hx, hf]
      exact lockKept_append (a := [.touch, .touch, .unlock, .lock]) rfl ih

/-- The data block of an uncompressed data group is there and has a position, if it is needed. -/
def QEnv.blockOk (e : QEnv) : Prop :=
  e.cls = .mdf3 ∨ e.compress = true ∨ e.isDg = false ∨ e.opens = false ∨ e.dt = some true ∨ (e.cls = .converter ∧ e.dt ≠ none)

theorem lockClean3_good (e : QEnv) : lockRun true (lockClean3 e) = lockGood := by
  unfold lockClean3
  split_ifs
  · rfl
  · rfl
  · rw [show ([LockAct.unlock] ++ ([.lock, .touch] ++ lockLoop3 e.samples ++ [.unlock, .lock])) =
      [.unlock, .lock, .touch] ++ (lockLoop3 e.samples ++ [.unlock, .lock]) by simp]
    exact lockGood_append rfl (lockGood_append (lockLoop3_good _) rfl)

theorem lockSave4_good (e : QEnv) (h : e.isDg = false ∨ e.opens = false ∨ e.dt = some true ∨ (e.cls = .converter ∧ e.dt ≠ none)) :
    lockRun true (lockSave4 e) = lockGood := by
  unfold lockSave4
  split_ifs with h1 h2
  · rfl
  · rfl
  all_goals
    have hd : ∃ p, e.dt = some p ∧ ¬ (!p && decide (e.cls ≠ .converter)) = true := by
      rcases h with h | h | h | ⟨h, h'⟩
      · simp [h] at h1
      · simp [h] at h2
      · exact ⟨true, h, by simp⟩
      · cases hx : e.dt with
        | none => exact absurd hx h'
        | some p => exact ⟨p, rfl, by simp [h]⟩
    obtain ⟨p, hp, hn⟩ := hd
    rw [hp]
    simp only
    rw [if_neg (by simpa using hn)]
    have : ∀ t : List LockAct, lockRun true t = lockGood →
        lockRun true ([LockAct.unlock] ++ ([.lock] ++ t ++ lockLoop4 (e.cls = .converter) e.samples ++ [.unlock, .lock])) = lockGood := by
      intro t ht
      rw [show ([LockAct.unlock] ++ ([.lock] ++ t ++ lockLoop4 (e.cls = .converter) e.samples ++ [.unlock, .lock])) =
        [.unlock, .lock] ++ (t ++ (lockLoop4 (e.cls = .converter) e.samples ++ [.unlock, .lock])) by simp]
      exact lockGood_append rfl (lockGood_append ht (lockGood_append (lockLoop4_good _ _) rfl))
    apply this
    rfl

theorem lockCleanZ_kept (e : QEnv) (f x : Bool) (hl : lockRun true (lockLoopZ (e.cls = .converter) f e.samples) = ⟨true, x, false⟩) :
    lockRun true (lockCleanZ e f) = ⟨true, (e.isDg && e.hl && e.opens && !e.samples.isEmpty) && x, false⟩ := by
  unfold lockCleanZ
  by_cases h0 : e.samples = []
  · rw [if_pos h0]; simp [h0, lockRun]
  rw [if_neg h0]
  have h0' : e.samples.isEmpty = false := by cases hs : e.samples <;> simp_all
  by_cases h1 : (!e.isDg || !e.hl) = true
  · rw [if_pos h1]
    have : (e.isDg && e.hl) = false := by revert h1; cases e.isDg <;> cases e.hl <;> simp
    rw [this]; simp [lockRun]
  rw [if_neg h1]
  have h1' : (e.isDg && e.hl) = true := by revert h1; cases e.isDg <;> cases e.hl <;> simp
  by_cases h2 : e.opens = true
  · have : ∀ t : List LockAct, lockRun true t = ⟨true, false, false⟩ →
        lockRun true ([LockAct.touch] ++ ([.unlock] ++ ([.lock] ++ t ++ lockLoopZ (e.cls = .converter) f e.samples ++ [.unlock, .lock]))) =
          ⟨true, x, false⟩ := by
      intro t ht
      rw [show ([LockAct.touch] ++ ([.unlock] ++ ([.lock] ++ t ++ lockLoopZ (e.cls = .converter) f e.samples ++ [.unlock, .lock]))) =
        [.touch, .unlock, .lock] ++ (t ++ (lockLoopZ (e.cls = .converter) f e.samples ++ [.unlock, .lock])) by simp]
      have := lockKept_append (a := [.touch, .unlock, .lock]) (x := false) rfl
        (lockKept_append ht (lockKept_append (b := [.unlock, .lock]) (y := false) hl rfl))
      simpa using this
    simp only [h2, h1', h0', Bool.not_true, Bool.false_eq_true, if_false, Bool.not_false, Bool.and_self, Bool.true_and]
    apply this
    split_ifs <;> rfl
  · have h2' : e.opens = false := by simpa using h2
    simp [h2', lockRun]

theorem lockCleanZ_final (e : QEnv) : lockRun true (lockCleanZ e true) = lockGood := by
  rw [lockCleanZ_kept e true false (lockLoopZ_good _ _)]; simp [lockGood]

/-- Cleaning a queue: the lock is kept and the queue used only under it, if the data block is there. -/
theorem C112_clean_partial (e : QEnv) (h : e.blockOk) : lockRun true (lockClean e) = lockGood := by
  unfold lockClean
  cases hc : e.cls
  · exact lockClean3_good e
  all_goals
    simp only
    by_cases hz : e.compress = true
    · rw [if_pos hz]; exact lockCleanZ_final e
    · rw [if_neg hz]
      apply lockSave4_good
      unfold QEnv.blockOk at h
      simp only [hc, hz] at h ⊢
      simpa using h

/-- Saving a queue while the measurement goes on: the lock is kept under the same condition, and the queue is used without the lock exactly if
data is compressed, there are 4 MB, and a sample is met that does not fit into the buffer (`QueueSize()`). -/
theorem C112_save_partial (e : QEnv) (h : e.blockOk) : lockRun true (lockSave e) =
    ⟨true, e.cls ≠ .mdf3 && e.compress && e.twoBlocks && (e.isDg && e.hl && e.opens && !e.samples.isEmpty) &&
      overflows (e.cls = .converter) e.samples, false⟩ := by
  unfold lockSave
  cases hc : e.cls
  · simp only
    split_ifs
    · simp [lockRun]
    · rw [lockClean3_good]; simp [lockGood]
  all_goals
    simp only
    by_cases hz : e.compress = true
    · rw [if_pos hz]
      by_cases ht : e.twoBlocks = true
      · have h1 := lockCleanZ_kept e false _ (lockLoopZ_save _ _)
        have h2 := lockKept_append (a := [.touch]) (x := false) rfl h1
        simp only [ht, hz, hc] at h2 ⊢
        simpa using h2
      · have ht' : e.twoBlocks = false := by simpa using ht
        simp [ht', lockRun]
    · rw [if_neg hz]
      have : lockRun true (lockSave4 e) = lockGood := by
        apply lockSave4_good
        unfold QEnv.blockOk at h
        simp only [hc, hz] at h ⊢
        simpa using h
      rw [this]
      simp [hz, lockGood]

/-- A whole turn: with the data blocks there and no exceptions, all queues are called with the lock held, and the queues are used without it
only by saving compressed data. -/
theorem C112_turn_partial (qs : List QTurn) (h : ∀ q ∈ qs, q.cut = none ∧ q.env.blockOk) :
    ∀ x ∈ lockTurn true qs, x.owned = true ∧ x.threw = false := by
  induction qs with
  | nil => intro x hx; simp [lockTurn] at hx
  | cons q r ih =>
    have hq := h q List.mem_cons_self
    have hacts : ∃ b, lockRun true (turnActs q) = ⟨true, b, false⟩ := by
      unfold turnActs
      cases q.st
      · simp only; split_ifs <;> exact ⟨_, rfl⟩
      · simp only
        split_ifs
        · exact ⟨_, C112_save_partial _ hq.2⟩
        · exact ⟨_, rfl⟩
      · exact ⟨_, C112_clean_partial _ hq.2⟩
      · exact ⟨_, rfl⟩
    obtain ⟨b, hb⟩ := hacts
    intro x hx
    unfold lockTurn at hx
    simp only [lockCall, hq.1, hb] at hx
    rcases List.mem_cons.mp hx with rfl | hx
    · exact ⟨rfl, rfl⟩
    · exact ih (fun q hq => h q (List.mem_cons_of_mem _ hq)) x hx

/-- The turns in which no queue is used without the lock: without compression, all of them. -/
theorem C112_turn_uncompressed_partial (qs : List QTurn) (h : ∀ q ∈ qs, q.cut = none ∧ q.env.blockOk ∧ q.env.compress = false) :
    ∀ x ∈ lockTurn true qs, x = lockGood := by
  induction qs with
  | nil => intro x hx; simp [lockTurn] at hx
  | cons q r ih =>
    obtain ⟨h1, h2, h3⟩ := h q List.mem_cons_self
    have hb : lockRun true (turnActs q) = lockGood := by
      unfold turnActs
      cases q.st
      · simp only; split_ifs <;> rfl
      · simp only
        split_ifs
        · rw [C112_save_partial _ h2]; simp [h3, lockGood]
        · rfl
      · exact C112_clean_partial _ h2
      · rfl
    intro x hx
    unfold lockTurn at hx
    simp only [lockCall, h1, hb] at hx
    rcases List.mem_cons.mp hx with rfl | hx
    · rfl
    · exact ih (fun q hq => h q (List.mem_cons_of_mem _ hq)) x hx

/-- The end of the thread: with the data blocks there and no exceptions all queues are written, and the program goes on. -/
theorem C112_end_partial (qs : List (QEnv × Option Nat)) (h : ∀ q ∈ qs, q.2 = none ∧ q.1.blockOk) :
    lockEnd true qs = some (qs.map fun _ => lockGood) := by
  induction qs with
  | nil => rfl
  | cons q r ih =>
    obtain ⟨e, cut⟩ := q
    obtain ⟨h1, h2⟩ := h (e, cut) List.mem_cons_self
    simp only at h1 h2
    subst h1
    unfold lockEnd
    simp only [lockCall, C112_clean_partial e h2]
    have := ih fun q hq => h q (List.mem_cons_of_mem _ hq)
    simp [lockGood, this]

/-- Without a data block the lock is not given back, and the queue is not saved. -/
theorem C112_lock_lost (e : QEnv) (hc : e.cls ≠ .mdf3) (hz : e.compress = false) (hd : e.isDg = true) (ho : e.opens = true) (ht : e.dt = none) :
    lockClean e = [.unlock] ∧ lockSave e = [.unlock] ∧ lockRun true (lockClean e) = ⟨false, false, false⟩ := by
  have h4 : lockSave4 e = [.unlock] := by simp [lockSave4, hd, ho, ht]
  have h1 : lockClean e = [.unlock] := by
    unfold lockClean
    cases h : e.cls
    · exact absurd h hc
    all_goals simp [hz, h4]
  refine ⟨h1, ?_, by rw [h1]; rfl⟩
  unfold lockSave
  cases h : e.cls
  · exact absurd h hc
  all_goals simp [hz, h4]

/-- A queue that gets the lock unlocked and has to unlock it throws before it has done anything. -/
theorem lockSave4_unowned (e : QEnv) (hd : e.isDg = true) : lockRun false (lockSave4 e) = ⟨false, false, true⟩ := by
  unfold lockSave4
  simp [hd, lockRun]

/-- So if at the end of the thread a data group without data block comes before another one, the program ends, whatever comes in between
that does not touch the lock. -/
theorem C112_terminates (e e' : QEnv) (r : List (QEnv × Option Nat)) (hc : e.cls ≠ .mdf3) (hz : e.compress = false) (hd : e.isDg = true)
    (ho : e.opens = true) (ht : e.dt = none) (hc' : e'.cls ≠ .mdf3) (hz' : e'.compress = false) (hd' : e'.isDg = true) (cut : Option Nat) :
    lockEnd true ((e, none) :: (e', cut) :: r) = none := by
  obtain ⟨-, -, h⟩ := C112_lock_lost e hc hz hd ho ht
  have h' : lockClean e' = lockSave4 e' := by
    unfold lockClean
    cases hh : e'.cls
    · exact absurd hh hc'
    all_goals simp [hz']
  have hx : (lockCall false (lockClean e') cut).threw = true := by
    unfold lockCall
    cases cut
    · rw [h', lockSave4_unowned e' hd']
    · rfl
  unfold lockEnd
  simp only [lockCall, h, Bool.false_eq_true, if_false]
  unfold lockEnd
  simp [hx]

/-- In a turn such an exception is caught: the other queues are not saved in this turn. -/
theorem C112_turn_skips (e : QEnv) (q q' : QTurn) (hq : q.env = e ∧ q.cut = none ∧ q.st = .stop) (hq' : q'.cut = none ∧ q'.st = .stop)
    (hc : e.cls ≠ .mdf3) (hz : e.compress = false) (hd : e.isDg = true) (ho : e.opens = true) (ht : e.dt = none)
    (hc' : q'.env.cls ≠ .mdf3) (hz' : q'.env.compress = false) (hd' : q'.env.isDg = true) :
    lockTurn true [q, q'] = [⟨false, false, false⟩, ⟨false, false, true⟩] := by
  obtain ⟨rfl, h2, h3⟩ := hq
  obtain ⟨-, -, h⟩ := C112_lock_lost q.env hc hz hd ho ht
  have h' : lockClean q'.env = lockSave4 q'.env := by
    unfold lockClean
    cases hh : q'.env.cls
    · exact absurd hh hc'
    all_goals simp [hz']
  simp [lockTurn, lockCall, turnActs, h2, h3, hq'.1, hq'.2, h, h', lockSave4_unowned q'.env hd']

/-- An exception of a file operation at the end of the thread always ends the program. -/
theorem C112_exception (qs r : List (QEnv × Option Nat)) (e : QEnv) (n : Nat) : lockEnd true (qs ++ (e, some n) :: r) = none := by
  have : ∀ o, lockEnd o (qs ++ (e, some n) :: r) = none := by
    induction qs with
    | nil => intro o; simp [lockEnd, lockCall]
    | cons q qs ih =>
      intro o
      obtain ⟨e', cut⟩ := q
      simp only [List.cons_append, lockEnd]
      split_ifs
      · rfl
      · simp [ih]
  exact this true

/-- C112 is false of the code: saving compressed data reads the size of the queue without the lock. -/
theorem C112_false : ¬ C112_Statement := by
  intro h
  have := h [⟨.start, true, ⟨.writer4, true, false, true, true, true, none, true, [⟨false, true, true, true⟩]⟩, none⟩] (by simp)
    ⟨true, true, false⟩ (by decide)
  exact absurd this (by decide)

/-- And, without compression, a data group without data block leaves the lock unlocked. -/
theorem C112_false_uncompressed : ∃ q : QTurn, q.cut = none ∧ q.env.compress = false ∧ ∃ x ∈ lockTurn true [q], x.owned = false :=
  ⟨⟨.start, true, ⟨.writer4, false, false, true, true, true, none, true, []⟩, none⟩, rfl, rfl, ⟨false, false, false⟩, by decide, rfl⟩

/-- Two groups with samples, saved without compression. -/
example : lockEnd true [(⟨.writer4, false, true, true, false, true, some true, false, [⟨false, true, false, false⟩, ⟨true, true, false, false⟩]⟩, none),
    (⟨.writer4, false, true, true, false, true, some true, false, [⟨false, false, false, false⟩]⟩, none)] = some [lockGood, lockGood] := by decide

example : lockSave ⟨.writer4, true, false, true, true, true, none, true, [⟨false, true, false, true⟩, ⟨false, true, true, false⟩]⟩ =
    [.touch, .touch, .unlock, .lock, .touch, .touch, .touch, .unlock, .lock, .touch, .touch, .unlock, .touch, .lock, .touch, .unlock, .lock] := by
  decide

example : lockEnd true [(⟨.writer4, false, true, true, false, true, none, false, []⟩, none),
    (⟨.writer4, false, true, true, false, true, some true, false, [⟨false, true, false, false⟩]⟩, none)] = none :=
  C112_terminates _ _ [] (by decide) rfl rfl rfl rfl (by decide) rfl rfl none

end Mdf
