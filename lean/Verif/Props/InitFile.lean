import Verif.Model.InitFile

/-!
# C117 A writer empties no file that was there before
-/

namespace Mdf

/-- No file is lost or becomes shorter. -/
def DiskGrows (d d' : Nat → Option Bytes) : Prop := ∀ n b, d n = some b → ∃ b', d' n = some b' ∧ b.length ≤ b'.length

theorem DiskGrows.refl (d : Nat → Option Bytes) : DiskGrows d d := fun _ b h => ⟨b, h, Nat.le_refl _⟩

theorem DiskGrows.trans {d e f : Nat → Option Bytes} (h : DiskGrows d e) (g : DiskGrows e f) : DiskGrows d f := by
  intro n b hb
  obtain ⟨c, hc, h1⟩ := h n b hb
  obtain ⟨c', hc', h2⟩ := g n c hc
  exact ⟨c', hc', Nat.le_trans h1 h2⟩

/-- What is written never shortens a file (C26: blocks are changed in place or appended). -/
def IwCall.Grows : IwCall → Prop
  | .initMeasurement _ _ w | .save _ w | .finalize _ w => ∀ b, b.length ≤ (w b).length
  | _ => True

/-- A writer nobody has used. -/
structure IwSt.Fresh (s : IwSt) : Prop where
  name : s.name = none
  buf : s.buf = .none
  made : s.made = false

/-- **C117, full statement**: whatever is called, a file that was there is still there and not shorter. -/
def C117_Statement : Prop :=
  ∀ (s : IwSt) (cs : List IwCall), s.Fresh → (∀ c ∈ cs, c.Grows) → DiskGrows s.disk (s.run cs).disk

/-! ### The steps -/

theorem open_update (s : IwSt) (mode : IwMode) (ok : Bool) (h : mode ≠ .trunc) : (s.open mode ok).disk = s.disk := by
  unfold IwSt.open
  split
  · split
    · rfl
    · rfl
  · rfl

theorem open_keeps (s : IwSt) (mode : IwMode) (ok : Bool) :
    (s.open mode ok).name = s.name ∧ (s.open mode ok).state = s.state ∧ (s.open mode ok).made = s.made ∧ (s.open mode ok).stream = s.stream := by
  unfold IwSt.open
  split
  · split
    · split <;> simp [IwSt.put]
    · simp
  · simp

theorem close_keeps (s : IwSt) : s.close.disk = s.disk ∧ s.close.name = s.name ∧ s.close.state = s.state ∧ s.close.made = s.made := by
  unfold IwSt.close
  split <;> simp

theorem write_keeps (s : IwSt) (w : Bytes → Bytes) :
    (s.write w).name = s.name ∧ (s.write w).state = s.state ∧ (s.write w).made = s.made ∧ (s.write w).buf = s.buf := by
  unfold IwSt.write
  split
  · simp
  · simp
  · simp
  · split <;> simp [IwSt.put]

theorem put_grows (s : IwSt) (n : Nat) (b c : Bytes) (h : s.disk n = some b) (hl : b.length ≤ c.length) : DiskGrows s.disk (s.put n c).disk := by
  intro k x hx
  by_cases hk : k = n
  · subst hk
    rw [h] at hx
    cases hx
    exact ⟨c, by simp [IwSt.put], hl⟩
  · exact ⟨x, by simp [IwSt.put, hk, hx], Nat.le_refl _⟩

theorem write_grows (s : IwSt) (w : Bytes → Bytes) (hw : ∀ b, b.length ≤ (w b).length) : DiskGrows s.disk (s.write w).disk := by
  unfold IwSt.write
  split
  · exact .refl _
  · exact .refl _
  · exact .refl _
  · rename_i n _
    split
    · exact .refl _
    · rename_i b hb
      exact put_grows s n b _ hb (hw b)

/-- A writer that waits to make a new file waits for a name that no file has. -/
def IwSt.NewFile (s : IwSt) : Prop := s.state = .create → ∀ n, s.name = some n → s.disk n = none

/-- What the caller has to heed: `Init` opens the file if there is one; a writer with a name is not given a stream; nobody else makes the file a writer
is about to make. -/
def IwCall.Careful (s : IwSt) : IwCall → Prop
  | .initName n r => (s.disk n).isSome → r = .throws ∨ r = .reads
  | .initStream _ _ => s.name = none
  | .create n _ => s.state = .create → s.name ≠ some n
  | _ => True

/-- All calls are careful. -/
def CarefulRun : IwSt → List IwCall → Prop
  | _, [] => True
  | s, c :: cs => c.Careful s ∧ CarefulRun (s.call c) cs

theorem trunc_grows (s : IwSt) (ok : Bool) (h : s.NewFile) (hc : s.state = .create) : DiskGrows s.disk (s.open .trunc ok).disk := by
  unfold IwSt.open
  split
  · rename_i n _ hn
    split
    · rw [if_pos rfl]
      intro k x hx
      have : k ≠ n := by
        intro hk
        subst hk
        rw [h hc k hn] at hx
        cases hx
      exact ⟨x, by simp [IwSt.put, this, hx], Nat.le_refl _⟩
    · exact .refl _
  · exact .refl _

/-- An attempt to open that fails changes nothing on the disk. -/
theorem open_failed (s : IwSt) (mode : IwMode) (ok : Bool) (h : (s.open mode ok).isOpen = false) : (s.open mode ok).disk = s.disk := by
  unfold IwSt.open at h ⊢
  split
  · rename_i n hb hn
    split
    · rename_i ho
      simp only [hb, hn, ho, if_true] at h
      simp [IwSt.isOpen] at h
    · rfl
  · rfl

theorem call_step (s : IwSt) (c : IwCall) (hn : s.NewFile) (hg : c.Grows) (hc : c.Careful s) :
    DiskGrows s.disk (s.call c).disk ∧ (s.call c).NewFile := by
  cases c with
  | initName n r =>
    simp only [IwSt.call, IwSt.initName]
    cases hd : s.disk n with
    | none =>
      cases r <;> refine ⟨.refl _, ?_⟩ <;> intro _ k hk <;> cases hk <;> exact hd
    | some b =>
      have := hc (by simp [hd])
      rcases this with rfl | rfl <;>
        simp [IwSt.open, IwSt.isOpen, IwSt.close, hd, IwSt.NewFile, DiskGrows.refl]
  | initStream b c =>
    refine ⟨.refl _, ?_⟩
    intro _ k hk
    have : s.name = none := hc
    simp [IwSt.call, IwSt.initStream, this] at hk
  | initMeasurement p ok w =>
    simp only [IwSt.call, IwSt.initMeasurement]
    have hm : ∀ md, md = (if s.state = .create then IwMode.trunc else .update) → md = .trunc → s.state = .create := by
      intro md h1 h2
      rw [h1] at h2
      by_cases hs : s.state = .create
      · exact hs
      · rw [if_neg hs] at h2
        cases h2
    generalize hmd : (if s.state = .create then IwMode.trunc else .update) = md
    have hm := hm md hmd.symm
    split
    · exact ⟨.refl _, hn⟩
    · split
      · exact ⟨.refl _, hn⟩
      · split
        · rename_i ho
          simp only [Bool.not_eq_true'] at ho
          have hd := open_failed _ _ _ ho
          have hk := open_keeps s md ok
          refine ⟨by rw [hd]; exact .refl _, ?_⟩
          intro h1 k h2
          rw [hd]
          rw [hk.2.1] at h1
          rw [hk.1] at h2
          exact hn h1 k h2
        · refine ⟨?_, fun h => by cases h⟩
          have h1 : DiskGrows s.disk (s.open md ok).disk := by
            by_cases e : md = .trunc
            · rw [e]
              exact trunc_grows s ok hn (hm e)
            · rw [open_update _ _ _ e]
              exact .refl _
          refine h1.trans ((write_grows _ w hg).trans ?_)
          show DiskGrows _ (IwSt.close _).disk
          rw [(close_keeps _).1]
          exact .refl _
  | start => exact ⟨.refl _, fun h => by cases h⟩
  | save ok w =>
    simp only [IwSt.call]
    have hk := open_keeps s .update ok
    have hd := open_update s .update ok (by decide)
    split
    · rw [(close_keeps _).1]
      have hg2 : DiskGrows s.disk ((s.open .update ok).write w).disk := by
        have := write_grows (s.open .update ok) w hg
        rwa [hd] at this
      refine ⟨hg2, ?_⟩
      intro h1 k h2
      rw [(close_keeps _).2.2.1, (write_keeps _ w).2.1, hk.2.1] at h1
      rw [(close_keeps _).2.1, (write_keeps _ w).1, hk.1] at h2
      rw [(close_keeps _).1]
      have hnone := hn h1 k h2
      unfold IwSt.write
      split
      · rw [hd]; exact hnone
      · show (s.open .update ok).disk k = none
        rw [hd]; exact hnone
      · rw [hd]; exact hnone
      · rename_i m hm
        split
        · rw [hd]; exact hnone
        · rename_i b hb
          rw [hd] at hb
          have : k ≠ m := by
            intro e
            subst e
            rw [hnone] at hb
            cases hb
          simp [IwSt.put, this, hd, hnone]
    · rw [hd]
      refine ⟨.refl _, ?_⟩
      intro h1 k h2
      rw [hd]
      rw [hk.2.1] at h1
      rw [hk.1] at h2
      exact hn h1 k h2
  | finalize ok w =>
    simp only [IwSt.call, IwSt.finalize]
    have hk := open_keeps s .update ok
    have hd := open_update s .update ok (by decide)
    split
    · exact ⟨.refl _, hn⟩
    · split
      · refine ⟨by rw [hd]; exact .refl _, ?_⟩
        intro h1 k h2
        rw [hd]
        rw [hk.2.1] at h1
        rw [hk.1] at h2
        exact hn h1 k h2
      · refine ⟨?_, fun h => by cases h⟩
        show DiskGrows _ (IwSt.close _).disk
        rw [(close_keeps _).1]
        have := write_grows (s.open .update ok) w hg
        rwa [hd] at this
  | create n b =>
    simp only [IwSt.call]
    split
    · exact ⟨.refl _, hn⟩
    · rename_i h
      have h : s.disk n = none := by simpa using h
      refine ⟨?_, ?_⟩
      · intro k x hx
        have : k ≠ n := by
          intro e
          subst e
          rw [h] at hx
          cases hx
        exact ⟨x, by simp [IwSt.put, this, hx], Nat.le_refl _⟩
      · intro h1 k h2
        have hkn : k ≠ n := by
          intro e
          subst e
          exact hc h1 h2
        simp [IwSt.put, hkn, hn h1 k h2]

/-- **C117**, what holds: no file becomes shorter as long as every `Init` opens the file there is, no writer with a name is given a stream, and no other
program makes the file between `Init` and `InitMeasurement`. -/
theorem C117_kept_partial (s : IwSt) (cs : List IwCall) (h0 : s.Fresh) (hg : ∀ c ∈ cs, c.Grows) (hc : CarefulRun s cs) :
    DiskGrows s.disk (s.run cs).disk := by
  have hn : s.NewFile := by
    intro _ n h
    rw [h0.name] at h
    cases h
  clear h0
  induction cs generalizing s with
  | nil => exact .refl _
  | cons c cs ih =>
    have h1 := call_step s c hn (hg c List.mem_cons_self) hc.1
    exact h1.1.trans (ih _ (fun x hx => hg x (List.mem_cons_of_mem _ hx)) hc.2 h1.2)

/-- A file of three bytes is opened and a measurement appended. -/
example : ∃ (s : IwSt) (cs : List IwCall), s.Fresh ∧ (∀ c ∈ cs, c.Grows) ∧ CarefulRun s cs ∧ (s.run cs).disk 1 = some [1#8, 2#8, 3#8, 9#8, 9#8] := by
  refine ⟨{ disk := fun n => if n = 1 then some [1#8, 2#8, 3#8] else none },
    [.initName 1 .reads, .initMeasurement true true (· ++ [9#8]), .start, .finalize true (· ++ [9#8])], ⟨rfl, rfl, rfl⟩, ?_, ?_, ?_⟩
  · intro c hc
    simp only [List.mem_cons, List.not_mem_nil, or_false] at hc
    rcases hc with rfl | rfl | rfl | rfl <;> simp [IwCall.Grows]
  · exact ⟨fun _ => .inr rfl, trivial, trivial, trivial, trivial⟩
  · simp [IwSt.run, IwSt.call, IwSt.initName, IwSt.initMeasurement, IwSt.finalize, IwSt.open, IwSt.isOpen, IwSt.close, IwSt.write, IwSt.put]

/-! ### What is not so -/

/-- A file that cannot be opened for reading, or not even looked for: `Init` returns false, but if `InitMeasurement` is called nevertheless and the file
can be opened then, it is emptied. -/
theorem C117_unreadable (s : IwSt) (n : Nat) (r : IwRead) (w : Bytes → Bytes) (hr : r = .noOpen ∨ r = .noStat) (hd : (s.disk n).isSome) :
    (s.initName n r).2 = false ∧ (s.initName n r).1.disk n = s.disk n ∧
    ((s.initName n r).1.initMeasurement true true w).2 = true ∧ ((s.initName n r).1.initMeasurement true true w).1.disk n = some (w []) := by
  rcases hr with rfl | rfl <;>
    simp [IwSt.initName, IwSt.initMeasurement, IwSt.open, IwSt.isOpen, IwSt.close, IwSt.write, IwSt.put, hd]

/-- A writer that has a name and is given an open file of the caller: the file of the name is emptied and written, that of the caller is not. -/
theorem C117_stream_ignored (s : IwSt) (n m : Nat) (w : Bytes → Bytes) (content : Bytes) (hn : s.name = some n) (hm : m ≠ n) :
    ((s.initStream (.file (some m)) content).1.initMeasurement true true w).2 = true ∧
    ((s.initStream (.file (some m)) content).1.initMeasurement true true w).1.disk n = some (w []) ∧
    ((s.initStream (.file (some m)) content).1.initMeasurement true true w).1.disk m = s.disk m := by
  simp [IwSt.initStream, IwSt.initMeasurement, IwSt.open, IwSt.isOpen, IwSt.close, IwSt.write, IwSt.put, hn, hm]

/-- A file that was made between `Init` and `InitMeasurement` is emptied. -/
theorem C117_late_file (s : IwSt) (n : Nat) (b : Bytes) (w : Bytes → Bytes) (hd : s.disk n = none) :
    (s.initName n .reads).2 = true ∧ ((s.initName n .reads).1.call (.create n b)).disk n = some b ∧
    (((s.initName n .reads).1.call (.create n b)).initMeasurement true true w).1.disk n = some (w []) := by
  simp [IwSt.initName, IwSt.call, IwSt.initMeasurement, IwSt.open, IwSt.isOpen, IwSt.close, IwSt.write, IwSt.put, hd]

/-- A file that throws an exception while it is read is not emptied, but what is written next changes it. -/
theorem C117_not_understood (s : IwSt) (n : Nat) (b : Bytes) (w : Bytes → Bytes) (hd : s.disk n = some b) :
    (s.initName n .throws).2 = false ∧ ((s.initName n .throws).1.initMeasurement true true w).2 = true ∧
    ((s.initName n .throws).1.initMeasurement true true w).1.disk n = some (w b) := by
  simp [IwSt.initName, IwSt.initMeasurement, IwSt.open, IwSt.isOpen, IwSt.close, IwSt.write, IwSt.put, hd]

/-- `StartMeasurement` before `InitMeasurement`: the new file is never made. -/
theorem C117_started_early (s : IwSt) (n : Nat) (ok : Bool) (w : Bytes → Bytes) (hd : s.disk n = none) :
    (s.initName n .reads).2 = true ∧ (((s.initName n .reads).1.call .start).initMeasurement true ok w).2 = false ∧
    (((s.initName n .reads).1.call .start).initMeasurement true ok w).1.disk n = none := by
  simp [IwSt.initName, IwSt.call, IwSt.initMeasurement, IwSt.open, IwSt.isOpen, hd]

theorem C117_false : ¬ C117_Statement := by
  intro h
  have hf : ({ disk := fun n => if n = 1 then some [7#8] else none } : IwSt).Fresh := ⟨rfl, rfl, rfl⟩
  obtain ⟨b, h1, h2⟩ := h _ [.initName 1 .noOpen, .initMeasurement true true id] hf (by
    intro c hc
    simp only [List.mem_cons, List.not_mem_nil, or_false] at hc
    rcases hc with rfl | rfl <;> simp [IwCall.Grows]) 1 [7#8] (by simp)
  have := (C117_unreadable { disk := fun n => if n = 1 then some [7#8] else none } 1 .noOpen id (.inl rfl) (by simp)).2.2.2
  simp only [IwSt.run, List.foldl, IwSt.call] at h1
  rw [this] at h1
  cases h1
  simp at h2

/-! ### Which files are changed -/

/-- What `Init` and `InitMeasurement` make of a file: a new one gets what is written to an empty file, an existing one is written as it is. -/
theorem C117_written (s : IwSt) (n : Nat) (w : Bytes → Bytes) :
    (s.initName n .reads).2 = true ∧ ((s.initName n .reads).1.initMeasurement true true w).2 = true ∧
    ((s.initName n .reads).1.initMeasurement true true w).1.disk n = some (w ((s.disk n).getD [])) ∧
    (∀ k, k ≠ n → ((s.initName n .reads).1.initMeasurement true true w).1.disk k = s.disk k) := by
  cases hd : s.disk n with
  | none =>
    refine ⟨?_, ?_, ?_, fun k hk => ?_⟩ <;>
      simp_all [IwSt.initName, IwSt.initMeasurement, IwSt.open, IwSt.isOpen, IwSt.close, IwSt.write, IwSt.put]
  | some b =>
    refine ⟨?_, ?_, ?_, fun k hk => ?_⟩ <;>
      simp_all [IwSt.initName, IwSt.initMeasurement, IwSt.open, IwSt.isOpen, IwSt.close, IwSt.write, IwSt.put]

/-- The file that is open, and the file of the name. -/
def IwSt.Within (s : IwSt) (ok : Nat → Prop) : Prop := (∀ n, s.name = some n → ok n) ∧ ∀ n, s.buf = .file (some n) → ok n

/-- The files named in a call. -/
def IwCall.names : IwCall → List Nat
  | .initName n _ => [n]
  | .initStream (.file (some n)) _ => [n]
  | .create n _ => [n]
  | _ => []

theorem open_within (s : IwSt) (mode : IwMode) (o : Bool) (ok : Nat → Prop) (h : s.Within ok) :
    (s.open mode o).Within ok ∧ ∀ k, ¬ ok k → (s.open mode o).disk k = s.disk k := by
  unfold IwSt.open
  split
  · rename_i n _ hn
    split
    · refine ⟨⟨?_, ?_⟩, ?_⟩
      · intro k hk
        refine h.1 k ?_
        split at hk <;> exact hk
      · intro k hk
        cases hk
        exact h.1 _ hn
      · intro k hk
        have : k ≠ n := fun e => hk (e ▸ h.1 n hn)
        split
        · simp [IwSt.put, this]
        · rfl
    · exact ⟨⟨h.1, fun k hk => by cases hk⟩, fun _ _ => rfl⟩
  · exact ⟨h, fun _ _ => rfl⟩

theorem close_within (s : IwSt) (ok : Nat → Prop) (h : s.Within ok) : s.close.Within ok := by
  unfold IwSt.close
  split
  · exact ⟨h.1, fun k hk => by cases hk⟩
  · exact h

theorem write_within (s : IwSt) (w : Bytes → Bytes) (ok : Nat → Prop) (h : s.Within ok) :
    (s.write w).Within ok ∧ ∀ k, ¬ ok k → (s.write w).disk k = s.disk k := by
  have hk := write_keeps s w
  refine ⟨⟨fun n hn => h.1 n (hk.1 ▸ hn), fun n hn => h.2 n (hk.2.2.2 ▸ hn)⟩, fun k hnot => ?_⟩
  unfold IwSt.write
  split
  · rfl
  · rfl
  · rfl
  · rename_i n hb
    split
    · rfl
    · have : k ≠ n := fun e => hnot (e ▸ h.2 n hb)
      simp [IwSt.put, this]

theorem state_within (s : IwSt) (t : IwState) (ok : Nat → Prop) (h : s.Within ok) : ({ s with state := t } : IwSt).Within ok := h

theorem call_within (s : IwSt) (c : IwCall) (ok : Nat → Prop) (h : s.Within ok) (hc : ∀ n ∈ c.names, ok n) :
    (s.call c).Within ok ∧ ∀ k, ¬ ok k → (s.call c).disk k = s.disk k := by
  cases c with
  | initName n r =>
    have hok : ok n := hc n (by simp [IwCall.names])
    have h0 : ({ s with made := true, name := some n, buf := .file none } : IwSt).Within ok :=
      ⟨fun k hk => by cases hk; exact hok, fun k hk => by cases hk⟩
    have ho := open_within _ .read (r != .noOpen) ok h0
    simp only [IwSt.call, IwSt.initName]
    split
    · exact ⟨h0, fun _ _ => rfl⟩
    · split
      · split
        · split
          · exact ⟨close_within _ ok ho.1, fun k hk => by show (IwSt.close _).disk k = _; rw [(close_keeps _).1]; exact ho.2 k hk⟩
          · exact ⟨close_within _ ok ho.1, fun k hk => by show (IwSt.close _).disk k = _; rw [(close_keeps _).1]; exact ho.2 k hk⟩
        · exact ⟨ho.1, fun k hk => ho.2 k hk⟩
      · exact ⟨h0, fun _ _ => rfl⟩
  | initStream b c =>
    refine ⟨⟨h.1, fun n hn => ?_⟩, fun _ _ => rfl⟩
    have hb : b = .file (some n) := hn
    exact hc n (by rw [hb]; simp [IwCall.names])
  | initMeasurement p o w =>
    simp only [IwSt.call, IwSt.initMeasurement]
    generalize (if s.state = .create then IwMode.trunc else .update) = md
    split
    · exact ⟨h, fun _ _ => rfl⟩
    · split
      · exact ⟨h, fun _ _ => rfl⟩
      · have ho := open_within s md o ok h
        have hw := write_within _ w ok ho.1
        split
        · exact ho
        · refine ⟨close_within _ ok hw.1, fun k hk => ?_⟩
          show (IwSt.close _).disk k = _
          rw [(close_keeps _).1, hw.2 k hk, ho.2 k hk]
  | start => exact ⟨h, fun _ _ => rfl⟩
  | save o w =>
    have ho := open_within s .update o ok h
    have hw := write_within _ w ok ho.1
    simp only [IwSt.call]
    split
    · refine ⟨close_within _ ok hw.1, fun k hk => ?_⟩
      rw [(close_keeps _).1, hw.2 k hk, ho.2 k hk]
    · exact ho
  | finalize o w =>
    have ho := open_within s .update o ok h
    have hw := write_within _ w ok ho.1
    simp only [IwSt.call, IwSt.finalize]
    split
    · exact ⟨h, fun _ _ => rfl⟩
    · split
      · exact ho
      · refine ⟨close_within _ ok hw.1, fun k hk => ?_⟩
        show (IwSt.close _).disk k = _
        rw [(close_keeps _).1, hw.2 k hk, ho.2 k hk]
  | create n b =>
    have hok : ok n := hc n (by simp [IwCall.names])
    simp only [IwSt.call]
    split
    · exact ⟨h, fun _ _ => rfl⟩
    · refine ⟨h, fun k hk => ?_⟩
      have : k ≠ n := fun e => hk (e ▸ hok)
      simp [IwSt.put, this]

/-- Only files named in `Init`, or open in a stream given to it, are changed, whatever is called and whatever fails. -/
theorem C117_only_named (s : IwSt) (cs : List IwCall) (h0 : s.Fresh) (k : Nat) (hk : ∀ c ∈ cs, k ∉ c.names) : (s.run cs).disk k = s.disk k := by
  have hw : s.Within (· ≠ k) := ⟨fun n h => (by rw [h0.name] at h; cases h), fun n h => (by rw [h0.buf] at h; cases h)⟩
  clear h0
  induction cs generalizing s with
  | nil => rfl
  | cons c cs ih =>
    have h1 := call_within s c (· ≠ k) hw (fun n hn e => hk c List.mem_cons_self (e ▸ hn))
    have h2 := ih (s.call c) (fun x hx => hk x (List.mem_cons_of_mem _ hx)) h1.1
    show (IwSt.run (s.call c) cs).disk k = _
    rw [h2, h1.2 k (by simp)]

example : ∃ (s : IwSt) (cs : List IwCall), s.Fresh ∧ (∀ c ∈ cs, 2 ∉ c.names) ∧ (s.run cs).disk 1 ≠ s.disk 1 ∧ (s.run cs).disk 2 = some [5#8] := by
  refine ⟨{ disk := fun n => if n = 2 then some [5#8] else none }, [.initName 1 .reads, .initMeasurement true true (· ++ [9#8])], ⟨rfl, rfl, rfl⟩, ?_, ?_, ?_⟩
  · intro c hc
    simp only [List.mem_cons, List.not_mem_nil, or_false] at hc
    rcases hc with rfl | rfl <;> simp [IwCall.names]
  · simp [IwSt.run, IwSt.call, IwSt.initName, IwSt.initMeasurement, IwSt.open, IwSt.isOpen, IwSt.close, IwSt.write, IwSt.put]
  · simp [IwSt.run, IwSt.call, IwSt.initName, IwSt.initMeasurement, IwSt.open, IwSt.isOpen, IwSt.close, IwSt.write, IwSt.put]

/-- A stream that is no file: the stream gets what is written, and no file is changed. -/
theorem C117_stream (s : IwSt) (content : Bytes) (w v : Bytes → Bytes) (ok : Bool) :
    let t := (s.initStream .memory content).1
    (t.initMeasurement true ok w).2 = true ∧ (t.initMeasurement true ok w).1.stream = w content ∧
    ((t.initMeasurement true ok w).1.finalize ok v).2 = true ∧ ((t.initMeasurement true ok w).1.finalize ok v).1.stream = v (w content) ∧
    ((t.initMeasurement true ok w).1.finalize ok v).1.disk = s.disk := by
  simp [IwSt.initStream, IwSt.initMeasurement, IwSt.finalize, IwSt.open, IwSt.isOpen, IwSt.close, IwSt.write]

end Mdf
