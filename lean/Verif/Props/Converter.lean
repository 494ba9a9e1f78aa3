import Verif.Model.Converter
import Verif.Props.InitFile

/-!
# Property C128: a converter leaves the same file as a writer, and closes it

A converter keeps its file open while samples are stored.  The file is the one it was given, it holds what a writer that opens the file for
every writing leaves in it, and it is closed after `FinalizeMeasurement`, and when the converter is gone.
-/

namespace Mdf

/-- The content of a file after some writings. -/
def afterAll (ws : List (Bytes → Bytes)) (b : Bytes) : Bytes := ws.foldl (fun b w => w b) b

/-- A converter has a file `n` open with the content `b`, or it is closed. -/
structure IwSt.Has (s : IwSt) (n : Nat) (b : Bytes) : Prop where
  made : s.made = true
  name : s.name = some n
  disk : s.disk n = some b

theorem conv_initName (s : IwSt) (n : Nat) : (s.initName n .reads).2 = true ∧ (s.initName n .reads).1.made = true ∧
    (s.initName n .reads).1.name = some n ∧ (s.initName n .reads).1.buf = .file none ∧ (s.initName n .reads).1.disk = s.disk ∧
    ((s.initName n .reads).1.state = .create ↔ s.disk n = none) := by
  unfold IwSt.initName
  cases h : s.disk n with
  | none => simp [h]
  | some b => simp [h, IwSt.open, IwSt.isOpen, IwSt.close]

/-- The state of a converter that has the file `n` open. -/
structure IwSt.OpenOn (s : IwSt) (n : Nat) (b : Bytes) : Prop extends s.Has n b where
  buf : s.buf = .file (some n)

theorem conv_init (s : IwSt) (n : Nat) (wok : Bool) (w : Bytes → Bytes) :
    ((s.initName n .reads).1.convInit true true wok w).2 = wok ∧
    ((s.initName n .reads).1.convInit true true wok w).1.OpenOn n (w ((s.disk n).getD [])) ∧
    ∀ k, k ≠ n → ((s.initName n .reads).1.convInit true true wok w).1.disk k = s.disk k := by
  obtain ⟨_, h1, h2, h3, h4, h5⟩ := conv_initName s n
  generalize (s.initName n .reads).1 = t at *
  cases hd : s.disk n with
  | none =>
    have hs := h5.2 hd
    refine ⟨?_, ⟨⟨?_, ?_, ?_⟩, ?_⟩, ?_⟩ <;>
      simp [IwSt.convInit, IwSt.closeOpen, IwSt.open, IwSt.isOpen, IwSt.write, IwSt.put, h1, h2, h3, hs]
    intro k hk
    simp [hk, h4]
  | some b =>
    have hs : t.state ≠ .create := fun h => by rw [h5.1 h] at hd; cases hd
    refine ⟨?_, ⟨⟨?_, ?_, ?_⟩, ?_⟩, ?_⟩ <;>
      simp [IwSt.convInit, IwSt.closeOpen, IwSt.open, IwSt.isOpen, IwSt.write, IwSt.put, h1, h2, h3, hs, h4, hd]
    intro k hk
    simp [hk]

theorem conv_save (s : IwSt) (n : Nat) (b : Bytes) (w : Bytes → Bytes) (h : s.OpenOn n b) : (s.convSave w).OpenOn n (w b) ∧
    ∀ k, k ≠ n → (s.convSave w).disk k = s.disk k := by
  refine ⟨⟨⟨?_, ?_, ?_⟩, ?_⟩, ?_⟩ <;> simp [IwSt.convSave, IwSt.isOpen, IwSt.write, IwSt.put, h.buf, h.made, h.name, h.disk]
  intro k hk
  simp [hk]

theorem conv_saves (ws : List (Bytes → Bytes)) (s : IwSt) (n : Nat) (b : Bytes) (h : s.OpenOn n b) :
    (s.convRun (ws.map .save)).OpenOn n (afterAll ws b) ∧ ∀ k, k ≠ n → (s.convRun (ws.map .save)).disk k = s.disk k := by
  induction ws generalizing s b with
  | nil => exact ⟨h, fun _ _ => rfl⟩
  | cons w ws ih =>
    obtain ⟨h1, h2⟩ := conv_save s n b w h
    obtain ⟨h3, h4⟩ := ih (s.convSave w) (w b) h1
    exact ⟨h3, fun k hk => (h4 k hk).trans (h2 k hk)⟩

theorem conv_finalize (s : IwSt) (n : Nat) (b : Bytes) (wok : Bool) (w : Bytes → Bytes) (h : s.OpenOn n b) :
    (s.convFinalize wok w).2 = wok ∧ (s.convFinalize wok w).1.Has n (w b) ∧ (s.convFinalize wok w).1.isOpen = false ∧
    ∀ k, k ≠ n → (s.convFinalize wok w).1.disk k = s.disk k := by
  refine ⟨?_, ⟨?_, ?_, ?_⟩, ?_, ?_⟩ <;>
    simp [IwSt.convFinalize, IwSt.isOpen, IwSt.write, IwSt.put, IwSt.close, h.buf, h.made, h.name, h.disk]
  intro k hk
  simp [hk]

/-- The state before `FinalizeMeasurement`: the converter was given the file `n`, `InitMeasurement` wrote `w0`, samples were saved. -/
def convBefore (s : IwSt) (n : Nat) (w0 : Bytes → Bytes) (ws : List (Bytes → Bytes)) : IwSt :=
  ((s.initName n .reads).1.convInit true true true w0).1.convRun (ws.map .save)

/-- **C128** (the file).  All that is written is in the file, in order, behind what was there before; `FinalizeMeasurement` returns the
result of writing and closes the file; no other file is changed. -/
theorem C128_file (s : IwSt) (n : Nat) (w0 wf : Bytes → Bytes) (ws : List (Bytes → Bytes)) (wok : Bool) :
    (convBefore s n w0 ws).isOpen = true ∧ ((convBefore s n w0 ws).convFinalize wok wf).2 = wok ∧
    ((convBefore s n w0 ws).convFinalize wok wf).1.isOpen = false ∧
    ((convBefore s n w0 ws).convFinalize wok wf).1.disk n = some (wf (afterAll ws (w0 ((s.disk n).getD [])))) ∧
    ∀ k, k ≠ n → ((convBefore s n w0 ws).convFinalize wok wf).1.disk k = s.disk k := by
  obtain ⟨_, h1, h2⟩ := conv_init s n true w0
  obtain ⟨h3, h4⟩ := conv_saves ws _ n _ h1
  obtain ⟨h5, h6, h7, h8⟩ := conv_finalize _ n _ wok wf h3
  refine ⟨?_, h5, h7, h6.disk, fun k hk => (h8 k hk).trans ((h4 k hk).trans (h2 k hk))⟩
  have := h3.buf
  unfold convBefore IwSt.isOpen
  rw [this]
  rfl

theorem writer_saves (ws : List (Bytes → Bytes)) (s : IwSt) (n : Nat) (b : Bytes) (h : s.Has n b) (hb : s.buf = .file none) :
    (s.run (ws.map (.save true))).Has n (afterAll ws b) ∧ (s.run (ws.map (.save true))).buf = .file none := by
  induction ws generalizing s b with
  | nil => exact ⟨h, hb⟩
  | cons w ws ih =>
    apply ih (s.call (.save true w)) (w b)
    · refine ⟨?_, ?_, ?_⟩ <;>
        simp [IwSt.call, IwSt.open, IwSt.isOpen, IwSt.write, IwSt.put, IwSt.close, hb, h.made, h.name, h.disk]
    · simp [IwSt.call, IwSt.open, IwSt.isOpen, IwSt.write, IwSt.put, IwSt.close, hb, h.name, h.disk]

/-- **C128** (same file).  A writer that opens the file for every writing leaves the same bytes. -/
theorem C128_same_file (s : IwSt) (n : Nat) (w0 wf : Bytes → Bytes) (ws : List (Bytes → Bytes)) :
    ((((s.initName n .reads).1.initMeasurement true true w0).1.run (ws.map (.save true))).finalize true wf).1.disk n =
      ((convBefore s n w0 ws).convFinalize true wf).1.disk n := by
  rw [(C128_file s n w0 wf ws true).2.2.2.1]
  obtain ⟨_, h1, h2, h3, h4, h5⟩ := conv_initName s n
  have hw := (C117_written s n w0).2.2.1
  have hi : ((s.initName n .reads).1.initMeasurement true true w0).1.Has n (w0 ((s.disk n).getD [])) ∧
      ((s.initName n .reads).1.initMeasurement true true w0).1.buf = .file none := by
    generalize (s.initName n .reads).1 = t at *
    cases hd : s.disk n with
    | none =>
      have hs := h5.2 hd
      rw [hd] at hw
      refine ⟨⟨?_, ?_, hw⟩, ?_⟩ <;>
        simp [IwSt.initMeasurement, IwSt.open, IwSt.isOpen, IwSt.write, IwSt.put, IwSt.close, h1, h2, h3, hs]
    | some b =>
      have hs : t.state ≠ .create := fun h => by rw [h5.1 h] at hd; cases hd
      rw [hd] at hw
      refine ⟨⟨?_, ?_, hw⟩, ?_⟩ <;>
        simp [IwSt.initMeasurement, IwSt.open, IwSt.isOpen, IwSt.write, IwSt.put, IwSt.close, h1, h2, h3, hs, h4, hd]
  obtain ⟨h6, h7⟩ := writer_saves ws _ n _ hi.1 hi.2
  generalize ((s.initName n .reads).1.initMeasurement true true w0).1.run (ws.map (.save true)) = t at *
  simp [IwSt.finalize, IwSt.open, IwSt.isOpen, IwSt.write, IwSt.put, IwSt.close, h7, h6.made, h6.name, h6.disk]

example : ((convBefore { disk := fun _ => none } 3 (· ++ [1]) [(· ++ [2]), (· ++ [3])]).convFinalize true (· ++ [4])).1.disk 3 =
    some [1, 2, 3, 4] := (C128_file { disk := fun _ => none } 3 _ _ _ true).2.2.2.1

/-! ## Any calls -/

/-- A call that gives no stream: the converter is asked for the file `n`. -/
def CvCall.named : CvCall → Option Nat
  | .initName n _ => some n
  | _ => none

/-- What is open is the file that the converter was given. -/
def IwSt.OpenNamed (s : IwSt) : Prop := s.buf = .none ∨ s.buf = .file none ∨ ∃ n, s.name = some n ∧ s.buf = .file (some n)

theorem close_named {s : IwSt} (h : s.OpenNamed) : s.close.OpenNamed ∧ s.close.isOpen = false ∧ s.close.disk = s.disk ∧ s.close.name = s.name ∧
    s.close.made = s.made ∧ s.close.state = s.state := by
  rcases h with h | h | ⟨n, h1, h2⟩
  · simp [IwSt.close, IwSt.OpenNamed, IwSt.isOpen, h]
  · cases hn : s.name <;> simp [IwSt.close, IwSt.OpenNamed, IwSt.isOpen, h, hn]
  · simp [IwSt.close, IwSt.OpenNamed, IwSt.isOpen, h1, h2]

theorem closeOpen_named {s : IwSt} (h : s.OpenNamed) : s.closeOpen.OpenNamed ∧ s.closeOpen.isOpen = false ∧ s.closeOpen.disk = s.disk ∧
    s.closeOpen.name = s.name := by
  unfold IwSt.closeOpen
  by_cases ho : s.isOpen = true
  · rw [if_pos ho]
    have := close_named h
    exact ⟨this.1, this.2.1, this.2.2.1, this.2.2.2.1⟩
  · rw [if_neg ho]
    exact ⟨h, by simpa using ho, rfl, rfl⟩

theorem write_named {s : IwSt} (h : s.OpenNamed) (w : Bytes → Bytes) : (s.write w).OpenNamed ∧ (s.write w).name = s.name ∧
    ∀ k, s.name ≠ some k → (s.write w).disk k = s.disk k := by
  rcases h with h | h | ⟨n, h1, h2⟩
  · simp [IwSt.write, IwSt.OpenNamed, h]
  · simp [IwSt.write, IwSt.OpenNamed, h]
  · cases hd : s.disk n with
    | none => simp [IwSt.write, IwSt.OpenNamed, h1, h2, hd]
    | some b =>
      refine ⟨?_, ?_, fun k hk => ?_⟩
      · simp [IwSt.write, IwSt.OpenNamed, IwSt.put, h1, h2, hd]
      · simp [IwSt.write, IwSt.put, h1, h2, hd]
      · have : k ≠ n := fun e => hk (by rw [h1, e])
        simp [IwSt.write, IwSt.put, h2, hd, this]

theorem open_named {s : IwSt} (h : s.OpenNamed) (m : IwMode) (ok : Bool) : (s.open m ok).OpenNamed ∧ (s.open m ok).name = s.name ∧
    ∀ k, s.name ≠ some k → (s.open m ok).disk k = s.disk k := by
  cases hn : s.name with
  | none =>
    have e : s.open m ok = s := by unfold IwSt.open; rw [hn]; cases s.buf <;> rfl
    rw [e]
    exact ⟨h, hn, fun _ _ => rfl⟩
  | some n =>
    cases hb : s.buf with
    | none =>
      have e : s.open m ok = s := by unfold IwSt.open; rw [hb]
      rw [e]
      exact ⟨h, hn, fun _ _ => rfl⟩
    | memory => rcases h with h | h | ⟨_, _, h⟩ <;> rw [hb] at h <;> cases h
    | file o =>
      unfold IwSt.open
      rw [hn, hb]
      simp only
      split
      · split
        · refine ⟨.inr (.inr ⟨n, by simp [IwSt.put, hn], rfl⟩), by simp [IwSt.put, hn], fun k hk => ?_⟩
          have : k ≠ n := fun e => hk (by rw [e])
          simp [IwSt.put, this]
        · exact ⟨.inr (.inr ⟨n, hn, rfl⟩), hn, fun _ _ => rfl⟩
      · exact ⟨.inr (.inl rfl), rfl, fun _ _ => rfl⟩

theorem state_named {s : IwSt} (h : s.OpenNamed) (x : IwState) : ({ s with state := x } : IwSt).OpenNamed := h

theorem convCall_named (c : CvCall) (s : IwSt) (h : s.OpenNamed) : (s.convCall c).OpenNamed ∧
    ((s.convCall c).name = s.name ∨ (s.convCall c).name = c.named) ∧
    ∀ k, s.name ≠ some k → c.named ≠ some k → (s.convCall c).disk k = s.disk k := by
  cases c with
  | initName n r =>
    have hb : ({ s with made := true, name := some n, buf := .file none } : IwSt).OpenNamed := .inr (.inl rfl)
    have hr : ∀ ok, (({ s with made := true, name := some n, buf := .file none } : IwSt).open .read ok).disk = s.disk := by
      intro ok
      simp only [IwSt.open]
      split <;> simp
    have ho := fun ok => open_named hb .read ok
    refine ⟨?_, .inr ?_, ?_⟩
    · show (s.initName n r).1.OpenNamed
      unfold IwSt.initName
      cases r <;> simp only
      · exact hb
      all_goals
        split
        · split
          · simp only [reduceCtorEq, if_false, if_true]
            exact state_named (close_named (ho _).1).1 _
          · exact state_named (ho _).1 _
        · exact hb
    · show (s.initName n r).1.name = some n
      unfold IwSt.initName
      cases r <;> simp only
      all_goals
        split
        · split
          · simp only [reduceCtorEq, if_false, if_true]
            exact (close_named (ho _).1).2.2.2.1.trans (ho _).2.1
          · exact (ho _).2.1
        · rfl
    · intro k _ _
      show (s.initName n r).1.disk k = s.disk k
      unfold IwSt.initName
      cases r <;> simp only
      all_goals
        split
        · split
          · simp only [reduceCtorEq, if_false, if_true]
            rw [(close_named (ho _).1).2.2.1, hr]
          · rw [hr]
        · rfl
  | start => exact ⟨h, .inl rfl, fun _ _ _ => rfl⟩
  | destroy =>
    obtain ⟨h1, _, h3, h4⟩ := closeOpen_named h
    exact ⟨h1, .inl h4, fun k _ _ => by show s.closeOpen.disk k = _; rw [h3]⟩
  | save w =>
    show (s.convSave w).OpenNamed ∧ ((s.convSave w).name = _ ∨ _) ∧ ∀ k, _ → _ → (s.convSave w).disk k = _
    unfold IwSt.convSave
    split
    · obtain ⟨h1, h2, h3⟩ := write_named h w
      exact ⟨h1, .inl h2, fun k hk _ => h3 k hk⟩
    · exact ⟨h, .inl rfl, fun _ _ _ => rfl⟩
  | finalize wok w =>
    show (s.convFinalize wok w).1.OpenNamed ∧ ((s.convFinalize wok w).1.name = _ ∨ _) ∧ ∀ k, _ → _ → (s.convFinalize wok w).1.disk k = _
    unfold IwSt.convFinalize
    split
    · exact ⟨h, .inl rfl, fun _ _ _ => rfl⟩
    split
    · exact ⟨h, .inl rfl, fun _ _ _ => rfl⟩
    obtain ⟨h1, h2, h3⟩ := write_named h w
    have h4 := close_named h1
    refine ⟨state_named h4.1 _, .inl (h4.2.2.2.1.trans h2), fun k hk _ => ?_⟩
    show (s.write w).close.disk k = _
    rw [h4.2.2.1]
    exact h3 k hk
  | initMeasurement p o wok w =>
    show (s.convInit p o wok w).1.OpenNamed ∧ ((s.convInit p o wok w).1.name = _ ∨ _) ∧ ∀ k, _ → _ → (s.convInit p o wok w).1.disk k = _
    obtain ⟨c1, _, c3, c4⟩ := closeOpen_named h
    unfold IwSt.convInit
    simp only
    generalize (if s.closeOpen.state = .create then IwMode.trunc else IwMode.update) = md
    split
    · exact ⟨c1, .inl c4, fun k _ _ => by rw [c3]⟩
    split
    · exact ⟨c1, .inl c4, fun k _ _ => by rw [c3]⟩
    obtain ⟨o1, o2, o3⟩ := open_named c1 md o
    split
    · exact ⟨o1, .inl (o2.trans c4), fun k hk _ => by rw [o3 k (by rw [c4]; exact hk), c3]⟩
    · obtain ⟨w1, w2, w3⟩ := write_named o1 w
      refine ⟨state_named w1 _, .inl (w2.trans (o2.trans c4)), fun k hk _ => ?_⟩
      show (IwSt.write _ w).disk k = _
      rw [w3 k (by rw [o2, c4]; exact hk), o3 k (by rw [c4]; exact hk), c3]

/-- **C128** (its own file only).  Whatever is called, what a converter has open is the file it was given, and files it was never given are
not changed. -/
theorem C128_only_named (cs : List CvCall) (s : IwSt) (h : s.OpenNamed) : (s.convRun cs).OpenNamed ∧
    ∀ k, s.name ≠ some k → (∀ c ∈ cs, c.named ≠ some k) → (s.convRun cs).disk k = s.disk k := by
  induction cs generalizing s with
  | nil => exact ⟨h, fun _ _ _ => rfl⟩
  | cons c cs ih =>
    obtain ⟨h1, h2, h3⟩ := convCall_named c s h
    obtain ⟨h4, h5⟩ := ih (s.convCall c) h1
    refine ⟨h4, fun k hk hc => ?_⟩
    have hck := hc c List.mem_cons_self
    have : (s.convCall c).name ≠ some k := by rcases h2 with e | e <;> rw [e] <;> assumption
    exact (h5 k this fun c' hc' => hc c' (List.mem_cons_of_mem _ hc')).trans (h3 k hk hck)

/-- **C128** (closed).  After `FinalizeMeasurement` that did something, and when the converter is gone, no file is open, whatever was called
before. -/
theorem C128_closed (cs : List CvCall) (s : IwSt) (h : s.OpenNamed) (wok : Bool) (w : Bytes → Bytes) :
    (s.convRun (cs ++ [.destroy])).isOpen = false ∧
    ((s.convRun cs).made = true → (s.convRun (cs ++ [.finalize wok w])).isOpen = false) := by
  have hn := (C128_only_named cs s h).1
  unfold IwSt.convRun at hn ⊢
  rw [List.foldl_append, List.foldl_append]
  refine ⟨(closeOpen_named hn).2.1, fun hm => ?_⟩
  show (IwSt.convFinalize _ wok w).1.isOpen = false
  unfold IwSt.convFinalize
  rw [if_neg (by rw [hm]; decide)]
  split
  · rename_i ho
    simpa using ho
  · exact (close_named (write_named hn w).1).2.1

example : (({ disk := fun _ => none } : IwSt).convRun ([.initName 1 .reads, .initMeasurement true true false id] ++ [.destroy])).isOpen = false :=
  (C128_closed _ _ (.inl rfl) true id).1

/-- **C128** (not open).  Without an open file `FinalizeMeasurement` returns false and samples are not saved; no file is changed.  So a second
`FinalizeMeasurement` returns false, while that of a writer returns true. -/
theorem C128_not_open (s : IwSt) (h : s.isOpen = false) (wok : Bool) (w : Bytes → Bytes) :
    s.convFinalize wok w = (s, false) ∧ s.convSave w = s := by
  unfold IwSt.convFinalize IwSt.convSave
  rw [h]
  simp

/-- **C128** (failed writing).  If the blocks cannot be written `InitMeasurement` returns false, but the file stays open and samples are still
saved. -/
theorem C128_failed_write (s : IwSt) (n : Nat) (w v : Bytes → Bytes) :
    ((s.initName n .reads).1.convInit true true false w).2 = false ∧ ((s.initName n .reads).1.convInit true true false w).1.isOpen = true ∧
    (((s.initName n .reads).1.convInit true true false w).1.convSave v).disk n = some (v (w ((s.disk n).getD []))) := by
  obtain ⟨h1, h2, _⟩ := conv_init s n false w
  refine ⟨h1, ?_, (conv_save _ n _ v h2).1.disk⟩
  unfold IwSt.isOpen
  rw [h2.buf]
  rfl

end Mdf
