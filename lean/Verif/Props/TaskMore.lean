import Verif.Props.Task

/-!
C80, what a task reports: when it refuses to start, when sorting fails for the source cannot be read, and what validating reports for a file
that is not valid.  A refused task has changed nothing.
-/

namespace Mdf

/-- A step that throws ends the steps. -/
theorem runSteps_throw {s : TaskStep} {ss : List TaskStep} {fs : Fs} (h : (s fs).2 = false) : runSteps (s :: ss) fs = ((s fs).1, false) := by
  simp only [runSteps]
  rw [if_neg (by rw [h]; decide)]

theorem runSteps_check_ok {p : Fs → Bool} {ss : List TaskStep} {fs : Fs} (h : p fs = true) :
    runSteps (checkStep p :: ss) fs = runSteps ss fs := by
  simp only [runSteps]
  rw [if_pos (show (checkStep p fs).2 = true from h)]
  rfl

theorem runSteps_check_snd {p : Fs → Bool} {ss : List TaskStep} {fs : Fs} :
    (runSteps (checkStep p :: ss) fs).2 = (p fs && (runSteps ss fs).2) := by
  cases h : p fs
  · rw [runSteps_throw (show (checkStep p fs).2 = false from h)]
    rfl
  · rw [runSteps_check_ok h, Bool.true_and]

/-- Sorting refuses an empty name of the source, a source that does not exist, an empty name of the destination, a destination that exists
and may not be overwritten, and the source as destination: it reports an error and has changed nothing. -/
theorem C80_sorting_refused (h : Host) (t : TaskSet) (sort : Bytes → List Bytes × Option Bytes) (fs : Fs)
    (hr : t.source = [] ∨ fs.file (h.resolve t.source) = none ∨ t.dest = [] ∨
      (fs.file (h.resolve t.dest) ≠ none ∧ t.overwrite = false) ∨ t.source = t.dest) :
    h.sorting t sort fs = ⟨[fs], false, true⟩ := by
  have key : runSteps [h.checkSource t, h.checkDestination t, h.createDestinationTemp t] fs = ([], false) := by
    by_cases hs : t.source = [] ∨ fs.file (h.resolve t.source) = none
    · rw [runSteps_throw (s := h.checkSource t)]
      · rfl
      · simp only [Host.checkSource, checkStep, Host.exists, Bool.and_eq_false_iff, bne_eq_false_iff_eq, Option.isSome_eq_false_iff,
          Option.isNone_iff_eq_none]
        exact hs
    · have h1 : runSteps [h.checkSource t, h.checkDestination t, h.createDestinationTemp t] fs =
          runSteps [h.checkDestination t, h.createDestinationTemp t] fs := runSteps_check_ok (by
        simp only [Host.exists, Bool.and_eq_true, bne_iff_ne, Option.isSome_iff_ne_none]
        exact not_or.1 hs)
      rw [h1, runSteps_throw (s := h.checkDestination t)]
      · rfl
      · have hr' := hr.resolve_left fun e => hs (.inl e)
        have hr'' := hr'.resolve_left fun e => hs (.inr e)
        simp only [Host.checkDestination, checkStep, Host.exists, Bool.and_eq_false_iff, bne_eq_false_iff_eq, Bool.not_eq_false',
          Bool.not_eq_true', Bool.and_eq_true, Option.isSome_iff_ne_none]
        rcases hr'' with e | ⟨e, o⟩ | e
        · exact .inl (.inl (.inl e))
        · exact .inl (.inr ⟨e, o⟩)
        · exact .inr e
  unfold Host.sorting Host.task
  rw [key]
  rfl

/-- Nothing else is refused before the task starts to change files, but a directory of the destination that cannot be made and a
destination in the directory for temporary files. -/
theorem C80_sorting_accepted (h : Host) (t : TaskSet) (fs : Fs) :
    (runSteps [h.checkSource t, h.checkDestination t, h.createDestinationTemp t] fs).2 = true ↔
      t.source ≠ [] ∧ fs.file (h.resolve t.source) ≠ none ∧ t.dest ≠ [] ∧
      (fs.file (h.resolve t.dest) ≠ none → t.overwrite = true) ∧ t.source ≠ t.dest ∧
      h.failDirs = false ∧ h.temp t.dest ≠ t.dest ∧ h.failRemove = false := by
  unfold Host.checkSource Host.checkDestination Host.createDestinationTemp
  rw [runSteps_check_snd, runSteps_check_snd, runSteps_one, runSteps_check_snd, runSteps_one]
  have hr : (h.remove (h.temp t.dest) h.failRemove fs).2 = !h.failRemove := by
    unfold Host.remove
    cases h.failRemove <;> rfl
  rw [hr]
  simp only [Host.exists, Bool.and_eq_true, bne_iff_ne, Bool.not_eq_true', Bool.and_eq_false_iff, Option.isSome_iff_ne_none,
    Option.isSome_eq_false_iff, Option.isNone_iff_eq_none, Bool.not_eq_false']
  constructor
  · rintro ⟨⟨a, b⟩, ⟨⟨⟨c, d⟩, e⟩, f⟩, g, i⟩
    exact ⟨a, b, c, fun n => e.resolve_left n, f, d, g, i⟩
  · rintro ⟨a, b, c, e, f, d, g, i⟩
    refine ⟨⟨a, b⟩, ⟨⟨⟨c, d⟩, ?_⟩, f⟩, g, i⟩
    by_cases n : fs.file (h.resolve t.dest) = none
    · exact .inl n
    · exact .inr (e n)

/-- A sorting task reports success only if the source can be read and a writer be made. -/
theorem C80_sorting_unread (h : Host) (t : TaskSet) (sort : Bytes → List Bytes × Option Bytes) (fs : Fs)
    (hf : h.failRead = true ∨ h.failWriter = true) :
    (h.sorting t sort fs).result = false ∧ (h.sorting t sort fs).error = true := by
  have key : ∀ f, (runSteps ([checkDiff t, h.readConfig t, h.createWriter, h.sortFile t sort, h.copyTemp t (h.temp t.dest)] ++
      [h.remove (h.temp t.dest) h.failDelete]) f).2 = false := by
    intro f
    simp only [List.cons_append, List.nil_append]
    refine Bool.eq_false_iff.2 fun hc => ?_
    unfold checkDiff Host.readConfig Host.createWriter at hc
    obtain ⟨-, e1⟩ := runSteps_check hc
    rw [e1] at hc
    obtain ⟨h2, e2⟩ := runSteps_check hc
    rw [e2] at hc
    obtain ⟨h3, -⟩ := runSteps_check hc
    simp only [Bool.and_eq_true, Bool.not_eq_true'] at h2 h3
    rcases hf with hf | hf
    · rw [h2.2] at hf; cases hf
    · rw [h3] at hf; cases hf
  unfold Host.sorting Host.task
  simp only
  split
  · simp only [key, Bool.false_and, Bool.not_false, and_self]
  · exact ⟨rfl, rfl⟩

/-- Validating refuses an empty name of the source and a source that does not exist. -/
theorem C80_validating_refused (h : Host) (t : TaskSet) (v : Validator) (fs : Fs)
    (hr : t.source = [] ∨ fs.file (h.resolve t.source) = none) : h.validating t v fs = ⟨[fs], false, true⟩ := by
  have key : runSteps [h.checkSource t, h.createSourceTemp t] fs = ([], false) := by
    rw [runSteps_throw (s := h.checkSource t)]
    · rfl
    · simp only [Host.checkSource, checkStep, Host.exists, Bool.and_eq_false_iff, bne_eq_false_iff_eq, Option.isSome_eq_false_iff,
        Option.isNone_iff_eq_none]
      exact hr
  unfold Host.validating Host.task
  rw [key]
  rfl

/-- If nothing goes wrong, validating reports no error; the result is whether all values are valid; and if they are not, or the file is no
MDF 4 file, every file but the temporary one is as before. -/
theorem C80_validating_reports (h : Host) (t : TaskSet) (v : Validator) (fs : Fs) {b : Bytes} {valid mdf4 : Bool}
    (hs : t.source ≠ []) (hb : fs.file (h.resolve t.source) = some b) (hv : v.check b = some (valid, mdf4))
    (hn : valid = false ∨ mdf4 = false) (ht : h.resolve (h.temp t.source) ≠ h.resolve t.source) (hn1 : h.failRemove = false)
    (hn2 : h.failCopyIn = .none) (hn3 : h.failDelete = false) :
    (h.validating t v fs).error = false ∧ (h.validating t v fs).result = valid ∧
    ∀ n, n ≠ h.resolve (h.temp t.source) → ∀ f ∈ (h.validating t v fs).states, f.file n = fs.file n := by
  have htp : h.temp t.source ≠ t.source := fun e => ht (by rw [e])
  have hok : (runSteps [h.checkSource t, h.createSourceTemp t] fs).2 = true := by
    have h1 : runSteps [h.checkSource t, h.createSourceTemp t] fs = h.createSourceTemp t fs := by
      rw [show runSteps [h.checkSource t, h.createSourceTemp t] fs = runSteps [h.createSourceTemp t] fs from runSteps_check_ok (by
        simp only [Host.exists, Bool.and_eq_true, bne_iff_ne, hb, Option.isSome_some, and_true]
        exact hs), runSteps_one]
    rw [h1]
    unfold Host.createSourceTemp
    rw [runSteps_check_ok (by simp only [bne_iff_ne]; exact htp)]
    simp only [runSteps, Host.remove, hn1, Bool.false_eq_true, if_false, if_true, lastFs, List.getLast?_singleton, Option.getD_some,
      Host.copyFile, Fs.put_ne _ _ ht.symm, hb, if_neg ht.symm, Host.exists, Fs.put_same, Option.isSome_none, false_and, hn2]
  obtain ⟨b', hb', hl⟩ := validating_begins hok
  rw [hb] at hb'
  cases hb'
  have hm : ∀ fa : Fs, fa.file (h.resolve (h.temp t.source)) = some b →
      runSteps ([h.validate t v] ++ [h.remove (h.temp t.source) h.failDelete]) fa = ([fa.put (h.resolve (h.temp t.source)) none], true) := by
    intro fa hfa
    have hval : h.validate t v fa = ([], true) := by
      unfold Host.validate
      rw [hfa]
      dsimp only
      rw [hv]
      dsimp only
      rw [if_neg]
      rintro ⟨a, c⟩
      rcases hn with e | e
      · rw [e] at a; cases a
      · rw [e] at c; cases c
    simp only [List.cons_append, List.nil_append, runSteps, hval, if_true, lastFs, List.getLast?_nil, Option.getD_none, Host.remove, hn3,
      Bool.false_eq_true, if_false, List.append_nil]
  have hvv : ∀ fa : Fs, fa.file (h.resolve (h.temp t.source)) = some b → v.valid fa (h.resolve (h.temp t.source)) = valid := by
    intro fa hfa
    unfold Validator.valid
    rw [hfa, Option.bind_some, hv]
    rfl
  refine ⟨?_, ?_, ?_⟩
  · unfold Host.validating Host.task
    simp only [hok, if_true, hl]
    rw [hm _ (Fs.put_same ..)]
    rfl
  · unfold Host.validating Host.task
    simp only [hok, if_true, hl]
    rw [hm _ (Fs.put_same ..), hvv _ (Fs.put_same ..)]
    rfl
  · intro n hnn f hf
    have hp : ∀ b (f : Fs), f.file n = fs.file n → (f.put (h.resolve (h.temp t.source)) b).file n = fs.file n := fun b f hf => by
      rw [Fs.put_ne f b hnn, hf]
    have hB : KeepsFs (fun f => f.file n = fs.file n) (runSteps [h.checkSource t, h.createSourceTemp t]) := KeepsFs.steps fun s hs => by
      simp only [List.mem_cons, List.not_mem_nil, or_false] at hs
      rcases hs with rfl | rfl
      · exact KeepsFs.check _
      · refine KeepsFs.steps fun s hs => ?_
        simp only [List.mem_cons, List.not_mem_nil, or_false] at hs
        rcases hs with rfl | rfl | rfl
        · exact KeepsFs.check _
        · exact keeps_remove h _ _ fun f hf => hp _ f hf
        · exact keeps_copyFile h _ _ _ _ fun f b hf => hp _ f hf
    unfold Host.validating Host.task at hf
    simp only [hok, if_true, hl] at hf
    rw [hm _ (Fs.put_same ..)] at hf
    simp only [Host.exit, Bool.not_true, Bool.false_eq_true, false_and, if_false, List.append_nil, List.cons_append, List.mem_cons,
      List.mem_append, List.not_mem_nil, or_false] at hf
    rcases hf with rfl | hf | rfl
    · rfl
    · exact hB fs rfl f hf
    · rw [Fs.put_ne _ _ hnn, Fs.put_ne _ _ hnn, Fs.put_ne _ _ hnn]

/-- The hypotheses are met: a file that is not valid. -/
example : (exHost.validating ⟨["d", "a"], [], true⟩ ⟨fun _ => some (false, true), fun b => ([], some b)⟩ (exTaskFs [(2, [1, 2, 3])])).left
    [1, 2] = (false, false, [none, some [1, 2, 3]]) := by decide +kernel

example : (exHost.sorting ⟨["d", "a"], ["d", "b"], false⟩ exSort (exTaskFs [(2, [1, 2, 3]), (3, [4])])).left [2, 3] =
    (false, true, [some [1, 2, 3], some [4]]) := by decide +kernel

example : ({ exHost with failRead := true }.sorting ⟨["d", "a"], ["d", "b"], false⟩ exSort (exTaskFs [(2, [1, 2, 3])])).left [2, 3] =
    (false, true, [some [1, 2, 3], none]) := by decide +kernel

end Mdf
