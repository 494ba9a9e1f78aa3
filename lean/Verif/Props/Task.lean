import Verif.Proof.Task

/-!
C80: what tasks do to files.  `h.resolve p` is the file a path leads to, `h.temp p` the path of a file of the same name in the directory for
temporary files.  The states are all those between single changes of files, from before the task to after its end, so that each of
them is what an interruption may leave.
-/

namespace Mdf

/-- The property: a task changes no file but the one it writes to (its destination, or for validating without one the source); that one
only if it may be overwritten or does not exist; and a sorting task that reports success has written the result to its destination. -/
def C80_Statement : Prop :=
  ∀ (h : Host) (t : TaskSet) (fs : Fs),
    (∀ sort, ∀ f ∈ (h.sorting t sort fs).states, ∀ n, fs.file n ≠ none → n ≠ h.resolve t.target → f.file n = fs.file n) ∧
    (∀ v, ∀ f ∈ (h.validating t v fs).states, ∀ n, fs.file n ≠ none → n ≠ h.resolve t.target → f.file n = fs.file n) ∧
    (t.overwrite = false → fs.file (h.resolve t.target) ≠ none →
      (∀ sort, ∀ f ∈ (h.sorting t sort fs).states, f.file (h.resolve t.target) = fs.file (h.resolve t.target)) ∧
      ∀ v, ∀ f ∈ (h.validating t v fs).states, f.file (h.resolve t.target) = fs.file (h.resolve t.target)) ∧
    ∀ sort, (h.sorting t sort fs).result = true →
      ∃ b out, fs.file (h.resolve t.source) = some b ∧ (sort b).2 = some out ∧
        (lastFs fs (h.sorting t sort fs).states).file (h.resolve t.target) = some out

/-- Sorting changes no file but the destination and the temporary file. -/
theorem C80_sorting_others_kept_partial (h : Host) (t : TaskSet) (sort : Bytes → List Bytes × Option Bytes) (fs : Fs) (n : Nat)
    (hd : n ≠ h.resolve t.target) (ht : n ≠ h.resolve (h.temp t.dest)) :
    ∀ f ∈ (h.sorting t sort fs).states, f.file n = fs.file n := by
  have hp : ∀ m b (f : Fs), n ≠ m → f.file n = fs.file n → (f.put m b).file n = fs.file n := fun m b f hm hf => by
    rw [Fs.put_ne f b hm, hf]
  refine keeps_task (I := fun f => f.file n = fs.file n) h _ _ _ _ ?_ ?_ (fun f hf => hp _ _ f ht hf) rfl
  · intro s hs
    simp only [List.mem_cons, List.not_mem_nil, or_false] at hs
    rcases hs with rfl | rfl | rfl
    · exact KeepsFs.check _
    · exact KeepsFs.check _
    · refine KeepsFs.steps fun s hs => ?_
      simp only [List.mem_cons, List.not_mem_nil, or_false] at hs
      rcases hs with rfl | rfl
      · exact KeepsFs.check _
      · exact keeps_remove h _ _ fun f hf => hp _ _ f ht hf
  · intro s hs
    simp only [List.mem_cons, List.not_mem_nil, or_false] at hs
    rcases hs with rfl | rfl | rfl | rfl | rfl
    · exact KeepsFs.check _
    · exact KeepsFs.check _
    · exact KeepsFs.check _
    · exact keeps_sortFile h t sort fun f b hf => hp _ _ f ht hf
    · exact keeps_copyTemp h t _ fun f b hf _ => hp _ _ f hd hf

/-- An existing destination is kept by sorting unless it may be overwritten. -/
theorem C80_sorting_no_overwrite_partial (h : Host) (t : TaskSet) (sort : Bytes → List Bytes × Option Bytes) (fs : Fs) (n : Nat)
    (ho : t.overwrite = false) (hx : fs.file n ≠ none) (ht : n ≠ h.resolve (h.temp t.dest)) :
    ∀ f ∈ (h.sorting t sort fs).states, f.file n = fs.file n := by
  by_cases hd : n = h.resolve t.target
  · have hp : ∀ b (f : Fs), f.file n = fs.file n → (f.put (h.resolve (h.temp t.dest)) b).file n = fs.file n := fun b f hf => by
      rw [Fs.put_ne f b ht, hf]
    refine keeps_task (I := fun f => f.file n = fs.file n) h _ _ _ _ ?_ ?_ (fun f hf => hp _ f hf) rfl
    · intro s hs
      simp only [List.mem_cons, List.not_mem_nil, or_false] at hs
      rcases hs with rfl | rfl | rfl
      · exact KeepsFs.check _
      · exact KeepsFs.check _
      · refine KeepsFs.steps fun s hs => ?_
        simp only [List.mem_cons, List.not_mem_nil, or_false] at hs
        rcases hs with rfl | rfl
        · exact KeepsFs.check _
        · exact keeps_remove h _ _ fun f hf => hp _ f hf
    · intro s hs
      simp only [List.mem_cons, List.not_mem_nil, or_false] at hs
      rcases hs with rfl | rfl | rfl | rfl | rfl
      · exact KeepsFs.check _
      · exact KeepsFs.check _
      · exact KeepsFs.check _
      · exact keeps_sortFile h t sort fun f b hf => hp _ f hf
      · refine keeps_copyTemp h t _ fun f b hf hc => ?_
        rcases hc with hc | hc
        · rw [ho] at hc; cases hc
        · rw [← hd, hf] at hc; exact absurd hc hx
  · exact C80_sorting_others_kept_partial h t sort fs n hd ht

/-- Validating changes no file but the destination (the source if none is given) and the temporary file. -/
theorem C80_validating_others_kept_partial (h : Host) (t : TaskSet) (v : Validator) (fs : Fs) (n : Nat)
    (hd : n = h.resolve t.target → t.overwrite = false ∧ fs.file n ≠ none) (ht : n ≠ h.resolve (h.temp t.source)) :
    ∀ f ∈ (h.validating t v fs).states, f.file n = fs.file n := by
  have hp : ∀ b (f : Fs), f.file n = fs.file n → (f.put (h.resolve (h.temp t.source)) b).file n = fs.file n := fun b f hf => by
    rw [Fs.put_ne f b ht, hf]
  refine keeps_task (I := fun f => f.file n = fs.file n) h _ _ _ _ ?_ ?_ (fun f hf => hp _ f hf) rfl
  · intro s hs
    simp only [List.mem_cons, List.not_mem_nil, or_false] at hs
    rcases hs with rfl | rfl
    · exact KeepsFs.check _
    · refine KeepsFs.steps fun s hs => ?_
      simp only [List.mem_cons, List.not_mem_nil, or_false] at hs
      rcases hs with rfl | rfl | rfl
      · exact KeepsFs.check _
      · exact keeps_remove h _ _ fun f hf => hp _ f hf
      · exact keeps_copyFile h _ _ _ _ fun f b hf => hp _ f hf
  · intro s hs
    simp only [List.mem_cons, List.not_mem_nil, or_false] at hs
    subst hs
    intro f hf f' hf'
    unfold Host.validate at hf'
    split at hf'
    · cases hf'
    · split at hf'
      · cases hf'
      · split at hf'
        · refine KeepsFs.steps (I := fun f => f.file n = fs.file n) (fun s hs => ?_) f hf f' hf'
          simp only [List.mem_cons, List.not_mem_nil, or_false] at hs
          rcases hs with rfl | rfl
          · exact keeps_writeTemp h _ _ fun f b hf => hp _ f hf
          · refine keeps_copyTemp h t _ fun f b hf hc => ?_
            by_cases hn : n = h.resolve t.target
            · rcases hc with hc | hc
              · rw [(hd hn).1] at hc; cases hc
              · rw [← hn, hf] at hc; exact absurd hc (hd hn).2
            · rw [Fs.put_ne f _ hn, hf]
        · cases hf'

/-- The state in which sorting begins to write: only the temporary file has been removed. -/
theorem sorting_begins {h : Host} {t : TaskSet} {fs : Fs}
    (hr : (runSteps [h.checkSource t, h.checkDestination t, h.createDestinationTemp t] fs).2 = true) :
    lastFs fs (runSteps [h.checkSource t, h.checkDestination t, h.createDestinationTemp t] fs).1 =
      fs.put (h.resolve (h.temp t.dest)) none ∧ t.target = t.dest ∧
      (t.overwrite = true ∨ fs.file (h.resolve t.target) = none) := by
  unfold Host.checkSource Host.checkDestination at hr ⊢
  obtain ⟨-, e1⟩ := runSteps_check hr
  rw [e1] at hr ⊢
  obtain ⟨hc, e2⟩ := runSteps_check hr
  rw [e2, runSteps_one] at hr ⊢
  unfold Host.createDestinationTemp at hr ⊢
  obtain ⟨-, e3⟩ := runSteps_check hr
  rw [e3, runSteps_one] at hr ⊢
  simp only [Bool.and_eq_true, bne_iff_ne, Bool.not_eq_true', Bool.and_eq_false_iff] at hc
  have ht : t.target = t.dest := if_neg hc.1.1.1
  refine ⟨remove_ok hr, ht, ?_⟩
  rcases hc.1.2 with he | ho
  · right
    rw [ht]
    unfold Host.exists at he
    cases hx : fs.file (h.resolve t.dest) with
    | none => rfl
    | some _ => rw [hx] at he; cases he
  · left
    simpa using ho

/-- A sorting task that reports success has written the result to its destination and removed the temporary file, if that is not the
destination. -/
theorem C80_sorting_result_partial (h : Host) (t : TaskSet) (sort : Bytes → List Bytes × Option Bytes) (fs : Fs)
    (ht : h.resolve t.target ≠ h.resolve (h.temp t.dest)) (hr : (h.sorting t sort fs).result = true) :
    (h.sorting t sort fs).error = false ∧
    ∃ b out, fs.file (h.resolve t.source) = some b ∧ (sort b).2 = some out ∧
      (lastFs fs (h.sorting t sort fs).states).file (h.resolve t.target) = some out ∧
      (lastFs fs (h.sorting t sort fs).states).file (h.resolve (h.temp t.dest)) = none := by
  unfold Host.sorting Host.task at hr ⊢
  simp only at hr ⊢
  by_cases ha : ¬ (runSteps [h.checkSource t, h.checkDestination t, h.createDestinationTemp t] fs).2 = true
  · rw [if_neg ha] at hr; cases hr
  replace ha := Decidable.not_not.1 ha
  rw [if_pos ha] at hr ⊢
  obtain ⟨hl, htd, ho⟩ := sorting_begins ha
  rw [hl] at hr ⊢
  dsimp only at hr ⊢
  rw [Bool.and_true] at hr
  rw [hr, show h.exit (h.temp t.dest) (!true) _ = ([], true) from rfl, List.append_nil]
  refine ⟨rfl, ?_⟩
  rw [lastFs_append]
  rw [show lastFs fs (fs :: (runSteps [h.checkSource t, h.checkDestination t, h.createDestinationTemp t] fs).1) =
    lastFs (lastFs fs [fs]) (runSteps [h.checkSource t, h.checkDestination t, h.createDestinationTemp t] fs).1 from
      lastFs_append fs [fs] _]
  rw [show lastFs fs [fs] = fs from rfl, hl]
  simp only [List.cons_append, List.nil_append] at hr ⊢
  unfold checkDiff Host.readConfig Host.createWriter at hr ⊢
  obtain ⟨-, e1⟩ := runSteps_check hr
  rw [e1] at hr ⊢
  obtain ⟨-, e2⟩ := runSteps_check hr
  rw [e2] at hr ⊢
  obtain ⟨-, e3⟩ := runSteps_check hr
  rw [e3] at hr ⊢
  obtain ⟨h4, hr, e4⟩ := runSteps_cons hr
  rw [e4]
  obtain ⟨b, out, hb, hout, l4⟩ := sortFile_ok h4
  rw [l4] at hr ⊢
  obtain ⟨h5, hr, e5⟩ := runSteps_cons hr
  rw [e5]
  obtain ⟨b', hb', l5⟩ := copyTemp_ok h5 (ho.imp id fun ho => by rw [Fs.put_ne _ _ ht, Fs.put_ne _ _ ht, ho])
  rw [Fs.put_same] at hb'
  cases hb'
  rw [l5, runSteps_one] at hr ⊢
  rw [remove_ok hr]
  refine ⟨b, out, ?_, hout, ?_, Fs.put_same ..⟩
  · by_cases hs : h.resolve t.source = h.resolve (h.temp t.dest)
    · rw [hs, Fs.put_same] at hb; cases hb
    · rw [Fs.put_ne _ _ hs] at hb; exact hb
  · rw [Fs.put_ne _ _ ht, Fs.put_same]

/-- Whatever goes wrong and wherever sorting is interrupted, the destination is as before or has a beginning of the result. -/
theorem C80_sorting_destination_partial (h : Host) (t : TaskSet) (sort : Bytes → List Bytes × Option Bytes) (fs : Fs)
    (ht : h.resolve t.target ≠ h.resolve (h.temp t.dest)) :
    ∀ f ∈ (h.sorting t sort fs).states, f.file (h.resolve t.target) = fs.file (h.resolve t.target) ∨
      ∃ b out k, fs.file (h.resolve t.source) = some b ∧ (sort b).2 = some out ∧ f.file (h.resolve t.target) = some (out.take k) := by
  -- a property of the destination alone is not changed by the steps on the temporary file
  obtain ⟨I, hI⟩ : ∃ I : Fs → Prop, I = fun f => f.file (h.resolve t.target) = fs.file (h.resolve t.target) ∨
      ∃ b out k, fs.file (h.resolve t.source) = some b ∧ (sort b).2 = some out ∧ f.file (h.resolve t.target) = some (out.take k) :=
    ⟨_, rfl⟩
  have hput : ∀ f b, I f → I (f.put (h.resolve (h.temp t.dest)) b) := by
    intro f b hf
    rw [hI] at hf ⊢
    simpa only [Fs.put_ne f b ht] using hf
  intro f hf
  suffices I f by rw [hI] at this; exact this
  have h0 : I fs := by rw [hI]; exact .inl rfl
  have hB : KeepsFs I (runSteps [h.checkSource t, h.checkDestination t, h.createDestinationTemp t]) := KeepsFs.steps fun s hs => by
    simp only [List.mem_cons, List.not_mem_nil, or_false] at hs
    rcases hs with rfl | rfl | rfl
    · exact KeepsFs.check _
    · exact KeepsFs.check _
    · refine KeepsFs.steps fun s hs => ?_
      simp only [List.mem_cons, List.not_mem_nil, or_false] at hs
      rcases hs with rfl | rfl
      · exact KeepsFs.check _
      · exact keeps_remove h _ _ fun f hf => hput f _ hf
  have hM : ∀ f, f ∈ (runSteps ([checkDiff t, h.readConfig t, h.createWriter, h.sortFile t sort, h.copyTemp t (h.temp t.dest)] ++
      [h.remove (h.temp t.dest) h.failDelete]) (fs.put (h.resolve (h.temp t.dest)) none)).1 → I f := by
    intro f hf
    simp only [List.cons_append, List.nil_append] at hf
    obtain ⟨-, hf⟩ := runSteps_check_mem hf
    obtain ⟨-, hf⟩ := runSteps_check_mem hf
    obtain ⟨-, hf⟩ := runSteps_check_mem hf
    rcases runSteps_mem hf with hf | ⟨h4, hf⟩
    · exact keeps_sortFile h t sort (fun f b hf => hput f _ hf) _ (hput _ _ h0) f hf
    obtain ⟨b, out, hb, hout, l4⟩ := sortFile_ok h4
    rw [l4] at hf
    have hsrc : fs.file (h.resolve t.source) = some b := by
      by_cases hs : h.resolve t.source = h.resolve (h.temp t.dest)
      · rw [hs, Fs.put_same] at hb; cases hb
      · rw [Fs.put_ne _ _ hs] at hb; exact hb
    have hcopy : ∀ f ∈ (h.copyTemp t (h.temp t.dest) ((fs.put (h.resolve (h.temp t.dest)) none).put (h.resolve (h.temp t.dest))
        (some out))).1, I f := by
      intro f hf
      obtain ⟨b', k, hb', rfl⟩ := copyTemp_mem hf
      rw [Fs.put_same] at hb'
      cases hb'
      rw [hI]
      exact .inr ⟨b, out, k, hsrc, hout, Fs.put_same ..⟩
    rcases runSteps_mem hf with hf | ⟨-, hf⟩
    · exact hcopy f hf
    · rw [runSteps_one] at hf
      refine keeps_remove h _ _ (fun f hf => hput f _ hf) _ ?_ f hf
      rcases lastFs_mem ((fs.put (h.resolve (h.temp t.dest)) none).put (h.resolve (h.temp t.dest)) (some out))
        (h.copyTemp t (h.temp t.dest) ((fs.put (h.resolve (h.temp t.dest)) none).put (h.resolve (h.temp t.dest)) (some out))).1 with hl | hl
      · rw [hl]; exact hput _ _ (hput _ _ h0)
      · exact hcopy _ hl
  unfold Host.sorting Host.task at hf
  simp only at hf
  by_cases ha : (runSteps [h.checkSource t, h.checkDestination t, h.createDestinationTemp t] fs).2 = true
  · rw [if_pos ha, (sorting_begins ha).1] at hf
    simp only [List.cons_append, List.mem_cons, List.mem_append] at hf hM
    rcases hf with hf | (hf | hf) | hf
    · rw [hf]; exact h0
    · exact hB fs h0 f hf
    · exact hM f hf
    · refine keeps_exit h _ _ (fun f hf => hput f _ hf) _ ?_ f hf
      rcases lastFs_mem (fs.put (h.resolve (h.temp t.dest)) none) (runSteps ([checkDiff t, h.readConfig t, h.createWriter, h.sortFile t sort,
        h.copyTemp t (h.temp t.dest)] ++ [h.remove (h.temp t.dest) h.failDelete]) (fs.put (h.resolve (h.temp t.dest)) none)).1 with hl | hl
      · simp only [List.cons_append] at hl ⊢
        rw [hl]; exact hput _ _ h0
      · exact hM _ hl
  · rw [if_neg ha] at hf
    simp only [List.mem_cons] at hf
    rcases hf with hf | hf
    · rw [hf]; exact h0
    · exact hB fs h0 f hf

/-- The state in which validating begins: the temporary file is a copy of the source. -/
theorem validating_begins {h : Host} {t : TaskSet} {fs : Fs} (hr : (runSteps [h.checkSource t, h.createSourceTemp t] fs).2 = true) :
    ∃ b, fs.file (h.resolve t.source) = some b ∧ lastFs fs (runSteps [h.checkSource t, h.createSourceTemp t] fs).1 =
      (fs.put (h.resolve (h.temp t.source)) none).put (h.resolve (h.temp t.source)) (some b) := by
  unfold Host.checkSource Host.createSourceTemp at hr ⊢
  obtain ⟨-, e1⟩ := runSteps_check hr
  rw [e1, runSteps_one] at hr ⊢
  obtain ⟨-, e2⟩ := runSteps_check hr
  rw [e2] at hr ⊢
  obtain ⟨h3, hr, e3⟩ := runSteps_cons hr
  rw [e3]
  rw [remove_ok h3] at hr ⊢
  rw [runSteps_one] at hr ⊢
  obtain ⟨b, hb, hn, l⟩ := copyFile_ok hr
  rw [Fs.put_ne _ _ hn] at hb
  exact ⟨b, hb, l⟩

/-- A validating task reports success if all values of the source are valid.  For an MDF 4 file it has then written the file with
the result to the destination, if that does not exist or may be overwritten and is not the temporary file. -/
theorem C80_validating_result_partial (h : Host) (t : TaskSet) (v : Validator) (fs : Fs)
    (ht : h.resolve t.target ≠ h.resolve (h.temp t.source)) (hr : (h.validating t v fs).result = true) :
    (h.validating t v fs).error = false ∧
    ∃ b mdf4, fs.file (h.resolve t.source) = some b ∧ v.check b = some (true, mdf4) ∧
      (lastFs fs (h.validating t v fs).states).file (h.resolve (h.temp t.source)) = none ∧
      (mdf4 = true → t.overwrite = true ∨ fs.file (h.resolve t.target) = none →
        ∃ out, (v.add b).2 = some out ∧ (lastFs fs (h.validating t v fs).states).file (h.resolve t.target) = some out) := by
  unfold Host.validating Host.task at hr ⊢
  simp only at hr ⊢
  by_cases ha : ¬ (runSteps [h.checkSource t, h.createSourceTemp t] fs).2 = true
  · rw [if_neg ha] at hr; cases hr
  replace ha := Decidable.not_not.1 ha
  rw [if_pos ha] at hr ⊢
  obtain ⟨b, hb, hl⟩ := validating_begins ha
  rw [hl] at hr ⊢
  dsimp only at hr ⊢
  rw [Bool.and_eq_true] at hr
  obtain ⟨hr, hv⟩ := hr
  rw [hr, show h.exit (h.temp t.source) (!true) _ = ([], true) from rfl, List.append_nil]
  refine ⟨rfl, ?_⟩
  rw [lastFs_append]
  rw [show lastFs fs (fs :: (runSteps [h.checkSource t, h.createSourceTemp t] fs).1) =
    lastFs (lastFs fs [fs]) (runSteps [h.checkSource t, h.createSourceTemp t] fs).1 from lastFs_append fs [fs] _]
  rw [show lastFs fs [fs] = fs from rfl, hl]
  simp only [List.cons_append, List.nil_append] at hr ⊢
  unfold Validator.valid at hv
  rw [Fs.put_same, Option.bind_some] at hv
  obtain ⟨h1, hr, e1⟩ := runSteps_cons hr
  rw [e1]
  rw [runSteps_one] at hr ⊢
  rw [remove_ok hr]
  cases hc : v.check b with
  | none => rw [hc] at hv; cases hv
  | some c =>
    obtain ⟨valid, mdf4⟩ := c
    rw [hc] at hv
    have hvalid : valid = true := hv
    subst hvalid
    refine ⟨b, mdf4, hb, hc, Fs.put_same .., ?_⟩
    intro hm ho
    rw [hm] at hc
    unfold Host.validate at h1 ⊢
    rw [Fs.put_same] at h1 ⊢
    dsimp only at h1 ⊢
    rw [hc] at h1 ⊢
    simp only [and_self, if_true] at h1 ⊢
    obtain ⟨h2, h1, e2⟩ := runSteps_cons h1
    rw [e2]
    obtain ⟨out, hout, l2⟩ := writeTemp_ok h2
    rw [l2, runSteps_one] at h1 ⊢
    obtain ⟨b', hb', l3⟩ := copyTemp_ok h1 (ho.imp id fun ho => by rw [Fs.put_ne _ _ ht, Fs.put_ne _ _ ht, Fs.put_ne _ _ ht, ho])
    rw [Fs.put_same] at hb'
    cases hb'
    refine ⟨out, hout, ?_⟩
    rw [l3, Fs.put_ne _ _ ht, Fs.put_same]

/-! ### Examples -/

/-- A machine on which nothing goes wrong; paths lead to different files, but "x" is another name for the directory "t". -/
def exHost : Host :=
  { resolve := (fun p =>
      if p = ["t", "a"] ∨ p = ["x", "a"] then 1 else if p = ["d", "a"] then 2 else if p = ["d", "b"] then 3
      else if p = ["t", "b"] then 4 else 5),
    tmpDir := ["t"], failDirs := false, failRemove := false, failCopyIn := .none, failRead := false, failWriter := false,
    failCopyOut := .none, failDelete := false, failExit := false }

def exTaskFs (l : List (Nat × Bytes)) : Fs := ⟨fun n => (l.find? fun x => x.1 == n).map (·.2)⟩

/-- What is left of some files. -/
def TaskEnd.left (e : TaskEnd) (ns : List Nat) : Bool × Bool × List (Option Bytes) :=
  (e.result, e.error, ns.map fun n => (lastFs (exTaskFs []) e.states).file n)

def exSort (b : Bytes) : List Bytes × Option Bytes := ([[0]], some (b.reverse))

def exCheck : Validator := ⟨fun _ => some (true, true), fun b => ([], some (b ++ [9]))⟩

example : (exHost.sorting ⟨["d", "a"], ["d", "b"], false⟩ exSort (exTaskFs [(2, [1, 2, 3])])).left [1, 2, 3, 4] =
    (true, false, [none, some [1, 2, 3], some [3, 2, 1], none]) := by decide +kernel

example : (exHost.validating ⟨["d", "a"], ["d", "b"], true⟩ exCheck (exTaskFs [(2, [1, 2, 3]), (3, [5])])).left [1, 2, 3, 4] =
    (true, false, [none, some [1, 2, 3], some [1, 2, 3, 9], none]) := by decide +kernel

example : exHost.resolve ["d", "b"] ≠ exHost.resolve (exHost.temp ["d", "b"]) ∧
    exHost.resolve ["d", "a"] ≠ exHost.resolve (exHost.temp ["d", "b"]) := by decide +kernel

/-- If the copy fails after two bytes the destination is cut. -/
example : ({ exHost with failCopyOut := .cut 2 }.sorting ⟨["d", "a"], ["d", "b"], true⟩ exSort
    (exTaskFs [(2, [1, 2, 3]), (3, [5])])).left [1, 2, 3, 4] = (false, true, [none, some [1, 2, 3], some [3, 2], none]) := by decide +kernel

/-! ### What is lost -/

/-- Sorting a file that lies in the directory for temporary files to a file of the same name elsewhere removes the source before
reading it. -/
theorem C80_source_deleted : (exHost.sorting ⟨["t", "a"], ["d", "a"], false⟩ exSort (exTaskFs [(1, [1, 2, 3])])).left [1, 2] =
    (false, true, [none, none]) := by decide +kernel

/-- Validating with a destination in the directory for temporary files and the name of the source removes an existing destination
although it may not be overwritten, and reports success. -/
theorem C80_destination_deleted : (exHost.validating ⟨["d", "a"], ["t", "a"], false⟩ exCheck (exTaskFs [(2, [1, 2, 3]), (1, [7])])).left [1, 2] =
    (true, false, [none, some [1, 2, 3]]) := by decide +kernel

/-- If the destination is the temporary file under another name, sorting reports success but leaves no file. -/
theorem C80_success_without_file : (exHost.sorting ⟨["d", "b"], ["x", "a"], false⟩ exSort (exTaskFs [(3, [1, 2, 3])])).left [1, 3] =
    (true, false, [none, some [1, 2, 3]]) := by decide +kernel

/-- Validating in place: when copying back fails the file is cut, and its copy is removed. -/
theorem C80_file_cut : ({ exHost with failCopyOut := .cut 1 }.validating ⟨["d", "a"], [], true⟩ exCheck
    (exTaskFs [(2, [1, 2, 3])])).left [1, 2] = (false, true, [none, some [1]]) := by decide +kernel

/-- The property is false. -/
theorem C80_false : ¬ C80_Statement := by
  intro hs
  obtain ⟨b, out, -, -, h1⟩ := (hs exHost ⟨["d", "b"], ["x", "a"], false⟩ (exTaskFs [(3, [1, 2, 3])])).2.2.2 exSort (by decide +kernel)
  have h2 : (lastFs (exTaskFs [(3, [1, 2, 3])]) (exHost.sorting ⟨["d", "b"], ["x", "a"], false⟩ exSort (exTaskFs [(3, [1, 2, 3])])).states).file
      (exHost.resolve (TaskSet.target ⟨["d", "b"], ["x", "a"], false⟩)) = none := by decide +kernel
  rw [h2] at h1
  cases h1

/-- Also its other parts: the first with a source that is removed, the third with a destination that is. -/
theorem C80_false_parts :
    (∃ f ∈ (exHost.sorting ⟨["t", "a"], ["d", "a"], false⟩ exSort (exTaskFs [(1, [1, 2, 3])])).states, f.file 1 = none) ∧
    (∃ f ∈ (exHost.validating ⟨["d", "a"], ["t", "a"], false⟩ exCheck (exTaskFs [(2, [1, 2, 3]), (1, [7])])).states, f.file 1 = none) := by
  decide +kernel

end Mdf
