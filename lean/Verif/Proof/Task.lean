import Verif.Model.Task

/-! Steps of tasks: what they keep, and what they leave when they go well. -/

namespace Mdf

theorem Fs.put_ne (fs : Fs) {n m : Nat} (b : Option Bytes) (h : m ≠ n) : (fs.put n b).file m = fs.file m := if_neg h

theorem Fs.put_same (fs : Fs) (n : Nat) (b : Option Bytes) : (fs.put n b).file n = b := if_pos rfl

theorem lastFs_append (fs : Fs) (a b : List Fs) : lastFs fs (a ++ b) = lastFs (lastFs fs a) b := by
  unfold lastFs
  rw [List.getLast?_append]
  cases b.getLast? <;> rfl

theorem lastFs_mem (fs : Fs) (l : List Fs) : lastFs fs l = fs ∨ lastFs fs l ∈ l := by
  unfold lastFs
  cases h : l.getLast? with
  | none => exact .inl rfl
  | some x => exact .inr (List.mem_of_getLast? h)

/-- A step that keeps a property of the file system. -/
def KeepsFs (I : Fs → Prop) (s : TaskStep) : Prop := ∀ fs, I fs → ∀ f ∈ (s fs).1, I f

theorem KeepsFs.last {I : Fs → Prop} {s : TaskStep} (h : KeepsFs I s) {fs : Fs} (hi : I fs) : I (lastFs fs (s fs).1) := by
  rcases lastFs_mem fs (s fs).1 with h' | h'
  · rw [h']; exact hi
  · exact h fs hi _ h'

theorem KeepsFs.steps {I : Fs → Prop} : ∀ {l : List TaskStep}, (∀ s ∈ l, KeepsFs I s) → KeepsFs I (runSteps l) := by
  intro l
  induction l with
  | nil => intro _ fs _ f h; cases h
  | cons s ss ih =>
    intro h fs hi f hf
    simp only [runSteps] at hf
    have hs := h s (List.mem_cons_self ..)
    have ih := ih fun s hm => h s (List.mem_cons_of_mem _ hm)
    split at hf
    · rcases List.mem_append.1 hf with hf | hf
      · exact hs fs hi f hf
      · exact ih _ (hs.last hi) f hf
    · exact hs fs hi f hf

theorem KeepsFs.check {I : Fs → Prop} (p : Fs → Bool) : KeepsFs I (checkStep p) := fun _ _ f h => by cases h

theorem keeps_remove {I : Fs → Prop} (h : Host) (p : Path) (fail : Bool) (hI : ∀ fs, I fs → I (fs.put (h.resolve p) none)) :
    KeepsFs I (h.remove p fail) := by
  intro fs hi f hf
  unfold Host.remove at hf
  cases fail
  · simp only [Bool.false_eq_true, if_false, List.mem_singleton] at hf
    rw [hf]; exact hI fs hi
  · cases hf

theorem keeps_copyFile {I : Fs → Prop} (h : Host) (src dst : Path) (over : Bool) (fault : CopyFault)
    (hI : ∀ fs b, I fs → I (fs.put (h.resolve dst) (some b))) : KeepsFs I (h.copyFile src dst over fault) := by
  intro fs hi f hf
  unfold Host.copyFile at hf
  split at hf
  · cases hf
  · split at hf
    · cases hf
    · split at hf
      · cases hf
      · split at hf
        · cases hf
        · obtain ⟨k, -, rfl⟩ := List.mem_map.1 hf; exact hI _ _ hi
        · obtain ⟨k, -, rfl⟩ := List.mem_map.1 hf; exact hI _ _ hi

theorem keeps_writeTemp {I : Fs → Prop} (h : Host) (temp : Path) (w : List Bytes × Option Bytes)
    (hI : ∀ fs b, I fs → I (fs.put (h.resolve temp) (some b))) : KeepsFs I (h.writeTemp temp w) := by
  intro fs hi f hf
  unfold Host.writeTemp at hf
  rcases List.mem_append.1 hf with hf | hf
  · obtain ⟨b, -, rfl⟩ := List.mem_map.1 hf; exact hI _ _ hi
  · cases hw : w.2 with
    | none => rw [hw] at hf; cases hf
    | some b =>
      rw [hw] at hf
      simp only [Option.map_some, Option.toList_some, List.mem_singleton] at hf
      rw [hf]; exact hI _ _ hi

theorem keeps_sortFile {I : Fs → Prop} (h : Host) (t : TaskSet) (sort : Bytes → List Bytes × Option Bytes)
    (hI : ∀ fs b, I fs → I (fs.put (h.resolve (h.temp t.dest)) (some b))) : KeepsFs I (h.sortFile t sort) := by
  intro fs hi f hf
  unfold Host.sortFile at hf
  split at hf
  · cases hf
  · exact keeps_writeTemp h _ _ hI fs hi f hf

theorem keeps_copyTemp {I : Fs → Prop} (h : Host) (t : TaskSet) (temp : Path)
    (hI : ∀ fs b, I fs → (t.overwrite = true ∨ fs.file (h.resolve t.target) = none) → I (fs.put (h.resolve t.target) (some b))) :
    KeepsFs I (h.copyTemp t temp) := by
  intro fs hi f hf
  unfold Host.copyTemp at hf
  have hput : ∀ over fault, (t.overwrite = true ∨ fs.file (h.resolve t.target) = none) →
      f ∈ (h.copyFile temp t.target over fault fs).1 → I f := by
    intro over fault ho hf
    unfold Host.copyFile at hf
    split at hf
    · cases hf
    · split at hf
      · cases hf
      · split at hf
        · cases hf
        · split at hf
          · cases hf
          · obtain ⟨k, -, rfl⟩ := List.mem_map.1 hf; exact hI _ _ hi ho
          · obtain ⟨k, -, rfl⟩ := List.mem_map.1 hf; exact hI _ _ hi ho
  split at hf
  · split at hf
    · rename_i ho; exact hput _ _ (Or.inl ho) hf
    · cases hf
  · rename_i he
    refine hput _ _ (Or.inr ?_) hf
    unfold Host.exists at he
    cases hx : fs.file (h.resolve t.target) with
    | none => rfl
    | some _ => rw [hx] at he; exact absurd rfl he

theorem keeps_exit {I : Fs → Prop} (h : Host) (temp : Path) (live : Bool) (hI : ∀ fs, I fs → I (fs.put (h.resolve temp) none)) :
    KeepsFs I (h.exit temp live) := by
  intro fs hi f hf
  unfold Host.exit at hf
  split at hf
  · exact keeps_remove h temp false hI fs hi f hf
  · cases hf

/-- A property that all steps keep holds in all states of a task. -/
theorem keeps_task {I : Fs → Prop} (h : Host) (temp : Path) (before main : List TaskStep) (result : Fs → Bool)
    (hb : ∀ s ∈ before, KeepsFs I s) (hm : ∀ s ∈ main, KeepsFs I s) (hI : ∀ fs, I fs → I (fs.put (h.resolve temp) none))
    {fs : Fs} (hi : I fs) : ∀ f ∈ (h.task temp before main result fs).states, I f := by
  intro f hf
  unfold Host.task at hf
  simp only at hf
  have hB : KeepsFs I (runSteps before) := KeepsFs.steps hb
  have hM : KeepsFs I (runSteps (main ++ [h.remove temp h.failDelete])) := KeepsFs.steps fun s hs => by
    rcases List.mem_append.1 hs with hs | hs
    · exact hm s hs
    · rw [List.mem_singleton.1 hs]; exact keeps_remove h _ _ hI
  split at hf
  · simp only [List.cons_append, List.mem_cons, List.mem_append] at hf
    rcases hf with hf | (hf | hf) | hf
    · rw [hf]; exact hi
    · exact hB fs hi f hf
    · exact hM _ (hB.last hi) f hf
    · exact keeps_exit h _ _ hI _ (hM.last (hB.last hi)) f hf
  · simp only [List.mem_cons] at hf
    rcases hf with hf | hf
    · rw [hf]; exact hi
    · exact hB fs hi f hf

/-! ### Going well -/

theorem runSteps_cons {s : TaskStep} {ss : List TaskStep} {fs : Fs} (h : (runSteps (s :: ss) fs).2 = true) :
    (s fs).2 = true ∧ (runSteps ss (lastFs fs (s fs).1)).2 = true ∧
      lastFs fs (runSteps (s :: ss) fs).1 = lastFs (lastFs fs (s fs).1) (runSteps ss (lastFs fs (s fs).1)).1 := by
  simp only [runSteps] at h ⊢
  by_cases hs : (s fs).2 = true
  · rw [if_pos hs] at h ⊢
    exact ⟨hs, h, lastFs_append ..⟩
  · rw [if_neg hs] at h; cases h

theorem runSteps_mem {s : TaskStep} {ss : List TaskStep} {fs f : Fs} (h : f ∈ (runSteps (s :: ss) fs).1) :
    f ∈ (s fs).1 ∨ ((s fs).2 = true ∧ f ∈ (runSteps ss (lastFs fs (s fs).1)).1) := by
  simp only [runSteps] at h
  split at h
  · rename_i hs
    exact (List.mem_append.1 h).imp id fun h => ⟨hs, h⟩
  · exact .inl h

theorem lastFs_map_range (fs : Fs) (g : Nat → Fs) (n : Nat) : lastFs fs ((List.range (n + 1)).map g) = g n := by
  unfold lastFs
  rw [List.range_succ, List.map_append, List.getLast?_append]
  rfl

theorem remove_ok {h : Host} {p : Path} {fail : Bool} {fs : Fs} (hr : (h.remove p fail fs).2 = true) :
    lastFs fs (h.remove p fail fs).1 = fs.put (h.resolve p) none := by
  unfold Host.remove at hr ⊢
  cases fail
  · rfl
  · cases hr

theorem copyFile_ok {h : Host} {src dst : Path} {over : Bool} {fault : CopyFault} {fs : Fs}
    (hr : (h.copyFile src dst over fault fs).2 = true) :
    ∃ b, fs.file (h.resolve src) = some b ∧ h.resolve src ≠ h.resolve dst ∧
      lastFs fs (h.copyFile src dst over fault fs).1 = fs.put (h.resolve dst) (some b) := by
  unfold Host.copyFile at hr ⊢
  cases hb : fs.file (h.resolve src) with
  | none => rw [hb] at hr; cases hr
  | some b =>
    rw [hb] at hr
    dsimp only at hr ⊢
    refine ⟨b, rfl, ?_⟩
    by_cases hn : h.resolve src = h.resolve dst
    · rw [if_pos hn] at hr; cases hr
    · rw [if_neg hn] at hr ⊢
      refine ⟨hn, ?_⟩
      by_cases he : (h.exists fs dst) = true ∧ (!over) = true
      · rw [if_pos he] at hr; cases hr
      · rw [if_neg he] at hr ⊢
        cases fault with
        | early => cases hr
        | cut n => cases hr
        | none => dsimp only; rw [lastFs_map_range, List.take_length]

/-- Whatever a copy does, the target is a beginning of what is copied. -/
theorem copyFile_mem {h : Host} {src dst : Path} {over : Bool} {fault : CopyFault} {fs f : Fs}
    (hf : f ∈ (h.copyFile src dst over fault fs).1) :
    ∃ b k, fs.file (h.resolve src) = some b ∧ f = fs.put (h.resolve dst) (some (b.take k)) := by
  unfold Host.copyFile at hf
  cases hb : fs.file (h.resolve src) with
  | none => rw [hb] at hf; cases hf
  | some b =>
    rw [hb] at hf
    dsimp only at hf
    split at hf
    · cases hf
    · split at hf
      · cases hf
      · split at hf
        · cases hf
        · obtain ⟨k, -, rfl⟩ := List.mem_map.1 hf; exact ⟨b, k, rfl, rfl⟩
        · obtain ⟨k, -, rfl⟩ := List.mem_map.1 hf; exact ⟨b, k, rfl, rfl⟩

theorem copyTemp_mem {h : Host} {t : TaskSet} {temp : Path} {fs f : Fs} (hf : f ∈ (h.copyTemp t temp fs).1) :
    ∃ b k, fs.file (h.resolve temp) = some b ∧ f = fs.put (h.resolve t.target) (some (b.take k)) := by
  unfold Host.copyTemp at hf
  split at hf
  · split at hf
    · exact copyFile_mem hf
    · cases hf
  · exact copyFile_mem hf

theorem copyTemp_ok {h : Host} {t : TaskSet} {temp : Path} {fs : Fs} (hr : (h.copyTemp t temp fs).2 = true)
    (ho : t.overwrite = true ∨ fs.file (h.resolve t.target) = none) :
    ∃ b, fs.file (h.resolve temp) = some b ∧ lastFs fs (h.copyTemp t temp fs).1 = fs.put (h.resolve t.target) (some b) := by
  unfold Host.copyTemp at hr ⊢
  by_cases he : h.exists fs t.target = true
  · rw [if_pos he] at hr ⊢
    rcases ho with ho | ho
    · rw [if_pos ho] at hr ⊢
      obtain ⟨b, h1, -, h2⟩ := copyFile_ok hr
      exact ⟨b, h1, h2⟩
    · unfold Host.exists at he; rw [ho] at he; cases he
  · rw [if_neg he] at hr ⊢
    obtain ⟨b, h1, -, h2⟩ := copyFile_ok hr
    exact ⟨b, h1, h2⟩

theorem writeTemp_ok {h : Host} {temp : Path} {w : List Bytes × Option Bytes} {fs : Fs} (hr : (h.writeTemp temp w fs).2 = true) :
    ∃ b, w.2 = some b ∧ lastFs fs (h.writeTemp temp w fs).1 = fs.put (h.resolve temp) (some b) := by
  unfold Host.writeTemp at hr ⊢
  cases hw : w.2 with
  | none => rw [hw] at hr; cases hr
  | some b =>
    refine ⟨b, rfl, ?_⟩
    simp only [Option.map_some, Option.toList_some]
    rw [lastFs_append]
    rfl

theorem sortFile_ok {h : Host} {t : TaskSet} {sort : Bytes → List Bytes × Option Bytes} {fs : Fs}
    (hr : (h.sortFile t sort fs).2 = true) :
    ∃ b out, fs.file (h.resolve t.source) = some b ∧ (sort b).2 = some out ∧
      lastFs fs (h.sortFile t sort fs).1 = fs.put (h.resolve (h.temp t.dest)) (some out) := by
  unfold Host.sortFile at hr ⊢
  cases hb : fs.file (h.resolve t.source) with
  | none => rw [hb] at hr; cases hr
  | some b =>
    rw [hb] at hr
    dsimp only at hr ⊢
    obtain ⟨out, h1, h2⟩ := writeTemp_ok hr
    exact ⟨b, out, rfl, h1, h2⟩

theorem runSteps_check {p : Fs → Bool} {ss : List TaskStep} {fs : Fs} (h : (runSteps (checkStep p :: ss) fs).2 = true) :
    p fs = true ∧ runSteps (checkStep p :: ss) fs = runSteps ss fs := by
  simp only [runSteps] at h ⊢
  by_cases hp : (checkStep p fs).2 = true
  · rw [if_pos hp]
    exact ⟨hp, rfl⟩
  · rw [if_neg hp] at h; cases h

theorem runSteps_check_mem {p : Fs → Bool} {ss : List TaskStep} {fs f : Fs} (h : f ∈ (runSteps (checkStep p :: ss) fs).1) :
    p fs = true ∧ f ∈ (runSteps ss fs).1 := by
  rcases runSteps_mem h with h | ⟨h1, h2⟩
  · cases h
  · exact ⟨h1, h2⟩

theorem runSteps_one (s : TaskStep) (fs : Fs) : runSteps [s] fs = s fs := by
  simp only [runSteps, List.append_nil]
  by_cases hs : (s fs).2 = true
  · rw [if_pos hs, ← hs]
  · rw [if_neg hs]
    rw [Bool.not_eq_true] at hs
    rw [← hs]

end Mdf
