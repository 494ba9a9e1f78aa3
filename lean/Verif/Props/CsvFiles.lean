import Verif.Proof.CsvFiles

/-! Property C96: the files made by `mdf2csv`. -/

namespace Mdf

/-- The groups have files of their own: there are as many names as groups, no two of them are the same, and the file of each group
with a CSV text holds this text. -/
def Exported (jobs : List CsvGroup) (disk : CsvDisk) : Prop :=
  ∃ keys : List (Bytes × Bytes), keys.length = jobs.length ∧ keys.Nodup ∧
    ∀ (i : Nat) (k : Bytes × Bytes) (g : CsvGroup) (t : Bytes), keys[i]? = some k → jobs[i]? = some g → g.text = some t → disk k = some t

/-- The property as wanted: converting measurement files into an empty directory gives each group that holds samples a CSV file of its own. -/
def C96_Statement : Prop :=
  ∀ (force : Bool) (out : Bytes) (fs : List CsvInput), (fs.map fun f => (f.dir, f.stem)).Nodup → (∀ f ∈ fs, AsciiText f.stem) →
    (∀ f ∈ fs, ∀ dg ∈ f.groups, ∀ g ∈ dg, AsciiText g.name) →
    ∃ s, csvRun force fs (out, fun _ => none) = some s ∧ Exported (fs.flatMap CsvInput.jobs) s.2

/-- C96, proved for one measurement file whose groups have plain names, no two the same in a data group: each group that holds samples
gets a CSV file of its own in the output directory (or that of the measurement file) if it did not exist or overwriting is forced, and all other files stay as they are.
Missing: several files, other names. -/
theorem C96_one_file_partial (force : Bool) (out : Bytes) (f : CsvInput) (disk : CsvDisk) (hs : AsciiText f.stem)
    (hg : ∀ dg ∈ f.groups, GoodNames (dg.filter fun g => g.vlsd = false ∧ 0 < g.nof))
    (hf : force = true ∨ ∀ name, disk (if out = [] then f.dir else out, name) = none) :
    ∃ disk', csvRun force [f] (out, disk) = some (if out = [] then f.dir else out, disk') ∧ Exported f.jobs disk' ∧
      ∀ k, k.1 ≠ (if out = [] then f.dir else out) → disk' k = disk k := by
  have hc : ∀ dg, csvGroups dg = dg.filter fun g => g.vlsd = false ∧ 0 < g.nof := by
    intro dg
    unfold csvGroups
    apply List.filter_congr
    intro g _
    cases g.vlsd <;> by_cases h : g.nof = 0 <;> simp [h, Nat.pos_iff_ne_zero]
  have hg' : ∀ dg ∈ f.groups, GoodNames (csvGroups dg) := fun dg hd => by rw [hc]; exact hg dg hd
  have hn := dataWork_nodup f.groups.length f.groups hg' (by omega) 1
  rw [csvRun]
  unfold csvInput
  simp only []
  rw [dataLoop_eq force _ f.stem hs _ _ (fun dg hd g hgm => (hg' dg hd).plain g hgm)]
  refine ⟨_, rfl, ?_, ?_⟩
  · refine ⟨(dataWork f.groups.length 1 f.groups).map fun w => (if out = [] then f.dir else out, f.stem.filter stripKeep ++ w.1), ?_, ?_, ?_⟩
    · have := congrArg List.length (dataWork_texts f.groups.length f.groups 1)
      rw [List.length_map, List.length_map] at this
      rw [List.length_map, this, jobs_eq]
    · have h2 := List.Pairwise.map (R := (· ≠ ·)) (S := (· ≠ ·)) (fun n : Bytes => ((if out = [] then f.dir else out), f.stem.filter stripKeep ++ n))
        (fun a b hab he => hab (List.append_cancel_left (Prod.mk.inj he).2)) hn
      rw [List.map_map] at h2
      exact h2
    · intro i k g t hk hj ht
      rw [List.getElem?_map] at hk
      obtain ⟨w, hw, rfl⟩ := Option.map_eq_some_iff.1 hk
      have htx := congrArg (fun l => l[i]?) (dataWork_texts f.groups.length f.groups 1)
      simp only [List.getElem?_map] at htx
      rw [← jobs_eq, hw, hj] at htx
      have hw2 : w.2 = some t := by rw [← ht]; exact Option.some.inj htx
      have hmem : (w.1, some t) ∈ dataWork f.groups.length 1 f.groups := by
        have := List.mem_of_getElem? hw
        rw [← hw2]; exact this
      refine doWork_done force _ _ _ disk hn ?_ w.1 t hmem
      rcases hf with hf | hf
      · exact Or.inl hf
      · exact Or.inr fun w' _ => hf _
  · intro k hk
    rw [doWork_other]
    intro w _ he
    exact hk (by rw [he])

/-- Two data groups: one with groups `a` and `b` and an empty one, one with a VLSD group and a group without a name. -/
def exCsv : CsvInput :=
  ⟨[0x2F#8], [0x6D#8, 0x2E#8, 0x31#8],
    [[⟨[0x61#8], false, 2, some [1]⟩, ⟨[0x62#8], false, 3, some [2]⟩, ⟨[0x61#8], false, 0, none⟩],
     [⟨[], true, 2, some [9]⟩, ⟨[], false, 5, some [3]⟩]]⟩

example : AsciiText exCsv.stem ∧ (∀ dg ∈ exCsv.groups, GoodNames (dg.filter fun g => g.vlsd = false ∧ 0 < g.nof)) ∧ exCsv.jobs.length = 3 ∧
    (csvRun false [exCsv] ([], fun _ => none)).map (fun s => (s.1, [s.2 ([0x2F#8], [0x6D#8, 0x31#8, 0x5F#8, 0x44#8, 0x47#8, 0x5F#8, 0x31#8, 0x5F#8, 0x61#8]),
      s.2 ([0x2F#8], [0x6D#8, 0x31#8, 0x5F#8, 0x44#8, 0x47#8, 0x5F#8, 0x32#8])])) = some ([0x2F#8], [some [1], some [3]]) := by
  refine ⟨by decide, ?_, by decide, by decide +kernel⟩
  intro dg hd
  rcases List.mem_cons.1 hd with h | h
  · subst h; exact ⟨by decide, by decide, by decide⟩
  · rcases List.mem_cons.1 h with h | h
    · subst h; exact ⟨by decide, by decide, by decide⟩
    · cases h

/-- C96: whatever is converted, an existing file is never changed unless overwriting is forced; this also holds for the files made before in the
same run. -/
theorem C96_existing_kept (fs : List CsvInput) (s s' : Bytes × CsvDisk) (h : csvRun false fs s = some s') (k : Bytes × Bytes) (t : Bytes)
    (hk : s.2 k = some t) : s'.2 k = some t := csvRun_keeps k t fs s s' hk h

example : (csvRun false [exCsv] ([], fun k => if k = ([0x2F#8], [0x6D#8, 0x31#8, 0x5F#8, 0x44#8, 0x47#8, 0x5F#8, 0x32#8]) then some [7] else none)).map
    (fun s => s.2 ([0x2F#8], [0x6D#8, 0x31#8, 0x5F#8, 0x44#8, 0x47#8, 0x5F#8, 0x32#8])) = some (some [7]) := by decide +kernel

theorem exported_two {disk : CsvDisk} {g1 g2 : CsvGroup} {t1 t2 : Bytes} (h : Exported [g1, g2] disk) (h1 : g1.text = some t1)
    (h2 : g2.text = some t2) : ∃ k1 k2, k1 ≠ k2 ∧ disk k1 = some t1 ∧ disk k2 = some t2 := by
  obtain ⟨keys, hl, hn, hk⟩ := h
  match keys, hl, hn, hk with
  | [k1, k2], _, hn, hk =>
    refine ⟨k1, k2, ?_, hk 0 k1 g1 t1 rfl rfl h1, hk 1 k2 g2 t2 rfl rfl h2⟩
    intro he
    subst he
    simp at hn

/-- Two groups of a data group with the same name. -/
def exTwins : CsvInput := ⟨[0x2F#8], [0x6D#8], [[⟨[0x61#8], false, 2, some [1]⟩, ⟨[0x61#8], false, 3, some [2]⟩]]⟩

theorem exTwins_run (force : Bool) : ∃ s, csvRun force [exTwins] ([], fun _ => none) = some s ∧
    s.2 = fun k => if k = ([0x2F#8], [0x6D#8, 0x5F#8, 0x61#8]) then some (if force then [2] else [1]) else none := by
  refine ⟨_, rfl, ?_⟩
  funext k
  cases force
  · change csvOne false (csvOne false (fun _ => none) ([0x2F#8], [0x6D#8, 0x5F#8, 0x61#8]) (some [1])) ([0x2F#8], [0x6D#8, 0x5F#8, 0x61#8]) (some [2]) k = _
    unfold csvOne
    simp
  · change csvOne true (csvOne true (fun _ => none) ([0x2F#8], [0x6D#8, 0x5F#8, 0x61#8]) (some [1])) ([0x2F#8], [0x6D#8, 0x5F#8, 0x61#8]) (some [2]) k = _
    unfold csvOne
    simp
    split <;> rfl

/-- C96 is false: two groups of a data group with the same name (or with names that are the same without blanks and punctuation) get the same file; the second one is not exported, or, if
overwriting is forced, the first one is lost. -/
theorem C96_same_names_false : ¬ C96_Statement := by
  intro h
  obtain ⟨s, hs, he⟩ := h false [] [exTwins] (by decide) (by decide) (by decide)
  obtain ⟨s', hs', hd⟩ := exTwins_run false
  rw [hs'] at hs
  cases hs
  obtain ⟨k1, k2, hne, h1, h2⟩ := exported_two (t1 := [1]) (t2 := [2]) he rfl rfl
  rw [hd] at h2
  simp only [] at h2
  split at h2 <;> simp at h2

/-- With overwriting forced the text of the first group is nowhere. -/
theorem C96_same_names_forced : ∃ s, csvRun true [exTwins] ([], fun _ => none) = some s ∧ ∀ k, s.2 k ≠ some [1] := by
  obtain ⟨s, hs, hd⟩ := exTwins_run true
  refine ⟨s, hs, fun k hk => ?_⟩
  rw [hd] at hk
  simp only [] at hk
  split at hk <;> simp at hk

/-- C96 is false for files of the same name in different directories if no output directory is given: all CSV files go to the directory of the first
file, and the second is not converted. -/
theorem C96_second_directory_false :
    let f1 : CsvInput := ⟨[0x2F#8, 0x61#8], [0x6D#8], [[⟨[0x61#8], false, 2, some [1]⟩]]⟩
    let f2 : CsvInput := ⟨[0x2F#8, 0x62#8], [0x6D#8], [[⟨[0x61#8], false, 2, some [2]⟩]]⟩
    ∃ s, csvRun false [f1, f2] ([], fun _ => none) = some s ∧ s.1 = [0x2F#8, 0x61#8] ∧ ∀ k, s.2 k ≠ some [2] := by
  refine ⟨_, rfl, rfl, fun k hk => ?_⟩
  change csvOne false (csvOne false (fun _ => none) ([0x2F#8, 0x61#8], [0x6D#8]) (some [1])) ([0x2F#8, 0x61#8], [0x6D#8]) (some [2]) k = some [2] at hk
  unfold csvOne at hk
  simp at hk

/-- A name with a character that is not ASCII is undefined behaviour. -/
theorem C96_not_ascii_ub : csvRun false [⟨[0x2F#8], [0xE4#8], [[⟨[], false, 1, some [1]⟩]]⟩] ([], fun _ => none) = none := by decide +kernel

end Mdf
