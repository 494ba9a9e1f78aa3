import Verif.Spec.Append
import Verif.Model.ReadCache
import Mathlib.Data.List.Induction
import Mathlib.Data.List.TakeWhile

/-! C102: a sample is stored in the channel group it was saved for.  C103: the sample counters in a file that was opened again.
C104: the start time of a file. -/

namespace Mdf

/-! ### C102 -/

/-- The calls whose two arguments belong together. -/
def SaveCall.Fits : SaveCall → Prop
  | .group _ _ => True
  | .both given dg _ => given = dg
  | .add given dg _ => given = dg

/-- The full claim: a sample is put into the queue of the data group it is saved for, or dropped. -/
def C102_Statement : Prop :=
  ∀ (dgs : List DgData) (call : SaveCall) (q : Nat), call.Fits → call.queue (cacheOf dgs) = some q → q = call.target

/-- It is false: with one data group being recorded, samples of all other groups are put into its queue. -/
theorem C102_false : ¬ C102_Statement := by
  intro h
  have := h [⟨[⟨false, 3⟩], .none⟩, ⟨[⟨false, 0⟩], .none⟩] (.group 0 0) 1 trivial (by decide)
  exact absurd this (by decide)

theorem queueOfGroup_eq {cache : List Nat} {dg q : Nat} (h : cache.length ≠ 1 ∨ dg ∈ cache) (hq : queueOfGroup cache dg = some q) : q = dg := by
  unfold queueOfGroup at hq
  split at hq
  · split at hq
    · exact (Option.some.inj hq).symm
    · cases hq
  · split at hq
    · rename_i h1
      rcases h with h | h
      · exact absurd h1 h
      · obtain ⟨a, ha⟩ := List.length_eq_one_iff.mp h1
        rw [ha] at hq h
        simp only [List.head?_cons, Option.some.injEq] at hq
        rw [← hq]
        exact (List.mem_singleton.mp h).symm
    · cases hq

/-- It holds if the data group is one of those being recorded, or if these are several.  Missing: samples saved for another group while one
data group alone is recorded. -/
theorem C102_own_queue_partial (dgs : List DgData) (call : SaveCall) (q : Nat) (hf : call.Fits)
    (h : (cacheOf dgs).length ≠ 1 ∨ call.target ∈ cacheOf dgs) (hq : call.queue (cacheOf dgs) = some q) : q = call.target := by
  cases call with
  | group dg cg => exact queueOfGroup_eq h hq
  | both given dg cg =>
    simp only [SaveCall.queue, queueOfDataGroup] at hq
    split at hq
    · exact (Option.some.inj hq).symm.trans hf
    · cases hq
  | add given dg cg => exact queueOfGroup_eq h hq

/-- With the data group given, `SaveSample` never puts a sample anywhere else. -/
theorem C102_with_data_group (dgs : List DgData) (dg cg q : Nat) (hq : (SaveCall.both dg dg cg).queue (cacheOf dgs) = some q) : q = dg := by
  simp only [SaveCall.queue, queueOfDataGroup] at hq
  split at hq
  · exact (Option.some.inj hq).symm
  · cases hq

/-- A sample of a data group that has a channel group without samples is not dropped. -/
theorem C102_not_dropped (dgs : List DgData) (call : SaveCall) (d : DgData) (g : GrpCount) (hf : call.Fits)
    (hd : dgs[call.target]? = some d) (hg : g ∈ d.groups) (hv : g.vlsd = false) (hn : g.nof = 0) :
    call.queue (cacheOf dgs) = some call.target := by
  have hm : call.target ∈ cacheOf dgs := by
    unfold cacheOf
    refine List.mem_filter.mpr ⟨List.mem_range.mpr ?_, ?_⟩
    · exact (List.getElem?_eq_some_iff.mp hd).1
    · simp only [hd, Option.map_some, Option.getD_some]
      exact List.any_eq_true.mpr ⟨g, hg, by simp [hv, hn]⟩
  have hone : ∀ dg, dg ∈ cacheOf dgs → queueOfGroup (cacheOf dgs) dg = some dg := by
    intro dg hm
    unfold queueOfGroup
    rw [if_pos hm]
    split
    · rfl
    · rename_i h1
      have hl : (cacheOf dgs).length = 1 := by
        have := List.length_pos_of_mem hm
        omega
      rw [if_pos hl]
      obtain ⟨a, ha⟩ := List.length_eq_one_iff.mp hl
      rw [ha] at hm ⊢
      rw [List.mem_singleton.mp hm]
      rfl
  cases call with
  | group dg cg => exact hone _ hm
  | both given dg cg =>
    simp only [SaveCall.queue, queueOfDataGroup, show given = dg from hf]
    rw [if_pos (show dg ∈ cacheOf dgs from hm)]
    rfl
  | add given dg cg => exact hone _ hm

example : (SaveCall.group 1 0).queue (cacheOf [⟨[⟨false, 3⟩], .none⟩, ⟨[⟨false, 0⟩], .none⟩, ⟨[⟨true, 7⟩, ⟨false, 0⟩], .none⟩]) = some 1 ∧
    (SaveCall.group 0 0).queue (cacheOf [⟨[⟨false, 3⟩], .none⟩, ⟨[⟨false, 0⟩], .none⟩, ⟨[⟨true, 7⟩, ⟨false, 0⟩], .none⟩]) = none := by decide

/-- A data group with records of four bytes. -/
def exFour : SCfg := { idSize := 0, groups := [⟨0, false, 4, 0⟩], sd := fun _ => false, render := fun s => s.data }

/-- What a foreign sample does: of the samples 1, 2 of four bytes with one of two bytes between them, the reader gets the first one, and the
bytes of the foreign sample with the first half of the second. -/
theorem C102_foreign_sample_read :
    let stored := exFour.store [⟨1, 0, [1, 1, 1, 1], none, none⟩, ⟨2, 9, [7, 7], none, none⟩, ⟨3, 0, [2, 2, 2, 2], none, none⟩] SSt.init
    (stored.2.cg 0).nof = 3 ∧
    ({ idSize := 0, groups := [⟨0, false, 4, 3⟩], subs := fun _ => true, cont := fun _ => true } : RCfg).read 9
        [⟨false, exFour.bytes stored.1, []⟩] [] = .done [⟨0, 0, [1, 1, 1, 1]⟩, ⟨1, 0, [7, 7, 2, 2]⟩] := by
  decide +kernel

/-! ### C103 -/

/-- The full claim, for MDF 4: when the block was written last, its counter in the file is the number of its samples in the file. -/
def C103_Statement : Prop := ∀ ops, (CgCnt.init.run4 (ops ++ [.write])).file = some (CgCnt.init.run4 (ops ++ [.write])).stored

/-- It is false: a group without samples, opened again, filled and written. -/
theorem C103_false : ¬ C103_Statement := by
  intro h
  exact absurd (h [.write, .reopen, .store]) (by decide)

theorem run4_append (c : CgCnt) (a b : List CgOp) : c.run4 (a ++ b) = (c.run4 a).run4 b := List.foldl_append ..

theorem run3_append (c : CgCnt) (a b : List CgOp) : c.run3 (a ++ b) = (c.run3 a).run3 b := List.foldl_append ..

/-- The state of a group while its object lives. -/
def CgCnt.Own (c : CgCnt) : Prop := (c.file = none ∧ c = CgCnt.init) ∨ (c.file.isSome ∧ c.known = true ∧ c.nof = c.stored ∧ c.sample = c.stored)

theorem CgCnt.Own.step {c : CgCnt} (h : c.Own) {op : CgOp} (ho : op ≠ .reopen) : (c.step4 op).Own := by
  rcases h with ⟨h1, h2⟩ | ⟨h1, h2, h3, h4⟩
  · cases op with
    | write => subst h2; exact .inr ⟨rfl, rfl, rfl, rfl⟩
    | store => subst h2; exact .inl ⟨rfl, rfl⟩
    | reopen => exact absurd rfl ho
  · obtain ⟨n, hn⟩ := Option.isSome_iff_exists.mp h1
    cases op with
    | write => refine .inr ?_; simp only [CgCnt.step4, hn, h2, if_true]; exact ⟨rfl, trivial, h3, h4⟩
    | store => refine .inr ?_; simp only [CgCnt.step4, hn]; exact ⟨rfl, h2, by omega, by omega⟩
    | reopen => exact absurd rfl ho

theorem CgCnt.Own.run {c : CgCnt} (h : c.Own) (ops : List CgOp) (ho : .reopen ∉ ops) : (c.run4 ops).Own := by
  induction ops generalizing c with
  | nil => exact h
  | cons op ops ih =>
    simp only [List.mem_cons, not_or] at ho
    exact ih (h.step (fun e => ho.1 e.symm)) ho.2

/-- MDF 4, one session: the counter in the file is the number of samples.  Missing: samples stored after the file was opened again. -/
theorem C103_one_session_partial (ops : List CgOp) (ho : .reopen ∉ ops) :
    (CgCnt.init.run4 (ops ++ [.write])).file = some (CgCnt.init.run4 (ops ++ [.write])).stored := by
  have h : (CgCnt.init.run4 ops).Own := CgCnt.Own.run (.inl ⟨rfl, rfl⟩) ops ho
  rw [run4_append]
  generalize CgCnt.init.run4 ops = c at h
  rcases h with ⟨_, h2⟩ | ⟨h1, h2, h3, h4⟩
  · subst h2; rfl
  · obtain ⟨n, hn⟩ := Option.isSome_iff_exists.mp h1
    simp only [CgCnt.run4, List.foldl_cons, List.foldl_nil, CgCnt.step4, hn, h2, if_true, h3]

example : (CgCnt.init.run4 [.write, .store, .store, .write, .store, .write]).file = some 3 := by decide

/-- Once the file has been opened again, the counter in the file never changes, whatever is stored. -/
theorem file_fixed (ops : List CgOp) : ∀ (c : CgCnt) (n : Nat), c.file = some n → c.known = false → (c.run4 ops).file = some n := by
  induction ops with
  | nil => intro c n h _; exact h
  | cons op ops ih =>
    intro c n h hk
    refine ih (c.step4 op) n ?_ ?_
    · cases op <;> simp only [CgCnt.step4, h, hk, Bool.false_eq_true, if_false]
    · cases op <;> simp only [CgCnt.step4, h, hk, Bool.false_eq_true, if_false]

/-- MDF 4, all sessions: samples stored after the file was opened again change the counter of no group that was in the file. -/
theorem C103_reopened_fixed (ops more : List CgOp) (n : Nat) (h : (CgCnt.init.run4 ops).file = some n) :
    (CgCnt.init.run4 (ops ++ .reopen :: more)).file = some n := by
  rw [run4_append]
  refine file_fixed more _ n ?_ ?_
  · simp only [CgCnt.step4, h]
  · simp only [CgCnt.step4, h]

example : (CgCnt.init.run4 [.write, .store, .write]).file = some 1 := by decide

/-- The counter in the file while the object lives that wrote the block first. -/
theorem file_session (ops : List CgOp) (c : CgCnt) (n0 : Nat) (hc : c.file = some n0) (hk : c.known = true) (hs : c.nof = c.sample) (ho : .reopen ∉ ops) :
    (c.run4 ops).file = some (if .write ∈ ops then c.sample + countedStores ops else n0) ∧ (c.run4 ops).known = true ∧
      (c.run4 ops).nof = (c.run4 ops).sample ∧ (c.run4 ops).sample = c.sample + ops.count .store := by
  induction ops using List.reverseRecOn with
  | nil => exact ⟨hc, hk, hs, rfl⟩
  | append_singleton ops op ih =>
    simp only [List.mem_append, List.mem_singleton, not_or] at ho
    obtain ⟨h1, h2, h3, h4⟩ := ih ho.1
    rw [run4_append]
    generalize c.run4 ops = d at h1 h2 h3 h4
    show (d.step4 op).file = _ ∧ (d.step4 op).known = true ∧ (d.step4 op).nof = (d.step4 op).sample ∧ (d.step4 op).sample = _
    cases op with
    | reopen => exact absurd rfl ho.2
    | write =>
      simp only [CgCnt.step4, h1, h2, if_true]
      refine ⟨?_, trivial, h3, ?_⟩
      · rw [if_pos (by simp), h3, h4]
        congr 2
        simp [countedStores]
      · rw [h4]; simp
    | store =>
      simp only [CgCnt.step4, h1]
      refine ⟨?_, h2, trivial, ?_⟩
      · simp [countedStores]
      · rw [h4]; simp; omega

/-- MDF 4, exactly: the counter in the file is the number of samples stored in the session that made the group, up to the last
time it was written in it. -/
theorem C103_counter (ops : List CgOp) (h : .write ∈ ops) :
    (CgCnt.init.run4 ops).file = some (countedStores (firstSession ops)) := by
  have hpre : ∀ l : List CgOp, .write ∉ l → CgCnt.init.run4 l = CgCnt.init := by
    intro l
    induction l with
    | nil => intro _; rfl
    | cons op l ih =>
      intro hl
      simp only [List.mem_cons, not_or] at hl
      have : CgCnt.init.step4 op = CgCnt.init := by cases op <;> first | rfl | exact absurd rfl hl.1
      show (CgCnt.init.step4 op).run4 l = _
      rw [this]
      exact ih hl.2
  have hsplit : ops = ops.takeWhile (· ≠ .write) ++ ops.dropWhile (· ≠ .write) := (List.takeWhile_append_dropWhile ..).symm
  have htake : .write ∉ ops.takeWhile (· ≠ .write) := by
    intro hm
    have := List.all_eq_true.mp (List.all_takeWhile (p := fun x : CgOp => decide (x ≠ .write)) (l := ops)) _ hm
    simp at this
  unfold firstSession
  have e : CgCnt.init.run4 ops = CgCnt.init.run4 (ops.dropWhile (· ≠ .write)) := by
    have := run4_append CgCnt.init (ops.takeWhile (· ≠ .write)) (ops.dropWhile (· ≠ .write))
    rw [← hsplit, hpre _ htake] at this
    exact this
  rw [e]
  have hd : ∃ tl, ops.dropWhile (· ≠ .write) = .write :: tl := by
    have hne : ops.dropWhile (fun x => decide (x ≠ CgOp.write)) ≠ [] := by
      intro hn
      rw [hn, List.append_nil] at hsplit
      rw [hsplit] at h
      exact htake h
    have := List.head_dropWhile_not (p := fun x : CgOp => decide (x ≠ CgOp.write)) (l := ops) hne
    cases hq : ops.dropWhile (fun x => decide (x ≠ CgOp.write)) with
    | nil => exact absurd hq hne
    | cons a tl =>
      refine ⟨tl, ?_⟩
      simp only [hq, List.head_cons] at this
      have : a = CgOp.write := by simpa using this
      rw [this]
  obtain ⟨tl, hd⟩ := hd
  rw [hd]
  have ht : (CgOp.write :: tl).takeWhile (· ≠ .reopen) = .write :: tl.takeWhile (· ≠ .reopen) := by simp
  rw [ht]
  have hno : .reopen ∉ tl.takeWhile (fun x => decide (x ≠ CgOp.reopen)) := by
    intro hm
    have := List.all_eq_true.mp (List.all_takeWhile (p := fun x : CgOp => decide (x ≠ .reopen)) (l := tl)) _ hm
    simp at this
  have hsp : tl = tl.takeWhile (· ≠ .reopen) ++ tl.dropWhile (· ≠ .reopen) := (List.takeWhile_append_dropWhile ..).symm
  have hs := file_session (tl.takeWhile (· ≠ .reopen)) (CgCnt.init.step4 .write) 0 rfl rfl rfl hno
  have hcount : ∀ l : List CgOp, countedStores (.write :: l) = if .write ∈ l then countedStores l else 0 := by
    intro l
    unfold countedStores
    rw [List.reverse_cons, List.dropWhile_append]
    by_cases hw : .write ∈ l
    · rw [if_pos hw]
      have hne : l.reverse.dropWhile (fun x => decide (x ≠ CgOp.write)) ≠ [] := by
        intro hn
        have := List.dropWhile_eq_nil_iff.mp hn _ (List.mem_reverse.mpr hw)
        simp at this
      rw [if_neg (by simpa [List.isEmpty_iff] using hne), List.count_append]
      rfl
    · rw [if_neg hw]
      have he : l.reverse.dropWhile (fun x => decide (x ≠ CgOp.write)) = [] := by
        rw [List.dropWhile_eq_nil_iff]
        intro x hx
        simp only [ne_eq, decide_not, Bool.not_eq_true', decide_eq_false_iff_not]
        intro e
        exact hw (e ▸ List.mem_reverse.mp hx)
      rw [he]
      rfl
  have hfirst : (CgCnt.init.run4 (.write :: tl.takeWhile (· ≠ .reopen))).file =
      some (countedStores (.write :: tl.takeWhile (· ≠ .reopen))) := by
    show ((CgCnt.init.step4 .write).run4 _).file = _
    rw [hs.1, hcount]
    simp [CgCnt.step4, CgCnt.init]
  cases hdd : tl.dropWhile (fun x => decide (x ≠ CgOp.reopen)) with
  | nil =>
    rw [hdd, List.append_nil] at hsp
    rw [← hsp] at hfirst ⊢
    exact hfirst
  | cons a more =>
    have ha : a = .reopen := by
      have := List.head_dropWhile_not (p := fun x : CgOp => decide (x ≠ CgOp.reopen)) (l := tl) (by rw [hdd]; simp)
      simp only [hdd, List.head_cons] at this
      simpa using this
    rw [hdd, ha] at hsp
    have := C103_reopened_fixed (.write :: tl.takeWhile (· ≠ .reopen)) more _ hfirst
    rw [List.cons_append, ← hsp] at this
    exact this

example : (CgCnt.init.run4 [.store, .write, .store, .store, .write, .store, .reopen, .write, .store, .write]).file = some 2 := by decide

/-- Readers give none of the samples of groups whose counter is 0, whatever data are there. -/
theorem C103_not_delivered (cfg : RCfg) (hz : ∀ g ∈ cfg.groups, g.nof = 0) (fuel : Nat) (blocks : List Blk) (file : Bytes) (evs : List Event)
    (h : cfg.read fuel blocks file = .done evs) : evs = [] := by
  have hfind : ∀ id g, cfg.find id = some g → g.nof = 0 := by
    intro id g hg
    unfold RCfg.find at hg
    split at hg
    · exact hz g (List.mem_of_mem_head? hg)
    · exact hz g (List.mem_of_find?_eq_some hg)
  have hbody : ∀ id g n rc st r, g.nof = 0 → st.events = [] → cfg.body id g n rc st = .ok r → r.2.events = [] := by
    intro id g n rc st r hg he hb
    unfold RCfg.body at hb
    split at hb
    · cases ha : rc.getArray n with
      | ub => rw [ha] at hb; cases hb
      | throw => rw [ha] at hb; cases hb
      | ok a =>
        rw [ha] at hb
        simp only [Out.bind, hg, Nat.not_lt_zero, if_false, Out.ok.injEq] at hb
        rw [← hb]; exact he
    · cases ha : rc.skipBytes n with
      | ub => rw [ha] at hb; cases hb
      | throw => rw [ha] at hb; cases hb
      | ok a =>
        rw [ha] at hb
        simp only [Out.bind, Out.ok.injEq] at hb
        rw [← hb]; exact he
  have hone : ∀ st r, st.events = [] → cfg.parseOne st = .ok r → r.2.events = [] := by
    intro st r he hp
    unfold RCfg.parseOne at hp
    cases hr : cfg.parseRecordId st.rc with
    | ub => rw [hr] at hp; cases hp
    | throw => rw [hr] at hp; cases hp
    | ok a =>
      rw [hr] at hp
      simp only [Out.bind] at hp
      split at hp
      · cases hp
      · rename_i g hg
        split at hp
        · cases hl : a.2.getArray 4 with
          | ub => rw [hl] at hp; cases hp
          | throw => rw [hl] at hp; cases hp
          | ok l => rw [hl] at hp; exact hbody _ g _ _ _ _ (hfind _ g hg) he hp
        · exact hbody _ g _ _ _ _ (hfind _ g hg) he hp
  have hloop : ∀ fuel st evs, st.events = [] → cfg.readLoop fuel st = .done evs → evs = [] := by
    intro fuel
    induction fuel with
    | zero => intro st evs _ h; cases h
    | succ fuel ih =>
      intro st evs he h
      unfold RCfg.readLoop at h
      split at h
      · simp only [Run.done.injEq] at h; rw [← h]; exact he
      · split at h
        · cases h
        · simp only [Run.done.injEq] at h; rw [← h]; exact he
        · rename_i c st' hp
          have := hone st (c, st') he hp
          split at h
          · exact ih st' evs this h
          · simp only [Run.done.injEq] at h; rw [← h]; exact this
  exact hloop fuel _ evs rfl h

example : ({ idSize := 0, groups := [⟨0, false, 4, 0⟩], subs := fun _ => true, cont := fun _ => true } : RCfg).read 9
    [⟨false, [1, 2, 3, 4], []⟩] [] = .done [] := by decide +kernel

/-- MDF 3: the full claim. -/
def C103_Statement3 : Prop := ∀ ops, (CgCnt.init.run3 (ops ++ [.write])).file = some (CgCnt.init.run3 (ops ++ [.write])).stored

/-- It is false: a group with a sample gets another one after the file was opened again, and the counter goes back to one. -/
theorem C103_mdf3_false : ¬ C103_Statement3 := by
  intro h
  exact absurd (h [.write, .store, .write, .reopen, .store]) (by decide)

/-- MDF 3: the counter is right (with 32 bits) if all samples are stored in one session, also in one after the file was opened again.
Missing: samples stored in several sessions. -/
theorem C103_mdf3_partial (before after : List CgOp) (hb : .store ∉ before) (ha : .reopen ∉ after) :
    (CgCnt.init.run3 (before ++ after ++ [.write])).file = some ((CgCnt.init.run3 (before ++ after ++ [.write])).stored % 2 ^ 32) := by
  have h1 : ∀ (ops : List CgOp) (c : CgCnt), .store ∉ ops → (c.nof = 0 ∧ c.sample = 0 ∧ c.stored = 0 ∧ (c.file = none ∨ c.file = some 0)) →
      ((c.run3 ops).nof = 0 ∧ (c.run3 ops).sample = 0 ∧ (c.run3 ops).stored = 0) := by
    intro ops
    induction ops with
    | nil => intro c _ h; exact ⟨h.1, h.2.1, h.2.2.1⟩
    | cons op ops ih =>
      intro c ho h
      simp only [List.mem_cons, not_or] at ho
      refine ih (c.step3 op) ho.2 ?_
      obtain ⟨h1, h2, h3, h4⟩ := h
      cases op with
      | store => exact absurd rfl ho.1
      | write => simp [CgCnt.step3, h1, h2, h3]
      | reopen =>
        rcases h4 with h4 | h4
        · simp [CgCnt.step3, h4, CgCnt.init]
        · simp [CgCnt.step3, h4, h3]
  have h2 : ∀ (ops : List CgOp) (c : CgCnt), .reopen ∉ ops → (c.nof = c.stored % 2 ^ 32 ∧ c.sample = c.stored) →
      ((c.run3 ops).nof = (c.run3 ops).stored % 2 ^ 32) := by
    intro ops
    induction ops with
    | nil => intro c _ h; exact h.1
    | cons op ops ih =>
      intro c ho h
      simp only [List.mem_cons, not_or] at ho
      refine ih (c.step3 op) ho.2 ?_
      cases op with
      | reopen => exact absurd rfl ho.1
      | write => exact h
      | store =>
        simp only [CgCnt.step3]
        cases c.file with
        | none => exact h
        | some n => simp only [h.2]; exact ⟨trivial, trivial⟩
  have hs := h1 before CgCnt.init hb ⟨rfl, rfl, rfl, .inl rfl⟩
  rw [run3_append, run3_append]
  have := h2 after (CgCnt.init.run3 before) ha ⟨by rw [hs.1, hs.2.2], by rw [hs.2.1, hs.2.2]⟩
  exact congrArg some this

example : (CgCnt.init.run3 ([.write, .reopen] ++ [.store, .write, .store] ++ [.write])).file = some 2 := by decide

/-! ### C104 -/

/-- The full claim: in all executions with one start of the measurement, before all samples, the time in the file is, when the
header has been written at the end, the start time of that measurement. -/
def C104_Statement : Prop :=
  ∀ (t0 t : Nat) (acts : List StartAct) (s : StartSt), (StartSt.init t0).run (.begin t :: acts ++ [.write]) = some s →
    (∀ a ∈ acts, ∀ u, a ≠ .begin u) → s.file = t

/-- It is false: the thread stores the samples that it had been holding back after the state is set and before the start time is set. -/
theorem C104_false : ¬ C104_Statement := by
  intro h
  have := h 1 5 [.store 3, .finish] { time := 1, file := 1, samples := 3, pending := none } rfl (by
    intro a ha u e
    simp only [List.mem_cons, List.not_mem_nil, or_false] at ha
    rcases ha with rfl | rfl <;> cases e)
  exact absurd this (by decide)

theorem start_run_append (a b : List StartAct) : ∀ s : StartSt, s.run (a ++ b) = (s.run a).bind (fun s => s.run b) := by
  induction a with
  | nil => intro s; rfl
  | cons x a ih =>
    intro s
    show (s.step x).bind (fun s => s.run (a ++ b)) = ((s.step x).bind (fun s => s.run a)).bind _
    cases s.step x with
    | none => rfl
    | some s' => exact ih s'

/-- Once samples are stored and no start is under way, nothing changes the time again. -/
theorem C104_kept (acts : List StartAct) : ∀ (s s' : StartSt), 0 < s.samples → s.run acts = some s' → s'.time = s.time := by
  induction acts with
  | nil => intro s s' _ h; cases h; rfl
  | cons a acts ih =>
    intro s s' hs h
    have h : (s.step a).bind (fun s => s.run acts) = some s' := h
    cases hq : s.step a with
    | none => rw [hq] at h; cases h
    | some s1 =>
      rw [hq] at h
      have h1 : s1.time = s.time ∧ 0 < s1.samples := by
        cases a with
        | begin t => simp only [StartSt.step] at hq; split at hq <;> cases hq; exact ⟨rfl, hs⟩
        | finish =>
          simp only [StartSt.step] at hq
          split at hq
          · cases hq
          · cases hq; exact ⟨if_neg (by omega), hs⟩
        | store n => cases hq; exact ⟨rfl, by show 0 < s.samples + n; omega⟩
        | write => simp only [StartSt.step] at hq; split at hq <;> cases hq; exact ⟨rfl, hs⟩
      rw [ih s1 s' h1.2 h, h1.1]

example : ((StartSt.init 1).run [.begin 5, .finish, .store 2, .begin 9, .finish, .write]).map (·.time) = some 5 := by decide

/-- With no samples stored inside a `StartMeasurement`, the time in the file is the one of the last start before the first sample, whatever
starts, samples and measurements follow; the calls always go through.  Missing: samples stored inside a `StartMeasurement`. -/
theorem C104_first_start_partial (t0 : Nat) (calls : List StartCall) :
    ∃ s, (StartSt.init t0).run (calls.flatMap StartCall.acts ++ [.write]) = some s ∧ s.file = lastStartBeforeSamples t0 calls := by
  have key : ∀ (calls : List StartCall) (s : StartSt), s.pending = none →
      ∃ s', s.run (calls.flatMap StartCall.acts) = some s' ∧ s'.pending = none ∧
        s'.time = if s.samples = 0 then lastStartBeforeSamples s.time calls else s.time := by
    intro calls
    induction calls with
    | nil => intro s hs; exact ⟨s, rfl, hs, by simp [lastStartBeforeSamples]⟩
    | cons c calls ih =>
      intro s hs
      rw [List.flatMap_cons]
      cases c with
      | start t =>
        obtain ⟨s', h1, h2, h3⟩ := ih { s with pending := none, time := if s.samples = 0 then t else s.time } rfl
        refine ⟨s', ?_, h2, ?_⟩
        · rw [start_run_append]
          simp only [StartCall.acts, StartSt.run, StartSt.step, hs, Option.bind_some]
          exact h1
        · rw [h3]
          by_cases h0 : s.samples = 0 <;> simp [h0, lastStartBeforeSamples]
      | store n =>
        obtain ⟨s', h1, h2, h3⟩ := ih { s with samples := s.samples + n } hs
        refine ⟨s', ?_, h2, ?_⟩
        · rw [start_run_append]
          simp only [StartCall.acts, StartSt.run, StartSt.step, Option.bind_some]
          exact h1
        · rw [h3]
          cases n <;> by_cases h0 : s.samples = 0 <;> simp [h0, lastStartBeforeSamples]
      | write =>
        obtain ⟨s', h1, h2, h3⟩ := ih { s with file := s.time } hs
        rw [hs] at h1
        refine ⟨s', ?_, h2, ?_⟩
        · rw [start_run_append]
          simp only [StartCall.acts, StartSt.run, StartSt.step, hs, Option.bind_some]
          exact h1
        · rw [h3]; simp [lastStartBeforeSamples]
  obtain ⟨s', h1, h2, h3⟩ := key calls (StartSt.init t0) rfl
  refine ⟨{ s' with file := s'.time }, ?_, ?_⟩
  · rw [start_run_append, h1]
    simp only [StartSt.run, StartSt.step, h2, Option.bind_some]
  · exact h3

example : lastStartBeforeSamples 1 [.start 3, .write, .start 5, .store 0, .store 2, .start 9, .write] = 5 := by decide

/-- The start time reaches the file only with a later writing of the header: without one the file keeps the time it was made with. -/
theorem C104_not_in_file_before (t0 : Nat) (acts : List StartAct) (hw : .write ∉ acts) (s : StartSt)
    (h : (StartSt.init t0).run acts = some s) : s.file = t0 := by
  have key : ∀ (acts : List StartAct) (s s' : StartSt), .write ∉ acts → s.run acts = some s' → s'.file = s.file := by
    intro acts
    induction acts with
    | nil => intro s s' _ h; cases h; rfl
    | cons a acts ih =>
      intro s s' hw h
      simp only [List.mem_cons, not_or] at hw
      have h : (s.step a).bind (fun s => s.run acts) = some s' := h
      cases hq : s.step a with
      | none => rw [hq] at h; cases h
      | some s1 =>
        rw [hq] at h
        rw [ih s1 s' hw.2 h]
        cases a with
        | begin t => simp only [StartSt.step] at hq; split at hq <;> cases hq; rfl
        | finish => simp only [StartSt.step] at hq; split at hq <;> cases hq; rfl
        | store n => cases hq; rfl
        | write => exact absurd rfl hw.1
  exact key acts _ s hw h

example : (StartSt.init 1).run [.begin 5, .finish, .store 2] = some { time := 5, file := 1, samples := 2, pending := none } := by decide

end Mdf
