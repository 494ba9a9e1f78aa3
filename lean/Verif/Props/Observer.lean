import Verif.Proof.Observer
import Verif.Props.Read

/-! Properties C30 (observers) and C40 (channel observers). -/

namespace Mdf

/-! ### C30 -/

/-- C30.  After any history of attaching and detaching, the list holds the attached observers that have not been detached since,
in the order in which they were attached. -/
theorem C30_history (ops : List OOp) : obsRun ops = attached ops := by
  unfold obsRun
  rw [obsRun_attached]
  simp

example : obsRun [.attach 1, .attach 2, .attach 1, .detach 1, .attach 3, .attach 1] = [2, 3, 1] ∧
    attached [.attach 1, .attach 2, .detachAll, .attach 3] = [3] := by decide

/-- The property as wanted: whenever some observer subscribes on a record id of the data group, the observers subscribing on it are
called in the order of the list until one asks to stop, and no other observer is called. -/
def C30_Statement : Prop :=
  ∀ (needs : Nat → List Nat) (groups obs : List Nat) (ans : List Nat → Bool) (id : Nat), id ∈ groups → subscribers needs obs id ≠ [] →
    CalledUntilStop ans (subscribers needs obs id) (notifyObs (fastList needs groups obs) obs ans id).1
      (notifyObs (fastList needs groups obs) obs ans id).2

/-- C30, proved for the case that the observers subscribe on at least two of the record ids, or that all of them need this one.
Missing: only one record id is subscribed and there is an observer that needs none of the ids, see `C30_one_id_false`. -/
theorem C30_notify_partial (needs : Nat → List Nat) (groups obs : List Nat) (ans : List Nat → Bool) (id : Nat) (hg : id ∈ groups)
    (hs : subscribers needs obs id ≠ []) (h : (fastList needs groups obs).length ≠ 1 ∨ ∀ o ∈ obs, id ∈ needs o) :
    CalledUntilStop ans (subscribers needs obs id) (notifyObs (fastList needs groups obs) obs ans id).1
      (notifyObs (fastList needs groups obs) obs ans id).2 := by
  rw [notify_eq needs groups obs ans id hg hs h]
  have := callLoop_spec ans (subscribers needs obs id) [] (by intro n h1 h2; simp at h2; omega)
  simpa using this

/-- Observers 7 and 8 need record 1, 9 needs record 2. -/
def exNeeds (o : Nat) : List Nat := if o = 9 then [2] else [1]

example : (1 ∈ [1, 2]) ∧ subscribers exNeeds [7, 9, 8, 7] 1 = [7, 8, 7] ∧ (fastList exNeeds [1, 2] [7, 9, 8, 7]).length ≠ 1 ∧
    notifyObs (fastList exNeeds [1, 2] [7, 9, 8, 7]) [7, 9, 8, 7] (fun _ => true) 1 = ([7, 8, 7], true) ∧
    notifyObs (fastList exNeeds [1, 2] [7, 9, 8, 7]) [7, 9, 8, 7] (fun l => l.length < 2) 1 = ([7, 8], false) := by decide

/-- C30, also with one subscribed record id: a subscribing observer is called if nobody before it in the list asks to stop. -/
theorem C30_subscriber_called (needs : Nat → List Nat) (groups obs : List Nat) (id o : Nat) (hg : id ∈ groups) (ho : o ∈ obs)
    (hn : id ∈ needs o) (ans : List Nat → Bool) (hans : ∀ l, ans l = true) :
    o ∈ (notifyObs (fastList needs groups obs) obs ans id).1 ∧ (notifyObs (fastList needs groups obs) obs ans id).2 = true := by
  have hm : o ∈ subscribers needs obs id := List.mem_filter.2 ⟨ho, by simpa using hn⟩
  have hs : subscribers needs obs id ≠ [] := List.ne_nil_of_mem hm
  have hans' : ans = fun _ => true := funext hans
  subst hans'
  have hf := fastList_find needs obs groups id
  rw [if_neg (fun hh => hh.elim hs (fun hh => hh hg))] at hf
  have hne : fastList needs groups obs ≠ [] := by intro he; rw [he] at hf; cases hf
  unfold notifyObs
  rw [if_neg hne]
  by_cases h1 : (fastList needs groups obs).length = 1
  · rw [if_pos h1, callLoop_true]; exact ⟨by simpa using ho, rfl⟩
  · rw [if_neg h1, hf]
    simp only [callLoop_true]
    exact ⟨by simpa using hm, trivial⟩

example : 7 ∈ (notifyObs (fastList exNeeds [1] [7, 9]) [7, 9] (fun _ => true) 1).1 := by decide

/-- C30 is false: with one subscribed record id all observers are called, also those that do not need it. -/
theorem C30_one_id_false : ¬ C30_Statement := by
  intro h
  have := (h exNeeds [1] [7, 9] (fun _ => true) 1 (by decide) (by decide)).pre
  obtain ⟨rest, hr⟩ := this
  have h2 : subscribers exNeeds [7, 9] 1 = [7] := by decide
  have h3 : (notifyObs (fastList exNeeds [1] [7, 9]) [7, 9] (fun _ => true) 1).1 = [7, 9] := by decide
  rw [h2, h3] at hr
  simp at hr

/-- C30: a record nobody subscribes on calls nobody and does not stop the reading, if the observers need more than one record id. -/
theorem C30_nobody (needs : Nat → List Nat) (groups obs : List Nat) (id : Nat) (hs : subscribers needs obs id = [])
    (h : 2 ≤ (fastList needs groups obs).length) (ans : List Nat → Bool) :
    notifyObs (fastList needs groups obs) obs ans id = ([], true) := by
  have hf := fastList_find needs obs groups id
  rw [if_pos (Or.inl hs)] at hf
  unfold notifyObs
  rw [if_neg (by intro he; rw [he] at h; simp at h), if_neg (by omega), hf]

example : subscribers exNeeds [7, 9] 3 = [] ∧ 2 ≤ (fastList exNeeds [1, 2, 3] [7, 9]).length := by decide

/-- A channel observer is called twice for each of its records, as it is attached twice. -/
theorem C30_channel_observer_twice (needs : Nat → List Nat) (groups : List Nat) (ops : List OOp) (o id : Nat) (hg : id ∈ groups)
    (hn : id ∈ needs o) (hfresh : o ∉ attached ops) :
    (notifyObs (fastList needs groups (obsRun (ops ++ newChannelObserver o))) (obsRun (ops ++ newChannelObserver o))
      (fun _ => true) id).1.count o = 2 := by
  have hobs : obsRun (ops ++ newChannelObserver o) = attached ops ++ [o, o] := by
    rw [← C30_history]
    simp [obsRun, newChannelObserver, List.foldl_append, obsStep]
  rw [hobs]
  have hc0 : (attached ops).count o = 0 := List.count_eq_zero.2 hfresh
  have hm : o ∈ subscribers needs (attached ops ++ [o, o]) id := List.mem_filter.2 ⟨by simp, by simpa using hn⟩
  have hs : subscribers needs (attached ops ++ [o, o]) id ≠ [] := List.ne_nil_of_mem hm
  have hf := fastList_find needs (attached ops ++ [o, o]) groups id
  rw [if_neg (fun hh => hh.elim hs (fun hh => hh hg))] at hf
  have hne : fastList needs groups (attached ops ++ [o, o]) ≠ [] := by intro he; rw [he] at hf; cases hf
  unfold notifyObs
  rw [if_neg hne]
  split
  · rw [callLoop_true]; simp [hc0]
  · rw [hf]
    simp only [callLoop_true, List.nil_append]
    unfold subscribers
    rw [List.count_filter (by simpa using hn)]
    simp [hc0]

example : (7 ∉ attached [.attach 9]) ∧ obsRun ([.attach 9] ++ newChannelObserver 7) = [9, 7, 7] := by decide

/-! ### C40 -/

section
variable {α : Type}

/-- C40, channels with a value in the record.  Whatever notifications an observer gets, in whatever order and number, the value it
holds for a sample and an array index is the one decoded from the last record of the channel's group with that sample number; without
such a record it is the default and not valid. -/
theorem C40_fixed (c : ObsCfg α) (hk : c.kind = .fixed) (hsize : c.nof * c.arraySize ≤ 2 ^ 64) (events : List Event)
    (hw : ∀ e ∈ events, (e.sample + 1) * c.arraySize ≤ 2 ^ 64) (i j : Nat) (hi : i < c.nof) (hj : j < c.arraySize) :
    c.get (c.onSamples events) i j =
      ((lastEvent events c.recordId i).map fun e => c.value e.data j).getD (false, c.default) := by
  rw [ObsCfg.get_cell _ i j hi hj hsize]
  have := ObsCfg.run_last (c := c) (fun x => (x.1, x.2.1)) (fun e => c.value e.data j) (fun e => decide (e.id = c.recordId)) events hw i j
    hi hj ?_ ?_
  · rw [this]
    unfold lastEvent
    simp only [Bool.decide_and]
  · intro x e he
    simp [ObsCfg.upd, hk, (of_decide_eq_true he).symm]
  · intro x e he
    have he : ¬ c.recordId = e.id := fun hh => he (by simp [hh])
    simp [ObsCfg.upd, hk, he]

/-- C40, virtual channels: the value is the one computed from the sample number. -/
theorem C40_virtual (c : ObsCfg α) (hk : c.kind = .virtual) (hsize : c.nof * c.arraySize ≤ 2 ^ 64) (events : List Event)
    (hw : ∀ e ∈ events, (e.sample + 1) * c.arraySize ≤ 2 ^ 64) (i j : Nat) (hi : i < c.nof) (hj : j < c.arraySize) :
    c.get (c.onSamples events) i j =
      ((lastEvent events c.recordId i).map fun _ => (true, c.virt i)).getD (false, c.default) := by
  rw [ObsCfg.get_cell _ i j hi hj hsize]
  have := ObsCfg.run_last (c := c) (fun x => (x.1, x.2.1)) (fun e => (true, c.virt e.sample)) (fun e => decide (e.id = c.recordId))
    events hw i j hi hj ?_ ?_
  · rw [this]
    unfold lastEvent
    simp only [Bool.decide_and]
    cases hl : (events.filter fun e => decide (e.id = c.recordId) && decide (e.sample = i)).getLast? with
    | none => rfl
    | some e =>
      have := (List.mem_filter.1 (List.mem_of_getLast? hl)).2
      simp only [Bool.and_eq_true, decide_eq_true_eq] at this
      simp [this.2]
  · intro x e he
    simp [ObsCfg.upd, hk, (of_decide_eq_true he).symm]
  · intro x e he
    have he : ¬ c.recordId = e.id := fun hh => he (by simp [hh])
    simp [ObsCfg.upd, hk, he]

/-- C40, channels of variable length with their own signal data: value and offset of the last record of the sample. -/
theorem C40_signal_data (c : ObsCfg α) (hk : c.kind = .vlsd) (hread : c.readVlsd = true) (hid : c.vlsdId = 0)
    (hsize : c.nof * c.arraySize ≤ 2 ^ 64) (events : List Event) (hw : ∀ e ∈ events, (e.sample + 1) * c.arraySize ≤ 2 ^ 64)
    (i j : Nat) (hi : i < c.nof) (hj : j < c.arraySize) :
    c.get (c.onSamples events) i j =
      ((lastEvent events c.recordId i).map fun e => c.value e.data j).getD (false, c.default) := by
  rw [ObsCfg.get_cell _ i j hi hj hsize]
  have := ObsCfg.run_last (c := c) (fun x => (x.1, x.2.1)) (fun e => c.value e.data j) (fun e => decide (e.id = c.recordId)) events hw i j
    hi hj ?_ ?_
  · rw [this]
    unfold lastEvent
    simp only [Bool.decide_and]
  · intro x e he
    simp [ObsCfg.upd, hk, (of_decide_eq_true he).symm, hread, hid]
  · intro x e he
    have he : ¬ c.recordId = e.id := fun hh => he (by simp [hh])
    simp [ObsCfg.upd, hk, he, hid]

/-- C40, channels of variable length with a group of their own: the value is the one of the last record of that group with the
sample number, the offset that of the last record of the channel's group, and the validity is that of the later of the two. -/
theorem C40_vlsd_group (c : ObsCfg α) (hk : c.kind = .vlsd) (hid : 0 < c.vlsdId) (hne : c.vlsdId ≠ c.recordId)
    (hsize : c.nof * c.arraySize ≤ 2 ^ 64) (events : List Event) (hw : ∀ e ∈ events, (e.sample + 1) * c.arraySize ≤ 2 ^ 64)
    (i j : Nat) (hi : i < c.nof) (hj : j < c.arraySize) :
    (c.get (c.onSamples events) i j).2 = ((lastEvent events c.vlsdId i).map fun e => (c.value e.data j).2).getD c.default ∧
    (c.onSamples events).offset.getD (c.index i j) 0 =
      ((lastEvent events c.recordId i).map fun e => (c.offset e.data j).2).getD 0 ∧
    (c.get (c.onSamples events) i j).1 =
      (((events.filter fun e => (e.id = c.recordId ∨ e.id = c.vlsdId) ∧ e.sample = i).getLast?).map fun e =>
        if e.id = c.recordId then (c.offset e.data j).1 else (c.value e.data j).1).getD false := by
  have hix : c.index i j = i * c.arraySize + j := by
    have hle : (i + 1) * c.arraySize ≤ c.nof * c.arraySize := Nat.mul_le_mul_right _ hi
    rw [Nat.succ_mul] at hle
    exact Nat.mod_eq_of_lt (by omega)
  rw [ObsCfg.get_cell _ i j hi hj hsize, hix]
  refine ⟨?_, ?_, ?_⟩
  · have := ObsCfg.run_last (c := c) (fun x => x.2.1) (fun e => (c.value e.data j).2) (fun e => decide (e.id = c.vlsdId)) events hw i j
      hi hj ?_ ?_
    · rw [this]; unfold lastEvent; simp only [Bool.decide_and]
    · intro x e he
      have he := of_decide_eq_true he
      have h1 : ¬ c.recordId = c.vlsdId := fun hh => hne hh.symm
      simp [ObsCfg.upd, hk, he, hid, h1]
    · intro x e he
      have he : ¬ e.id = c.vlsdId := fun hh => he (by simp [hh])
      have h0 : ¬ c.vlsdId = 0 := by omega
      simp only [ObsCfg.upd, hk, he, h0, and_false, if_false]
      split <;> rfl
  · have := ObsCfg.run_last (c := c) (fun x => x.2.2) (fun e => (c.offset e.data j).2) (fun e => decide (e.id = c.recordId)) events hw i j
      hi hj ?_ ?_
    · have h2 : (c.onSamples events).offset.getD (i * c.arraySize + j) 0 =
        ((c.onSamples events).cell c.default (i * c.arraySize + j)).2.2 := rfl
      rw [h2, this]; unfold lastEvent; simp only [Bool.decide_and]
    · intro x e he
      have he := (of_decide_eq_true he).symm
      simp only [ObsCfg.upd, hk, he, if_true]
      split <;> rfl
    · intro x e he
      have he : ¬ c.recordId = e.id := fun hh => he (by simp [hh])
      simp only [ObsCfg.upd, hk, he, if_false]
      split <;> rfl
  · have := ObsCfg.run_last (c := c) (fun x => x.1) (fun e => if e.id = c.recordId then (c.offset e.data j).1 else (c.value e.data j).1)
      (fun e => decide (e.id = c.recordId ∨ e.id = c.vlsdId)) events hw i j hi hj ?_ ?_
    · rw [this]; simp only [Bool.decide_and]
    · intro x e he
      have he := of_decide_eq_true he
      have h0 : ¬ c.vlsdId = 0 := by omega
      rcases he with he | he
      · simp [ObsCfg.upd, hk, he, h0]
      · have h1 : ¬ c.recordId = c.vlsdId := fun hh => hne hh.symm
        simp [ObsCfg.upd, hk, he, hid, h1, hne]
    · intro x e he
      have he1 : ¬ c.recordId = e.id := fun hh => he (by simp [hh])
      have he2 : ¬ e.id = c.vlsdId := fun hh => he (by simp [hh])
      simp [ObsCfg.upd, hk, he1, he2]

/-- C40: a request for a sample that the group does not have is answered with "not valid" (no wrap of the index). -/
theorem C40_range (c : ObsCfg α) (events : List Event) (i j : Nat) (hi : c.nof ≤ i) (hj : j < c.arraySize)
    (hw : (i + 1) * c.arraySize ≤ 2 ^ 64) : c.get (c.onSamples events) i j = (false, c.default) := by
  have hs : c.Sized (c.onSamples events) := by
    unfold ObsCfg.onSamples
    have : ∀ (l : List Event) (s : ObsSt α), c.Sized s → c.Sized (l.foldl c.onSample s) := by
      intro l
      induction l with
      | nil => intro s h; exact h
      | cons e l ih => intro s h; exact ih _ (ObsCfg.sized_onSample e h)
    exact this events _ (ObsCfg.sized_init c)
  have hix : c.index i j = i * c.arraySize + j := by
    rw [Nat.succ_mul] at hw
    exact Nat.mod_eq_of_lt (by omega)
  have hle : c.nof * c.arraySize ≤ i * c.arraySize := Nat.mul_le_mul_right _ hi
  unfold ObsCfg.get
  rw [hix]
  simp only [List.getD_eq_getElem?_getD]
  rw [List.getElem?_eq_none (by rw [hs.valid]; omega), List.getElem?_eq_none (by rw [hs.value]; omega)]
  rfl

/-- C40, end to end.  A data group is read with the observers `obs`; observer `o` is one of them and observes a channel of one of the
groups, with its values in the records or in its own signal data.  Afterwards its value for sample `i` and array index `j` is the one decoded from the `i`-th record of that group, however the
records of the groups are interleaved, however the data are split into blocks and whatever the other observers are; samples without
record are not valid. -/
theorem C40_reading (cfg : RCfg) (hok : cfg.Ok) (recs : List Rec) (hv : ∀ r ∈ recs, cfg.ValidRec r) (blocks : List Blk) (file : Bytes)
    (hb : Holds blocks (cfg.encode recs)) (needs : Nat → List Nat) (obs : List Nat)
    (hsubs : ∀ id, cfg.subs id = subscribing needs obs id)
    (hcont : ∀ l e, cfg.cont (l ++ [e]) = (notifyObs (fastList needs (cfg.groups.map (·.id)) obs) obs (fun _ => true) e.id).2)
    (c : ObsCfg α) (o : Nat) (ho : o ∈ obs) (hneed : c.recordId ∈ needs o) (hgroup : c.recordId ∈ cfg.groups.map (·.id))
    (hk : c.kind = .fixed ∨ (c.kind = .vlsd ∧ c.readVlsd = true ∧ c.vlsdId = 0)) (hnof : c.nof = cfg.nof c.recordId) (hsize : ∀ g ∈ cfg.groups, g.nof * c.arraySize ≤ 2 ^ 64) :
    ∃ n events, ∀ fuel, n ≤ fuel → cfg.read fuel blocks file = .done events ∧
      ∀ i j, i < c.nof → j < c.arraySize →
        c.get (c.onSamples (received needs (cfg.groups.map (·.id)) obs o events)) i j =
          ((groupRecs recs c.recordId)[i]?.map fun b => c.value b j).getD (false, c.default) := by
  have hsub1 : cfg.subs c.recordId = true := by
    rw [hsubs]; unfold subscribing; rw [List.any_eq_true]; exact ⟨o, ho, by simpa using hneed⟩
  have hnof_le : ∀ id, cfg.nof id * c.arraySize ≤ 2 ^ 64 := by
    intro id
    unfold RCfg.nof RCfg.group
    cases hf : cfg.groups.find? (·.id = id) with
    | none => simp
    | some g => exact hsize g (List.mem_of_find?_eq_some hf)
  have hin : ∀ id, cfg.subs id = true → 0 < cfg.nof id → id ∈ cfg.groups.map (·.id) := by
    intro id _ h
    unfold RCfg.nof RCfg.group at h
    cases hf : cfg.groups.find? (·.id = id) with
    | none => rw [hf] at h; simp at h
    | some g =>
      have := List.find?_some hf
      simp only [decide_eq_true_eq] at this
      exact List.mem_map.2 ⟨g, List.mem_of_find?_eq_some hf, this⟩
  refine ⟨(cfg.encode recs ++ []).length + recs.length + 1, cfg.deliver [] recs, fun fuel hf => ⟨?_, ?_⟩⟩
  · rw [read_spec hok recs hv [] (Or.inl rfl) blocks file (by rw [List.append_nil]; exact hb) fuel hf]
    congr 1
    apply cutAt_all
    intro e he seen
    rw [hcont]
    obtain ⟨h1, h2⟩ := deliver_mem cfg recs [] e he
    have hs := (subscribing_iff needs obs e.id).1 (by rw [← hsubs]; exact h1)
    obtain ⟨o', ho'⟩ := List.exists_mem_of_ne_nil _ hs
    have ho'' := List.mem_filter.1 ho'
    exact (C30_subscriber_called needs _ obs e.id o' (hin _ h1 (by omega)) ho''.1 (by simpa using ho''.2) _ (fun _ => rfl)).2
  · intro i j hi hj
    have hget : ∀ events : List Event, (∀ e ∈ events, (e.sample + 1) * c.arraySize ≤ 2 ^ 64) → c.get (c.onSamples events) i j =
        ((lastEvent events c.recordId i).map fun e => c.value e.data j).getD (false, c.default) := by
      intro events hw
      rcases hk with hk | ⟨hk, hr, hz⟩
      · exact C40_fixed c hk (by rw [hnof]; exact hnof_le _) events hw i j hi hj
      · exact C40_signal_data c hk hr hz (by rw [hnof]; exact hnof_le _) events hw i j hi hj
    rw [hget]
    · unfold lastEvent received
      simp only [Bool.decide_and]
      rw [getLast?_filter_replicate]
      · rw [deliver_sample cfg c.recordId hsub1 i (by omega) recs []]
        simp only [List.countP_nil, Nat.zero_le, if_true, Nat.sub_zero]
        cases (groupRecs recs c.recordId)[i]? <;> rfl
      · intro e he
        simp only [Bool.and_eq_true, decide_eq_true_eq] at he
        rw [he.1]
        exact List.count_pos_iff.2 (C30_subscriber_called needs _ obs c.recordId o hgroup ho hneed _ (fun _ => rfl)).1
    · intro e he
      unfold received at he
      rw [List.mem_flatMap] at he
      obtain ⟨e', he', hm⟩ := he
      have := (List.mem_replicate.1 hm).2
      subst this
      have h2 := (deliver_mem cfg recs [] e he').2
      exact Nat.le_trans (Nat.mul_le_mul_right _ h2) (hnof_le e.id)

end

/-- A channel of record 1 with two array elements: the two bytes of the record. -/
def exObsCfg : ObsCfg Nat :=
  { kind := .fixed, recordId := 1, vlsdId := 0, arraySize := 2, nof := 3, readVlsd := true, default := 0,
    value := fun b j => (true, ((b[j]?).getD 0).toNat), offset := fun _ _ => (false, 0), virt := fun i => i }

/-- The events arrive out of order and twice. -/
example : (List.range 3).map (fun i => (exObsCfg.get (exObsCfg.onSamples
      [⟨2, 1, [5, 6]⟩, ⟨0, 7, [9, 9]⟩, ⟨0, 1, [1, 2]⟩, ⟨2, 1, [5, 6]⟩, ⟨0, 1, [1, 2]⟩]) i 0,
    exObsCfg.get (exObsCfg.onSamples [⟨2, 1, [5, 6]⟩, ⟨0, 7, [9, 9]⟩, ⟨0, 1, [1, 2]⟩, ⟨2, 1, [5, 6]⟩, ⟨0, 1, [1, 2]⟩]) i 1)) =
    [((true, 1), (true, 2)), ((false, 0), (false, 0)), ((true, 5), (true, 6))] := by decide

/-- A channel of variable length of record 1 whose values are in group 4. -/
def exObsVlsd : ObsCfg Nat :=
  { exObsCfg with kind := .vlsd, vlsdId := 4, arraySize := 1, offset := fun b _ => (true, ((b[0]?).getD 0).toNat) }

example : exObsVlsd.get (exObsVlsd.onSamples [⟨0, 4, [65]⟩, ⟨0, 1, [0]⟩, ⟨1, 4, [66]⟩, ⟨1, 1, [5]⟩]) 1 0 = (true, 66) ∧
    (exObsVlsd.onSamples [⟨0, 4, [65]⟩, ⟨0, 1, [0]⟩, ⟨1, 4, [66]⟩, ⟨1, 1, [5]⟩]).offset = [0, 5, 0] := by decide

/-- The hypotheses of `C40_reading` can be met: the data group of C11, observers 7 (group 1, twice) and 9 (group 2). -/
def exObsRead : RCfg :=
  { exCfg with subs := subscribing exNeeds [7, 9, 7],
               cont := fun l => ((l.getLast?).map fun e => (notifyObs (fastList exNeeds (exCfg.groups.map (·.id)) [7, 9, 7]) [7, 9, 7]
                 (fun _ => true) e.id).2).getD true }

def exObsCh : ObsCfg Nat := { exObsCfg with nof := exCfg.nof 1 }

example : ∃ n events, ∀ fuel, n ≤ fuel → exObsRead.read fuel exBlocks [] = .done events ∧
      ∀ i j, i < exCfg.nof 1 → j < 2 →
        exObsCh.get (exObsCh.onSamples (received exNeeds (exObsRead.groups.map (·.id)) [7, 9, 7] 7 events)) i j =
          ((groupRecs exRecs 1)[i]?.map fun b => exObsCfg.value b j).getD (false, 0) :=
  C40_reading exObsRead ⟨exCfg_ok.distinct, exCfg_ok.width, exCfg_ok.fits, exCfg_ok.single, exCfg_ok.progress⟩ exRecs (by decide)
    exBlocks [] exHolds exNeeds [7, 9, 7] (fun _ => rfl) (fun l e => by simp [exObsRead])
    exObsCh 7 (by decide) (by decide) (by decide) (Or.inl rfl) rfl (by decide)

example : groupRecs exRecs 1 = [[0x11, 0x12], [0x13, 0x14]] := by decide

/-- The property as wanted for requests out of range: they are answered with "not valid". -/
def C40_RangeStatement : Prop :=
  ∀ (c : ObsCfg Nat) (events : List Event) (i j : Nat), i < 2 ^ 64 → j < 2 ^ 64 → c.nof ≤ i ∨ c.arraySize ≤ j →
    (c.get (c.onSamples events) i j).1 = false

/-- It is false: an array index out of range gets an element of the next sample. -/
theorem C40_array_index_false : ¬ C40_RangeStatement := by
  intro h
  have := h exObsCfg [⟨0, 1, [1, 2]⟩, ⟨1, 1, [3, 4]⟩] 0 2 (by decide) (by decide) (Or.inr (by decide))
  revert this
  decide +kernel

/-- It is false also for samples out of range: the index wraps around. -/
theorem C40_sample_wrap_false : ∃ (c : ObsCfg Nat) (events : List Event) (i : Nat), i < 2 ^ 64 ∧ c.nof ≤ i ∧
    (c.get (c.onSamples events) i 0).1 = true :=
  ⟨exObsCfg, [⟨0, 1, [1, 2]⟩], 2 ^ 63, by decide, by decide, by decide +kernel⟩

/-- Byte arrays: for a channel that is not an array, the getter gives the value of the sample. -/
theorem C40_byte_array_partial {α : Type} (c : ObsCfg α) (s : ObsSt α) (i : Nat) (hi : i < 2 ^ 64) (h1 : c.arraySize = 1) :
    c.getBytes s i = c.get s i 0 := by
  unfold ObsCfg.getBytes ObsCfg.get ObsCfg.index
  rw [h1, Nat.mul_one, Nat.add_zero, Nat.mod_eq_of_lt hi]

/-- Byte arrays, the property as wanted. -/
def C40_ByteArrayStatement : Prop :=
  ∀ (c : ObsCfg Nat) (events : List Event) (i : Nat), i < c.nof → 0 < c.arraySize → c.nof * c.arraySize ≤ 2 ^ 64 →
    c.getBytes (c.onSamples events) i = c.get (c.onSamples events) i 0

/-- It is false for arrays: the getter takes the sample number as index. -/
theorem C40_byte_array_false : ¬ C40_ByteArrayStatement := by
  intro h
  have := h exObsCfg [⟨0, 1, [1, 2]⟩, ⟨1, 1, [3, 4]⟩] 1 (by decide) (by decide) (by decide)
  revert this
  decide +kernel

end Mdf
