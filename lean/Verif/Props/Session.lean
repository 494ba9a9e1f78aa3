import Verif.Proof.SessionRun

/-!
# Property C79: the values set are the values read

Specification vocabulary: `Verif.Spec.Session`.
-/

namespace Mdf

theorem savedAs_other (g k i : Nat) (a : Act) (l2 : List AppCall) (l1 : List AppCall) : ∀ cur,
    savedAs g k i cur (l1 ++ .other a :: l2) = savedAs g k i cur (l1 ++ l2) := by
  induction l1 with
  | nil => intro cur; rfl
  | cons x l1 ih =>
    intro cur
    cases x with
    | set g' k' v valid i' => exact ih _
    | save g' time =>
      simp only [List.cons_append, savedAs]
      rw [ih]
    | other b => exact ih _

theorem savedAs_length (g k i k' i' : Nat) (l : List AppCall) : ∀ cur cur', (savedAs g k i cur l).length = (savedAs g k' i' cur' l).length := by
  induction l with
  | nil => intro _ _; rfl
  | cons x l ih =>
    intro cur cur'
    cases x with
    | set g' k' v valid i' => exact ih _ _
    | save g' time =>
      simp only [savedAs]
      split
      · simp only [List.length_cons]; rw [ih]
      · exact ih _ _
    | other b => exact ih _ _

theorem saveTimes_append (l1 l2 : List AppCall) : saveTimes (l1 ++ l2) = saveTimes l1 ++ saveTimes l2 := by
  induction l1 with
  | nil => rfl
  | cons x l1 ih => cases x <;> simp [saveTimes, ih]

theorem samplesOf_times {s : Ses} (calls : List AppCall) : ∀ {b b' : SesBuf}, bufAfter s calls b = some b' →
    (samplesOf s calls b).map Sample.time = saveTimes calls := by
  induction calls with
  | nil => intro b b' _; rfl
  | cons a calls ih =>
    intro b b' h
    cases a with
    | set g k v valid i =>
      rw [bufAfter] at h
      obtain ⟨m, hm, hr⟩ := Option.bind_eq_some_iff.1 h
      rw [samplesOf, hm]
      exact ih hr
    | save g time =>
      rw [samplesOf, List.map_cons, ih h]; rfl
    | other a => exact ih h

theorem samplesOf_count {s : Ses} (g k i : Nat) (calls : List AppCall) : ∀ {b b' : SesBuf} {cur : Option (SetVal × Bool)},
    bufAfter s calls b = some b' →
    ((samplesOf s calls b).filter fun x => decide (x.id = s.id g)).length = (savedAs g k i cur calls).length := by
  induction calls with
  | nil => intro b b' cur _; rfl
  | cons a calls ih =>
    intro b b' cur h
    cases a with
    | set g k v valid i =>
      rw [bufAfter] at h
      obtain ⟨m, hm, hr⟩ := Option.bind_eq_some_iff.1 h
      rw [samplesOf, hm]
      exact ih hr
    | save g' time =>
      rw [samplesOf, savedAs]
      by_cases hg : g' = g
      · rw [if_pos hg, List.filter_cons_of_pos (by simp [SesBuf.sample, hg]), List.length_cons, List.length_cons, ih h]
      · have hid : ¬ (b.sample s g' time).id = s.id g := by
          show ¬ s.id g' = s.id g
          unfold Ses.id
          omega
        rw [if_neg hg, List.filter_cons_of_neg (by simpa using hid)]
        exact ih h
    | other a => exact ih h

theorem ses_other {s : Ses} {q : WCfg} {a : Act} {cs : List AppCall} {st st' : SesBuf × W} (h : s.run q (.other a :: cs) st = some st') :
    ∃ w, st.2.step q a = some w ∧ s.run q cs (st.1, w) = some st' := by
  rw [Ses.run] at h
  obtain ⟨m, hm, hr⟩ := Option.bind_eq_some_iff.1 h
  cases a with
  | add x => simp [Ses.step] at hm
  | _ =>
    simp only [Ses.step] at hm
    obtain ⟨w, hw, rfl⟩ := Option.map_eq_some_iff.1 hm
    exact ⟨w, hw, hr⟩

theorem ses_other_run {s : Ses} {q : WCfg} {a : Act} (cs : List AppCall) {st : SesBuf × W} {w : W} (ha : ∀ x, a ≠ .add x)
    (h : st.2.step q a = some w) : s.run q (.other a :: cs) st = s.run q cs (st.1, w) := by
  rw [Ses.run]
  cases a with
  | add x => exact absurd rfl (ha x)
  | _ =>
    simp only [Ses.step]
    rw [h]
    rfl

/-- The data group can be read. -/
theorem Ses.Fits.reader {s : Ses} (hf : s.Fits) (hne : s.groups ≠ []) (st : SSt) (subs : Nat → Bool) (cont : List Event → Bool) :
    s.store.Distinct ∧ (s.store.reader st subs cont).Ok := by
  have hids : (s.store.groups.map (·.id)) = recIds s.groups.length := by
    show ((List.range s.groups.length).map fun g => (⟨s.id g, false, (s.layout g).recordSize, 0⟩ : RGroup)).map (·.id) = _
    rw [List.map_map]
    rfl
  obtain ⟨h1, h2, h3, h4⟩ := C10_record_ids_unique s.groups.length hf.count
  rw [dgAfter_eq] at h1 h2 h3 h4
  dsimp only at h1 h2 h3 h4
  have hd : s.store.Distinct := by
    unfold SCfg.Distinct
    rw [hids]; exact h2
  have hids' : ((s.store.reader st subs cont).groups.map (·.id)) = recIds s.groups.length := by
    rw [← hids]
    show (s.store.groups.map _).map _ = _
    rw [List.map_map]
    rfl
  refine ⟨hd, by rw [hids']; exact h2, ?_, ?_, ?_, ?_⟩
  · show recIdSize _ = 0 ∨ _
    unfold SCfg.reader Ses.store recIdSize
    repeat' split
    all_goals simp
  · intro h0 g hg
    have hm : g.id ∈ recIds s.groups.length := by rw [← hids']; exact List.mem_map_of_mem hg
    obtain ⟨e1, e2⟩ := h3 g.id hm h0
    have := leNat_lt (writeRecordId (recIdSize s.groups.length) g.id)
    rw [e1, e2] at this
    exact this
  · intro h0
    have := h4.1 h0
    have hlen : (s.store.reader st subs cont).groups.length = s.groups.length := by
      show (List.map _ (List.map _ (List.range _))).length = _
      simp
    have : 0 < s.groups.length := List.length_pos_iff.2 hne
    omega
  · intro _ g hg _
    obtain ⟨g0, hg0, rfl⟩ := List.mem_map.1 hg
    obtain ⟨n, hn, rfl⟩ := List.mem_map.1 hg0
    rw [List.mem_range] at hn
    show 0 < (s.layout n).recordSize
    unfold Ses.layout
    rw [List.getD_eq_getElem?_getD, List.getElem?_eq_getElem hn]
    exact (hf.layout _ (List.getElem_mem hn)).2.1

/-- C79.  Values are set on channels and samples are saved, in any order and mixed in any way with the steps of the writer's thread, from
`InitMeasurement` to `StopMeasurement`.  Then the file is read with observers.  The observer of channel `k` of group `g` shows for the
`j`-th sample of the group and element `i` the value that was last set when that sample was saved, with its validity; if none was set, zero.

Left out (see the negations below): the channel of the master time; variable length channels which are set as not valid, or which were not
set before the first sample; values the channel cannot hold. -/
theorem C79_values_set_are_read_partial {s : Ses} (hf : s.Fits) {z p tr : Bool} {pre t : Nat} {c1 c2 c3 : List AppCall} {x : SesBuf × W}
    (hm : Recording t pre c1 c2 c3)
    (hrun : s.run (s.store.queue z p tr pre)
      (c1 ++ .other (.start t) :: .other .recalculate :: (c2 ++ .other .requestStop :: c3)) (s.init, W.init) = some x)
    (hend : x.2.pc = .ended ∨ x.2.pc = .gone)
    (hrange : ∀ g k v valid i c, .set g k v valid i ∈ c1 ++ c2 ++ c3 → s.chan g k = some c → i < max 1 c.arraySize)
    {g k : Nat} {c : Chan} (hc : s.chan g k = some c) (hk : c.Numeric ∨ c.Sized ∨ c.Unsized)
    (hmaster : ∀ tk, s.master g ≠ some (k, tk))
    (hsuits : ∀ v valid i, .set g k v valid i ∈ c1 ++ c2 ++ c3 → v.Suits c ∧ (c.type = .variableLength → valid = true))
    (hfirst : c.type = .variableLength → none ∉ savedAs g k 0 none (c1 ++ c2)) (hsd : (x.1.sd g k).length < 2 ^ 64)
    (hnof : (saveTimes (c1 ++ c2)).length * c.arraySize ≤ 2 ^ 64)
    (file : List Blk) (rest : Bytes) (hb : Holds file (s.store.chunks x.2.blocks SSt.init).flatten)
    (needs : Nat → List Nat) (obs : List Nat) (o : Nat) (ho : o ∈ obs) (hneed : s.id g ∈ needs o) (cont : List Event → Bool)
    (hcont : ∀ l e, cont (l ++ [e]) =
      (notifyObs (fastList needs (s.store.groups.map (·.id)) obs) obs (fun _ => true) e.id).2) :
    let r := s.store.reader (s.store.store x.2.blocks.flatten SSt.init).2 (subscribing needs obs) cont
    let ob := s.observer g c (x.1.sd g k) (r.nof (s.id g))
    r.nof (s.id g) = (savedAs g k 0 none (c1 ++ c2)).length ∧
    ∃ n events, ∀ fuel, n ≤ fuel → r.read fuel file rest = .done events ∧
      ∀ j i, i < c.arraySize → ∀ v, (savedAs g k i none (c1 ++ c2))[j]? = some v →
        ob.get (ob.onSamples (received needs (s.store.groups.map (·.id)) obs o events)) j i = c.expected v := by
  intro r ob
  -- the three parts
  rw [ses_run_append] at hrun
  obtain ⟨x0, h0, hrun⟩ := Option.bind_eq_some_iff.1 hrun
  obtain ⟨wa, hwa, hrun⟩ := ses_other hrun
  obtain ⟨wb, hwb, hrun⟩ := ses_other hrun
  rw [ses_run_append] at hrun
  obtain ⟨x1, h1, h2⟩ := Option.bind_eq_some_iff.1 hrun
  obtain ⟨wc, hwc, h3⟩ := ses_other h2
  obtain ⟨b1, r0, m0, -⟩ := ses_acts c1 h0
  obtain ⟨b2, r1, m1, -⟩ := ses_acts c2 h1
  obtain ⟨a2, r2, m2, n2⟩ := ses_acts c3 h3
  have r1' : W.run (s.store.queue z p tr pre) (.start t :: .recalculate :: b2) x0.2 = some x1.2 := by
    rw [W.run, hwa, Option.bind_some, W.run, hwb]; exact r1
  have r2' : W.run (s.store.queue z p tr pre) (.requestStop :: a2) x1.2 = some x.2 := by
    rw [W.run, hwc]; exact r2
  have hq1 : x1.2.quit = false := by
    simp only [W.step] at hwc
    split at hwc
    · cases hwc
    · rename_i h; simpa using h
  have hadd : x.2.added = x1.2.added := by
    rw [n2 hm.noSave]
    exact step_added (by simp) hwc
  -- the samples
  have hst0 : Stops x0.2 := (stops_run b1 Stops.init r0).1
  have hq0 : x0.2.quit = false := (stops_run _ hst0 r1').2 hq1
  have hrun01 : s.run (s.store.queue z p tr pre) (c1 ++ .other (.start t) :: .other .recalculate :: c2) (s.init, W.init) = some x1 := by
    rw [ses_run_append, h0, Option.bind_some, ses_other_run _ (by simp) hwa, ses_other_run _ (by simp) hwb]
    exact h1
  obtain ⟨hcores, hgroups⟩ := ses_added _ hrun01 Stops.init hq1
  obtain ⟨hcores0, -⟩ := ses_added c1 h0 Stops.init hq0
  have hbuf0 := run_bufAfter c1 h0
  have hbuf1 := run_bufAfter _ hrun01
  have hbuf3 := run_bufAfter c3 h3
  generalize hcalls : c1 ++ .other (.start t) :: .other .recalculate :: c2 = calls at *
  have hmem : ∀ a ∈ calls, a ∈ c1 ++ c2 ∨ a = .other (.start t) ∨ a = .other .recalculate := by
    intro a ha
    rw [← hcalls] at ha
    simp only [List.mem_append, List.mem_cons] at ha ⊢
    rcases ha with h | h | h | h
    · exact Or.inl (Or.inl h)
    · exact Or.inr (Or.inl h)
    · exact Or.inr (Or.inr h)
    · exact Or.inl (Or.inr h)
  have hrange' : InRange s calls := by
    intro g k v valid i c h hc
    rcases hmem _ h with h | h | h
    · exact hrange g k v valid i c (List.mem_append_left _ h) hc
    · cases h
    · cases h
  have hrange3 : InRange s c3 := fun g k v valid i c h hc => hrange g k v valid i c (List.mem_append_right _ h) hc
  have hrange1 : InRange s c1 := fun g k v valid i c h hc =>
    hrange g k v valid i c (List.mem_append_left _ (List.mem_append_left _ h)) hc
  have hok : CallsOk c g k calls := by
    intro v valid i h
    rcases hmem _ h with h | h | h
    · exact hsuits v valid i (List.mem_append_left _ h)
    · cases h
    · cases h
  have hsaved : ∀ i cur, savedAs g k i cur calls = savedAs g k i cur (c1 ++ c2) := by
    intro i cur
    rw [← hcalls, savedAs_other, savedAs_other]
  have htimes : saveTimes calls = saveTimes (c1 ++ c2) := by
    rw [← hcalls, saveTimes_append, saveTimes_append]; rfl
  have hsamples := samplesOf_sized hf calls s.init_sized hrange' hbuf1
  have hsz1 := (bufAfter_sized hf calls s.init_sized hrange' hbuf1).1
  have hsd1 : x1.1.sd g k <+: x.1.sd g k := (bufAfter_sized hf c3 hsz1 hrange3 hbuf3).2 g k
  have hnil : s.groups ≠ [] := by
    obtain ⟨cs, h, -⟩ := Ses.layout_of hc
    exact List.ne_nil_of_mem h
  obtain ⟨hd, hrok⟩ := hf.reader hnil (s.store.store x.2.blocks.flatten SSt.init).2 (subscribing needs obs) cont
  generalize hS : samplesOf s calls s.init = S at *
  have hcores : x.2.added.map Sample.core = S.map Sample.core := by
    rw [hadd, hcores]; rfl
  have hfrom : ∀ smp ∈ x.2.added, ∃ y ∈ S, y.core = smp.core := by
    intro smp h
    have : smp.core ∈ S.map Sample.core := by rw [← hcores]; exact List.mem_map_of_mem h
    exact List.mem_map.1 this
  have hcore_time : ∀ {a b : Sample}, a.core = b.core → a.time = b.time ∧ a.id = b.id ∧ a.data = b.data ∧ a.vlsd = b.vlsd := by
    intro a b h
    simp only [Sample.core, Sample.mk.injEq] at h
    exact ⟨h.1, h.2.1, h.2.2.1, h.2.2.2.1⟩
  have hmaptime : x.2.added.map Sample.time = saveTimes (c1 ++ c2) := by
    have h1 : ∀ l : List Sample, l.map Sample.time = (l.map Sample.core).map Sample.time := by
      intro l; rw [List.map_map]; rfl
    rw [h1, hcores, ← h1, ← hS, samplesOf_times calls hbuf1, htimes]
  have hmaptime0 : x0.2.added.map Sample.time = saveTimes c1 := by
    have h1 : ∀ l : List Sample, l.map Sample.time = (l.map Sample.core).map Sample.time := by
      intro l; rw [List.map_map]; rfl
    rw [h1, hcores0]
    show (List.map Sample.core [] ++ _).map _ = _
    rw [List.map_nil, List.nil_append, ← h1, samplesOf_times c1 hbuf0]
  have htimed : Timed x.2.added := by
    refine ⟨?_, fun smp h => (hm.times smp.time (by rw [← hmaptime]; exact List.mem_map_of_mem h)).1⟩
    have := hm.order
    rw [← hmaptime, List.pairwise_map] at this
    exact this
  have hsmp : ∀ smp ∈ x.2.added, ∃ g', g' < s.groups.length ∧ smp.id = s.id g' ∧ smp.vlsd = none ∧
      smp.data.length = (s.layout g').recordSize := by
    intro smp h
    obtain ⟨y, hy, he⟩ := hfrom smp h
    obtain ⟨g', time, h1, h2, h3, h4, h5⟩ := hsamples y hy
    obtain ⟨e1, e2, e3, e4⟩ := hcore_time he
    exact ⟨g', hgroups g' time h1, by rw [← e2]; exact h3, by rw [← e4]; exact h4, by rw [← e3]; exact h5⟩
  have hsok : ∀ smp ∈ x.2.added, smp.vlsd = none ∧ s.store.SampleOk { smp with stamp := some t } := by
    intro smp h
    obtain ⟨g', h1, h2, h3, h4⟩ := hsmp smp h
    refine ⟨h3, ⟨⟨⟨s.id g', false, (s.layout g').recordSize, 0⟩, ?_, h2.symm, rfl, ?_⟩, ?_⟩⟩
    · exact List.mem_map.2 ⟨g', List.mem_range.2 h1, rfl⟩
    · exact (render_length hf { smp with stamp := some t } h2 h4).trans h4
    · intro v hv
      have hv : smp.vlsd = some v := hv
      rw [h3] at hv; cases hv
  have hknown : ∀ smp ∈ x.2.added, (s.store.find smp.id).isSome := by
    intro smp hmem
    obtain ⟨g', hg', hid, -⟩ := (hsok smp hmem).2.group
    have hid : g'.id = smp.id := hid
    rw [← hid, SCfg.find_of_mem hd hg']
    rfl
  have hstored : ∀ smp ∈ x.2.added, ∀ st, 0 < (s.store.bytes (s.store.storeOne SSt.init { smp with stamp := st }).1).length := by
    intro smp h st
    obtain ⟨g', h1, h2, h3, h4⟩ := hsmp smp h
    have hin : (⟨s.id g', false, (s.layout g').recordSize, 0⟩ : RGroup) ∈ s.store.groups :=
      List.mem_map.2 ⟨g', List.mem_range.2 h1, rfl⟩
    have hone : (s.store.storeOne SSt.init { smp with stamp := st }).1 =
        [(false, ⟨s.id g', s.store.render { smp with stamp := st }⟩)] := by
      unfold SCfg.storeOne
      have := SCfg.find_of_mem hd hin
      rw [show ({ smp with stamp := st } : Sample).id = s.id g' from h2]
      rw [this]
      simp only [h3]
    rw [hone]
    have hlen := render_length hf (g := g') { smp with stamp := st } h2 h4
    have hpos : 0 < (s.layout g').recordSize := by
      unfold Ses.layout
      rw [List.getD_eq_getElem?_getD, List.getElem?_eq_getElem h1]
      exact (hf.layout _ (List.getElem_mem h1)).2.1
    have hlen : (s.store.render { smp with stamp := st }).length = smp.data.length := hlen
    simp only [SCfg.bytes, List.flatMap_cons, List.flatMap_nil, encodeRec, List.append_nil, List.length_append, Bool.false_eq_true,
      if_false]
    omega
  have hstart : ∀ t', .start t' ∉ b1 ++ b2 ++ a2 := by
    intro t' h
    apply hm.once t'
    simp only [List.mem_append] at h ⊢
    rcases h with (h | h) | h
    · exact (m0 _ h).elim (fun ⟨_, h⟩ => by cases h) fun h => Or.inl (Or.inl h)
    · exact (m1 _ h).elim (fun ⟨_, h⟩ => by cases h) fun h => Or.inl (Or.inr h)
    · exact (m2 _ h).elim (fun ⟨_, h⟩ => by cases h) fun h => Or.inr h
  have hfin : .finalize ∉ b1 ++ b2 := by
    intro h
    apply hm.notFinal
    simp only [List.mem_append] at h ⊢
    rcases h with h | h
    · exact (m0 _ h).elim (fun ⟨_, h⟩ => by cases h) Or.inl
    · exact (m1 _ h).elim (fun ⟨_, h⟩ => by cases h) Or.inr
  have hopen : .opened false ∉ a2 := fun h => (m2 _ h).elim (fun ⟨_, h⟩ => by cases h) hm.file
  have htrim := untrimmed r0 r1' r2' hstart hm.start htimed
    (fun smp h => hm.before _ (by rw [← hmaptime0]; exact List.mem_map_of_mem h))
    (fun smp h => (hm.times smp.time (by rw [← hmaptime]; exact List.mem_map_of_mem h)).2)
  have hblocks := saved_blocks r0 r1' r2' hstart hfin hopen hend hadd htrim hknown hstored
  have hplain := store_plain hd x.2.added SSt.init hsok
  rw [← hblocks] at hplain
  have hsok' : ∀ smp ∈ x.2.blocks.flatten, s.store.SampleOk smp := by
    intro smp h
    rw [hblocks] at h
    obtain ⟨y, hy, rfl⟩ := List.mem_map.mp h
    exact (hsok y hy).2
  obtain ⟨henc, hval⟩ := encode_store hd (s.store.store x.2.blocks.flatten SSt.init).2 (subscribing needs obs) cont _
    (store_ok hd x.2.blocks.flatten SSt.init hsok')
  rw [chunks_flatten, ← henc] at hb
  -- the records, by the samples made
  have hrecs : ((s.store.store x.2.blocks.flatten SSt.init).1.map (·.2)) =
      S.map fun smp => ⟨smp.id, s.render { smp with stamp := some t }⟩ := by
    rw [hplain]
    have h1 : ∀ l : List Sample, (l.map fun smp => (⟨smp.id, s.render { smp with stamp := some t }⟩ : Rec)) =
        (l.map Sample.core).map fun smp => ⟨smp.id, s.render { smp with stamp := some t }⟩ := by
      intro l; rw [List.map_map]; rfl
    show (x.2.added.map fun smp => (⟨smp.id, s.render { smp with stamp := some t }⟩ : Rec)) = _
    rw [h1, hcores, ← h1]
  -- what they show
  have hshow : ∀ i, i < c.arraySize → (groupRecs (S.map fun smp => ⟨smp.id, s.render { smp with stamp := some t }⟩) (s.id g)).map
      (fun b => c.channelValue (x.1.sd g k) b i) = (savedAs g k i none (c1 ++ c2)).map c.expected := by
    intro i hi
    have hi' : i < max 1 c.arraySize := by omega
    have hinit : Shows c i (s.init.buf g) (s.init.sd g k) none := by
      intro hv full _ _
      exact channelValue_unset (hf.promised hc (s.init_sized g) hk hi') (hv rfl) full
    have hfirst' : c.type = .variableLength → none ∉ savedAs g k i none calls := by
      intro hv
      have h0 : i = 0 := by
        rcases hk with h | h | h
        · exact absurd hv h.2.1
        · exact absurd hv h.2.2.2.2
        · have := h.2.1; omega
      rw [hsaved, h0]
      exact hfirst hv
    have key := samples_show hf hc hk hi' (x.1.sd g k) hsd calls s.init_sized hrange' hok hbuf1 hsd1 hinit hfirst'
    rw [hS, hsaved] at key
    rw [← key]
    unfold groupRecs
    rw [List.filter_map, List.map_map, List.map_map]
    apply List.map_congr_left
    intro smp hs
    obtain ⟨hs1, hs2⟩ := List.mem_filter.1 hs
    have hid : smp.id = s.id g := by simpa using hs2
    obtain ⟨g', time, h1, h2, h3, h4, h5⟩ := hsamples smp hs1
    have hgg : g' = g := by
      rw [hid] at h3
      unfold Ses.id at h3
      omega
    exact render_shows hf hc hk hi' hmaster { smp with stamp := some t } hid (by rw [← hgg]; exact h5) _
  -- the counters
  have hlen : ∀ id, (s.store.store x.2.blocks.flatten SSt.init).1.countP (fun r => decide (r.2.id = id)) =
      (S.filter fun smp => decide (smp.id = id)).length := by
    intro id
    have h1 : (s.store.store x.2.blocks.flatten SSt.init).1.countP (fun r => decide (r.2.id = id)) =
        ((s.store.store x.2.blocks.flatten SSt.init).1.map (·.2)).countP (fun r => decide (r.id = id)) := by
      rw [List.countP_map]; rfl
    rw [h1, hrecs, List.countP_map, List.countP_eq_length_filter]
    rfl
  have hgin : g < s.groups.length := by
    obtain ⟨cs, -, h, -⟩ := Ses.layout_of hc
    exact (List.getElem?_eq_some_iff.1 h).1
  have hcount : r.nof (s.id g) = (savedAs g k 0 none (c1 ++ c2)).length := by
    have hin : (⟨s.id g, false, (s.layout g).recordSize, ((s.store.store x.2.blocks.flatten SSt.init).2.cg (s.id g)).nof⟩ : RGroup) ∈
        r.groups :=
      List.mem_map.2 ⟨⟨s.id g, false, (s.layout g).recordSize, 0⟩, List.mem_map.2 ⟨g, List.mem_range.2 hgin, rfl⟩, rfl⟩
    have hfind := find?_of_nodup hrok.distinct hin
    have hnof' : r.nof (s.id g) = ((s.store.store x.2.blocks.flatten SSt.init).2.cg (s.id g)).nof := by
      unfold RCfg.nof RCfg.group
      rw [hfind]; rfl
    rw [hnof', C23_counters, hlen, ← hS, ← hsaved]
    exact samplesOf_count g k 0 calls hbuf1
  have hSlen : S.length = (saveTimes (c1 ++ c2)).length := by
    rw [← htimes, ← samplesOf_times calls hbuf1, hS, List.length_map]
  have hsizes : ∀ g' ∈ r.groups, g'.nof * c.arraySize ≤ 2 ^ 64 := by
    intro g' hg'
    obtain ⟨g0, hg0, rfl⟩ := List.mem_map.1 hg'
    show ((s.store.store x.2.blocks.flatten SSt.init).2.cg g0.id).nof * c.arraySize ≤ 2 ^ 64
    rw [C23_counters, hlen]
    refine Nat.le_trans (Nat.mul_le_mul_right _ ?_) hnof
    rw [← hSlen]
    exact List.length_filter_le ..
  have hrids : r.groups.map (·.id) = s.store.groups.map (·.id) := by
    show (s.store.groups.map _).map _ = _
    rw [List.map_map]; rfl
  refine ⟨hcount, ?_⟩
  obtain ⟨n, events, hread⟩ := C40_reading r hrok _ hval file rest hb needs obs (fun _ => rfl) (by rw [hrids]; exact hcont) ob o ho hneed
    (by
      rw [hrids]
      exact List.mem_map.2 ⟨⟨s.id g, false, (s.layout g).recordSize, 0⟩, List.mem_map.2 ⟨g, List.mem_range.2 hgin, rfl⟩, rfl⟩)
    (by
      show (if c.type = .variableLength then ObsKind.vlsd else .fixed) = .fixed ∨ (_ ∧ true = true ∧ 0 = 0)
      by_cases hv : c.type = .variableLength
      · right; exact ⟨if_pos hv, rfl, rfl⟩
      · left; exact if_neg hv) rfl hsizes
  refine ⟨n, events, fun fuel hfuel => ⟨(hread fuel hfuel).1, ?_⟩⟩
  intro j i hi v hv
  have hj : j < r.nof (s.id g) := by
    rw [hcount, savedAs_length g k 0 k i _ none none]
    exact (List.getElem?_eq_some_iff.1 hv).1
  rw [hrids] at hread
  rw [(hread fuel hfuel).2 j i hj hi, hrecs]
  have hsh := congrArg (·[j]?) (hshow i hi)
  simp only [List.getElem?_map, hv, Option.map_some] at hsh
  show Option.getD (Option.map (fun b => c.channelValue (x.1.sd g k) b i) _) _ = _
  rw [show ob.recordId = s.id g from rfl, hsh]
  rfl

/-- What is said of the samples alone, without the file: until the stop is requested, the record of each sample saved shows the values
last set.  This is the property for variable length channels as well as for the others. -/
def C79_Statement : Prop :=
  ∀ (s : Ses) (q : WCfg) (calls : List AppCall) (x : SesBuf × W), s.Fits → s.run q calls (s.init, W.init) = some x →
    .other .requestStop ∉ calls →
    (∀ g k v valid i c, .set g k v valid i ∈ calls → s.chan g k = some c → i < max 1 c.arraySize ∧ v.Suits c) →
    ∀ g k c i, s.chan g k = some c → c.Numeric ∨ c.Sized ∨ c.Unsized → i < max 1 c.arraySize →
      ((x.2.added.filter fun smp => decide (smp.id = s.id g)).map fun smp => c.channelValue (x.1.sd g k) smp.data i) =
        (savedAs g k i none calls).map c.expected

/-! ### An example -/

def exUns (n : Nat) : SetVal := .num ⟨BitVec.ofNat 64 n, BitVec.ofNat 64 n, 0, 0, [], none⟩

def exTextVal (b : Bytes) : SetVal := .text ⟨b, none, none, none⟩

/-- A group with a time in the record, two numbers of 16 bits with validity bits and a text of four bytes; and a group with a text of any
length and three bytes. -/
def exSes : Ses :=
  { groups :=
      [[⟨.master, .unsignedLe, 0, 0, 64, false, 0, 0, 1⟩, ⟨.fixedLength, .unsignedBe, 0, 0, 16, true, 0, 0, 2⟩,
        ⟨.fixedLength, .stringUtf8, 0, 0, 32, false, 0, 0, 1⟩],
       [⟨.fixedLength, .stringUtf8, 0, 0, 0, false, 0, 0, 1⟩, ⟨.fixedLength, .byteArray, 0, 0, 24, true, 0, 0, 1⟩]],
    master := fun g => if g = 0 then some (0, ⟨fun t => BitVec.ofInt 64 t, fun t => BitVec.ofInt 64 t, fun _ => 0, fun _ => 0⟩) else none }

def exSes1 : List AppCall :=
  [.set 0 1 (exUns 513) true 0, .save 0 20, .set 1 0 (exTextVal [72, 105]) true 0, .set 1 1 (.bytes [7, 8, 9]) true 0, .save 1 30,
    .other .wake]

def exSes2 : List AppCall :=
  [.set 0 1 (exUns 5) false 1, .set 0 2 (exTextVal [195, 164]) true 0, .save 0 45, .other .wake, .other (.opened true), .other .enter,
    .set 1 0 (exTextVal [74, 111, 33]) true 0, .save 1 46, .other (.store false), .set 0 1 (exUns 6) true 1, .save 0 47,
    .other (.store false)]

def exSes3 : List AppCall :=
  [.other (.store false), .other (.store false), .other (.store false), .set 1 0 (exTextVal [90]) true 0, .other .close, .other .wake,
    .other (.opened true), .other .enter, .other .close, .other (.stopped 50)]

def exSesRun : Option (SesBuf × W) :=
  exSes.run (exSes.store.queue false true true 30)
    (exSes1 ++ .other (.start 40) :: .other .recalculate :: (exSes2 ++ .other .requestStop :: exSes3)) (exSes.init, W.init)

example : exSes.Fits := by
  refine ⟨by decide, ?_⟩
  intro cs h
  simp only [exSes, List.mem_cons, List.not_mem_nil, or_false] at h
  rcases h with rfl | rfl <;> decide

example : Recording 40 30 exSes1 exSes2 exSes3 := by
  refine ⟨?_, ?_, ?_, ?_, by decide, by decide, by decide, by decide⟩
  all_goals simp [exSes1, exSes2, exSes3]

example : exSesRun.map (fun x => (x.2.pc, x.1.sd 1 0, x.2.blocks.flatten.map fun smp => (smp.id, exSes.render smp))) =
    some (.gone, [3, 0, 0, 0, 72, 105, 0, 4, 0, 0, 0, 74, 111, 33, 0, 2, 0, 0, 0, 90, 0],
      [(1, [236, 255, 255, 255, 255, 255, 255, 255, 2, 1, 0, 0, 0, 0, 0, 0, 0]), (2, [0, 0, 0, 0, 0, 0, 0, 0, 7, 8, 9, 0]),
       (1, [5, 0, 0, 0, 0, 0, 0, 0, 2, 1, 0, 5, 195, 164, 0, 0, 2]), (2, [7, 0, 0, 0, 0, 0, 0, 0, 7, 8, 9, 0]),
       (1, [7, 0, 0, 0, 0, 0, 0, 0, 2, 1, 0, 6, 195, 164, 0, 0, 0])]) := by decide +kernel

/-- What the application expects of these samples, and what the observers show. -/
example : (savedAs 0 1 1 none (exSes1 ++ exSes2)) = [none, some (exUns 5, false), some (exUns 6, true)] ∧
    (exSesRun.bind fun x => (exSes.chan 0 1).map fun c =>
      (exSes.observer 0 c (x.1.sd 0 1) 3).value [5, 0, 0, 0, 0, 0, 0, 0, 2, 1, 0, 5, 195, 164, 0, 0, 2] 1) = some (false, .num 5) ∧
    ((exSes.chan 1 0).map fun c => (savedAs 1 0 0 none (exSes1 ++ exSes2)).map c.expected) =
      some [(true, .text [72, 105]), (true, .text [74, 111, 33])] := by decide +kernel

/-! ### What is not read back -/

/-- One group with one text of any length. -/
def oneText (d : DataType) (bits : Nat) : Ses :=
  { groups := [[⟨.fixedLength, d, 0, 0, bits, true, 0, 0, 1⟩]], master := fun _ => none }

/-- What the samples saved show of the channel. -/
def oneShown (d : DataType) (bits : Nat) (calls : List AppCall) : Option (List (Bool × ChanVal)) :=
  ((oneText d bits).run ((oneText d bits).store.queue false true true 0) calls ((oneText d bits).init, W.init)).bind fun x =>
    ((oneText d bits).chan 0 0).map fun c => x.2.added.map fun smp => c.channelValue (x.1.sd 0 0) smp.data 0

/-- The statement is false: a text of any length that is not set before a sample is saved shows the text set later, since the
record holds position 0 and the signal data begin with that text. -/
theorem C79_false : ¬ C79_Statement := by
  intro h
  have hfit : (oneText .stringUtf8 0).Fits := by
    refine ⟨by decide, ?_⟩
    intro cs h
    simp only [oneText, List.mem_cons, List.not_mem_nil, or_false] at h
    rcases h with rfl
    decide
  obtain ⟨calls, hcalls⟩ : ∃ calls : List AppCall, calls = [.save 0 1, .set 0 0 (exTextVal [65]) true 0, .save 0 2] := ⟨_, rfl⟩
  obtain ⟨q, hq⟩ : ∃ q, q = (oneText .stringUtf8 0).store.queue false true true 0 := ⟨_, rfl⟩
  have hv : oneShown .stringUtf8 0 calls = some [(true, .text [65]), (true, .text [65])] := by subst hcalls; decide +kernel
  obtain ⟨c, hc⟩ : ∃ c, c = (⟨.variableLength, .stringUtf8, 0, 0, 64, true, 0, 8, 1⟩ : Chan) := ⟨_, rfl⟩
  have hch : (oneText .stringUtf8 0).chan 0 0 = some c := by subst hc; decide +kernel
  unfold oneShown at hv
  rw [← hq] at hv
  cases hr : (oneText .stringUtf8 0).run q calls ((oneText .stringUtf8 0).init, W.init) with
  | none => rw [hr] at hv; cases hv
  | some x =>
    rw [hr, Option.bind_some, hch, Option.map_some, Option.some.injEq] at hv
    have hall : ∀ smp ∈ x.2.added, smp.id = 0 := by
      have : ((oneText .stringUtf8 0).run q calls ((oneText .stringUtf8 0).init, W.init)).map (fun x => x.2.added.map Sample.id) =
          some [0, 0] := by subst hq hcalls; decide +kernel
      rw [hr, Option.map_some, Option.some.injEq] at this
      intro smp h
      have h' : smp.id ∈ x.2.added.map Sample.id := List.mem_map_of_mem h
      rw [this] at h'
      simpa using h'
    have := h _ q calls x hfit hr (by subst hcalls; simp) (by
      intro g k v valid i c' hm hc'
      subst hcalls
      simp only [List.mem_cons, List.not_mem_nil, or_false, reduceCtorEq, false_or, AppCall.set.injEq] at hm
      obtain ⟨rfl, rfl, rfl, rfl, rfl⟩ := hm
      rw [hch, Option.some.injEq] at hc'
      subst hc' hc
      exact ⟨by decide, Or.inl rfl, by decide, by decide⟩) 0 0 c 0 hch
      (Or.inr (Or.inr (by subst hc; exact ⟨Or.inr (Or.inl rfl), by decide, rfl, rfl⟩))) (by subst hc; decide)
    rw [show (oneText .stringUtf8 0).id 0 = 0 from rfl,
      List.filter_eq_self.2 (fun smp hs => by simp [hall smp hs]), hv] at this
    subst hcalls hc
    revert this
    decide +kernel

/-- A text of any length set as not valid is shown as valid (C47). -/
theorem C79_not_valid_shown_valid :
    oneShown .stringUtf8 0 [.set 0 0 (exTextVal [65]) false 0, .save 0 1] = some [(true, .text [65])] := by decide +kernel

/-- A text set on a channel of UTF-16 texts is stored as it is: "AB" is read as the character U+4241.  On a channel of ASCII (read as
ISO 8859-1) texts a character beyond ASCII is read as two. -/
theorem C79_text_not_encoded :
    oneShown .stringUtf16Le 0 [.set 0 0 (exTextVal [65, 66]) true 0, .save 0 1] = some [(true, .text [0xE4, 0x89, 0x81])] ∧
    oneShown .stringUtf16Le 64 [.set 0 0 (exTextVal [65, 66]) true 0, .save 0 1] = some [(true, .text [0xE4, 0x89, 0x81])] ∧
    oneShown .stringAscii 64 [.set 0 0 (exTextVal [0xC3, 0xA4]) true 0, .save 0 1] = some [(true, .text [0xC3, 0x83, 0xC2, 0xA4])] := by
  decide +kernel

/-- A number set on a channel of bytes changes nothing, not even the validity. -/
theorem C79_number_ignored (c : Chan) (hd : c.dataType = .byteArray ∨ c.dataType = .mimeSample ∨ c.dataType = .mimeStream) (x : NumCasts)
    (valid : Bool) (i : Nat) (buf sd : Bytes) : c.setValue (.num x) valid i buf sd = some (buf, sd) := by
  rcases hd with h | h | h <;> simp only [Chan.setValue, Chan.setNumber, h]

example : oneShown .byteArray 16 [.set 0 0 (.bytes [1, 2]) true 0, .set 0 0 (exUns 7) false 0, .save 0 1] =
    some [(true, .bytes [1, 2])] := by decide +kernel

/-- A text that fills the channel loses its last character. -/
theorem C79_text_cut : oneShown .stringUtf8 16 [.set 0 0 (exTextVal [65, 66]) true 0, .save 0 1] = some [(true, .text [65])] := by
  decide +kernel

end Mdf
