import Verif.Proof.Sort

/-!
C57: sorting a file.

`src` is a data group of the source file with the observers' subscriptions, `recs` the records in it, `o` the observer that copies one of
its channel groups.
-/

namespace Mdf

/-- The full claim: for each record of the group, in order, a sample is copied with the record and, if the group has a channel with values in
the VLSD group `vid`, the value of the record. -/
def C57_Statement : Prop :=
  ∀ (src : RCfg) (recs : List Rec) (o : RecObs) (vid : Nat), src.Ok → (∀ r ∈ recs, src.ValidRec r) →
    (∀ g ∈ src.groups, recs.countP (·.id = g.id) = g.nof) → (∀ i ∈ o.needs, src.subs i = true) → (∀ l, src.cont l = true) →
    vid ≠ o.id → ((o.store = .fixed ∧ o.vlsdIds = []) ∨ (o.store = .vlsd ∧ o.vlsdIds = [vid] ∧
      ∀ r ∈ recs, r.id = o.id → 8 ≤ r.data.length ∧ (valueAt vid recs r.data).isSome)) →
    (o.copied (src.deliver [] recs)).map (fun s => (s.data, s.vlsd)) =
      (valuesOf o.id recs).map fun d => (d, if o.store = .vlsd then valueAt vid recs d else none)

/-- Group 1 with 8 byte records, an offset into the values of group 2. -/
def exSrc (n : Nat) : RCfg :=
  { idSize := 1, groups := [⟨1, false, 8, n⟩, ⟨2, true, 0, n⟩], subs := fun _ => true, cont := fun _ => true }

theorem exSrc_ok (n : Nat) : (exSrc n).Ok := by
  refine ⟨by show [1, 2].Nodup; decide, .inr (.inl rfl), fun _ g hg => ?_, fun h => absurd h (by show ¬ 1 = 0; decide),
    fun h => absurd h (by show ¬ 1 = 0; decide)⟩
  have : g = ⟨1, false, 8, n⟩ ∨ g = ⟨2, true, 0, n⟩ := by simpa [exSrc] using hg
  rcases this with rfl | rfl
  · show 1 < 256; decide
  · show 2 < 256; decide

def exVlsdObs : RecObs := { id := 1, vlsdIds := [2], store := .vlsd, base := 1000, master := none, dest := 0 }

/-- It is false: both values come before both records.  The first record is copied with the value of the second one and the second
record is lost. -/
theorem C57_wrong_value : ¬ C57_Statement := by
  intro h
  have := h (exSrc 2) [⟨2, [7]⟩, ⟨2, [8, 9]⟩, ⟨1, [0, 0, 0, 0, 0, 0, 0, 0]⟩, ⟨1, [5, 0, 0, 0, 0, 0, 0, 0]⟩] exVlsdObs 2 (exSrc_ok 2)
    (by
      intro r hr
      simp only [List.mem_cons, List.not_mem_nil, or_false] at hr
      rcases hr with rfl | rfl | rfl | rfl
      · exact ⟨⟨2, true, 0, 2⟩, rfl, by decide⟩
      · exact ⟨⟨2, true, 0, 2⟩, rfl, by decide⟩
      · exact ⟨⟨1, false, 8, 2⟩, rfl, by decide⟩
      · exact ⟨⟨1, false, 8, 2⟩, rfl, by decide⟩)
    (by decide) (by decide) (fun _ => rfl) (by decide) (.inr ⟨rfl, rfl, by decide +kernel⟩)
  revert this
  decide +kernel

/-- Exactly what is copied in that case. -/
example : exVlsdObs.copied ((exSrc 2).deliver [] [⟨2, [7]⟩, ⟨2, [8, 9]⟩, ⟨1, [0, 0, 0, 0, 0, 0, 0, 0]⟩, ⟨1, [5, 0, 0, 0, 0, 0, 0, 0]⟩]) =
    [⟨1000, 0, [0, 0, 0, 0, 0, 0, 0, 0], some [8, 9], none⟩] := by decide +kernel

/-- A value that is used by two records is copied once: the second record is lost. -/
theorem C57_shared_value_lost : exVlsdObs.copied ((exSrc 2).deliver []
    [⟨2, [7]⟩, ⟨1, [0, 0, 0, 0, 0, 0, 0, 0]⟩, ⟨1, [0, 0, 0, 0, 0, 0, 0, 0]⟩]) =
    [⟨1000, 0, [0, 0, 0, 0, 0, 0, 0, 0], some [7], none⟩] := by decide +kernel

/-- A group with two variable length channels: one of the two values is lost. -/
theorem C57_two_values_one_lost (k : Nat) (o : RecObs) (va vb : Nat) (hs : o.store = .vlsd) (hm : va ∈ o.vlsdIds ∧ vb ∈ o.vlsdIds)
    (hne : va ≠ o.id ∧ vb ≠ o.id) (r a b : Bytes) (hr : r ≠ []) (st : RecObsSt) (hc : st.newer k = true) :
    ([⟨k, va, a⟩, ⟨k, vb, b⟩, ⟨k, o.id, r⟩].foldl o.onSample st).out = st.out ++ [⟨o.stamp k r, o.dest, r, some b, none⟩] := by
  have h1 : o.onSample st ⟨k, va, a⟩ = { current := some k, record := [], vlsd := some a, time := 0, out := st.out } := by
    unfold RecObs.onSample
    rw [if_pos (show va ∈ o.needs from List.mem_cons_of_mem _ hm.1)]
    unfold RecObsSt.advance
    rw [if_pos hc]
    unfold RecObs.keep
    rw [if_neg hne.1]
    rfl
  have h2 : o.onSample (o.onSample st ⟨k, va, a⟩) ⟨k, vb, b⟩ =
      { current := some k, record := [], vlsd := some b, time := 0, out := st.out } := by
    rw [h1]
    unfold RecObs.onSample
    rw [if_pos (show vb ∈ o.needs from List.mem_cons_of_mem _ hm.2)]
    unfold RecObsSt.advance RecObsSt.newer
    simp only [Nat.lt_irrefl, gt_iff_lt, decide_false, Bool.false_eq_true, if_false]
    unfold RecObs.keep
    rw [if_neg hne.2]
    rfl
  have h3 := vlsd_pair_before (o := o) (vid := vb) hs hm.2 hne.2 (st := st) hc (r := r) (v := b) hr
  have h4 : o.onSample st ⟨k, vb, b⟩ = { current := some k, record := [], vlsd := some b, time := 0, out := st.out } := by
    unfold RecObs.onSample
    rw [if_pos (show vb ∈ o.needs from List.mem_cons_of_mem _ hm.2)]
    unfold RecObsSt.advance
    rw [if_pos hc]
    unfold RecObs.keep
    rw [if_neg hne.2]
    rfl
  show (o.onSample (o.onSample (o.onSample st ⟨k, va, a⟩) ⟨k, vb, b⟩) ⟨k, o.id, r⟩).out = _
  rw [h2, ← h4, h3]

example : exVlsdObs.copied [⟨0, 2, [7]⟩, ⟨0, 2, [8]⟩, ⟨0, 1, [1, 2, 3, 4, 5, 6, 7, 8]⟩] =
    [⟨1000, 0, [1, 2, 3, 4, 5, 6, 7, 8], some [8], none⟩] := by decide +kernel

/-- Samples without bytes (a group with a virtual master channel only) are not copied. -/
theorem C57_empty_records_lost (o : RecObs) (hv : o.vlsdIds = []) (events : List Event) (h : ∀ e ∈ events, e.id = o.id → e.data = []) :
    o.copied events = [] := by
  have key : ∀ (events : List Event) (st : RecObsSt), st.record = [] → st.out = [] → (∀ e ∈ events, e.id = o.id → e.data = []) →
      (events.foldl o.onSample st).out = [] := by
    intro events
    induction events with
    | nil => intro st _ h _; exact h
    | cons e es ih =>
      intro st hr ho he
      rw [List.foldl_cons]
      have hadv : (st.advance e.sample).record = [] ∧ (st.advance e.sample).out = [] := by
        unfold RecObsSt.advance
        split
        · exact ⟨rfl, ho⟩
        · exact ⟨hr, ho⟩
      have : (o.onSample st e).record = [] ∧ (o.onSample st e).out = [] := by
        unfold RecObs.onSample
        split
        · rename_i hm
          have hid : e.id = o.id := by simpa [RecObs.needs, hv] using hm
          have hd := he e List.mem_cons_self hid
          unfold RecObs.keep
          rw [if_pos hid]
          unfold RecObs.finish
          rw [if_pos hd]
          exact ⟨hd, hadv.2⟩
        · exact ⟨hr, ho⟩
      exact ih _ this.1 this.2 (fun e h => he e (List.mem_cons_of_mem _ h))
  exact key events _ rfl rfl h

example : exVlsdObs.copied [⟨0, 1, []⟩, ⟨1, 1, []⟩] = [] := by decide +kernel

/-- Groups without variable length values in VLSD groups: exactly the records of the group are copied, in order, each with its time,
whatever other groups are in the data group, however the data are split into blocks, and if the file ends within a record.  (As many
as the sample counter tells.) -/
theorem C57_copied_partial (src : RCfg) (hok : src.Ok) (recs : List Rec) (hv : ∀ r ∈ recs, src.ValidRec r) (tail : Bytes)
    (hT : src.Tail tail) (blocks : List Blk) (file : Bytes) (hb : Holds blocks (src.encode recs ++ tail))
    (hcont : ∀ l, src.cont l = true) (o : RecObs) (hs : o.store ≠ .vlsd) (hvl : o.vlsdIds = []) (hsub : src.subs o.id = true)
    (hne : ∀ r ∈ recs, r.id = o.id → r.data ≠ []) :
    ∃ n, ∀ fuel, n ≤ fuel → ∃ events, src.read fuel blocks file = .done events ∧
      o.copied events = ((valuesOf o.id recs).take (src.nof o.id)).mapIdx fun k d => ⟨o.stamp k d, o.dest, d, none, none⟩ := by
  obtain ⟨n, hn⟩ := C11_delivered src hok recs hv tail hT blocks file hb
  refine ⟨n, fun fuel hf => ⟨_, hn fuel hf, ?_⟩⟩
  rw [cutAt_nil_of_cont _ _ hcont, copied_deliver]
  have hfil : (recs.filter fun r => o.needs.contains r.id) = recs.filter (·.id = o.id) := by
    apply List.filter_congr
    intro r _
    simp [RecObs.needs, hvl]
  rw [hfil]
  unfold RecObs.copied
  rw [fixed_fold hs src hsub _ [] RecObsSt.init (by simp) (fun r hr => by
      have := List.mem_filter.mp hr
      exact hne r this.1 (by simpa using this.2)) rfl (by intro c h; cases h)]
  unfold valuesOf
  rw [← List.map_take]
  simp only [RecObsSt.init, List.mapIdx_eq_zipIdx_map, List.zipIdx_map, List.map_map, Function.comp_def, Prod.map]
  simp

/-- A group whose records each have their value directly before or after them (as this library writes them): exactly the pairs are copied. -/
theorem C57_copied_values_partial (src : RCfg) (hok : src.Ok) (recs : List Rec) (hv : ∀ r ∈ recs, src.ValidRec r) (tail : Bytes)
    (hT : src.Tail tail) (blocks : List Blk) (file : Bytes) (hb : Holds blocks (src.encode recs ++ tail))
    (hcont : ∀ l, src.cont l = true) (o : RecObs) (vid : Nat) (hs : o.store = .vlsd) (hvl : o.vlsdIds = [vid]) (hd : vid ≠ o.id)
    (hsub : src.subs o.id = true ∧ src.subs vid = true) (ps : List (Bytes × Bytes))
    (hp : Paired o.id vid (recs.filter fun r => r.id = o.id ∨ r.id = vid) ps) (hnof : ps.length ≤ src.nof o.id ∧ ps.length ≤ src.nof vid)
    (hne : ∀ p ∈ ps, p.1 ≠ []) :
    ∃ n, ∀ fuel, n ≤ fuel → ∃ events, src.read fuel blocks file = .done events ∧
      o.copied events = ps.mapIdx fun k p => ⟨o.stamp k p.1, o.dest, p.1, some p.2, none⟩ := by
  obtain ⟨n, hn⟩ := C11_delivered src hok recs hv tail hT blocks file hb
  refine ⟨n, fun fuel hf => ⟨_, hn fuel hf, ?_⟩⟩
  rw [cutAt_nil_of_cont _ _ hcont, copied_deliver]
  have hfil : (recs.filter fun r => o.needs.contains r.id) = recs.filter fun r => r.id = o.id ∨ r.id = vid := by
    apply List.filter_congr
    intro r _
    simp [RecObs.needs, hvl]
  rw [hfil]
  unfold RecObs.copied
  rw [vlsd_fold hs (by rw [hvl]; exact List.mem_cons_self) hd src hsub hp [] 0 RecObsSt.init rfl rfl (by omega) (by omega) hne
    (by intro c h; cases h)]
  simp [RecObsSt.init]

/-! ### The sorted file -/

/-- The whole way for a group without values in a VLSD group: the source is read, the samples are copied to a data group of their own, and this
data group is read.  It holds exactly the records of the group, in order, with the index among the samples of the group; only the time is
calculated again.  For all schedules of the writing, with and without compression. -/
theorem C57_sorted_partial (src : RCfg) (hok : src.Ok) (recs : List Rec) (hv : ∀ r ∈ recs, src.ValidRec r) (tail : Bytes)
    (hT : src.Tail tail) (blocks : List Blk) (rest : Bytes) (hb : Holds blocks (src.encode recs ++ tail))
    (hcont : ∀ l, src.cont l = true) (o : RecObs) (hs : o.store ≠ .vlsd) (hvl : o.vlsdIds = []) (hsub : src.subs o.id = true)
    (g : RGroup) (hg : src.group o.id = some g) (hgv : g.vlsd = false) (hsize : 0 < g.size) (hdest : o.dest = 0)
    (hset : ∀ m x r, o.master = some m → (m.set x r).length = r.length)
    (htime : ∀ m k d, o.master = some m → -2 ^ 63 ≤ relNanos (m.get k d) ∧ relNanos (m.get k d) < 2 ^ 63)
    (sd z p : Bool) (pre : Nat) :
    ∃ n, ∀ fuel, n ≤ fuel → ∃ events, src.read fuel blocks rest = .done events ∧
      ∀ w, Measured ((sortedCfg g.size sd o.master).queue z p false pre) o.base (o.copied events) w →
      ∀ file rest', Holds file ((sortedCfg g.size sd o.master).chunks w.blocks SSt.init).flatten →
      ∃ n', ∀ fuel', n' ≤ fuel' →
        ((sortedCfg g.size sd o.master).reader ((sortedCfg g.size sd o.master).store w.blocks.flatten SSt.init).2
            (fun _ => true) (fun _ => true)).read fuel' file rest' =
          .done (((valuesOf o.id recs).take (src.nof o.id)).mapIdx fun k d => ⟨k, 0, resorted o.master k d⟩) := by
  have hlen : ∀ d ∈ valuesOf o.id recs, d.length = g.size := by
    intro d hd
    obtain ⟨r, hr, rfl⟩ := List.mem_map.mp hd
    obtain ⟨hr, hid⟩ := List.mem_filter.mp hr
    obtain ⟨g', hg', hl⟩ := hv r hr
    have hid : r.id = o.id := by simpa using hid
    rw [hid, hg] at hg'
    cases hg'
    rw [hgv] at hl
    simpa using hl
  obtain ⟨n, hn⟩ := C57_copied_partial src hok recs hv tail hT blocks rest hb hcont o hs hvl hsub (by
    intro r hr hid hnil
    have := hlen r.data (List.mem_map.mpr ⟨r, List.mem_filter.mpr ⟨hr, by simpa using hid⟩, rfl⟩)
    rw [hnil] at this
    simp at this
    omega)
  refine ⟨n, fun fuel hf => ?_⟩
  obtain ⟨events, hread, hcop⟩ := hn fuel hf
  refine ⟨events, hread, ?_⟩
  rintro w ⟨b1, b2, a2, w0, w1, h0, h1, h2, hst, hfin, hopen, hend, hno, hadd⟩ file rest' hfile
  have htrim : ∀ x ∈ w.fates, x.2 ≠ .trimmed := by
    have hall : W.run ((sortedCfg g.size sd o.master).queue z p false pre)
        (b1 ++ (.start o.base :: .recalculate :: b2) ++ (.requestStop :: a2)) W.init = some w := by
      rw [run_append, run_append, h0]
      show ((W.run _ _ w0).bind _) = _
      rw [h1]; exact h2
    exact untrimmed_run rfl _ Stops.init (by intro x hx; cases hx) hall
  -- the samples, one by one
  have hget : ∀ i s, w.added[i]? = some s → ∃ d, ((valuesOf o.id recs).take (src.nof o.id))[i]? = some d ∧ d ∈ valuesOf o.id recs ∧
      s.time = o.stamp i d ∧ s.id = 0 ∧ s.data = d ∧ s.vlsd = none := by
    intro i s hi
    have h := congrArg (fun l => l[i]?) hadd
    simp only [List.getElem?_map, hi, Option.map_some] at h
    rw [hcop, List.getElem?_mapIdx] at h
    obtain ⟨d, hd, he⟩ := Option.map_eq_some_iff.mp h.symm
    have he' := Sample.mk.inj he
    exact ⟨d, hd, List.mem_of_mem_take (List.mem_of_getElem? hd), he'.1.symm, by rw [← he'.2.1, hdest], he'.2.2.1.symm, he'.2.2.2.1.symm⟩
  have hrender : ∀ i s d, w.added[i]? = some s → s.time = o.stamp i d → s.data = d →
      (sortedCfg g.size sd o.master).render { s with stamp := some o.base } = resorted o.master i d := by
    intro i s d _ ht hd
    show (match o.master, some o.base with
      | some m, some t => m.set (relSeconds (subTime s.time t)) s.data
      | _, _ => s.data) = resorted o.master i d
    unfold resorted
    cases hm : o.master with
    | none => exact hd
    | some m =>
      simp only
      have : s.time = addTime o.base (relNanos (m.get i d)) := by rw [ht]; unfold RecObs.stamp; rw [hm]
      rw [this, subTime_addTime (htime m i d hm), hd]
  have hreslen : ∀ i d, (resorted o.master i d).length = d.length := by
    intro i d
    unfold resorted
    split
    · rfl
    · rename_i m hm; exact hset _ _ _ hm
  have hsok : ∀ s ∈ w.added, s.vlsd = none ∧ (sortedCfg g.size sd o.master).SampleOk { s with stamp := some o.base } := by
    intro s hsm
    obtain ⟨i, hi⟩ := List.getElem?_of_mem hsm
    obtain ⟨d, hd, hmem, ht, hid, hdat, hvn⟩ := hget i s hi
    refine ⟨hvn, ⟨⟨⟨0, false, g.size, 0⟩, List.mem_cons_self, hid.symm, rfl, ?_⟩, fun v hv => ?_⟩⟩
    · rw [hrender i s d hi ht hdat, hreslen]; exact hlen d hmem
    · simp only [hvn] at hv; cases hv
  have hstored : ∀ s ∈ w.added, ∀ st, 0 < ((sortedCfg g.size sd o.master).bytes
      ((sortedCfg g.size sd o.master).storeOne SSt.init { s with stamp := st }).1).length := by
    intro s hsm st
    obtain ⟨i, hi⟩ := List.getElem?_of_mem hsm
    obtain ⟨d, hd, hmem, ht, hid, hdat, hvn⟩ := hget i s hi
    have hone : ((sortedCfg g.size sd o.master).storeOne SSt.init { s with stamp := st }).1 =
        [(false, ⟨0, (sortedCfg g.size sd o.master).render { s with stamp := st }⟩)] := by
      unfold SCfg.storeOne
      rw [sortedCfg_find]
      simp only [hvn]
    rw [hone]
    have : ((sortedCfg g.size sd o.master).render { s with stamp := st }).length = g.size := by
      rw [sortedCfg_render_length hset, hdat]; exact hlen d hmem
    show 0 < ([(false, ⟨0, _⟩)].flatMap fun r => encodeRec 0 r.1 r.2).length
    simp only [List.flatMap_cons, List.flatMap_nil, List.append_nil, encodeRec, List.length_append, Bool.false_eq_true, if_false]
    omega
  obtain ⟨n', hn'⟩ := C11_untrimmed_is_read h0 h1 h2 hst hfin hopen hend hno htrim (sortedCfg_distinct ..) hsok hstored
    (fun _ => true) (fun _ => true) (fun _ => rfl) (fun _ => rfl) (sortedCfg_ok hsize ..) file rest' hfile
  refine ⟨n', fun fuel' hf' => ?_⟩
  rw [hn' fuel' hf']
  congr 1
  have hlen2 : w.added.length = ((valuesOf o.id recs).take (src.nof o.id)).length := by
    have := congrArg List.length hadd
    rw [hcop] at this
    simpa using this
  apply List.ext_getElem?
  intro i
  rw [List.getElem?_mapIdx, List.getElem?_mapIdx]
  cases hi : w.added[i]? with
  | none =>
    have := List.getElem?_eq_none_iff.mp hi
    rw [List.getElem?_eq_none_iff.mpr (by omega)]
    rfl
  | some s =>
    obtain ⟨d, hd, hmem, ht, hid, hdat, hvn⟩ := hget i s hi
    rw [hd, Option.map_some, Option.map_some, hrender i s d hi ht hdat, hid]
    congr 2
    rw [List.countP_eq_length.mpr, List.length_take]
    · have := (List.getElem?_eq_some_iff.mp hi).1
      omega
    · intro x hx
      obtain ⟨j, hj⟩ := List.getElem?_of_mem (List.mem_of_mem_take hx)
      obtain ⟨-, -, -, -, hxid, -⟩ := hget j x hj
      simpa using hxid

/-- The signal data of a list of values. -/
def sdBytes (vs : List Bytes) : Bytes := vs.flatMap fun v => leBytes 4 v.length ++ v

theorem sdBytes_length (vs : List Bytes) : (sdBytes vs).length = sdSize vs := by
  induction vs with
  | nil => rfl
  | cons v vs ih =>
    show ((leBytes 4 v.length ++ v) ++ sdBytes vs).length = (4 + v.length) + sdSize vs
    rw [List.length_append, List.length_append, leBytes_length, ih]

/-- Storing samples with values in signal data. -/
theorem store_sd {size : Nat} {m : Option Master} (ss : List Sample) (vs : List Bytes) : ∀ (st : SSt),
    ss.map (·.vlsd) = vs.map some →
    ((sortedCfg size true m).store ss st).2.sd 0 = st.sd 0 ++ sdBytes vs ∧
    ((sortedCfg size true m).store ss st).1.length = ss.length ∧
    ∀ (i : Nat) (s : Sample) (v : Bytes), ss[i]? = some s → vs[i]? = some v → (((sortedCfg size true m).store ss st).1)[i]? =
      some (false, (⟨0, patchIndex ((sortedCfg size true m).render s) ((st.sd 0).length + (sdBytes (vs.take i)).length)⟩ : Rec)) := by
  induction ss generalizing vs with
  | nil =>
    intro st h
    cases vs with
    | nil => exact ⟨by simp [SCfg.store, sdBytes], rfl, fun i s v h => by simp at h⟩
    | cons => cases h
  | cons s ss ih =>
    intro st h
    cases vs with
    | nil => cases h
    | cons v vs =>
      simp only [List.map_cons, List.cons.injEq] at h
      have hone : (sortedCfg size true m).storeOne st s =
          ([(false, ⟨0, patchIndex ((sortedCfg size true m).render s) (st.sd 0).length⟩)],
            { st with sd := fun i => if i = 0 then st.sd 0 ++ leBytes 4 v.length ++ v else st.sd i }.count 0) := by
        unfold SCfg.storeOne
        rw [sortedCfg_find, h.1]
        rfl
      obtain ⟨h1, h2, h3⟩ := ih vs ({ st with sd := fun i => if i = 0 then st.sd 0 ++ leBytes 4 v.length ++ v else st.sd i }.count 0) h.2
      have hsd : (SSt.count { st with sd := fun i => if i = 0 then st.sd 0 ++ leBytes 4 v.length ++ v else st.sd i } 0).sd 0 =
          st.sd 0 ++ leBytes 4 v.length ++ v := rfl
      rw [hsd] at h1 h3
      simp only [SCfg.store]
      rw [hone]
      refine ⟨?_, ?_, ?_⟩
      · rw [h1]
        show _ = st.sd 0 ++ ((leBytes 4 v.length ++ v) ++ sdBytes vs)
        simp
      · rw [List.length_append, h2, List.length_cons]
        exact Nat.add_comm _ _
      · intro i s' v' hs hv
        cases i with
        | zero =>
          simp only [List.getElem?_cons_zero, Option.some.injEq] at hs hv
          subst hs; subst hv
          simp [sdBytes]
        | succ i =>
          simp only [List.getElem?_cons_succ] at hs hv
          show ((_ :: _ : List _) ++ _)[i + 1]? = _
          rw [List.singleton_append, List.getElem?_cons_succ, h3 i s' v' hs hv, List.take_succ_cons]
          congr 4
          show (st.sd 0 ++ leBytes 4 v.length ++ v).length + _ = _ + ((leBytes 4 v.length ++ v) ++ sdBytes (vs.take i)).length
          simp only [List.length_append]
          omega

/-- The value is found at its offset. -/
theorem sdBytes_get {vs : List Bytes} {i : Nat} {v : Bytes} (h : vs[i]? = some v) (hv : v.length < 2 ^ 32)
    (h64 : (sdBytes vs).length < 2 ^ 64) : sdGet (sdBytes vs) (sdBytes (vs.take i)).length = .ok (true, v) := by
  have hlt := (List.getElem?_eq_some_iff.mp h).1
  have hsplit : sdBytes vs = sdBytes (vs.take i) ++ leBytes 4 v.length ++ v ++ sdBytes (vs.drop (i + 1)) := by
    have : vs = vs.take i ++ v :: vs.drop (i + 1) := by
      rw [← (List.getElem?_eq_some_iff.mp h).2, List.getElem_cons_drop, List.take_append_drop]
    calc sdBytes vs = sdBytes (vs.take i ++ v :: vs.drop (i + 1)) := by rw [← this]
      _ = _ := by simp [sdBytes]
  rw [hsplit]
  refine sdGet_append _ v _ hv ?_
  rw [hsplit] at h64
  simp only [List.length_append, leBytes_length] at h64
  omega

/-- The whole way for a group with a variable length channel: sample `k` of the sorted file is record `k` of the group with its time calculated
again and, in the last 8 bytes, the offset at which the signal data hold the value that was next to the record in the source. -/
theorem C57_sorted_values_partial (src : RCfg) (hok : src.Ok) (recs : List Rec) (hv : ∀ r ∈ recs, src.ValidRec r) (tail : Bytes)
    (hT : src.Tail tail) (blocks : List Blk) (rest : Bytes) (hb : Holds blocks (src.encode recs ++ tail))
    (hcont : ∀ l, src.cont l = true) (o : RecObs) (vid : Nat) (hs : o.store = .vlsd) (hvl : o.vlsdIds = [vid]) (hd : vid ≠ o.id)
    (hsub : src.subs o.id = true ∧ src.subs vid = true) (ps : List (Bytes × Bytes))
    (hp : Paired o.id vid (recs.filter fun r => r.id = o.id ∨ r.id = vid) ps) (hnof : ps.length ≤ src.nof o.id ∧ ps.length ≤ src.nof vid)
    (size : Nat) (hsize : ∀ q ∈ ps, q.1.length = size ∧ q.2.length + 4 < 2 ^ 32) (h8 : 8 ≤ size)
    (h64 : (sdBytes (ps.map (·.2))).length < 2 ^ 64) (hdest : o.dest = 0)
    (hset : ∀ m x r, o.master = some m → (m.set x r).length = r.length)
    (htime : ∀ m k d, o.master = some m → -2 ^ 63 ≤ relNanos (m.get k d) ∧ relNanos (m.get k d) < 2 ^ 63)
    (z p : Bool) (pre : Nat) :
    ∃ n, ∀ fuel, n ≤ fuel → ∃ events, src.read fuel blocks rest = .done events ∧
      ∀ w, Measured ((sortedCfg size true o.master).queue z p false pre) o.base (o.copied events) w →
      ((sortedCfg size true o.master).store w.blocks.flatten SSt.init).2.sd 0 = sdBytes (ps.map (·.2)) ∧
      ∀ file rest', Holds file ((sortedCfg size true o.master).chunks w.blocks SSt.init).flatten →
      ∃ result, (∃ n', ∀ fuel', n' ≤ fuel' →
        ((sortedCfg size true o.master).reader ((sortedCfg size true o.master).store w.blocks.flatten SSt.init).2
            (fun _ => true) (fun _ => true)).read fuel' file rest' = .done result) ∧
        result.length = ps.length ∧
        ∀ k r v, ps[k]? = some (r, v) → ∃ data offset, result[k]? = some ⟨k, 0, data⟩ ∧ data.length = size ∧
          data.take (size - 8) = (resorted o.master k r).take (size - 8) ∧ leNat (data.drop (size - 8)) = offset ∧
          sdGet (sdBytes (ps.map (·.2))) offset = .ok (true, v) := by
  obtain ⟨n, hn⟩ := C57_copied_values_partial src hok recs hv tail hT blocks rest hb hcont o vid hs hvl hd hsub ps hp hnof (by
    intro q hq hnil
    have := (hsize q hq).1
    rw [hnil] at this
    simp at this
    omega)
  refine ⟨n, fun fuel hf => ?_⟩
  obtain ⟨events, hread, hcop⟩ := hn fuel hf
  refine ⟨events, hread, ?_⟩
  rintro w ⟨b1, b2, a2, w0, w1, h0, h1, h2, hst, hfin, hopen, hend, hno, hadd⟩
  have htrim : ∀ x ∈ w.fates, x.2 ≠ .trimmed := by
    have hall : W.run ((sortedCfg size true o.master).queue z p false pre)
        (b1 ++ (.start o.base :: .recalculate :: b2) ++ (.requestStop :: a2)) W.init = some w := by
      rw [run_append, run_append, h0]
      show ((W.run _ _ w0).bind _) = _
      rw [h1]; exact h2
    exact untrimmed_run rfl _ Stops.init (by intro x hx; cases hx) hall
  have hlen2 : w.added.length = ps.length := by
    have := congrArg List.length hadd
    rw [hcop] at this
    simpa using this
  have hget : ∀ i s, w.added[i]? = some s → ∃ q, ps[i]? = some q ∧
      s.time = o.stamp i q.1 ∧ s.id = 0 ∧ s.data = q.1 ∧ s.vlsd = some q.2 := by
    intro i s hi
    have h := congrArg (fun l => l[i]?) hadd
    simp only [List.getElem?_map, hi, Option.map_some] at h
    rw [hcop, List.getElem?_mapIdx] at h
    obtain ⟨d, hd, he⟩ := Option.map_eq_some_iff.mp h.symm
    have he' := Sample.mk.inj he
    exact ⟨d, hd, he'.1.symm, by rw [← he'.2.1, hdest], he'.2.2.1.symm, he'.2.2.2.1.symm⟩
  have hrender : ∀ (i : Nat) (s : Sample) (d : Bytes), s.time = o.stamp i d → s.data = d →
      (sortedCfg size true o.master).render { s with stamp := some o.base } = resorted o.master i d := by
    intro i s d ht hd
    show (match o.master, some o.base with
      | some m, some t => m.set (relSeconds (subTime s.time t)) s.data
      | _, _ => s.data) = resorted o.master i d
    unfold resorted
    cases hm : o.master with
    | none => exact hd
    | some m =>
      simp only
      have : s.time = addTime o.base (relNanos (m.get i d)) := by rw [ht]; unfold RecObs.stamp; rw [hm]
      rw [this, subTime_addTime (htime m i d hm), hd]
  have hreslen : ∀ i d, (resorted o.master i d).length = d.length := by
    intro i d
    unfold resorted
    split
    · rfl
    · rename_i m hm; exact hset _ _ _ hm
  have hstored : ∀ s ∈ w.added, ∀ st, 0 < ((sortedCfg size true o.master).bytes
      ((sortedCfg size true o.master).storeOne SSt.init { s with stamp := st }).1).length := by
    intro s hsm st
    obtain ⟨i, hi⟩ := List.getElem?_of_mem hsm
    obtain ⟨q, hq, ht, hid, hdat, hvn⟩ := hget i s hi
    have hone : ((sortedCfg size true o.master).storeOne SSt.init { s with stamp := st }).1 =
        [(false, ⟨0, patchIndex ((sortedCfg size true o.master).render { s with stamp := st }) 0⟩)] := by
      unfold SCfg.storeOne
      rw [sortedCfg_find, show ({ s with stamp := st } : Sample).vlsd = some q.2 from hvn]
      rfl
    rw [hone]
    have : (patchIndex ((sortedCfg size true o.master).render { s with stamp := st }) 0).length = size := by
      rw [patchIndex_length, sortedCfg_render_length hset, hdat]
      exact (hsize q (List.mem_of_getElem? hq)).1
    show 0 < ([(false, ⟨0, _⟩)].flatMap fun r => encodeRec 0 r.1 r.2).length
    simp only [List.flatMap_cons, List.flatMap_nil, List.append_nil, encodeRec, List.length_append, Bool.false_eq_true, if_false]
    omega
  have hblocks := saved_blocks h0 h1 h2 hst hfin hopen hend hno htrim (fun s _ => by rw [sortedCfg_find]; rfl) hstored
  have hvs : (w.blocks.flatten.map (·.vlsd)) = (ps.map (·.2)).map some := by
    rw [hblocks]
    apply List.ext_getElem?
    intro i
    simp only [List.getElem?_map]
    cases hi : w.added[i]? with
    | none =>
      have := List.getElem?_eq_none_iff.mp hi
      rw [List.getElem?_eq_none_iff.mpr (by omega)]
      rfl
    | some s =>
      obtain ⟨q, hq, -, -, -, hvn⟩ := hget i s hi
      rw [hq]
      simp [hvn]
  obtain ⟨e1, e2, e3⟩ := store_sd (size := size) (m := o.master) w.blocks.flatten (ps.map (·.2)) SSt.init hvs
  refine ⟨by rw [e1]; rfl, fun file rest' hfile => ?_⟩
  have hsok : ∀ s ∈ w.blocks.flatten, (sortedCfg size true o.master).SampleOk s := by
    rw [hblocks]
    intro s hsm
    obtain ⟨s, hsa, rfl⟩ := List.mem_map.mp hsm
    obtain ⟨i, hi⟩ := List.getElem?_of_mem hsa
    obtain ⟨q, hq, ht, hid, hdat, hvn⟩ := hget i s hi
    have hq := hsize q (List.mem_of_getElem? hq)
    refine ⟨⟨⟨0, false, size, 0⟩, List.mem_cons_self, hid.symm, rfl, ?_⟩, fun v hv => ?_⟩
    · rw [hrender i s q.1 ht hdat, hreslen]; exact hq.1
    · simp only [hvn, Option.some.injEq] at hv
      rw [← hv]; exact hq.2
  obtain ⟨n', hn'⟩ := C11_stored_is_read (sortedCfg_distinct ..) hsok (fun _ => true) (fun _ => true) (sortedCfg_ok (by omega) ..)
    (fun _ => rfl) (fun _ => rfl) file rest' hfile
  refine ⟨_, ⟨n', hn'⟩, ?_, ?_⟩
  · rw [List.length_mapIdx, List.length_map, e2, hblocks, List.length_map, hlen2]
  · intro k r v hk
    have hklt := (List.getElem?_eq_some_iff.mp hk).1
    obtain ⟨s, hsk⟩ : ∃ s, w.added[k]? = some s := ⟨_, List.getElem?_eq_getElem (by omega)⟩
    obtain ⟨q, hq, ht, hid, hdat, hvn⟩ := hget k s hsk
    rw [hk] at hq
    cases hq
    have hbk : w.blocks.flatten[k]? = some { s with stamp := some o.base } := by rw [hblocks, List.getElem?_map, hsk]; rfl
    have hvk : (ps.map (·.2))[k]? = some v := by rw [List.getElem?_map, hk]; rfl
    have hrec := e3 k _ v hbk hvk
    rw [hrender k s r ht hdat] at hrec
    have hoff : (SSt.init.sd 0).length + (sdBytes ((ps.map (·.2)).take k)).length = (sdBytes ((ps.map (·.2)).take k)).length := Nat.zero_add _
    rw [hoff] at hrec
    have hrsize : (resorted o.master k r).length = size := by rw [hreslen]; exact (hsize _ (List.mem_of_getElem? hk)).1
    have hpl : (patchIndex (resorted o.master k r) (sdBytes ((ps.map (·.2)).take k)).length).length = size := by
      rw [patchIndex_length, hrsize]
    refine ⟨patchIndex (resorted o.master k r) (sdBytes ((ps.map (·.2)).take k)).length, (sdBytes ((ps.map (·.2)).take k)).length, ?_, hpl, ?_, ?_, ?_⟩
    · rw [List.getElem?_mapIdx, List.getElem?_map, hrec, Option.map_some, Option.map_some]
      congr 2
      rw [List.countP_eq_length.mpr, List.length_take, List.length_map, e2, hblocks, List.length_map]
      · omega
      · intro x hx
        obtain ⟨y, hy, rfl⟩ := List.mem_map.mp (List.mem_of_mem_take hx)
        obtain ⟨j, hj⟩ := List.getElem?_of_mem hy
        have hjl := (List.getElem?_eq_some_iff.mp hj).1
        rw [e2] at hjl
        have hjl' := hjl
        rw [hblocks, List.length_map, hlen2] at hjl'
        rw [e3 j _ _ (List.getElem?_eq_getElem hjl) (List.getElem?_eq_getElem (by simpa using hjl'))] at hj
        cases hj
        simp
    · unfold patchIndex
      rw [if_pos (by omega), List.take_append_of_le_length (by rw [List.length_take]; omega), List.take_take, hrsize, Nat.min_self]
    · unfold patchIndex
      rw [if_pos (by omega), hrsize, List.drop_append_of_le_length (by rw [List.length_take]; omega), List.drop_take, Nat.sub_self,
        List.take_zero, List.nil_append, leNat_leBytes, Nat.mod_eq_of_lt]
      have : (sdBytes ((ps.map (·.2)).take k)).length ≤ (sdBytes (ps.map (·.2))).length := by
        conv => rhs; rw [← List.take_append_drop k (ps.map (·.2))]
        simp only [sdBytes, List.flatMap_append, List.length_append]
        omega
      omega
    · exact sdBytes_get hvk (by have := (hsize _ (List.mem_of_getElem? hk)).2; simp only at this; omega) h64

/-- Values in the signal data of the source are not copied: whatever is stored for the copied samples of a group without VLSD group, the
signal data of the sorted file are empty, and no value is found at any offset. -/
theorem C57_signal_data_lost (size : Nat) (sd : Bool) (m : Option Master) (ss : List Sample) (h : ∀ s ∈ ss, s.vlsd = none) :
    ((sortedCfg size sd m).store ss SSt.init).2.sd 0 = [] ∧
    ∀ offset, offset + 4 < 2 ^ 64 → sdGet (((sortedCfg size sd m).store ss SSt.init).2.sd 0) offset = .fail := by
  have key : ∀ (ss : List Sample) (st : SSt), (∀ s ∈ ss, s.vlsd = none) → ((sortedCfg size sd m).store ss st).2.sd = st.sd := by
    intro ss
    induction ss with
    | nil => intro st _; rfl
    | cons s ss ih =>
      intro st hs
      have hone : ((sortedCfg size sd m).storeOne st s).2.sd = st.sd := by
        unfold SCfg.storeOne
        rw [sortedCfg_find, hs s List.mem_cons_self]
        rfl
      simp only [SCfg.store]
      rw [ih _ (fun s h => hs s (List.mem_cons_of_mem _ h)), hone]
  rw [key ss SSt.init h]
  refine ⟨rfl, fun offset ho => ?_⟩
  show sdGet [] offset = .fail
  unfold sdGet
  rw [Nat.mod_eq_of_lt ho, if_pos (by simp)]

/-! ### A file -/

/-- Two groups and the VLSD group 2 of group 1, mixed. -/
def exMixed : RCfg :=
  { idSize := 1, groups := [⟨1, false, 8, 2⟩, ⟨2, true, 0, 2⟩, ⟨5, false, 1, 3⟩], subs := fun _ => true, cont := fun _ => true }

def exMixedRecs : List Rec :=
  [⟨5, [1]⟩, ⟨2, [7]⟩, ⟨5, [2]⟩, ⟨1, [0, 0, 0, 0, 0, 0, 0, 0]⟩, ⟨1, [5, 0, 0, 0, 0, 0, 0, 0]⟩, ⟨5, [3]⟩, ⟨2, [8, 9]⟩]

example : exMixed.Ok := by
  refine ⟨by show [1, 2, 5].Nodup; decide, .inr (.inl rfl), fun _ g hg => ?_, fun h => absurd h (by show ¬ 1 = 0; decide),
    fun h => absurd h (by show ¬ 1 = 0; decide)⟩
  show g.id < 256
  revert g
  decide

example : ∀ r ∈ exMixedRecs, exMixed.ValidRec r := by
  intro r hr
  simp only [exMixedRecs, List.mem_cons, List.not_mem_nil, or_false] at hr
  rcases hr with rfl | rfl | rfl | rfl | rfl | rfl | rfl
  · exact ⟨⟨5, false, 1, 3⟩, rfl, by decide⟩
  · exact ⟨⟨2, true, 0, 2⟩, rfl, by decide⟩
  · exact ⟨⟨5, false, 1, 3⟩, rfl, by decide⟩
  · exact ⟨⟨1, false, 8, 2⟩, rfl, by decide⟩
  · exact ⟨⟨1, false, 8, 2⟩, rfl, by decide⟩
  · exact ⟨⟨5, false, 1, 3⟩, rfl, by decide⟩
  · exact ⟨⟨2, true, 0, 2⟩, rfl, by decide⟩

example : Paired 1 2 (exMixedRecs.filter fun r => r.id = 1 ∨ r.id = 2)
    [([0, 0, 0, 0, 0, 0, 0, 0], [7]), ([5, 0, 0, 0, 0, 0, 0, 0], [8, 9])] :=
  .before _ _ (.after _ _ .nil)

def exFixedObs : RecObs := { id := 5, vlsdIds := [], store := .fixed, base := 1000, master := none, dest := 0 }

example : exFixedObs.copied (exMixed.deliver [] exMixedRecs) =
    [⟨1000, 0, [1], none, none⟩, ⟨1000, 0, [2], none, none⟩, ⟨1000, 0, [3], none, none⟩] ∧
    exVlsdObs.copied (exMixed.deliver [] exMixedRecs) =
    [⟨1000, 0, [0, 0, 0, 0, 0, 0, 0, 0], some [7], none⟩, ⟨1000, 0, [5, 0, 0, 0, 0, 0, 0, 0], some [8, 9], none⟩] := by
  decide +kernel

/-- A master channel of whole seconds in the first byte. -/
def exMaster : Master := { get := fun _ r => ((r.headD 0).toNat : Rat), set := fun x r => BitVec.ofNat 8 x.floor.toNat :: r.drop 1 }

/-- A measurement of the copied samples, and the block it makes. -/
example : ∃ w, Measured ((sortedCfg 1 false (some exMaster)).queue false true false 0) 1000
      (({ exFixedObs with master := some exMaster } : RecObs).copied (exMixed.deliver [] exMixedRecs)) w ∧
    ((sortedCfg 1 false (some exMaster)).chunks w.blocks SSt.init).flatten = [1, 2, 3] := by
  refine ⟨_, ⟨[], [.add ⟨1000001000, 0, [1], none, none⟩, .add ⟨2000001000, 0, [2], none, none⟩, .wake, .opened true, .enter,
      .add ⟨3000001000, 0, [3], none, none⟩, .store false],
    [.store false, .store false, .close, .wake, .opened true, .enter, .close, .stopped 1000], _, _, rfl, rfl, rfl, ?_, ?_, ?_, .inr rfl, rfl, ?_⟩, ?_⟩
  · intro t h; simp at h
  · decide
  · decide
  · decide +kernel
  · decide +kernel

end Mdf
