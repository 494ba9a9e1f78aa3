import Verif.Model.CanCall
import Verif.Props.Can
import Verif.Props.Channel

/-!
C84: CAN messages handed to a callback.
-/

namespace Mdf

theorem calls_append (o : CanObsCfg) (a b : List (Nat × Nat × Bytes)) : ∀ st,
    o.calls st (a ++ b) = ((o.calls (o.calls st a).1 b).1, (o.calls st a).2 ++ (o.calls (o.calls st a).1 b).2) := by
  induction a with
  | nil => intro st; simp [CanObsCfg.calls]
  | cons e a ih =>
    intro st
    simp only [List.cons_append, CanObsCfg.calls, ih]
    rw [List.append_assoc]

theorem calls_filter (o : CanObsCfg) (es : List (Nat × Nat × Bytes)) : ∀ st, o.calls st es = o.calls st (es.filter o.mine) := by
  induction es with
  | nil => intro st; rfl
  | cons e es ih =>
    intro st
    rw [List.filter_cons]
    by_cases h : o.mine e = true
    · rw [if_pos h]; simp only [CanObsCfg.calls, ih]
    · rw [if_neg h]
      have hn : o.onCall st e.1 e.2.1 e.2.2 = (st, [], true) := by
        unfold CanObsCfg.onCall
        rw [if_pos]
        right
        unfold CanObsCfg.mine at h
        simpa using h
      simp only [CanObsCfg.calls, hn, List.nil_append, ih]

/-- One sample makes one call. -/
theorem calls_pair (o : CanObsCfg) (k : Nat) (st : CanObs) (x : Bytes × Bytes) (hc : st.current = if k = 0 then none else some (k - 1))
    (hk : k < o.nof) (hv : ∀ v, o.vlsdId = some v → v ≠ o.id) (hs : o.vlsdId.isSome = decide (o.cfg.readStore = .vlsd)) :
    (o.calls st (o.pair k x)).1.current = some k ∧
    (o.calls st (o.pair k x)).2 = [⟨k, .data, canTimeOf x.1,
      o.cfg.parse x.1 (if o.cfg.readStore = .fixed then o.signal x.1 else if o.cfg.readStore = .vlsd then x.2 else [])⟩] := by
  have hnof : o.nof ≠ 0 := by omega
  have hle : ¬ (k ≥ o.nof) := by omega
  have hnew : st.isNew k = true := by
    unfold CanObs.isNew
    rw [hc]
    by_cases h0 : k = 0
    · rw [if_pos h0]
    · rw [if_neg h0]; simp; omega
  unfold CanObsCfg.pair
  cases hvi : o.vlsdId with
  | none =>
    rw [hvi] at hs
    have hs : ¬ o.cfg.readStore = .vlsd := by simpa using hs
    simp [CanObsCfg.calls, CanObsCfg.onCall, hnof, hle, hnew, hs, hvi, CanObsCfg.fire]
  | some v =>
    rw [hvi] at hs
    have hs : o.cfg.readStore = .vlsd := by simpa using hs
    have hvne := hv v hvi
    have hold : ∀ r w b, CanObs.isNew ⟨some k, r, w, b⟩ k = false := by intro r w b; simp [CanObs.isNew]
    simp [CanObsCfg.calls, CanObsCfg.onCall, hnof, hle, hnew, hold, hs, hvi, CanObsCfg.fire, hvne]

theorem calls_all (o : CanObsCfg) (hv : ∀ v, o.vlsdId = some v → v ≠ o.id) (hs : o.vlsdId.isSome = decide (o.cfg.readStore = .vlsd)) :
    ∀ (xs : List (Bytes × Bytes)) (k : Nat) (st : CanObs), st.current = (if k = 0 then none else some (k - 1)) → k + xs.length ≤ o.nof →
    (o.calls st (xs.mapIdx fun i x => o.pair (k + i) x).flatten).2 = xs.mapIdx fun i x => ⟨k + i, .data, canTimeOf x.1,
      o.cfg.parse x.1 (if o.cfg.readStore = .fixed then o.signal x.1 else if o.cfg.readStore = .vlsd then x.2 else [])⟩ := by
  intro xs
  induction xs with
  | nil => intro k st _ _; rfl
  | cons x xs ih =>
    intro k st hc hk
    simp only [List.length_cons] at hk
    obtain ⟨h1, h2⟩ := calls_pair o k st x hc (by omega) hv hs
    have h3 := ih (k + 1) (o.calls st (o.pair k x)).1 (by rw [h1]; simp) (by omega)
    have e2 : (xs.mapIdx fun i y => o.pair (k + (i + 1)) y) = xs.mapIdx fun i y => o.pair (k + 1 + i) y := by
      congr 1; funext i y; congr 1; omega
    rw [List.mapIdx_cons, List.flatten_cons, calls_append, List.mapIdx_cons, Nat.add_zero]
    dsimp only
    rw [h2, e2, h3, List.singleton_append]
    congr 2
    funext i y
    congr 1
    omega

/-- The message decoded of a saved record. -/
theorem parse_saved (o : CanObsCfg) (ok : o.cfg.Ok) (x : CanSaved)
    (hx : x.Ok o.cfg ∧ x.msg.data.length ≤ 255 ∧ (o.cfg.readStore = .fixed → o.signal x.record = x.msg.data))
    (hmax : o.cfg.store = .mlsd → x.msg.data.length ≤ o.cfg.writerMax) :
    o.cfg.parse x.record (if o.cfg.readStore = .fixed then o.signal x.record else if o.cfg.readStore = .vlsd then x.msg.data else []) =
      o.cfg.kept x.msg ∧ canTimeOf x.record = BitVec.ofNat 64 (leNat (x.before.record.take 8)) := by
  obtain ⟨hok, hlen, hsig⟩ := hx
  have hst := stored_spec o.cfg ok x.msg x.before x.after hok.size hok.fresh x.index hok.saved
  have h8 : (x.before.record.take 8).length = 8 := by
    rw [List.length_take, hok.size, recordSize_eq ok]; omega
  obtain ⟨hsz, ht⟩ : x.record.length = o.cfg.recordSize ∧ x.record.take 8 = x.before.record.take 8 := by
    obtain ⟨s', h1, h2, h3, -⟩ := C34_members_partial o.cfg ok x.msg x.before x.index hok.size hok.fresh
    rw [hok.saved] at h1
    injection h1 with h1
    subst h1
    exact ⟨h2, h3⟩
  have hsmall : x.record.length ≤ 2 ^ 28 := by
    rw [hsz, recordSize_eq ok]
    have hw := ok.2
    unfold CanCfg.frameBytes
    split <;> (repeat' split) <;> omega
  refine ⟨?_, ?_⟩
  · rw [← parse_spec o.cfg ok x.msg x.record _ x.index h8 hsmall hst (fun h => ⟨hlen, hmax h⟩)]
    by_cases hf : o.cfg.readStore = .fixed
    · rw [if_pos hf, hsig hf]
    · rw [if_neg hf]
      by_cases hvs : o.cfg.readStore = .vlsd
      · rw [if_pos hvs]
      · rw [if_neg hvs]
        have hml : o.cfg.store = .mlsd := by
          unfold CanCfg.readStore at hf hvs
          cases hfr : o.cfg.frame <;> simp [hfr] at hf hvs <;> (cases hst : o.cfg.store <;> simp_all)
        exact parse_mlsd o.cfg hml _ _ _
  · have hf := (C05_get_float .le canTime x.record 0 rfl (Or.inr (Or.inr rfl)) (by decide) (by decide) hsmall).1
      (by rw [hsz, recordSize_eq ok]; show 0 + 64 ≤ 8 * _; omega)
    unfold canTimeOf
    rw [hf]
    dsimp only
    congr 1
    show leNat x.record / 2 ^ (8 * 0) % 2 ^ (8 * 8) = _
    rw [leNat_slice _ _ _ (by rw [hsz, recordSize_eq ok]; omega), List.drop_zero, ht]

/-- **C84, full statement.** While a CAN group is read, in a data group with any other groups, the callback is called once for each message, in the
order they were saved, with the number of the sample, the kind of the group, the time of the sample and the members of the message. -/
def C84_Statement : Prop :=
  ∀ (o : CanObsCfg) (xs : List CanSaved) (events : List (Nat × Nat × Bytes)), o.cfg.Ok →
    (∀ v, o.vlsdId = some v → v ≠ o.id) → (o.vlsdId.isSome = decide (o.cfg.readStore = .vlsd)) →
    (∀ x ∈ xs, x.Ok o.cfg ∧ x.msg.data.length ≤ 255 ∧ (o.cfg.readStore = .fixed → o.signal x.record = x.msg.data)) →
    xs.length ≤ o.nof → events.filter o.mine = o.events xs →
    (o.calls o.start events).2.length = xs.length ∧
    ∀ (i : Nat) (x : CanSaved) (g : CanCall), xs[i]? = some x → (o.calls o.start events).2[i]? = some g →
      g.sample = i ∧ g.kind = o.cfg.frame ∧ g.time = BitVec.ofNat 64 (leNat (x.before.record.take 8)) ∧ o.cfg.Preserves [] x.msg g.msg

/-- **C84, partial.** One call for each message, in order, with sample number, time and members, except for the kind of other frames than data frames
(`C84_kind_lost`) and the members that are not read back (C52). -/
theorem C84_calls_partial (o : CanObsCfg) (xs : List CanSaved) (events : List (Nat × Nat × Bytes)) (ok : o.cfg.Ok)
    (hv : ∀ v, o.vlsdId = some v → v ≠ o.id) (hs : o.vlsdId.isSome = decide (o.cfg.readStore = .vlsd))
    (hx : ∀ x ∈ xs, x.Ok o.cfg ∧ x.msg.data.length ≤ 255 ∧ (o.cfg.readStore = .fixed → o.signal x.record = x.msg.data))
    (hn : xs.length ≤ o.nof) (hev : events.filter o.mine = o.events xs)
    (hmax : o.cfg.store = .mlsd → ∀ x ∈ xs, x.msg.data.length ≤ o.cfg.writerMax) :
    (o.calls o.start events).2.length = xs.length ∧
    ∀ (i : Nat) (x : CanSaved) (g : CanCall), xs[i]? = some x → (o.calls o.start events).2[i]? = some g →
      g.sample = i ∧ (o.cfg.frame = .data → g.kind = o.cfg.frame) ∧ g.time = BitVec.ofNat 64 (leNat (x.before.record.take 8)) ∧
      o.cfg.Preserves (.dlc :: canLost o.cfg) x.msg g.msg := by
  have e : o.events xs = ((xs.map fun x => (x.record, x.msg.data)).mapIdx fun i x => o.pair (0 + i) x).flatten := by
    unfold CanObsCfg.events
    congr 1
    apply List.ext_getElem?
    intro i
    rw [List.getElem?_mapIdx, List.getElem?_mapIdx, List.getElem?_map, Option.map_map, Nat.zero_add]
    rfl
  have h := calls_all o hv hs (xs.map fun x => (x.record, x.msg.data)) 0 o.start rfl (by simpa using hn)
  rw [calls_filter, hev, e, h]
  refine ⟨by simp, fun i x g hi hg => ?_⟩
  rw [List.getElem?_mapIdx, List.getElem?_map, hi] at hg
  simp only [Option.map_some, Option.some.injEq] at hg
  subst hg
  have hm := List.mem_of_getElem? hi
  obtain ⟨hp, ht⟩ := parse_saved o ok x (hx x hm) (fun h => hmax h x hm)
  exact ⟨by simp, fun h => h.symm, ht, by rw [hp]; exact kept_preserves o.cfg x.msg⟩

/-- The hypotheses are met by the events of C52, and the calls are made. -/
example : ((exCanObs.calls exCanObs.start exCanEvents).2.map fun c => (c.sample, c.msg.data)) = [(0, [1, 2]), (1, [5])] := by decide +kernel

/-- Every call says it is a data frame. -/
theorem C84_kind_lost (o : CanObsCfg) (events : List (Nat × Nat × Bytes)) : ∀ st, ∀ g ∈ (o.calls st events).2, g.kind = .data := by
  induction events with
  | nil => intro st g hg; simp [CanObsCfg.calls] at hg
  | cons e events ih =>
    intro st g hg
    simp only [CanObsCfg.calls, List.mem_append] at hg
    rcases hg with hg | hg
    · unfold CanObsCfg.onCall at hg
      split at hg
      · simp at hg
      · split at hg
        · simp at hg
        · dsimp only at hg
          split at hg <;> split at hg <;> simp at hg <;> first | (rw [hg]; rfl) | (rw [hg.2]; rfl)
    · exact ih _ g hg

/-- So the full statement is false: a remote frame is handed over as data frame. -/
theorem C84_kind_false : ¬ C84_Statement := by
  intro h
  obtain ⟨x, hx⟩ : ∃ x : CanSaved, x = ⟨CanMsg.init, ⟨List.replicate 24 0, false, []⟩,
    ((CanCfg.mk .remote false .fixed 8).save CanMsg.init ⟨List.replicate 24 0, false, []⟩).getD ⟨[], false, []⟩, 0⟩ := ⟨_, rfl⟩
  obtain ⟨h1, h2⟩ := h ⟨⟨.remote, false, .fixed, 8⟩, 1, none, 1, fun _ => []⟩ [x] [(0, 1, x.record)] (by decide) (by simp) rfl (by
      intro y hy
      simp only [List.mem_singleton] at hy
      subst hy hx
      exact ⟨⟨by decide +kernel, rfl, by decide +kernel⟩, by decide, fun _ => rfl⟩) (by simp)
    (by simp [CanObsCfg.mine, CanObsCfg.events, CanObsCfg.pair])
  obtain ⟨g, hg⟩ := List.length_eq_one_iff.mp h1
  have hk := (h2 0 x g (by simp) (by rw [hg]; rfl)).2.1
  have hd := C84_kind_lost _ _ _ g (by rw [hg]; simp)
  rw [hd] at hk
  cases hk

/-- The calls of a second reading with the same observer as wanted: those of the first. -/
def C84_Again_Statement : Prop :=
  ∀ (o : CanObsCfg) (events : List (Nat × Nat × Bytes)), (∀ e ∈ events, e.1 < o.nof) →
    (o.calls (o.calls o.start events).1 events).2 = (o.calls o.start events).2

/-- The state after a reading: the current sample index stays. -/
theorem calls_current (o : CanObsCfg) (events : List (Nat × Nat × Bytes)) (last : Nat) : ∀ st : CanObs, st.current = some last →
    (∀ e ∈ events, e.1 ≤ last) → (∀ g ∈ (o.calls st events).2, g.sample = last) ∧ (o.calls st events).1.current = some last := by
  induction events with
  | nil => intro st h _; exact ⟨by simp [CanObsCfg.calls], h⟩
  | cons e events ih =>
    intro st h he
    have hold : st.isNew e.1 = false := by
      simp only [CanObs.isNew, h]
      have := he e (by simp)
      simp; omega
    have hstep : (∀ g ∈ (o.onCall st e.1 e.2.1 e.2.2).2.1, g.sample = last) ∧ (o.onCall st e.1 e.2.1 e.2.2).1.current = some last := by
      unfold CanObsCfg.onCall
      split
      · exact ⟨by simp, h⟩
      · split
        · exact ⟨by simp, h⟩
        · simp only [hold, Bool.false_eq_true, if_false, and_false]
          split <;> simp [CanObsCfg.fire, h]
    obtain ⟨h1, h2⟩ := ih _ hstep.2 (fun x hx => he x (by simp [hx]))
    refine ⟨?_, h2⟩
    intro g hg
    simp only [CanObsCfg.calls, List.mem_append] at hg
    rcases hg with hg | hg
    · exact hstep.1 g hg
    · exact h1 g hg

/-- Once the observer has seen sample `last`, all calls of a later reading of samples up to `last` say sample `last`, whatever is in the file. -/
theorem C84_again_sample (o : CanObsCfg) (st : CanObs) (last : Nat) (events : List (Nat × Nat × Bytes)) (h : st.current = some last)
    (he : ∀ e ∈ events, e.1 ≤ last) : ∀ g ∈ (o.calls st events).2, g.sample = last := (calls_current o events last st h he).1

/-- So the statement about a second reading is false.  With a VLSD group there are two calls for each sample besides. -/
theorem C84_again_false : ¬ C84_Again_Statement := by
  intro h
  have := congrArg (fun l => l.map (·.sample)) (h exCanObs exCanEvents (by decide +kernel))
  revert this
  decide +kernel

example : ((exCanObs.calls (exCanObs.calls exCanObs.start exCanEvents).1 exCanEvents).2.map fun c => (c.sample, c.msg.data)) =
    [(1, [1, 2]), (1, [1, 2]), (1, [5]), (1, [5])] := by decide +kernel

end Mdf
