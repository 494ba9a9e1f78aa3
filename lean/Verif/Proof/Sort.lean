import Verif.Model.Sort
import Verif.Spec.Sort
import Verif.Props.Store
import Verif.Props.Vlsd
import Verif.Props.Read

namespace Mdf

/-! ### Nothing is trimmed by the converter queue -/

theorem untrimmed_run {cfg : WCfg} (hc : cfg.trims = false) (acts : List Act) : ∀ {w w' : W}, Stops w →
    (∀ x ∈ w.fates, x.2 ≠ .trimmed) → W.run cfg acts w = some w' → ∀ x ∈ w'.fates, x.2 ≠ .trimmed := by
  induction acts with
  | nil => intro w w' _ h hr; cases hr; exact h
  | cons a acts ih =>
    intro w w' hS h hr
    unfold W.run at hr
    cases hs : w.step cfg a with
    | none => rw [hs] at hr; cases hr
    | some w2 =>
      rw [hs] at hr
      refine ih (hS.step a hs) ?_ hr
      obtain ⟨d, e, hf, he, hd, -⟩ := (step_shape hS a hs).fates
      have hd : d = [] := by
        rcases hd with hd | ⟨-, hd⟩
        · exact hd
        · rw [hd]; unfold WCfg.trim; rw [hc]; rfl
      rw [hf, hd]
      intro x hx
      rcases List.mem_append.mp hx with hx | hx
      · rw [List.map_nil, List.append_nil] at hx; exact h x hx
      · exact he x hx

/-! ### The notifications an observer needs -/

theorem deliver_ids (cfg : RCfg) (p : Nat → Bool) (recs : List Rec) : ∀ before,
    (cfg.deliver before recs).filter (fun e => p e.id) =
      cfg.deliver (before.filter fun r => p r.id) (recs.filter fun r => p r.id) := by
  induction recs with
  | nil => intro before; rfl
  | cons r rs ih =>
    intro before
    simp only [RCfg.deliver]
    have ih := ih (before ++ [r])
    by_cases hp : p r.id = true
    · rw [List.filter_cons_of_pos (by simpa using hp)]
      simp only [RCfg.deliver]
      have hcount : (before.filter fun r => p r.id).countP (·.id = r.id) = before.countP (·.id = r.id) := by
        rw [List.countP_filter]
        apply List.countP_congr
        intro x _
        by_cases hx : x.id = r.id
        · simp [hx, hp]
        · simp [hx]
      rw [List.filter_append, List.filter_cons_of_pos (by simpa using hp), List.filter_nil] at ih
      rw [hcount]
      split
      · rw [List.filter_cons_of_pos (by simpa using hp), ih]
      · exact ih
    · rw [List.filter_cons_of_neg (by simpa using hp)]
      rw [List.filter_append, List.filter_cons_of_neg (by simpa using hp), List.filter_nil, List.append_nil] at ih
      split
      · rw [List.filter_cons_of_neg (by simpa using hp), ih]
      · exact ih

theorem foldl_needs (o : RecObs) (events : List Event) : ∀ st,
    events.foldl o.onSample st = (events.filter fun e => o.needs.contains e.id).foldl o.onSample st := by
  induction events with
  | nil => intro st; rfl
  | cons e es ih =>
    intro st
    by_cases h : e.id ∈ o.needs
    · rw [List.filter_cons_of_pos (by simpa using h), List.foldl_cons, List.foldl_cons, ih]
    · rw [List.filter_cons_of_neg (by simpa using h), List.foldl_cons, ih]
      unfold RecObs.onSample
      rw [if_neg h]

/-- Only the records of the needed groups count. -/
theorem copied_deliver (o : RecObs) (cfg : RCfg) (recs : List Rec) :
    o.copied (cfg.deliver [] recs) = o.copied (cfg.deliver [] (recs.filter fun r => o.needs.contains r.id)) := by
  unfold RecObs.copied
  rw [foldl_needs, deliver_ids cfg (fun i => o.needs.contains i) recs []]
  rfl

/-! ### Fixed length storage -/

theorem fixed_step {o : RecObs} (hs : o.store ≠ .vlsd) {st : RecObsSt} {k : Nat} (hc : st.newer k = true)
    {d : Bytes} (hd : d ≠ []) :
    o.onSample st ⟨k, o.id, d⟩ =
      { current := some k, record := [], vlsd := none, time := 0, out := st.out ++ [⟨o.stamp k d, o.dest, d, none, none⟩] } := by
  unfold RecObs.onSample
  rw [if_pos (show o.id ∈ o.needs from List.mem_cons_self)]
  unfold RecObsSt.advance
  rw [if_pos hc]
  unfold RecObs.keep
  rw [if_pos rfl]
  unfold RecObs.finish
  rw [if_neg hd]
  unfold RecObs.handle
  cases h : o.store with
  | vlsd => exact absurd h hs
  | _ => rfl

theorem newer_of_lt {st : RecObsSt} {k : Nat} (h : ∀ c, st.current = some c → c < k) : st.newer k = true := by
  unfold RecObsSt.newer
  cases hc : st.current with
  | none => rfl
  | some c => simpa using h c hc

theorem fixed_fold {o : RecObs} (hs : o.store ≠ .vlsd) (cfg : RCfg) (hsub : cfg.subs o.id = true) (recs : List Rec) :
    ∀ (before : List Rec) (st : RecObsSt), (∀ r ∈ before ++ recs, r.id = o.id) → (∀ r ∈ recs, r.data ≠ []) →
    st.vlsd = none → (∀ c, st.current = some c → c < before.length) →
    ((cfg.deliver before recs).foldl o.onSample st).out =
      st.out ++ ((recs.take (cfg.nof o.id - before.length)).mapIdx fun k r =>
        ⟨o.stamp (before.length + k) r.data, o.dest, r.data, none, none⟩) := by
  induction recs with
  | nil => intro before st _ _ _ _; simp [RCfg.deliver]
  | cons r rs ih =>
    intro before st hid hne hv hc
    have hr : r.id = o.id := hid r (by simp)
    have hcount : before.countP (·.id = r.id) = before.length := by
      rw [List.countP_eq_length]
      intro x hx
      simp [hid x (List.mem_append_left _ hx), hr]
    simp only [RCfg.deliver]
    rw [hcount, hr, hsub]
    have hid' : ∀ x ∈ (before ++ [r]) ++ rs, x.id = o.id := by
      intro x hx; apply hid; simpa using hx
    by_cases hn : before.length < cfg.nof o.id
    · rw [if_pos ⟨rfl, hn⟩, List.foldl_cons, fixed_step hs (newer_of_lt hc) (hne r (by simp)),
        ih (before ++ [r]) _ hid' (fun x hx => hne x (by simp [hx])) rfl (by simp)]
      have hk : cfg.nof o.id - before.length = (cfg.nof o.id - (before ++ [r]).length) + 1 := by simp; omega
      rw [hk, List.take_succ_cons, List.mapIdx_cons]
      simp [Nat.add_assoc, Nat.add_comm 1]
    · rw [if_neg (by intro h; exact hn h.2), ih (before ++ [r]) _ hid' (fun x hx => hne x (by simp [hx])) hv
        (fun c h => by have := hc c h; simp; omega)]
      have h1 : cfg.nof o.id - (before ++ [r]).length = 0 := by simp; omega
      have h2 : cfg.nof o.id - before.length = 0 := by omega
      rw [h1, h2]
      simp

/-! ### Values in a VLSD group -/

theorem vlsd_pair_before {o : RecObs} {vid : Nat} (hs : o.store = .vlsd) (hm : vid ∈ o.vlsdIds) (hne : vid ≠ o.id) {st : RecObsSt}
    {k : Nat} (hc : st.newer k = true) {r v : Bytes} (hr : r ≠ []) :
    o.onSample (o.onSample st ⟨k, vid, v⟩) ⟨k, o.id, r⟩ =
      { current := some k, record := [], vlsd := none, time := 0, out := st.out ++ [⟨o.stamp k r, o.dest, r, some v, none⟩] } := by
  have h1 : o.onSample st ⟨k, vid, v⟩ = { current := some k, record := [], vlsd := some v, time := 0, out := st.out } := by
    unfold RecObs.onSample
    rw [if_pos (show vid ∈ o.needs from List.mem_cons_of_mem _ hm)]
    unfold RecObsSt.advance
    rw [if_pos hc]
    unfold RecObs.keep
    rw [if_neg hne]
    rfl
  rw [h1]
  unfold RecObs.onSample
  rw [if_pos (show o.id ∈ o.needs from List.mem_cons_self)]
  have : RecObsSt.advance { current := some k, record := [], vlsd := some v, time := 0, out := st.out } k =
      { current := some k, record := [], vlsd := some v, time := 0, out := st.out } := by
    unfold RecObsSt.advance RecObsSt.newer
    simp
  rw [this]
  unfold RecObs.keep
  rw [if_pos rfl]
  unfold RecObs.finish
  rw [if_neg hr]
  unfold RecObs.handle
  rw [hs]
  rfl

theorem vlsd_pair_after {o : RecObs} {vid : Nat} (hs : o.store = .vlsd) (hm : vid ∈ o.vlsdIds) (hne : vid ≠ o.id) {st : RecObsSt}
    {k : Nat} (hc : st.newer k = true) {r v : Bytes} (hr : r ≠ []) :
    o.onSample (o.onSample st ⟨k, o.id, r⟩) ⟨k, vid, v⟩ =
      { current := some k, record := [], vlsd := none, time := 0, out := st.out ++ [⟨o.stamp k r, o.dest, r, some v, none⟩] } := by
  have h1 : o.onSample st ⟨k, o.id, r⟩ = { current := some k, record := r, vlsd := none, time := o.stamp k r, out := st.out } := by
    unfold RecObs.onSample
    rw [if_pos (show o.id ∈ o.needs from List.mem_cons_self)]
    unfold RecObsSt.advance
    rw [if_pos hc]
    unfold RecObs.keep
    rw [if_pos rfl]
    unfold RecObs.finish
    rw [if_neg hr]
    unfold RecObs.handle
    rw [hs]
    rfl
  rw [h1]
  unfold RecObs.onSample
  rw [if_pos (show vid ∈ o.needs from List.mem_cons_of_mem _ hm)]
  have : RecObsSt.advance { current := some k, record := r, vlsd := none, time := o.stamp k r, out := st.out } k =
      { current := some k, record := r, vlsd := none, time := o.stamp k r, out := st.out } := by
    unfold RecObsSt.advance RecObsSt.newer
    simp
  rw [this]
  unfold RecObs.keep
  rw [if_neg hne]
  unfold RecObs.finish
  rw [if_neg hr]
  unfold RecObs.handle
  rw [hs]
  rfl

theorem vlsd_fold {o : RecObs} {vid : Nat} (hs : o.store = .vlsd) (hm : vid ∈ o.vlsdIds) (hne : vid ≠ o.id) (cfg : RCfg)
    (hsub : cfg.subs o.id = true ∧ cfg.subs vid = true) {recs : List Rec} {ps : List (Bytes × Bytes)} (hp : Paired o.id vid recs ps) :
    ∀ (before : List Rec) (n : Nat) (st : RecObsSt), before.countP (·.id = o.id) = n → before.countP (·.id = vid) = n →
    n + ps.length ≤ cfg.nof o.id → n + ps.length ≤ cfg.nof vid → (∀ p ∈ ps, p.1 ≠ []) → (∀ c, st.current = some c → c < n) →
    ((cfg.deliver before recs).foldl o.onSample st).out =
      st.out ++ (ps.mapIdx fun k p => ⟨o.stamp (n + k) p.1, o.dest, p.1, some p.2, none⟩) := by
  induction hp with
  | nil => intro before n st _ _ _ _ _ _; simp [RCfg.deliver]
  | before r v _ ih =>
    intro before n st h1 h2 hn1 hn2 hr hc
    simp only [List.length_cons] at hn1 hn2
    simp only [RCfg.deliver]
    rw [h2, if_pos ⟨hsub.2, by omega⟩]
    have e1 : (before ++ [(⟨vid, v⟩ : Rec)]).countP (·.id = o.id) = n := by simp [h1, hne]
    have e2 : (before ++ [(⟨vid, v⟩ : Rec)] ++ [(⟨o.id, r⟩ : Rec)]).countP (·.id = o.id) = n + 1 := by simp [h1, hne]
    have e3 : (before ++ [(⟨vid, v⟩ : Rec)] ++ [(⟨o.id, r⟩ : Rec)]).countP (·.id = vid) = n + 1 := by simp [h2, Ne.symm hne]
    rw [e1, if_pos ⟨hsub.1, by omega⟩, List.foldl_cons, List.foldl_cons,
      vlsd_pair_before hs hm hne (newer_of_lt hc) (hr (r, v) (by simp)),
      ih _ (n + 1) _ e2 e3 (by omega) (by omega) (fun p h => hr p (by simp [h])) (by simp), List.mapIdx_cons]
    simp [Nat.add_assoc, Nat.add_comm 1]
  | after r v _ ih =>
    intro before n st h1 h2 hn1 hn2 hr hc
    simp only [List.length_cons] at hn1 hn2
    simp only [RCfg.deliver]
    rw [h1, if_pos ⟨hsub.1, by omega⟩]
    have e1 : (before ++ [(⟨o.id, r⟩ : Rec)]).countP (·.id = vid) = n := by simp [h2, Ne.symm hne]
    have e2 : (before ++ [(⟨o.id, r⟩ : Rec)] ++ [(⟨vid, v⟩ : Rec)]).countP (·.id = o.id) = n + 1 := by simp [h1, hne]
    have e3 : (before ++ [(⟨o.id, r⟩ : Rec)] ++ [(⟨vid, v⟩ : Rec)]).countP (·.id = vid) = n + 1 := by simp [h2, Ne.symm hne]
    rw [e1, if_pos ⟨hsub.2, by omega⟩, List.foldl_cons, List.foldl_cons,
      vlsd_pair_after hs hm hne (newer_of_lt hc) (hr (r, v) (by simp)),
      ih _ (n + 1) _ e2 e3 (by omega) (by omega) (fun p h => hr p (by simp [h])) (by simp), List.mapIdx_cons]
    simp [Nat.add_assoc, Nat.add_comm 1]

/-! ### Times -/

theorem subTime_addTime {base : Nat} {rel : Int} (h : -2 ^ 63 ≤ rel ∧ rel < 2 ^ 63) : subTime (addTime base rel) base = rel := by
  unfold subTime addTime
  have h0 : 0 ≤ ((base : Int) + rel) % 2 ^ 64 := Int.emod_nonneg _ (by decide)
  rw [Int.toNat_of_nonneg h0]
  have : (((base : Int) + rel) % 2 ^ 64 - base) % 2 ^ 64 = rel % 2 ^ 64 := by
    rw [Int.emod_sub_emod]
    congr 1; omega
  simp only [this]
  split <;> omega

/-! ### The sorted group -/

theorem sortedCfg_distinct (size : Nat) (sd : Bool) (m : Option Master) : (sortedCfg size sd m).Distinct := by
  unfold SCfg.Distinct sortedCfg
  simp

theorem sortedCfg_find (size : Nat) (sd : Bool) (m : Option Master) (id : Nat) :
    (sortedCfg size sd m).find id = some ⟨0, false, size, 0⟩ := rfl

theorem sortedCfg_render_length {size : Nat} {sd : Bool} {m : Option Master} (hset : ∀ m' x r, m = some m' → (m'.set x r).length = r.length)
    (s : Sample) : ((sortedCfg size sd m).render s).length = s.data.length := by
  show (match m, s.stamp with
      | some m, some t => m.set (relSeconds (subTime s.time t)) s.data
      | _, _ => s.data).length = _
  cases hm : m with
  | none => rfl
  | some m' =>
    cases s.stamp with
    | none => rfl
    | some t => exact hset _ _ _ hm

theorem sortedCfg_ok {size : Nat} (hsize : 0 < size) (sd : Bool) (m : Option Master) (st : SSt) (subs : Nat → Bool)
    (cont : List Event → Bool) : ((sortedCfg size sd m).reader st subs cont).Ok := by
  refine ⟨?_, .inl rfl, fun h => absurd rfl h, fun _ => rfl, fun _ g hg _ => ?_⟩
  · show [0].Nodup
    simp
  · obtain ⟨g0, hg0, rfl⟩ := List.mem_map.mp hg
    have : g0 = ⟨0, false, size, 0⟩ := by simpa [sortedCfg] using hg0
    rw [this]
    exact hsize

end Mdf
