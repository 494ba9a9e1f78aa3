import Verif.Proof.CanParse

namespace Mdf

/-- The records the observer is interested in. -/
def CanObsCfg.mine (o : CanObsCfg) (e : Nat × Nat × Bytes) : Bool := e.2.1 = o.id ∨ some e.2.1 = o.vlsdId

theorem obs_run_filter (o : CanObsCfg) (es : List (Nat × Nat × Bytes)) : ∀ st, o.run st es = o.run st (es.filter o.mine) := by
  induction es with
  | nil => intro st; rfl
  | cons e es ih =>
    intro st
    rw [List.filter_cons]
    by_cases h : o.mine e = true
    · rw [if_pos h]; simp only [CanObsCfg.run]; exact ih _
    · rw [if_neg h]
      simp only [CanObsCfg.run]
      have hn : (o.onSample st e.1 e.2.1 e.2.2).1 = st := by
        unfold CanObsCfg.onSample
        rw [if_pos]
        right
        unfold CanObsCfg.mine at h
        simpa [CanObsCfg.run] using h
      rw [hn]; exact ih _

theorem obs_run_append (o : CanObsCfg) (a b : List (Nat × Nat × Bytes)) : ∀ st, o.run st (a ++ b) = o.run (o.run st a) b := by
  induction a with
  | nil => intro st; rfl
  | cons e a ih => intro st; simp only [List.cons_append, CanObsCfg.run]; exact ih _

/-- The events of sample `k`: the variable length data first. -/
def CanObsCfg.pair (o : CanObsCfg) (k : Nat) (x : Bytes × Bytes) : List (Nat × Nat × Bytes) :=
  match o.vlsdId with
  | some v => [(k, v, x.2), (k, o.id, x.1)]
  | none => [(k, o.id, x.1)]

/-- The state after the first samples. -/
structure CanObsCfg.Seen (o : CanObsCfg) (k : Nat) (done : List (Option CanMsg)) (st : CanObs) : Prop where
  current : st.current = if k = 0 then none else some (k - 1)
  length : done.length = k
  buffer : st.buffer = done ++ List.replicate (o.nof - k) none

theorem set_next (done : List (Option CanMsg)) (n k : Nat) (x : Option CanMsg) (hd : done.length = k) (hk : k < n) :
    (done ++ List.replicate (n - k) none).set k x = (done ++ [x]) ++ List.replicate (n - (k + 1)) none := by
  obtain ⟨j, hj⟩ : ∃ j, n - k = j + 1 := ⟨n - k - 1, by omega⟩
  rw [hj, List.replicate_succ, List.set_append_right _ _ (by omega), hd, Nat.sub_self, List.set_cons_zero]
  have : n - (k + 1) = j := by omega
  rw [this, List.append_assoc]
  rfl

theorem seen_step (o : CanObsCfg) (k : Nat) (done : List (Option CanMsg)) (st : CanObs) (x : Bytes × Bytes) (h : o.Seen k done st)
    (hk : k < o.nof) (hv : ∀ v, o.vlsdId = some v → v ≠ o.id) (hs : o.vlsdId.isSome = decide (o.cfg.readStore = .vlsd)) :
    o.Seen (k + 1)
      (done ++ [some (o.cfg.parse x.1 (if o.cfg.readStore = .fixed then o.signal x.1 else if o.cfg.readStore = .vlsd then x.2 else []))])
      (o.run st (o.pair k x)) := by
  obtain ⟨hc, hl, hb⟩ := h
  have hnof : o.nof ≠ 0 := by omega
  have hle : ¬ (k ≥ o.nof) := by omega
  have hnew : st.isNew k = true := by
    unfold CanObs.isNew
    rw [hc]
    by_cases h0 : k = 0
    · rw [if_pos h0]
    · rw [if_neg h0]; simp; omega
  have hnext := set_next done o.nof k
  unfold CanObsCfg.pair
  cases hvi : o.vlsdId with
  | none =>
    rw [hvi] at hs
    have hs : ¬ o.cfg.readStore = .vlsd := by simpa using hs
    simp only [CanObsCfg.run, CanObsCfg.onSample, hnof, hle, hnew, hs, hvi, CanObsCfg.put, if_true, if_false, ne_eq, not_true_eq_false,
      true_or, or_self, false_and, Option.getD_some]
    refine ⟨by simp, by simp [hl], ?_⟩
    simp only [hb, hnext _ hl hk]
  | some v =>
    rw [hvi] at hs
    have hs : o.cfg.readStore = .vlsd := by simpa using hs
    have hvne := hv v hvi
    have hold : ∀ r w b, CanObs.isNew ⟨some k, r, w, b⟩ k = false := by intro r w b; simp [CanObs.isNew]
    simp only [CanObsCfg.run, CanObsCfg.onSample, hnof, hle, hnew, hold, hs, hvi, CanObsCfg.put, if_true, if_false, ne_eq, not_true_eq_false,
      or_true, true_or, or_self, Option.getD_some, hvne, not_false_eq_true,
      Bool.false_eq_true, and_false, reduceCtorEq]
    refine ⟨by simp, by simp [hl], ?_⟩
    simp only [hb, hnext _ hl hk]

/-- All samples of the group. -/
theorem seen_all (o : CanObsCfg) (hv : ∀ v, o.vlsdId = some v → v ≠ o.id)
    (hs : o.vlsdId.isSome = decide (o.cfg.readStore = .vlsd)) : ∀ (xs : List (Bytes × Bytes)) (k : Nat) (done : List (Option CanMsg))
    (st : CanObs), o.Seen k done st → k + xs.length ≤ o.nof →
    o.Seen (k + xs.length)
      (done ++ xs.map fun x => some (o.cfg.parse x.1
        (if o.cfg.readStore = .fixed then o.signal x.1 else if o.cfg.readStore = .vlsd then x.2 else [])))
      (o.run st (xs.mapIdx fun i x => o.pair (k + i) x).flatten) := by
  intro xs
  induction xs with
  | nil => intro k done st h hk; simpa [CanObsCfg.run] using h
  | cons x xs ih =>
    intro k done st h hk
    simp only [List.length_cons] at hk
    have h1 := seen_step o k done st x h (by omega) hv hs
    have h2 := ih (k + 1) _ _ h1 (by omega)
    rw [List.mapIdx_cons, List.flatten_cons, obs_run_append]
    have e1 : k + (x :: xs).length = k + 1 + xs.length := by simp only [List.length_cons]; omega
    have e2 : (xs.mapIdx fun i y => o.pair (k + (i + 1)) y) = xs.mapIdx fun i y => o.pair (k + 1 + i) y := by
      congr 1; funext i y; congr 1; omega
    rw [e1, e2, List.map_cons, Nat.add_zero]
    rw [List.append_assoc] at h2
    exact h2

end Mdf
