import Verif.Proof.Flat

namespace Mdf

/-! The byte counter of the reader grows, for every block list (also one that holds garbage). -/

theorem takeByte_count {s s' : RC} {b : Byte} (h : s.takeByte = .ok (b, s')) : s'.count = s.count + 1 ∧ s'.max = s.max := by
  unfold RC.takeByte at h
  split at h
  · injection h with h; injection h with _ h; rw [← h]; exact ⟨rfl, rfl⟩
  · split at h
    · cases h
    · injection h with h; injection h with _ h; rw [← h]; exact ⟨rfl, rfl⟩

theorem enter_count (s : RC) (b : Blk) : (s.enter b).count = s.count ∧ (s.enter b).max = s.max := by
  unfold RC.enter; split <;> exact ⟨rfl, rfl⟩

theorem getNextByte_count {s s' : RC} {b : Byte} (h : s.getNextByte = .ok (b, s')) : s'.count = s.count + 1 ∧ s'.max = s.max := by
  unfold RC.getNextByte at h
  split at h
  · exact takeByte_count h
  · split at h
    · cases h
    · rename_i blk rest _
      simp only at h
      split at h
      · cases h
      · have e := enter_count { s with rest := rest } blk
        have t := takeByte_count h
        exact ⟨t.1.trans (congrArg (· + 1) e.1), t.2.trans e.2⟩

theorem getBytes_count : ∀ (n : Nat) {s s' : RC} {bs : Bytes}, RC.getBytes n s = .ok (bs, s') →
    s'.count = s.count + n ∧ s'.max = s.max := by
  intro n
  induction n with
  | zero =>
    intro s s' bs h
    unfold RC.getBytes at h
    injection h with h; injection h with _ h; rw [← h]; exact ⟨rfl, rfl⟩
  | succ n ih =>
    intro s s' bs h
    unfold RC.getBytes at h
    split at h
    · cases h
    · cases h
    · rename_i b s1 h1
      split at h
      · cases h
      · cases h
      · rename_i bs2 s2 h2
        injection h with h; injection h with _ h; rw [← h]
        have a := getNextByte_count h1
        have c := ih h2
        omega

theorem getArray_count {n : Nat} {s s' : RC} {bs : Bytes} (h : s.getArray n = .ok (bs, s')) :
    s'.count = s.count + n ∧ s'.max = s.max := by
  unfold RC.getArray at h
  split at h
  · split at h
    · split at h
      · cases h
      · injection h with h; injection h with _ h; rw [← h]; exact ⟨rfl, rfl⟩
    · split at h
      · cases h
      · injection h with h; injection h with _ h; rw [← h]; exact ⟨rfl, rfl⟩
  · exact getBytes_count n h

theorem skipBytes_count (n : Nat) (s : RC) : ∃ s', s.skipBytes n = .ok s' ∧ s.count ≤ s'.count ∧ s'.max = s.max ∧
    (0 < n → s.count < s'.count) := by
  by_cases h0 : 0 < n
  · obtain ⟨s', h1, h2, h3⟩ := skipBytes_pos n s h0
    exact ⟨s', h1, by omega, h3, fun _ => h2⟩
  · have hn : n = 0 := by omega
    subst hn
    unfold RC.skipBytes
    split
    · exact ⟨_, rfl, by simp only [RC.stepInside]; omega, rfl, fun h => absurd h h0⟩
    · obtain ⟨r1, r2⟩ : (RC.skipBlocks s.rest (0 + s.idx - s.size) s).2.count = s.count ∧
          (RC.skipBlocks s.rest (0 + s.idx - s.size) s).2.max = s.max := by
        have := skipBlocks_pos s.rest (0 + s.idx - s.size) s (by omega)
        exact ⟨this.2.1, this.2.2⟩
      exact ⟨_, rfl, by simp only [RC.stepInside]; omega, by simp only [RC.stepInside]; exact r2, fun h => absurd h h0⟩

theorem body_count {cfg : RCfg} {id : Nat} {g : RGroup} {n : Nat} {rc : RC} {st st' : RSt} {c : Bool}
    (h : cfg.body id g n rc st = .ok (c, st')) : rc.count ≤ st'.rc.count ∧ st'.rc.max = rc.max ∧ (0 < n → rc.count < st'.rc.count) := by
  unfold RCfg.body at h
  split at h
  · match hg : rc.getArray n with
    | .ub => rw [hg] at h; cases h
    | .throw => rw [hg] at h; cases h
    | .ok (bs, rc') =>
      have := getArray_count hg
      rw [hg] at h
      simp only [Out.bind] at h
      split at h
      · injection h with h; injection h with _ h; rw [← h]; simp only; omega
      · injection h with h; injection h with _ h; rw [← h]; simp only; omega
  · obtain ⟨rc', h1, h2, h3, h4⟩ := skipBytes_count n rc
    rw [h1] at h
    simp only [Out.bind] at h
    injection h with h; injection h with _ h; rw [← h]
    exact ⟨h2, h3, h4⟩

theorem parseRecordId_count {cfg : RCfg} {s s' : RC} {id : Nat} (h : cfg.parseRecordId s = .ok (id, s')) :
    s'.count = s.count + cfg.idSize ∧ s'.max = s.max := by
  unfold RCfg.parseRecordId at h
  split at h
  · rename_i hw
    injection h with h; injection h with _ h; rw [← h, hw]; exact ⟨rfl, rfl⟩
  case h_6 => cases h
  all_goals
    rename_i hw
    rw [hw]
    revert h
    generalize hg : s.getArray _ = o
    intro h
    match o, hg, h with
    | .ub, _, h => cases h
    | .throw, _, h => cases h
    | .ok (bs, rc'), hg, h =>
      have := getArray_count hg
      simp only [Out.bind] at h
      injection h with h; injection h with _ h; rw [← h]; exact this

/-- A record of a group takes at least one byte. -/
theorem parseOne_count {cfg : RCfg} (hp : cfg.idSize = 0 → ∀ g ∈ cfg.groups, g.vlsd = false → 0 < g.size) {st st' : RSt} {c : Bool}
    (h : cfg.parseOne st = .ok (c, st')) : st.rc.count < st'.rc.count ∧ st'.rc.max = st.rc.max := by
  unfold RCfg.parseOne at h
  match hi : cfg.parseRecordId st.rc with
  | .ub => rw [hi] at h; cases h
  | .throw => rw [hi] at h; cases h
  | .ok (id, rc1) =>
    have h1 := parseRecordId_count hi
    rw [hi] at h
    simp only [Out.bind] at h
    match hf : cfg.find id with
    | none => rw [hf] at h; cases h
    | some g =>
      rw [hf] at h
      simp only at h
      have hmem : g ∈ cfg.groups := by
        unfold RCfg.find at hf
        split at hf
        · exact List.mem_of_mem_head? hf
        · exact List.mem_of_find?_eq_some hf
      by_cases hvl : g.vlsd = true
      · rw [if_pos hvl] at h
        match hg : rc1.getArray 4 with
        | .ub => rw [hg] at h; cases h
        | .throw => rw [hg] at h; cases h
        | .ok (bs, rc2) =>
          rw [hg] at h
          simp only at h
          have h2 := getArray_count hg
          have h3 := body_count h
          omega
      · rw [if_neg hvl] at h
        have h3 := body_count h
        by_cases h0 : cfg.idSize = 0
        · have := h3.2.2 (hp h0 g hmem (by simpa using hvl))
          omega
        · omega

theorem readLoop_terminates {cfg : RCfg} (hp : cfg.idSize = 0 → ∀ g ∈ cfg.groups, g.vlsd = false → 0 < g.size) :
    ∀ (k : Nat) (st : RSt) (fuel : Nat), st.rc.max - st.rc.count ≤ k → k < fuel → cfg.readLoop fuel st ≠ .running := by
  intro k
  induction k with
  | zero =>
    intro st fuel hk hf
    obtain ⟨fuel, rfl⟩ : ∃ k, fuel = k + 1 := ⟨fuel - 1, by omega⟩
    unfold RCfg.readLoop
    rw [if_pos (Or.inr (by omega))]
    simp
  | succ k ih =>
    intro st fuel hk hf
    obtain ⟨fuel, rfl⟩ : ∃ k, fuel = k + 1 := ⟨fuel - 1, by omega⟩
    unfold RCfg.readLoop
    split
    · simp
    · split
      · simp
      · simp
      · rename_i c st' h
        have := parseOne_count hp h
        split
        · exact ih _ _ (by omega) (by omega)
        · simp

end Mdf
