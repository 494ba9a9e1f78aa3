import Verif.Props.Vlsd
import Verif.Props.Read

/-! Further edges: when signal data is compressed (C16), where reading a range stops (C15). -/

namespace Mdf

/-- C16.  All blocks of the signal data are compressed or none is: compressed with more than 100 bytes, if asked for. -/
theorem C16_signal_data_compressed (compress : Bool) (data : Bytes) :
    ∀ b ∈ writeSignalData compress data, b.1 = (compress && decide (100 < data.length)) := by
  intro b hb
  unfold writeSignalData at hb
  split at hb
  · cases hb
  · split at hb
    · rename_i h
      rw [List.mem_singleton.mp hb]
      rcases h with h | h
      · simp at h; simp [h]
      · simp only [Bool.false_eq, Bool.and_eq_false_imp, decide_eq_false_iff_not]
        intro _; omega
    · rename_i h
      have h1 : compress = true := by cases compress <;> simp_all
      have h2 : 100 < data.length := by simp [h1] at h; omega
      split at hb
      · rw [List.mem_singleton.mp hb, h1]; simp [h2]
      · obtain ⟨x, _, rfl⟩ := List.mem_map.mp hb
        rw [h1]; simp [h2]

example : writeSignalData true (List.replicate 100 7) = [(false, List.replicate 100 7)] := by decide

theorem bumpSample_lt {g : RGroup} {s : Nat → Nat} (h : s g.id < g.nof) : bumpSample g s g.id = s g.id + 1 := by
  simp [bumpSample, h]

theorem rangeLoop_stops {cfg : RCfg} {g : RGroup} (hg : cfg.groups = [g]) (lo hi : Nat) (hn : hi < g.nof) :
    ∀ (k : Nat) (st : RSt) (used : Nat → Bool), hi + 1 ≤ st.sample g.id + k → 0 < k → cfg.rangeLoop lo hi k st used ≠ .running := by
  intro k
  induction k with
  | zero => intro st used _ h; omega
  | succ k ih =>
    intro st used hk _
    unfold RCfg.rangeLoop
    split
    · simp
    · cases ho : cfg.rangeOne lo hi st used with
      | ub => simp
      | throw => simp
      | ok r =>
        obtain ⟨c, st', used'⟩ := r
        simp only
        split
        · rename_i hc
          simp only [Bool.and_eq_true, Bool.not_eq_true'] at hc
          -- what the step did
          have key : hi < st.sample g.id + 1 ∧ used' g.id = false ∨ st.sample g.id + 1 ≤ hi ∧ st'.sample g.id = st.sample g.id + 1 := by
            unfold RCfg.rangeOne at ho
            cases hp : cfg.parseRecordId st.rc with
            | ub => rw [hp] at ho; cases ho
            | throw => rw [hp] at ho; cases ho
            | ok r =>
              rw [hp] at ho
              simp only [Out.bind] at ho
              rw [hg] at ho
              have hfind : cfg.find r.1 = some g := by unfold RCfg.find; rw [hg]; rfl
              rw [hfind] at ho
              by_cases hid : g.id = r.1
              · rw [if_neg (by simp [hid])] at ho
                have body : ∀ n rc, cfg.rangeBody lo hi r.1 g n rc st used = .ok (c, st', used') →
                    hi < st.sample g.id + 1 ∧ used' g.id = false ∨ st.sample g.id + 1 ≤ hi ∧ st'.sample g.id = st.sample g.id + 1 := by
                  intro n rc hb
                  unfold RCfg.rangeBody at hb
                  simp only at hb
                  split at hb
                  · cases hs : rc.skipBytes n with
                    | ub => rw [hs] at hb; cases hb
                    | throw => rw [hs] at hb; cases hb
                    | ok rc' =>
                      rw [hs] at hb
                      simp only [Out.bind, Out.ok.injEq, Prod.mk.injEq] at hb
                      obtain ⟨_, rfl, rfl⟩ := hb
                      by_cases hgt : st.sample g.id + 1 > hi
                      · left
                        rw [if_pos hgt]
                        exact ⟨hgt, by simp [markRead, hid]⟩
                      · right
                        exact ⟨by omega, bumpSample_lt (by omega)⟩
                  · rename_i hin
                    have hin2 : st.sample g.id + 1 ≤ hi := Nat.le_of_not_lt fun hx => hin (.inr (.inr hx))
                    right
                    refine ⟨hin2, ?_⟩
                    split at hb
                    · cases hs : rc.skipBytes n with
                      | ub => rw [hs] at hb; cases hb
                      | throw => rw [hs] at hb; cases hb
                      | ok rc' =>
                        rw [hs] at hb
                        simp only [Out.bind, Out.ok.injEq, Prod.mk.injEq] at hb
                        obtain ⟨_, rfl, _⟩ := hb
                        exact bumpSample_lt (by omega)
                    · cases hs : rc.getArray n with
                      | ub => rw [hs] at hb; cases hb
                      | throw => rw [hs] at hb; cases hb
                      | ok rc' =>
                        rw [hs] at hb
                        simp only [Out.bind] at hb
                        rw [if_pos (by omega)] at hb
                        simp only [Out.ok.injEq, Prod.mk.injEq] at hb
                        obtain ⟨_, rfl, _⟩ := hb
                        exact bumpSample_lt (by omega)
                simp only at ho
                split at ho
                · cases hl : r.2.getArray 4 with
                  | ub => rw [hl] at ho; simp [Out.bind] at ho
                  | throw => rw [hl] at ho; simp [Out.bind] at ho
                  | ok l => rw [hl] at ho; exact body _ _ (by simpa [Out.bind] using ho)
                · exact body _ _ (by simpa using ho)
              · rw [if_pos (by simp [hid])] at ho
                cases ho
          rcases key with ⟨_, hu⟩ | ⟨h1, h2⟩
          · have : cfg.rangeReady used' = true := by simp [RCfg.rangeReady, hg, hu]
            rw [this] at hc
            simp at hc
          · exact ih st' used' (by omega) (by omega)
        · simp

/-- C15.  Reading a range of a group with more samples stops after the first record behind the range, whatever the file holds:
`hi + 1` records are looked at, however long the file is. -/
theorem C15_range_stops (cfg : RCfg) (g : RGroup) (hg : cfg.groups = [g]) (lo hi : Nat) (hle : lo ≤ hi) (hn : hi < g.nof) (fuel : Nat)
    (hf : hi < fuel) (blocks : List Blk) (file : Bytes) : cfg.readPartial lo hi fuel blocks file ≠ .running := by
  unfold RCfg.readPartial
  simp only
  rw [if_neg (by omega)]
  exact rangeLoop_stops hg lo hi hn fuel _ _ (by simp only; omega) (by omega)

example : ({ idSize := 0, groups := [⟨1, false, 1, 4⟩], subs := fun _ => true, cont := fun _ => true } : RCfg).readPartial 1 1 2
    [⟨false, [1, 2, 3, 4], []⟩] [] = .done [⟨0, 1, [1]⟩] := by decide

end Mdf
