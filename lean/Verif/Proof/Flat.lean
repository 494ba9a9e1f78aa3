import Verif.Proof.ReadRange

namespace Mdf

theorem body_flat (cfg : RCfg) (id : Nat) (g : RGroup) (n : Nat) {rc : RC} (st : RSt) (h : rc.Wf) :
    match cfg.flatBody id g n st.sample st.events rc.stream with
    | .stop => cfg.body id g n rc st = .throw
    | .cut => True
    | .next c sample events S => ∃ rc', cfg.body id g n rc st = .ok (c, { rc := rc', sample := sample, events := events }) ∧
        rc'.Wf ∧ rc'.stream = S ∧ S = rc.stream.drop n ∧ n ≤ rc.stream.length ∧ rc'.count ≤ rc.count + n ∧ rc'.max = rc.max := by
  unfold RCfg.flatBody
  by_cases hlt : rc.stream.length < n
  · rw [if_pos hlt]
    by_cases hs : cfg.subs id = true
    · rw [if_pos hs]
      simp only
      unfold RCfg.body
      rw [if_pos hs, (getArray_spec n h).2 hlt]; rfl
    · rw [if_neg hs]; trivial
  · rw [if_neg hlt]
    simp only
    unfold RCfg.body
    by_cases hs : cfg.subs id = true
    · rw [if_pos hs]
      obtain ⟨rc', h1, h2, h3, h4, h5⟩ := (getArray_spec n h).1 (by omega)
      rw [h1]
      by_cases hn : st.sample g.id < g.nof
      · rw [if_pos ⟨hs, hn⟩]
        refine ⟨rc', ?_, h2, h3, rfl, by omega, by omega, h5⟩
        simp [Out.bind, hn, bumpSample]
      · rw [if_neg (fun x => hn x.2)]
        refine ⟨rc', ?_, h2, h3, rfl, by omega, by omega, h5⟩
        simp [Out.bind, hn]
    · rw [if_neg hs, if_neg (fun x => hs x.1)]
      obtain ⟨rc', h1, h2, h3, h4, h5⟩ := skipBytes_spec n h (by omega)
      refine ⟨rc', ?_, h2, h3, rfl, by omega, h4, h5⟩
      rw [h1]; rfl

/-- What one step of the block reader does, in terms of the flat reader. -/
def StepRel (cfg : RCfg) (st : RSt) : Flat → Prop
  | .stop => cfg.parseOne st = .throw
  | .cut => True
  | .next c sample events S => ∃ rc', cfg.parseOne st = .ok (c, { rc := rc', sample := sample, events := events }) ∧
      rc'.Wf ∧ rc'.stream = S ∧ rc'.max = st.rc.max ∧ S.length < st.rc.stream.length ∧
      rc'.count + S.length ≤ st.rc.count + st.rc.stream.length

theorem parseOne_flat {cfg : RCfg} (hok : cfg.Ok) (st : RSt) (h : st.rc.Wf) (hne : st.rc.stream ≠ []) :
    StepRel cfg st (cfg.flatOne st.sample st.events st.rc.stream) := by
  have hpos : 0 < st.rc.stream.length := List.length_pos_iff.mpr hne
  unfold RCfg.flatOne
  by_cases hlt : st.rc.stream.length < cfg.idSize
  · rw [if_pos hlt]
    unfold StepRel
    simp only
    unfold RCfg.parseOne
    rw [(parseRecordId_spec hok (by omega) h).2 hlt]; rfl
  rw [if_neg hlt]
  simp only
  generalize hid : (if cfg.idSize = 0 then ((cfg.groups.head?).map (·.id)).getD 0 else leNat (st.rc.stream.take cfg.idSize)) = id
  have hstep : ∃ rc1, cfg.parseRecordId st.rc = .ok (id, rc1) ∧ rc1.Wf ∧ rc1.stream = st.rc.stream.drop cfg.idSize ∧
      rc1.count = st.rc.count + cfg.idSize ∧ rc1.max = st.rc.max := by
    by_cases h0 : cfg.idSize = 0
    · rw [if_pos h0] at hid
      refine ⟨st.rc, ?_, h, by rw [h0]; rfl, by omega, rfl⟩
      unfold RCfg.parseRecordId
      simp only [h0, hid]
    · rw [if_neg h0] at hid
      rw [← hid]
      exact (parseRecordId_spec hok h0 h).1 (by omega)
  obtain ⟨rc1, p1, p2, p3, p4, p5⟩ := hstep
  have hfind : (if cfg.groups.length = 1 then cfg.groups.head? else cfg.group id) = cfg.find id := rfl
  rw [hfind]
  have hone : cfg.parseOne st = match cfg.find id with
    | none => .throw
    | some g => if g.vlsd then (rc1.getArray 4).bind fun l => cfg.body id g (leNat l.1) l.2 st
      else cfg.body id g g.size rc1 st := by
    unfold RCfg.parseOne; rw [p1]; rfl
  cases hf : cfg.find id with
  | none => rw [hf] at hone; exact hone
  | some g =>
    rw [hf] at hone
    simp only at hone ⊢
    have hmem : g ∈ cfg.groups := by
      unfold RCfg.find at hf
      split at hf
      · exact List.mem_of_mem_head? hf
      · exact List.mem_of_find?_eq_some hf
    have hdrop : (st.rc.stream.drop cfg.idSize).length = st.rc.stream.length - cfg.idSize := List.length_drop
    by_cases hvl : g.vlsd = true
    · rw [if_pos hvl] at hone ⊢
      rw [← p3]
      have hl1 : rc1.stream.length = st.rc.stream.length - cfg.idSize := by rw [p3, hdrop]
      by_cases h4 : rc1.stream.length < 4
      · rw [if_pos h4]
        unfold StepRel
        simp only
        rw [hone, (getArray_spec 4 p2).2 h4]; rfl
      · rw [if_neg h4]
        obtain ⟨rc2, q1, q2, q3, q4, q5⟩ := (getArray_spec 4 p2).1 (by omega)
        rw [q1] at hone
        simp only [Out.bind] at hone
        have hb := body_flat cfg id g (leNat (rc1.stream.take 4)) st q2
        rw [q3] at hb
        revert hb
        cases cfg.flatBody id g (leNat (rc1.stream.take 4)) st.sample st.events (rc1.stream.drop 4) with
        | stop => intro hb; exact hone.trans hb
        | cut => intro _; trivial
        | next c sample events S =>
          rintro ⟨rc', b1, b2, b3, b4, b5, b6, b7⟩
          refine ⟨rc', hone.trans b1, b2, b3, by omega, ?_, ?_⟩
          · rw [b4, List.length_drop, List.length_drop]; omega
          · rw [b4, List.length_drop, List.length_drop]
            rw [List.length_drop] at b5; omega
    · rw [if_neg hvl] at hone ⊢
      rw [← p3]
      have hl1 : rc1.stream.length = st.rc.stream.length - cfg.idSize := by rw [p3, hdrop]
      have hb := body_flat cfg id g g.size st p2
      revert hb
      cases cfg.flatBody id g g.size st.sample st.events rc1.stream with
      | stop => intro hb; exact hone.trans hb
      | cut => intro _; trivial
      | next c sample events S =>
        rintro ⟨rc', b1, b2, b3, b4, b5, b6, b7⟩
        refine ⟨rc', hone.trans b1, b2, b3, by omega, ?_, ?_⟩
        · rw [b4, List.length_drop]
          by_cases h0 : cfg.idSize = 0
          · have := hok.progress h0 g hmem (by simpa using hvl)
            omega
          · omega
        · rw [b4, List.length_drop]; omega

theorem readLoop_exhausted {cfg : RCfg} (hok : cfg.Ok) : ∀ (k : Nat) (st : RSt) (fuel : Nat),
    st.rc.Exhausted → st.rc.max - st.rc.count ≤ k → k < fuel → cfg.readLoop fuel st = .done st.events := by
  intro k
  induction k with
  | zero =>
    intro st fuel _ hk hf
    obtain ⟨fuel, rfl⟩ : ∃ k, fuel = k + 1 := ⟨fuel - 1, by omega⟩
    unfold RCfg.readLoop
    rw [if_pos (Or.inr (by omega))]
  | succ k ih =>
    intro st fuel he hk hf
    obtain ⟨fuel, rfl⟩ : ∃ k, fuel = k + 1 := ⟨fuel - 1, by omega⟩
    unfold RCfg.readLoop
    split
    · rfl
    · by_cases h0 : cfg.idSize = 0
      · obtain ⟨g, hx⟩ := List.length_eq_one_iff.mp (hok.single h0)
        have hmem : g ∈ cfg.groups := by rw [hx]; simp
        unfold RCfg.parseOne
        rw [parseRecordId_zero hok h0 hmem]
        simp only [Out.bind]
        rw [find_of_mem hok hmem]
        simp only
        by_cases hvl : g.vlsd = true
        · rw [if_pos hvl, exhausted_getArray he (by omega)]
        · rw [if_neg hvl]
          have hp := hok.progress h0 g hmem (by simpa using hvl)
          obtain ⟨rc', s1, s2, s3, s4⟩ := exhausted_skip he hp
          unfold RCfg.body
          rw [s1, exhausted_getArray he hp]
          simp only [Out.bind]
          by_cases hs : cfg.subs g.id = true
          · simp only [hs, if_true]
          · simp only [hs]
            simp only [Bool.false_eq_true, if_false, if_true]
            rw [ih _ _ s2 (by simp only; omega) (by omega)]
      · have : cfg.parseOne st = .throw := by
          unfold RCfg.parseOne RCfg.parseRecordId
          rcases hok.width with hw | hw | hw | hw | hw
          · exact absurd hw h0
          all_goals
            simp only [hw]
            rw [exhausted_getArray he (by omega)]; rfl
        rw [this]

theorem readLoop_flat {cfg : RCfg} (hok : cfg.Ok) (hg : cfg.groups ≠ []) : ∀ (k : Nat) (st : RSt) (fuel : Nat) (evs : List Event),
    st.rc.Wf → st.rc.count + st.rc.stream.length ≤ st.rc.max → st.rc.stream.length ≤ k →
    st.rc.max + k < fuel → cfg.flatLoop k st.sample st.events st.rc.stream = some evs →
    cfg.readLoop fuel st = .done evs := by
  intro k
  induction k with
  | zero =>
    intro st fuel evs hw hc hl hf he
    have hn : st.rc.stream = [] := List.eq_nil_of_length_eq_zero (by omega)
    unfold RCfg.flatLoop at he
    rw [← Option.some.inj he]
    exact readLoop_exhausted hok _ st fuel (exhausted_of_nil hw hn) (Nat.le_refl _) (by omega)
  | succ k ih =>
    intro st fuel evs hw hc hl hf he
    unfold RCfg.flatLoop at he
    by_cases hn : st.rc.stream = []
    · rw [if_pos hn] at he
      rw [← Option.some.inj he]
      exact readLoop_exhausted hok _ st fuel (exhausted_of_nil hw hn) (Nat.le_refl _) (by omega)
    · rw [if_neg hn] at he
      have hpos : 0 < st.rc.stream.length := List.length_pos_iff.mpr hn
      obtain ⟨fuel, rfl⟩ : ∃ k, fuel = k + 1 := ⟨fuel - 1, by omega⟩
      unfold RCfg.readLoop
      rw [if_neg (by
        intro h
        rcases h with h | h
        · exact hg h
        · omega)]
      have hstep := parseOne_flat hok st hw hn
      revert hstep he
      cases cfg.flatOne st.sample st.events st.rc.stream with
      | stop =>
        intro he hstep
        have hstep : cfg.parseOne st = .throw := hstep
        rw [hstep, ← Option.some.inj he]
      | cut => intro he _; cases he
      | next c sample events S =>
        rintro he ⟨rc', b1, b2, b3, b4, b5, b6⟩
        rw [b1]
        simp only at he ⊢
        by_cases hcc : c = true
        · rw [if_pos hcc] at he ⊢
          refine ih _ _ evs b2 ?_ ?_ ?_ ?_
          · simp only [b3]; omega
          · simp only [b3]; omega
          · simp only; omega
          · simp only [b3]; exact he
        · rw [if_neg hcc] at he ⊢
          rw [← Option.some.inj he]

theorem read_flat {cfg : RCfg} (hok : cfg.Ok) (S : Bytes) (evs : List Event) (hS : cfg.flat S = some evs)
    (blocks : List Blk) (file : Bytes) (hb : Holds blocks S) (fuel : Nat) (hf : 2 * S.length < fuel) :
    cfg.read fuel blocks file = .done evs := by
  obtain ⟨h1, h2, h3⟩ := init_spec blocks file _ hb
  have hc : (RC.init blocks file).count = 0 := rfl
  unfold RCfg.read
  by_cases hg : cfg.groups = []
  · obtain ⟨fuel, rfl⟩ : ∃ k, fuel = k + 1 := ⟨fuel - 1, by omega⟩
    unfold RCfg.readLoop
    rw [if_pos (Or.inl hg)]
    have : evs = [] := by
      unfold RCfg.flat at hS
      match S, hS with
      | [], hS => unfold RCfg.flatLoop at hS; exact (Option.some.inj hS).symm
      | b :: S, hS =>
        rw [List.length_cons, RCfg.flatLoop, if_neg (by simp)] at hS
        unfold RCfg.flatOne at hS
        simp only [hg, RCfg.group] at hS
        split at hS
        · exact (Option.some.inj hS).symm
        · simp at hS
        · rename_i h
          split at h
          · cases h
          · simp at h
    rw [this]
  · refine readLoop_flat hok hg S.length _ fuel evs h1 ?_ ?_ ?_ ?_
    · simp only [h2]; omega
    · simp only [h2]; omega
    · simp only; omega
    · simp only [h2]; exact hS

end Mdf
