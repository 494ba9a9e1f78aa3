import Verif.Spec.ReadCache
import Verif.Proof.Channel

namespace Mdf

/-- The unread bytes of the current block. -/
def RC.cur (s : RC) : Bytes := if s.buf = [] then s.file.take (s.size - s.idx) else s.buf.drop s.idx

/-- All unread bytes. -/
def RC.stream (s : RC) : Bytes := s.cur ++ s.rest.flatMap (·.data)

structure RC.Wf (s : RC) : Prop where
  idx : s.idx ≤ s.size
  file : s.buf = [] → s.size - s.idx ≤ s.file.length
  buf : s.buf ≠ [] → s.buf.length = s.size
  rest : ∀ b ∈ s.rest, b.data ≠ []

theorem RC.Wf.cur_length {s : RC} (h : s.Wf) : s.cur.length = s.size - s.idx := by
  unfold RC.cur
  split
  · rename_i hb; rw [List.length_take, Nat.min_eq_left (h.file hb)]
  · rename_i hb; rw [List.length_drop, h.buf hb]

theorem RC.Wf.enter {s : RC} (b : Blk) (hr : ∀ b ∈ s.rest, b.data ≠ []) :
    (s.enter b).Wf ∧ (s.enter b).cur = b.data ∧ (s.enter b).rest = s.rest ∧ (s.enter b).count = s.count ∧
      (s.enter b).max = s.max ∧ (s.enter b).idx = 0 ∧ (s.enter b).size = b.data.length := by
  unfold RC.enter RC.cur
  split
  · refine ⟨⟨by simp, ?_, by simp, hr⟩, ?_, rfl, rfl, rfl, rfl, rfl⟩
    · intro hb; simp only at hb; simp [hb]
    · simp only
      split
      · rename_i hb; simp [hb]
      · simp
  · refine ⟨⟨by simp, by simp, by simp, hr⟩, by simp, rfl, rfl, rfl, rfl, rfl⟩

theorem takeByte_spec {s : RC} (h : s.Wf) (hlt : s.idx < s.size) :
    ∃ b s', s.takeByte = .ok (b, s') ∧ s.cur = b :: s'.cur ∧ s'.Wf ∧ s'.rest = s.rest ∧ s'.count = s.count + 1 ∧
      s'.max = s.max := by
  unfold RC.takeByte
  split
  · rename_i hb
    have hl := h.file hb
    match hf : s.file with
    | [] => rw [hf] at hl; simp only [List.length_nil] at hl; omega
    | b :: f =>
      refine ⟨b, { s with file := f, idx := s.idx + 1, count := s.count + 1 }, by simp, ?_, ?_, rfl, rfl, rfl⟩
      · unfold RC.cur
        rw [if_pos hb, if_pos hb, hf]
        simp only
        obtain ⟨k, hk⟩ : ∃ k, s.size - s.idx = k + 1 := ⟨s.size - s.idx - 1, by omega⟩
        have : s.size - (s.idx + 1) = k := by omega
        rw [hk, this, List.take_succ_cons]
      · rw [hf, List.length_cons] at hl
        exact ⟨by simp only; omega, fun _ => by simp only; omega, fun h' => absurd hb h', h.rest⟩
  · rename_i hb
    have hl := h.buf hb
    rw [List.getElem?_eq_getElem (by omega)]
    refine ⟨s.buf[s.idx], { s with idx := s.idx + 1, count := s.count + 1 }, rfl, ?_, ?_, rfl, rfl, rfl⟩
    · unfold RC.cur
      rw [if_neg hb, if_neg hb]
      exact List.drop_eq_getElem_cons (by omega)
    · exact ⟨by simp only; omega, fun h' => absurd h' hb, fun _ => hl, h.rest⟩

theorem getNextByte_spec {s : RC} (h : s.Wf) :
    (∀ b S, s.stream = b :: S → ∃ s', s.getNextByte = .ok (b, s') ∧ s'.Wf ∧ s'.stream = S ∧ s'.count = s.count + 1 ∧
      s'.max = s.max) ∧
    (s.stream = [] → s.getNextByte = .throw) := by
  unfold RC.getNextByte
  by_cases hlt : s.idx < s.size
  · rw [if_pos hlt]
    obtain ⟨b', s', h1, h2, h3, h4, h5, h6⟩ := takeByte_spec h hlt
    constructor
    · intro b S hs
      unfold RC.stream at hs
      rw [h2, List.cons_append, List.cons.injEq] at hs
      refine ⟨s', by rw [h1, hs.1], h3, ?_, h5, h6⟩
      unfold RC.stream
      rw [h4]; exact hs.2
    · intro hs
      unfold RC.stream at hs
      rw [h2] at hs; simp at hs
  · rw [if_neg hlt]
    have hcur : s.cur = [] := by
      apply List.eq_nil_of_length_eq_zero
      rw [h.cur_length]; omega
    match hr : s.rest with
    | [] =>
      simp only
      constructor
      · intro b S hs
        unfold RC.stream at hs
        rw [hcur, hr] at hs; simp at hs
      · intro _; trivial
    | blk :: rest =>
      have hrest : ∀ b ∈ ({ s with rest := rest } : RC).rest, b.data ≠ [] := by
        intro b hb; exact h.rest b (by rw [hr]; exact List.mem_cons_of_mem _ hb)
      obtain ⟨e1, e2, e3, e4, e5, e6, e7⟩ := RC.Wf.enter (s := { s with rest := rest }) blk hrest
      have hne := h.rest blk (by rw [hr]; simp)
      have hpos : 0 < blk.data.length := List.length_pos_iff.mpr hne
      simp only
      rw [if_neg (by omega)]
      obtain ⟨b', s', h1, h2, h3, h4, h5, h6⟩ := takeByte_spec e1 (by omega)
      rw [e2] at h2
      constructor
      · intro b S hs
        unfold RC.stream at hs
        rw [hcur, hr, List.flatMap_cons, h2] at hs
        simp only [List.nil_append, List.cons_append, List.cons.injEq] at hs
        refine ⟨s', by rw [h1, hs.1], h3, ?_, by rw [h5, e4], by rw [h6, e5]⟩
        unfold RC.stream
        rw [h4, e3]; exact hs.2
      · intro hs
        unfold RC.stream at hs
        rw [hcur, hr, List.flatMap_cons, h2] at hs
        simp at hs

theorem getBytes_spec (n : Nat) : ∀ {s : RC}, s.Wf →
    (n ≤ s.stream.length → ∃ s', RC.getBytes n s = .ok (s.stream.take n, s') ∧ s'.Wf ∧ s'.stream = s.stream.drop n ∧
      s'.count = s.count + n ∧ s'.max = s.max) ∧
    (s.stream.length < n → RC.getBytes n s = .throw) := by
  induction n with
  | zero =>
    intro s h
    exact ⟨fun _ => ⟨s, by simp [RC.getBytes], h, by simp, rfl, rfl⟩, fun hl => by omega⟩
  | succ n ih =>
    intro s h
    obtain ⟨g1, g2⟩ := getNextByte_spec h
    match hs : s.stream with
    | [] =>
      refine ⟨fun hl => by simp at hl, fun _ => ?_⟩
      unfold RC.getBytes
      rw [g2 hs]
    | b :: S =>
      obtain ⟨s', h1, h2, h3, h4, h5⟩ := g1 b S hs
      obtain ⟨i1, i2⟩ := ih h2
      rw [h3] at i1 i2
      constructor
      · intro hl
        simp only [List.length_cons] at hl
        obtain ⟨s'', j1, j2, j3, j4, j5⟩ := i1 (by omega)
        refine ⟨s'', ?_, j2, ?_, by omega, by rw [j5, h5]⟩
        · unfold RC.getBytes
          rw [h1]; simp only; rw [j1]; simp
        · rw [j3]; simp
      · intro hl
        simp only [List.length_cons] at hl
        unfold RC.getBytes
        rw [h1]; simp only; rw [i2 (by omega)]

theorem getArray_spec (n : Nat) {s : RC} (h : s.Wf) :
    (n ≤ s.stream.length → ∃ s', s.getArray n = .ok (s.stream.take n, s') ∧ s'.Wf ∧ s'.stream = s.stream.drop n ∧
      s'.count = s.count + n ∧ s'.max = s.max) ∧
    (s.stream.length < n → s.getArray n = .throw) := by
  unfold RC.getArray
  have hcl := h.cur_length
  by_cases hle : s.idx + n ≤ s.size
  · rw [if_pos hle]
    have hlen : n ≤ s.stream.length := by unfold RC.stream; rw [List.length_append]; omega
    refine ⟨fun _ => ?_, fun hl => by omega⟩
    have ht : s.stream.take n = s.cur.take n := by
      unfold RC.stream; rw [List.take_append_of_le_length (by omega)]
    have hd : s.stream.drop n = s.cur.drop n ++ s.rest.flatMap (·.data) := by
      unfold RC.stream; rw [List.drop_append_of_le_length (by omega)]
    by_cases hb : s.buf = []
    · rw [if_pos hb]
      have hf := h.file hb
      rw [if_neg (by omega)]
      refine ⟨{ s with file := s.file.drop n, idx := s.idx + n, count := s.count + n }, ?_, ⟨by simp only; omega,
        fun _ => by simp only [List.length_drop]; omega, fun h' => absurd hb h', h.rest⟩, ?_, rfl, rfl⟩
      · rw [ht]
        unfold RC.cur
        rw [if_pos hb, List.take_take, Nat.min_eq_left (by omega)]
      · rw [hd]
        unfold RC.stream RC.cur
        rw [if_pos hb, if_pos hb]
        simp only
        rw [List.drop_take]
        congr 2; omega
    · rw [if_neg hb]
      have hbl := h.buf hb
      rw [if_neg (by omega)]
      refine ⟨{ s with idx := s.idx + n, count := s.count + n }, ?_, ⟨by simp only; omega,
        fun h' => absurd h' hb, fun _ => hbl, h.rest⟩, ?_, rfl, rfl⟩
      · rw [ht]; unfold RC.cur; rw [if_neg hb]
      · rw [hd]; unfold RC.stream RC.cur
        rw [if_neg hb, if_neg hb]
        simp only
        rw [List.drop_drop]
  · rw [if_neg hle]
    exact getBytes_spec n h

theorem stepInside_spec (n : Nat) {s : RC} (h : s.Wf) (hle : s.idx + n ≤ s.size) :
    (s.stepInside n).Wf ∧ (s.stepInside n).stream = s.stream.drop n ∧ (s.stepInside n).count = s.count + n ∧
      (s.stepInside n).max = s.max := by
  have hcl := h.cur_length
  have hd : s.stream.drop n = s.cur.drop n ++ s.rest.flatMap (·.data) := by
    unfold RC.stream; rw [List.drop_append_of_le_length (by omega)]
  refine ⟨?_, ?_, rfl, rfl⟩
  · refine ⟨by simp only [RC.stepInside]; omega, fun hb => ?_, h.buf, h.rest⟩
    have hb' : s.buf = [] := hb
    have hf := h.file hb'
    simp only [RC.stepInside, hb', if_true, List.length_drop]; omega
  · rw [hd]
    unfold RC.stepInside RC.stream RC.cur
    by_cases hb : s.buf = []
    · have hf := h.file hb
      simp only [hb, if_true]
      rw [List.drop_take]
      congr 2; omega
    · have hbl := h.buf hb
      simp only [hb, if_false]
      rw [List.drop_drop]

theorem skipBlocks_spec (rest : List Blk) : ∀ (n : Nat) (s : RC), s.rest = rest → (∀ b ∈ rest, b.data ≠ []) →
    n ≤ (rest.flatMap (·.data)).length → 0 < n →
    let r := RC.skipBlocks rest n s
    r.2.Wf ∧ r.2.idx + r.1 ≤ r.2.size ∧ r.1 ≤ n ∧ 0 < r.1 ∧ r.2.stream.drop r.1 = (rest.flatMap (·.data)).drop n ∧
      r.2.count = s.count ∧ r.2.max = s.max := by
  induction rest with
  | nil => intro n s _ _ hn h0; simp at hn; omega
  | cons b rest ih =>
    intro n s hs hr hn h0
    have hrr : ∀ x ∈ rest, x.data ≠ [] := fun x hx => hr x (List.mem_cons_of_mem _ hx)
    simp only [List.flatMap_cons, List.length_append] at hn
    unfold RC.skipBlocks
    by_cases hgt : n > b.data.length
    · simp only [hgt, if_true]
      obtain ⟨i1, i2, i3, i4, i5, i6, i7⟩ := ih (n - b.data.length)
        { s with idx := 0, size := b.data.length, rest := rest } rfl hrr (by omega) (by omega)
      refine ⟨i1, i2, Nat.le_trans i3 (Nat.sub_le _ _), i4, ?_, i6, i7⟩
      rw [i5, List.flatMap_cons, List.drop_append, List.drop_of_length_le (Nat.le_of_lt hgt)]; rfl
    · simp only [hgt, if_false]
      obtain ⟨e1, e2, e3, e4, e5, e6, e7⟩ := RC.Wf.enter (s := { s with rest := rest }) b hrr
      refine ⟨e1, by omega, Nat.le_refl _, h0, ?_, e4, e5⟩
      unfold RC.stream
      rw [e2, e3, List.flatMap_cons]

theorem skipBytes_spec (n : Nat) {s : RC} (h : s.Wf) (hn : n ≤ s.stream.length) :
    ∃ s', s.skipBytes n = .ok s' ∧ s'.Wf ∧ s'.stream = s.stream.drop n ∧ s'.count ≤ s.count + n ∧ s'.max = s.max := by
  unfold RC.skipBytes
  have hcl := h.cur_length
  by_cases hle : s.idx + n ≤ s.size
  · rw [if_pos hle]
    obtain ⟨a, b, c, d⟩ := stepInside_spec n h hle
    exact ⟨_, rfl, a, b, by omega, d⟩
  · rw [if_neg hle]
    simp only
    have hi := h.idx
    have hlen : s.stream.length = s.size - s.idx + (s.rest.flatMap (·.data)).length := by
      unfold RC.stream; rw [List.length_append, hcl]
    obtain ⟨i1, i2, i3, i4, i5, i6, i7⟩ := skipBlocks_spec s.rest (n + s.idx - s.size) s rfl h.rest (by omega) (by omega)
    obtain ⟨a, b, c, d⟩ := stepInside_spec _ i1 i2
    refine ⟨_, rfl, a, ?_, by omega, by omega⟩
    rw [b, i5]
    unfold RC.stream
    have hge : s.cur.length ≤ n := by omega
    rw [List.drop_append, List.drop_of_length_le hge, hcl, List.nil_append]
    congr 1; omega

/-- Skipping always makes progress in the byte counter. -/
theorem skipBlocks_pos (rest : List Blk) : ∀ (n : Nat) (s : RC), 0 < n →
    0 < (RC.skipBlocks rest n s).1 ∧ (RC.skipBlocks rest n s).2.count = s.count ∧
      (RC.skipBlocks rest n s).2.max = s.max := by
  induction rest with
  | nil => intro n s h; exact ⟨h, rfl, rfl⟩
  | cons b rest ih =>
    intro n s h
    unfold RC.skipBlocks
    by_cases hgt : n > b.data.length
    · simp only [hgt, if_true]
      exact ih _ _ (by omega)
    · simp only [hgt, if_false]
      refine ⟨h, ?_, ?_⟩ <;> (unfold RC.enter; split <;> rfl)

theorem skipBytes_pos (n : Nat) (s : RC) (h0 : 0 < n) :
    ∃ s', s.skipBytes n = .ok s' ∧ s.count < s'.count ∧ s'.max = s.max := by
  unfold RC.skipBytes
  by_cases hle : s.idx + n ≤ s.size
  · rw [if_pos hle]
    exact ⟨_, rfl, by simp only [RC.stepInside]; omega, rfl⟩
  · rw [if_neg hle]
    obtain ⟨a, b, c⟩ := skipBlocks_pos s.rest (n + s.idx - s.size) s (by omega)
    exact ⟨_, rfl, by simp only [RC.stepInside]; omega, by simp only [RC.stepInside]; omega⟩

/-! ### Records -/

theorem group_mem {cfg : RCfg} {id : Nat} {g : RGroup} (h : cfg.group id = some g) : g ∈ cfg.groups ∧ g.id = id := by
  unfold RCfg.group at h
  exact ⟨List.mem_of_find?_eq_some h, by simpa using List.find?_some h⟩

theorem group_of_mem {cfg : RCfg} (hok : cfg.Ok) {g : RGroup} (h : g ∈ cfg.groups) : cfg.group g.id = some g := by
  have hd := hok.distinct
  unfold RCfg.group
  generalize cfg.groups = gs at h hd
  induction gs with
  | nil => cases h
  | cons a gs ih =>
    rw [List.map_cons, List.nodup_cons] at hd
    rw [List.find?_cons]
    rcases List.mem_cons.mp h with rfl | h'
    · simp
    · have : a.id ≠ g.id := fun e => hd.1 (by rw [e]; exact List.mem_map_of_mem h')
      simp only [this, decide_false]
      exact ih h' hd.2

theorem find_of_mem {cfg : RCfg} (hok : cfg.Ok) {g : RGroup} (h : g ∈ cfg.groups) : cfg.find g.id = some g := by
  unfold RCfg.find
  split
  · rename_i hl
    obtain ⟨x, hx⟩ := List.length_eq_one_iff.mp hl
    rw [hx] at h ⊢
    simp only [List.mem_singleton] at h
    rw [h]; rfl
  · exact group_of_mem hok h

theorem parseRecordId_spec {cfg : RCfg} (hok : cfg.Ok) (h0 : cfg.idSize ≠ 0) {s : RC} (h : s.Wf) :
    (cfg.idSize ≤ s.stream.length → ∃ s', cfg.parseRecordId s = .ok (leNat (s.stream.take cfg.idSize), s') ∧ s'.Wf ∧
      s'.stream = s.stream.drop cfg.idSize ∧ s'.count = s.count + cfg.idSize ∧ s'.max = s.max) ∧
    (s.stream.length < cfg.idSize → cfg.parseRecordId s = .throw) := by
  unfold RCfg.parseRecordId
  rcases hok.width with hw | hw | hw | hw | hw
  · exact absurd hw h0
  all_goals
    simp only [hw]
    obtain ⟨a, b⟩ := getArray_spec cfg.idSize h
    rw [hw] at a b
    constructor
    · intro hl
      obtain ⟨s', h1, h2, h3, h4, h5⟩ := a hl
      exact ⟨s', by rw [h1]; rfl, h2, h3, h4, h5⟩
    · intro hl
      rw [b hl]; rfl

theorem parseRecordId_zero {cfg : RCfg} (hok : cfg.Ok) (h0 : cfg.idSize = 0) {g : RGroup} (hg : g ∈ cfg.groups) (s : RC) :
    cfg.parseRecordId s = .ok (g.id, s) := by
  unfold RCfg.parseRecordId
  obtain ⟨x, hx⟩ := List.length_eq_one_iff.mp (hok.single h0)
  rw [hx] at hg
  simp only [List.mem_singleton] at hg
  simp only [h0, hx, hg]
  rfl

/-- The notification for a record of group `g`. -/
def newEvents (cfg : RCfg) (st : RSt) (g : RGroup) (data : Bytes) : List Event :=
  if cfg.subs g.id = true ∧ st.sample g.id < g.nof then [⟨st.sample g.id, g.id, data⟩] else []

/-- Whether reading goes on after the record. -/
def goesOn (cfg : RCfg) (st : RSt) (ev : List Event) : Bool := if ev = [] then true else cfg.cont (st.events ++ ev)

theorem body_spec (cfg : RCfg) (g : RGroup) (n : Nat) {rc : RC} (st : RSt) (h : rc.Wf) (hn : n ≤ rc.stream.length) :
    ∃ rc', cfg.body g.id g n rc st =
        .ok (goesOn cfg st (newEvents cfg st g (rc.stream.take n)),
          { rc := rc', sample := bumpSample g st.sample, events := st.events ++ newEvents cfg st g (rc.stream.take n) }) ∧
      rc'.Wf ∧ rc'.stream = rc.stream.drop n ∧ rc'.count ≤ rc.count + n ∧ rc'.max = rc.max := by
  unfold RCfg.body newEvents goesOn
  by_cases hs : cfg.subs g.id = true
  · rw [if_pos hs]
    obtain ⟨rc', h1, h2, h3, h4, h5⟩ := (getArray_spec n h).1 hn
    refine ⟨rc', ?_, h2, h3, by omega, h5⟩
    rw [h1]
    simp only [Out.bind, hs, true_and]
    by_cases hlt : st.sample g.id < g.nof
    · simp [hlt]
    · simp [hlt, bumpSample]
  · rw [if_neg hs]
    obtain ⟨rc', h1, h2, h3, h4, h5⟩ := skipBytes_spec n h hn
    refine ⟨rc', ?_, h2, h3, h4, h5⟩
    rw [h1]
    simp [Out.bind, hs]

theorem writeRecordId_eq {cfg : RCfg} (hok : cfg.Ok) (id : Nat) : writeRecordId cfg.idSize id = leBytes cfg.idSize id := by
  rcases hok.width with hw | hw | hw | hw | hw <;> rw [hw] <;> rfl

/-- A record at the front of the stream is parsed. -/
theorem parseOne_spec {cfg : RCfg} (hok : cfg.Ok) {r : Rec} {g : RGroup} (hg : cfg.group r.id = some g)
    (hv : if g.vlsd then r.data.length < 2 ^ 32 else r.data.length = g.size) (st : RSt) (h : st.rc.Wf) (T : Bytes)
    (hS : st.rc.stream = encodeRec cfg.idSize g.vlsd r ++ T) :
    ∃ rc', cfg.parseOne st =
        .ok (goesOn cfg st (newEvents cfg st g r.data),
          { rc := rc', sample := bumpSample g st.sample, events := st.events ++ newEvents cfg st g r.data }) ∧
      rc'.Wf ∧ rc'.stream = T ∧ rc'.count ≤ st.rc.count + (encodeRec cfg.idSize g.vlsd r).length ∧ rc'.max = st.rc.max := by
  obtain ⟨hmem, hid⟩ := group_mem hg
  unfold encodeRec at hS ⊢
  rw [writeRecordId_eq hok] at hS ⊢
  -- the record id
  have hstep : ∃ rc1, cfg.parseRecordId st.rc = .ok (g.id, rc1) ∧ rc1.Wf ∧
      rc1.stream = (if g.vlsd then leBytes 4 r.data.length ++ r.data else r.data) ++ T ∧
      rc1.count = st.rc.count + cfg.idSize ∧ rc1.max = st.rc.max := by
    by_cases h0 : cfg.idSize = 0
    · refine ⟨st.rc, parseRecordId_zero hok h0 hmem _, h, ?_, by omega, rfl⟩
      rw [hS, h0]; rfl
    · obtain ⟨rc1, h1, h2, h3, h4, h5⟩ := (parseRecordId_spec hok h0 h).1 (by rw [hS]; simp)
      refine ⟨rc1, ?_, h2, ?_, h4, h5⟩
      · rw [h1, hS, List.append_assoc, List.take_left' (by simp), leNat_leBytes, Nat.mod_eq_of_lt, hid]
        rw [← hid]; exact hok.fits h0 g hmem
      · rw [h3, hS, List.append_assoc, List.drop_left' (by simp)]
  obtain ⟨rc1, p1, p2, p3, p4, p5⟩ := hstep
  unfold RCfg.parseOne
  rw [p1]
  simp only [Out.bind]
  rw [find_of_mem hok hmem]
  simp only
  by_cases hvl : g.vlsd = true
  · simp only [hvl, if_true] at p3 hv ⊢
    obtain ⟨rc2, q1, q2, q3, q4, q5⟩ := (getArray_spec 4 p2).1 (by rw [p3]; simp)
    rw [p3, List.append_assoc, List.drop_left' (by simp)] at q3
    rw [p3, List.append_assoc, List.take_left' (by simp)] at q1
    rw [q1]
    simp only [leNat_leBytes]
    have hmod : r.data.length % 256 ^ 4 = r.data.length := Nat.mod_eq_of_lt (by omega)
    rw [hmod]
    obtain ⟨rc3, b1, b2, b3, b4, b5⟩ := body_spec cfg g r.data.length st q2 (by rw [q3]; simp)
    rw [q3, List.take_left' rfl] at b1
    rw [q3, List.drop_left' rfl] at b3
    exact ⟨rc3, b1, b2, b3, by simp; omega, by omega⟩
  · simp only [hvl] at p3 hv ⊢
    simp only [Bool.false_eq_true, if_false] at p3 hv ⊢
    obtain ⟨rc3, b1, b2, b3, b4, b5⟩ := body_spec cfg g g.size st p2 (by rw [p3]; simp; omega)
    rw [p3, List.take_left' hv] at b1
    rw [p3, List.drop_left' hv] at b3
    exact ⟨rc3, b1, b2, b3, by simp; omega, by omega⟩

/-- Nothing is notified for an incomplete record at the end. -/
theorem parseOne_tail {cfg : RCfg} (hok : cfg.Ok) (st : RSt) (h : st.rc.Wf) (hT : cfg.Tail st.rc.stream)
    (hend : cfg.idSize ≠ 0 ∨ ∀ g ∈ cfg.groups, g.vlsd = true ∨ cfg.subs g.id = true) :
    cfg.parseOne st = .throw := by
  unfold RCfg.parseOne
  by_cases hlt : st.rc.stream.length < cfg.idSize
  · rw [(parseRecordId_spec hok (by omega) h).2 hlt]; rfl
  -- reading of the rest when the record id is known
  have key : ∀ g ∈ cfg.groups, ∀ rc : RC, rc.Wf → rc.stream = st.rc.stream.drop cfg.idSize →
      (if g.vlsd then st.rc.stream.length < cfg.idSize + 4 ∨
        (cfg.subs g.id = true ∧ st.rc.stream.length < cfg.idSize + 4 + leNat ((st.rc.stream.drop cfg.idSize).take 4))
       else cfg.subs g.id = true ∧ st.rc.stream.length < cfg.idSize + g.size) →
      (if g.vlsd then (rc.getArray 4).bind fun l => cfg.body g.id g (leNat l.1) l.2 st
       else cfg.body g.id g g.size rc st) = .throw := by
    intro g _ rc hw hs hcond
    by_cases hvl : g.vlsd = true
    · simp only [hvl, if_true] at hcond ⊢
      by_cases h4 : st.rc.stream.length < cfg.idSize + 4
      · rw [(getArray_spec 4 hw).2 (by rw [hs, List.length_drop]; omega)]; rfl
      · obtain ⟨hsub, hl⟩ := hcond.resolve_left h4
        obtain ⟨rc2, q1, q2, q3, q4, q5⟩ := (getArray_spec 4 hw).1 (by rw [hs, List.length_drop]; omega)
        rw [q1]
        simp only [Out.bind]
        unfold RCfg.body
        rw [if_pos hsub, (getArray_spec _ q2).2 (by rw [q3, hs, List.length_drop, List.length_drop]; omega)]; rfl
    · simp only [hvl] at hcond ⊢
      simp only [Bool.false_eq_true, if_false] at hcond ⊢
      unfold RCfg.body
      rw [if_pos hcond.1, (getArray_spec _ hw).2 (by rw [hs, List.length_drop]; omega)]; rfl
  by_cases h0 : cfg.idSize = 0
  · obtain ⟨x, hx⟩ := List.length_eq_one_iff.mp (hok.single h0)
    have hmem : x ∈ cfg.groups := by rw [hx]; simp
    rw [parseRecordId_zero hok h0 hmem]
    simp only [Out.bind]
    rw [find_of_mem hok hmem]
    refine key x hmem st.rc h (by rw [h0]; rfl) ?_
    rcases hT with ht | ht | ht | ⟨g, hg, _, hc⟩
    · have hsub := (hend.resolve_left (by omega)) x hmem
      have hp := hok.progress h0 x hmem
      rw [ht, h0]
      by_cases hvl : x.vlsd = true
      · simp [hvl]
      · simp only [hvl] at hsub hp ⊢
        simp only [Bool.false_eq_true, if_false, false_or] at hsub ⊢
        exact ⟨hsub, by simp only [List.length_nil]; exact Nat.lt_of_lt_of_le (hp trivial) (by omega)⟩
    · omega
    · exact absurd h0 ht.1
    · rw [hx] at hg
      simp only [List.mem_singleton] at hg
      rw [← hg]; exact hc
  · obtain ⟨rc1, p1, p2, p3, p4, p5⟩ := (parseRecordId_spec hok h0 h).1 (by omega)
    rw [p1]
    simp only [Out.bind]
    rcases hT with ht | ht | ht | ⟨g, hg, hid, hc⟩
    · rw [ht] at hlt; simp at hlt; omega
    · omega
    · have : cfg.find (leNat (st.rc.stream.take cfg.idSize)) = none := by
        unfold RCfg.find
        rw [if_neg (by omega)]; exact ht.2.2
      rw [this]
    · rw [hid h0, find_of_mem hok hg]
      exact key g hg rc1 p2 p3 hc

/-- The sample counters after the records `before`. -/
def SampleInv (cfg : RCfg) (before : List Rec) (sample : Nat → Nat) : Prop :=
  ∀ g ∈ cfg.groups, sample g.id = min (before.countP (·.id = g.id)) g.nof

theorem sampleInv_bump {cfg : RCfg} (hok : cfg.Ok) {before : List Rec} {sample : Nat → Nat} (hi : SampleInv cfg before sample)
    {r : Rec} {g : RGroup} (hg : cfg.group r.id = some g) : SampleInv cfg (before ++ [r]) (bumpSample g sample) := by
  intro g' hg'
  obtain ⟨hmem, hid⟩ := group_mem hg
  have h' := hi g' hg'
  have h1 := hi g hmem
  rw [List.countP_append, List.countP_singleton]
  by_cases he : g'.id = g.id
  · have hgg : g' = g := by
      have a := group_of_mem hok hg'
      have b := group_of_mem hok hmem
      rw [he, b] at a
      exact (Option.some.inj a).symm
    subst hgg
    have : decide (r.id = g'.id) = true := by simp [hid]
    rw [this]
    unfold bumpSample
    split
    · simp only [if_true]; omega
    · simp only [if_true]; omega
  · have : decide (r.id = g'.id) = false := by simp; rw [← hid]; exact fun h => he h.symm
    rw [this]
    unfold bumpSample
    simp only [Bool.false_eq_true, if_false, Nat.add_zero]
    split
    · simp only [he, if_false]; exact h'
    · exact h'

theorem newEvents_eq {cfg : RCfg} {before : List Rec} {st : RSt} (hi : SampleInv cfg before st.sample)
    {r : Rec} {g : RGroup} (hg : cfg.group r.id = some g) :
    newEvents cfg st g r.data =
      if cfg.subs r.id = true ∧ before.countP (·.id = r.id) < cfg.nof r.id then
        [⟨before.countP (·.id = r.id), r.id, r.data⟩] else [] := by
  obtain ⟨hmem, hid⟩ := group_mem hg
  have h1 := hi g hmem
  have hn : cfg.nof r.id = g.nof := by unfold RCfg.nof; rw [hg]; rfl
  unfold newEvents
  rw [hn, h1, hid]
  by_cases hlt : before.countP (·.id = r.id) < g.nof
  · rw [Nat.min_eq_left (by omega)]
  · have a : ¬ min (before.countP (·.id = r.id)) g.nof < g.nof := by omega
    simp [a, hlt]

theorem deliver_cons (cfg : RCfg) (before : List Rec) (r : Rec) (rs : List Rec) :
    cfg.deliver before (r :: rs) =
      (if cfg.subs r.id = true ∧ before.countP (·.id = r.id) < cfg.nof r.id then
        [⟨before.countP (·.id = r.id), r.id, r.data⟩] else []) ++ cfg.deliver (before ++ [r]) rs := by
  rw [RCfg.deliver]
  split <;> rfl

theorem readLoop_spec {cfg : RCfg} (hok : cfg.Ok)
    (hend : cfg.idSize ≠ 0 ∨ ∀ g ∈ cfg.groups, g.vlsd = true ∨ cfg.subs g.id = true) (tail : Bytes) (hT : cfg.Tail tail)
    (recs : List Rec) : ∀ (before : List Rec) (st : RSt) (fuel : Nat), (∀ r ∈ recs, cfg.ValidRec r) →
    st.rc.Wf → st.rc.stream = cfg.encode recs ++ tail → st.rc.count + st.rc.stream.length ≤ st.rc.max →
    SampleInv cfg before st.sample → recs.length < fuel →
    cfg.readLoop fuel st = .done (st.events ++ cutAt cfg.cont st.events (cfg.deliver before recs)) := by
  induction recs with
  | nil =>
    intro before st fuel _ hw hs hc _ hf
    obtain ⟨fuel, rfl⟩ : ∃ k, fuel = k + 1 := ⟨fuel - 1, by simp at hf; omega⟩
    unfold RCfg.readLoop
    simp only [RCfg.deliver, cutAt, List.append_nil]
    split
    · rfl
    · rw [parseOne_tail hok st hw (by rw [hs]; exact hT) hend]
  | cons r rs ih =>
    intro before st fuel hv hw hs hc hi hf
    obtain ⟨fuel, rfl⟩ : ∃ k, fuel = k + 1 := ⟨fuel - 1, by simp at hf; omega⟩
    simp only [List.length_cons] at hf
    obtain ⟨g, hg, hsize⟩ := hv r (by simp)
    obtain ⟨hmem, hid⟩ := group_mem hg
    have henc : cfg.encode (r :: rs) = encodeRec cfg.idSize g.vlsd r ++ cfg.encode rs := by
      unfold RCfg.encode
      rw [List.flatMap_cons, hg]; rfl
    rw [henc, List.append_assoc] at hs
    have hpos : 0 < (encodeRec cfg.idSize g.vlsd r).length := by
      unfold encodeRec
      rw [writeRecordId_eq hok, List.length_append, leBytes_length]
      by_cases h0 : cfg.idSize = 0
      · by_cases hvl : g.vlsd = true
        · simp only [hvl, if_true, List.length_append, leBytes_length]; omega
        · simp only [hvl] at hsize ⊢
          simp only [Bool.false_eq_true, if_false] at hsize ⊢
          have := hok.progress h0 g hmem (by simpa using hvl)
          omega
      · omega
    have hlen : st.rc.stream.length = (encodeRec cfg.idSize g.vlsd r).length + (cfg.encode rs ++ tail).length := by
      rw [hs, List.length_append]
    obtain ⟨rc', h1, h2, h3, h4, h5⟩ := parseOne_spec hok hg hsize st hw _ hs
    unfold RCfg.readLoop
    rw [if_neg (by
      intro h
      rcases h with h | h
      · rw [h] at hmem; cases hmem
      · omega), h1]
    simp only
    rw [deliver_cons, ← newEvents_eq hi hg]
    have hi' := sampleInv_bump hok hi hg
    have hrec := ih (before ++ [r])
      { rc := rc', sample := bumpSample g st.sample, events := st.events ++ newEvents cfg st g r.data } fuel
      (fun x hx => hv x (List.mem_cons_of_mem _ hx)) h2 h3 (by simp only [h3]; omega) hi' (by omega)
    generalize hne : newEvents cfg st g r.data = ev at *
    have hev : ev = [] ∨ ∃ e, ev = [e] := by
      rw [← hne]; unfold newEvents; split
      · exact Or.inr ⟨_, rfl⟩
      · exact Or.inl rfl
    rcases hev with rfl | ⟨e, rfl⟩
    · have hgo : goesOn cfg st [] = true := rfl
      rw [hgo, if_pos rfl]
      simp only [List.append_nil, List.nil_append] at hrec ⊢
      rw [hrec]
    · have hgo : goesOn cfg st [e] = cfg.cont (st.events ++ [e]) := rfl
      rw [hgo]
      simp only [List.cons_append, List.nil_append, cutAt] at hrec ⊢
      by_cases hcont : cfg.cont (st.events ++ [e]) = true
      · rw [if_pos hcont, if_pos hcont, hrec]
        simp
      · rw [if_neg hcont, if_neg hcont]

/-- Without record ids and without subscription everything is skipped. -/
theorem readLoop_blind {cfg : RCfg} (hok : cfg.Ok) (h0 : cfg.idSize = 0) {g : RGroup} (hg : g ∈ cfg.groups)
    (hvl : g.vlsd = false) (hs : cfg.subs g.id = false) : ∀ (k : Nat) (st : RSt) (fuel : Nat),
    st.rc.max - st.rc.count ≤ k → k < fuel → cfg.readLoop fuel st = .done st.events := by
  intro k
  induction k with
  | zero =>
    intro st fuel hk hf
    obtain ⟨fuel, rfl⟩ : ∃ k, fuel = k + 1 := ⟨fuel - 1, by omega⟩
    unfold RCfg.readLoop
    rw [if_pos (Or.inr (by omega))]
  | succ k ih =>
    intro st fuel hk hf
    obtain ⟨fuel, rfl⟩ : ∃ k, fuel = k + 1 := ⟨fuel - 1, by omega⟩
    unfold RCfg.readLoop
    split
    · rfl
    · rename_i hn
      obtain ⟨rc', h1, h2, h3⟩ := skipBytes_pos g.size st.rc (hok.progress h0 g hg hvl)
      have hone : cfg.parseOne st = .ok (true, { st with rc := rc', sample := bumpSample g st.sample }) := by
        unfold RCfg.parseOne
        rw [parseRecordId_zero hok h0 hg]
        simp only [Out.bind]
        rw [find_of_mem hok hg]
        simp only [hvl]
        unfold RCfg.body
        simp only [hs, h1, Bool.false_eq_true, if_false, Out.bind]
      rw [hone]
      simp only [if_true]
      rw [ih _ _ (by simp only; omega) (by omega)]

theorem deliver_unsubscribed {cfg : RCfg} (recs : List Rec) : ∀ before, (∀ r ∈ recs, cfg.subs r.id = false) →
    cfg.deliver before recs = [] := by
  induction recs with
  | nil => intros; rfl
  | cons r rs ih =>
    intro before h
    rw [deliver_cons, ih _ fun x hx => h x (List.mem_cons_of_mem _ hx), h r (by simp)]
    simp

theorem init_spec (blocks : List Blk) (file : Bytes) (stream : Bytes) (h : Holds blocks stream) :
    (RC.init blocks file).Wf ∧ (RC.init blocks file).stream = stream ∧
      (RC.init blocks file).count + stream.length = (RC.init blocks file).max := by
  refine ⟨⟨by simp [RC.init], by simp [RC.init], by simp [RC.init], h.nonempty⟩, ?_, ?_⟩
  · simp only [RC.stream, RC.cur, RC.init, if_true, Nat.sub_zero, List.take_zero, List.nil_append]; exact h.flat
  · rw [← h.flat]
    simp [RC.init, List.length_flatMap]

/-- Everything about reading a record stream. -/
theorem read_spec {cfg : RCfg} (hok : cfg.Ok) (recs : List Rec) (hv : ∀ r ∈ recs, cfg.ValidRec r) (tail : Bytes)
    (hT : cfg.Tail tail) (blocks : List Blk) (file : Bytes) (hb : Holds blocks (cfg.encode recs ++ tail)) (fuel : Nat)
    (hf : (cfg.encode recs ++ tail).length + recs.length < fuel) :
    cfg.read fuel blocks file = .done (cutAt cfg.cont [] (cfg.deliver [] recs)) := by
  obtain ⟨h1, h2, h3⟩ := init_spec blocks file _ hb
  unfold RCfg.read
  by_cases hend : cfg.idSize ≠ 0 ∨ ∀ g ∈ cfg.groups, g.vlsd = true ∨ cfg.subs g.id = true
  · have := readLoop_spec hok hend tail hT recs [] { rc := RC.init blocks file, sample := fun _ => 0, events := [] }
      fuel hv h1 h2 (by simp only [h2]; omega) (by intro g _; simp) (by omega)
    rw [this]; simp
  · rw [not_or, Classical.not_not] at hend
    obtain ⟨h0, hex⟩ := hend
    obtain ⟨x, hx⟩ := List.length_eq_one_iff.mp (hok.single h0)
    have hmem : x ∈ cfg.groups := by rw [hx]; simp
    have hx2 : x.vlsd = false ∧ cfg.subs x.id = false := by
      rw [hx] at hex
      simp only [List.mem_singleton, forall_eq, not_or, Bool.not_eq_true] at hex
      exact hex
    have hd : cfg.deliver [] recs = [] := by
      apply deliver_unsubscribed
      intro r hr
      obtain ⟨g, hg, _⟩ := hv r hr
      obtain ⟨hg1, hg2⟩ := group_mem hg
      rw [hx, List.mem_singleton] at hg1
      rw [← hg2, hg1]; exact hx2.2
    rw [hd]
    exact readLoop_blind hok h0 hmem hx2.1 hx2.2 (RC.init blocks file).max _ _ (by simp only; omega) (by
      have : (RC.init blocks file).count = 0 := rfl
      omega)

end Mdf
