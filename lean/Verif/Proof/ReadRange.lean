import Verif.Model.ReadRange
import Verif.Proof.ReadCache

namespace Mdf

/-- The sample is inside the range the code checks. -/
def inRange (lo hi : Nat) (e : Event) : Bool := decide (lo ≤ e.sample + 1 ∧ e.sample + 1 ≤ hi)

/-- The groups that are not used any more have nothing more to deliver. -/
def UsedInv (cfg : RCfg) (lo hi : Nat) (before : List Rec) (used : Nat → Bool) : Prop :=
  ∀ g ∈ cfg.groups, used g.id = false →
    cfg.subs g.id = false ∨ before.countP (·.id = g.id) + 1 > hi ∨ (∀ k, k < g.nof → ¬ lo ≤ k + 1)

/-- The notification for a record of group `g`. -/
def newRange (cfg : RCfg) (lo hi : Nat) (st : RSt) (g : RGroup) (data : Bytes) : List Event :=
  (newEvents cfg st g data).filter (inRange lo hi)

theorem filter_singleton_if {α : Type} (p : α → Bool) (c : Prop) [Decidable c] (a : α) :
    (if c then [a] else []).filter p = if c ∧ p a = true then [a] else [] := by
  by_cases hc : c <;> by_cases hp : p a = true <;> simp [hc, hp]

theorem rangeBody_spec (cfg : RCfg) (lo hi : Nat) (g : RGroup) (n : Nat) {rc : RC} (st : RSt) (used : Nat → Bool)
    (before : List Rec) (hmem : g ∈ cfg.groups) (hi1 : SampleInv cfg before st.sample) (hi2 : UsedInv cfg lo hi before used)
    (h : rc.Wf) (hn : n ≤ rc.stream.length) :
    ∃ rc' used', cfg.rangeBody lo hi g.id g n rc st used =
        .ok (goesOn cfg st (newRange cfg lo hi st g (rc.stream.take n)),
          { rc := rc', sample := bumpSample g st.sample, events := st.events ++ newRange cfg lo hi st g (rc.stream.take n) },
          used') ∧
      rc'.Wf ∧ rc'.stream = rc.stream.drop n ∧ rc'.count ≤ rc.count + n ∧ rc'.max = rc.max ∧
      (used' = used ∨ (st.sample g.id + 1 > hi ∧ used' = markRead used g.id)) := by
  have hs := hi1 g hmem
  unfold RCfg.rangeBody
  simp only
  obtain ⟨rcs, s1, s2, s3, s4, s5⟩ := skipBytes_spec n h hn
  obtain ⟨rcg, g1, g2, g3, g4, g5⟩ := (getArray_spec n h).1 hn
  by_cases hskip : used g.id = false ∨ st.sample g.id + 1 < lo ∨ st.sample g.id + 1 > hi
  · rw [if_pos hskip, s1]
    have hnil : newRange cfg lo hi st g (rc.stream.take n) = [] := by
      unfold newRange newEvents
      rw [filter_singleton_if, if_neg]
      rintro ⟨⟨a, b⟩, c⟩
      simp only [inRange, decide_eq_true_eq] at c
      rcases hskip with hu | hu | hu
      · rcases hi2 g hmem hu with e | e | e
        · rw [e] at a; cases a
        · omega
        · exact e _ b c.1
      · omega
      · omega
    rw [hnil]
    refine ⟨rcs, _, by simp only [Out.bind, goesOn, if_true, List.append_nil]; rfl, s2, s3, s4, s5, ?_⟩
    by_cases hgt : st.sample g.id + 1 > hi
    · rw [if_pos hgt]; exact Or.inr ⟨hgt, rfl⟩
    · rw [if_neg hgt]; exact Or.inl rfl
  · rw [if_neg hskip]
    simp only [not_or, Bool.not_eq_false] at hskip
    by_cases hsub : cfg.subs g.id = false
    · rw [if_pos hsub, s1]
      have hnil : newRange cfg lo hi st g (rc.stream.take n) = [] := by
        unfold newRange newEvents
        simp [hsub]
      rw [hnil]
      exact ⟨rcs, used, by simp only [Out.bind, goesOn, if_true, List.append_nil], s2, s3, s4, s5, Or.inl rfl⟩
    · rw [if_neg hsub, g1]
      simp only [Bool.not_eq_false] at hsub
      have hin : inRange lo hi ⟨st.sample g.id, g.id, rc.stream.take n⟩ = true := by
        simp only [inRange, decide_eq_true_eq]; omega
      refine ⟨rcg, used, ?_, g2, g3, by omega, g5, Or.inl rfl⟩
      unfold newRange newEvents
      simp only [hsub, true_and, Out.bind]
      rw [filter_singleton_if, hin]
      by_cases hlt : st.sample g.id < g.nof
      · simp [hlt, goesOn]
      · simp [hlt, goesOn, bumpSample]

theorem find_ne_none {cfg : RCfg} (hok : cfg.Ok) {g : RGroup} (h : g ∈ cfg.groups) :
    ¬ cfg.groups.find? (·.id = g.id) = none := by
  have := group_of_mem hok h
  unfold RCfg.group at this
  rw [this]; simp

theorem rangeOne_spec {cfg : RCfg} (hok : cfg.Ok) (lo hi : Nat) {r : Rec} {g : RGroup} (hg : cfg.group r.id = some g)
    (hv : if g.vlsd then r.data.length < 2 ^ 32 else r.data.length = g.size) (st : RSt) (used : Nat → Bool)
    (before : List Rec) (hi1 : SampleInv cfg before st.sample) (hi2 : UsedInv cfg lo hi before used)
    (h : st.rc.Wf) (T : Bytes) (hS : st.rc.stream = encodeRec cfg.idSize g.vlsd r ++ T) :
    ∃ rc' used', cfg.rangeOne lo hi st used =
        .ok (goesOn cfg st (newRange cfg lo hi st g r.data),
          { rc := rc', sample := bumpSample g st.sample, events := st.events ++ newRange cfg lo hi st g r.data }, used') ∧
      rc'.Wf ∧ rc'.stream = T ∧ rc'.count ≤ st.rc.count + (encodeRec cfg.idSize g.vlsd r).length ∧ rc'.max = st.rc.max ∧
      (used' = used ∨ (st.sample g.id + 1 > hi ∧ used' = markRead used g.id)) := by
  obtain ⟨hmem, hid⟩ := group_mem hg
  unfold encodeRec at hS ⊢
  rw [writeRecordId_eq hok] at hS ⊢
  have hstep : ∃ rc1, cfg.parseRecordId st.rc = .ok (g.id, rc1) ∧ rc1.Wf ∧
      rc1.stream = (if g.vlsd then leBytes 4 r.data.length ++ r.data else r.data) ++ T ∧
      rc1.count = st.rc.count + cfg.idSize ∧ rc1.max = st.rc.max := by
    by_cases h0 : cfg.idSize = 0
    · refine ⟨st.rc, parseRecordId_zero hok h0 hmem _, h, ?_, by omega, rfl⟩
      rw [hS, h0]; rfl
    · obtain ⟨rc1, h1, h2, h3, h4, h5⟩ := (parseRecordId_spec hok h0 h).1 (by rw [hS]; simp)
      refine ⟨rc1, ?_, h2, ?_, h4, h5⟩
      · rw [h1, hS, List.append_assoc, List.take_left' (by simp), leNat_leBytes, Nat.mod_eq_of_lt, hid]
        rw [← hid]; exact hok.fits h0 g hmem
      · rw [h3, hS, List.append_assoc, List.drop_left' (by simp)]
  obtain ⟨rc1, p1, p2, p3, p4, p5⟩ := hstep
  unfold RCfg.rangeOne
  rw [p1]
  simp only [Out.bind]
  rw [if_neg (find_ne_none hok hmem), find_of_mem hok hmem]
  simp only
  by_cases hvl : g.vlsd = true
  · simp only [hvl, if_true] at p3 hv ⊢
    obtain ⟨rc2, q1, q2, q3, q4, q5⟩ := (getArray_spec 4 p2).1 (by rw [p3]; simp)
    rw [p3, List.append_assoc, List.drop_left' (by simp)] at q3
    rw [p3, List.append_assoc, List.take_left' (by simp)] at q1
    rw [q1]
    simp only [leNat_leBytes]
    have hmod : r.data.length % 256 ^ 4 = r.data.length := Nat.mod_eq_of_lt (by omega)
    rw [hmod]
    obtain ⟨rc3, u, b1, b2, b3, b4, b5, b6⟩ := rangeBody_spec cfg lo hi g r.data.length st used before hmem hi1 hi2 q2
      (by rw [q3]; simp)
    rw [q3, List.take_left' rfl] at b1
    rw [q3, List.drop_left' rfl] at b3
    exact ⟨rc3, u, b1, b2, b3, by simp; omega, by omega, b6⟩
  · simp only [hvl] at p3 hv ⊢
    simp only [Bool.false_eq_true, if_false] at p3 hv ⊢
    obtain ⟨rc3, u, b1, b2, b3, b4, b5, b6⟩ := rangeBody_spec cfg lo hi g g.size st used before hmem hi1 hi2 p2
      (by rw [p3]; simp; omega)
    rw [p3, List.take_left' hv] at b1
    rw [p3, List.drop_left' hv] at b3
    exact ⟨rc3, u, b1, b2, b3, by simp; omega, by omega, b6⟩

/-- All data blocks are used up. -/
structure RC.Exhausted (s : RC) : Prop where
  rest : s.rest = []
  idx : s.size ≤ s.idx

theorem exhausted_getArray {s : RC} (h : s.Exhausted) {n : Nat} (h0 : 0 < n) : s.getArray n = .throw := by
  unfold RC.getArray
  have := h.idx
  rw [if_neg (by omega)]
  obtain ⟨n, rfl⟩ : ∃ k, n = k + 1 := ⟨n - 1, by omega⟩
  unfold RC.getBytes RC.getNextByte
  rw [if_neg (by omega), h.rest]

theorem exhausted_skip {s : RC} (h : s.Exhausted) {n : Nat} (h0 : 0 < n) :
    ∃ s', s.skipBytes n = .ok s' ∧ s'.Exhausted ∧ s.count < s'.count ∧ s'.max = s.max := by
  have := h.idx
  unfold RC.skipBytes
  rw [if_neg (by omega), h.rest]
  refine ⟨_, rfl, ⟨rfl, ?_⟩, ?_, rfl⟩
  · simp only [RC.skipBlocks, RC.stepInside]; omega
  · simp only [RC.skipBlocks, RC.stepInside]; omega

theorem exhausted_of_nil {s : RC} (h : s.Wf) (hs : s.stream = []) : s.Exhausted := by
  unfold RC.stream at hs
  rw [List.append_eq_nil_iff] at hs
  constructor
  · match hr : s.rest with
    | [] => rfl
    | b :: rest =>
      have := h.rest b (by rw [hr]; simp)
      rw [hr, List.flatMap_cons, List.append_eq_nil_iff] at hs
      exact absurd hs.2.1 this
  · have := h.cur_length
    rw [hs.1] at this
    simp at this; omega

theorem rangeLoop_exhausted {cfg : RCfg} (hok : cfg.Ok) (lo hi : Nat) : ∀ (k : Nat) (st : RSt) (used : Nat → Bool) (fuel : Nat),
    st.rc.Exhausted → st.rc.max - st.rc.count ≤ k → k < fuel → cfg.rangeLoop lo hi fuel st used = .done st.events := by
  intro k
  induction k with
  | zero =>
    intro st used fuel _ hk hf
    obtain ⟨fuel, rfl⟩ : ∃ k, fuel = k + 1 := ⟨fuel - 1, by omega⟩
    unfold RCfg.rangeLoop
    rw [if_pos (Or.inr (by omega))]
  | succ k ih =>
    intro st used fuel he hk hf
    obtain ⟨fuel, rfl⟩ : ∃ k, fuel = k + 1 := ⟨fuel - 1, by omega⟩
    unfold RCfg.rangeLoop
    split
    · rfl
    · by_cases h0 : cfg.idSize = 0
      · obtain ⟨g, hx⟩ := List.length_eq_one_iff.mp (hok.single h0)
        have hmem : g ∈ cfg.groups := by rw [hx]; simp
        unfold RCfg.rangeOne
        rw [parseRecordId_zero hok h0 hmem]
        simp only [Out.bind]
        rw [if_neg (find_ne_none hok hmem), find_of_mem hok hmem]
        simp only
        by_cases hvl : g.vlsd = true
        · rw [if_pos hvl, exhausted_getArray he (by omega)]
        · rw [if_neg hvl]
          have hp := hok.progress h0 g hmem (by simpa using hvl)
          obtain ⟨rc', s1, s2, s3, s4⟩ := exhausted_skip he hp
          unfold RCfg.rangeBody
          rw [s1, exhausted_getArray he hp]
          simp only [Out.bind]
          split
          · rename_i heq; split at heq <;> (try split at heq) <;> cases heq
          · rfl
          · rename_i c st' used' heq
            have hst : st' = { st with rc := rc', sample := bumpSample g st.sample } := by
              split at heq
              · injection heq with heq; injection heq with _ heq; injection heq with a b; exact a.symm
              · split at heq
                · injection heq with heq; injection heq with _ heq; injection heq with a b; exact a.symm
                · cases heq
            subst hst
            split
            · rw [ih _ _ _ s2 (by simp only; omega) (by omega)]
            · rfl
      · have : cfg.rangeOne lo hi st used = .throw := by
          unfold RCfg.rangeOne RCfg.parseRecordId
          rcases hok.width with hw | hw | hw | hw | hw
          · exact absurd hw h0
          all_goals
            simp only [hw]
            rw [exhausted_getArray he (by omega)]; rfl
        rw [this]

theorem usedInv_append {cfg : RCfg} {lo hi : Nat} {before : List Rec} {used : Nat → Bool} (h : UsedInv cfg lo hi before used)
    (r : Rec) : UsedInv cfg lo hi (before ++ [r]) used := by
  intro g hg hu
  rcases h g hg hu with e | e | e
  · exact Or.inl e
  · refine Or.inr (Or.inl ?_)
    rw [List.countP_append]; omega
  · exact Or.inr (Or.inr e)

theorem deliver_dead {cfg : RCfg} {lo hi : Nat} (recs : List Rec) : ∀ (before : List Rec) (used : Nat → Bool),
    (∀ r ∈ recs, cfg.ValidRec r) → UsedInv cfg lo hi before used → (∀ g ∈ cfg.groups, used g.id = false) →
    (cfg.deliver before recs).filter (inRange lo hi) = [] := by
  induction recs with
  | nil => intros; rfl
  | cons r rs ih =>
    intro before used hv hu hall
    obtain ⟨g, hg, _⟩ := hv r (by simp)
    obtain ⟨hmem, hid⟩ := group_mem hg
    have hn : cfg.nof r.id = g.nof := by unfold RCfg.nof; rw [hg]; rfl
    rw [deliver_cons, List.filter_append, ih _ used (fun x hx => hv x (List.mem_cons_of_mem _ hx)) (usedInv_append hu r) hall,
      List.append_nil, filter_singleton_if, if_neg]
    rintro ⟨⟨a, b⟩, c⟩
    simp only [inRange, decide_eq_true_eq] at c
    have hd := hu g hmem (hall g hmem)
    rw [hid] at hd
    rw [hn] at b
    rcases hd with e | e | e
    · rw [e] at a; cases a
    · omega
    · exact e _ b c.1

theorem cutAt_nil_of_cont {cont : List Event → Bool} : ∀ (es seen : List Event), (∀ l, cont l = true) → cutAt cont seen es = es := by
  intro es
  induction es with
  | nil => intros; rfl
  | cons e es ih => intro seen h; rw [cutAt, if_pos (h _), ih _ h]

theorem rangeLoop_spec {cfg : RCfg} (hok : cfg.Ok) (lo hi : Nat)
    (recs : List Rec) : ∀ (before : List Rec) (st : RSt) (used : Nat → Bool) (fuel : Nat), (∀ r ∈ recs, cfg.ValidRec r) →
    st.rc.Wf → st.rc.stream = cfg.encode recs → st.rc.count + st.rc.stream.length ≤ st.rc.max →
    SampleInv cfg before st.sample → UsedInv cfg lo hi before used → st.rc.max + recs.length < fuel →
    cfg.rangeLoop lo hi fuel st used =
      .done (st.events ++ cutAt cfg.cont st.events ((cfg.deliver before recs).filter (inRange lo hi))) := by
  induction recs with
  | nil =>
    intro before st used fuel _ hw hs hc _ _ hf
    rw [rangeLoop_exhausted hok lo hi _ st used fuel (exhausted_of_nil hw hs) (Nat.sub_le st.rc.max _) (by simpa using hf)]
    simp [RCfg.deliver, cutAt]
  | cons r rs ih =>
    intro before st used fuel hv hw hs hc hi1 hi2 hf
    obtain ⟨fuel, rfl⟩ : ∃ k, fuel = k + 1 := ⟨fuel - 1, by simp at hf; omega⟩
    simp only [List.length_cons] at hf
    obtain ⟨g, hg, hsize⟩ := hv r (by simp)
    obtain ⟨hmem, hid⟩ := group_mem hg
    have henc : cfg.encode (r :: rs) = encodeRec cfg.idSize g.vlsd r ++ cfg.encode rs := by
      unfold RCfg.encode
      rw [List.flatMap_cons, hg]; rfl
    rw [henc] at hs
    have hpos : 0 < (encodeRec cfg.idSize g.vlsd r).length := by
      unfold encodeRec
      rw [writeRecordId_eq hok, List.length_append, leBytes_length]
      by_cases h0 : cfg.idSize = 0
      · by_cases hvl : g.vlsd = true
        · simp only [hvl, if_true, List.length_append, leBytes_length]; omega
        · simp only [hvl] at hsize ⊢
          simp only [Bool.false_eq_true, if_false] at hsize ⊢
          have := hok.progress h0 g hmem (by simpa using hvl)
          omega
      · omega
    have hlen : st.rc.stream.length = (encodeRec cfg.idSize g.vlsd r).length + (cfg.encode rs).length := by
      rw [hs, List.length_append]
    obtain ⟨rc', used', h1, h2, h3, h4, h5, h6⟩ := rangeOne_spec hok lo hi hg hsize st used before hi1 hi2 hw _ hs
    unfold RCfg.rangeLoop
    rw [if_neg (by
      intro h
      rcases h with h | h
      · rw [h] at hmem; cases hmem
      · omega), h1]
    simp only
    rw [deliver_cons, List.filter_append, ← newEvents_eq hi1 hg]
    have hi1' := sampleInv_bump hok hi1 hg
    have hi2' : UsedInv cfg lo hi (before ++ [r]) used' := by
      rcases h6 with e | ⟨e1, e2⟩
      · rw [e]; exact usedInv_append hi2 r
      · intro g' hg' hu'
        by_cases he : g'.id = g.id
        · have hgg : g' = g := by
            have a := group_of_mem hok hg'
            have b := group_of_mem hok hmem
            rw [he, b] at a
            exact (Option.some.inj a).symm
          rw [hgg]
          have := hi1 g hmem
          refine Or.inr (Or.inl ?_)
          rw [List.countP_append]; omega
        · rw [e2] at hu'
          simp only [markRead, he, if_false] at hu'
          exact usedInv_append hi2 r g' hg' hu'
    have hrec := ih (before ++ [r])
      { rc := rc', sample := bumpSample g st.sample, events := st.events ++ newRange cfg lo hi st g r.data } used' fuel
      (fun x hx => hv x (List.mem_cons_of_mem _ hx)) h2 h3 (by simp only [h3]; omega) hi1' hi2' (by simp only; omega)
    have hready : cfg.rangeReady used' = true → (cfg.deliver (before ++ [r]) rs).filter (inRange lo hi) = [] := by
      intro hr
      refine deliver_dead rs (before ++ [r]) used' (fun x hx => hv x (List.mem_cons_of_mem _ hx)) hi2' ?_
      intro g' hg'
      unfold RCfg.rangeReady at hr
      have := List.all_eq_true.mp hr g' hg'
      simpa using this
    have hev : (newEvents cfg st g r.data).filter (inRange lo hi) = [] ∨
        ∃ e, (newEvents cfg st g r.data).filter (inRange lo hi) = [e] := by
      unfold newEvents
      rw [filter_singleton_if]
      split
      · exact Or.inr ⟨_, rfl⟩
      · exact Or.inl rfl
    unfold newRange at hrec ⊢
    rcases hev with he | ⟨e, he⟩
    · rw [he] at hrec ⊢
      have hgo : goesOn cfg st [] = true := rfl
      rw [hgo, Bool.true_and]
      simp only [List.append_nil, List.nil_append] at hrec ⊢
      by_cases hr : cfg.rangeReady used' = true
      · rw [hr, hready hr]; simp [cutAt]
      · simp only [hr, Bool.not_false, if_true]
        rw [hrec]
    · rw [he] at hrec ⊢
      have hgo : goesOn cfg st [e] = cfg.cont (st.events ++ [e]) := rfl
      rw [hgo]
      simp only [List.cons_append, List.nil_append, cutAt] at hrec ⊢
      by_cases hcont : cfg.cont (st.events ++ [e]) = true
      · rw [hcont, Bool.true_and, if_pos rfl]
        by_cases hr : cfg.rangeReady used' = true
        · rw [hr, hready hr]; simp [cutAt]
        · simp only [hr, Bool.not_false, if_true]
          rw [hrec]
          simp
      · simp only [hcont, Bool.false_and, Bool.false_eq_true, if_false]

theorem initUsed_inv {cfg : RCfg} (hok : cfg.Ok) (lo hi : Nat) : UsedInv cfg lo hi [] (cfg.initUsed lo) := by
  intro g hg hu
  unfold RCfg.initUsed at hu
  have hgr := group_of_mem hok hg
  unfold RCfg.group at hgr
  rw [hgr] at hu
  simp only at hu
  split at hu
  · rename_i h
    refine Or.inr (Or.inr ?_)
    intro k hk; omega
  · exact Or.inl hu

theorem readPartial_spec {cfg : RCfg} (hok : cfg.Ok) (lo hi : Nat) (recs : List Rec) (hv : ∀ r ∈ recs, cfg.ValidRec r)
    (blocks : List Blk) (file : Bytes) (hb : Holds blocks (cfg.encode recs)) (fuel : Nat)
    (hf : (cfg.encode recs).length + recs.length < fuel) :
    cfg.readPartial lo hi fuel blocks file =
      .done (cutAt cfg.cont [] ((cfg.deliver [] recs).filter (inRange lo (if hi < lo then lo else hi)))) := by
  obtain ⟨h1, h2, h3⟩ := init_spec blocks file _ hb
  unfold RCfg.readPartial
  have hc : (RC.init blocks file).count = 0 := rfl
  have := rangeLoop_spec hok lo (if hi < lo then lo else hi) recs []
    { rc := RC.init blocks file, sample := fun _ => 0, events := [] } (cfg.initUsed lo) fuel hv h1 h2
    (by simp only [h2]; omega) (by intro g _; simp) (initUsed_inv hok _ _) (by simp only; omega)
  simp only
  rw [this]; simp

end Mdf
