import Verif.Spec.Mdf3

/-!
Lemmas about MDF 3 records: the reader on a stream of records, and the writer's invariant.
-/

namespace Mdf

theorem record3_length (ib : Nat) (s : Sample) :
    (record3 ib s).length = (if ib > 0 then 1 else 0) + s.data.length + (if ib > 1 then 1 else 0) := by
  unfold record3
  rw [List.length_append, List.length_append]
  split <;> split <;> simp <;> omega

theorem find3_mem {groups : List Cg3} (h : (groups.map (·.id)).Nodup) {g : Cg3} (hg : g ∈ groups) :
    find3 groups g.id = some g := by
  have key : ∀ l : List Cg3, (l.map (·.id)).Nodup → g ∈ l → l.find? (·.id = g.id) = some g := by
    intro l
    induction l with
    | nil => intro _ h; simp at h
    | cons a l ih =>
      intro hn hm
      rw [List.map_cons, List.nodup_cons] at hn
      rw [List.mem_cons] at hm
      rcases hm with rfl | hm
      · simp
      · have hne : a.id ≠ g.id := by
          intro e
          exact hn.1 (by rw [e]; exact List.mem_map_of_mem hm)
        rw [List.find?_cons_of_neg (by simpa using hne)]
        exact ih hn.2 hm
  unfold find3
  split
  · next a => simp only [List.mem_singleton] at hg; rw [hg]
  · exact key _ h hg

theorem find3_single {groups : List Cg3} (h : groups.length = 1) {g : Cg3} (hg : g ∈ groups) (id : Nat) :
    find3 groups id = some g := by
  obtain ⟨a, rfl⟩ := List.length_eq_one_iff.mp h
  simp only [List.mem_singleton] at hg
  rw [hg]; rfl

theorem bump3_map {groups : List Cg3} (h : (groups.map (·.id)).Nodup) (id : Nat) :
    bump3 groups id = groups.map fun g => if g.id = id then { g with sample := g.sample + 1 } else g := by
  induction groups with
  | nil => rfl
  | cons g gs ih =>
    rw [List.map_cons, List.nodup_cons] at h
    rw [bump3, List.map_cons]
    split
    · next e =>
      congr 1
      symm
      conv => rhs; rw [← List.map_id' gs]
      apply List.map_congr_left
      intro a ha
      rw [if_neg]
      intro e'
      exact h.1 (by rw [e, ← e']; exact List.mem_map_of_mem ha)
    · rw [ih h.2]

theorem readId3_record {ib : Nat} {groups : List Cg3} (hi : Ids3 ib groups) (hd : (groups.map (·.id)).Nodup) {g : Cg3}
    (hg : g ∈ groups) (hb : g.id < 256) (s : Sample) (hs : g.id = s.id) (t : Bytes) :
    ∃ id n, readId3 ib (record3 ib s ++ t) = some (id, n, s.data ++ ((if ib > 1 then [BitVec.ofNat 8 s.id] else []) ++ t)) ∧
      n = (if ib > 0 then 1 else 0) ∧ find3 groups id = some g := by
  have hid : (BitVec.ofNat 8 s.id).toNat = g.id := by
    rw [BitVec.toNat_ofNat, ← hs]; omega
  rcases hi with rfl | rfl | ⟨rfl, hl⟩
  · refine ⟨g.id, 1, ?_, rfl, find3_mem hd hg⟩
    simp [readId3, record3, hid]
  · refine ⟨g.id, 1, ?_, rfl, find3_mem hd hg⟩
    simp [readId3, record3, hid]
  · refine ⟨0, 0, ?_, rfl, find3_single hl hg 0⟩
    simp [readId3, record3]

theorem readTrail3_record {ib : Nat} (hi : ib ≤ 2) (s : Sample) (t : Bytes) :
    readTrail3 ib ((if ib > 1 then [BitVec.ofNat 8 s.id] else []) ++ t) = some ((if ib > 1 then 1 else 0), t) := by
  unfold readTrail3
  by_cases h : ib > 1
  · rw [if_pos (by omega), if_pos h, if_pos h]; rfl
  · rw [if_neg (by omega), if_neg h, if_neg h]; rfl

theorem readRecord3_append (data t : Bytes) : readRecord3 data.length (data ++ t) = (data.length, data, t) := by
  unfold readRecord3
  simp

/-- The sample counters of the groups after the samples `before`. -/
def Counted3 (nof : Nat → Nat) (before : List Sample) (groups : List Cg3) : Prop :=
  ∀ g ∈ groups, g.nof = nof g.id ∧ g.sample = min (before.countP (·.id = g.id)) g.nof

theorem upTo_append_singleton (go : Event → Bool) (e : Event) (l : List Event) (h : go e = true) :
    upTo go (e :: l) = e :: upTo go l := by
  rw [upTo, if_pos h]

theorem countP_snoc (before : List Sample) (s : Sample) (id : Nat) :
    (before ++ [s]).countP (·.id = id) = before.countP (·.id = id) + (if s.id = id then 1 else 0) := by
  rw [List.countP_append, List.countP_singleton]
  simp

theorem parse3_spec (ib : Nat) (go : Event → Bool) (nof : Nat → Nat) (t : Bytes) (l : List Sample) :
    ∀ (before : List Sample) (groups : List Cg3) (left : Nat), Ids3 ib groups → Groups3 groups →
      (∀ s ∈ l, Fits3 groups s) → Counted3 nof before groups → left ≤ (stream3 ib l).length →
      parse3 ib go left (stream3 ib l ++ t) groups = (upTo go (deliver3 nof before (cover3 ib left l)), .done) := by
  induction l with
  | nil =>
    intro before groups left _ _ _ _ hl
    have : left = 0 := by simpa [stream3] using hl
    rw [parse3, if_pos this]; rfl
  | cons s l ih =>
    intro before groups left hi hg hf hc hl
    rw [parse3, cover3]
    by_cases h0 : left = 0
    · rw [if_pos h0, if_pos h0]; rfl
    rw [if_neg h0, if_neg h0]
    obtain ⟨g, hgm, hid, hsz, hpos⟩ := hf s (by simp)
    have hst : stream3 ib (s :: l) ++ t = record3 ib s ++ (stream3 ib l ++ t) := by simp [stream3]
    obtain ⟨id, n, h1, h2, h3⟩ := readId3_record hi hg.distinct hgm (hg.byte g hgm) s hid (stream3 ib l ++ t)
    rw [hst, h1]
    dsimp only
    rw [h3]
    dsimp only
    rw [← hsz, readRecord3_append]
    dsimp only
    rw [readTrail3_record (by rcases hi with h | h | h <;> omega)]
    dsimp only
    have hlen := record3_length ib s
    have hleft : left - (n + s.data.length + (if ib > 1 then 1 else 0)) = left - (record3 ib s).length := by
      rw [hlen, h2]
    have hle : left - (record3 ib s).length ≤ (stream3 ib l).length := by
      have : (stream3 ib (s :: l)).length = (record3 ib s).length + (stream3 ib l).length := by simp [stream3]
      omega
    obtain ⟨hnof, hsam⟩ := hc g hgm
    rw [deliver3, hleft]
    have hne : ¬ s.data.length = 0 := by omega
    by_cases hk : before.countP (·.id = s.id) < nof s.id
    · have hlt : g.sample = before.countP (·.id = s.id) ∧ g.sample < g.nof := by
        rw [← hid] at hk ⊢; omega
      have htell : tell3 g s.data = some ⟨before.countP (·.id = s.id), s.id, s.data⟩ := by
        unfold tell3; rw [if_pos hlt.2, hlt.1, hid]
      rw [htell, if_pos hk]
      simp only [Option.all_some, Option.toList_some, Option.isSome_some, if_true, List.cons_append, List.nil_append]
      by_cases hgo : go ⟨before.countP (·.id = s.id), s.id, s.data⟩ = true
      · rw [if_neg (by simp [hgo, hne]), upTo_append_singleton _ _ _ hgo]
        have hc' : Counted3 nof (before ++ [s]) (bump3 groups g.id) := by
          rw [bump3_map hg.distinct]
          intro g' hg'
          rw [List.mem_map] at hg'
          obtain ⟨a, ha, rfl⟩ := hg'
          obtain ⟨c1, c2⟩ := hc a ha
          by_cases e : a.id = g.id
          · rw [if_pos e]
            refine ⟨c1, ?_⟩
            show a.sample + 1 = min (List.countP (fun x => decide (x.id = a.id)) (before ++ [s])) a.nof
            rw [countP_snoc, if_pos (by omega)]
            have : nof a.id = nof s.id := by rw [e, hid]
            have e2 : before.countP (·.id = a.id) = before.countP (·.id = s.id) := by rw [e, hid]
            omega
          · rw [if_neg e]
            refine ⟨c1, ?_⟩
            rw [countP_snoc, if_neg (by omega)]
            simpa using c2
        have hids : (bump3 groups g.id).map (·.id) = groups.map (·.id) := by
          rw [bump3_map hg.distinct, List.map_map]
          apply List.map_congr_left
          intro a _
          simp only [Function.comp]
          split <;> rfl
        have hi' : Ids3 ib (bump3 groups g.id) := by
          have : (bump3 groups g.id).length = groups.length := by
            rw [← List.length_map (f := (·.id)), hids, List.length_map]
          unfold Ids3; rw [this]; exact hi
        have hg' : Groups3 (bump3 groups g.id) := by
          refine ⟨by rw [hids]; exact hg.distinct, ?_⟩
          intro a ha
          have : a.id ∈ groups.map (·.id) := by rw [← hids]; exact List.mem_map_of_mem ha
          obtain ⟨b, hb, e⟩ := List.mem_map.mp this
          rw [← e]; exact hg.byte b hb
        have hf' : ∀ x ∈ l, Fits3 (bump3 groups g.id) x := by
          intro x hx
          obtain ⟨a, ha, e1, e2, e3⟩ := hf x (List.mem_cons_of_mem _ hx)
          rw [bump3_map hg.distinct]
          refine ⟨_, List.mem_map_of_mem ha, ?_, ?_, ?_⟩
          · split <;> exact e1
          · split <;> exact e2
          · split <;> exact e3
        rw [ih (before ++ [s]) _ _ hi' hg' hf' hc' hle]
      · rw [if_pos (by simp [Bool.eq_false_iff.mpr hgo]), upTo, if_neg hgo]
    · have hlt : ¬ g.sample < g.nof := by
        rw [← hid] at hk; omega
      have htell : tell3 g s.data = none := by unfold tell3; rw [if_neg hlt]
      rw [htell, if_neg hk]
      simp only [Option.all_none, Option.toList_none, Option.isSome_none, List.nil_append]
      rw [if_neg (by simp [hne]), if_neg (by simp)]
      have hc' : Counted3 nof (before ++ [s]) groups := by
        intro a ha
        obtain ⟨c1, c2⟩ := hc a ha
        refine ⟨c1, ?_⟩
        rw [countP_snoc]
        by_cases e : s.id = a.id
        · rw [if_pos e]
          have : nof a.id = nof s.id := by rw [e]
          have e2 : before.countP (·.id = a.id) = before.countP (·.id = s.id) := by rw [e]
          omega
        · rw [if_neg e]; simpa using c2
      rw [ih (before ++ [s]) _ _ hi hg (fun x hx => hf x (List.mem_cons_of_mem _ hx)) hc' hle]

/-! ### Counting bytes -/

theorem sum_map_add {α : Type} (l : List α) (f g : α → Nat) : (l.map fun a => f a + g a).sum = (l.map f).sum + (l.map g).sum := by
  induction l with
  | nil => rfl
  | cons a l ih => simp only [List.map_cons, List.sum_cons, ih]; omega

theorem sum_zero {l : List Nat} (h : ∀ x ∈ l, x = 0) : l.sum = 0 := by
  induction l with
  | nil => rfl
  | cons a l ih =>
    rw [List.sum_cons, h a (by simp), ih fun x hx => h x (List.mem_cons_of_mem _ hx)]

theorem sum_map_single {groups : List Cg3} (hd : (groups.map (·.id)).Nodup) {g : Cg3} (hg : g ∈ groups) (f : Cg3 → Nat) :
    (groups.map fun a => if a.id = g.id then f a else 0).sum = f g := by
  induction groups with
  | nil => simp at hg
  | cons a l ih =>
    rw [List.map_cons, List.nodup_cons] at hd
    rw [List.map_cons, List.sum_cons]
    rw [List.mem_cons] at hg
    rcases hg with rfl | hg
    · rw [if_pos rfl]
      have : (l.map fun a => if a.id = g.id then f a else 0).sum = 0 := by
        rw [sum_zero]
        intro x hx
        rw [List.mem_map] at hx
        obtain ⟨b, hb, rfl⟩ := hx
        rw [if_neg]
        intro e
        exact hd.1 (by rw [← e]; exact List.mem_map_of_mem hb)
      omega
    · rw [if_neg, ih hd.2 hg]
      · omega
      · intro e
        exact hd.1 (by rw [e]; exact List.mem_map_of_mem hg)

theorem sum_map_le {α : Type} (l : List α) (f g : α → Nat) (h : ∀ a ∈ l, f a ≤ g a) : (l.map f).sum ≤ (l.map g).sum := by
  induction l with
  | nil => simp
  | cons a l ih =>
    simp only [List.map_cons, List.sum_cons]
    have := h a (by simp)
    have := ih fun b hb => h b (List.mem_cons_of_mem _ hb)
    omega

theorem idBytes_split {ib : Nat} {groups : List Cg3} (h : Ids3 ib groups) :
    (if ib > 0 then 1 else 0) + (if ib > 1 then 1 else 0) = ib := by
  rcases h with rfl | rfl | ⟨rfl, _⟩ <;> rfl

theorem stream3_length {ib : Nat} {groups : List Cg3} (hi : Ids3 ib groups) (hd : (groups.map (·.id)).Nodup) (l : List Sample)
    (hf : ∀ s ∈ l, Fits3 groups s) :
    (stream3 ib l).length = (groups.map fun g => (ib + g.size) * l.countP (·.id = g.id)).sum := by
  induction l with
  | nil =>
    symm
    rw [sum_zero]
    · rfl
    · intro x hx
      rw [List.mem_map] at hx
      obtain ⟨b, _, rfl⟩ := hx
      simp
  | cons s l ih =>
    obtain ⟨g, hg, h1, h2, h3⟩ := hf s (by simp)
    have e1 : (stream3 ib (s :: l)).length = (record3 ib s).length + (stream3 ib l).length := by simp [stream3]
    have e2 : (groups.map fun g => (ib + g.size) * (s :: l).countP (·.id = g.id)) =
        groups.map fun a => (if a.id = g.id then ib + a.size else 0) + (ib + a.size) * l.countP (·.id = a.id) := by
      apply List.map_congr_left
      intro a _
      rw [List.countP_cons]
      by_cases e : a.id = g.id
      · rw [if_pos e, if_pos (by simp; omega), Nat.mul_succ, Nat.add_comm]
      · rw [if_neg e, if_neg (by simp; omega)]; simp
    rw [e1, e2, sum_map_add, sum_map_single hd hg (fun a => ib + a.size), ih (fun x hx => hf x (List.mem_cons_of_mem _ hx)),
      record3_length, h2]
    have := idBytes_split hi
    omega

theorem cover3_all (ib : Nat) (l : List Sample) (hpos : ∀ s ∈ l, 0 < (record3 ib s).length) :
    cover3 ib (stream3 ib l).length l = l := by
  induction l with
  | nil => rfl
  | cons s l ih =>
    have e1 : (stream3 ib (s :: l)).length = (record3 ib s).length + (stream3 ib l).length := by simp [stream3]
    have := hpos s (by simp)
    rw [cover3, if_neg (by omega), e1, Nat.add_sub_cancel_left, ih fun x hx => hpos x (List.mem_cons_of_mem _ hx)]

theorem deliver3_all (nof : Nat → Nat) (l : List Sample) : ∀ (before : List Sample) (all : List Sample), before ++ l = all →
    (∀ s ∈ all, all.countP (·.id = s.id) ≤ nof s.id) →
    deliver3 nof before l = l.mapIdx fun i s => ⟨(all.take (before.length + i)).countP (·.id = s.id), s.id, s.data⟩ := by
  induction l with
  | nil => intros; rfl
  | cons s l ih =>
    intro before all ha hn
    have hcount : before.countP (·.id = s.id) < nof s.id := by
      have h1 := hn s (by rw [← ha]; simp)
      rw [← ha, List.countP_append, List.countP_cons, if_pos (by simp)] at h1
      omega
    rw [deliver3, if_pos hcount, List.mapIdx_cons, ih (before ++ [s]) all (by rw [← ha]; simp) hn, List.singleton_append]
    have e0 : all.take (before.length + 0) = before := by rw [← ha]; simp
    rw [e0]
    congr 1
    apply List.mapIdx_eq_mapIdx_iff.mpr
    intro i hi
    have : (before ++ [s]).length + i = before.length + (i + 1) := by simp; omega
    rw [this]

theorem deliver3_events (nof : Nat → Nat) (l : List Sample) (hn : ∀ s ∈ l, l.countP (·.id = s.id) ≤ nof s.id) :
    deliver3 nof [] l = events3 l := by
  rw [deliver3_all nof l [] l rfl hn]
  unfold events3
  simp

end Mdf
