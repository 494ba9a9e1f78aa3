import Verif.Proof.Mdf3

/-!
Lemmas about MDF 3 records: the invariant of the writer.
-/

namespace Mdf

theorem snocInd {α : Type} {P : List α → Prop} (nil : P []) (snoc : ∀ l a, P l → P (l ++ [a])) (l : List α) : P l := by
  rw [← List.reverse_reverse l]
  induction l.reverse with
  | nil => exact nil
  | cons a l ih => rw [List.reverse_cons]; exact snoc _ _ ih

theorem count3_fold (l : List Sample) : ∀ (groups : List Cg3), (∀ g ∈ groups, g.nof = g.sample % 2 ^ 32) →
    l.foldl (fun gs s => count3 gs s.id) groups = groups.map fun g =>
      { g with sample := g.sample + l.countP (·.id = g.id), nof := (g.sample + l.countP (·.id = g.id)) % 2 ^ 32 } := by
  induction l with
  | nil =>
    intro groups h
    rw [List.foldl_nil]
    conv => lhs; rw [← List.map_id' groups]
    apply List.map_congr_left
    intro g hg
    have := h g hg
    rw [List.countP_nil, Nat.add_zero, ← this]
  | cons s l ih =>
    intro groups h
    rw [List.foldl_cons, ih]
    · unfold count3
      rw [List.map_map]
      apply List.map_congr_left
      intro g hg
      simp only [Function.comp]
      by_cases e : g.id = s.id
      · simp only [if_pos e]
        rw [List.countP_cons, if_pos (by simp [e])]
        have : g.sample + 1 + l.countP (·.id = g.id) = g.sample + (l.countP (·.id = g.id) + 1) := by omega
        rw [this]
      · simp only [if_neg e]
        rw [List.countP_cons, if_neg (by simp; omega), Nat.add_zero]
    · intro g hg
      unfold count3 at hg
      rw [List.mem_map] at hg
      obtain ⟨a, ha, rfl⟩ := hg
      split
      · rfl
      · exact h a ha

theorem saved3_snoc (i : Nat) (ops : List M3Op) (op : M3Op) :
    saved3 i (ops ++ [op]) = match op with
      | .add j s => if j = i then ((saved3 i ops).1 ++ [s], (saved3 i ops).2) else saved3 i ops
      | .clean j => if j = i then ([], (saved3 i ops).2 ++ (saved3 i ops).1) else saved3 i ops := by
  unfold saved3
  rw [List.foldl_append]
  rfl

theorem trim3_keeps (preTrig start : Nat) (hs : 0 < start) (q : List Sample) (h : ∀ s ∈ q, sub64 start preTrig ≤ s.time) :
    (trimQueue preTrig start q).2 = q := by
  match q with
  | [] => rfl
  | [e] => rfl
  | e :: n :: rest =>
    rw [trimQueue]
    have : trimStops preTrig start n.time ((n :: rest).getLast (by simp)).time = true := by
      unfold trimStops
      rw [if_pos hs]
      exact decide_eq_true (h n (by simp))
    rw [if_pos this]

theorem drain3_zero (q : List Sample) : drain3 0 q = (q, []) := by
  induction q with
  | nil => rfl
  | cons s q ih => rw [drain3, if_neg (by omega), ih]

/-- Data groups as they are after the headers of the file have been written. -/
structure Fresh3 (m : M3) : Prop where
  header : m.file ≠ []
  new : ∀ d ∈ m.dgs, d.link = 0 ∧ d.queue = [] ∧ ∀ g ∈ d.groups, g.sample = 0 ∧ g.nof = 0

/-- No sample is older than the pre-trigger time allows, and the stop time is not known to the thread. -/
structure Keeps3 (cfg : M3Cfg) (ops : List M3Op) : Prop where
  started : 0 < cfg.start
  running : cfg.stop = 0
  recent : ∀ i s, M3Op.add i s ∈ ops → sub64 cfg.start cfg.preTrig ≤ s.time

/-- The invariant for data group `i`, which was `d0`. -/
def Inv3 (i : Nat) (d0 : Dg3) (ops : List M3Op) (m : M3) (d : Dg3) : Prop :=
  m.dgs[i]? = some d ∧ d.queue = (saved3 i ops).1 ∧
  d.groups = (saved3 i ops).2.foldl (fun gs s => count3 gs s.id) d0.groups ∧
  ((d.link = 0 ∧ (saved3 i ops).2 = [] ∧ ops.count (.clean i) = 0) ∨
    ∃ pre tail, pre.length = d.link ∧ 0 < d.link ∧ 0 < ops.count (.clean i) ∧
      m.file = pre ++ stream3 (idBytes3 d0.groups) (saved3 i ops).2 ++ tail ∧ (m.dgs.length = 1 → tail = []))

theorem count3_length (gs : List Cg3) (l : List Sample) : (l.foldl (fun gs s => count3 gs s.id) gs).length = gs.length := by
  induction l generalizing gs with
  | nil => rfl
  | cons s l ih => rw [List.foldl_cons, ih]; unfold count3; simp

theorem step3_length (cfg : M3Cfg) (m : M3) (op : M3Op) : (m.step cfg op).dgs.length = m.dgs.length := by
  cases op with
  | add i s => unfold M3.step; dsimp only; split <;> simp
  | clean i => unfold M3.step; dsimp only; split <;> simp

theorem step3_file (cfg : M3Cfg) (m : M3) (op : M3Op) : ∃ t, (m.step cfg op).file = m.file ++ t := by
  cases op with
  | add i s => refine ⟨[], ?_⟩; unfold M3.step; dsimp only; split <;> simp
  | clean i =>
    unfold M3.step; dsimp only
    split
    · exact ⟨[], by simp⟩
    · exact ⟨_, rfl⟩

theorem run3_snoc (cfg : M3Cfg) (m : M3) (ops : List M3Op) (op : M3Op) : m.run cfg (ops ++ [op]) = (m.run cfg ops).step cfg op := by
  unfold M3.run
  rw [List.foldl_append]; rfl

theorem run3_length (cfg : M3Cfg) (m : M3) (ops : List M3Op) : (m.run cfg ops).dgs.length = m.dgs.length := by
  induction ops generalizing m with
  | nil => rfl
  | cons op ops ih => show (M3.run cfg (m.step cfg op) ops).dgs.length = _; rw [ih, step3_length]

theorem run3_file (cfg : M3Cfg) (m : M3) (ops : List M3Op) (h : m.file ≠ []) : (m.run cfg ops).file ≠ [] := by
  induction ops generalizing m with
  | nil => exact h
  | cons op ops ih =>
    show (M3.run cfg (m.step cfg op) ops).file ≠ []
    apply ih
    obtain ⟨t, ht⟩ := step3_file cfg m op
    rw [ht]
    simp [h]

theorem pending3_mem (i : Nat) (ops : List M3Op) : ∀ s ∈ (saved3 i ops).1, M3Op.add i s ∈ ops := by
  induction ops using snocInd with
  | nil => intro s h; simp [saved3] at h
  | snoc ops op ih =>
    intro s hs
    rw [saved3_snoc] at hs
    rw [List.mem_append]
    cases op with
    | add j x =>
      dsimp only at hs
      split at hs
      · next e =>
        rw [List.mem_append, List.mem_singleton] at hs
        rcases hs with hs | rfl
        · exact Or.inl (ih s hs)
        · right; rw [e]; simp
      · exact Or.inl (ih s hs)
    | clean j =>
      dsimp only at hs
      split at hs
      · simp at hs
      · exact Or.inl (ih s hs)

theorem run3_inv (cfg : M3Cfg) (m0 : M3) (h0 : Fresh3 m0) (i : Nat) (d0 : Dg3) (hd0 : m0.dgs[i]? = some d0) (ops : List M3Op)
    (hk : Keeps3 cfg ops) (hs : Schedule3 m0.dgs.length ops) : ∃ d, Inv3 i d0 ops (m0.run cfg ops) d := by
  induction ops using snocInd with
  | nil =>
    obtain ⟨h1, h2, h3⟩ := h0.new d0 (List.mem_of_getElem? hd0)
    exact ⟨d0, hd0, h2, rfl, Or.inl ⟨h1, rfl, rfl⟩⟩
  | snoc ops op ih =>
    obtain ⟨d, hd, hq, hg, hl⟩ := ih ⟨hk.started, hk.running, fun i s h => hk.recent i s (List.mem_append_left _ h)⟩
      (by
        rcases hs with hs | hs
        · exact Or.inl hs
        · right; intro j; have := hs j; rw [List.count_append] at this; omega)
    have hlen := run3_length cfg m0 ops
    have hfile := run3_file cfg m0 ops h0.header
    rw [run3_snoc]
    generalize M3.run cfg m0 ops = m at *
    cases op with
    | add j s =>
      by_cases hj : j = i
      · subst hj
        refine ⟨{ d with queue := d.queue ++ [s] }, ?_⟩
        have hstep : m.step cfg (.add j s) = { m with dgs := m.dgs.set j { d with queue := d.queue ++ [s] } } := by
          unfold M3.step; dsimp only; rw [hd]
        have hlt : j < m.dgs.length := (List.getElem?_eq_some_iff.mp hd).1
        rw [hstep]
        unfold Inv3
        rw [saved3_snoc]
        dsimp only
        rw [if_pos rfl]
        refine ⟨by rw [List.getElem?_set]; simp [hlt], by rw [hq], hg, ?_⟩
        rcases hl with ⟨a, b, c⟩ | ⟨pre, tail, a, b, f, c, e⟩
        · left; exact ⟨a, b, by rw [List.count_append, c]; simp⟩
        · right; exact ⟨pre, tail, a, b, by rw [List.count_append]; omega, c, fun h => e (by simpa using h)⟩
      · refine ⟨d, ?_⟩
        have hget : (m.step cfg (.add j s)).dgs[i]? = some d ∧ (m.step cfg (.add j s)).file = m.file := by
          unfold M3.step; dsimp only
          split
          · exact ⟨hd, rfl⟩
          · exact ⟨by rw [List.getElem?_set_ne hj]; exact hd, rfl⟩
        unfold Inv3
        rw [saved3_snoc]
        dsimp only
        rw [if_neg hj, hget.1, hget.2, step3_length]
        refine ⟨rfl, hq, hg, ?_⟩
        rcases hl with ⟨a, b, c⟩ | h
        · left; exact ⟨a, b, by rw [List.count_append, c]; simp⟩
        · obtain ⟨pre, tail, a, b, f, c, e⟩ := h
          exact Or.inr ⟨pre, tail, a, b, by rw [List.count_append]; omega, c, e⟩
    | clean j =>
      by_cases hj : j = i
      · subst hj
        have hrec : ∀ s ∈ d.queue, sub64 cfg.start cfg.preTrig ≤ s.time := by
          intro s hs'
          rw [hq] at hs'
          exact hk.recent j s (List.mem_append_left _ (pending3_mem j ops s hs'))
        have hclean : clean3 cfg m.file d = (m.file ++ stream3 (idBytes3 d0.groups) d.queue,
            { groups := d.queue.foldl (fun gs s => count3 gs s.id) d.groups, link := if d.link > 0 then d.link else m.file.length,
              queue := [] }) := by
          unfold clean3
          rw [trim3_keeps _ _ hk.started _ hrec, hk.running, drain3_zero]
          have : idBytes3 d.groups = idBytes3 d0.groups := by
            unfold idBytes3; rw [hg, count3_length]
          rw [this]; rfl
        have hstep : m.step cfg (.clean j) = { file := (clean3 cfg m.file d).1, dgs := m.dgs.set j (clean3 cfg m.file d).2 } := by
          unfold M3.step; dsimp only; rw [hd]
        have hlt : j < m.dgs.length := (List.getElem?_eq_some_iff.mp hd).1
        refine ⟨(clean3 cfg m.file d).2, ?_⟩
        rw [hstep, hclean]
        unfold Inv3
        rw [saved3_snoc]
        dsimp only
        rw [if_pos rfl]
        refine ⟨by rw [List.getElem?_set]; simp [hlt], rfl, by rw [List.foldl_append, ← hg, hq], Or.inr ?_⟩
        dsimp only
        rw [List.length_set]
        rcases hl with ⟨a, b, c⟩ | ⟨pre, tail, a, b, f, c, e⟩
        · refine ⟨m.file, [], by rw [if_neg (by omega)], ?_, by rw [List.count_append]; simp, ?_, fun _ => rfl⟩
          · rw [if_neg (by omega)]; exact List.length_pos_iff.mpr hfile
          · rw [b, hq, List.nil_append, List.append_nil]
        · have hone : m.dgs.length = 1 ∨ tail = [] := by
            rcases hs with hs | hs
            · left; omega
            · by_cases h1 : m.dgs.length = 1
              · exact Or.inl h1
              · exfalso
                have := hs j
                rw [List.count_append] at this
                simp at this
                omega
          have ht : tail = [] := by
            rcases hone with h | h
            · exact e h
            · exact h
          refine ⟨pre, [], by rw [if_pos b]; exact a, by rw [if_pos b]; exact b, by rw [List.count_append]; omega, ?_, fun _ => rfl⟩
          rw [c, ht, hq]
          simp [stream3]
      · refine ⟨d, ?_⟩
        have hget : (m.step cfg (.clean j)).dgs[i]? = some d := by
          unfold M3.step; dsimp only
          split
          · exact hd
          · dsimp only; rw [List.getElem?_set_ne hj]; exact hd
        obtain ⟨t, ht⟩ := step3_file cfg m (.clean j)
        unfold Inv3
        rw [saved3_snoc]
        dsimp only
        rw [if_neg hj, hget, step3_length]
        refine ⟨rfl, hq, hg, ?_⟩
        rcases hl with ⟨a, b, c⟩ | ⟨pre, tail, a, b, f, c, e⟩
        · left; refine ⟨a, b, ?_⟩
          rw [List.count_append, c, List.count_singleton]
          simp [hj]
        · right
          refine ⟨pre, tail ++ t, a, b, by rw [List.count_append]; omega, by rw [ht, c]; simp, ?_⟩
          intro h1
          have hlt : i < m.dgs.length := (List.getElem?_eq_some_iff.mp hd).1
          have hnone : m.dgs[j]? = none := by
            rw [List.getElem?_eq_none_iff]; omega
          have : (m.step cfg (.clean j)).file = m.file := by
            unfold M3.step; dsimp only; rw [hnone]
          rw [this] at ht
          have : t = [] := by simpa using ht.symm
          rw [e h1, this]; rfl

end Mdf
