import Verif.Model.Queue

namespace Mdf

/-- The sample without the calculated master time. -/
def Sample.core (s : Sample) : Sample := { s with stamp := none }

/-- The sample in the hands of the thread. -/
def Pc.held : Pc → List Sample
  | .holding s _ _ => [s]
  | _ => []

/-- The samples with a given fate. -/
def withFate (f : Fate) (l : List (Sample × Fate)) : List Sample := (l.filter (·.2 = f)).map (·.1)

theorem withFate_append (f : Fate) (l m : List (Sample × Fate)) : withFate f (l ++ m) = withFate f l ++ withFate f m := by
  unfold withFate; rw [List.filter_append, List.map_append]

theorem withFate_self (f : Fate) (l : List Sample) : withFate f (l.map fun s => (s, f)) = l := by
  unfold withFate
  induction l with
  | nil => rfl
  | cons a l ih => rw [List.map_cons, List.filter_cons_of_pos (by simp), List.map_cons, ih]

theorem withFate_other {f g : Fate} (h : g ≠ f) (l : List Sample) : withFate f (l.map fun s => (s, g)) = [] := by
  unfold withFate
  induction l with
  | nil => rfl
  | cons a l ih => rw [List.map_cons, List.filter_cons_of_neg (by simpa using h), ih]

/-! ### Trimming -/

theorem trimQueue_append (p st : Nat) (q : List Sample) : (trimQueue p st q).1 ++ (trimQueue p st q).2 = q := by
  fun_induction trimQueue p st q with
  | case1 => rfl
  | case2 e n rest h r ih => show e :: (r.1 ++ r.2) = _; rw [ih]
  | case3 => rfl

theorem trim_append (cfg : WCfg) (st : Nat) (q : List Sample) : (cfg.trim st q).1 ++ (cfg.trim st q).2 = q := by
  unfold WCfg.trim
  split
  · exact trimQueue_append ..
  · rfl

theorem trimQueue_nonempty (p st : Nat) (q : List Sample) (h : q ≠ []) : (trimQueue p st q).2 ≠ [] := by
  fun_induction trimQueue p st q with
  | case1 => exact h
  | case2 e n rest h' r ih => exact ih (by simp)
  | case3 => exact h

/-- The bookkeeping invariant. -/
structure Inv (cfg : WCfg) (w : W) : Prop where
  fifo : (w.fates.map (·.1) ++ w.pc.held ++ w.queue).map Sample.core = w.added.map Sample.core
  out : w.blocks.flatten ++ w.buffer = withFate .written w.fates
  size : w.size = (w.queue.map Sample.size).sum
  plain : cfg.compress = false → w.buffer = []

theorem Inv.init (cfg : WCfg) : Inv cfg W.init := ⟨rfl, rfl, rfl, fun _ => rfl⟩

theorem sum_sizes_append (a b : List Sample) :
    ((a ++ b).map Sample.size).sum = (a.map Sample.size).sum + (b.map Sample.size).sum := by
  rw [List.map_append, List.sum_append]

theorem Inv.trim {w : W} {cfg : WCfg} (h : Inv cfg w) (hp : w.pc.held = []) : Inv cfg (w.trim cfg) := by
  have hq := trim_append cfg w.start w.queue
  refine ⟨?_, ?_, ?_, h.plain⟩
  · have := h.fifo
    rw [hp, List.append_nil] at this
    show _ = List.map Sample.core w.added
    rw [← this]
    simp only [W.trim, W.log, hp, List.append_nil, List.map_append, List.map_map]
    conv => rhs; rw [← hq]
    simp [Function.comp_def]
  · simp only [W.trim, W.log]
    rw [withFate_append, withFate_other (by decide), List.append_nil]; exact h.out
  · simp only [W.trim, W.log]
    have := sum_sizes_append (cfg.trim w.start w.queue).1 (cfg.trim w.start w.queue).2
    rw [hq] at this
    rw [h.size]
    omega

/-- The loop head. -/
theorem Inv.next (cfg : WCfg) (fin last : Bool) (q : List Sample) : ∀ (w : W), w.queue = q →
    (w.fates.map (·.1) ++ w.queue).map Sample.core = w.added.map Sample.core →
    w.blocks.flatten ++ w.buffer = withFate .written w.fates → w.size = (w.queue.map Sample.size).sum →
    (cfg.compress = false → w.buffer = []) → Inv cfg (W.next cfg fin last q w) := by
  induction q with
  | nil =>
    intro w hq h1 h2 h3 h4
    exact ⟨by simpa [W.next, Pc.held] using h1, h2, h3, h4⟩
  | cons s q ih =>
    intro w hq h1 h2 h3 h4
    rw [hq] at h1 h3
    simp only [List.map_cons, List.sum_cons] at h3
    unfold W.next
    dsimp only
    split
    · refine ⟨?_, ?_, ?_, h4⟩
      · simpa [W.log, Pc.held] using h1
      · simp only [W.log]
        rw [withFate_append, withFate_other (by decide), List.append_nil]; exact h2
      · simp only [W.log]; omega
    · split
      · apply ih
        · rfl
        · simpa [W.log] using h1
        · simp only [W.log]
          rw [withFate_append, withFate_other (by decide), List.append_nil]; exact h2
        · simp only [W.log]; omega
        · exact h4
      · refine ⟨?_, h2, ?_, h4⟩
        · simpa [Pc.held] using h1
        · simp only; omega

theorem Inv.takeNext {w : W} {cfg : WCfg} (h : Inv cfg w) (fin last : Bool) (hp : w.pc.held = []) :
    Inv cfg (w.takeNext cfg fin last) := by
  apply Inv.next cfg fin last w.queue w rfl _ h.out h.size h.plain
  have := h.fifo
  rwa [hp, List.append_nil] at this

theorem Inv.store {w : W} {cfg : WCfg} (h : Inv cfg w) (s : Sample) (fin last : Bool) (hp : w.pc.held = [s])
    (hc : cfg.compress = true) : Inv cfg (w.store cfg s fin last) := by
  have hf := h.fifo
  rw [hp] at hf
  unfold W.store
  split
  · apply Inv.next cfg fin last _ _ rfl
    · simpa [W.log] using hf
    · simp only [W.log]
      rw [withFate_append, withFate_self, ← List.append_assoc, h.out]
    · exact h.size
    · rw [hc]; simp
  · apply Inv.next cfg fin last _ _ rfl
    · simpa [W.log] using hf
    · simp only [W.log]
      rw [withFate_append, withFate_other (by decide), List.append_nil]; exact h.out
    · exact h.size
    · exact h.plain

theorem Inv.clean {w : W} {cfg : WCfg} (h : Inv cfg w) (last : Bool) (hp : w.pc.held = []) : Inv cfg (w.clean cfg last) := by
  have hf := h.fifo
  rw [hp] at hf
  unfold W.clean
  split
  · refine ⟨?_, h.out, h.size, h.plain⟩
    cases last <;> simpa [Pc.held] using hf
  · exact ⟨by simpa [Pc.held] using hf, h.out, h.size, h.plain⟩

theorem Inv.setPc {w : W} {cfg : WCfg} (h : Inv cfg w) (pc : Pc) (hp : pc.held = w.pc.held) : Inv cfg { w with pc := pc } :=
  ⟨by rw [← h.fifo]; simp only [hp], h.out, h.size, h.plain⟩

theorem Inv.save {w : W} {cfg : WCfg} (h : Inv cfg w) (hp : w.pc.held = []) : Inv cfg (w.save cfg) := by
  unfold W.save
  split
  · dsimp only
    split
    · exact (h.trim hp).setPc _ (by rw [show (w.trim cfg).pc = w.pc from rfl, hp]; rfl)
    · exact (h.trim hp).setPc _ (by rw [show (w.trim cfg).pc = w.pc from rfl, hp]; rfl)
  · exact h.setPc _ (by rw [hp]; rfl)

theorem Inv.step {cfg : WCfg} {w w' : W} (h : Inv cfg w) (a : Act) (hs : w.step cfg a = some w') : Inv cfg w' := by
  cases a with
  | add s =>
    simp only [W.step] at hs
    split at hs
    · cases hs; exact h
    · cases hs
      refine ⟨?_, h.out, ?_, h.plain⟩
      · have := h.fifo
        simp only [List.map_append] at this ⊢
        rw [← List.append_assoc, this]
      · simp only [sum_sizes_append, h.size]; rfl
  | start t =>
    simp only [W.step] at hs
    split at hs <;> cases hs
    exact ⟨h.fifo, h.out, h.size, h.plain⟩
  | recalculate =>
    simp only [W.step] at hs
    split at hs <;> cases hs
    refine ⟨?_, h.out, ?_, h.plain⟩
    · show _ = List.map Sample.core w.added
      rw [← h.fifo]
      simp [Function.comp_def, Sample.core]
    · rw [h.size, List.map_map]; rfl
  | requestStop =>
    simp only [W.step] at hs
    split at hs <;> cases hs
    exact ⟨h.fifo, h.out, h.size, h.plain⟩
  | stopped t =>
    simp only [W.step] at hs
    split at hs
    · rename_i hpc
      cases hs
      refine ⟨?_, ?_, rfl, h.plain⟩
      · show _ = List.map Sample.core w.added
        rw [← h.fifo, hpc]
        simp [W.log, Pc.held, Function.comp_def]
      · simp only [W.log]
        rw [withFate_append, withFate_other (by decide), List.append_nil]; exact h.out
    · cases hs
  | finalize =>
    simp only [W.step, Option.some.injEq] at hs
    cases hs
    exact ⟨h.fifo, h.out, h.size, h.plain⟩
  | wake =>
    simp only [W.step] at hs
    split at hs
    · rename_i hpc
      have hp : w.pc.held = [] := by rw [hpc]; rfl
      split at hs
      · cases hs; exact h.clean true hp
      · split at hs
        · cases hs; exact h.trim hp
        · cases hs
          split
          · exact h.save hp
          · exact h
        · cases hs; exact h.clean false hp
        · cases hs
          refine ⟨?_, ?_, rfl, h.plain⟩
          · show _ = List.map Sample.core w.added
            rw [← h.fifo, hpc]
            simp [W.log, Pc.held, hpc, Function.comp_def]
          · simp only [W.log]
            rw [withFate_append, withFate_other (by decide), List.append_nil]; exact h.out
    · cases hs
  | opened ok =>
    simp only [W.step] at hs
    split at hs
    · rename_i fin last hpc
      split at hs <;> cases hs
      · exact h.setPc _ (by rw [hpc]; rfl)
      · exact h.setPc _ (by rw [hpc]; cases last <;> rfl)
    · cases hs
  | enter =>
    simp only [W.step] at hs
    split at hs
    · rename_i fin last hpc
      cases hs
      have hp : w.pc.held = [] := by rw [hpc]; rfl
      exact (h.trim hp).takeNext fin last (by simp [W.trim, W.log, hp])
    · cases hs
  | store more =>
    simp only [W.step] at hs
    split at hs
    · rename_i s fin last hpc
      have hp : w.pc.held = [s] := by rw [hpc]; rfl
      split at hs
      · split at hs
        · split at hs
          · cases hs
            rename_i hcomp _ _
            have h' : Inv cfg { w with blocks := w.blocks ++ [w.buffer], buffer := [] } := by
              refine ⟨h.fifo, ?_, h.size, fun _ => rfl⟩
              simp only [List.flatten_append, List.flatten_cons, List.flatten_nil, List.append_nil]
              exact h.out
            exact h'.store s fin last hp hcomp
          · cases hs
            refine ⟨?_, h.out, ?_, h.plain⟩
            · show _ = List.map Sample.core w.added
              rw [← h.fifo, hp]; simp [Pc.held]
            · simp only [List.map_cons, List.sum_cons, h.size]; omega
        · cases hs
          rename_i hcomp _
          exact h.store s fin last hp hcomp
      · cases hs
        have hf := h.fifo
        rw [hp] at hf
        apply Inv.next cfg fin last _ _ rfl
        · simpa [W.log] using hf
        · simp only [W.log, List.flatten_append, List.flatten_cons, List.flatten_nil, List.append_nil]
          have hb : w.buffer = [] := h.plain (by rename_i hcomp; simpa using hcomp)
          have ho := h.out
          rw [hb, List.append_nil] at ho
          rw [hb, List.append_nil, withFate_append, withFate_self, ho]
        · exact h.size
        · exact h.plain
    · cases hs
  | close =>
    simp only [W.step] at hs
    split at hs
    · rename_i last hpc
      have hc : (if last = true then Pc.ended else Pc.idle).held = w.pc.held := by rw [hpc]; cases last <;> rfl
      split at hs
      · cases hs; exact h.setPc _ hc
      · cases hs
        refine ⟨(h.setPc _ hc).fifo, ?_, h.size, fun _ => rfl⟩
        simp only [List.flatten_append, List.flatten_cons, List.flatten_nil, List.append_nil]
        exact h.out
    · cases hs

theorem Inv.run {cfg : WCfg} (acts : List Act) : ∀ {w w' : W}, Inv cfg w → W.run cfg acts w = some w' → Inv cfg w' := by
  induction acts with
  | nil => intro w w' h hr; cases hr; exact h
  | cons a acts ih =>
    intro w w' h hr
    simp only [W.run] at hr
    cases hs : w.step cfg a with
    | none => rw [hs] at hr; cases hr
    | some w1 => rw [hs] at hr; exact ih (h.step a hs) hr

/-- The loop head when no stop time is set. -/
inductive Next (fin last : Bool) (q : List Sample) (w w' : W) : Prop where
  | empty (hpc : w'.pc = .closing last) (hq : w'.queue = [])
      (hf : w'.fates = w.fates ++ q.map fun s => (s, .unknown)) : Next fin last q w w'
  | took (sk : List Sample) (s : Sample) (rest : List Sample) (hpc : w'.pc = .holding s fin last) (hq : w'.queue = rest)
      (hs : q = sk ++ s :: rest) (hf : w'.fates = w.fates ++ sk.map fun s => (s, .unknown)) : Next fin last q w w'

/-- The members the loop head does not touch. -/
structure Same (w w' : W) : Prop where
  start : w'.start = w.start
  stop : w'.stop = w.stop
  state : w'.state = w.state
  hasMaster : w'.hasMaster = w.hasMaster
  quit : w'.quit = w.quit
  buffer : w'.buffer = w.buffer
  blocks : w'.blocks = w.blocks
  added : w'.added = w.added

theorem next_spec (cfg : WCfg) (fin last : Bool) (q : List Sample) : ∀ (w : W), w.queue = q → w.stop = 0 →
    Same w (W.next cfg fin last q w) ∧ Next fin last q w (W.next cfg fin last q w) := by
  induction q with
  | nil =>
    intro w hq _
    exact ⟨⟨rfl, rfl, rfl, rfl, rfl, rfl, rfl, rfl⟩, .empty rfl hq (by simp [W.next])⟩
  | cons s q ih =>
    intro w hq h0
    unfold W.next
    dsimp only
    rw [if_neg (by rw [h0]; rintro ⟨_, h, _⟩; omega)]
    split
    · obtain ⟨h1, h2⟩ := ih (({ w with queue := q, size := w.size - s.size } : W).log .unknown [s]) rfl h0
      refine ⟨⟨h1.start, h1.stop, h1.state, h1.hasMaster, h1.quit, h1.buffer, h1.blocks, h1.added⟩, ?_⟩
      rcases h2 with ⟨a1, a2, a3⟩ | ⟨sk, s', rest, a1, a2, a3, a4⟩
      · exact .empty a1 a2 (by rw [a3]; simp [W.log])
      · exact .took (s :: sk) s' rest a1 a2 (by rw [a3]; rfl) (by rw [a4]; simp [W.log])
    · exact ⟨⟨rfl, rfl, rfl, rfl, rfl, rfl, rfl, rfl⟩, .took [] s q rfl rfl rfl (by simp)⟩

theorem takeNext_spec (cfg : WCfg) (fin last : Bool) (w : W) (h0 : w.stop = 0) :
    Same w (w.takeNext cfg fin last) ∧ Next fin last w.queue w (w.takeNext cfg fin last) :=
  next_spec cfg fin last w.queue w rfl h0

/-! ### The stop of the thread -/

/-- The thread is in its last pass or has ended. -/
def Pc.last : Pc → Bool
  | .opening _ l => l
  | .ready _ l => l
  | .holding _ _ l => l
  | .closing l => l
  | .ended => true
  | .gone => true
  | .idle => false

/-- The last pass is done with `finalize = true`. -/
def Pc.FinOk : Pc → Prop
  | .opening f l => l = true → f = true
  | .ready f l => l = true → f = true
  | .holding _ f l => l = true → f = true
  | _ => True

/-- The thread has left its last loop. -/
def Pc.Over : Pc → Prop
  | .closing l => l = true
  | .ended => True
  | .gone => True
  | _ => False

structure Stops (w : W) : Prop where
  stop0 : w.pc ≠ .gone → w.stop = 0
  nolate : ∀ x ∈ w.fates, x.2 ≠ .late
  finOk : w.pc.FinOk
  quit : w.pc.last = true → w.quit = true

theorem Stops.init : Stops W.init := ⟨fun _ => rfl, (by intro x hx; cases hx), trivial, by decide⟩

theorem nolate_append {a : List (Sample × Fate)} (ha : ∀ x ∈ a, x.2 ≠ .late) {f : Fate} (hf : f ≠ .late) (l : List Sample) :
    ∀ x ∈ a ++ l.map (fun s => (s, f)), x.2 ≠ .late := by
  intro x hx
  rcases List.mem_append.mp hx with hx | hx
  · exact ha x hx
  · obtain ⟨s, _, rfl⟩ := List.mem_map.mp hx; exact hf

/-- After the loop head. -/
theorem Stops.next {cfg : WCfg} {w : W} {fin last : Bool} (h0 : w.stop = 0) (hn : ∀ x ∈ w.fates, x.2 ≠ .late)
    (hf : last = true → fin = true) (hq : last = true → w.quit = true) : Stops (w.takeNext cfg fin last) := by
  obtain ⟨h1, h2⟩ := takeNext_spec cfg fin last w h0
  rcases h2 with ⟨a1, a2, a3⟩ | ⟨sk, s', rest, a1, a2, a3, a4⟩
  · refine ⟨fun _ => by rw [h1.stop, h0], by rw [a3]; exact nolate_append hn (by decide) _, by rw [a1]; trivial, ?_⟩
    rw [a1, h1.quit]; exact hq
  · refine ⟨fun _ => by rw [h1.stop, h0], by rw [a4]; exact nolate_append hn (by decide) _, by rw [a1]; exact hf, ?_⟩
    rw [a1, h1.quit]; exact hq

theorem Stops.step {cfg : WCfg} {w w' : W} (h : Stops w) (a : Act) (hs : w.step cfg a = some w') : Stops w' := by
  have hl := h.nolate
  cases a with
  | add s =>
    simp only [W.step] at hs
    split at hs <;> cases hs
    · exact h
    · exact ⟨h.stop0, hl, h.finOk, h.quit⟩
  | start t =>
    simp only [W.step] at hs
    split at hs <;> cases hs
    exact ⟨fun _ => rfl, hl, h.finOk, h.quit⟩
  | recalculate =>
    simp only [W.step] at hs
    split at hs <;> cases hs
    exact ⟨h.stop0, hl, h.finOk, h.quit⟩
  | requestStop =>
    simp only [W.step] at hs
    split at hs <;> cases hs
    exact ⟨h.stop0, hl, h.finOk, fun _ => rfl⟩
  | stopped t =>
    simp only [W.step] at hs
    split at hs
    · rename_i hpc
      cases hs
      exact ⟨by simp, nolate_append hl (by decide) _, trivial, fun _ => h.quit (by rw [hpc]; rfl)⟩
    · cases hs
  | finalize =>
    simp only [W.step, Option.some.injEq] at hs
    cases hs
    exact ⟨h.stop0, hl, h.finOk, h.quit⟩
  | wake =>
    simp only [W.step] at hs
    split at hs
    · rename_i hpc
      have h0 := h.stop0 (by rw [hpc]; simp)
      split at hs
      · rename_i hquit
        cases hs
        unfold W.clean
        split
        · exact ⟨fun _ => h0, hl, trivial, fun _ => hquit⟩
        · exact ⟨fun _ => h0, hl, fun _ => rfl, fun _ => hquit⟩
      · split at hs
        · cases hs
          exact ⟨fun _ => h0, nolate_append hl (by decide) _, h.finOk, h.quit⟩
        · cases hs
          split
          · unfold W.save
            split
            · dsimp only
              split
              · exact ⟨fun _ => h0, nolate_append hl (by decide) _, trivial, by simp [Pc.last]⟩
              · exact ⟨fun _ => h0, nolate_append hl (by decide) _, by simp [Pc.FinOk], by simp [Pc.last]⟩
            · exact ⟨fun _ => h0, hl, by simp [Pc.FinOk], by simp [Pc.last]⟩
          · exact h
        · cases hs
          unfold W.clean
          split
          · exact ⟨fun _ => h0, hl, trivial, by simp [Pc.last]⟩
          · exact ⟨fun _ => h0, hl, by simp [Pc.FinOk], by simp [Pc.last]⟩
        · cases hs
          exact ⟨fun _ => h0, nolate_append hl (by decide) _, h.finOk, h.quit⟩
    · cases hs
  | opened ok =>
    simp only [W.step] at hs
    split at hs
    · rename_i fin last hpc
      have h0 := h.stop0 (by rw [hpc]; simp)
      have hf := h.finOk
      have hq := h.quit
      rw [hpc] at hf hq
      split at hs <;> cases hs
      · exact ⟨fun _ => h0, hl, hf, hq⟩
      · refine ⟨fun _ => h0, hl, ?_, ?_⟩
        · cases last <;> trivial
        · cases last
          · simp [Pc.last]
          · intro _; exact hq rfl
    · cases hs
  | enter =>
    simp only [W.step] at hs
    split at hs
    · rename_i fin last hpc
      have h0 := h.stop0 (by rw [hpc]; simp)
      have hf := h.finOk
      have hq := h.quit
      rw [hpc] at hf hq
      cases hs
      exact Stops.next h0 (nolate_append hl (by decide) _) hf hq
    · cases hs
  | store more =>
    simp only [W.step] at hs
    split at hs
    · rename_i s fin last hpc
      have h0 := h.stop0 (by rw [hpc]; simp)
      have hf := h.finOk
      have hq := h.quit
      rw [hpc] at hf hq
      split at hs
      · split at hs
        · split at hs
          · cases hs
            unfold W.store
            split
            · exact Stops.next h0 (nolate_append hl (by decide) _) hf hq
            · exact Stops.next h0 (nolate_append hl (by decide) _) hf hq
          · cases hs
            exact ⟨fun _ => h0, hl, trivial, hq⟩
        · cases hs
          unfold W.store
          split
          · exact Stops.next h0 (nolate_append hl (by decide) _) hf hq
          · exact Stops.next h0 (nolate_append hl (by decide) _) hf hq
      · cases hs
        exact Stops.next h0 (nolate_append hl (by decide) _) hf hq
    · cases hs
  | close =>
    simp only [W.step] at hs
    split at hs
    · rename_i last hpc
      have h0 := h.stop0 (by rw [hpc]; simp)
      have hq := h.quit
      rw [hpc] at hq
      have hpc' : (if last = true then Pc.ended else Pc.idle).FinOk ∧
          ((if last = true then Pc.ended else Pc.idle).last = true → w.quit = true) := by
        cases last
        · exact ⟨trivial, by simp [Pc.last]⟩
        · exact ⟨trivial, fun _ => hq rfl⟩
      split at hs <;> cases hs
      · exact ⟨fun _ => h0, hl, hpc'.1, hpc'.2⟩
      · exact ⟨fun _ => h0, hl, hpc'.1, hpc'.2⟩
    · cases hs

theorem Stops.run {cfg : WCfg} (acts : List Act) : ∀ {w w' : W}, Stops w → W.run cfg acts w = some w' → Stops w' := by
  induction acts with
  | nil => intro w w' h hr; cases hr; exact h
  | cons a acts ih =>
    intro w w' h hr
    simp only [W.run] at hr
    cases hs : w.step cfg a with
    | none => rw [hs] at hr; cases hr
    | some w1 => rw [hs] at hr; exact ih (h.step a hs) hr

/-! ### The effect of a transition on the history -/

structure Shape (cfg : WCfg) (w : W) (a : Act) (w' : W) : Prop where
  added : ∃ more, w'.added = w.added ++ more
  fates : ∃ d e, w'.fates = w.fates ++ d.map (fun s => (s, .trimmed)) ++ e ∧ (∀ x ∈ e, x.2 ≠ .trimmed) ∧
    (d = [] ∨ (w.pc.held = [] ∧ d = (cfg.trim w.start w.queue).1)) ∧
    ((∃ x ∈ e, x.2 = .reset) → w.pc = .ended ∨ (w.quit = false ∧ w.state = .finalized))
  start : (∀ t, a ≠ .start t) → w'.start = w.start
  state : w'.state = .finalized → a = .finalize ∨ w.state = .finalized
  quit : w.quit = true → w'.quit = true
  over : w'.pc.Over → a ≠ .opened false → w.pc.Over ∨ (w'.queue = [] ∧ w'.pc.held = [])

/-- A transition that leaves the history alone. -/
theorem Shape.quiet {cfg : WCfg} {w w' : W} {a : Act} (h1 : ∃ more, w'.added = w.added ++ more) (h2 : w'.fates = w.fates)
    (h3 : (∀ t, a ≠ .start t) → w'.start = w.start) (h4 : w'.state = .finalized → a = .finalize ∨ w.state = .finalized)
    (h5 : w.quit = true → w'.quit = true)
    (h6 : w'.pc.Over → a ≠ .opened false → w.pc.Over ∨ (w'.queue = [] ∧ w'.pc.held = [])) : Shape cfg w a w' :=
  ⟨h1, ⟨[], [], by simp [h2], by simp, .inl rfl, by simp⟩, h3, h4, h5, h6⟩

theorem Next.over {fin last : Bool} {q : List Sample} {w w' : W} (h : Next fin last q w w') (ho : w'.pc.Over) :
    w'.queue = [] ∧ w'.pc.held = [] := by
  rcases h with ⟨a1, a2, a3⟩ | ⟨sk, s', rest, a1, a2, a3, a4⟩
  · exact ⟨a2, by rw [a1]; rfl⟩
  · rw [a1] at ho; cases ho

theorem Next.fates {fin last : Bool} {q : List Sample} {w w' : W} (h : Next fin last q w w') :
    ∃ sk : List Sample, w'.fates = w.fates ++ sk.map fun s => (s, .unknown) := by
  rcases h with ⟨a1, a2, a3⟩ | ⟨sk, s', rest, a1, a2, a3, a4⟩
  · exact ⟨_, a3⟩
  · exact ⟨_, a4⟩

/-- The transitions that end with the loop head, after samples `l` of fate `f`. -/
theorem Shape.next {cfg : WCfg} {w w0 : W} {a : Act} {fin last : Bool} (d l : List Sample) (f : Fate) (h0 : w0.stop = 0)
    (hf : w0.fates = w.fates ++ d.map (fun s => (s, .trimmed)) ++ l.map fun s => (s, f)) (hne : f ≠ .trimmed ∧ f ≠ .reset)
    (hd : d = [] ∨ (w.pc.held = [] ∧ d = (cfg.trim w.start w.queue).1)) (h1 : w0.added = w.added) (h2 : w0.start = w.start)
    (h3 : w0.state = w.state) (h4 : w0.quit = w.quit) : Shape cfg w a (w0.takeNext cfg fin last) := by
  obtain ⟨hs, hn⟩ := takeNext_spec cfg fin last w0 h0
  obtain ⟨sk, hk⟩ := hn.fates
  refine ⟨⟨[], by rw [hs.added, h1, List.append_nil]⟩,
    ⟨d, l.map (fun s => (s, f)) ++ sk.map (fun s => (s, .unknown)), by rw [hk, hf]; simp, ?_, hd, ?_⟩,
    fun _ => by rw [hs.start, h2], fun h => .inr (by rw [← h3, ← hs.state, h]), fun h => by rw [hs.quit, h4, h],
    fun ho _ => .inr (hn.over ho)⟩
  · intro x hx
    rcases List.mem_append.mp hx with hx | hx
    · obtain ⟨s, _, rfl⟩ := List.mem_map.mp hx; exact hne.1
    · obtain ⟨s, _, rfl⟩ := List.mem_map.mp hx; simp
  · rintro ⟨x, hx, hr⟩
    rcases List.mem_append.mp hx with hx | hx
    · obtain ⟨s, _, rfl⟩ := List.mem_map.mp hx; exact absurd hr hne.2
    · obtain ⟨s, _, rfl⟩ := List.mem_map.mp hx; cases hr

theorem Shape.store {cfg : WCfg} {w w0 : W} {a : Act} {fin last : Bool} (s : Sample) (h0 : w0.stop = 0) (hf : w0.fates = w.fates)
    (h1 : w0.added = w.added) (h2 : w0.start = w.start) (h3 : w0.state = w.state) (h4 : w0.quit = w.quit) :
    Shape cfg w a (w0.store cfg s fin last) := by
  unfold W.store
  split
  · exact Shape.next [] [s] .written h0 (by simp [W.log, hf]) (by decide) (.inl rfl) h1 h2 h3 h4
  · exact Shape.next [] [s] .unknown h0 (by simp [W.log, hf]) (by decide) (.inl rfl) h1 h2 h3 h4

theorem Shape.trim {cfg : WCfg} {w w' : W} {a : Act} (hh : w.pc.held = [])
    (hf : w'.fates = w.fates ++ ((cfg.trim w.start w.queue).1).map (fun s => (s, .trimmed)))
    (h1 : w'.added = w.added) (h2 : w'.start = w.start) (h3 : w'.state = w.state) (h4 : w'.quit = w.quit)
    (h5 : ¬ w'.pc.Over) : Shape cfg w a w' :=
  ⟨⟨[], by rw [h1, List.append_nil]⟩, ⟨_, [], by rw [hf, List.append_nil], by simp, .inr ⟨hh, rfl⟩, by simp⟩, fun _ => h2,
    fun h => .inr (by rw [← h3, h]), fun h => by rw [h4, h], fun h => absurd h h5⟩

/-- The thread resets the queue. -/
theorem Shape.reset {cfg : WCfg} {w w' : W} {a : Act} (hf : w'.fates = w.fates ++ w.queue.map (fun s => (s, .reset)))
    (h1 : w'.added = w.added) (h2 : w'.start = w.start) (h3 : w'.state = .finalized → w.state = .finalized)
    (h4 : w'.quit = w.quit) (h5 : w.pc = .ended ∨ (w.quit = false ∧ w.state = .finalized))
    (h6 : w'.pc.Over → w.pc.Over) : Shape cfg w a w' :=
  ⟨⟨[], by rw [h1, List.append_nil]⟩, ⟨[], _, by simp only [List.map_nil, List.append_nil]; exact hf, (by
    intro x hx; obtain ⟨s, _, rfl⟩ := List.mem_map.mp hx; simp), .inl rfl, fun _ => h5⟩, fun _ => h2,
    fun h => .inr (h3 h), fun h => by rw [h4, h], fun h _ => .inl (h6 h)⟩

theorem shape_clean {cfg : WCfg} {w : W} {a : Act} (last : Bool) : Shape cfg w a (w.clean cfg last) := by
  unfold W.clean
  split
  · rename_i h
    exact .quiet ⟨[], by simp⟩ rfl (fun _ => rfl) .inr id fun _ _ => .inr ⟨h.2, by cases last <;> rfl⟩
  · exact .quiet ⟨[], by simp⟩ rfl (fun _ => rfl) .inr id fun h => absurd h (by simp [Pc.Over])

theorem step_shape {cfg : WCfg} {w w' : W} (h : Stops w) (a : Act) (hs : w.step cfg a = some w') : Shape cfg w a w' := by
  cases a with
  | add s =>
    simp only [W.step] at hs
    split at hs <;> cases hs
    · exact .quiet ⟨[], by simp⟩ rfl (fun _ => rfl) .inr id fun h _ => .inl h
    · exact .quiet ⟨_, rfl⟩ rfl (fun _ => rfl) .inr id fun h _ => .inl h
  | start t =>
    simp only [W.step] at hs
    split at hs <;> cases hs
    exact .quiet ⟨[], by simp⟩ rfl (fun h => absurd rfl (h t)) (by simp) id fun h _ => .inl h
  | recalculate =>
    simp only [W.step] at hs
    split at hs <;> cases hs
    exact .quiet ⟨[], by simp⟩ rfl (fun _ => rfl) .inr id fun h _ => .inl h
  | requestStop =>
    simp only [W.step] at hs
    split at hs <;> cases hs
    exact .quiet ⟨[], by simp⟩ rfl (fun _ => rfl) .inr (fun _ => rfl) fun h _ => .inl h
  | stopped t =>
    simp only [W.step] at hs
    split at hs
    · rename_i hpc
      cases hs
      exact .reset rfl rfl rfl (by simp) rfl (.inl hpc) (fun _ => by rw [hpc]; trivial)
    · cases hs
  | finalize =>
    simp only [W.step, Option.some.injEq] at hs
    cases hs
    exact .quiet ⟨[], by simp⟩ rfl (fun _ => rfl) (fun _ => .inl rfl) id fun h _ => .inl h
  | wake =>
    simp only [W.step] at hs
    split at hs
    · rename_i hpc
      have hno : ¬ w.pc.Over := by rw [hpc]; simp [Pc.Over]
      have hheld : w.pc.held = [] := by rw [hpc]; rfl
      split at hs
      · cases hs
        exact shape_clean _
      · rename_i hquit
        split at hs
        · cases hs
          exact .trim hheld rfl rfl rfl rfl rfl hno
        · cases hs
          split
          · unfold W.save
            split
            · dsimp only
              split
              · exact .trim hheld rfl rfl rfl rfl rfl (by simp [Pc.Over])
              · exact .trim hheld rfl rfl rfl rfl rfl (by simp [Pc.Over])
            · exact .quiet ⟨[], by simp⟩ rfl (fun _ => rfl) .inr id fun h => absurd h (by simp [Pc.Over])
          · exact .quiet ⟨[], by simp⟩ rfl (fun _ => rfl) .inr id fun h => absurd h hno
        · cases hs
          exact shape_clean _
        · rename_i hst
          cases hs
          exact .reset rfl rfl rfl id rfl (.inr ⟨by simpa using hquit, hst⟩) id
    · cases hs
  | opened ok =>
    simp only [W.step] at hs
    split at hs
    · split at hs
      · cases hs
        exact .quiet ⟨[], by simp⟩ rfl (fun _ => rfl) .inr id fun h => absurd h (by simp [Pc.Over])
      · rename_i hok
        cases hs
        refine .quiet ⟨[], by simp⟩ rfl (fun _ => rfl) .inr id fun _ h => absurd ?_ h
        rw [Bool.eq_false_iff.mpr hok]
    · cases hs
  | enter =>
    simp only [W.step] at hs
    split at hs
    · rename_i fin last hpc
      have h0 := h.stop0 (by rw [hpc]; simp)
      cases hs
      exact Shape.next (cfg.trim w.start w.queue).1 [] .written h0 (by simp [W.trim, W.log]) (by decide)
        (.inr ⟨by rw [hpc]; rfl, rfl⟩) rfl rfl rfl rfl
    · cases hs
  | store more =>
    simp only [W.step] at hs
    split at hs
    · rename_i s fin last hpc
      have h0 := h.stop0 (by rw [hpc]; simp)
      have hf := h.finOk
      rw [hpc] at hf
      split at hs
      · split at hs
        · split at hs
          · cases hs
            exact Shape.store s h0 rfl rfl rfl rfl rfl
          · rename_i hno
            cases hs
            refine .quiet ⟨[], by simp⟩ rfl (fun _ => rfl) .inr id fun ho _ => absurd (.inl (hf ?_)) hno
            exact ho
        · cases hs
          exact Shape.store s h0 rfl rfl rfl rfl rfl
      · cases hs
        exact Shape.next [] [s] .written h0 (by simp [W.log]) (by decide) (.inl rfl) rfl rfl rfl rfl
    · cases hs
  | close =>
    simp only [W.step] at hs
    split at hs
    · rename_i last hpc
      have ho : (if last = true then Pc.ended else Pc.idle).Over → w.pc.Over := by
        rw [hpc]; cases last
        · exact fun h => absurd h (by simp [Pc.Over])
        · exact fun _ => rfl
      split at hs <;> cases hs
      · exact .quiet ⟨[], by simp⟩ rfl (fun _ => rfl) .inr id fun h _ => .inl (ho h)
      · exact .quiet ⟨[], by simp⟩ rfl (fun _ => rfl) .inr id fun h _ => .inl (ho h)
    · cases hs

/-! ### Nothing is left behind -/

/-- Before the stop is requested. -/
structure Running (w : W) : Prop where
  state : w.quit = false → w.state ≠ .finalized
  noreset : w.quit = false → ∀ x ∈ w.fates, x.2 ≠ .reset

theorem Running.step {cfg : WCfg} {w w' : W} (h : Running w) (hS : Stops w) (a : Act) (ha : a ≠ .finalize)
    (hs : w.step cfg a = some w') : Running w' := by
  have sh := step_shape hS a hs
  have hq : w'.quit = false → w.quit = false := by
    intro h'
    cases hw : w.quit
    · rfl
    · rw [sh.quit hw] at h'; cases h'
  refine ⟨?_, ?_⟩
  · intro h' hst
    rcases sh.state hst with h1 | h1
    · exact ha h1
    · exact h.state (hq h') h1
  · intro h' x hx
    obtain ⟨d, e, hf, -, -, hr⟩ := sh.fates
    rw [hf] at hx
    rcases List.mem_append.mp hx with hx | hx
    · rcases List.mem_append.mp hx with hx | hx
      · exact h.noreset (hq h') x hx
      · obtain ⟨s, _, rfl⟩ := List.mem_map.mp hx; simp
    · intro hx'
      rcases hr ⟨x, hx, hx'⟩ with h1 | h1
      · have := hS.quit (by rw [h1]; rfl)
        rw [hq h'] at this; cases this
      · exact h.state (hq h') h1.2

/-- After the stop has been requested with `n` samples added. -/
structure Draining (n : Nat) (w : W) : Prop where
  quit : w.quit = true
  len : n ≤ w.added.length
  over : w.pc.Over → n ≤ w.fates.length
  noreset : ∀ i x, i < n → w.fates[i]? = some x → x.2 ≠ .reset

theorem Inv.fates_length {cfg : WCfg} {w : W} (h : Inv cfg w) (hq : w.queue = []) (hh : w.pc.held = []) :
    w.fates.length = w.added.length := by
  have := congrArg List.length h.fifo
  rw [hq, hh] at this
  simpa using this

theorem Draining.step {cfg : WCfg} {n : Nat} {w w' : W} (h : Draining n w) (hI : Inv cfg w) (hS : Stops w) (a : Act)
    (ha : a ≠ .opened false) (hs : w.step cfg a = some w') : Draining n w' := by
  have sh := step_shape hS a hs
  have hI' := hI.step a hs
  obtain ⟨more, hm⟩ := sh.added
  obtain ⟨d, e, hf, -, hd, hr⟩ := sh.fates
  have hlen : n ≤ w'.added.length := by rw [hm, List.length_append]; have := h.len; omega
  refine ⟨sh.quit h.quit, hlen, ?_, ?_⟩
  · intro ho
    rcases sh.over ho ha with h1 | ⟨h1, h2⟩
    · have := h.over h1
      rw [hf]; simp only [List.length_append]; omega
    · rw [hI'.fates_length h1 h2]; exact hlen
  · intro i x hi hx hx'
    rw [hf, List.append_assoc, List.getElem?_append] at hx
    split at hx
    · exact h.noreset i x hi hx hx'
    · rename_i hlt
      have hmem := List.mem_of_getElem? hx
      rcases List.mem_append.mp hmem with hmem | hmem
      · obtain ⟨s, _, rfl⟩ := List.mem_map.mp hmem; cases hx'
      · rcases hr ⟨x, hmem, hx'⟩ with h1 | h1
        · have := h.over (by rw [h1]; trivial)
          omega
        · rw [h.quit] at h1; cases h1.1

theorem run_append (cfg : WCfg) (a b : List Act) : ∀ w, W.run cfg (a ++ b) w = (W.run cfg a w).bind (W.run cfg b) := by
  induction a with
  | nil => intro w; rfl
  | cons x a ih =>
    intro w
    simp only [List.cons_append, W.run]
    cases w.step cfg x with
    | none => rfl
    | some w1 => exact ih w1

theorem Running.run {cfg : WCfg} (acts : List Act) (hn : .finalize ∉ acts) : ∀ {w w' : W}, Running w → Stops w →
    W.run cfg acts w = some w' → Running w' := by
  induction acts with
  | nil => intro w w' h _ hr; cases hr; exact h
  | cons a acts ih =>
    intro w w' h hS hr
    simp only [W.run] at hr
    cases hs : w.step cfg a with
    | none => rw [hs] at hr; cases hr
    | some w1 =>
      rw [hs] at hr
      exact ih (fun h => hn (List.mem_cons_of_mem _ h)) (h.step hS a (fun he => hn (by rw [he]; exact List.mem_cons_self)) hs)
        (hS.step a hs) hr

theorem Draining.run {cfg : WCfg} {n : Nat} (acts : List Act) (hn : .opened false ∉ acts) : ∀ {w w' : W}, Draining n w →
    Inv cfg w → Stops w → W.run cfg acts w = some w' → Draining n w' := by
  induction acts with
  | nil => intro w w' h _ _ hr; cases hr; exact h
  | cons a acts ih =>
    intro w w' h hI hS hr
    simp only [W.run] at hr
    cases hs : w.step cfg a with
    | none => rw [hs] at hr; cases hr
    | some w1 =>
      rw [hs] at hr
      exact ih (fun h => hn (List.mem_cons_of_mem _ h))
        (h.step hI hS a (fun he => hn (by rw [he]; exact List.mem_cons_self)) hs) (hI.step a hs) (hS.step a hs) hr

/-- The history only grows. -/
theorem run_added {cfg : WCfg} (acts : List Act) : ∀ {w w' : W}, Stops w → W.run cfg acts w = some w' →
    ∃ more, w'.added = w.added ++ more := by
  induction acts with
  | nil => intro w w' _ hr; cases hr; exact ⟨[], by simp⟩
  | cons a acts ih =>
    intro w w' hS hr
    simp only [W.run] at hr
    cases hs : w.step cfg a with
    | none => rw [hs] at hr; cases hr
    | some w1 =>
      rw [hs] at hr
      obtain ⟨m1, h1⟩ := (step_shape hS a hs).added
      obtain ⟨m2, h2⟩ := ih (hS.step a hs) hr
      exact ⟨m1 ++ m2, by rw [h2, h1, List.append_assoc]⟩

/-! ### The pre-trigger window -/

/-- What `trimQueue` drops, on times. -/
theorem trimQueue_dropped (p st : Nat) (q : List Sample) : ∀ j e, (trimQueue p st q).1[j]? = some e →
    ∃ n l, q[j + 1]? = some n ∧ q.getLast? = some l ∧ trimStops p st n.time l.time = false := by
  fun_induction trimQueue p st q with
  | case1 => intro j e h; simp at h
  | case2 e n rest h r ih =>
    intro j x hx
    cases j with
    | zero =>
      refine ⟨n, (n :: rest).getLast (by simp), rfl, ?_, by simpa using h⟩
      rw [List.getLast?_cons_cons, List.getLast?_eq_some_getLast (by simp)]
    | succ j =>
      obtain ⟨m, l, h1, h2, h3⟩ := ih j x (by simpa using hx)
      exact ⟨m, l, by simpa using h1, by rw [List.getLast?_cons_cons]; exact h2, h3⟩
  | case3 => intro j e h; simp at h

theorem core_time (s : Sample) : s.core.time = s.time := rfl

/-- The times of the samples in the order added. -/
theorem Inv.times {cfg : WCfg} {w : W} (h : Inv cfg w) :
    (w.fates.map (·.1) ++ w.pc.held ++ w.queue).map Sample.time = w.added.map Sample.time := by
  have := congrArg (List.map Sample.time) h.fifo
  rw [List.map_map, List.map_map] at this
  exact this

theorem map_getElem?_some {α β : Type} {f : α → β} {l : List α} {i : Nat} {b : β} (h : (l.map f)[i]? = some b) :
    ∃ a, l[i]? = some a ∧ f a = b := by
  rw [List.getElem?_map] at h
  cases hl : l[i]? with
  | none => rw [hl] at h; cases h
  | some a => rw [hl] at h; exact ⟨a, rfl, by simpa using h⟩

/-- The sample before which everything may go: it is older than the window, which ends at the start of the measurement or,
before the start, at the latest sample. -/
def Older (pre : Nat) (w : W) (n : Sample) : Prop :=
  (0 < w.start ∧ n.time + pre < w.start) ∨ (w.start = 0 ∧ ∃ m ∈ w.added, n.time + pre < m.time)

/-- Times do not go down and fit in 64 bits. -/
def Timed (l : List Sample) : Prop := l.Pairwise (fun a b => a.time ≤ b.time) ∧ ∀ s ∈ l, s.time < 2 ^ 64

theorem Timed.left {a b : List Sample} (h : Timed (a ++ b)) : Timed a :=
  ⟨(List.pairwise_append.mp h.1).1, fun s hs => h.2 s (List.mem_append_left _ hs)⟩

structure Window (cfg : WCfg) (w : W) : Prop where
  trimmed : ∀ i s, w.fates[i]? = some (s, .trimmed) → ∃ n, w.added[i + 1]? = some n ∧ Older cfg.preTrig w n

theorem Window.step {cfg : WCfg} {w w' : W} (h : Window cfg w) (hI : Inv cfg w) (hS : Stops w) (a : Act)
    (ha : ∀ t, a ≠ .start t) (ht : Timed w'.added) (hp : w.start = 0 ∨ (cfg.preTrig ≤ w.start ∧ w.start < 2 ^ 64))
    (hs : w.step cfg a = some w') : Window cfg w' := by
  have sh := step_shape hS a hs
  obtain ⟨more, hm⟩ := sh.added
  obtain ⟨d, e, hf, he, hd, -⟩ := sh.fates
  have hst := sh.start ha
  have ht0 : Timed w.added := by rw [hm] at ht; exact ht.left
  have hold : ∀ n, Older cfg.preTrig w n → Older cfg.preTrig w' n := by
    intro n hn
    unfold Older
    rw [hst]
    rcases hn with hn | ⟨h1, m, h2, h3⟩
    · exact .inl hn
    · exact .inr ⟨h1, m, by rw [hm]; exact List.mem_append_left _ h2, h3⟩
  have hget : ∀ (j : Nat) n, w.added[j]? = some n → w'.added[j]? = some n := by
    intro j n hj
    rw [hm, List.getElem?_append_left]
    · exact hj
    · exact (List.getElem?_eq_some_iff.mp hj).1
  refine ⟨?_⟩
  intro i s hi
  rw [hf, List.append_assoc, List.getElem?_append] at hi
  split at hi
  · obtain ⟨n, h1, h2⟩ := h.trimmed i s hi
    exact ⟨n, hget _ _ h1, hold n h2⟩
  · rename_i hlt
    rw [List.getElem?_append] at hi
    split at hi
    · rename_i hlt2
      rcases hd with rfl | ⟨hh, rfl⟩
      · simp at hlt2
      · have hi' : (cfg.trim w.start w.queue).1[i - w.fates.length]? = some s := by
          rw [List.getElem?_map] at hi
          cases hx : (cfg.trim w.start w.queue).1[i - w.fates.length]? with
          | none => rw [hx] at hi; cases hi
          | some y => rw [hx] at hi; simp at hi; rw [hi]
        unfold WCfg.trim at hi'
        split at hi'
        · obtain ⟨n, l, h1, h2, h3⟩ := trimQueue_dropped _ _ _ _ _ hi'
          have htimes := hI.times
          rw [hh, List.append_nil] at htimes
          -- the successor and the last sample in the list of all samples
          have hn : (w.added.map Sample.time)[i + 1]? = some n.time := by
            rw [← htimes, List.map_append, List.getElem?_append_right (by simp; omega), List.getElem?_map]
            have : i + 1 - (List.map Sample.time (List.map (·.1) w.fates)).length = i - w.fates.length + 1 := by
              simp; omega
            rw [this, h1]; rfl
          obtain ⟨n', hn1, hn2⟩ := map_getElem?_some hn
          have hl : ∃ l' ∈ w.added, l'.time = l.time := by
            have hmem : l.time ∈ w.added.map Sample.time := by
              rw [← htimes, List.map_append]
              exact List.mem_append_right _ (List.mem_map_of_mem (List.mem_of_getLast? h2))
            obtain ⟨l', a1, a2⟩ := List.mem_map.mp hmem
            exact ⟨l', a1, a2⟩
          obtain ⟨l', hl1, hl2⟩ := hl
          -- the last is not before the successor
          have hle : n.time ≤ l.time := by
            have hpw : (w.queue.map Sample.time).Pairwise (· ≤ ·) := by
              have hall : (w.added.map Sample.time).Pairwise (· ≤ ·) := List.pairwise_map.mpr ht0.1
              rw [← htimes, List.map_append] at hall
              exact (List.pairwise_append.mp hall).2.1
            have hq1 := List.getElem?_eq_some_iff.mp h1
            obtain ⟨b1, b2⟩ := hq1
            have hq2 : w.queue[w.queue.length - 1]? = some l := by rw [← List.getLast?_eq_getElem?]; exact h2
            obtain ⟨c1, c2⟩ := List.getElem?_eq_some_iff.mp hq2
            rw [List.pairwise_map, List.pairwise_iff_getElem] at hpw
            by_cases hlast : i - w.fates.length + 1 = w.queue.length - 1
            · have : n = l := by rw [← b2, ← c2]; congr 1
              rw [this]; exact Nat.le_refl _
            · have := hpw _ _ b1 c1 (by omega)
              rw [b2, c2] at this; exact this
          have hlt64 : l.time < 2 ^ 64 := by rw [← hl2]; exact ht0.2 l' hl1
          refine ⟨n', hget _ _ hn1, hold _ ?_⟩
          unfold trimStops at h3
          unfold Older
          rcases hp with hp | ⟨hp1, hp2⟩
          · rw [if_neg (by omega)] at h3
            refine .inr ⟨hp, l', hl1, ?_⟩
            have h3' : ¬ sub64 l.time n.time ≤ cfg.preTrig := by simpa using h3
            unfold sub64 at h3'
            have : l.time + 2 ^ 64 - n.time = (l.time - n.time) + 2 ^ 64 := by omega
            rw [this, Nat.add_mod_right, Nat.mod_eq_of_lt (by omega)] at h3'
            omega
          · by_cases h0 : w.start > 0
            · rw [if_pos h0] at h3
              refine .inl ⟨h0, ?_⟩
              have h3' : ¬ n.time ≥ sub64 w.start cfg.preTrig := by simpa using h3
              unfold sub64 at h3'
              have : w.start + 2 ^ 64 - cfg.preTrig = (w.start - cfg.preTrig) + 2 ^ 64 := by omega
              rw [this, Nat.add_mod_right, Nat.mod_eq_of_lt (by omega)] at h3'
              omega
            · rw [if_neg h0] at h3
              refine .inr ⟨by omega, l', hl1, ?_⟩
              have h3' : ¬ sub64 l.time n.time ≤ cfg.preTrig := by simpa using h3
              unfold sub64 at h3'
              have : l.time + 2 ^ 64 - n.time = (l.time - n.time) + 2 ^ 64 := by omega
              rw [this, Nat.add_mod_right, Nat.mod_eq_of_lt (by omega)] at h3'
              omega
        · simp at hi'
    · exact absurd rfl (he _ (List.mem_of_getElem? hi))

theorem Window.run {cfg : WCfg} (acts : List Act) (hn : ∀ t, .start t ∉ acts) : ∀ {w w' : W}, Window cfg w → Inv cfg w →
    Stops w → (w.start = 0 ∨ (cfg.preTrig ≤ w.start ∧ w.start < 2 ^ 64)) → Timed w'.added → W.run cfg acts w = some w' →
    Window cfg w' ∧ w'.start = w.start := by
  induction acts with
  | nil => intro w w' h _ _ _ _ hr; cases hr; exact ⟨h, rfl⟩
  | cons a acts ih =>
    intro w w' h hI hS hp ht hr
    simp only [W.run] at hr
    cases hs : w.step cfg a with
    | none => rw [hs] at hr; cases hr
    | some w1 =>
      rw [hs] at hr
      have hS1 := hS.step a hs
      have ha : ∀ t, a ≠ .start t := fun t he => hn t (by rw [he]; exact List.mem_cons_self)
      have hst := (step_shape hS a hs).start ha
      obtain ⟨m, hm⟩ := run_added acts hS1 hr
      have ht1 : Timed w1.added := by rw [hm] at ht; exact ht.left
      have := ih (fun t h => hn t (List.mem_cons_of_mem _ h)) (h.step hI hS a ha ht1 hp hs) (hI.step a hs) hS1
        (by rw [hst]; exact hp) ht hr
      exact ⟨this.1, by rw [this.2, hst]⟩

/-! ### The master time -/

/-- Before the start the thread writes nothing. -/
structure Before (w : W) : Prop where
  state : w.quit = false → w.state = .init
  pc : w.quit = false → w.pc = .idle
  none : w.quit = false → w.blocks = [] ∧ w.buffer = []
  start : w.start = 0

theorem Before.step {cfg : WCfg} {w w' : W} (h : Before w) (hS : Stops w) (a : Act) (ha : ∀ t, a ≠ .start t) (hf : a ≠ .finalize)
    (hs : w.step cfg a = some w') : Before w' := by
  have sh := step_shape hS a hs
  have hst : w'.start = 0 := by rw [sh.start ha, h.start]
  cases hq : w.quit with
  | true =>
    have hq' := sh.quit hq
    exact ⟨fun h' => (by rw [hq'] at h'; cases h'), fun h' => (by rw [hq'] at h'; cases h'),
      fun h' => (by rw [hq'] at h'; cases h'), hst⟩
  | false =>
    have h1 := h.state hq
    have h2 := h.pc hq
    have h3 := h.none hq
    cases a with
    | add s =>
      simp only [W.step] at hs
      split at hs <;> cases hs
      · exact h
      · exact ⟨h.state, h.pc, h.none, h.start⟩
    | start t => exact absurd rfl (ha t)
    | recalculate =>
      simp only [W.step] at hs
      split at hs <;> cases hs
      exact ⟨h.state, h.pc, h.none, h.start⟩
    | requestStop =>
      simp only [W.step] at hs
      split at hs <;> cases hs
      exact ⟨by simp, by simp, by simp, h.start⟩
    | stopped t => simp only [W.step, h2] at hs; cases hs
    | finalize => exact absurd rfl hf
    | wake =>
      simp only [W.step, h2, hq, h1] at hs
      cases hs
      exact ⟨fun _ => h1, fun _ => h2, fun _ => h3, h.start⟩
    | opened ok => simp only [W.step, h2] at hs; cases hs
    | enter => simp only [W.step, h2] at hs; cases hs
    | store more => simp only [W.step, h2] at hs; cases hs
    | close => simp only [W.step, h2] at hs; cases hs

theorem Before.init : Before W.init := ⟨fun _ => rfl, fun _ => rfl, fun _ => ⟨rfl, rfl⟩, rfl⟩

theorem Before.run {cfg : WCfg} (acts : List Act) (hn : ∀ t, .start t ∉ acts) (hf : .finalize ∉ acts) : ∀ {w w' : W}, Before w →
    Stops w → W.run cfg acts w = some w' → Before w' := by
  induction acts with
  | nil => intro w w' h _ hr; cases hr; exact h
  | cons a acts ih =>
    intro w w' h hS hr
    simp only [W.run] at hr
    cases hs : w.step cfg a with
    | none => rw [hs] at hr; cases hr
    | some w1 =>
      rw [hs] at hr
      exact ih (fun t h => hn t (List.mem_cons_of_mem _ h)) (fun h => hf (List.mem_cons_of_mem _ h))
        (h.step hS a (fun t he => hn t (by rw [he]; exact List.mem_cons_self))
          (fun he => hf (by rw [he]; exact List.mem_cons_self)) hs) (hS.step a hs) hr

/-- The master time of everything in the writer is calculated with the start time `t`. -/
structure Stamped (t : Nat) (w : W) : Prop where
  hasMaster : w.hasMaster = true
  start : w.start = t
  queue : ∀ s ∈ w.queue, s.stamp = some t
  held : ∀ s ∈ w.pc.held, s.stamp = some t
  blocks : ∀ s ∈ w.blocks.flatten, s.stamp = some t
  buffer : ∀ s ∈ w.buffer, s.stamp = some t

theorem Stamped.next {cfg : WCfg} {t : Nat} {w : W} {fin last : Bool} (h0 : w.stop = 0) (h1 : w.hasMaster = true) (h2 : w.start = t)
    (h3 : ∀ s ∈ w.queue, s.stamp = some t) (h4 : ∀ s ∈ w.blocks.flatten, s.stamp = some t)
    (h5 : ∀ s ∈ w.buffer, s.stamp = some t) : Stamped t (w.takeNext cfg fin last) := by
  obtain ⟨hs, hn⟩ := takeNext_spec cfg fin last w h0
  rcases hn with ⟨a1, a2, a3⟩ | ⟨sk, s', rest, a1, a2, a3, a4⟩
  · exact ⟨by rw [hs.hasMaster, h1], by rw [hs.start, h2], by rw [a2]; simp, by rw [a1]; simp [Pc.held],
      by rw [hs.blocks]; exact h4, by rw [hs.buffer]; exact h5⟩
  · refine ⟨by rw [hs.hasMaster, h1], by rw [hs.start, h2], ?_, ?_, by rw [hs.blocks]; exact h4, by rw [hs.buffer]; exact h5⟩
    · rw [a2]; intro s hm; exact h3 s (by rw [a3]; simp [hm])
    · rw [a1]; intro s hm
      simp only [Pc.held, List.mem_singleton] at hm
      subst hm
      exact h3 s (by rw [a3]; simp)

theorem mem_trim {cfg : WCfg} {w : W} {s : Sample} (h : s ∈ (w.trim cfg).queue) : s ∈ w.queue := by
  rw [← trim_append cfg w.start w.queue]
  exact List.mem_append_right _ h

theorem Stamped.store {cfg : WCfg} {t : Nat} {w : W} {fin last : Bool} (s : Sample) (h0 : w.stop = 0) (h1 : w.hasMaster = true)
    (h2 : w.start = t) (h3 : ∀ s ∈ w.queue, s.stamp = some t) (h4 : ∀ s ∈ w.blocks.flatten, s.stamp = some t)
    (h5 : ∀ s ∈ w.buffer, s.stamp = some t) (h6 : s.stamp = some t) : Stamped t (w.store cfg s fin last) := by
  unfold W.store
  split
  · refine Stamped.next h0 h1 h2 h3 h4 ?_
    intro x hx
    rcases List.mem_append.mp hx with hx | hx
    · exact h5 x hx
    · rw [List.mem_singleton.mp hx]; exact h6
  · exact Stamped.next h0 h1 h2 h3 h4 h5

theorem Stamped.step {cfg : WCfg} {t : Nat} {w w' : W} (h : Stamped t w) (hS : Stops w) (a : Act) (ha : ∀ t, a ≠ .start t)
    (hs : w.step cfg a = some w') : Stamped t w' := by
  obtain ⟨h1, h2, h3, h4, h5, h6⟩ := h
  cases a with
  | add s =>
    simp only [W.step] at hs
    split at hs <;> cases hs
    · exact ⟨h1, h2, h3, h4, h5, h6⟩
    · refine ⟨h1, h2, ?_, h4, h5, h6⟩
      intro x hx
      rcases List.mem_append.mp hx with hx | hx
      · exact h3 x hx
      · rw [List.mem_singleton.mp hx]; simp [h2]
  | start t => exact absurd rfl (ha t)
  | recalculate =>
    simp only [W.step] at hs
    split at hs <;> cases hs
    refine ⟨rfl, h2, ?_, h4, h5, h6⟩
    intro x hx
    obtain ⟨y, _, rfl⟩ := List.mem_map.mp hx
    simp [h2]
  | requestStop =>
    simp only [W.step] at hs
    split at hs <;> cases hs
    exact ⟨h1, h2, h3, h4, h5, h6⟩
  | stopped t =>
    simp only [W.step] at hs
    split at hs <;> cases hs
    exact ⟨h1, h2, by simp, by simp [Pc.held], h5, h6⟩
  | finalize =>
    simp only [W.step, Option.some.injEq] at hs
    cases hs
    exact ⟨h1, h2, h3, h4, h5, h6⟩
  | wake =>
    simp only [W.step] at hs
    have hclean : ∀ last, Stamped t (w.clean cfg last) := by
      intro last
      unfold W.clean
      split
      · exact ⟨h1, h2, h3, by cases last <;> simp [Pc.held], h5, h6⟩
      · exact ⟨h1, h2, h3, by simp [Pc.held], h5, h6⟩
    have htrim : ∀ s ∈ (w.trim cfg).queue, s.stamp = some t := fun s hm => h3 s (mem_trim hm)
    split at hs
    · split at hs
      · cases hs; exact hclean true
      · split at hs
        · cases hs
          exact ⟨h1, h2, htrim, h4, h5, h6⟩
        · cases hs
          split
          · unfold W.save
            split
            · dsimp only
              split
              · exact ⟨h1, h2, htrim, by simp [Pc.held], h5, h6⟩
              · exact ⟨h1, h2, htrim, by simp [Pc.held], h5, h6⟩
            · exact ⟨h1, h2, h3, by simp [Pc.held], h5, h6⟩
          · exact ⟨h1, h2, h3, h4, h5, h6⟩
        · cases hs; exact hclean false
        · cases hs
          exact ⟨h1, h2, by simp, h4, h5, h6⟩
    · cases hs
  | opened ok =>
    simp only [W.step] at hs
    split at hs
    · rename_i fin last hpc
      split at hs <;> cases hs
      · exact ⟨h1, h2, h3, by simp [Pc.held], h5, h6⟩
      · exact ⟨h1, h2, h3, by cases last <;> simp [Pc.held], h5, h6⟩
    · cases hs
  | enter =>
    simp only [W.step] at hs
    split at hs
    · rename_i fin last hpc
      have h0 := hS.stop0 (by rw [hpc]; simp)
      cases hs
      exact Stamped.next h0 h1 h2 (fun s hm => h3 s (mem_trim hm)) h5 h6
    · cases hs
  | store more =>
    simp only [W.step] at hs
    split at hs
    · rename_i s fin last hpc
      have h0 := hS.stop0 (by rw [hpc]; simp)
      have hss : s.stamp = some t := h4 s (by rw [hpc]; simp [Pc.held])
      split at hs
      · split at hs
        · split at hs
          · cases hs
            refine Stamped.store s h0 h1 h2 h3 ?_ (by simp) hss
            intro x hx
            simp only [List.flatten_append, List.flatten_cons, List.flatten_nil, List.append_nil] at hx
            rcases List.mem_append.mp hx with hx | hx
            · exact h5 x hx
            · exact h6 x hx
          · cases hs
            refine ⟨h1, h2, ?_, by simp [Pc.held], h5, h6⟩
            intro x hx
            rcases List.mem_cons.mp hx with rfl | hx
            · exact hss
            · exact h3 x hx
        · cases hs
          exact Stamped.store s h0 h1 h2 h3 h5 h6 hss
      · cases hs
        refine Stamped.next h0 h1 h2 h3 ?_ h6
        intro x hx
        simp only [List.flatten_append, List.flatten_cons, List.flatten_nil, List.append_nil] at hx
        rcases List.mem_append.mp hx with hx | hx
        · exact h5 x hx
        · rw [List.mem_singleton.mp hx]; exact hss
    · cases hs
  | close =>
    simp only [W.step] at hs
    split at hs
    · rename_i last hpc
      split at hs <;> cases hs
      · exact ⟨h1, h2, h3, by cases last <;> simp [Pc.held], h5, h6⟩
      · refine ⟨h1, h2, h3, by cases last <;> simp [Pc.held], ?_, by simp⟩
        intro x hx
        simp only [List.flatten_append, List.flatten_cons, List.flatten_nil, List.append_nil] at hx
        rcases List.mem_append.mp hx with hx | hx
        · exact h5 x hx
        · exact h6 x hx
    · cases hs

theorem Stamped.run {cfg : WCfg} {t : Nat} (acts : List Act) (hn : ∀ t, .start t ∉ acts) : ∀ {w w' : W}, Stamped t w →
    Stops w → W.run cfg acts w = some w' → Stamped t w' := by
  induction acts with
  | nil => intro w w' h _ hr; cases hr; exact h
  | cons a acts ih =>
    intro w w' h hS hr
    simp only [W.run] at hr
    cases hs : w.step cfg a with
    | none => rw [hs] at hr; cases hr
    | some w1 =>
      rw [hs] at hr
      exact ih (fun t h => hn t (List.mem_cons_of_mem _ h))
        (h.step hS a (fun t he => hn t (by rw [he]; exact List.mem_cons_self)) hs) (hS.step a hs) hr

/-! ### The thread ends -/

/-- The transitions of the thread. -/
def Act.thread : Act → Bool
  | .wake | .opened _ | .enter | .store _ | .close => true
  | _ => false

/-- How many transitions the thread can still make. -/
def W.left (w : W) : Nat :=
  let m := w.queue.length + w.pc.held.length
  match w.pc with
  | .opening _ l => if l then 2 * m + 4 else 4 * m + 12
  | .ready _ l => if l then 2 * m + 3 else 4 * m + 11
  | .holding _ _ l => if l then 2 * m + 2 else 4 * m + 10
  | .closing l => if l then 1 else 2 * m + 6
  | .idle => 2 * m + 5
  | .ended => 0
  | .gone => 0

theorem left_next {cfg : WCfg} {w : W} {fin last : Bool} (h0 : w.stop = 0) :
    (w.takeNext cfg fin last).left < if last then 2 * w.queue.length + 3 else 4 * w.queue.length + 11 := by
  obtain ⟨hs, hn⟩ := takeNext_spec cfg fin last w h0
  rcases hn with ⟨a1, a2, a3⟩ | ⟨sk, s', rest, a1, a2, a3, a4⟩
  · simp only [W.left, a1, a2, Pc.held]
    cases last <;> simp
  · have : w.queue.length = sk.length + (rest.length + 1) := by rw [a3]; simp
    simp only [W.left, a1, a2, Pc.held, List.length_singleton]
    cases last <;> simp <;> omega

theorem trim_length {cfg : WCfg} {w : W} : (w.trim cfg).queue.length ≤ w.queue.length := by
  have := congrArg List.length (trim_append cfg w.start w.queue)
  rw [List.length_append] at this
  show (cfg.trim w.start w.queue).2.length ≤ _
  omega

theorem left_store {cfg : WCfg} {w : W} {s : Sample} {fin last : Bool} (h0 : w.stop = 0) :
    (w.store cfg s fin last).left < if last then 2 * w.queue.length + 3 else 4 * w.queue.length + 11 := by
  unfold W.store
  split
  · exact left_next (w := { w.log .written [s] with buffer := w.buffer ++ [s] }) h0
  · exact left_next (w := w.log .unknown [s]) h0

theorem left_step {cfg : WCfg} {w w' : W} (hS : Stops w) (hq : w.quit = true) (a : Act) (ha : a.thread = true)
    (hs : w.step cfg a = some w') : w'.left < w.left := by
  have hf := hS.finOk
  cases a with
  | add s => cases ha
  | start t => cases ha
  | recalculate => cases ha
  | requestStop => cases ha
  | stopped t => cases ha
  | finalize => cases ha
  | wake =>
    simp only [W.step] at hs
    split at hs
    · rename_i hpc
      cases hs
      unfold W.clean
      split
      · simp [W.left, hpc]
      · simp [W.left, hpc, Pc.held]
    · cases hs
  | opened ok =>
    simp only [W.step] at hs
    split at hs
    · rename_i fin last hpc
      split at hs <;> cases hs <;> cases last <;> simp [W.left, hpc, Pc.held]
      omega
    · cases hs
  | enter =>
    simp only [W.step] at hs
    split at hs
    · rename_i fin last hpc
      cases hs
      have h0 : (w.trim cfg).stop = 0 := hS.stop0 (by rw [hpc]; simp)
      have h1 := left_next (cfg := cfg) (fin := fin) (last := last) h0
      have h2 := trim_length (cfg := cfg) (w := w)
      refine Nat.lt_of_lt_of_le h1 ?_
      simp only [W.left, hpc, Pc.held, List.length_nil]
      cases last <;> simp <;> omega
    · cases hs
  | store more =>
    simp only [W.step] at hs
    split at hs
    · rename_i s fin last hpc
      have h0 := hS.stop0 (by rw [hpc]; simp)
      have hl : w.left = if last then 2 * w.queue.length + 4 else 4 * w.queue.length + 14 := by
        simp only [W.left, hpc, Pc.held, List.length_singleton]
        cases last <;> simp <;> omega
      have hb : ∀ x, (x < if last then 2 * w.queue.length + 3 else 4 * w.queue.length + 11) → x < w.left := by
        intro x hx
        rw [hl]
        cases last <;> simp at hx ⊢ <;> omega
      split at hs
      · split at hs
        · split at hs
          · cases hs
            exact hb _ (left_store (w := { w with blocks := w.blocks ++ [w.buffer], buffer := [] }) h0)
          · rename_i hno
            cases hs
            rw [hpc] at hf
            cases last
            · rw [hl]; simp [W.left, Pc.held]; omega
            · exact absurd (.inl (hf rfl)) hno
        · cases hs
          exact hb _ (left_store h0)
      · cases hs
        exact hb _ (left_next (w := { w.log .written [s] with blocks := w.blocks ++ [[s]] }) h0)
    · cases hs
  | close =>
    simp only [W.step] at hs
    split at hs
    · rename_i last hpc
      split at hs <;> cases hs <;> cases last <;> simp [W.left, hpc, Pc.held]
    · cases hs

theorem left_run {cfg : WCfg} (acts : List Act) (ha : ∀ a ∈ acts, a.thread = true) : ∀ {w w' : W}, Stops w → w.quit = true →
    W.run cfg acts w = some w' → acts.length + w'.left ≤ w.left := by
  induction acts with
  | nil => intro w w' _ _ hr; cases hr; simp
  | cons a acts ih =>
    intro w w' hS hq hr
    simp only [W.run] at hr
    cases hs : w.step cfg a with
    | none => rw [hs] at hr; cases hr
    | some w1 =>
      rw [hs] at hr
      have h1 := left_step hS hq a (ha a List.mem_cons_self) hs
      have h2 := ih (fun a h => ha a (List.mem_cons_of_mem _ h)) (hS.step a hs) ((step_shape hS a hs).quit hq) hr
      simp only [List.length_cons]
      omega

/-! ### Outside the loop the buffer has been written -/

/-- The thread is inside a save loop. -/
def Pc.inLoop : Pc → Bool
  | .holding _ _ _ | .closing _ => true
  | _ => false

def Flushed (cfg : WCfg) (w : W) : Prop := w.pc.inLoop = false → cfg.bytes w.buffer = 0

theorem Next.inLoop {fin last : Bool} {q : List Sample} {w w' : W} (h : Next fin last q w w') : w'.pc.inLoop = true := by
  rcases h with ⟨a1, a2, a3⟩ | ⟨sk, s', rest, a1, a2, a3, a4⟩ <;> rw [a1] <;> rfl

theorem flushed_next {cfg : WCfg} {w : W} {fin last : Bool} (h0 : w.stop = 0) : Flushed cfg (w.takeNext cfg fin last) := by
  intro h
  rw [(takeNext_spec cfg fin last w h0).2.inLoop] at h
  cases h

theorem flushed_store {cfg : WCfg} {w : W} {s : Sample} {fin last : Bool} (h0 : w.stop = 0) :
    Flushed cfg (w.store cfg s fin last) := by
  unfold W.store
  split
  · exact flushed_next (w := { w.log .written [s] with buffer := w.buffer ++ [s] }) h0
  · exact flushed_next (w := w.log .unknown [s]) h0

theorem Flushed.step {cfg : WCfg} {w w' : W} (h : Flushed cfg w) (hS : Stops w) (a : Act)
    (hs : w.step cfg a = some w') : Flushed cfg w' := by
  cases a with
  | add s =>
    simp only [W.step] at hs
    split at hs <;> cases hs <;> exact h
  | start t =>
    simp only [W.step] at hs
    split at hs <;> cases hs
    exact h
  | recalculate =>
    simp only [W.step] at hs
    split at hs <;> cases hs
    exact h
  | requestStop =>
    simp only [W.step] at hs
    split at hs <;> cases hs
    exact h
  | stopped t =>
    simp only [W.step] at hs
    split at hs
    · rename_i hpc
      cases hs
      exact fun _ => h (by rw [hpc]; rfl)
    · cases hs
  | finalize =>
    simp only [W.step, Option.some.injEq] at hs
    cases hs
    exact h
  | wake =>
    simp only [W.step] at hs
    split at hs
    · rename_i hpc
      have hb := h (by rw [hpc]; rfl)
      have hclean : ∀ last, Flushed cfg (w.clean cfg last) := by
        intro last
        unfold W.clean
        split <;> exact fun _ => hb
      split at hs
      · cases hs; exact hclean true
      · split at hs
        · cases hs; exact fun _ => hb
        · cases hs
          split
          · unfold W.save
            split
            · dsimp only
              split <;> exact fun _ => hb
            · exact fun _ => hb
          · exact fun _ => hb
        · cases hs; exact hclean false
        · cases hs; exact fun _ => hb
    · cases hs
  | opened ok =>
    simp only [W.step] at hs
    split at hs
    · rename_i fin last hpc
      have hb := h (by rw [hpc]; rfl)
      split at hs <;> cases hs <;> exact fun _ => hb
    · cases hs
  | enter =>
    simp only [W.step] at hs
    split at hs
    · rename_i fin last hpc
      have h0 := hS.stop0 (by rw [hpc]; simp)
      cases hs
      exact flushed_next (w := w.trim cfg) h0
    · cases hs
  | store more =>
    simp only [W.step] at hs
    split at hs
    · rename_i s fin last hpc
      have h0 := hS.stop0 (by rw [hpc]; simp)
      split at hs
      · split at hs
        · split at hs
          · cases hs
            exact flushed_store (w := { w with blocks := w.blocks ++ [w.buffer], buffer := [] }) h0
          · cases hs
            intro h'; cases h'
        · cases hs
          exact flushed_store h0
      · cases hs
        exact flushed_next (w := { w.log .written [s] with blocks := w.blocks ++ [[s]] }) h0
    · cases hs
  | close =>
    simp only [W.step] at hs
    split at hs
    · split at hs
      · rename_i hb
        cases hs
        exact fun _ => hb
      · cases hs
        exact fun _ => rfl
    · cases hs

theorem Flushed.run {cfg : WCfg} (acts : List Act) : ∀ {w w' : W}, Flushed cfg w → Stops w → W.run cfg acts w = some w' →
    Flushed cfg w' := by
  induction acts with
  | nil => intro w w' h _ hr; cases hr; exact h
  | cons a acts ih =>
    intro w w' h hS hr
    simp only [W.run] at hr
    cases hs : w.step cfg a with
    | none => rw [hs] at hr; cases hr
    | some w1 => rw [hs] at hr; exact ih (h.step hS a hs) (hS.step a hs) hr

theorem bytes_zero {cfg : WCfg} {l : List Sample} (hp : ∀ s ∈ l, 0 < cfg.stored s) (h : cfg.bytes l = 0) : l = [] := by
  cases l with
  | nil => rfl
  | cons s l =>
    unfold WCfg.bytes at h
    simp only [List.map_cons, List.sum_cons] at h
    have := hp s List.mem_cons_self
    omega

/-! ### Only samples without group are passed over -/

def Known (cfg : WCfg) (fates : List (Sample × Fate)) : Prop := ∀ x ∈ fates, x.2 = .unknown → cfg.known x.1.id = false

theorem Known.append {cfg : WCfg} {a : List (Sample × Fate)} (h : Known cfg a) {f : Fate} (hf : f ≠ .unknown) (l : List Sample) :
    Known cfg (a ++ l.map fun s => (s, f)) := by
  intro x hx hu
  rcases List.mem_append.mp hx with hx | hx
  · exact h x hx hu
  · obtain ⟨s, _, rfl⟩ := List.mem_map.mp hx; exact absurd hu hf

theorem Known.next (cfg : WCfg) (fin last : Bool) (q : List Sample) : ∀ (w : W), Known cfg w.fates →
    Known cfg (W.next cfg fin last q w).fates := by
  induction q with
  | nil => intro w h; exact h
  | cons s q ih =>
    intro w h
    unfold W.next
    dsimp only
    split
    · exact h.append (f := .late) (by decide) [s]
    · split
      · rename_i hk
        apply ih
        intro x hx hu
        rcases List.mem_append.mp hx with hx | hx
        · exact h x hx hu
        · simp at hx; rw [hx]; exact hk.2
      · exact h

theorem Known.store {cfg : WCfg} {w : W} (h : Known cfg w.fates) (s : Sample) (fin last : Bool) :
    Known cfg (w.store cfg s fin last).fates := by
  unfold W.store
  split
  · exact Known.next _ _ _ _ _ (h.append (f := .written) (by decide) [s])
  · rename_i hk
    refine Known.next _ _ _ _ _ ?_
    intro x hx hu
    rcases List.mem_append.mp hx with hx | hx
    · exact h x hx hu
    · simp at hx; rw [hx]; simpa using hk

theorem Known.step {cfg : WCfg} {w w' : W} (h : Known cfg w.fates) (a : Act) (hs : w.step cfg a = some w') :
    Known cfg w'.fates := by
  have htrim : Known cfg (w.trim cfg).fates := h.append (f := .trimmed) (by decide) _
  have hclean : ∀ last, Known cfg (w.clean cfg last).fates := by
    intro last
    unfold W.clean
    split <;> exact h
  cases a with
  | add s =>
    simp only [W.step] at hs
    split at hs <;> cases hs <;> exact h
  | start t =>
    simp only [W.step] at hs
    split at hs <;> cases hs
    exact h
  | recalculate =>
    simp only [W.step] at hs
    split at hs <;> cases hs
    exact h
  | requestStop =>
    simp only [W.step] at hs
    split at hs <;> cases hs
    exact h
  | stopped t =>
    simp only [W.step] at hs
    split at hs <;> cases hs
    exact h.append (f := .reset) (by decide) _
  | finalize =>
    simp only [W.step, Option.some.injEq] at hs
    cases hs
    exact h
  | wake =>
    simp only [W.step] at hs
    split at hs
    · split at hs
      · cases hs; exact hclean true
      · split at hs
        · cases hs; exact htrim
        · cases hs
          split
          · unfold W.save
            split
            · dsimp only
              split <;> exact htrim
            · exact h
          · exact h
        · cases hs; exact hclean false
        · cases hs; exact h.append (f := .reset) (by decide) _
    · cases hs
  | opened ok =>
    simp only [W.step] at hs
    split at hs
    · split at hs <;> cases hs <;> exact h
    · cases hs
  | enter =>
    simp only [W.step] at hs
    split at hs
    · cases hs
      exact Known.next _ _ _ _ _ htrim
    · cases hs
  | store more =>
    simp only [W.step] at hs
    split at hs
    · rename_i s fin last hpc
      split at hs
      · split at hs
        · split at hs
          · cases hs
            exact Known.store (w := { w with blocks := w.blocks ++ [w.buffer], buffer := [] }) h s fin last
          · cases hs; exact h
        · cases hs
          exact Known.store h s fin last
      · cases hs
        exact Known.next _ _ _ _ _ (h.append (f := .written) (by decide) [s])
    · cases hs
  | close =>
    simp only [W.step] at hs
    split at hs
    · split at hs <;> cases hs <;> exact h
    · cases hs

theorem Known.run {cfg : WCfg} (acts : List Act) : ∀ {w w' : W}, Known cfg w.fates → W.run cfg acts w = some w' →
    Known cfg w'.fates := by
  induction acts with
  | nil => intro w w' h hr; cases hr; exact h
  | cons a acts ih =>
    intro w w' h hr
    simp only [W.run] at hr
    cases hs : w.step cfg a with
    | none => rw [hs] at hr; cases hr
    | some w1 => rw [hs] at hr; exact ih (h.step a hs) hr

end Mdf
