import Verif.Model.Store
import Verif.Proof.Queue
import Verif.Proof.Store
import Verif.Proof.ReadCache

/-! The sizes of the blocks of compressed data. -/

namespace Mdf

/-- The bytes a sample may take in a block: record and id, and the value of variable length with length field and id. -/
def Sample.need (idSize : Nat) (s : Sample) : Nat :=
  s.data.length + idSize + (match s.vlsd with | some v => v.length + 4 + idSize | none => 0)

/-- The invariant.  `big`: a sample larger than a block has been saved. -/
structure BlkInv (cfg : WCfg) (big : Prop) (w : W) : Prop where
  queue : ∀ s ∈ w.queue, 4000000 ≤ s.need cfg.idSize → big
  held : ∀ s ∈ w.pc.held, 4000000 ≤ s.need cfg.idSize → big
  buffer : cfg.bytes w.buffer < 4000000 ∨ (big ∧ ∃ s, w.buffer = [s])
  blocks : ∀ b ∈ w.blocks, (b ≠ [] ∧ cfg.bytes b < 4000000) ∨ (big ∧ (b = [] ∨ ∃ s, b = [s]))

variable {cfg : WCfg} {big : Prop}

theorem BlkInv.init : BlkInv cfg big W.init :=
  ⟨by simp [W.init], by simp [W.init, Pc.held], .inl (by simp [W.init, WCfg.bytes]), by simp [W.init]⟩

theorem BlkInv.pc {w : W} (h : BlkInv cfg big w) {pc : Pc} (hp : pc.held = []) : BlkInv cfg big { w with pc := pc } :=
  ⟨h.queue, by simp [hp], h.buffer, h.blocks⟩

theorem BlkInv.trim {w : W} (h : BlkInv cfg big w) : BlkInv cfg big (w.trim cfg) :=
  ⟨fun s hs => h.queue s (mem_trim hs), h.held, h.buffer, h.blocks⟩

theorem BlkInv.next (fin last : Bool) (q : List Sample) : ∀ (w : W), BlkInv cfg big w → w.queue = q → BlkInv cfg big (W.next cfg fin last q w) := by
  induction q with
  | nil => intro w h _; exact h.pc rfl
  | cons s q ih =>
    intro w h hq
    have hs := h.queue s (by rw [hq]; simp)
    have h' : BlkInv cfg big { w with queue := q, size := w.size - s.size } :=
      ⟨fun x hx => h.queue x (by rw [hq]; exact List.mem_cons_of_mem _ hx), h.held, h.buffer, h.blocks⟩
    unfold W.next
    dsimp only
    split
    · exact ⟨h'.queue, by simp [Pc.held], h'.buffer, h'.blocks⟩
    · split
      · exact ih _ ⟨h'.queue, h'.held, h'.buffer, h'.blocks⟩ rfl
      · refine ⟨h'.queue, ?_, h'.buffer, h'.blocks⟩
        intro x hx
        simp only [Pc.held, List.mem_singleton] at hx
        rw [hx]; exact hs

theorem wbytes_append (a b : List Sample) : cfg.bytes (a ++ b) = cfg.bytes a + cfg.bytes b := by
  unfold WCfg.bytes; simp

theorem BlkInv.store {w : W} (h : BlkInv cfg big w) (s : Sample) (fin last : Bool)
    (hb : cfg.bytes (w.buffer ++ [s]) < 4000000 ∨ (big ∧ ∃ x, w.buffer ++ [s] = [x])) :
    BlkInv cfg big (w.store cfg s fin last) := by
  unfold W.store
  split
  · exact BlkInv.next fin last _ _ ⟨h.queue, h.held, hb, h.blocks⟩ rfl
  · exact BlkInv.next fin last _ _ ⟨h.queue, h.held, h.buffer, h.blocks⟩ rfl

theorem BlkInv.clean {w : W} (h : BlkInv cfg big w) (last : Bool) : BlkInv cfg big (w.clean cfg last) := by
  unfold W.clean
  split
  · exact h.pc (by split <;> rfl)
  · exact h.pc rfl

theorem BlkInv.save {w : W} (h : BlkInv cfg big w) : BlkInv cfg big (w.save cfg) := by
  unfold W.save
  dsimp only
  split
  · split
    · exact h.trim.pc rfl
    · exact h.trim.pc rfl
  · exact h.pc rfl

theorem BlkInv.step (hst : ∀ s, cfg.stored s ≤ s.need cfg.idSize) {w w' : W} (h : BlkInv cfg big w) (a : Act)
    (ha : ∀ s, a = .add s → 4000000 ≤ s.need cfg.idSize → big) (hs : w.step cfg a = some w') : BlkInv cfg big w' := by
  cases a with
  | add s =>
    simp only [W.step] at hs
    split at hs
    · cases hs; exact h
    · cases hs
      refine ⟨?_, h.held, h.buffer, h.blocks⟩
      intro x hx hn
      rcases List.mem_append.mp hx with hx | hx
      · exact h.queue x hx hn
      · simp only [List.mem_singleton] at hx
        rw [hx] at hn
        exact ha s rfl hn
  | start t =>
    simp only [W.step] at hs
    split at hs <;> cases hs
    exact ⟨h.queue, h.held, h.buffer, h.blocks⟩
  | recalculate =>
    simp only [W.step] at hs
    split at hs <;> cases hs
    refine ⟨?_, h.held, h.buffer, h.blocks⟩
    intro x hx hn
    obtain ⟨y, hy, rfl⟩ := List.mem_map.mp hx
    exact h.queue y hy hn
  | requestStop =>
    simp only [W.step] at hs
    split at hs <;> cases hs
    exact ⟨h.queue, h.held, h.buffer, h.blocks⟩
  | stopped t =>
    simp only [W.step] at hs
    split at hs
    · cases hs; exact ⟨by simp, by simp [Pc.held], h.buffer, h.blocks⟩
    · cases hs
  | finalize =>
    simp only [W.step] at hs
    cases hs
    exact ⟨h.queue, h.held, h.buffer, h.blocks⟩
  | wake =>
    simp only [W.step] at hs
    split at hs
    · split at hs
      · cases hs; exact h.clean true
      · split at hs
        · cases hs; exact h.trim
        · cases hs
          split
          · exact h.save
          · exact h
        · cases hs; exact h.clean false
        · cases hs; exact ⟨by simp, h.held, h.buffer, h.blocks⟩
    · cases hs
  | opened ok =>
    simp only [W.step] at hs
    split at hs
    · split at hs
      · cases hs; exact h.pc rfl
      · cases hs; exact h.pc (by split <;> rfl)
    · cases hs
  | enter =>
    simp only [W.step] at hs
    split at hs
    · cases hs; exact BlkInv.next _ _ _ _ h.trim rfl
    · cases hs
  | store more =>
    simp only [W.step] at hs
    split at hs
    · rename_i s fin last hpc
      have hheld := h.held s (by rw [hpc]; simp [Pc.held])
      have hneed : ∀ l, cfg.maxIndex s l = s.need cfg.idSize + cfg.bytes l := by
        intro l; unfold WCfg.maxIndex Sample.need; cases s.vlsd <;> simp only <;> omega
      have hone : cfg.bytes [s] = cfg.stored s := by simp [WCfg.bytes]
      have hsn := hst s
      split at hs
      · split at hs
        · rename_i hfull
          rw [hneed] at hfull
          have hflush : BlkInv cfg big { w with blocks := w.blocks ++ [w.buffer], buffer := [] } := by
            refine ⟨h.queue, h.held, .inl (by simp [WCfg.bytes]), ?_⟩
            intro b hb
            rcases List.mem_append.mp hb with hb | hb
            · exact h.blocks b hb
            · simp only [List.mem_singleton] at hb
              rw [hb]
              by_cases he : w.buffer = []
              · right
                refine ⟨hheld ?_, .inl he⟩
                rw [he] at hfull
                simpa [WCfg.bytes] using hfull
              · rcases h.buffer with h1 | ⟨h1, h2⟩
                · exact .inl ⟨he, h1⟩
                · exact .inr ⟨h1, .inr h2⟩
          split at hs
          · cases hs
            refine hflush.store s fin last ?_
            simp only [List.nil_append, hone]
            by_cases hlt : cfg.stored s < 4000000
            · exact .inl hlt
            · exact .inr ⟨hheld (by omega), s, rfl⟩
          · cases hs
            refine ⟨?_, by simp [Pc.held], h.buffer, h.blocks⟩
            intro x hx
            rcases List.mem_cons.mp hx with rfl | hx
            · exact hheld
            · exact h.queue x hx
        · rename_i hfull
          cases hs
          refine h.store s fin last (.inl ?_)
          rw [hneed] at hfull
          rw [wbytes_append, hone]
          omega
      · cases hs
        refine BlkInv.next _ _ _ _ ⟨h.queue, h.held, h.buffer, ?_⟩ rfl
        intro b hb
        rcases List.mem_append.mp hb with hb | hb
        · exact h.blocks b hb
        · simp only [List.mem_singleton] at hb
          rw [hb]
          by_cases hlt : cfg.stored s < 4000000
          · exact .inl ⟨by simp, by rw [hone]; exact hlt⟩
          · exact .inr ⟨hheld (by omega), .inr ⟨s, rfl⟩⟩
    · cases hs
  | close =>
    simp only [W.step] at hs
    split at hs
    · rename_i last hpc
      split at hs
      · cases hs; exact h.pc (by split <;> rfl)
      · rename_i hne
        cases hs
        refine ⟨h.queue, by simp only; split <;> simp [Pc.held], .inl (by simp [WCfg.bytes]), ?_⟩
        intro b hb
        rcases List.mem_append.mp hb with hb | hb
        · exact h.blocks b hb
        · simp only [List.mem_singleton] at hb
          rw [hb]
          rcases h.buffer with h1 | ⟨h1, h2⟩
          · refine .inl ⟨?_, h1⟩
            intro he
            exact hne (by rw [he]; rfl)
          · exact .inr ⟨h1, .inr h2⟩
    · cases hs

theorem BlkInv.run (hst : ∀ s, cfg.stored s ≤ s.need cfg.idSize) (acts : List Act) : ∀ {w w' : W}, BlkInv cfg big w →
    (∀ s, .add s ∈ acts → 4000000 ≤ s.need cfg.idSize → big) → W.run cfg acts w = some w' → BlkInv cfg big w' := by
  induction acts with
  | nil => intro w w' h _ hr; simp only [W.run, Option.some.injEq] at hr; rw [← hr]; exact h
  | cons a acts ih =>
    intro w w' h ha hr
    simp only [W.run] at hr
    obtain ⟨v, hv, hr⟩ := Option.bind_eq_some_iff.mp hr
    exact ih (h.step hst a (fun s hs hn => ha s (by rw [hs]; simp) hn) hv) (fun s hs hn => ha s (List.mem_cons_of_mem _ hs) hn) hr

/-! The contents of the blocks -/

theorem storeOne_length (cfg : SCfg) (st st' : SSt) (s : Sample) :
    (cfg.bytes (cfg.storeOne st s).1).length = (cfg.bytes (cfg.storeOne st' s).1).length := by
  unfold SCfg.storeOne
  cases cfg.find s.id with
  | none => rfl
  | some g =>
    simp only
    cases s.vlsd with
    | none => rfl
    | some v =>
      simp only
      cases cfg.vlsdGroup s.id with
      | some vg => simp [SCfg.bytes, encodeRec, patchIndex_length]
      | none =>
        simp only
        split
        · simp [SCfg.bytes, encodeRec, patchIndex_length]
        · rfl

theorem store_length (cfg : SCfg) (c p tr : Bool) (pre : Nat) (l : List Sample) : ∀ st : SSt,
    (cfg.bytes (cfg.store l st).1).length = (cfg.queue c p tr pre).bytes l := by
  induction l with
  | nil => intro st; rfl
  | cons s l ih =>
    intro st
    simp only [SCfg.store]
    have : ∀ a b, cfg.bytes (a ++ b) = cfg.bytes a ++ cfg.bytes b := by intro a b; simp [SCfg.bytes]
    rw [this, List.length_append, ih, storeOne_length cfg st SSt.init s]
    simp [WCfg.bytes, SCfg.queue]

theorem chunks_mem (cfg : SCfg) (bs : List (List Sample)) : ∀ (st : SSt) (x : Bytes), x ∈ cfg.chunks bs st →
    ∃ b ∈ bs, ∃ st', x = cfg.bytes (cfg.store b st').1 := by
  induction bs with
  | nil => intro st x hx; simp [SCfg.chunks] at hx
  | cons b bs ih =>
    intro st x hx
    simp only [SCfg.chunks, List.mem_cons] at hx
    rcases hx with rfl | hx
    · exact ⟨b, by simp, st, rfl⟩
    · obtain ⟨b', h1, st', h2⟩ := ih _ x hx
      exact ⟨b', by simp [h1], st', h2⟩

theorem stored_le (cfg : SCfg) (c p tr : Bool) (pre : Nat) (hr : ∀ s, (cfg.render s).length = s.data.length)
    (hw : cfg.idSize = 0 ∨ cfg.idSize = 1 ∨ cfg.idSize = 2 ∨ cfg.idSize = 4 ∨ cfg.idSize = 8) (s : Sample) :
    (cfg.queue c p tr pre).stored s ≤ s.need (cfg.queue c p tr pre).idSize := by
  have hid : ∀ id, (writeRecordId cfg.idSize id).length = cfg.idSize := by
    intro id
    rcases hw with h | h | h | h | h <;> rw [h] <;> simp [writeRecordId]
  show (cfg.bytes (cfg.storeOne SSt.init s).1).length ≤ s.need cfg.idSize
  unfold SCfg.storeOne Sample.need
  cases cfg.find s.id with
  | none => simp [SCfg.bytes]
  | some g =>
    simp only
    cases hv : s.vlsd with
    | none => simp [SCfg.bytes, encodeRec, hid, hr]; omega
    | some v =>
      simp only
      cases cfg.vlsdGroup s.id with
      | some vg => simp [SCfg.bytes, encodeRec, hid, hr, patchIndex_length]; omega
      | none =>
        simp only
        split
        · simp [SCfg.bytes, encodeRec, hid, hr, patchIndex_length]; omega
        · simp [SCfg.bytes, encodeRec, hid, hr]; omega

end Mdf
