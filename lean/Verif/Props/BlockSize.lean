import Verif.Proof.BlockSize
import Verif.Props.Store

/-! C101: compressed data is written in blocks of less than 4 MB. -/

namespace Mdf

/-- The full claim, for the contents of the blocks: none is empty, and none has more than 4,000,000 bytes. -/
def C101_Statement : Prop :=
  ∀ (cfg : SCfg) (p tr : Bool) (pre : Nat) (acts : List Act) (w : W), (∀ s, (cfg.render s).length = s.data.length) →
    (cfg.idSize = 0 ∨ cfg.idSize = 1 ∨ cfg.idSize = 2 ∨ cfg.idSize = 4 ∨ cfg.idSize = 8) →
    W.run (cfg.queue true p tr pre) acts W.init = some w →
    ∀ x ∈ cfg.chunks w.blocks SSt.init, x ≠ [] ∧ x.length ≤ 4000000

/-- Every block in a run of the writer, whatever the threads do: its bytes are fewer than 4,000,000, and it is not empty if every
sample has bytes.  Missing: samples that need 4,000,000 bytes or more themselves. -/
theorem C101_blocks_partial (cfg : SCfg) (c p tr : Bool) (pre : Nat) (acts : List Act) (w : W)
    (hr : ∀ s, (cfg.render s).length = s.data.length)
    (hw : cfg.idSize = 0 ∨ cfg.idSize = 1 ∨ cfg.idSize = 2 ∨ cfg.idSize = 4 ∨ cfg.idSize = 8)
    (hsmall : ∀ s, .add s ∈ acts → s.need cfg.idSize < 4000000)
    (hrun : W.run (cfg.queue c p tr pre) acts W.init = some w) :
    (∀ b ∈ w.blocks, b ≠ []) ∧ ∀ x ∈ cfg.chunks w.blocks SSt.init, x.length < 4000000 := by
  have h := BlkInv.run (big := False) (stored_le cfg c p tr pre hr hw) acts BlkInv.init
    (fun s hs hn => by have := hsmall s hs; have hn : 4000000 ≤ s.need cfg.idSize := hn; omega) hrun
  have hb : ∀ b ∈ w.blocks, b ≠ [] ∧ (cfg.queue c p tr pre).bytes b < 4000000 := by
    intro b hb
    rcases h.blocks b hb with h1 | ⟨h1, _⟩
    · exact h1
    · exact h1.elim
  refine ⟨fun b hb' => (hb b hb').1, ?_⟩
  intro x hx
  obtain ⟨b, h1, st, rfl⟩ := chunks_mem cfg _ _ x hx
  rw [store_length cfg c p tr pre]
  exact (hb b h1).2

/-- With samples of any size: a block of 4,000,000 bytes or more holds one sample alone, and there are empty blocks only if there was
such a sample. -/
theorem C101_large_samples (cfg : SCfg) (c p tr : Bool) (pre : Nat) (acts : List Act) (w : W)
    (hr : ∀ s, (cfg.render s).length = s.data.length)
    (hw : cfg.idSize = 0 ∨ cfg.idSize = 1 ∨ cfg.idSize = 2 ∨ cfg.idSize = 4 ∨ cfg.idSize = 8)
    (hrun : W.run (cfg.queue c p tr pre) acts W.init = some w) :
    ∀ b ∈ w.blocks, (b ≠ [] ∧ (cfg.queue c p tr pre).bytes b < 4000000) ∨
      ((∃ s, .add s ∈ acts ∧ 4000000 ≤ s.need cfg.idSize) ∧ (b = [] ∨ ∃ s, b = [s])) :=
  (BlkInv.run (stored_le cfg c p tr pre hr hw) acts BlkInv.init (fun s hs hn => ⟨s, hs, hn⟩) hrun).blocks

/-- One group without record ids; the records are stored as they are. -/
def exPlain : SCfg := { idSize := 0, groups := [⟨0, false, 3, 0⟩], sd := fun _ => false, render := fun s => s.data }

/-- A measurement of one sample. -/
def exOneSample (n : Nat) : List Act :=
  [.start 1, .recalculate, .add ⟨5, 0, List.replicate n 0, none, none⟩, .requestStop, .wake, .opened true, .enter, .store false, .close]

example : ((W.run (exPlain.queue true false true 0) (exOneSample 3) W.init).map fun w => exPlain.chunks w.blocks SSt.init) =
    some [[0, 0, 0]] := by decide +kernel

theorem exists_length (n : Nat) : ∃ l : Bytes, l.length = n := ⟨List.replicate n 0, List.length_replicate ..⟩

/-- The claim is false: in front of a sample of 4,000,000 bytes an empty block is written. -/
theorem C101_false : ¬ C101_Statement := by
  intro h
  obtain ⟨big, hlen⟩ := exists_length 4000000
  have hrun : ∃ w, W.run (exPlain.queue true false true 0) [.start 1, .recalculate, .add ⟨5, 0, big, none, none⟩, .requestStop, .wake, .opened true,
      .enter, .store false, .close] W.init = some w ∧ [] ∈ w.blocks := by
    have hmax : (exPlain.queue true false true 0).maxIndex ⟨5, 0, big, none, some 1⟩ [] = 4000000 := by
      simp [WCfg.maxIndex, WCfg.bytes, SCfg.queue, exPlain, hlen]
    have h7 : ∃ w7, W.run (exPlain.queue true false true 0) [.start 1, .recalculate, .add ⟨5, 0, big, none, none⟩, .requestStop, .wake,
        .opened true, .enter] W.init = some w7 ∧ w7.pc = .holding ⟨5, 0, big, none, some 1⟩ true true ∧ w7.buffer = [] ∧ w7.queue = [] :=
      ⟨_, rfl, rfl, rfl, rfl⟩
    obtain ⟨w7, h1, h2, h3, h4⟩ := h7
    have h8 : ∃ w8, w7.step (exPlain.queue true false true 0) (.store false) = some w8 ∧ w8.pc = .closing true ∧ [] ∈ w8.blocks := by
      simp only [W.step, h2, h3, hmax]
      refine ⟨_, rfl, ?_, ?_⟩ <;> simp [W.store, W.takeNext, W.next, h4, SCfg.queue, SCfg.find, exPlain, W.log]
    obtain ⟨w8, h5, h6, h7⟩ := h8
    have h9 : ∃ w9, w8.step (exPlain.queue true false true 0) .close = some w9 ∧ [] ∈ w9.blocks := by
      simp only [W.step, h6]
      split
      · exact ⟨_, rfl, h7⟩
      · exact ⟨_, rfl, List.mem_append_left _ h7⟩
    obtain ⟨w9, h8, h10⟩ := h9
    refine ⟨w9, ?_, h10⟩
    have hsplit : ∀ (a b : List Act) (w : W), W.run (exPlain.queue true false true 0) (a ++ b) w =
        (W.run (exPlain.queue true false true 0) a w).bind (W.run (exPlain.queue true false true 0) b) := by
      intro a
      induction a with
      | nil => intro b w; rfl
      | cons x a ih =>
        intro b w
        simp only [List.cons_append, W.run]
        cases w.step (exPlain.queue true false true 0) x with
        | none => rfl
        | some v => exact ih b v
    refine (hsplit [.start 1, .recalculate, .add ⟨5, 0, big, none, none⟩, .requestStop, .wake, .opened true, .enter]
      [.store false, .close] W.init).trans ?_
    rw [h1]
    simp only [Option.bind_some, W.run, h5, h8]
  obtain ⟨w, h1, h2⟩ := hrun
  have hmem : ∀ (bs : List (List Sample)) (st : SSt), [] ∈ bs → [] ∈ exPlain.chunks bs st := by
    intro bs
    induction bs with
    | nil => intro st h; simp at h
    | cons b bs ih =>
      intro st h
      simp only [SCfg.chunks, List.mem_cons]
      rcases List.mem_cons.mp h with h | h
      · left; rw [← h]; rfl
      · right; exact ih _ h
  exact (h exPlain false true 0 _ w (fun _ => rfl) (.inl rfl) h1 [] (hmem _ _ h2)).1 rfl

end Mdf
