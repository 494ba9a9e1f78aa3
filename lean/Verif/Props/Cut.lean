import Verif.Proof.Cut
import Verif.Props.Block

/-!
# Files that were cut off

C56: what is read of the metadata of a file of which only the first `k` bytes are left.
-/

namespace Mdf

variable {I : Nat → Info}

/-- Block `id` is among the first `k` bytes of the file. -/
def Complete (S : FileSt) (k id : Nat) : Prop := S.pos id + S.size id ≤ k

theorem cutBody_complete {S : FileSt} {k id : Nat} (h : Complete S k id) : cutBody I S k id = (S.st id).body := by
  unfold Complete FileSt.size at h
  have e : (S.st id).body.take (k - (S.pos id + (24 + 8 * (S.st id).links.length))) = (S.st id).body :=
    List.take_of_length_le (by omega)
  unfold cutBody
  dsimp only
  split
  · rw [e, show (S.st id).body.length - (k - (S.pos id + (24 + 8 * (S.st id).links.length))) = 0 by omega]
    simp
  · exact e

/-- C56: exactly what is read of a cut file: an exception if the header of one of the blocks, or its values if they are numbers, is not
there; otherwise all blocks, with the values that are there, and texts filled up with the character 0xFF. -/
theorem C56_cut_exact {Sc : Schema} {S : FileSt} {n : Node} (h : Session I S n) (hfit : NodeFits I Sc n)
    (hsize : S.data.length < 2 ^ 63) (fuel : Nat) (hfuel : n.ids.length ≤ fuel) (k : Nat) :
    ((∀ id ∈ n.ids, Readable I S k id) →
      ∃ next, readNode Sc (S.data.take k) fuel (I n.id).kind (S.pos n.id) = .ok (n.view I (cutBody I S k), next)) ∧
    ((∃ id ∈ n.ids, ¬ Readable I S k id) → readNode Sc (S.data.take k) fuel (I n.id).kind (S.pos n.id) = .throw) := by
  obtain ⟨i1, _, _, i4, i5, _⟩ := h.ok
  have key := readNode_cut (Sc := Sc) i1 hsize k n fuel false hfuel i4 i5 hfit
  constructor
  · intro hr
    exact ⟨_, key.trans (cutRes_pos hr)⟩
  · intro ⟨id, hid, hn⟩
    exact key.trans (cutRes_neg fun hr => hn (hr id hid))

/-- C56: reading the metadata of a cut file ends. -/
theorem C56_ends {Sc : Schema} {S : FileSt} {n : Node} (h : Session I S n) (hfit : NodeFits I Sc n)
    (hsize : S.data.length < 2 ^ 63) (fuel : Nat) (hfuel : n.ids.length ≤ fuel) (k : Nat) :
    readNode Sc (S.data.take k) fuel (I n.id).kind (S.pos n.id) ≠ .hang := by
  obtain ⟨h1, h2⟩ := C56_cut_exact (Sc := Sc) h hfit hsize fuel hfuel k
  by_cases hr : ∀ id ∈ n.ids, Readable I S k id
  · obtain ⟨next, e⟩ := h1 hr
    rw [e]
    exact nofun
  · rw [h2 (by
      rcases Classical.em (∃ id ∈ n.ids, ¬ Readable I S k id) with hx | hx
      · exact hx
      · exact absurd (fun id hid => Classical.byContradiction fun hc => hx ⟨id, hid, hc⟩) hr)]
    exact nofun

/-- C56: a file that is cut behind its last block is read as before, and so is one of which only sample data is missing. -/
theorem C56_only_data_missing {Sc : Schema} {S : FileSt} {n : Node} (h : Session I S n) (hfit : NodeFits I Sc n)
    (hsize : S.data.length < 2 ^ 63) (fuel : Nat) (hfuel : n.ids.length ≤ fuel) (k : Nat)
    (hk : ∀ id ∈ n.ids, Complete S k id ∨
      ((I id).kind = kDt ∧ S.pos id + (24 + 8 * (S.st id).links.length) ≤ k)) :
    ∃ b next, readNode Sc (S.data.take k) fuel (I n.id).kind (S.pos n.id) = .ok (n.view I b, next) ∧
      ∀ id ∈ n.ids, (I id).kind ≠ kDt → b id = S.bodies id := by
  obtain ⟨next, e⟩ := (C56_cut_exact (Sc := Sc) h hfit hsize fuel hfuel k).1 (by
    intro id hid
    rcases hk id hid with hc | ⟨h1, h2⟩
    · unfold Complete at hc
      exact ⟨by unfold FileSt.size at hc; omega, fun _ => hc⟩
    · exact ⟨h2, by rw [h1]; exact nofun⟩)
  refine ⟨_, next, e, fun id hid hne => ?_⟩
  rcases hk id hid with hc | ⟨h1, _⟩
  · exact cutBody_complete hc
  · exact absurd h1 hne

/-- The metadata of a cut file are those of the whole file, or an exception is thrown. -/
def C56_Statement : Prop := ∀ (I : Nat → Info) (Sc : Schema) (S : FileSt) (n : Node), Session I S n → NodeFits I Sc n →
  S.data.length < 2 ^ 63 → ∀ fuel, n.ids.length ≤ fuel → ∀ k,
  readNode Sc (S.data.take k) fuel (I n.id).kind (S.pos n.id) = .throw ∨
  ∃ b next, readNode Sc (S.data.take k) fuel (I n.id).kind (S.pos n.id) = .ok (n.view I b, next) ∧
    ∀ id ∈ n.ids, (I id).kind ≠ kDt → b id = S.bodies id

/-- C56: it is so unless the file is cut within a text. -/
theorem C56_cut_partial {Sc : Schema} {S : FileSt} {n : Node} (h : Session I S n) (hfit : NodeFits I Sc n)
    (hsize : S.data.length < 2 ^ 63) (fuel : Nat) (hfuel : n.ids.length ≤ fuel) (k : Nat)
    (htx : ∀ id ∈ n.ids, (I id).kind = kTx → Complete S k id ∨ k < S.pos id + (24 + 8 * (S.st id).links.length)) :
    readNode Sc (S.data.take k) fuel (I n.id).kind (S.pos n.id) = .throw ∨
    ∃ b next, readNode Sc (S.data.take k) fuel (I n.id).kind (S.pos n.id) = .ok (n.view I b, next) ∧
      ∀ id ∈ n.ids, (I id).kind ≠ kDt → b id = S.bodies id := by
  obtain ⟨h1, h2⟩ := C56_cut_exact (Sc := Sc) h hfit hsize fuel hfuel k
  by_cases hx : ∃ id ∈ n.ids, ¬ Readable I S k id
  · exact Or.inl (h2 hx)
  · have hr : ∀ id ∈ n.ids, Readable I S k id := fun id hid => Classical.byContradiction fun hc => hx ⟨id, hid, hc⟩
    right
    refine C56_only_data_missing h hfit hsize fuel hfuel k fun id hid => ?_
    obtain ⟨r1, r2⟩ := hr id hid
    by_cases hd : (I id).kind = kDt
    · exact Or.inr ⟨hd, r1⟩
    · left
      by_cases ht : (I id).kind = kTx
      · rcases htx id hid ht with hc | hc
        · exact hc
        · omega
      · refine r2 ?_
        unfold bodyMode
        rw [if_neg (show ¬ (I id).kind = 9 from ht), if_neg (show ¬ (I id).kind = 10 from hd)]

/-- A text that was cut: the text is "ab" in the file but it is read as 'a', 0xFF. -/
def exCutI : Nat → Info := fun _ => ⟨kTx, exTy 0x54 0x58, 0, [], []⟩
def exCutFile : FileSt := ⟨List.replicate 64 0x20#8, fun _ => ⟨0, 0, [], [0x61, 0x62, 0]⟩, false⟩
def exCutTree : Node := .mk 1 .nil .nil

theorem exCut_session : Session exCutI (writeNode exCutI exCutFile exCutTree) exCutTree :=
  .first ⟨fun _ h => absurd h (by show ¬ (0 : Nat) < 0; decide), fun _ _ _ h => absurd h (by show ¬ (0 : Nat) < 0; decide)⟩
    (by decide) rfl (by simp [exCutTree, NodeFresh, SlotsFresh, FileSt.pos, exCutFile])
    ⟨show TypeOk (exTy 0x54 0x58) from ⟨by decide, by decide, by decide, by decide⟩, nofun, by decide,
      by simp [Slots.indices], nofun, trivial, trivial⟩
    (by decide)

/-- C56: false of the code: a file that was cut within a text is read with a wrong text. -/
theorem C56_cut_text : ¬ C56_Statement := by
  intro h
  have hpos : (writeNode exCutI exCutFile exCutTree).pos 1 = 64 := by decide +kernel
  have key := h exCutI (fun _ => []) _ exCutTree exCut_session ⟨rfl, trivial, trivial⟩ (by decide +kernel) 1 (by decide) 89
  have e : ∃ ls, readNode (fun _ => []) ((writeNode exCutI exCutFile exCutTree).data.take 89) 1 kTx 64 =
      .ok (.mk (exTy 0x54 0x58) [0x61, 0xFF, 0xFF] [], ls) := by
    refine ⟨0, ?_⟩
    have hh : readHeader ((writeNode exCutI exCutFile exCutTree).data.take 89) 64 = some (⟨exTy 0x54 0x58, 27, []⟩, [0x61]) := by
      decide +kernel
    simp only [readNode, hh, FinRes.ofOption, FinRes.bind, readBody, bodyMode, kTx, if_true]
    rfl
  obtain ⟨ls, e⟩ := e
  have hp : (writeNode exCutI exCutFile exCutTree).pos exCutTree.id = 64 := hpos
  have hk : (exCutI exCutTree.id).kind = kTx := rfl
  rw [hp, hk, e] at key
  rcases key with key | ⟨b, next, k1, k2⟩
  · exact nomatch key
  · have k3 := k2 1 (by decide) (by decide)
    simp only [FinRes.ok.injEq, Prod.mk.injEq, exCutTree, Node.view, RTree.mk.injEq] at k1
    have : (writeNode exCutI exCutFile exCutTree).bodies 1 = [0x61, 0x62, 0] := by decide +kernel
    rw [this] at k3
    rw [k3] at k1
    exact absurd k1.1.2.1 (by decide)

/-- Non-vacuity: the tree of Props/Block, cut within the header of the channel group and behind everything. -/
theorem exCut_fits : NodeFits exInfo mdf4Schema exTree1 := by decide +kernel

theorem exCut_inside : ∀ id ∈ exTree1.ids, Complete exWritten exWritten.data.length id := by
  have : ∀ id ∈ exTree1.ids, exWritten.pos id + exWritten.size id ≤ exWritten.data.length := by decide +kernel
  exact this

theorem exCut_header : ∃ id ∈ exTree1.ids, ¬ Readable exInfo exWritten (exWritten.pos 5 + 30) id := ⟨5, by decide, by decide +kernel⟩

example : readNode mdf4Schema (exWritten.data.take (exWritten.pos 5 + 30)) 10 (exInfo exTree1.id).kind (exWritten.pos exTree1.id) =
    .throw := (C56_cut_exact exSession1 exCut_fits (by decide +kernel) 10 (by decide) _).2 exCut_header

example : ∃ b next, readNode mdf4Schema (exWritten.data.take exWritten.data.length) 10 (exInfo exTree1.id).kind
      (exWritten.pos exTree1.id) = .ok (exTree1.view exInfo b, next) ∧ ∀ id ∈ exTree1.ids, (exInfo id).kind ≠ kDt → b id = exWritten.bodies id :=
  C56_only_data_missing exSession1 exCut_fits (by decide +kernel) 10 (by decide) _ fun id hid => Or.inl (exCut_inside id hid)

end Mdf
