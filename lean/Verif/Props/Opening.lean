import Verif.Model.Opening
import Verif.Proof.Opening

/-! Property C97: opening a file ends. -/

namespace Mdf

/-- The property as wanted: reading all blocks below the header block ends for every file, with the blocks or with an exception. -/
def C97_Statement : Prop := ∀ data : Bytes, ∃ steps, readNode mdf4Schema data steps kHd 64 ≠ .hang

/-- C97, proved for files where following the links from the header block never comes back to a position: reading then ends, at a depth and
with lists not longer than the file has bytes; whatever the blocks are and wherever the links lead.  Missing: files with a way back. -/
theorem C97_opening_ends_partial (data : Bytes) (h : NoWayBack mdf4Schema data ⟨kHd, false, 64⟩) (steps : Nat) (hs : data.length < steps) :
    readNode mdf4Schema data steps kHd 64 ≠ .hang := by
  intro hh
  have := no_way_back_bound h (hang_way steps kHd 64 false hh)
  omega

/-- The same for each block of each family of block classes, and thus for MDF 4 files with other classes of blocks. -/
theorem C97_block_ends_partial (Sc : Schema) (data : Bytes) (kind pos : Nat) (h : NoWayBack Sc data ⟨kind, false, pos⟩) (steps : Nat)
    (hs : data.length < steps) : readNode Sc data steps kind pos ≠ .hang := by
  intro hh
  have := no_way_back_bound h (hang_way steps kind pos false hh)
  omega

/-- A header block with a list of two history blocks, the first of them behind the second and with a comment. -/
def twoHistories : Bytes :=
  List.replicate 64 0x20#8 ++ headerBytes [0x23, 0x23, 0x48, 0x44] 72 [0, 192, 0, 0, 0, 0] ++ List.replicate 8 0x20#8 ++
    headerBytes [0x23, 0x23, 0x46, 0x48] 40 [0, 0] ++ List.replicate 8 0x20#8 ++
    headerBytes [0x23, 0x23, 0x46, 0x48] 40 [144, 232] ++ headerBytes [0x23, 0x23, 0x4D, 0x44] 24 []

/-- The blocks in the order in which they are come to. -/
def historyRank (p : Nat) : Nat := if p = 64 then 3 else if p = 192 then 2 else if p = 144 then 1 else 0

theorem noWayBack_of_rank {Sc : Schema} {data : Bytes} (rank : Nat → Nat) (h : ∀ x y, LeadsTo Sc data x y → rank y.pos < rank x.pos)
    (x : Place) : NoWayBack Sc data x := by
  intro way hw
  have key : ∀ (w : List Place) (x : Place), IsWay Sc data (x :: w) → (∀ y ∈ w, rank y.pos < rank x.pos) ∧ ((x :: w).map (·.pos)).Nodup := by
    intro w
    induction w with
    | nil => intro x _; exact ⟨by simp, by simp⟩
    | cons z w ih =>
      intro x hx
      have h1 := h x z hx.1
      obtain ⟨h2, h3⟩ := ih z hx.2
      have h4 : ∀ y ∈ z :: w, rank y.pos < rank x.pos := by
        intro y hy
        rcases List.mem_cons.1 hy with hy | hy
        · rw [hy]; exact h1
        · exact Nat.lt_trans (h2 y hy) h1
      refine ⟨h4, ?_⟩
      rw [List.map_cons, List.nodup_cons]
      refine ⟨?_, h3⟩
      intro hm
      obtain ⟨y, hy, he⟩ := List.mem_map.1 hm
      have := h4 y hy
      rw [he] at this
      omega
  exact (key way x hw).2

theorem twoHistories_links : ∀ p < twoHistories.length, ∀ h, readHeader twoHistories p = some h → ∀ l ∈ h.1.links, validLink l = true →
    historyRank l < historyRank p := by
  have : ∀ p ∈ List.range twoHistories.length,
      ((readHeader twoHistories p).map fun h => h.1.links.all fun l => !validLink l || historyRank l < historyRank p).getD true = true := by
    decide +kernel
  intro p hp h hh l hl hv
  have h1 := this p (List.mem_range.2 hp)
  rw [hh] at h1
  have h2 := (List.all_eq_true.1 h1) l hl
  simpa [hv] using h2

theorem getD_links {links : List Nat} {i : Nat} (h : validLink (links.getD i 0) = true) : links.getD i 0 ∈ links := by
  rw [List.getD_eq_getElem?_getD] at h ⊢
  cases hi : links[i]? with
  | none => rw [hi] at h; cases h
  | some l => exact List.mem_of_getElem? hi

theorem twoHistories_noWayBack : NoWayBack mdf4Schema twoHistories ⟨kHd, false, 64⟩ := by
  refine noWayBack_of_rank historyRank ?_ _
  rintro x y ⟨h, hh, hv, hxy⟩
  refine twoHistories_links x.pos (readHeader_inside hh) h hh y.pos ?_ hv
  rcases hxy with ⟨s, _, rfl⟩ | ⟨_, rfl⟩
  · exact getD_links hv
  · exact getD_links hv

example : NoWayBack mdf4Schema twoHistories ⟨kHd, false, 64⟩ ∧ IsWay mdf4Schema twoHistories [⟨kHd, false, 64⟩, ⟨kFh, true, 192⟩, ⟨kFh, true, 144⟩] ∧
    (readNode mdf4Schema twoHistories 4 kHd 64).map (fun r => match r.1 with | .mk ty _ kids => (ty, kids.map (·.length))) =
      .ok ([0x23, 0x23, 0x48, 0x44], [2, 0, 0, 0, 0, 0]) := by
  refine ⟨twoHistories_noWayBack, ⟨?_, ?_, trivial⟩, by decide +kernel⟩
  · have hh : readHeader twoHistories 64 = some (⟨[0x23, 0x23, 0x48, 0x44], 72, [0, 192, 0, 0, 0, 0]⟩, twoHistories.drop 136) := by decide +kernel
    exact ⟨_, hh, by decide, Or.inl ⟨listSlot 1 kFh .never, by decide, by decide⟩⟩
  · have hh : readHeader twoHistories 192 = some (⟨[0x23, 0x23, 0x46, 0x48], 40, [144, 232]⟩, twoHistories.drop 232) := by decide +kernel
    exact ⟨_, hh, by decide, Or.inr ⟨rfl, by decide⟩⟩

/-- A header block with a list of history blocks, the only one of which leads to itself. -/
def loopFile : Bytes :=
  List.replicate 64 0x20#8 ++ headerBytes [0x23, 0x23, 0x48, 0x44] 72 [0, 136, 0, 0, 0, 0] ++ headerBytes [0x23, 0x23, 0x46, 0x48] 40 [136, 0]

theorem loopFile_list (f fuel : Nat) : readChain (readNode mdf4Schema loopFile f kFh) fuel 136 = .hang := by
  cases f with
  | zero =>
    cases fuel with
    | zero => rfl
    | succ fuel => rfl
  | succ f =>
    have hh : readHeader loopFile 136 = some (⟨[0x23, 0x23, 0x46, 0x48], 40, [136, 0]⟩, []) := by decide +kernel
    have h1 : readNode mdf4Schema loopFile (f + 1) kFh 136 = .ok (.mk [0x23, 0x23, 0x46, 0x48] [] [[]], 136) := by
      rw [readNode_succ mdf4Schema loopFile f kFh 136 hh (by decide) (kids := [[]]) (by rfl)]
      rfl
    induction fuel with
    | zero => rfl
    | succ fuel ih =>
      rw [readChain, if_pos (by decide), h1]
      simp only [FinRes.bind]
      rw [ih]
      rfl

/-- C97 is false: a file of 176 bytes, with a history block that has its own position as the position of the next one, is read without end (each
turn adds a block to the list in memory). -/
theorem C97_loop_false : ¬ C97_Statement := by
  intro h
  obtain ⟨steps, hs⟩ := h loopFile
  apply hs
  cases steps with
  | zero => rfl
  | succ f =>
    have hh : readHeader loopFile 64 = some (⟨[0x23, 0x23, 0x48, 0x44], 72, [0, 136, 0, 0, 0, 0]⟩, loopFile.drop 136) := by decide +kernel
    rw [readNode, hh]
    have hb : ∀ n, n = 0 → readBody (bodyMode kHd) n (loopFile.drop 136) = .ok [] := by
      intro n hn
      subst hn
      decide +kernel
    simp only [FinRes.ofOption, FinRes.bind]
    rw [hb _ (by decide)]
    have hm : mdf4Schema kHd = listSlot 1 kFh .never :: hdSlots.tail := rfl
    rw [hm, readAll]
    simp only []
    rw [if_pos (show (listSlot 1 kFh .never).chain = true from rfl)]
    have := loopFile_list f f
    show FinRes.map _ (FinRes.bind (readChain (readNode mdf4Schema loopFile f kFh) f 136) _) = _
    rw [this]
    rfl

/-- C97 is false also without a way back: where the composition of a channel is neither an array nor a list of channels, the loop over it does not move on.
MDF 4.2 and 4.3 have such compositions: data streams `##DS`, lists `##CL`, variants `##CV` and unions `##CU`. -/
theorem C97_composition_false (readCa readCn : Nat → FinRes (RTree × Nat)) (data : Bytes) (link : Nat) (hl : validLink link = true)
    (ha : blockTypeAt data link ≠ [0x43#8, 0x41#8]) (hn : blockTypeAt data link ≠ [0x43#8, 0x4E#8]) (fuel : Nat) :
    readCx readCa readCn data fuel link = .hang := by
  unfold readCx
  rw [if_pos hl]
  induction fuel with
  | zero => rw [readCxLoop, if_pos hl]
  | succ fuel ih => rw [readCxLoop, if_pos hl, if_neg ha, if_neg hn, ih]

example : blockTypeAt (List.replicate 64 0x20#8 ++ headerBytes [0x23, 0x23, 0x43, 0x55] 24 []) 64 = [0x43#8, 0x55#8] := by decide +kernel

/-- C97: a composition of channels is read as a list of channels: with the theorem above its reading ends. -/
theorem C97_composition_channels (readCa readCn : Nat → FinRes (RTree × Nat)) (data : Bytes) (link : Nat)
    (hn : blockTypeAt data link = [0x43#8, 0x4E#8]) (fuel : Nat) : readCx readCa readCn data fuel link = readChain readCn fuel link := by
  have key : ∀ fuel link, readCxLoop readCa readCn [0x43#8, 0x4E#8] fuel link = readChain readCn fuel link := by
    intro fuel
    induction fuel with
    | zero => intro link; rfl
    | succ fuel ih =>
      intro link
      rw [readCxLoop, readChain, if_neg (show ([0x43#8, 0x4E#8] : Bytes) ≠ [0x43#8, 0x41#8] by decide),
        if_pos (show ([0x43#8, 0x4E#8] : Bytes) = [0x43#8, 0x4E#8] from rfl)]
      simp only [ih]
  unfold readCx
  by_cases hv : validLink link = true
  · rw [if_pos hv, hn, key]
  · rw [if_neg hv]
    cases fuel <;> rw [readChain, if_neg hv]

end Mdf
