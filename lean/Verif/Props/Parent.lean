import Verif.Model.Parent

/-!
# Property C127: the parent group that is found for a channel is the group that holds it

False of the code: as long as the blocks are not saved all have the position 0, so the first channel group is found for every channel.
Proved for saved channels; what is found for the others is told exactly.
-/

namespace Mdf

/-! ## What a group holds -/

/-- The block `b` is or has below it, or as a comment of these, the block number `x` at position `p`. -/
inductive HoldsBlock : FBlock → Nat → Int → Prop where
  | self (id : Nat) (pos : Int) (c : Option (Nat × Int)) (kids : List FBlock) : HoldsBlock (.mk id pos c kids) id pos
  | comment (id : Nat) (pos : Int) (c : Nat × Int) (kids : List FBlock) : HoldsBlock (.mk id pos (some c) kids) c.1 c.2
  | kid (id : Nat) (pos : Int) (c : Option (Nat × Int)) (kids : List FBlock) (k : FBlock) (x : Nat) (p : Int) :
      k ∈ kids → HoldsBlock k x p → HoldsBlock (.mk id pos c kids) x p

/-- No two groups of the list hold blocks at the same position of the file (C26). -/
def OwnPlaces (gs : List FBlock) : Prop := ∀ g ∈ gs, ∀ g' ∈ gs, ∀ x y p, 0 < p → HoldsBlock g x p → HoldsBlock g' y p → g = g'

/-- **C127**, as stated: false of the code. -/
def C127_Statement : Prop :=
  ∀ (gs : List FBlock) (g : FBlock) (x : Nat) (p : Int), OwnPlaces gs → g ∈ gs → HoldsBlock g x p → 0 ≤ p →
    parentCg gs p = some g ∧ parentDg gs p = some g

/-! ## Finding -/

mutual
theorem find_holds (i : Int) (b : FBlock) : (∀ x, b.find i = some x → HoldsBlock b x i) ∧ (b.find i = none → ∀ x, ¬ HoldsBlock b x i) := by
  match b with
  | .mk id pos c kids =>
    have ih := findIn_holds i kids
    constructor
    · intro x hx
      rw [FBlock.find] at hx
      cases hk : findIn i kids with
      | some y =>
        rw [hk] at hx
        obtain ⟨k, h1, h2⟩ := ih.1 y hk
        cases hx
        exact .kid _ _ _ _ k _ _ h1 h2
      | none =>
        rw [hk] at hx
        simp only [findSelf] at hx
        by_cases hp : pos = i
        · rw [if_pos hp] at hx
          cases hx
          subst hp
          exact .self _ _ _ _
        · rw [if_neg hp] at hx
          cases c with
          | none => cases hx
          | some c =>
            simp only at hx
            by_cases hc : c.2 = i
            · rw [if_pos hc] at hx
              cases hx
              subst hc
              exact .comment _ _ _ _
            · rw [if_neg hc] at hx
              cases hx
    · intro hn x hx
      rw [FBlock.find] at hn
      cases hk : findIn i kids with
      | some y => rw [hk] at hn; cases hn
      | none =>
        rw [hk] at hn
        simp only [findSelf] at hn
        cases hx with
        | self => simp at hn
        | comment => simp only [if_true] at hn; split at hn <;> cases hn
        | kid _ _ _ _ k _ _ h1 h2 => exact ih.2 hk k h1 x h2

theorem findIn_holds (i : Int) (bs : List FBlock) :
    (∀ x, findIn i bs = some x → ∃ b ∈ bs, HoldsBlock b x i) ∧ (findIn i bs = none → ∀ b ∈ bs, ∀ x, ¬ HoldsBlock b x i) := by
  match bs with
  | [] => exact ⟨fun x h => by simp [findIn] at h, fun _ b hb => by simp at hb⟩
  | b :: bs =>
    have h1 := find_holds i b
    have h2 := findIn_holds i bs
    constructor
    · intro x hx
      rw [findIn] at hx
      cases hb : b.find i with
      | some y =>
        rw [hb] at hx
        cases hx
        exact ⟨b, List.mem_cons_self, h1.1 _ hb⟩
      | none =>
        rw [hb] at hx
        obtain ⟨k, hk, hh⟩ := h2.1 x hx
        exact ⟨k, List.mem_cons_of_mem _ hk, hh⟩
    · intro hn k hk x
      rw [findIn] at hn
      cases hb : b.find i with
      | some y => rw [hb] at hn; cases hn
      | none =>
        rw [hb] at hn
        rcases List.mem_cons.1 hk with rfl | hk
        · exact h1.2 hb x
        · exact h2.2 hn k hk x
end

theorem find_isSome (i : Int) (b : FBlock) : (b.find i).isSome = true ↔ ∃ x, HoldsBlock b x i := by
  constructor
  · intro h
    obtain ⟨x, hx⟩ := Option.isSome_iff_exists.1 h
    exact ⟨x, (find_holds i b).1 x hx⟩
  · rintro ⟨x, hx⟩
    cases h : b.find i with
    | some y => rfl
    | none => exact absurd hx ((find_holds i b).2 h x)

/-- **C127** (what is found).  The first group of the list that holds a block at the position of the channel. -/
theorem C127_first (gs : List FBlock) (g : FBlock) (p : Int) :
    parentCg gs p = some g ↔ ∃ before after, gs = before ++ g :: after ∧ (∃ x, HoldsBlock g x p) ∧ ∀ b ∈ before, ∀ x, ¬ HoldsBlock b x p := by
  unfold parentCg
  rw [List.find?_eq_some_iff_append]
  constructor
  · rintro ⟨h1, as, bs, h2, h3⟩
    refine ⟨as, bs, h2, (find_isSome p g).1 h1, fun b hb x hx => ?_⟩
    have := h3 b hb
    rw [(find_isSome p b).2 ⟨x, hx⟩] at this
    cases this
  · rintro ⟨as, bs, h2, h1, h3⟩
    refine ⟨(find_isSome p g).2 h1, as, bs, h2, fun b hb => ?_⟩
    have : ¬ (b.find p).isSome = true := fun h => by
      obtain ⟨x, hx⟩ := (find_isSome p b).1 h
      exact h3 b hb x hx
    simpa using this

/-- **C127** (nothing found).  A channel of another file, or of another data group, gives no group if no block is at its position. -/
theorem C127_none (gs : List FBlock) (p : Int) : parentCg gs p = none ↔ ∀ g ∈ gs, ∀ x, ¬ HoldsBlock g x p := by
  unfold parentCg
  rw [List.find?_eq_none]
  constructor
  · intro h g hg x hx
    exact h g hg ((find_isSome p g).2 ⟨x, hx⟩)
  · intro h g hg hs
    obtain ⟨x, hx⟩ := (find_isSome p g).1 hs
    exact h g hg x hx

/-- **C127** (saved channels).  The channel group and the data group that hold the channel are found.  Missing: channels that are not
saved. -/
theorem C127_saved_partial (gs : List FBlock) (g : FBlock) (x : Nat) (p : Int) (ho : OwnPlaces gs) (hg : g ∈ gs) (hx : HoldsBlock g x p)
    (hp : 0 < p) : parentCg gs p = some g ∧ parentDg gs p = some g := by
  have h : parentCg gs p = some g := by
    cases h : parentCg gs p with
    | none => exact absurd hx ((C127_none gs p).1 h g hg x)
    | some g' =>
      obtain ⟨as, bs, e, ⟨y, hy⟩, _⟩ := (C127_first gs g' p).1 h
      rw [ho g hg g' (by rw [e]; simp) x y p hp hx hy]
  refine ⟨h, ?_⟩
  rw [parentDg, if_neg (by omega)]
  exact h

/-- Two data groups or channel groups with a channel each, after saving. -/
def exGroups : List FBlock := [.mk 1 100 none [.mk 2 200 (some (3, 300)) []], .mk 4 400 none [.mk 5 500 none []]]

theorem exGroups_own : OwnPlaces exGroups := by
  intro g hg g' hg' x y p hp h h'
  have e1 : ∀ x p, HoldsBlock (.mk 1 100 none [.mk 2 200 (some (3, 300)) []]) x p → p < 400 := by
    intro x p h
    cases h with
    | self => decide
    | kid _ _ _ _ k _ _ hk h =>
      simp only [List.mem_singleton] at hk
      subst hk
      cases h with
      | self => decide
      | comment => decide
      | kid _ _ _ _ k _ _ hk h => simp at hk
  have e2 : ∀ x p, HoldsBlock (.mk 4 400 none [.mk 5 500 none []]) x p → 400 ≤ p := by
    intro x p h
    cases h with
    | self => decide
    | kid _ _ _ _ k _ _ hk h =>
      simp only [List.mem_singleton] at hk
      subst hk
      cases h with
      | self => decide
      | kid _ _ _ _ k _ _ hk h => simp at hk
  simp only [exGroups, List.mem_cons, List.not_mem_nil, or_false] at hg hg'
  rcases hg with rfl | rfl <;> rcases hg' with rfl | rfl
  · rfl
  · have := e1 _ _ h; have := e2 _ _ h'; omega
  · have := e2 _ _ h; have := e1 _ _ h'; omega
  · rfl

example : parentCg exGroups 500 = some (.mk 4 400 none [.mk 5 500 none []]) :=
  (C127_saved_partial exGroups _ 5 500 exGroups_own (by simp [exGroups])
    (.kid _ _ _ _ (.mk 5 500 none []) _ _ (by simp) (.self _ _ _ _)) (by decide)).1

/-- **C127** (unsaved, data group).  For a channel that is not saved no data group is found. -/
theorem C127_unsaved_data_group (dgs : List FBlock) (p : Int) (hp : p ≤ 0) : parentDg dgs p = none := by
  rw [parentDg, if_pos hp]

/-- **C127** (unsaved, channel group).  For a channel that is not saved the first channel group that is not saved either is found, or an
earlier one that holds something that is not saved, whatever group the channel is in. -/
theorem C127_unsaved_first (id : Nat) (c : Option (Nat × Int)) (kids rest : List FBlock) :
    parentCg (.mk id 0 c kids :: rest) 0 = some (.mk id 0 c kids) :=
  (C127_first _ _ 0).2 ⟨[], rest, rfl, ⟨id, .self _ _ _ _⟩, fun b hb => by simp at hb⟩

/-- **C127** (new channels in a saved file).  If only one group holds blocks that are not saved, it is found for a new channel. -/
theorem C127_new_channel (before after : List FBlock) (g : FBlock) (x : Nat) (hx : HoldsBlock g x 0) (hb : ∀ b ∈ before, ∀ y, ¬ HoldsBlock b y 0) :
    parentCg (before ++ g :: after) 0 = some g :=
  (C127_first _ _ 0).2 ⟨before, after, rfl, ⟨x, hx⟩, hb⟩

theorem C127_false : ¬ C127_Statement := by
  intro h
  have ho : OwnPlaces [.mk 1 0 none [.mk 2 0 none []], .mk 3 0 none [.mk 4 0 none []]] := by
    have e : ∀ (a b : Nat) (y : Nat) (q : Int), HoldsBlock (.mk a 0 none [.mk b 0 none []]) y q → q = 0 := by
      intro a b y q h
      cases h with
      | self => rfl
      | kid _ _ _ _ k _ _ hk h =>
        simp only [List.mem_singleton] at hk
        subst hk
        cases h with
        | self => rfl
        | kid _ _ _ _ k _ _ hk h => simp at hk
    intro g hg g' _ x y p hp hx _
    simp only [List.mem_cons, List.not_mem_nil, or_false] at hg
    rcases hg with rfl | rfl
    · have := e _ _ _ _ hx; omega
    · have := e _ _ _ _ hx; omega
  have := (h _ (.mk 3 0 none [.mk 4 0 none []]) 4 0 ho (by simp)
    (.kid _ _ _ _ (.mk 4 0 none []) _ _ (by simp) (.self _ _ _ _)) (by decide)).1
  rw [C127_unsaved_first] at this
  injection this with this
  injection this with h1
  cases h1

end Mdf
