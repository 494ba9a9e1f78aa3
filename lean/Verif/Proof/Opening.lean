import Verif.Spec.Opening
import Verif.Proof.TreeRead

namespace Mdf

variable {Sc : Schema} {data : Bytes}

/-- There is a way of `n` steps. -/
def WayOf (Sc : Schema) (data : Bytes) (n : Nat) (x : Place) : Prop := ∃ way, way.length = n ∧ IsWay Sc data (x :: way)

theorem wayOf_zero (x : Place) : WayOf Sc data 0 x := ⟨[], rfl, trivial⟩

theorem wayOf_step {n : Nat} {x y : Place} (h : LeadsTo Sc data x y) (hy : WayOf Sc data n y) : WayOf Sc data (n + 1) x := by
  obtain ⟨w, hl, hw⟩ := hy
  exact ⟨y :: w, by simp [hl], h, hw⟩

theorem isWay_take (w : List Place) : ∀ (n : Nat), IsWay Sc data w → IsWay Sc data (w.take n) := by
  induction w with
  | nil => intro n _; simp [IsWay]
  | cons x w ih =>
    intro n h
    cases n with
    | zero => exact trivial
    | succ n =>
      cases w with
      | nil => simp [IsWay]
      | cons y w =>
        cases n with
        | zero => exact trivial
        | succ n => exact ⟨h.1, ih (n + 1) h.2⟩

theorem wayOf_le {m n : Nat} (h : m ≤ n) {x : Place} (hx : WayOf Sc data n x) : WayOf Sc data m x := by
  obtain ⟨w, hl, hw⟩ := hx
  exact ⟨w.take m, by simp; omega, isWay_take (x :: w) (m + 1) hw⟩

theorem readAll_hang (g : Slot → FinRes (List RTree)) (ss : List Slot) (h : readAll g ss = .hang) : ∃ s ∈ ss, g s = .hang := by
  induction ss with
  | nil => cases h
  | cons s ss ih =>
    rw [readAll] at h
    cases hg : g s with
    | throw => rw [hg] at h; cases h
    | hang => exact ⟨s, by simp, hg⟩
    | ok k =>
      rw [hg] at h
      cases hr : readAll g ss with
      | throw => simp only [FinRes.bind] at h; rw [hr] at h; cases h
      | ok r => simp only [FinRes.bind] at h; rw [hr] at h; cases h
      | hang =>
        obtain ⟨s', hs', hh⟩ := ih hr
        exact ⟨s', by simp [hs'], hh⟩

theorem readBody_not_hang (m : BodyMode) (n : Nat) (r : Bytes) : readBody m n r ≠ .hang := by
  unfold readBody
  cases m with
  | values => simp only []; split <;> simp
  | text => simp
  | data => simp

theorem readNode_cases {fuel kind pos : Nat} {v : FinRes (RTree × Nat)} (h : readNode Sc data (fuel + 1) kind pos = v) :
    v = .throw ∨ ∃ hd body, readHeader data pos = some hd ∧
      v = (readAll (readSlot Sc data fuel hd.1.links) (Sc kind)).map fun kids => (.mk hd.1.ty body kids, hd.1.links.getD 0 0) := by
  rw [readNode] at h
  cases hh : readHeader data pos with
  | none => rw [hh] at h; left; rw [← h]; rfl
  | some hd =>
    rw [hh] at h
    simp only [FinRes.ofOption, FinRes.bind] at h
    cases hb : readBody (bodyMode kind) (hd.1.len - (24 + 8 * hd.1.links.length)) hd.2 with
    | throw => rw [hb] at h; left; rw [← h]
    | hang => exact absurd hb (readBody_not_hang _ _ _)
    | ok body =>
      rw [hb] at h
      right
      exact ⟨hd, body, rfl, h.symm⟩

/-- Reading that does not end has come a long way. -/
theorem hang_way : ∀ (fuel kind pos : Nat) (c : Bool), readNode Sc data fuel kind pos = .hang → WayOf Sc data fuel ⟨kind, c, pos⟩ := by
  intro fuel
  induction fuel with
  | zero => intro _ _ _ _; exact wayOf_zero _
  | succ fuel ih =>
    intro kind pos c h
    rcases readNode_cases h with h1 | ⟨hd, body, hh, h1⟩
    · cases h1
    · have hall : readAll (readSlot Sc data fuel hd.1.links) (Sc kind) = .hang := by
        cases hr : readAll (readSlot Sc data fuel hd.1.links) (Sc kind) with
        | throw => rw [hr] at h1; cases h1
        | hang => rfl
        | ok k => rw [hr] at h1; cases h1
      obtain ⟨s, hs, hg⟩ := readAll_hang _ _ hall
      unfold readSlot at hg
      -- the loop over a list
      have chain : ∀ n l, n ≤ fuel → readChain (readNode Sc data fuel s.kind) n l = .hang →
          validLink l = true ∧ WayOf Sc data n ⟨s.kind, true, l⟩ := by
        intro n
        induction n with
        | zero =>
          intro l _ hl
          rw [readChain] at hl
          by_cases hv : validLink l = true
          · exact ⟨hv, wayOf_zero _⟩
          · rw [if_neg hv] at hl; cases hl
        | succ n ihn =>
          intro l hn hl
          rw [readChain] at hl
          by_cases hv : validLink l = true
          · rw [if_pos hv] at hl
            refine ⟨hv, ?_⟩
            cases hr : readNode Sc data fuel s.kind l with
            | throw => rw [hr] at hl; cases hl
            | hang => exact wayOf_le hn (ih s.kind l true hr)
            | ok r =>
              rw [hr] at hl
              simp only [FinRes.bind] at hl
              have hl2 : readChain (readNode Sc data fuel s.kind) n r.2 = .hang := by
                cases hx : readChain (readNode Sc data fuel s.kind) n r.2 with
                | throw => rw [hx] at hl; cases hl
                | hang => rfl
                | ok k => rw [hx] at hl; cases hl
              obtain ⟨hv2, hw2⟩ := ihn r.2 (by omega) hl2
              obtain ⟨f', rfl⟩ : ∃ f', fuel = f' + 1 := ⟨fuel - 1, by omega⟩
              rcases readNode_cases hr with h3 | ⟨hd2, body2, hh2, h3⟩
              · cases h3
              · have hr2 : r.2 = hd2.1.links.getD 0 0 := by
                  cases ha : readAll (readSlot Sc data f' hd2.1.links) (Sc s.kind) with
                  | throw => rw [ha] at h3; cases h3
                  | hang => rw [ha] at h3; cases h3
                  | ok k => rw [ha] at h3; cases h3; rfl
                exact wayOf_step ⟨hd2, hh2, hv2, Or.inr ⟨rfl, by rw [hr2]⟩⟩ hw2
          · rw [if_neg hv] at hl; cases hl
      by_cases hc : s.chain = true
      · rw [if_pos hc] at hg
        obtain ⟨hv, hw⟩ := chain fuel _ (Nat.le_refl _) hg
        exact wayOf_step ⟨hd, hh, hv, Or.inl ⟨s, hs, by rw [hc]⟩⟩ hw
      · rw [if_neg hc] at hg
        unfold readSingle at hg
        by_cases hv : validLink (hd.1.links.getD s.index 0) = true
        · rw [if_pos hv] at hg
          have hr : readNode Sc data fuel s.kind (hd.1.links.getD s.index 0) = .hang := by
            cases hx : readNode Sc data fuel s.kind (hd.1.links.getD s.index 0) with
            | throw => rw [hx] at hg; cases hg
            | hang => rfl
            | ok k => rw [hx] at hg; cases hg
          exact wayOf_step ⟨hd, hh, hv, Or.inl ⟨s, hs, rfl⟩⟩ (ih s.kind _ s.chain hr)
        · rw [if_neg hv] at hg; cases hg

theorem readHeader_inside {pos : Nat} {h : Hdr × Bytes} (hh : readHeader data pos = some h) : pos < data.length := by
  apply Classical.byContradiction
  intro hn
  have hd : data.drop pos = [] := List.drop_eq_nil_of_le (by omega)
  unfold readHeader at hh
  rw [hd] at hh
  have h2 : readNumber 4 (readStr 4 ([] : Bytes)).2 = none := by decide
  simp only [] at hh
  rw [h2] at hh
  cases hh

theorem way_inside (x : Place) (w : List Place) (h : IsWay Sc data (x :: w)) : ∀ y ∈ (x :: w).dropLast, y.pos < data.length := by
  induction w generalizing x with
  | nil => intro y hy; cases hy
  | cons z w ih =>
    intro y hy
    rw [List.dropLast_cons_cons] at hy
    rcases List.mem_cons.1 hy with hy | hy
    · subst hy
      obtain ⟨hd, hh, _⟩ := h.1
      exact readHeader_inside hh
    · exact ih z h.2 y hy

theorem nodup_below (l : List Nat) (n : Nat) (hn : l.Nodup) (hl : ∀ x ∈ l, x < n) : l.length ≤ n := by
  induction n generalizing l with
  | zero =>
    cases l with
    | nil => simp
    | cons x l => exact absurd (hl x (by simp)) (by omega)
  | succ n ih =>
    have h1 := ih (l.erase n) (hn.erase n) (by
      intro x hx
      have := (hn.mem_erase_iff).1 hx
      have := hl x this.2
      omega)
    have h2 := List.le_length_erase (a := n) (l := l)
    omega

theorem no_way_back_bound {x : Place} (h : NoWayBack Sc data x) {n : Nat} (hw : WayOf Sc data n x) : n ≤ data.length := by
  obtain ⟨w, hl, hw⟩ := hw
  have hn := h w hw
  have h1 : (((x :: w).dropLast).map (·.pos)).Nodup := hn.sublist ((List.dropLast_sublist _).map _)
  have := nodup_below _ data.length h1 (by
    intro p hp
    obtain ⟨y, hy, rfl⟩ := List.mem_map.1 hp
    exact way_inside x w hw y hy)
  simpa [hl] using this

end Mdf
