import Verif.Model.Attach
import Verif.Proof.Md5Stream

/-! Lemmas about attachments. -/

namespace Mdf

/-- The blocks are in the file, in order, each linked to the next, the last to none. -/
def AtLinked (free : Nat) : (first : Nat) → List AtObj → Prop
  | first, [] => first = 0
  | first, a :: rest => first = a.pos ∧ 0 < a.pos ∧ a.pos < free ∧ (∀ b ∈ rest, a.pos < b.pos) ∧
      ∃ n, a.next = some n ∧ AtLinked free n rest

theorem AtLinked.mono {free free' first : Nat} {objs : List AtObj} (h : AtLinked free first objs) (hf : free ≤ free') :
    AtLinked free' first objs := by
  induction objs generalizing first with
  | nil => exact h
  | cons a rest ih =>
    obtain ⟨h1, h2, h3, h4, n, h5, h6⟩ := h
    exact ⟨h1, h2, by omega, h4, n, h5, ih h6⟩

theorem AtLinked.pos_lt {free first : Nat} {objs : List AtObj} (h : AtLinked free first objs) : ∀ a ∈ objs, 0 < a.pos ∧ a.pos < free := by
  induction objs generalizing first with
  | nil => simp
  | cons a rest ih =>
    obtain ⟨_, h2, h3, _, n, _, h6⟩ := h
    intro b hb
    rw [List.mem_cons] at hb
    obtain rfl | hb := hb
    · exact ⟨h2, h3⟩
    · exact ih h6 b hb

/-- Attachments that are not in the file yet and can be written. -/
def AtFresh (z : Zlib) (fs : FileSys) (a : AtObj) : Prop :=
  a.pos = 0 ∧ a.next = none ∧ (a.vals.prepare z fs a.name).2 = true

/-- Name and values. -/
def AtObj.said (a : AtObj) : Bytes × AtVals := (a.name, a.vals)

/-- Name and values as they are written. -/
def AtObj.ready (z : Zlib) (fs : FileSys) (a : AtObj) : Bytes × AtVals := (a.name, (a.vals.prepare z fs a.name).1)

theorem setNext_said (a : AtObj) (l : Option Nat) : (a.setNext l).said = a.said := by cases l <;> rfl
theorem setNext_pos (a : AtObj) (l : Option Nat) : (a.setNext l).pos = a.pos := by cases l <;> rfl
theorem setNext_next (a : AtObj) (l : Option Nat) (n : Nat) (h : a.next = some n) : (a.setNext l).next = some (l.getD n) := by
  cases l with
  | none => exact h
  | some l => rfl

/-- The fresh attachments are written and linked. -/
theorem atPass_fresh (z : Zlib) (fs : FileSys) (new : List AtObj) : ∀ (free : Nat) (prev : Option (Option Nat)), 0 < free →
    prev ≠ some none → (∀ a ∈ new, AtFresh z fs a) →
    let r := atPass z fs free prev new
    r.thrown = false ∧ free ≤ r.free ∧ AtLinked r.free (r.link.getD 0) r.objs ∧ (∀ a ∈ r.objs, free ≤ a.pos) ∧
      r.objs.map AtObj.said = new.map (AtObj.ready z fs) := by
  induction new with
  | nil => intro free prev _ _ _; exact ⟨rfl, Nat.le_refl _, rfl, by simp [atPass], rfl⟩
  | cons a rest ih =>
    intro free prev hf hp hn
    obtain ⟨ha1, ha2, ha3⟩ := hn a (by simp)
    dsimp only
    have hw : a.write z fs free = ({ a with pos := free, next := some 0, vals := (a.vals.prepare z fs a.name).1 },
        free + 96 + (a.vals.prepare z fs a.name).1.data.length) := by
      unfold AtObj.write
      rw [if_neg (by omega)]
      dsimp only
      rw [if_pos ha3, ha2]
      rfl
    obtain ⟨i1, i2, i3, i4, i5⟩ := ih (free + 96 + (a.vals.prepare z fs a.name).1.data.length) (some (some 0)) (by omega)
      (by simp) (fun b hb => hn b (by simp [hb]))
    rw [atPass, if_neg (by omega), hw]
    dsimp only
    rw [if_neg hp]
    refine ⟨i1, by dsimp only; omega, ⟨?_, ?_, ?_, ?_, ?_⟩, ?_, ?_⟩
    · rw [setNext_pos]; rfl
    · rw [setNext_pos]; exact hf
    · rw [setNext_pos]; dsimp only; omega
    · rw [setNext_pos]
      intro b hb
      have := i4 b hb
      dsimp only
      omega
    · exact ⟨_, setNext_next _ _ 0 rfl, i3⟩
    · intro b hb
      rw [List.mem_cons] at hb
      obtain rfl | hb := hb
      · rw [setNext_pos]; exact Nat.le_refl _
      · have := i4 b hb; omega
    · rw [List.map_cons, List.map_cons, i5, setNext_said]
      rfl

/-- Linked attachments, then fresh ones. -/
theorem atPass_linked (z : Zlib) (fs : FileSys) (old new : List AtObj) (free : Nat) : ∀ (prev : Option (Option Nat)) (first : Nat),
    0 < free → AtLinked free first old → prev ≠ some none → (∀ a ∈ new, AtFresh z fs a) →
    let r := atPass z fs free prev (old ++ new)
    r.thrown = false ∧ free ≤ r.free ∧ AtLinked r.free (r.link.getD first) r.objs ∧
      (∀ a ∈ r.objs, free ≤ a.pos ∨ ∃ b ∈ old, a.pos = b.pos) ∧
      r.objs.map AtObj.said = old.map AtObj.said ++ new.map (AtObj.ready z fs) := by
  induction old with
  | nil =>
    intro prev first hf hl hp hn
    obtain ⟨h1, h2, h3, h4, h5⟩ := atPass_fresh z fs new free prev hf hp hn
    have hl : first = 0 := hl
    subst hl
    exact ⟨h1, h2, h3, fun a ha => Or.inl (h4 a ha), h5⟩
  | cons a rest ih =>
    intro prev first hf hl hp hn
    obtain ⟨h1, h2, h3, h4, n, h5, h6⟩ := hl
    obtain ⟨i1, i2, i3, i4, i5⟩ := ih (some a.next) n hf h6 (by rw [h5]; simp) hn
    dsimp only
    rw [List.cons_append, atPass, if_pos h2]
    refine ⟨i1, i2, ⟨?_, ?_, ?_, ?_, ?_⟩, ?_, ?_⟩
    · rw [setNext_pos]; exact h1
    · rw [setNext_pos]; exact h2
    · rw [setNext_pos]; dsimp only; omega
    · intro b hb
      rw [setNext_pos]
      obtain hb' | ⟨c, hc, he⟩ := i4 b hb
      · omega
      · rw [he]; exact h4 c hc
    · exact ⟨_, setNext_next _ _ n h5, i3⟩
    · intro b hb
      rw [List.mem_cons] at hb
      obtain rfl | hb := hb
      · exact Or.inr ⟨a, by simp, setNext_pos _ _⟩
      · obtain hb' | ⟨c, hc, he⟩ := i4 b hb
        · exact Or.inl hb'
        · exact Or.inr ⟨c, by simp [hc], he⟩
    · rw [List.map_cons, i5, setNext_said, List.map_cons, List.cons_append]

theorem find_linked {free first : Nat} {objs : List AtObj} (h : AtLinked free first objs) {a : AtObj} (ha : a ∈ objs) :
    objs.find? (fun b => b.pos == a.pos) = some a := by
  induction objs generalizing first with
  | nil => simp at ha
  | cons b rest ih =>
    obtain ⟨_, _, _, h4, n, _, h6⟩ := h
    rw [List.mem_cons] at ha
    obtain rfl | ha := ha
    · rw [List.find?_cons_of_pos (by simp)]
    · have := h4 a ha
      rw [List.find?_cons_of_neg (by simp; omega)]
      exact ih h6 ha

theorem atFollow_linked {free : Nat} (all : List AtObj) {first0 : Nat} (hall : AtLinked free first0 all) (objs : List AtObj) :
    ∀ (first fuel : Nat), AtLinked free first objs → (∀ a ∈ objs, a ∈ all) → objs.length < fuel → atFollow all fuel first = objs := by
  induction objs with
  | nil =>
    intro first fuel h _ hf
    have h : first = 0 := h
    obtain ⟨f, rfl⟩ : ∃ f, fuel = f + 1 := ⟨fuel - 1, by simp at hf; omega⟩
    rw [atFollow, if_pos h]
  | cons a rest ih =>
    intro first fuel h hm hf
    obtain ⟨h1, h2, _, _, n, h5, h6⟩ := h
    rw [List.length_cons] at hf
    obtain ⟨f, rfl⟩ : ∃ f, fuel = f + 1 := ⟨fuel - 1, by omega⟩
    rw [atFollow, if_neg (by omega), h1, find_linked hall (hm a (by simp))]
    dsimp only
    rw [h5, Option.getD_some, ih n f h6 (fun b hb => hm b (by simp [hb])) (by omega)]

theorem listed_linked (h : AtHead) (hl : AtLinked h.free h.first h.objs) : h.listed = h.objs := by
  unfold AtHead.listed
  rw [List.filter_eq_self.mpr (fun a ha => by simpa using (hl.pos_lt a ha).1)]
  exact atFollow_linked h.objs hl h.objs _ _ hl (fun _ ha => ha) (by omega)

end Mdf
