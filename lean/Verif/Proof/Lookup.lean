import Verif.Model.CommentApi
import Verif.Spec.Lookup
import Verif.Spec.Comment

/-! # The search by path -/

namespace Mdf

theorem afterSlash_none : ∀ {s : Bytes}, afterSlash s = none → 0x2F#8 ∉ s
  | [], _ => by simp
  | c :: t, h => by
    rw [afterSlash] at h
    split at h
    · cases h
    · rename_i hc
      simp only [List.mem_cons, not_or]
      exact ⟨fun he => hc he.symm, afterSlash_none h⟩

theorem afterSlash_some : ∀ {s rest : Bytes}, afterSlash s = some rest → ∃ pre, s = pre ++ 0x2F#8 :: rest ∧ 0x2F#8 ∉ pre
  | c :: t, rest, h => by
    rw [afterSlash] at h
    split at h
    · rename_i hc
      cases h
      exact ⟨[], by rw [hc]; rfl, by simp⟩
    · rename_i hc
      obtain ⟨pre, rfl, hp⟩ := afterSlash_some h
      exact ⟨c :: pre, rfl, by simp only [List.mem_cons, not_or]; exact ⟨fun he => hc he.symm, hp⟩⟩

theorem slashes_none {s : Bytes} (h : 0x2F#8 ∉ s) : slashes s = 0 := by
  rw [slashes, List.count_eq_zero]
  exact h

theorem slashes_some {pre rest : Bytes} (h : 0x2F#8 ∉ pre) : slashes (pre ++ 0x2F#8 :: rest) = slashes rest + 1 := by
  rw [slashes, List.count_append, List.count_eq_zero.mpr h, List.count_cons]
  simp [slashes]

theorem takeWhile_stop {p : Byte → Bool} : ∀ {l r : Bytes} {c : Byte}, p c = false → (l ++ c :: r).takeWhile p = l.takeWhile p
  | [], r, c, h => by simp [h]
  | a :: l, r, c, h => by
    rw [List.cons_append, List.takeWhile_cons, List.takeWhile_cons, takeWhile_stop h]

theorem lastPart_some {pre rest : Bytes} : lastPart (pre ++ 0x2F#8 :: rest) = lastPart rest := by
  rw [lastPart, lastPart, List.reverse_append, List.reverse_cons, List.append_assoc, List.cons_append, List.nil_append, takeWhile_stop (by simp)]

theorem lastPart_none {s : Bytes} (h : 0x2F#8 ∉ s) : lastPart s = s := by
  have key : ∀ l : Bytes, 0x2F#8 ∉ l → l.takeWhile (· ≠ 0x2F#8) = l := by
    intro l
    induction l with
    | nil => intro _; rfl
    | cons c l ih =>
      intro hl
      simp only [List.mem_cons, not_or] at hl
      rw [List.takeWhile_cons, if_pos (by simpa using fun he => hl.1 he.symm), ih hl.2]
  rw [lastPart, key _ (by simpa using h), List.reverse_reverse]

theorem orElse_find {α : Type} {p : α → Bool} (a b : List α) : ((a.find? p).orElse fun _ => b.find? p) = (a ++ b).find? p := by
  rw [List.find?_append]
  cases a.find? p <;> rfl

mutual
theorem getProp_deep (name : Bytes) : ∀ t : MdTree,
    t.getProp name = (t.deep MdTree.props (slashes name)).find? fun p => p.name == lastPart name
  | .mk s n d props trees lists e => by
    rw [MdTree.getProp, MdTree.deep]
    cases ha : afterSlash name with
    | none =>
      have hn := afterSlash_none ha
      dsimp only
      rw [treesProp_deep name trees, treesProp_deep name lists, slashes_none hn, lastPart_none hn, orElse_find, orElse_find]
      rfl
    | some rest =>
      obtain ⟨pre, rfl, hp⟩ := afterSlash_some ha
      dsimp only
      rw [treesProp_deep rest trees, treesProp_deep rest lists, slashes_some hp, lastPart_some, orElse_find, if_neg (by omega)]
      rfl
theorem treesProp_deep (name : Bytes) : ∀ ts : List MdTree,
    treesProp name ts = (treesDeep MdTree.props (slashes name) ts).find? fun p => p.name == lastPart name
  | [] => rfl
  | t :: ts => by rw [treesProp, treesDeep, getProp_deep name t, treesProp_deep name ts, orElse_find]
end

mutual
theorem getEnum_deep (name : Bytes) : ∀ t : MdTree,
    t.getEnum name = (t.deep MdTree.enums (slashes name)).find? fun e => e.prop.name == lastPart name
  | .mk s n d props trees lists e => by
    rw [MdTree.getEnum, MdTree.deep]
    cases ha : afterSlash name with
    | none =>
      have hn := afterSlash_none ha
      dsimp only
      rw [treesEnum_deep name trees, treesEnum_deep name lists, slashes_none hn, lastPart_none hn, orElse_find, orElse_find]
      rfl
    | some rest =>
      obtain ⟨pre, rfl, hp⟩ := afterSlash_some ha
      dsimp only
      rw [treesEnum_deep rest trees, treesEnum_deep rest lists, slashes_some hp, lastPart_some, orElse_find, if_neg (by omega)]
      rfl
theorem treesEnum_deep (name : Bytes) : ∀ ts : List MdTree,
    treesEnum name ts = (treesDeep MdTree.enums (slashes name) ts).find? fun e => e.prop.name == lastPart name
  | [] => rfl
  | t :: ts => by rw [treesEnum, treesDeep, getEnum_deep name t, treesEnum_deep name ts, orElse_find]
end

/-! ## Paths -/

section
variable {α : Type} {items : MdTree → List α} {key : α → Bytes}

theorem treesDeep_mem {k : Nat} {x : α} : ∀ {ts : List MdTree}, x ∈ treesDeep items k ts ↔ ∃ s ∈ ts, x ∈ s.deep items k
  | [] => by simp [treesDeep]
  | t :: ts => by rw [treesDeep, List.mem_append, treesDeep_mem]; simp

theorem deep_mem {k : Nat} {x : α} (t : MdTree) :
    x ∈ t.deep items k ↔ (k = 0 ∧ x ∈ items t) ∨ (∃ s, (s ∈ t.trees ∨ s ∈ t.lists) ∧ x ∈ s.deep items (k - 1)) := by
  obtain ⟨s, n, d, p, ts, ls, e⟩ := t
  rw [MdTree.deep, List.mem_append, List.mem_append, treesDeep_mem, treesDeep_mem]
  simp only [MdTree.trees, MdTree.lists]
  constructor
  · rintro ((h | ⟨s, h1, h2⟩) | ⟨s, h1, h2⟩)
    · split at h
      · exact .inl ⟨by assumption, h⟩
      · cases h
    · exact .inr ⟨s, .inl h1, h2⟩
    · exact .inr ⟨s, .inr h1, h2⟩
  · rintro (⟨rfl, h⟩ | ⟨s, h1 | h1, h2⟩)
    · exact .inl (.inl (by simpa using h))
    · exact .inl (.inr ⟨s, h1, h2⟩)
    · exact .inr ⟨s, h1, h2⟩

theorem has_deep {t : MdTree} {path : List Bytes} {x : α} (h : MdTree.Has items key t path x) :
    ∀ k, k < path.length → x ∈ t.deep items k := by
  induction h with
  | here hx =>
    intro k hk
    rw [deep_mem]
    simp only [List.length_singleton] at hk
    exact .inl ⟨by omega, hx⟩
  | inside hs _ ih =>
    intro k hk
    rw [deep_mem]
    simp only [List.length_cons] at hk
    rename_i t s path x hp
    have hl : path ≠ [] := by cases hp <;> simp
    have := List.length_pos_iff.mpr hl
    exact .inr ⟨_, hs, ih (k - 1) (by omega)⟩

theorem has_last {t : MdTree} {path : List Bytes} {x : α} (h : MdTree.Has items key t path x) : path.getLast? = some (key x) := by
  induction h with
  | here _ => rfl
  | inside _ hp ih =>
    rw [List.getLast?_cons, ih]
    rfl

theorem size_tree {t s : MdTree} (h : s ∈ t.trees ∨ s ∈ t.lists) : sizeOf s < sizeOf t := by
  obtain ⟨a, n, d, p, ts, ls, e⟩ := t
  simp only [MdTree.trees, MdTree.lists] at h
  rcases h with h | h
  · have := List.sizeOf_lt_of_mem h
    simp only [MdTree.mk.sizeOf_spec]
    omega
  · have := List.sizeOf_lt_of_mem h
    simp only [MdTree.mk.sizeOf_spec]
    omega

theorem deep_has (key : α → Bytes) {x : α} : ∀ (n : Nat) (t : MdTree) (k : Nat), sizeOf t ≤ n → x ∈ t.deep items k →
    ∃ path, k < path.length ∧ MdTree.Has items key t path x
  | 0, t, _, hn, _ => by
    obtain ⟨a, n, d, p, ts, ls, e⟩ := t
    simp only [MdTree.mk.sizeOf_spec] at hn
    omega
  | n + 1, t, k, hn, h => by
    rw [deep_mem] at h
    rcases h with ⟨rfl, h⟩ | ⟨s, hs, h⟩
    · exact ⟨_, by simp, .here h⟩
    · have := size_tree hs
      obtain ⟨path, hp, hh⟩ := deep_has key n s (k - 1) (by omega) h
      exact ⟨_, by simp only [List.length_cons]; omega, .inside hs hh⟩
end

theorem pathText_slashes : ∀ {path : List Bytes}, GoodPath path → slashes (pathText path) = path.length - 1
  | [], _ => rfl
  | [n], h => slashes_none (h n (by simp))
  | n :: m :: rest, h => by
    rw [pathText, slashes_some (h n (by simp)), pathText_slashes (fun x hx => h x (by simp [hx]))]
    simp

theorem pathText_last : ∀ {path : List Bytes}, GoodPath path → lastPart (pathText path) = path.getLast?.getD []
  | [], _ => rfl
  | [n], h => lastPart_none (h n (by simp))
  | n :: m :: rest, h => by
    rw [pathText, lastPart_some, pathText_last (fun x hx => h x (by simp [hx])), List.getLast?_cons_cons]

end Mdf
