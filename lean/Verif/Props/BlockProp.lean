import Verif.Model.BlockProp
import Verif.Proof.CommentApi

/-!
# Property C130: the link of a property is the link of the block

The file format stores the links of a CH block as: next, first child, name, comment, and three for each element.
-/

namespace Mdf

/-- Where the standard puts a link of a CH block. -/
def ChLabel.place : ChLabel → Nat
  | .next => 0
  | .first => 1
  | .name => 2
  | .comment => 3
  | .dg i => 4 + 3 * i
  | .cg i => 4 + 3 * i + 1
  | .cn i => 4 + 3 * i + 2

/-- **C130**, as stated: false of the code. -/
def C130_Statement : Prop :=
  (∀ v : BitVec 64, propLink .link (linkText v) = v.toInt) ∧
  ∀ links n l t, (l, t) ∈ chLinkProps links n → t = linkText (links.getD l.place 0)

theorem streamHex_go {n : Nat} (h : n < 2 ^ 64) : streamHex (hexGo 16 n) = if 2 ^ 63 ≤ n then 2 ^ 63 - 1 else (n : Int) := by
  have hs : numSign (hexGo 16 n) = (false, hexGo 16 n) := by
    apply numSign_plain
    intro c hc
    obtain ⟨d, hd, rfl⟩ := hexGo_digits 16 n c (List.mem_of_head? hc)
    obtain ⟨_, _, h3, h4, h5⟩ := hexDigitU_cases hd
    exact ⟨h3, h4, h5⟩
  unfold streamHex
  rw [hs]
  simp only [skipHex_go, hexGo_run, hexNumber, Bool.false_eq_true, if_false]
  rw [hexGo_value 16 n (by omega)]

theorem propLink_text (v : BitVec 64) : propLink .link (linkText v) = if 2 ^ 63 ≤ v.toNat then 2 ^ 63 - 1 else (v.toNat : Int) := by
  have hl : 0 < (hexGo 16 v.toNat).length := List.length_pos_iff.mpr (hexGo_ne _ (by decide))
  unfold propLink linkText hexText
  rw [if_neg (by decide), if_neg (by simp only [List.length_cons]; omega)]
  exact streamHex_go v.isLt

/-- **C130** (link).  A link that is a place in a file is given back by its property.  Missing: negative links. -/
theorem C130_link_partial {v : BitVec 64} (h : 0 ≤ v.toInt) : propLink .link (linkText v) = v.toInt := by
  rw [propLink_text]
  rw [BitVec.toInt_eq_toNat_cond] at h ⊢
  have := v.isLt
  split at h <;> rename_i hc
  · rw [if_pos hc, if_neg (by omega)]
  · omega

example : propLink .link (linkText 0x1A0) = 0x1A0 := C130_link_partial (by decide)

/-- **C130** (negative link).  A negative link, which only a damaged file has, is given back as the largest place. -/
theorem C130_negative {v : BitVec 64} (h : v.toInt < 0) : propLink .link (linkText v) = 2 ^ 63 - 1 := by
  rw [propLink_text]
  rw [BitVec.toInt_eq_toNat_cond] at h
  split at h <;> rename_i hc
  · omega
  · rw [if_pos (by omega)]

example : propLink .link (linkText (-1)) = 2 ^ 63 - 1 := C130_negative (by decide)

/-- **C130** (different links).  Different links are shown as different texts, negative ones too. -/
theorem C130_text {v w : BitVec 64} (h : linkText v = linkText w) : v = w := by
  unfold linkText hexText at h
  have h1 : hexGo 16 v.toNat = hexGo 16 w.toNat := by simpa using h
  have h2 := stoullHex_go v.isLt
  rw [h1, stoullHex_go w.isLt] at h2
  exact BitVec.eq_of_toNat_eq (Option.some.inj h2).symm

/-- **C130** (form).  A link is shown as `0x` and hexadecimal digits, at least one; letters are capitals. -/
theorem C130_form (v : BitVec 64) : ∃ d : Bytes, linkText v = 0x30#8 :: 0x78#8 :: d ∧ d ≠ [] ∧ ∀ c ∈ d, ∃ k, k < 16 ∧ c = hexDigitU k :=
  ⟨_, rfl, hexGo_ne _ (by decide), hexGo_digits 16 _⟩

/-- **C130** (other properties).  Properties that are not links have no link, whatever they show. -/
theorem C130_other {t : BlockItem} (h : t ≠ .link) (s : Bytes) : propLink t s = 0 := by
  unfold propLink
  rw [if_pos h]

example : propLink .normal (linkText 0x1A0) = 0 := C130_other (by decide) _

/-- **C130** (empty value).  A link property of at most two characters has no link. -/
theorem C130_short {s : Bytes} (h : s.length ≤ 2) (t : BlockItem) : propLink t s = 0 := by
  unfold propLink
  rw [if_pos h]
  split <;> rfl

example : propLink .link [0x30#8, 0x78#8] = 0 := C130_short (by decide) _

/-- **C130** (CH block).  The links of a CH block shown as next, as comment and as references of the elements are those stored there.  Missing:
the first child and the name, see `C130_ch_wrong`. -/
theorem C130_ch_partial {links : List (BitVec 64)} {n : Nat} {l : ChLabel} {t : Bytes} (hn : 3 * n ≤ 2 ^ 32) (h : (l, t) ∈ chLinkProps links n)
    (h1 : l ≠ .first) (h2 : l ≠ .name) : t = linkText (links.getD l.place 0) := by
  unfold chLinkProps at h
  rw [List.mem_append] at h
  rcases h with h | h
  · simp only [List.mem_cons, Prod.mk.injEq, List.not_mem_nil, or_false] at h
    rcases h with ⟨rfl, rfl⟩ | ⟨rfl, rfl⟩ | ⟨rfl, rfl⟩ | ⟨rfl, rfl⟩
    · rfl
    · exact absurd rfl h1
    · exact absurd rfl h2
    · rfl
  · rw [List.mem_flatMap] at h
    obtain ⟨i, hi, h⟩ := h
    rw [List.mem_range] at hi
    have e : 3 * i % 2 ^ 32 = 3 * i := Nat.mod_eq_of_lt (by omega)
    rw [e] at h
    simp only [List.mem_cons, Prod.mk.injEq, List.not_mem_nil, or_false] at h
    rcases h with ⟨rfl, rfl⟩ | ⟨rfl, rfl⟩ | ⟨rfl, rfl⟩ <;> rfl

example : linkText 0x60 = linkText (List.getD [0, 0x10, 0x20, 0x30, 0x40, 0x50, 0x60] (ChLabel.cn 0).place 0) :=
  C130_ch_partial (n := 1) (by decide) (by decide +kernel) (by decide) (by decide)

/-- **C130** (CH block, all shown).  The labels are next, first, name and comment, and the references of each element, in order. -/
theorem C130_ch_labels (links : List (BitVec 64)) (n : Nat) :
    (chLinkProps links n).map Prod.fst = [.next, .first, .name, .comment] ++ (List.range n).flatMap fun i => [.dg i, .cg i, .cn i] := by
  unfold chLinkProps
  rw [List.map_append, List.map_flatMap]
  rfl

/-- **C130** (CH block, wrong links).  The first child and the name are shown with the link of the next block. -/
theorem C130_ch_wrong {links : List (BitVec 64)} {n : Nat} {l : ChLabel} {t : Bytes} (h : (l, t) ∈ chLinkProps links n)
    (hl : l = .first ∨ l = .name) : t = linkText (links.getD 0 0) := by
  unfold chLinkProps at h
  rw [List.mem_append] at h
  rcases h with h | h
  · simp only [List.mem_cons, Prod.mk.injEq, List.not_mem_nil, or_false] at h
    rcases h with ⟨rfl, rfl⟩ | ⟨rfl, rfl⟩ | ⟨rfl, rfl⟩ | ⟨rfl, rfl⟩
    · rfl
    · rfl
    · rfl
    · simp at hl
  · rw [List.mem_flatMap] at h
    obtain ⟨i, _, h⟩ := h
    simp only [List.mem_cons, Prod.mk.injEq, List.not_mem_nil, or_false] at h
    rcases h with ⟨rfl, rfl⟩ | ⟨rfl, rfl⟩ | ⟨rfl, rfl⟩ <;> simp at hl

example : linkText 0x10 = linkText (List.getD [0x10, 0x20] 0 0) := C130_ch_wrong (l := .first) (n := 0) (by decide +kernel) (Or.inl rfl)

theorem C130_false : ¬ C130_Statement := by
  intro ⟨_, h⟩
  have := h [0, 0x10] 0 .first (linkText 0) (by decide +kernel)
  have := C130_text this
  revert this
  decide

theorem C130_negative_false : ¬ ∀ v : BitVec 64, propLink .link (linkText v) = v.toInt := by
  intro h
  have h1 := h (-1)
  rw [C130_negative (by decide)] at h1
  revert h1
  decide

end Mdf
