import Verif.Model.CApi

/-! What a C program expects of the functions that fill its memory. -/

namespace Mdf

/-- The memory `m` became `r` by storing `data` at its start: nothing else changed. -/
def StoredAt {α : Type} (m data r : List α) : Prop :=
  r.length = m.length ∧ (∀ i, i < data.length → r[i]? = data[i]?) ∧ ∀ i, data.length ≤ i → r[i]? = m[i]?

/-- The C string at the start of a memory is `s`. -/
def HoldsText (r s : Bytes) : Prop := 0 ∉ s ∧ (∀ i, i < s.length → r[i]? = s[i]?) ∧ r[s.length]? = some 0

/-- The usual way to use a getter of a text: ask for the size with a null pointer, provide a memory with a place more, call again.  The memory holds the
text and the bytes behind are as before. -/
def TextProtocol (f : Option Bytes → Option (CResult Bytes Nat)) (text : Bytes) : Prop :=
  ∃ n, f none = some ⟨none, n⟩ ∧ ∀ m : Bytes, n + 1 ≤ m.length →
    ∃ r, f (some m) = some ⟨some r, n⟩ ∧ HoldsText r text ∧ StoredAt m (text ++ [0]) r

/-- The same of lists, with as many places as there are entries. -/
def ListProtocol {α : Type} (f : Option (List α) → Option (CResult (List α) Nat)) (list : List α) : Prop :=
  ∃ n, f none = some ⟨none, n⟩ ∧ n = list.length ∧ ∀ m : List α, n ≤ m.length → ∃ r, f (some m) = some ⟨some r, n⟩ ∧ StoredAt m list r

/-- A function that is told the size of the memory: it returns the size of the value; if there is room it stores the value; it changes nothing else and is
defined for all memories of at least that size. -/
def SizedProtocol (f : Option Bytes → Nat → Bool → Option CValue) (stored : Bytes) (len : Nat) : Prop :=
  ∀ valid size, (f none size valid = some ⟨none, len, valid⟩) ∧
    ∀ m : Bytes, size ≤ m.length → ∃ r, f (some m) size valid = some ⟨some r, len, valid⟩ ∧
      (stored.length ≤ size → StoredAt m stored r) ∧ (size < stored.length → r = m)

end Mdf
