import Verif.Model.CsvFiles

/-! Which groups of a measurement file shall be exported, and which names make this possible. -/

namespace Mdf

/-- The groups to export: all that hold samples of their own, in the order of the file. -/
def CsvInput.jobs (f : CsvInput) : List CsvGroup := f.groups.flatMap fun dg => dg.filter fun g => g.vlsd = false ∧ 0 < g.nof

/-- A name of letters, digits, `_` and `-`. -/
def PlainFileName (t : Bytes) : Prop :=
  ∀ c ∈ t, (0x30#8 ≤ c ∧ c ≤ 0x39#8) ∨ (0x41#8 ≤ c ∧ c ≤ 0x5A#8) ∨ (0x61#8 ≤ c ∧ c ≤ 0x7A#8) ∨ c = 0x5F#8 ∨ c = 0x2D#8

instance (t : Bytes) : Decidable (PlainFileName t) := by unfold PlainFileName; infer_instance

/-- The names of the groups of a data group: each is empty or plain and does not begin with "CG_"; no two are the same unless they are
empty. -/
structure GoodNames (l : List CsvGroup) : Prop where
  plain : ∀ g ∈ l, PlainFileName g.name
  other : ∀ g ∈ l, ¬ [0x43#8, 0x47#8, 0x5F#8] <+: g.name
  nodup : ((l.map (·.name)).filter (· ≠ [])).Nodup

/-- A text of ASCII characters. -/
def AsciiText (t : Bytes) : Prop := ∀ c ∈ t, c < 0x80#8

instance (t : Bytes) : Decidable (AsciiText t) := by unfold AsciiText; infer_instance

end Mdf
