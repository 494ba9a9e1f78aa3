import Verif.Model.Vlsd
import Verif.Spec.ReadCache
import Verif.Spec.Channel

/-!
Specification of variable length signal data: a sequence of values, each with the offset of its length field.
-/

namespace Mdf

/-- The signal data of a sequence of values: length (4 bytes) and bytes of each. -/
def sdEncode (vs : List Bytes) : Bytes := vs.flatMap fun v => leBytes 4 v.length ++ v

/-- The values with their offsets, the first one at offset `o`. -/
def callsOf : (o : Nat) → List Bytes → List Call
  | _, [] => []
  | o, v :: vs => ⟨o, v⟩ :: callsOf (o + 4 + v.length) vs

/-- The values of a VLSD group among the records. -/
def valuesOf (sel : Nat) (recs : List Rec) : List Bytes := (recs.filter (·.id = sel)).map (·.data)

end Mdf
