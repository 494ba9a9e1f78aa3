import Verif.Model.Convert
import Mathlib.Algebra.Order.Field.Basic

/-! The conversion rules of the MDF standard for tables. -/

namespace Mdf

/-- The parameters of a table of keys and values. -/
def tablePars {D : Type} (t : List (D × D)) : List (CcPar D) := t.flatMap fun e => [.num e.1, .num e.2]

/-- The keys increase. -/
def SortedTable {D : Type} [LT D] (t : List (D × D)) : Prop := t.Pairwise fun a b => a.1 < b.1

/-- The parameters of a table of ranges with values and a default value. -/
def rangePars {D : Type} (t : List (D × D × D)) (d : D) : List (CcPar D) :=
  (t.flatMap fun e => [.num e.1, .num e.2.1, .num e.2.2]) ++ [.num d]

/-- The parameters of a table of ranges. -/
def keyRangePars {D : Type} (t : List (D × D)) : List (CcPar D) := t.flatMap fun e => [.num e.1, .num e.2]

/-- The ranges of integer channels include both ends, those of float channels exclude the upper end. -/
def Contains {D : Type} [LT D] [LE D] [DecidableLT D] [DecidableLE D] (integer : Bool) (x : D) (r : D × D) : Bool :=
  decide (r.1 ≤ x) && (if integer then decide (x ≤ r.2) else decide (x < r.2))

/-- A channel of integers or of floats (data types 0 to 3, 4 to 5). -/
def KindOf (dataType : Nat) (integer : Bool) : Prop := if integer then dataType ≤ 3 else dataType = 4 ∨ dataType = 5

/-- A reference of a conversion. -/
inductive RefItem (D : Type) where
  | nothing
  | text (s : String)
  | conv (c : Conv D)

/-- What a reference stands for: nothing, a text, or the result of another conversion. -/
def RefItem.meaning {D : Type} [Zero D] [One D] [Add D] [Sub D] [Mul D] [Div D] [LT D] [LE D] [DecidableEq D] [DecidableLT D]
    [DecidableLE D] (ofNat : Nat → D) (fmt : D → Nat → String) (x : D) : RefItem D → Out (Option String)
  | .nothing => .ok (some "")
  | .text s => .ok (some s)
  | .conv c => c.toText ofNat fmt x

/-- The reference list of a conversion. -/
def mkRefs {D : Type} : List (RefItem D) → CcRefs D
  | [] => .nil
  | .nothing :: l => .null (mkRefs l)
  | .text s :: l => .tx s (mkRefs l)
  | .conv c :: l => .cc c (mkRefs l)

end Mdf
