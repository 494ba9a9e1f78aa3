import Verif.Model.HdComment
import Verif.Spec.Comment

/-!
# What a user expects of a header comment
-/

namespace Mdf

/-- The text that a call sets in the field `f`. -/
def HcOp.textOf (f : HdField) : HcOp → Option Bytes
  | .text g s => if g = f then some s else none
  | _ => none

/-- The file index that a call sets. -/
def HcOp.indexOf : HcOp → Option (BitVec 64)
  | .fileIndex v => some v
  | _ => none

/-- The time source that a call sets. -/
def HcOp.sourceOf : HcOp → Option MdStr
  | .timeSource s => some s
  | _ => none

/-- The comment that a call sets. -/
def HcOp.commentOf : HcOp → Option MdStr
  | .comment s => some s
  | _ => none

/-- The expression that a call sets for the constant `n`. -/
def HcOp.constOf (n : Bytes) : HcOp → Option Bytes
  | .constant c e => if c.text = n then some e else none
  | _ => none

/-- The comment that a sequence of calls makes. -/
def HdCom.run (ops : List HcOp) : HdCom := ops.foldl HcOp.apply {}

/-- The value that the first call gives. -/
def firstOf {α : Type} (f : HcOp → Option α) (ops : List HcOp) : Option α := ops.findSome? f

/-- The value that the last call gives. -/
def lastOf {α : Type} (f : HcOp → Option α) (ops : List HcOp) : Option α := ops.reverse.findSome? f

/-- The expression of the constant `n`. -/
def HdCom.constant (h : HdCom) (n : Bytes) : Option Bytes := (h.constants.find? fun c => c.1.text == n).map (·.2)

/-- Texts that XML can hold; the names of constants are of one line, without blanks around them. -/
def HcOp.Good : HcOp → Prop
  | .text _ s => PlainText s
  | .fileIndex _ => True
  | .timeSource s => s.Good
  | .constant c e => c.std.Good ∧ PlainLine c.text ∧ trim c.text = c.text ∧ PlainText e
  | .comment s => s.Good

/-- A constant that XML can hold. -/
def GoodConst (c : MdStr × Bytes) : Prop := c.1.std.Good ∧ GoodName c.1.text ∧ PlainText c.2

/-- A header comment that XML can hold. -/
def HdCom.Good (h : HdCom) : Prop :=
  h.com.text.Good ∧ h.com.common.Good ∧ h.com.common.std = {} ∧ h.com.common.name = [] ∧ h.com.common.desc = [] ∧ h.timeSource.Good ∧
  (∀ c ∈ h.constants, GoodConst c) ∧ SortedBy (fun x : MdStr × Bytes => x.1.text) h.constants

/-- What is read of a constant. -/
def constReadBack (c : MdStr × Bytes) : MdStr × Bytes := ({ std := c.1.std.readBack [(kName, c.1.text)], text := c.1.text }, trim c.2)

/-- What is read of a header comment: neither the alternative names nor the formula. -/
def HdCom.readBack (h : HdCom) : HdCom where
  com := { text := h.com.text.readBack [], common := h.com.common.readBack }
  timeSource := if h.timeSource.text = [] then {} else h.timeSource.readBack []
  constants := h.constants.map constReadBack

end Mdf
