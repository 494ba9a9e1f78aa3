import Verif.Model.HoComment
import Verif.Spec.CommentKinds
import Verif.Spec.HdComment

/-!
# What a user expects of computation methods and unit specifications
-/

namespace Mdf

/-- Two lists of the same length whose elements are related one by one. -/
def AllRel {α β : Type} (R : α → β → Prop) : List α → List β → Prop
  | [], [] => True
  | a :: l, b :: m => R a b ∧ AllRel R l m
  | _, _ => False

/-- Both present and related, or both absent. -/
def OptRel {α β : Type} (R : α → β → Prop) : Option α → Option β → Prop
  | none, none => True
  | some a, some b => R a b
  | _, _ => False

/-! ## What XML can hold -/

/-- Names that XML can hold. -/
def HoNames.Good (n : HoNames) : Prop := PlainText n.short ∧ (∀ s ∈ n.long, s.Good) ∧ ∀ s ∈ n.desc, s.Good

/-- A computation that XML can hold. -/
def HoScale.Good (s : HoScale) : Prop := (∀ d ∈ s.desc, d.Good) ∧ (∀ t ∈ s.constText, PlainText t) ∧ PlainText s.math

/-- A method that XML can hold. -/
def HoMethod.Good (m : HoMethod) : Prop :=
  m.names.Good ∧ PlainLine m.unitRef ∧ (∀ s ∈ m.scales, s.Good) ∧ ∀ t ∈ m.defText, PlainText t

/-- A conversion comment that XML can hold. -/
def CcCom.Good (c : CcCom) : Prop := c.com.Good ∧ c.method.Good

/-- A unit that XML can hold; its identity is a name. -/
def HoUnit.Good (u : HoUnit) : Prop := u.names.Good ∧ GoodName u.id ∧ PlainText u.display ∧ PlainText u.dimRef

/-- A dimension that XML can hold; its identity is a name. -/
def HoDim.Good (d : HoDim) : Prop := d.names.Good ∧ GoodName d.id

/-- A unit group that XML can hold: its short name is a name, its references are texts of one line, without blanks around them. -/
def HoGroup.Good (g : HoGroup) : Prop :=
  g.names.Good ∧ GoodName g.names.short ∧ SortedBy id g.refs ∧ ∀ r ∈ g.refs, trim r = r ∧ PlainLine r

/-- A revision that XML can hold. -/
def HoRev.Good (r : HoRev) : Prop :=
  PlainLine r.member ∧ PlainText r.label ∧ PlainText r.state ∧ PlainText r.date ∧
  (∀ c ∈ r.companies, PlainText c.ref ∧ PlainText c.label ∧ PlainText c.state) ∧ ∀ m ∈ r.mods, PlainText m.change ∧ PlainText m.reason

/-- A unit specification that XML can hold. -/
def HoSpec.Good (s : HoSpec) : Prop :=
  (∀ r ∈ s.revisions, r.Good) ∧ (∀ d ∈ s.dims, d.Good) ∧ (∀ g ∈ s.groups, g.Good) ∧ (∀ u ∈ s.units, u.Good) ∧
  SortedBy HoDim.id s.dims ∧ SortedBy (fun g : HoGroup => g.names.short) s.groups ∧ SortedBy HoUnit.id s.units

/-! ## The same, without blanks around the texts -/

/-- Empty texts are not stored. -/
def trimTexts (l : List MdStr) : List MdStr := (nonEmpty l).map fun s => { std := s.std, text := trim s.text }

/-- Names without blanks around them. -/
def HoNames.trimmed (n : HoNames) : HoNames := { short := trim n.short, long := trimTexts n.long, desc := trimTexts n.desc }

/-- A computation without blanks around its texts. -/
def HoScale.trimmed (s : HoScale) : HoScale := { s with desc := trimTexts s.desc, constText := s.constText.map trim, math := trim s.math }

/-- A method without blanks around its texts. -/
def HoMethod.trimmed (m : HoMethod) : HoMethod :=
  { m with names := m.names.trimmed, unitRef := trim m.unitRef, scales := m.scales.map HoScale.trimmed, defText := m.defText.map trim }

/-- A unit without blanks around its texts. -/
def HoUnit.trimmed (u : HoUnit) : HoUnit := { u with names := u.names.trimmed, display := trim u.display, dimRef := trim u.dimRef }

/-- A dimension without blanks around its texts. -/
def HoDim.trimmed (d : HoDim) : HoDim := { d with names := d.names.trimmed }

/-- A group without blanks around its texts. -/
def HoGroup.trimmed (g : HoGroup) : HoGroup := { g with names := g.names.trimmed }

/-- A company without blanks around its texts. -/
def HoCompany.trimmed (c : HoCompany) : HoCompany := { ref := trim c.ref, label := trim c.label, state := trim c.state }

/-- A modification without blanks around its texts. -/
def HoMod.trimmed (m : HoMod) : HoMod := { change := trim m.change, reason := trim m.reason }

/-- A revision without blanks around its texts. -/
def HoRev.trimmed (r : HoRev) : HoRev where
  member := trim r.member
  label := trim r.label
  state := trim r.state
  date := trim r.date
  companies := r.companies.map HoCompany.trimmed
  mods := r.mods.map HoMod.trimmed

/-- A unit specification without blanks around its texts. -/
def HoSpec.trimmed (s : HoSpec) : HoSpec where
  revisions := s.revisions.map HoRev.trimmed
  dims := s.dims.map HoDim.trimmed
  groups := s.groups.map HoGroup.trimmed
  units := s.units.map HoUnit.trimmed

/-! ## What is kept -/

/-- A number is read as the nearest `double` to the nearest number with six significant digits. -/
def ReadReal (q x : Rat) : Prop := ReadSix (some q) (some x)

/-- A limit with a number is kept, a limit without one is not. -/
def HoLimit.Kept (i r : HoLimit) : Prop := ReadSix i.limit r.limit ∧ r.type = if i.limit = none then .closed else i.type

/-- A constraint is kept. -/
def HoConstr.Kept (c r : HoConstr) : Prop := c.lower.Kept r.lower ∧ c.upper.Kept r.upper ∧ r.valid = c.valid

/-- A constraint with at least one number. -/
def HoConstr.HasLimit (c : HoConstr) : Bool := c.lower.limit ≠ none || c.upper.limit ≠ none

/-- Of a computation everything is kept but the validity. -/
def HoScale.Kept (s r : HoScale) : Prop :=
  r.desc = trimTexts s.desc ∧ s.constr.lower.Kept r.constr.lower ∧ s.constr.upper.Kept r.constr.upper ∧ r.constr.valid = .valid ∧
  ReadSix s.constNum r.constNum ∧ r.constText = s.constText.map trim ∧ AllRel ReadReal s.num r.num ∧ AllRel ReadReal s.den r.den ∧
  r.math = trim s.math

/-- Of a method everything is kept but its names and the constraints without a number. -/
def HoMethod.Kept (m r : HoMethod) : Prop :=
  r.names = {} ∧ r.category = m.category ∧ r.unitRef = trim m.unitRef ∧
  AllRel HoConstr.Kept (m.phys.filter HoConstr.HasLimit) r.phys ∧ AllRel HoConstr.Kept (m.internal.filter HoConstr.HasLimit) r.internal ∧
  AllRel HoScale.Kept m.scales r.scales ∧ ReadSix m.defNum r.defNum ∧ r.defText = m.defText.map trim

/-- A method of which nothing is set but perhaps its category. -/
def HoMethod.Bare (m : HoMethod) : Prop := m = { category := m.category }

/-- Of a unit everything is kept but its names. -/
def HoUnit.Kept (u r : HoUnit) : Prop :=
  r.names = {} ∧ r.id = u.id ∧ r.display = trim u.display ∧ ReadReal u.factor r.factor ∧ ReadReal u.offset r.offset ∧ r.dimRef = trim u.dimRef

/-- Of a dimension everything is kept but its names and two exponents. -/
def HoDim.Kept (d r : HoDim) : Prop :=
  r.names = {} ∧ r.id = d.id ∧ (∀ b, b ≠ .molar → b ≠ .luminous → ReadReal (d.exp b) (r.exp b)) ∧ r.molar = 0 ∧ r.luminous = 0

/-- The calls that make a unit specification. -/
inductive HoOp where
  | revision (r : HoRev)
  | dim (d : HoDim)
  | group (g : HoGroup)
  | unit (u : HoUnit)
deriving DecidableEq, Repr

/-- What a call does. -/
def HoOp.apply (s : HoSpec) : HoOp → HoSpec
  | .revision r => s.addRevision r
  | .dim d => s.addDim d
  | .group g => s.addGroup g
  | .unit u => s.addUnit u

/-- The specification that a sequence of calls makes. -/
def HoSpec.run (ops : List HoOp) : HoSpec := ops.foldl HoOp.apply {}

/-- A call with texts that XML can hold. -/
def HoOp.Good : HoOp → Prop
  | .revision r => r.Good
  | .dim d => d.Good
  | .group g => g.Good
  | .unit u => u.Good

/-- The unit that a call adds. -/
def HoOp.unitOf (k : Bytes) : HoOp → Option HoUnit
  | .unit u => if u.id = k then some u else none
  | _ => none

/-- The dimension that a call adds. -/
def HoOp.dimOf (k : Bytes) : HoOp → Option HoDim
  | .dim d => if d.id = k then some d else none
  | _ => none

/-- The group that a call adds. -/
def HoOp.groupOf (k : Bytes) : HoOp → Option HoGroup
  | .group g => if g.names.short = k then some g else none
  | _ => none

/-- The revision that a call adds. -/
def HoOp.revisionOf : HoOp → Option HoRev
  | .revision r => some r
  | _ => none

end Mdf
