import Verif.Model.Comment
import Verif.Spec.Xml

/-!
# What a user expects of a structured comment

Which comments can be written as XML, and what is read of them.
-/

namespace Mdf

/-- The entries of a map: each key once, in the order of the keys. -/
def SortedBy {α : Type} (key : α → Bytes) (l : List α) : Prop := l.Pairwise fun a b => nameLt (key a) (key b) = true

/-- The names of the attributes that the library itself writes. -/
def reservedKeys : List Bytes :=
  [kName, kDesc, kType, kUnit, kUnitRef, kRo, kCi, kLang, kOffset, kVersion, kSource, aCn, aCs, aCp, aGn, aGs, aGp, kIdxPattern, kRaw]

/-- The attributes of a user: names that XML allows and that are not those of the library (in upper or lower case), and texts of one line.
The index is a number of 63 bits. -/
def MdStd.Good (s : MdStd) : Prop :=
  s.ci < 2 ^ 63 ∧ PlainLine s.lang ∧ SortedBy (·.1) s.custom ∧
  ∀ a ∈ s.custom, XmlName a.1 ∧ PlainLine a.2 ∧ ∀ r ∈ reservedKeys, sameWord a.1 r = false

/-- A text that XML can hold. -/
def MdStr.Good (s : MdStr) : Prop := s.std.Good ∧ PlainText s.text

/-- A name: not empty, of one line, without blanks around it. -/
def GoodName (n : Bytes) : Prop := n ≠ [] ∧ trim n = n ∧ PlainLine n

/-- A property with a name and texts that XML can hold. -/
def MdProp.Good (p : MdProp) : Prop :=
  p.std.Good ∧ GoodName p.name ∧ PlainLine p.desc ∧ PlainLine p.unit ∧ PlainLine p.unitRef ∧ PlainText p.value

/-- An enumeration with a name and texts that XML can hold. -/
def MdEnum.Good (e : MdEnum) : Prop := e.prop.Good ∧ ∀ v ∈ e.values, v.Good

mutual
/-- The contents of a tree or a list: names and texts that XML can hold, in the order of the names, and lists and enumerations have names
that no other entry has. -/
def MdTree.Good : MdTree → Prop
  | .mk std name desc props trees lists enums =>
    std.Good ∧ trim name = name ∧ PlainLine name ∧ PlainLine desc ∧
    (∀ p ∈ props, p.Good) ∧ SortedBy MdProp.name props ∧
    AllTreesGood trees ∧ SortedBy MdTree.name trees ∧
    AllTreesGood lists ∧ SortedBy MdTree.name lists ∧
    (∀ e ∈ enums, e.Good) ∧ SortedBy (·.prop.name) enums ∧
    (∀ l ∈ lists, l.name ≠ [] ∧ (∀ p ∈ props, p.name ≠ l.name) ∧ ∀ t ∈ trees, t.name ≠ l.name) ∧
    ∀ e ∈ enums, (∀ p ∈ props, p.name ≠ e.prop.name) ∧ (∀ t ∈ trees, t.name ≠ e.prop.name) ∧ ∀ l ∈ lists, l.name ≠ e.prop.name
/-- All trees of a list are good. -/
def AllTreesGood : List MdTree → Prop
  | [] => True
  | t :: ts => t.Good ∧ AllTreesGood ts
end

/-- Alternative names with texts that XML can hold. -/
def MdNames.Good (n : MdNames) : Prop :=
  n.std.Good ∧ PlainLine n.default ∧ (∀ s ∈ n.names, s.Good) ∧ (∀ s ∈ n.display, s.Good) ∧ (∀ s ∈ n.vendor, s.Good) ∧
  ∀ s ∈ n.description, s.Good

/-- A formula text with attributes that XML can hold. -/
def MdSyn.Good (s : MdSyn) : Prop := s.str.Good ∧ PlainLine s.version ∧ PlainLine s.source

/-- A variable with attributes that XML can hold. -/
def MdVar.Good (v : MdVar) : Prop :=
  v.str.Good ∧ PlainLine v.cn ∧ PlainLine v.cs ∧ PlainLine v.cp ∧ PlainLine v.gn ∧ PlainLine v.gs ∧ PlainLine v.gp

/-- A formula with texts that XML can hold; the further formulas and the variables are not empty and without blanks around them. -/
def MdForm.Good (f : MdForm) : Prop :=
  f.std.Good ∧ f.syntax_.Good ∧
  (∀ s ∈ f.customs, s.Good ∧ s.str.text ≠ [] ∧ trim s.str.text = s.str.text) ∧ SortedBy (·.str.text) f.customs ∧
  (∀ v ∈ f.vars, v.Good ∧ v.str.text ≠ [] ∧ trim v.str.text = v.str.text) ∧ SortedBy (·.str.text) f.vars

/-- A comment with names and texts that XML can hold.  The common properties have no name and no attributes of their own. -/
def MdCom.Good (c : MdCom) : Prop :=
  c.text.Good ∧ c.names.Good ∧ c.formula.Good ∧ c.common.Good ∧ c.common.std = {} ∧ c.common.name = [] ∧ c.common.desc = []

/-! ## What is read -/

/-- Attributes as a map. -/
def attrMap (as : List (Bytes × Bytes)) : List (Bytes × Bytes) := as.foldl (fun m a => mapInsert (·.1) a m) []

/-- The attributes that have a text. -/
def given (as : List (Bytes × Bytes)) : List (Bytes × Bytes) := as.filter fun a => !a.2.isEmpty

/-- What is read of the attributes of the user: also the attributes `own` that the library wrote. -/
def MdStd.readBack (s : MdStd) (own : List (Bytes × Bytes)) : MdStd := { s with custom := attrMap (given own ++ s.custom) }

/-- What is read of a text. -/
def MdStr.readBack (s : MdStr) (own : List (Bytes × Bytes)) : MdStr := { std := s.std.readBack own, text := trim s.text, offset := none }

/-- The texts that are written: those that are not empty. -/
def nonEmpty (l : List MdStr) : List MdStr := l.filter fun s => !s.text.isEmpty

/-- The type that is read: the word for `hex` is that for `integer`. -/
def MdType.readBack : MdType → MdType
  | .hex => .integer
  | t => t

/-- The attributes the library writes for a property. -/
def MdProp.own (p : MdProp) : List (Bytes × Bytes) :=
  [(kName, p.name), (kDesc, p.desc), (kType, if p.type = .string then [] else p.type.word), (kUnit, p.unit), (kUnitRef, p.unitRef),
   (kRo, if p.readOnly then wTrue else [])]

/-- What is read of a property. -/
def MdProp.readBack (p : MdProp) : MdProp :=
  { std := p.std.readBack p.own, name := p.name, desc := trim p.desc, unit := trim p.unit, unitRef := trim p.unitRef,
    type := p.type.readBack, readOnly := p.readOnly, value := trim p.value }

/-- What is read of an enumeration: not the value, and of the list the texts that are not empty. -/
def MdEnum.readBack (e : MdEnum) : MdEnum :=
  { prop := { e.prop.readBack with value := [] }, values := (nonEmpty e.values).map (·.readBack []) }

mutual
/-- What is read of a tree or a list. -/
def MdTree.readBack : MdTree → MdTree
  | .mk std name desc props trees lists enums =>
    .mk (std.readBack [(kName, name), (kDesc, desc)]) name (trim desc) (props.map MdProp.readBack) (allReadBack trees) (allReadBack lists)
      (enums.map MdEnum.readBack)
/-- What is read of several trees or lists. -/
def allReadBack : List MdTree → List MdTree
  | [] => []
  | t :: ts => t.readBack :: allReadBack ts
end

/-- The texts of which anything but blanks is read. -/
def nonBlank (l : List MdStr) : List MdStr := l.filter fun s => !(trim s.text).isEmpty

/-- What is read of the alternative names: nothing if there is none, and names, display names and vendors only if they are not blank. -/
def MdNames.readBack (n : MdNames) : MdNames :=
  if n.names = [] ∧ n.display = [] ∧ n.vendor = [] ∧ n.description = [] then {}
  else
    { std := { n.std with custom := attrMap (n.std.custom ++ given [(kName, n.default)]) }
      default := trim n.default
      names := (nonBlank n.names).map (·.readBack [])
      display := (nonBlank n.display).map (·.readBack [])
      vendor := (nonBlank n.vendor).map (·.readBack [])
      description := (nonEmpty n.description).map (·.readBack []) }

/-- What is read of a formula text; the source is only written for a further formula (`further`). -/
def MdSyn.readBack (s : MdSyn) (further : Bool) : MdSyn :=
  { str := s.str.readBack [(kVersion, s.version), (kSource, if further then s.source else [])]
    version := trim s.version
    source := if further then trim s.source else [] }

/-- The attributes the library writes for a variable. -/
def MdVar.own (v : MdVar) : List (Bytes × Bytes) :=
  [(aCn, v.cn), (aCs, v.cs), (aCp, v.cp), (aGn, v.gn), (aGs, v.gs), (aGp, v.gp), (kIdxPattern, indexText v.indexes),
   (kRaw, if v.raw then wTrue else [])]

/-- What is read of a variable: not the indexes. -/
def MdVar.readBack (v : MdVar) : MdVar :=
  { str := v.str.readBack v.own, cn := trim v.cn, cs := trim v.cs, cp := trim v.cp, gn := trim v.gn, gs := trim v.gs, gp := trim v.gp,
    indexes := [], raw := v.raw }

/-- What is read of a formula: nothing if its text is empty. -/
def MdForm.readBack (f : MdForm) : MdForm :=
  if f.syntax_.str.text = [] then {}
  else
    { std := f.std.readBack [], syntax_ := f.syntax_.readBack false, customs := f.customs.map (·.readBack true),
      vars := f.vars.map MdVar.readBack }

/-- What is read of a comment. -/
def MdCom.readBack (c : MdCom) : MdCom :=
  { text := c.text.readBack [], common := c.common.readBack, names := c.names.readBack, formula := c.formula.readBack }

/-! ## How the properties come into a comment -/

/-- A call that adds to the common properties. -/
inductive MdOp where
  /-- `AddProperty` -/
  | prop (p : MdProp)
  /-- `AddTree` -/
  | tree (t : MdTree)
  /-- `AddList` -/
  | list (t : MdTree)
  /-- `AddEnumerate` -/
  | enum (e : MdEnum)

/-- The call. -/
def MdOp.apply (t : MdTree) : MdOp → MdTree
  | .prop p => t.addProp p
  | .tree x => t.addTree x
  | .list x => t.addList x
  | .enum e => t.addEnum e

/-- What is added can be written as XML. -/
def MdOp.Good : MdOp → Prop
  | .prop p => p.Good
  | .tree t => t.Good
  | .list t => t.Good
  | .enum e => e.Good

/-- The tree that is added. -/
def MdOp.treeName : MdOp → Option Bytes
  | .tree t => some t.name
  | _ => none

/-- The list or enumeration that is added. -/
def MdOp.listName : MdOp → Option Bytes
  | .list t => some t.name
  | .enum e => some e.prop.name
  | _ => none

end Mdf
