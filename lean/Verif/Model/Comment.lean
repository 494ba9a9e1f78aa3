import Verif.Model.Xml
import Verif.Model.Time

/-!
# Structured comments

`MdComment` and the classes it is made of: texts with attributes, properties, trees and lists of properties, enumerations, alternative
names and formulas.  A comment is written as an XML text (`ToXml`) and read from one (`FromXml`).  The functions follow
`/repo/mdflib/src/mdcomment.cpp`, `mdlist.cpp`, `mdproperty.cpp`, `mdenumerate.cpp`, `mdstring.cpp`, `mdstandardattribute.cpp`,
`mdalternativename.cpp`, `mdformula.cpp`, `mdsyntax.cpp` and `mdvariable.cpp`.

Simplified: the entries of a `std::map` are kept in a list in the order of their keys, and the key of an entry is the name of the thing
(the `Add...` functions see to this).  Extensions, which are classes of the user, are left out, and so is the offset of a linker name, which
only the comments of channels write.  If reading the attributes of the names or of the formula ends with an exception, the attributes
read before are not kept here.
-/

namespace Mdf

/-- "list" -/
def tList : Bytes := [0x6C#8, 0x69#8, 0x73#8, 0x74#8]
/-- "li" -/
def tLi : Bytes := [0x6C#8, 0x69#8]
/-- "elist" -/
def tElist : Bytes := [0x65#8, 0x6C#8, 0x69#8, 0x73#8, 0x74#8]
/-- "eli" -/
def tEli : Bytes := [0x65#8, 0x6C#8, 0x69#8]
/-- "names" -/
def tNames : Bytes := [0x6E#8, 0x61#8, 0x6D#8, 0x65#8, 0x73#8]
/-- "display" -/
def tDisplay : Bytes := [0x64#8, 0x69#8, 0x73#8, 0x70#8, 0x6C#8, 0x61#8, 0x79#8]
/-- "vendor" -/
def tVendor : Bytes := [0x76#8, 0x65#8, 0x6E#8, 0x64#8, 0x6F#8, 0x72#8]
/-- "description" -/
def tDescription : Bytes := [0x64#8, 0x65#8, 0x73#8, 0x63#8, 0x72#8, 0x69#8, 0x70#8, 0x74#8, 0x69#8, 0x6F#8, 0x6E#8]
/-- "formula" -/
def tFormula : Bytes := [0x66#8, 0x6F#8, 0x72#8, 0x6D#8, 0x75#8, 0x6C#8, 0x61#8]
/-- "syntax" -/
def tSyntax : Bytes := [0x73#8, 0x79#8, 0x6E#8, 0x74#8, 0x61#8, 0x78#8]
/-- "custom_syntax" -/
def tCustomSyntax : Bytes := [0x63#8, 0x75#8, 0x73#8, 0x74#8, 0x6F#8, 0x6D#8, 0x5F#8, 0x73#8, 0x79#8, 0x6E#8, 0x74#8, 0x61#8, 0x78#8]
/-- "variables" -/
def tVariables : Bytes := [0x76#8, 0x61#8, 0x72#8, 0x69#8, 0x61#8, 0x62#8, 0x6C#8, 0x65#8, 0x73#8]
/-- "var" -/
def tVar : Bytes := [0x76#8, 0x61#8, 0x72#8]
/-- "offset" -/
def kOffset : Bytes := [0x6F#8, 0x66#8, 0x66#8, 0x73#8, 0x65#8, 0x74#8]
/-- "version" -/
def kVersion : Bytes := [0x76#8, 0x65#8, 0x72#8, 0x73#8, 0x69#8, 0x6F#8, 0x6E#8]
/-- "source" -/
def kSource : Bytes := [0x73#8, 0x6F#8, 0x75#8, 0x72#8, 0x63#8, 0x65#8]
/-- "cn" -/
def aCn : Bytes := [0x63#8, 0x6E#8]
/-- "cs" -/
def aCs : Bytes := [0x63#8, 0x73#8]
/-- "cp" -/
def aCp : Bytes := [0x63#8, 0x70#8]
/-- "gn" -/
def aGn : Bytes := [0x67#8, 0x6E#8]
/-- "gs" -/
def aGs : Bytes := [0x67#8, 0x73#8]
/-- "gp" -/
def aGp : Bytes := [0x67#8, 0x70#8]
/-- "idx_list_pattern" -/
def kIdxPattern : Bytes := [0x69#8, 0x64#8, 0x78#8, 0x5F#8, 0x6C#8, 0x69#8, 0x73#8, 0x74#8, 0x5F#8, 0x70#8, 0x61#8, 0x74#8, 0x74#8, 0x65#8, 0x72#8, 0x6E#8]
/-- "raw" -/
def kRaw : Bytes := [0x72#8, 0x61#8, 0x77#8]
/-- "decimal" -/
def wDecimal : Bytes := [0x64#8, 0x65#8, 0x63#8, 0x69#8, 0x6D#8, 0x61#8, 0x6C#8]
/-- "float" -/
def wFloat : Bytes := [0x66#8, 0x6C#8, 0x6F#8, 0x61#8, 0x74#8]
/-- "boolean" -/
def wBoolean : Bytes := [0x62#8, 0x6F#8, 0x6F#8, 0x6C#8, 0x65#8, 0x61#8, 0x6E#8]
/-- "date" -/
def wDate : Bytes := [0x64#8, 0x61#8, 0x74#8, 0x65#8]
/-- "time" -/
def wTime : Bytes := [0x74#8, 0x69#8, 0x6D#8, 0x65#8]
/-- "dateTime" -/
def wDateTime : Bytes := [0x64#8, 0x61#8, 0x74#8, 0x65#8, 0x54#8, 0x69#8, 0x6D#8, 0x65#8]
/-- "comment" -/
def tComment : Bytes := [0x63#8, 0x6F#8, 0x6D#8, 0x6D#8, 0x65#8, 0x6E#8, 0x74#8]
/-- "1.0" -/
def wVersion10 : Bytes := [0x31#8, 0x2E#8, 0x30#8]

/-! ## Maps and numbers -/

/-- `operator<` of `std::string`, the order of `std::map<std::string, ..>`. -/
def nameLt : Bytes → Bytes → Bool
  | _, [] => false
  | [], _ :: _ => true
  | a :: s, b :: t => a < b || (a == b && nameLt s t)

/-- `std::map::emplace`: nothing is done if the key is there. -/
def mapInsert {α : Type} (key : α → Bytes) (x : α) : List α → List α
  | [] => [x]
  | y :: ys => if key x = key y then y :: ys else if nameLt (key x) (key y) then x :: y :: ys else y :: mapInsert key x ys

/-- The sign and the rest of a number text; blanks before it are skipped.  What `strtoll` and `strtoull` do at the start. -/
def numSign (s : Bytes) : Bool × Bytes :=
  match lTrim s with
  | c :: t => if c = 0x2D#8 then (true, t) else if c = 0x2B#8 then (false, t) else (false, c :: t)
  | [] => (false, [])

/-- `std::stoll`; `none` is an exception (no digits, or outside of `long long`). -/
def stollText (s : Bytes) : Option Int :=
  let d := (numSign s).2.takeWhile isDig
  let v : Int := if (numSign s).1 then -(digits d : Int) else digits d
  if d = [] then none else if -(2 ^ 63) ≤ v ∧ v < 2 ^ 63 then some v else none

/-- `std::stoull`; a negative number is taken modulo `2 ^ 64`. -/
def stoullText (s : Bytes) : Option Nat :=
  let d := (numSign s).2.takeWhile isDig
  if d = [] then none
  else if digits d < 2 ^ 64 then some (if (numSign s).1 then (2 ^ 64 - digits d) % 2 ^ 64 else digits d) else none

/-! ## Attributes -/

/-- `MdStandardAttribute`: the index of the history entry, the language and further attributes of the user.
`/repo/include/mdf/mdstandardattribute.h` lines 38-40. -/
structure MdStd where
  /-- `ci_`, a `uint64_t` -/
  ci : Nat := 0
  /-- `lang_` -/
  lang : Bytes := []
  /-- `custom_attribute_list_` -/
  custom : List (Bytes × Bytes) := []
deriving DecidableEq, Repr

/-- `AddCustomAttribute`.  mdstandardattribute.cpp lines 52-68. -/
def addCustom (key value : Bytes) (l : List (Bytes × Bytes)) : List (Bytes × Bytes) :=
  if (trim key).isEmpty then l else mapInsert (·.1) (trim key, value) l

/-- `SetAttribute`: `insert` into the map, which does nothing if the key is there.  ixmlnode.h lines 270-275. -/
def setA (as : List (Bytes × Bytes)) (a : Bytes × Bytes) : List (Bytes × Bytes) := if as.any (fun b => b.1 == a.1) then as else as ++ [a]

/-- `SetAttribute` of the values that are not empty, one after the other. -/
def setAll (as cs : List (Bytes × Bytes)) : List (Bytes × Bytes) := cs.foldl (fun as c => if c.2.isEmpty then as else setA as c) as

/-- `MdStandardAttribute::ToXml`.  mdstandardattribute.cpp lines 78-89. -/
def MdStd.write (s : MdStd) (as : List (Bytes × Bytes)) : List (Bytes × Bytes) :=
  s.custom.foldl setA (setAll as [(kCi, if s.ci > 0 then decText s.ci else []), (kLang, s.lang)])

/-- One attribute in `MdStandardAttribute::FromXml`; `none` is an exception: `catch (const std::exception_ptr&)` does not catch the one of
`std::stoll`.  mdstandardattribute.cpp lines 93-105. -/
def MdStd.readAttr (s : MdStd) (a : Bytes × Bytes) : Option MdStd :=
  if a.1 = kCi ∧ a.2 ≠ [] then (stollText a.2).map fun v => { s with ci := (v % 2 ^ 64).toNat }
  else if a.1 = kLang then some { s with lang := a.2 }
  else some { s with custom := addCustom a.1 a.2 s.custom }

/-- `MdStandardAttribute::FromXml`.  mdstandardattribute.cpp lines 91-107. -/
def MdStd.read (s : MdStd) (as : List (Bytes × Bytes)) : Option MdStd := as.foldlM MdStd.readAttr s

/-- `Attribute<std::string>(key, "")`.  ixmlnode.h lines 258-269. -/
def attrText (as : List (Bytes × Bytes)) (key : Bytes) : Bytes := ((as.find? fun a => sameWord a.1 key).map fun a => trim a.2).getD []

/-- `Attribute<bool>(key, false)`.  ixmlnode.h lines 241-256. -/
def attrBool (as : List (Bytes × Bytes)) (key : Bytes) : Bool :=
  ((as.find? fun a => sameWord a.1 key).map fun a => boolText (trim a.2)).getD false

/-! ## Texts -/

/-- `MdString`.  `/repo/include/mdf/mdstring.h` lines 62-63. -/
structure MdStr where
  std : MdStd := {}
  /-- `text_` -/
  text : Bytes := []
  /-- `offset_` -/
  offset : Option Nat := none
deriving DecidableEq, Repr

/-- `MdString::ToXml`: the node that is added, if any.  mdstring.cpp lines 77-89. -/
def MdStr.nodes (s : MdStr) (tag : Bytes) : List XmlTree :=
  if s.text = [] ∧ tag ≠ tTX then [] else [.mk tag (s.std.write []) s.text []]

/-- One attribute in `MdString::FromXml`.  mdstring.cpp lines 94-113. -/
def MdStr.readAttr (s : MdStr) (a : Bytes × Bytes) : MdStr :=
  if a.1 = kCi ∧ a.2 ≠ [] then { s with std := { s.std with ci := (((stollText a.2).getD 0) % 2 ^ 64).toNat } }
  else if a.1 = kLang then { s with std := { s.std with lang := a.2 } }
  else if a.1 = kOffset then { s with offset := stoullText a.2 }
  else { s with std := { s.std with custom := addCustom a.1 a.2 s.std.custom } }

/-- `MdString::FromXml`.  mdstring.cpp lines 93-116. -/
def MdStr.read (s : MdStr) (t : XmlTree) : MdStr := { t.attrs.foldl MdStr.readAttr s with text := trim t.value }

/-! ## Properties -/

/-- `MdDataType`.  `/repo/include/mdf/mdproperty.h` lines 17-27. -/
inductive MdType where
  | string | decimal | integer | float | boolean | date | time | dateTime | hex
deriving DecidableEq, Repr

/-- `kDataTypeList`, `DataTypeToString`.  mdproperty.cpp lines 16-20 and 110-116. -/
def MdType.word : MdType → Bytes
  | .string => wString
  | .decimal => wDecimal
  | .integer => wInteger
  | .float => wFloat
  | .boolean => wBoolean
  | .date => wDate
  | .time => wTime
  | .dateTime => wDateTime
  | .hex => wInteger

/-- `StringToDataType`: the first type with the word.  mdproperty.cpp lines 118-131. -/
def MdType.ofWord (w : Bytes) : MdType :=
  if w = wDecimal then .decimal
  else if w = wInteger then .integer
  else if w = wFloat then .float
  else if w = wBoolean then .boolean
  else if w = wDate then .date
  else if w = wTime then .time
  else if w = wDateTime then .dateTime
  else .string

/-- `MdProperty`.  `/repo/include/mdf/mdproperty.h` lines 66-74. -/
structure MdProp where
  std : MdStd := {}
  name : Bytes := []
  desc : Bytes := []
  unit : Bytes := []
  unitRef : Bytes := []
  type : MdType := .string
  readOnly : Bool := false
  value : Bytes := []
deriving DecidableEq, Repr

/-- The attributes of `MdProperty::ToXml`.  mdproperty.cpp lines 71-99. -/
def MdProp.attrs (p : MdProp) : List (Bytes × Bytes) :=
  p.std.write (setAll [] [(kName, p.name), (kDesc, p.desc), (kType, if p.type = .string then [] else p.type.word), (kUnit, p.unit),
    (kUnitRef, p.unitRef), (kRo, if p.readOnly then wTrue else [])])

/-- `MdProperty::ToXml`, in a node `e`.  mdproperty.cpp lines 71-108. -/
def MdProp.node (p : MdProp) : XmlTree := .mk tE p.attrs p.value []

/-- `MdProperty::FromXml` of a new property without the value.  mdproperty.cpp lines 133-141. -/
def MdProp.readHead (as : List (Bytes × Bytes)) : Option MdProp :=
  (MdStd.read {} as).map fun s =>
    { std := s, name := attrText as kName, desc := attrText as kDesc, type := MdType.ofWord (attrText as kType),
      readOnly := attrBool as kRo, unit := attrText as kUnit, unitRef := attrText as kUnitRef }

/-- `MdProperty::FromXml` of a new property.  mdproperty.cpp lines 133-145. -/
def MdProp.read (t : XmlTree) : Option MdProp := (MdProp.readHead t.attrs).map fun p => { p with value := trim t.value }

/-- `MdEnumerate`, a property with a list of values.  `/repo/include/mdf/mdenumerate.h` lines 18-33. -/
structure MdEnum where
  prop : MdProp := {}
  values : List MdStr := []
deriving DecidableEq, Repr

/-- `MdEnumerate::ToXml` in a node `elist`: the value of the property is not written.  mdenumerate.cpp lines 15-23. -/
def MdEnum.node (e : MdEnum) : XmlTree := .mk tElist e.prop.attrs [] (e.values.flatMap (·.nodes tEli))

/-- `MdEnumerate::FromXml` of a new enumeration.  mdenumerate.cpp lines 25-36. -/
def MdEnum.read (t : XmlTree) : Option MdEnum :=
  (MdProp.readHead t.attrs).map fun p => ⟨p, (t.kids.filter (·.isTagName tEli)).map (MdStr.read {})⟩

/-! ## Trees and lists of properties -/

/-- `MdList`.  `/repo/include/mdf/mdlist.h` lines 60-68. -/
inductive MdTree where
  | mk (std : MdStd) (name desc : Bytes) (props : List MdProp) (trees lists : List MdTree) (enums : List MdEnum)
deriving Repr

namespace MdTree
/-- A new `MdList`. -/
def empty : MdTree := .mk {} [] [] [] [] [] []
/-- the attributes -/
def std : MdTree → MdStd | .mk s _ _ _ _ _ _ => s
/-- `Name()` -/
def name : MdTree → Bytes | .mk _ n _ _ _ _ _ => n
/-- `Description()` -/
def desc : MdTree → Bytes | .mk _ _ d _ _ _ _ => d
/-- `Properties()` -/
def props : MdTree → List MdProp | .mk _ _ _ p _ _ _ => p
/-- `Trees()` -/
def trees : MdTree → List MdTree | .mk _ _ _ _ t _ _ => t
/-- `Lists()` -/
def lists : MdTree → List MdTree | .mk _ _ _ _ _ l _ => l
/-- `Enumerates()` -/
def enums : MdTree → List MdEnum | .mk _ _ _ _ _ _ e => e
/-- Attributes, name and description are set. -/
def setHead (std : MdStd) (name desc : Bytes) : MdTree → MdTree | .mk _ _ _ p t l e => .mk std name desc p t l e
end MdTree

/-- `IsDuplicateName`.  mdlist.cpp lines 73-107. -/
def MdTree.duplicate (t : MdTree) (name : Bytes) : Bool :=
  name.isEmpty || t.props.any (·.name == name) || t.trees.any (·.name == name) || t.lists.any (·.name == name) ||
  t.enums.any (·.prop.name == name)

/-- `AddProperty`.  mdlist.cpp lines 38-43. -/
def MdTree.addProp (x : MdProp) (t : MdTree) : MdTree :=
  if t.duplicate x.name then t
  else match t with
    | .mk s n d p ts l e => .mk s n d (mapInsert (·.name) x p) ts l e

/-- The properties of a tree are added one by one.  mdlist.cpp lines 49-51. -/
def MdTree.addProps (xs : List MdProp) (t : MdTree) : MdTree := xs.foldl (fun t x => t.addProp x) t

/-- The first tree with the name gets the properties.  mdlist.cpp lines 47-52. -/
def mergeTrees (name : Bytes) (xs : List MdProp) : List MdTree → List MdTree
  | [] => []
  | t :: ts => if t.name = name then t.addProps xs :: ts else t :: mergeTrees name xs ts

/-- `AddTree`: of a tree with a known name only the properties are taken.  mdlist.cpp lines 45-55. -/
def MdTree.addTree : MdTree → MdTree → MdTree
  | .mk s n d p ts l e, x =>
    if ts.any (·.name == x.name) then .mk s n d p (mergeTrees x.name x.props ts) l e else .mk s n d p (mapInsert MdTree.name x ts) l e

/-- `AddList`.  mdlist.cpp lines 57-62. -/
def MdTree.addList (t x : MdTree) : MdTree :=
  if t.duplicate x.name then t
  else match t with
    | .mk s n d p ts l e => .mk s n d p ts (mapInsert MdTree.name x l) e

/-- `AddEnumerate`.  mdlist.cpp lines 64-69. -/
def MdTree.addEnum (x : MdEnum) (t : MdTree) : MdTree :=
  if t.duplicate x.prop.name then t
  else match t with
    | .mk s n d p ts l e => .mk s n d p ts l (mapInsert (·.prop.name) x e)

/-- `IsActive`.  mdlist.cpp lines 15-20. -/
def MdTree.isActive (t : MdTree) : Bool :=
  !(t.name.isEmpty && t.desc.isEmpty && t.props.isEmpty && t.trees.isEmpty && t.lists.isEmpty && t.enums.isEmpty)

mutual
/-- The nodes below the node of an `MdList`.  mdlist.cpp lines 250-270. -/
def MdTree.inner : MdTree → List XmlTree
  | .mk _ _ _ props trees lists enums => props.map MdProp.node ++ treeNodes trees ++ listNodes lists ++ enums.map MdEnum.node
/-- The nodes of trees.  mdlist.cpp lines 231-247 and 256-259. -/
def treeNodes : List MdTree → List XmlTree
  | [] => []
  | t :: ts => .mk tTree (t.std.write (setAll [] [(kName, t.name), (kDesc, t.desc)])) [] t.inner :: treeNodes ts
/-- The nodes of lists: the properties are in a node `li`.  mdlist.cpp lines 231-250 and 261-264. -/
def listNodes : List MdTree → List XmlTree
  | [] => []
  | t :: ts =>
    .mk tList (t.std.write (setAll [] [(kName, t.name), (kDesc, t.desc)])) [] [.mk tLi [] [] t.inner] :: listNodes ts
end

mutual
/-- `MdList::FromXml`: the `MdList` after the call, and whether the call ended with an exception.  mdlist.cpp lines 273-280. -/
def MdTree.fromNode (this : MdTree) : XmlTree → MdTree × Bool
  | .mk tag attrs _ kids =>
    if tag = tCommon ∨ tag = tLi then this.fromKids kids
    else
      match this.std.read attrs with
      | none => (this, true)
      | some s => (this.setHead s (attrText attrs kName) (attrText attrs kDesc)).fromKids kids
/-- A new `MdList` for a node `list`.  mdlist.cpp lines 295-307. -/
def listFromNode : XmlTree → MdTree × Bool
  | .mk _ attrs _ kids =>
    match MdStd.read {} attrs with
    | none => (.empty, true)
    | some s => (MdTree.empty.setHead s (attrText attrs kName) (attrText attrs kDesc)).fromItems kids
/-- The loop over the nodes `li`.  mdlist.cpp lines 302-306. -/
def MdTree.fromItems (this : MdTree) : List XmlTree → MdTree × Bool
  | [] => (this, false)
  | t :: ts =>
    if t.isTagName tLi then
      match this.fromNode t with
      | (r, true) => (r, true)
      | (r, false) => r.fromItems ts
    else this.fromItems ts
/-- The loop over the children.  mdlist.cpp lines 281-313. -/
def MdTree.fromKids (this : MdTree) : List XmlTree → MdTree × Bool
  | [] => (this, false)
  | t :: ts =>
    if t.isTagName tE then
      match MdProp.read t with
      | none => (this, true)
      | some p => (this.addProp p).fromKids ts
    else if t.isTagName tTree then
      match MdTree.empty.fromNode t with
      | (_, true) => (this, true)
      | (r, false) => (this.addTree r).fromKids ts
    else if t.isTagName tList then
      match listFromNode t with
      | (_, true) => (this, true)
      | (r, false) => (this.addList r).fromKids ts
    else if t.isTagName tElist then
      match MdEnum.read t with
      | none => (this, true)
      | some e => (this.addEnum e).fromKids ts
    else this.fromKids ts
end

/-! ## Names and formulas -/

/-- `MdAlternativeName`.  `/repo/include/mdf/mdalternativename.h` lines 49-53. -/
structure MdNames where
  std : MdStd := {}
  /-- `default_name_` -/
  default : Bytes := []
  names : List MdStr := []
  display : List MdStr := []
  vendor : List MdStr := []
  description : List MdStr := []
deriving DecidableEq, Repr

/-- `IsActive`.  mdalternativename.cpp lines 15-18. -/
def MdNames.isActive (n : MdNames) : Bool := !(n.names.isEmpty && n.display.isEmpty && n.vendor.isEmpty && n.description.isEmpty)

/-- `MdAlternativeName::ToXml` in a node `names`.  mdalternativename.cpp lines 95-117, mdcomment.cpp lines 151-156. -/
def MdNames.node (n : MdNames) : XmlTree :=
  .mk tNames (setAll (n.std.write []) [(kName, n.default)]) []
    (n.names.flatMap (·.nodes kName) ++ n.display.flatMap (·.nodes tDisplay) ++ n.vendor.flatMap (·.nodes tVendor) ++
     n.description.flatMap (·.nodes tDescription))

/-- A child in `MdAlternativeName::FromXml`: names, display names and vendors without text are not taken.  mdalternativename.cpp lines
32-62 and 129-147. -/
def MdNames.readKid (n : MdNames) (t : XmlTree) : MdNames :=
  if t.isTagName kName then (if (MdStr.read {} t).text = [] then n else { n with names := n.names ++ [MdStr.read {} t] })
  else if t.isTagName tDisplay then (if (MdStr.read {} t).text = [] then n else { n with display := n.display ++ [MdStr.read {} t] })
  else if t.isTagName tVendor then (if (MdStr.read {} t).text = [] then n else { n with vendor := n.vendor ++ [MdStr.read {} t] })
  else if t.isTagName tDescription then { n with description := n.description ++ [MdStr.read {} t] }
  else n

/-- `MdAlternativeName::FromXml`.  mdalternativename.cpp lines 119-149. -/
def MdNames.read (n : MdNames) (t : XmlTree) : Option MdNames :=
  (n.std.read t.attrs).map fun s => t.kids.foldl MdNames.readKid { n with std := s, default := attrText t.attrs kName }

/-- `MdSyntax`.  `/repo/include/mdf/mdsyntax.h` lines 31-32. -/
structure MdSyn where
  str : MdStr := {}
  version : Bytes := wVersion10
  source : Bytes := []
deriving DecidableEq, Repr

/-- `MdSyntax::ToXml`.  mdsyntax.cpp lines 38-52. -/
def MdSyn.node (s : MdSyn) (tag : Bytes) : XmlTree :=
  .mk tag (s.str.std.write (setAll [] [(kVersion, s.version), (kSource, if tag = tCustomSyntax then s.source else [])])) s.str.text []

/-- `MdSyntax::FromXml`.  mdsyntax.cpp lines 54-59. -/
def MdSyn.read (s : MdSyn) (t : XmlTree) : MdSyn := ⟨s.str.read t, attrText t.attrs kVersion, attrText t.attrs kSource⟩

/-- `MdVariable`.  `/repo/include/mdf/mdvariable.h` lines 55-64. -/
structure MdVar where
  str : MdStr := {}
  cn : Bytes := []
  cs : Bytes := []
  cp : Bytes := []
  gn : Bytes := []
  gs : Bytes := []
  gp : Bytes := []
  indexes : List Nat := []
  raw : Bool := false
deriving DecidableEq, Repr

/-- The text of the indexes, with blanks between them.  mdvariable.cpp lines 106-114. -/
def indexText : List Nat → Bytes
  | [] => []
  | [i] => decText i
  | i :: j :: is => decText i ++ 0x20#8 :: indexText (j :: is)

/-- `MdVariable::ToXml`.  mdvariable.cpp lines 84-124. -/
def MdVar.node (v : MdVar) : XmlTree :=
  .mk tVar (v.str.std.write (setAll [] [(aCn, v.cn), (aCs, v.cs), (aCp, v.cp), (aGn, v.gn), (aGs, v.gs), (aGp, v.gp),
    (kIdxPattern, indexText v.indexes), (kRaw, if v.raw then wTrue else [])])) v.str.text []

/-- `MdVariable::FromXml` of a new variable.  The loop over the text of the attribute `idx` never collects a character, so that there are
never any indexes.  mdvariable.cpp lines 126-153. -/
def MdVar.read (t : XmlTree) : MdVar where
  str := MdStr.read {} t
  cn := attrText t.attrs aCn
  cs := attrText t.attrs aCs
  cp := attrText t.attrs aCp
  gn := attrText t.attrs aGn
  gs := attrText t.attrs aGs
  gp := attrText t.attrs aGp
  indexes := []
  raw := attrBool t.attrs kRaw

/-- `MdFormula`.  `/repo/include/mdf/mdformula.h` lines 35-37. -/
structure MdForm where
  std : MdStd := {}
  syntax_ : MdSyn := {}
  customs : List MdSyn := []
  vars : List MdVar := []
deriving DecidableEq, Repr

/-- `AddCustomSyntax`.  mdformula.cpp lines 26-42. -/
def MdForm.addCustom (f : MdForm) (s : MdSyn) : MdForm :=
  if s.str.text = [] then f else { f with customs := mapInsert (·.str.text) s f.customs }

/-- `AddVariable`.  mdformula.cpp lines 52-67. -/
def MdForm.addVar (f : MdForm) (v : MdVar) : MdForm :=
  if v.str.text = [] then f else { f with vars := mapInsert (·.str.text) v f.vars }

/-- `MdFormula::ToXml` in a node `formula`.  mdformula.cpp lines 77-92, mdcomment.cpp lines 144-149. -/
def MdForm.node (f : MdForm) : XmlTree :=
  .mk tFormula (f.std.write []) []
    (f.syntax_.node tSyntax :: f.customs.map (·.node tCustomSyntax) ++ if f.vars = [] then [] else [.mk tVariables [] [] (f.vars.map MdVar.node)])

/-- A child in `MdFormula::FromXml`.  mdformula.cpp lines 98-118. -/
def MdForm.readKid (f : MdForm) (t : XmlTree) : MdForm :=
  if t.isTagName tSyntax then { f with syntax_ := f.syntax_.read t }
  else if t.isTagName tCustomSyntax then f.addCustom (MdSyn.read {} t)
  else if t.isTagName tVariables then (t.kids.filter (·.isTagName tVar)).foldl (fun f v => f.addVar (MdVar.read v)) f
  else f

/-- `MdFormula::FromXml`.  mdformula.cpp lines 94-119. -/
def MdForm.read (f : MdForm) (t : XmlTree) : Option MdForm :=
  (f.std.read t.attrs).map fun s => t.kids.foldl MdForm.readKid { f with std := s }

/-! ## The comment -/

/-- `MdComment`.  `/repo/include/mdf/mdcomment.h` lines 74-80. -/
structure MdCom where
  /-- `comment_` -/
  text : MdStr := {}
  /-- `common_property_` -/
  common : MdTree := .empty
  /-- `alternative_name_` -/
  names : MdNames := {}
  /-- `formula_` -/
  formula : MdForm := {}
deriving Repr

/-- The root node.  `block` is the name of the block, as `CN`.  mdcomment.cpp lines 113-124 and 130-165. -/
def MdCom.node (c : MdCom) (block : Bytes) : XmlTree :=
  .mk (trim (block ++ tComment)) [] []
    (c.text.nodes tTX ++ (if c.names.isActive then [c.names.node] else []) ++ (if c.formula.syntax_.str.text = [] then [] else [c.formula.node]) ++
     if c.common.isActive then [.mk tCommon [] [] c.common.inner] else [])

/-- `MdComment::ToXml`.  mdcomment.cpp lines 214-226. -/
def MdCom.toXml (c : MdCom) (block : Bytes) : Bytes := (c.node block).text

/-- The loop over the children; an exception (`true`) ends it.  mdcomment.cpp lines 180-212. -/
def MdCom.fromKids (c : MdCom) : List XmlTree → MdCom × Bool
  | [] => (c, false)
  | t :: ts =>
    if t.isTagName tTX then { c with text := c.text.read t }.fromKids ts
    else if t.isTagName tCommon then
      match c.common.fromNode t with
      | (r, true) => ({ c with common := r }, true)
      | (r, false) => { c with common := r }.fromKids ts
    else if t.isTagName tFormula then
      match c.formula.read t with
      | none => (c, true)
      | some f => { c with formula := f }.fromKids ts
    else if t.isTagName tNames then
      match c.names.read t with
      | none => (c, true)
      | some n => { c with names := n }.fromKids ts
    else c.fromKids ts

/-- `MdComment::FromXml`: a text that does not start with `<` is taken as the comment.  mdcomment.cpp lines 228-255. -/
def MdCom.fromXml (c : MdCom) (snippet : Bytes) : MdCom :=
  match snippet with
  | [] => c
  | b :: _ =>
    if b ≠ 0x3C#8 then { c with text := { text := snippet } }
    else
      match xmlParse snippet with
      | none => c
      | some t => (c.fromKids t.kids).1

end Mdf
