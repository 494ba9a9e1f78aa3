import Verif.Model.Xml

/-!
# What a user expects of metadata

The texts that can be metadata, and what is expected to be read after a series of settings.
-/

namespace Mdf

/-- A text of several lines: no control characters other than tab and line feed. -/
def PlainText (s : Bytes) : Prop := ∀ c ∈ s, 0x20#8 ≤ c ∨ c = 0x09#8 ∨ c = 0x0A#8

/-- A text of one line: no control characters. -/
def PlainLine (s : Bytes) : Prop := ∀ c ∈ s, 0x20#8 ≤ c

/-- A name that XML allows: it starts with a letter, `_` or `:`, then follow letters, digits, `_`, `:`, `-` and `.`. -/
def XmlName (s : Bytes) : Prop := ∃ c r, s = c :: r ∧ isNameStart c = true ∧ ∀ d ∈ r, isNameChar d = true

/-- A name that XML allows, without colon. -/
def PlainName (s : Bytes) : Prop := XmlName s ∧ 0x3A#8 ∉ s

/-- The attributes of a node: names that XML allows, each once, with texts of one line. -/
def GoodAttrs (as : List (Bytes × Bytes)) : Prop := (as.map (·.1)).Nodup ∧ ∀ a ∈ as, XmlName a.1 ∧ PlainLine a.2

mutual
/-- A tree whose names and texts XML allows. -/
def XmlTree.Good : XmlTree → Prop
  | .mk tag attrs value kids => XmlName tag ∧ GoodAttrs attrs ∧ PlainText value ∧ AllGood kids
/-- All trees of a list are good. -/
def AllGood : List XmlTree → Prop
  | [] => True
  | t :: ts => t.Good ∧ AllGood ts
end

/-- The text between the children of a node: a line end and the blanks before each child, and before the end tag. -/
def gaps (level : Nat) (kids : Nat) : Bytes :=
  0x0A#8 :: (List.replicate kids (indent (level + 1) ++ [0x0A#8])).flatten ++ indent level

mutual
/-- A tree as it is read of the written text: a node with children has no text but blanks. -/
def XmlTree.asRead : (level : Nat) → XmlTree → XmlTree
  | level, .mk tag attrs value kids => .mk tag attrs (if kids.isEmpty then value else gaps level kids.length) (allAsRead (level + 1) kids)
/-- The trees of a list as they are read. -/
def allAsRead : (level : Nat) → List XmlTree → List XmlTree
  | _, [] => []
  | level, t :: ts => t.asRead level :: allAsRead level ts
end

/-! ## Common properties as a list -/

/-- A tag with tags below it. -/
def Tag.isTree (t : Tag) : Bool := !t.tree.isEmpty

/-- Two tags are for the same property: both are trees or none is, and the names are the same but for upper and lower case. -/
def sameTag (a b : Tag) : Bool := a.isTree == b.isTree && sameWord a.info.name b.info.name

/-- The text that is kept of an old and a new one: the old one, if there is one. -/
def keepOld (old new : Bytes) : Bytes := if old.isEmpty then new else old

/-- What the library makes of a property without tags below it that is set again: the new value, but the old description, unit, type,
language, creator and read-only mark if there were any. -/
def mergeInfo (old new : TagInfo) : TagInfo :=
  { name := old.name
    desc := keepOld old.desc new.desc
    unit := keepOld old.unit new.unit
    unitRef := keepOld old.unitRef new.unitRef
    type := keepOld old.type new.type
    lang := keepOld old.lang new.lang
    value := new.value
    readOnly := old.readOnly || new.readOnly
    creator := old.creator.or new.creator }

/-- What is kept of a property with tags below it: name, description and creator. -/
def mergeTree (old new : TagInfo) : TagInfo :=
  { name := old.name
    desc := keepOld old.desc new.desc
    creator := old.creator.or new.creator }

/-- The first element with the property `p` is replaced, or else a new one is put at the end. -/
def changeFirst {α : Type} (p : α → Bool) (new : α) (f : α → α) : List α → List α
  | [] => [f new]
  | t :: ts => if p t then f t :: ts else t :: changeFirst p new f ts

mutual
/-- A property is added to a list of properties, or merged with the one of the same name. -/
def addTag : Tag → List Tag → List Tag
  | .mk i tree, ts =>
    if tree.isEmpty then
      changeFirst (fun o => sameTag o (.mk i tree)) (.mk { name := i.name } []) (fun o => .mk (mergeInfo o.info i) []) ts
    else
      changeFirst (fun o => sameTag o (.mk i tree)) (.mk { name := i.name } [])
        (fun o => .mk (mergeTree o.info i) (addTags tree o.tree)) ts
/-- Several properties are added. -/
def addTags : List Tag → List Tag → List Tag
  | [], ts => ts
  | n :: ns, ts => addTags ns (addTag n ts)
end

/-- The texts without blanks around them. -/
def TagInfo.trimmed (i : TagInfo) : TagInfo :=
  { name := trim i.name, desc := trim i.desc, unit := trim i.unit, unitRef := trim i.unitRef, type := trim i.type
    lang := trim i.lang, value := trim i.value, readOnly := i.readOnly, creator := i.creator }

mutual
/-- A property with all texts trimmed. -/
def Tag.trimmed : Tag → Tag
  | .mk i tree => .mk i.trimmed (allTrimmed tree)
/-- All properties of a list trimmed. -/
def allTrimmed : List Tag → List Tag
  | [] => []
  | t :: ts => t.trimmed :: allTrimmed ts
end

/-- The texts of a property are texts of one line (the value may have several lines), and it has a name. -/
def TagInfo.Plain (i : TagInfo) : Prop :=
  i.name ≠ [] ∧ PlainLine i.name ∧ PlainLine i.desc ∧ PlainLine i.unit ∧ PlainLine i.unitRef ∧ PlainLine i.type ∧ PlainLine i.lang ∧
  PlainText i.value

mutual
/-- All texts of a property and of the properties below it are plain. -/
def Tag.Plain : Tag → Prop
  | .mk i tree => i.Plain ∧ AllPlain tree
/-- All properties of a list are plain. -/
def AllPlain : List Tag → Prop
  | [] => True
  | t :: ts => t.Plain ∧ AllPlain ts
end

/-- `CommonProperty(name)` on a list of properties: the first tree with the name, or else the first property without tags below it. -/
def findTag (ts : List Tag) (name : Bytes) : Option Tag :=
  match ts.find? (fun t => t.isTree && sameWord t.info.name name), ts.find? (fun t => !t.isTree && sameWord t.info.name name) with
  | some t, _ => some t
  | none, some e => some e
  | none, none => none

/-! ## Histories -/

/-- What a user does with the metadata of a block. -/
inductive MetaOp where
  /-- `StringProperty(tag, value)` -/
  | text (tag value : Bytes)
  /-- `CommonProperty(tag)` or `CommonProperties(list)` -/
  | tags (list : List Tag)
  /-- the file is saved and opened again -/
  | reopen

/-- The XML text after an operation. -/
def MetaOp.run : MetaOp → Bytes → Option Bytes
  | .text tag value, s => stringSet tag value s
  | .tags list, s => commonSet list s
  | .reopen, s => some (reopened s)

/-- The XML text after some operations. -/
def runMeta : List MetaOp → Bytes → Option Bytes
  | [], s => some s
  | op :: ops, s => (op.run s).bind (runMeta ops)

/-- A name for a text: XML allows it, it has no colon, and it is not the name of the node that holds the common properties. -/
def TextTag (tag : Bytes) : Prop := PlainName tag ∧ sameWord tCommon tag = false

/-- The texts of an operation are texts XML can hold. -/
def MetaOp.Ok : MetaOp → Prop
  | .text tag value => TextTag tag ∧ PlainText value
  | .tags list => AllPlain list
  | .reopen => True

/-- The last text that was set with a name (upper and lower case count as the same). -/
def lastText (tag : Bytes) : List MetaOp → Option Bytes
  | [] => none
  | .text t v :: ops => (lastText tag ops).or (if sameWord tag t then some v else none)
  | _ :: ops => lastText tag ops

/-- All common properties that were set, in this order. -/
def setTags : List MetaOp → List Tag
  | [] => []
  | .tags l :: ops => l ++ setTags ops
  | _ :: ops => setTags ops

/-- The plain text of a comment that is not XML. -/
def BlkComment.plain : BlkComment → Bytes
  | .tx s => trim s
  | _ => []

/-- The text that is taken over from a plain comment when the first metadata is set: none for the header (block id `HD`). -/
def startText (bt : Bytes) (c : BlkComment) : Bytes := if bt = [0x48#8, 0x44#8] then [] else c.plain

mutual
/-- All properties of a list have names of their own, and so have those below each tree. -/
def AllDistinct : List Tag → Prop
  | [] => True
  | t :: ts => (∀ u ∈ ts, sameTag t u = false) ∧ Tag.Distinct t ∧ AllDistinct ts
/-- The properties below a tree have names of their own. -/
def Tag.Distinct : Tag → Prop
  | .mk _ tree => AllDistinct tree
end

mutual
/-- What the library stores of a property: of a tree only name, description and creator. -/
def Tag.stored : Tag → Tag
  | .mk i tree => if tree.isEmpty then .mk i [] else .mk { name := i.name, desc := i.desc, creator := i.creator } (allStored tree)
/-- What is stored of the properties of a list. -/
def allStored : List Tag → List Tag
  | [] => []
  | t :: ts => t.stored :: allStored ts
end

/-- What a user does with the texts of the header. -/
inductive HdTextOp where
  /-- `Author(value)` … -/
  | set (f : HdText) (value : Bytes)
  /-- `Description(value)` -/
  | describe (value : Bytes)
  /-- the file is saved and opened again -/
  | reopen

/-- The comment of the header after an operation. -/
def HdTextOp.run : HdTextOp → BlkComment → Option BlkComment
  | .set f v, c => setHd f v c
  | .describe v, c => setDescription v c
  | .reopen, c => some c.reopen

/-- The comment of the header after some operations. -/
def runHd : List HdTextOp → BlkComment → Option BlkComment
  | [], c => some c
  | op :: ops, c => (op.run c).bind (runHd ops)

/-- The text of an operation is a text XML can hold. -/
def HdTextOp.Ok : HdTextOp → Prop
  | .set _ v => PlainText v
  | .describe v => PlainText v
  | .reopen => True

/-- The last value set for a text of the header. -/
def lastHd (f : HdText) : List HdTextOp → Option Bytes
  | [] => none
  | .set g v :: ops => (lastHd f ops).or (if f = g then some v else none)
  | _ :: ops => lastHd f ops

/-- The description a header starts with: the plain text of its comment, until the first text is set. -/
def firstDescription (c : BlkComment) : List HdTextOp → Bytes
  | [] => c.plain
  | .reopen :: ops => firstDescription c ops
  | _ :: _ => []

/-- The last description that was set. -/
def lastDescription : List HdTextOp → Option Bytes
  | [] => none
  | .describe v :: ops => (lastDescription ops).or (some v)
  | _ :: ops => lastDescription ops

end Mdf
