import Verif.Model.CommentKinds
import Verif.Model.HdComment
import Verif.Model.Ho

/-!
# Comments with a computation method or a unit specification

`CcComment` (`/repo/mdflib/src/cccomment.cpp`): the comment of a conversion, with a computation method.
`HdComment` (`/repo/mdflib/src/hdcomment.cpp`) with its unit specification; the other parts are those of `Model/HdComment.lean`.
-/

namespace Mdf

/-- `CreateRootNode`: the attribute that declares the namespace `ho`.  mdcomment.cpp lines 121-131. -/
def hoRootAttrs (active : Bool) : List (Bytes × Bytes) := if active then [(hXmlns, hUri)] else []

/-! ## Conversions -/

/-- `CcComment`.  `/repo/include/mdf/cccomment.h`. -/
structure CcCom where
  com : MdCom := {}
  method : HoMethod := {}
deriving Repr

/-- The node for the method, if it is active.  cccomment.cpp lines 40-42. -/
def CcCom.methodNodes (c : CcCom) : List XmlTree := if c.method.isActive then [c.method.node] else []

/-- The nodes of `CcComment::ToXml`.  cccomment.cpp lines 36-44. -/
def CcCom.kids (c : CcCom) : List XmlTree :=
  c.com.text.nodes tTX ++ (c.com.nameNodes ++ (c.com.formulaNodes ++ (c.methodNodes ++ c.com.commonNodes)))

/-- `CcComment::ToXml`.  cccomment.cpp lines 31-50. -/
def CcCom.toXml (c : CcCom) : Bytes := (XmlTree.mk (trim (bCC ++ tComment)) (hoRootAttrs c.method.isActive) [] c.kids).text

/-- One child of the root node.  cccomment.cpp lines 82-84. -/
def CcCom.readKid (c : CcCom) (t : XmlTree) : CcCom := if t.isTagName hMethod then { c with method := c.method.read t } else c

/-- `CcComment::FromXml`; an exception in `MdComment::FromXml` ends it.  cccomment.cpp lines 52-89. -/
def CcCom.fromXml (c : CcCom) (snippet : Bytes) : CcCom :=
  match snippet with
  | [] => c
  | b :: _ =>
    if b ≠ 0x3C#8 then { c with com := { c.com with text := { text := snippet } } }
    else
      match xmlParse snippet with
      | none => c
      | some t =>
        match c.com.fromKids t.kids with
        | (m, true) => { c with com := m }
        | (m, false) => t.kids.foldl CcCom.readKid { c with com := m }

/-! ## The header -/

/-- `HdComment`, with the unit specification.  `/repo/include/mdf/hdcomment.h` lines 56-60. -/
structure HdFull where
  hd : HdCom := {}
  units : HoSpec := {}
deriving Repr

/-- The node for the constants.  hdcomment.cpp lines 155-171. -/
def HdCom.constNodes (h : HdCom) : List XmlTree :=
  if h.constants = [] then [] else [.mk tConstants [] [] (h.constants.map constNode)]

/-- The nodes of `HdComment::ToXml`.  hdcomment.cpp lines 151-176. -/
def HdFull.kids (h : HdFull) : List XmlTree :=
  h.hd.com.text.nodes tTX ++ (h.hd.timeSource.nodes tTimeSource ++ (h.hd.constNodes ++ (h.units.nodes ++ h.hd.com.commonNodes)))

/-- `HdComment::ToXml`.  hdcomment.cpp lines 145-181. -/
def HdFull.toXml (h : HdFull) : Bytes := (XmlTree.mk (trim (hcHD ++ tComment)) (hoRootAttrs h.units.isActive) [] h.kids).text

/-- One child of the root node.  hdcomment.cpp lines 210-233. -/
def HdFull.readKid (h : HdFull) (t : XmlTree) : HdFull :=
  if t.isTagName tTimeSource then { h with hd := h.hd.readKid t }
  else if t.isTagName tConstants then { h with hd := h.hd.readKid t }
  else if t.isTagName hSpec then { h with units := h.units.read t }
  else h

/-- `HdComment::FromXml`.  hdcomment.cpp lines 184-237. -/
def HdFull.fromXml (h : HdFull) (snippet : Bytes) : HdFull :=
  match snippet with
  | [] => h
  | b :: _ =>
    if b ≠ 0x3C#8 then { h with hd := { h.hd with com := { h.hd.com with text := { text := snippet } } } }
    else
      match xmlParse snippet with
      | none => h
      | some t =>
        match h.hd.com.fromKids t.kids with
        | (c, true) => { h with hd := { h.hd with com := c } }
        | (c, false) => t.kids.foldl HdFull.readKid { h with hd := { h.hd with com := c } }

/-- With no unit specification this is the header comment of `Model/HdComment.lean`. -/
theorem HdFull.toXml_plain (h : HdCom) : ({ hd := h } : HdFull).toXml = h.toXml := by
  rw [HdFull.toXml, HdCom.toXml, HdCom.node, HdFull.kids, List.append_assoc, List.append_assoc]
  rfl

end Mdf
