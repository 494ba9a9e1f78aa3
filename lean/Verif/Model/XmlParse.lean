import Verif.Model.Text

/-!
# Reading an XML text

The library reads an XML text with the external parser Expat.  Here is what Expat does with a text, after the W3C recommendation
"Extensible Markup Language (XML) 1.0": line ends are made uniform first, then the text is read character by character.
`ExpatXml` builds a tree of nodes of the events of the parser.

Simplified: a byte of 0x80 and more counts as a letter (Expat also checks that the text is correct UTF-8), character references like
`&#65;`, CDATA sections, comments, processing instructions (so also the XML header) and document type declarations end the reading
with an error although Expat reads them, and so do blanks around the `=` of an attribute and before the `>` of an end tag.  The library
writes none of these into a comment.  The theorems that say that a text is read are not touched by this, and the only texts they say
are refused hold a control character.
-/

namespace Mdf

/-- `IXmlNode`: tag name, attributes, text and children.  The attributes are kept in a `std::unordered_map`; here they are listed in
the order they were set.  `/repo/mdflib/src/ixmlnode.h` lines 185-199. -/
inductive XmlTree where
  | mk (tag : Bytes) (attrs : List (Bytes × Bytes)) (value : Bytes) (kids : List XmlTree)

namespace XmlTree
/-- `TagName()` -/
def tag : XmlTree → Bytes | .mk t _ _ _ => t
/-- `attribute_list_` -/
def attrs : XmlTree → List (Bytes × Bytes) | .mk _ a _ _ => a
/-- `value_` -/
def value : XmlTree → Bytes | .mk _ _ v _ => v
/-- `node_list_` -/
def kids : XmlTree → List XmlTree | .mk _ _ _ k => k
end XmlTree

/-- Section 2.11 of the recommendation: carriage return and line feed, and a carriage return alone, become one line feed. -/
def lineEnds : Bytes → Bytes
  | [] => []
  | [c] => if c = 0x0D#8 then [0x0A#8] else [c]
  | c :: d :: s =>
    if c = 0x0D#8 then (if d = 0x0A#8 then lineEnds (d :: s) else 0x0A#8 :: lineEnds (d :: s)) else c :: lineEnds (d :: s)

/-- Section 2.3, a blank (after the line ends were made uniform). -/
def isXmlBlank (c : Byte) : Bool := c == 0x20#8 || c == 0x09#8 || c == 0x0A#8

/-- Section 2.2, the characters that may occur in an XML text: no control characters other than tab and line end. -/
def isXmlChar (c : Byte) : Bool := 0x20#8 ≤ c || c == 0x09#8 || c == 0x0A#8

/-- Section 2.3, the first character of a name: a letter, `_` or `:`. -/
def isNameStart (c : Byte) : Bool :=
  (0x41#8 ≤ c && c ≤ 0x5A#8) || (0x61#8 ≤ c && c ≤ 0x7A#8) || c == 0x5F#8 || c == 0x3A#8 || 0x80#8 ≤ c

/-- Section 2.3, a further character of a name: also a digit, `-` or `.`. -/
def isNameChar (c : Byte) : Bool := isNameStart c || (0x30#8 ≤ c && c ≤ 0x39#8) || c == 0x2D#8 || c == 0x2E#8

/-- Section 4.6, the five names for characters: lt, gt, amp, quot, apos. -/
def entityByte (e : Bytes) : Option Byte :=
  if e = [0x6C#8, 0x74#8] then some 0x3C#8
  else if e = [0x67#8, 0x74#8] then some 0x3E#8
  else if e = [0x61#8, 0x6D#8, 0x70#8] then some 0x26#8
  else if e = [0x71#8, 0x75#8, 0x6F#8, 0x74#8] then some 0x22#8
  else if e = [0x61#8, 0x70#8, 0x6F#8, 0x73#8] then some 0x27#8
  else none

/-- An element whose start tag was read and whose end tag was not, an entry of `node_stack_`.
`/repo/mdflib/src/expatxml.cpp` lines 74-98. -/
structure XmlOpen where
  /-- tag name -/
  tag : Bytes
  /-- attributes -/
  attrs : List (Bytes × Bytes)
  /-- the text read so far -/
  value : Bytes
  /-- the children read so far -/
  kids : List XmlTree

/-- Where in the text the parser is. -/
inductive XmlMode where
  /-- before the first tag -/
  | prolog
  /-- behind the last tag -/
  | epilog
  /-- between tags -/
  | content
  /-- behind `<` -/
  | lt
  /-- in the name of a start tag -/
  | startName (n : Bytes)
  /-- behind a blank in a start tag -/
  | inTag (n : Bytes) (as : List (Bytes × Bytes))
  /-- in the name of an attribute -/
  | attrName (n : Bytes) (as : List (Bytes × Bytes)) (k : Bytes)
  /-- behind the `=` of an attribute -/
  | attrEq (n : Bytes) (as : List (Bytes × Bytes)) (k : Bytes)
  /-- in the value of an attribute that ends with the quote `q` -/
  | attrVal (n : Bytes) (as : List (Bytes × Bytes)) (k : Bytes) (q : Byte) (v : Bytes)
  /-- behind `&` in the value of an attribute -/
  | attrEnt (n : Bytes) (as : List (Bytes × Bytes)) (k : Bytes) (q : Byte) (v e : Bytes)
  /-- behind the value of an attribute -/
  | attrEnd (n : Bytes) (as : List (Bytes × Bytes))
  /-- behind the `/` of an empty element -/
  | close (n : Bytes) (as : List (Bytes × Bytes))
  /-- behind `&` in a text -/
  | textEnt (e : Bytes)
  /-- in the name of an end tag -/
  | endName (n : Bytes)
  /-- the text is not an XML text -/
  | bad

/-- The parser: where it is, the open elements (innermost first) and the root element once it is complete. -/
structure XmlSt where
  /-- where the parser is -/
  mode : XmlMode
  /-- `node_stack_` -/
  stack : List XmlOpen
  /-- `root_node_` -/
  root : Option XmlTree

/-- Before the first character. -/
def XmlSt.init : XmlSt := ⟨.prolog, [], none⟩

/-- The text is refused. -/
def XmlSt.fail (s : XmlSt) : XmlSt := { s with mode := .bad }

/-- `StartElement`: the element is put on the stack.  `/repo/mdflib/src/expatxml.cpp` lines 74-85. -/
def XmlSt.open (s : XmlSt) (n : Bytes) (as : List (Bytes × Bytes)) : XmlSt := ⟨.content, ⟨n, as, [], []⟩ :: s.stack, s.root⟩

/-- A complete element becomes a child of the innermost open element, or the root.
`/repo/mdflib/src/expatxml.cpp` lines 80-91 (there a child is added when it is opened, in the same order). -/
def XmlSt.add (stack : List XmlOpen) (root : Option XmlTree) (t : XmlTree) : XmlSt :=
  match stack with
  | [] => ⟨.epilog, [], some t⟩
  | p :: rest => ⟨.content, { p with kids := p.kids ++ [t] } :: rest, root⟩

/-- `CharacterData`: the text is added to the innermost open element.  `/repo/mdflib/src/expatxml.cpp` lines 93-98, xmlnode.cpp
lines 12-23. -/
def XmlSt.text (s : XmlSt) (c : Byte) : XmlSt :=
  match s.stack with
  | [] => s.fail
  | p :: rest => { s with mode := .content, stack := { p with value := p.value ++ [c] } :: rest }

/-- `EndElement`.  `/repo/mdflib/src/expatxml.cpp` lines 87-91; the names of start and end tag must be the same (section 3). -/
def XmlSt.endTag (s : XmlSt) (n : Bytes) : XmlSt :=
  match s.stack with
  | [] => s.fail
  | p :: rest => if n = p.tag then XmlSt.add rest s.root (.mk p.tag p.attrs p.value p.kids) else s.fail

/-- In a start tag, behind its name or an attribute: blank, end of the tag, or `/`. -/
def XmlSt.tagRest (s : XmlSt) (n : Bytes) (as : List (Bytes × Bytes)) (c : Byte) : XmlSt :=
  if isXmlBlank c then { s with mode := .inTag n as }
  else if c = 0x3E#8 then s.open n as
  else if c = 0x2F#8 then { s with mode := .close n as }
  else s.fail

/-- One character of the text, after sections 2 and 3 of the recommendation.  The blanks in the value of an attribute become spaces
(section 3.3.3). -/
def XmlSt.step (s : XmlSt) (c : Byte) : XmlSt :=
  match s.mode with
  | .bad => s
  | .prolog => if c = 0x3C#8 then { s with mode := .lt } else if isXmlBlank c then s else s.fail
  | .epilog => if isXmlBlank c then s else s.fail
  | .content =>
    if c = 0x3C#8 then { s with mode := .lt }
    else if c = 0x26#8 then { s with mode := .textEnt [] }
    else if isXmlChar c then s.text c else s.fail
  | .lt =>
    if c = 0x2F#8 then { s with mode := .endName [] }
    else if isNameStart c then { s with mode := .startName [c] } else s.fail
  | .startName n => if isNameChar c then { s with mode := .startName (n ++ [c]) } else s.tagRest n [] c
  | .inTag n as => if isNameStart c then { s with mode := .attrName n as [c] } else s.tagRest n as c
  | .attrName n as k =>
    if isNameChar c then { s with mode := .attrName n as (k ++ [c]) }
    else if c = 0x3D#8 then { s with mode := .attrEq n as k } else s.fail
  | .attrEq n as k => if c = 0x27#8 ∨ c = 0x22#8 then { s with mode := .attrVal n as k c [] } else s.fail
  | .attrVal n as k q v =>
    if c = q then (if as.any (fun a => a.1 == k) then s.fail else { s with mode := .attrEnd n (as ++ [(k, v)]) })
    else if c = 0x3C#8 then s.fail
    else if c = 0x26#8 then { s with mode := .attrEnt n as k q v [] }
    else if isXmlBlank c then { s with mode := .attrVal n as k q (v ++ [0x20#8]) }
    else if isXmlChar c then { s with mode := .attrVal n as k q (v ++ [c]) } else s.fail
  | .attrEnt n as k q v e =>
    if c = 0x3B#8 then
      (match entityByte e with
       | some d => { s with mode := .attrVal n as k q (v ++ [d]) }
       | none => s.fail)
    else { s with mode := .attrEnt n as k q v (e ++ [c]) }
  | .attrEnd n as => s.tagRest n as c
  | .close n as => if c = 0x3E#8 then XmlSt.add s.stack s.root (.mk n as [] []) else s.fail
  | .textEnt e =>
    if c = 0x3B#8 then
      (match entityByte e with
       | some d => s.text d
       | none => s.fail)
    else { s with mode := .textEnt (e ++ [c]) }
  | .endName n => if isNameChar c then { s with mode := .endName (n ++ [c]) } else if c = 0x3E#8 then s.endTag n else s.fail

/-- The characters of a text one after the other. -/
def XmlSt.run (s : XmlSt) (text : Bytes) : XmlSt := text.foldl XmlSt.step s

/-- `ParseString`: the root node, `none` if the text is refused.  `/repo/mdflib/src/expatxml.cpp` lines 149-164.  (The nodes read
before the error stay in the `ExpatXml` object; nothing is said about them here.) -/
def xmlParse (text : Bytes) : Option XmlTree :=
  match (XmlSt.init.run (lineEnds text)).mode with
  | .epilog => (XmlSt.init.run (lineEnds text)).root
  | _ => none

end Mdf
