import Verif.Model.CommentKinds
import Verif.Model.NumText

/-!
# The texts and trigger intervals of an event

Models `IEvent` (/repo/mdflib/src/ievent.cpp), `IMetaData::FloatProperty` (/repo/mdflib/src/imetadata.cpp lines 121-133) and
`IChannelHierarchy::TypeToString` (/repo/mdflib/src/ichannelhierarchy.cpp).

Simplifications: a `double` is finite, and is the rational number it stands for.  `operator>>` reads a number as `std::stod` does; they
differ for texts with an incomplete exponent, which the library does not write.
-/

namespace Mdf

/-! ## Numbers as metadata -/

/-- `FloatProperty(tag, value)` (imetadata.cpp lines 121-126): the number is written by `operator<<` (ixmlnode.h lines 205-211).  `none`: the
text of the block is no XML text. -/
def floatSet (tag : Bytes) (q : Rat) (snippet : Bytes) : Option Bytes :=
  (xmlParse snippet).map fun t => (t.setProperty tag (generalText q)).text

/-- `FloatProperty(tag)` (imetadata.cpp lines 128-133, ixmlnode.h lines 123-127 and 277-285): a missing node and a text that is no number
are 0.  The result for a text that is no XML text is taken to be 0. -/
def floatGet (snippet tag : Bytes) : Rat :=
  match xmlParse snippet with
  | none => 0
  | some t => (stodText (t.property tag)).getD 0

/-! ## Events -/

/-- `MetaData()->XmlSnippet()` (mdfblock.cpp lines 870-873): the null pointer if there is no comment. -/
def evMeta : BlkComment → Option Bytes
  | .none => Option.none
  | .tx s => some s
  | .md s => some s

/-- What is called on an event; `reopen`: the file is saved and opened again. -/
inductive EvCall where
  | desc (s : Bytes)
  | pre (q : Rat)
  | post (q : Rat)
  | tags (list : List Tag)
  | comment (c : EvCom)
  | reopen

/-- The setters `Description` (ievent.cpp lines 10-15), `PreTrig` (lines 22-27), `PostTrig` (lines 35-40), `CommonProperties`, and
`SetEvComment` (lines 135-140): all make an MD block first.  `none`: the text of the block is no XML text. -/
def evCall (c : BlkComment) : EvCall → Option BlkComment
  | .desc s => (stringSet tTX s (createMd bEV c)).map .md
  | .pre q => (floatSet tPre q (createMd bEV c)).map .md
  | .post q => (floatSet tPost q (createMd bEV c)).map .md
  | .tags l => (commonSet l (createMd bEV c)).map .md
  | .comment x => some (.md x.toXml)
  | .reopen => some c.reopen

/-- Some calls. -/
def evCalls : List EvCall → BlkComment → Option BlkComment
  | [], c => some c
  | x :: xs, c => (evCall c x).bind (evCalls xs)

/-- `Description()`.  ievent.cpp lines 17-20. -/
def evDesc (c : BlkComment) : Bytes :=
  match evMeta c with
  | none => []
  | some s => stringGet s tTX

/-- `PreTrig()`.  ievent.cpp lines 29-33. -/
def evPre (c : BlkComment) : Rat :=
  match evMeta c with
  | none => 0
  | some s => floatGet s tPre

/-- `PostTrig()`.  ievent.cpp lines 42-46. -/
def evPost (c : BlkComment) : Rat :=
  match evMeta c with
  | none => 0
  | some s => floatGet s tPost

/-! ## Texts -/

/-- `IEvent::TypeToString` (ievent.cpp lines 48-68); the values are those of ievent.h lines 22-30. -/
def evTypeText (v : Byte) : Bytes :=
  if v = 0#8 then [0x52#8, 0x65#8, 0x63#8, 0x6F#8, 0x72#8, 0x64#8, 0x69#8, 0x6E#8, 0x67#8]  -- "Recording"
  else if v = 1#8 then [0x52#8, 0x65#8, 0x63#8, 0x6F#8, 0x72#8, 0x64#8, 0x69#8, 0x6E#8, 0x67#8, 0x20#8, 0x49#8, 0x6E#8, 0x74#8, 0x65#8, 0x72#8, 0x72#8, 0x75#8, 0x70#8, 0x74#8]  -- "Recording Interrupt"
  else if v = 2#8 then [0x41#8, 0x63#8, 0x71#8, 0x75#8, 0x69#8, 0x73#8, 0x69#8, 0x74#8, 0x69#8, 0x6F#8, 0x6E#8, 0x20#8, 0x49#8, 0x6E#8, 0x74#8, 0x65#8, 0x72#8, 0x72#8, 0x75#8, 0x70#8, 0x74#8]  -- "Acquisition Interrupt"
  else if v = 3#8 then [0x53#8, 0x74#8, 0x61#8, 0x72#8, 0x74#8, 0x20#8, 0x52#8, 0x65#8, 0x63#8, 0x6F#8, 0x72#8, 0x64#8, 0x69#8, 0x6E#8, 0x67#8]  -- "Start Recording"
  else if v = 4#8 then [0x53#8, 0x74#8, 0x6F#8, 0x70#8, 0x20#8, 0x52#8, 0x65#8, 0x63#8, 0x6F#8, 0x72#8, 0x64#8, 0x69#8, 0x6E#8, 0x67#8]  -- "Stop Recording"
  else if v = 5#8 then [0x54#8, 0x72#8, 0x69#8, 0x67#8, 0x67#8, 0x65#8, 0x72#8]  -- "Trigger"
  else if v = 6#8 then [0x4D#8, 0x61#8, 0x72#8, 0x6B#8, 0x65#8, 0x72#8]  -- "Marker"
  else []

/-- `IEvent::RangeToString` (ievent.cpp lines 101-114); ievent.h lines 41-45. -/
def evRangeText (v : Byte) : Bytes :=
  if v = 0#8 then [0x50#8, 0x6F#8, 0x69#8, 0x6E#8, 0x74#8]  -- "Point"
  else if v = 1#8 then [0x53#8, 0x74#8, 0x61#8, 0x72#8, 0x74#8]  -- "Start"
  else if v = 2#8 then [0x45#8, 0x6E#8, 0x64#8]  -- "End"
  else []

/-- `IEvent::CauseToString` (ievent.cpp lines 116-133); ievent.h lines 48-54. -/
def evCauseText (v : Byte) : Bytes :=
  if v = 0#8 then [0x4F#8, 0x74#8, 0x68#8, 0x65#8, 0x72#8]  -- "Other"
  else if v = 1#8 then [0x45#8, 0x72#8, 0x72#8, 0x6F#8, 0x72#8]  -- "Error"
  else if v = 2#8 then [0x54#8, 0x6F#8, 0x6F#8, 0x6C#8]  -- "Tool"
  else if v = 3#8 then [0x53#8, 0x63#8, 0x72#8, 0x69#8, 0x70#8, 0x74#8]  -- "Script"
  else if v = 4#8 then [0x55#8, 0x73#8, 0x65#8, 0x72#8]  -- "User"
  else []

/-- The unit in `ValueToString` (ievent.cpp lines 72-92); ievent.h lines 33-38. -/
def evUnit (v : Byte) : Bytes :=
  if v = 1#8 then [0x73#8]  -- "s"
  else if v = 2#8 then [0x72#8, 0x61#8, 0x64#8]  -- "rad"
  else if v = 3#8 then [0x6D#8]  -- "m"
  else if v = 4#8 then [0x23#8]  -- "#"
  else []

/-- `IEvent::ValueToString` (ievent.cpp lines 70-99): the product of `double`s, written by `operator<<`, and the unit. -/
def evValueText (base : Int) (factor : Rat) (sync : Byte) : Bytes :=
  generalText (dblRound (dblRound (base : Rat) * factor)) ++ (if evUnit sync = [] then [] else 0x20#8 :: evUnit sync)

/-- `IChannelHierarchy::TypeToString` (ichannelhierarchy.cpp lines 10-32); the values are those of ichannelhierarchy.h. -/
def chTypeText (v : Byte) : Bytes :=
  if v = 0#8 then [0x47#8, 0x72#8, 0x6F#8, 0x75#8, 0x70#8]  -- "Group"
  else if v = 1#8 then [0x46#8, 0x75#8, 0x6E#8, 0x63#8, 0x74#8, 0x69#8, 0x6F#8, 0x6E#8]  -- "Function"
  else if v = 2#8 then [0x53#8, 0x74#8, 0x72#8, 0x75#8, 0x63#8, 0x74#8, 0x75#8, 0x72#8, 0x65#8]  -- "Structure"
  else if v = 3#8 then [0x4D#8, 0x61#8, 0x70#8, 0x20#8, 0x4C#8, 0x69#8, 0x73#8, 0x74#8]  -- "Map List"
  else if v = 4#8 then [0x49#8, 0x6E#8, 0x70#8, 0x75#8, 0x74#8, 0x20#8, 0x56#8, 0x61#8, 0x72#8, 0x69#8, 0x61#8, 0x62#8, 0x6C#8, 0x65#8, 0x73#8]  -- "Input Variables"
  else if v = 5#8 then [0x4F#8, 0x75#8, 0x74#8, 0x70#8, 0x75#8, 0x74#8, 0x20#8, 0x56#8, 0x61#8, 0x72#8, 0x69#8, 0x61#8, 0x62#8, 0x6C#8, 0x65#8, 0x73#8]  -- "Output Variables"
  else if v = 6#8 then [0x4C#8, 0x6F#8, 0x63#8, 0x61#8, 0x6C#8, 0x20#8, 0x56#8, 0x61#8, 0x72#8, 0x69#8, 0x61#8, 0x62#8, 0x6C#8, 0x65#8, 0x73#8]  -- "Local Variables"
  else if v = 7#8 then [0x43#8, 0x61#8, 0x6C#8, 0x69#8, 0x62#8, 0x72#8, 0x61#8, 0x74#8, 0x69#8, 0x6F#8, 0x6E#8, 0x20#8, 0x4F#8, 0x62#8, 0x6A#8, 0x65#8, 0x63#8, 0x74#8, 0x73#8, 0x20#8, 0x44#8, 0x65#8, 0x66#8, 0x69#8, 0x6E#8, 0x69#8, 0x74#8, 0x69#8, 0x6F#8, 0x6E#8]  -- "Calibration Objects Definition"
  else if v = 8#8 then [0x43#8, 0x61#8, 0x6C#8, 0x69#8, 0x62#8, 0x72#8, 0x61#8, 0x74#8, 0x69#8, 0x6F#8, 0x6E#8, 0x20#8, 0x4F#8, 0x62#8, 0x6A#8, 0x65#8, 0x63#8, 0x74#8, 0x73#8, 0x20#8, 0x52#8, 0x65#8, 0x66#8, 0x65#8, 0x72#8, 0x65#8, 0x6E#8, 0x63#8, 0x65#8]  -- "Calibration Objects Reference"
  else []

end Mdf
