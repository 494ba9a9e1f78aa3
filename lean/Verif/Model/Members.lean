import Verif.Model.Session

/-!
Members of structures: channels made by `CreateChannelComposition` of a channel.

Models `Cn4Block::CreateChannelComposition`, `Cn4Block::Init` and the setters of a channel's place
(/repo/mdflib/src/cn4block.cpp lines 617-633, 876-909, 917-926, 997-1002, 1019) and that `Cg4Block::PrepareForWriting`
(/repo/mdflib/src/cg4block.cpp lines 431-490) goes through `cn_list_` only, so that members of structures keep what the application has
set.  Setting and reading of values are those of any channel (`Verif.Model.Session`).  A member may be the structure of further members;
all of them see the same group.  Members with channel arrays are not covered: `arraySize` is 1 (ichannel.cpp lines 1105-1109).
-/

namespace Mdf

/-- The calls that say where a member is and what it holds. -/
inductive MemberCall where
  | type (t : ChanType)
  | dataType (d : DataType)
  | dataBytes (n : Nat)
  | bitCount (n : Nat)
  | byteOffset (n : Nat)
  | bitOffset (n : Nat)
  | /-- `Flags` with or without `CnFlag::InvalidValid` -/ invalidFlag (b : Bool)
deriving DecidableEq, Repr

/-- A new `Cn4Block` (cn4block.h lines 168-175). -/
def newMember : Chan :=
  { type := .fixedLength, dataType := .unsignedLe, byteOffset := 0, bitOffset := 0, bitCount := 0, invalidFlag := false,
    invalidPos := 0, nofDataBytes := 0, arraySize := 1 }

/-- `Cn4Block::DataBytes` (cn4block.cpp lines 907-909). -/
def Chan.withBytes (c : Chan) (n : Nat) : Chan := { c with bitCount := n * 8 % 2 ^ 64 % 2 ^ 32 }

/-- `Cn4Block::DataType` (cn4block.cpp lines 880-905). -/
def Chan.withDataType (c : Chan) (d : DataType) : Chan :=
  let c := { c with dataType := d }
  match d with
  | .unsignedLe | .unsignedBe | .signedLe | .signedBe | .floatLe | .floatBe => if c.dataBytes = 0 then c.withBytes 4 else c
  | .canOpenDate => c.withBytes 7
  | .canOpenTime => c.withBytes 6
  | _ => c

/-- One call (cn4block.cpp lines 617-633, 876-909, 1019); `bit_offset_` is a `uint8_t` (cn4block.h line 171). -/
def MemberCall.apply (c : Chan) : MemberCall → Chan
  | .type t => { c with type := t }
  | .dataType d => c.withDataType d
  | .dataBytes n => c.withBytes n
  | .bitCount n => { c with bitCount := n % 2 ^ 32 }
  | .byteOffset n => { c with byteOffset := n % 2 ^ 32 }
  | .bitOffset n => { c with bitOffset := n % 2 ^ 16 % 2 ^ 8 }
  | .invalidFlag b => { c with invalidFlag := b }

/-- The member after the calls, in a group of the measurement: `Init` hands down the group of the parent (cn4block.cpp lines 917-926),
`PrepareForWriting` of the group does not touch the member. -/
def Ses.member (s : Ses) (g : Nat) (calls : List MemberCall) : Chan :=
  { calls.foldl MemberCall.apply newMember with nofDataBytes := (s.layout g).nofDataBytes }

end Mdf
