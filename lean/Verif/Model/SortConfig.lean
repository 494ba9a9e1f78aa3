import Verif.Model.Array
import Verif.Model.Channel
import Verif.Model.Convert

/-!
The description of a sorted file.

Models `SortingTask::SortFile` (/repo/mdflib/src/sortingtask.cpp lines 73-127), `MdfTask::CopyChannelConfig` (/repo/mdflib/src/mdftask.cpp
lines 254-289), `Cg4Block::CopyFrom` (/repo/mdflib/src/cg4block.cpp lines 730-757), `Cn4Block::CopyFrom` and `CopyConfigFrom`
(/repo/mdflib/src/cn4block.cpp lines 1366-1455), `Ca4Block::CopyFrom` (/repo/mdflib/src/ca4block.cpp lines 714-730), `ISourceInformation::CopyFrom`
(/repo/mdflib/src/isourceinformation.cpp lines 24-34) and `Cg4Block::GetXChannel` (/repo/mdflib/src/cg4block.cpp lines 79-109).  Comments are the texts that
are read of them (C87); the conversion is copied by `Conv.copy4`.  The samples are in `Verif.Model.Sort`.
-/

namespace Mdf

/-- The members of `Cn4Block` that are numbers (cn4block.h lines 169-186) and the name.  `limits` are the six limits, as bits. -/
structure CnCore where
  type : ChanType
  sync : Nat
  dataType : DataType
  bitOffset : Nat
  byteOffset : Nat
  bitCount : Nat
  flags : BitVec 32
  invalidPos : Nat
  precision : Nat
  limits : List (BitVec 64)
  name : String
deriving DecidableEq, Repr

/-- A channel that was just made. -/
def CnCore.new : CnCore := ⟨.fixedLength, 0, .unsignedLe, 0, 0, 0, 0, 0, 0, List.replicate 6 0, ""⟩

/-- `ISourceInformation`: type, bus, flags, name, path, comment. -/
structure SiCore where
  type : Nat
  bus : Nat
  flags : Nat
  name : String
  path : String
  comment : String
deriving DecidableEq, Repr

/-- A channel with all below it: unit, comment, source, arrays, conversion and its inverse, names of the attachments, name of the
channel for the X axis (`DefaultX`), composition. -/
inductive SrcCn (D : Type) where
  | mk (core : CnCore) (unit : String) (comment : Option String) (si : Option SiCore) (arrays : List CaDef)
      (conv : Option (Conv D × Option (Conv D))) (atts : List String) (x : Option String) (comps : List (SrcCn D))

namespace SrcCn
variable {D : Type}

def core : SrcCn D → CnCore | .mk c .. => c
def unit : SrcCn D → String | .mk _ u .. => u
def comment : SrcCn D → Option String | .mk _ _ c .. => c
def si : SrcCn D → Option SiCore | .mk _ _ _ s .. => s
def arrays : SrcCn D → List CaDef | .mk _ _ _ _ a .. => a
def conv : SrcCn D → Option (Conv D × Option (Conv D)) | .mk _ _ _ _ _ c .. => c
def atts : SrcCn D → List String | .mk _ _ _ _ _ _ a .. => a
def x : SrcCn D → Option String | .mk _ _ _ _ _ _ _ x _ => x
def comps : SrcCn D → List (SrcCn D) | .mk _ _ _ _ _ _ _ _ cs => cs

/-- `CreateChannel`, nothing set. -/
def new : SrcCn D := .mk .new "" none none [] none [] none []

end SrcCn

/-- `IChannelArray::HasReferenceToOtherBlock` (ichannelarray.cpp lines 65-73). -/
def CaDef.hasRef (a : CaDef) : Bool :=
  !a.dataLinks.isEmpty || !a.dynamicSizes.isEmpty || !a.inputs.isEmpty || a.output ≠ .none || a.comparison ≠ .none ||
    !a.conversions.isEmpty || !a.axes.isEmpty

/-- `Ca4Block::CopyFrom` onto a new array (ca4block.cpp lines 714-730). -/
def CaDef.copied (a : CaDef) : CaDef :=
  { CaDef.new with type := a.type, storage := a.storage, flags := a.flags, dimensions := a.dimensions, byteBase := a.byteBase,
                   invalidBase := a.invalidBase, dims := a.dims, axisValues := a.axisValues, cycles := a.cycles }

/-- The arrays that are copied (cn4block.cpp lines 1416-1426). -/
def copyArrays (as : List CaDef) : List CaDef := (as.filter (fun a => !a.hasRef)).map CaDef.copied

mutual
/-- `Cn4Block::CopyConfigFrom` of a `Cn4Block` onto a new channel (cn4block.cpp lines 1366-1455). -/
def SrcCn.copy {D : Type} : SrcCn D → SrcCn D
  | .mk core unit comment si arrays conv _ _ comps =>
    .mk core unit comment si (copyArrays arrays) (conv.map fun c => (c.1.copy4, c.2.map Conv.copy4)) [] none (SrcCn.copyList comps)

/-- The loop over the composition (cn4block.cpp lines 1446-1454). -/
def SrcCn.copyList {D : Type} : List (SrcCn D) → List (SrcCn D)
  | [] => []
  | c :: cs => c.copy :: SrcCn.copyList cs
end

/-- A channel group: flags, sample counter, path separator, record size, size of the invalidation bytes, name, comment, source and channels. -/
structure SrcCg (D : Type) where
  flags : BitVec 16
  nof : Nat
  separator : Nat
  dataBytes : Nat
  invalidBytes : Nat
  name : String
  comment : Option String
  si : Option SiCore
  channels : List (SrcCn D)

/-- `CopyChannelConfig` (mdftask.cpp lines 254-289).  `mdf4` says whether the source blocks are those of MDF 4; the blocks of the sorted
file always are.  In an MDF 3 file groups have no metadata, nothing is taken from the group, and of each channel nothing but that there is one. -/
def SrcCg.copy {D : Type} (mdf4 : Bool) (g : SrcCg D) : SrcCg D :=
  if mdf4 then { g with nof := 0, channels := g.channels.map SrcCn.copy }
  else { flags := 0, nof := 0, separator := 0, dataBytes := 0, invalidBytes := 0, name := "", comment := none, si := g.si,
         channels := g.channels.map fun _ => SrcCn.new }

/-- A data group of the source: comment and channel groups. -/
structure SrcDg (D : Type) where
  comment : String
  groups : List (SrcCg D)

/-- The groups that are left out: VLSD groups, and groups without samples if asked for (sortingtask.cpp lines 88-95). -/
def SrcCg.kept {D : Type} (skip : Bool) (g : SrcCg D) : Bool := !(g.flags &&& 0x0001#16 ≠ 0#16) && !(skip && g.nof = 0)

/-- The comment of a data group that is made (sortingtask.cpp lines 103-111); `n` counts the data groups made, this one too. -/
def sortedComment (source : String) (n : Nat) : String := if source = "" then "Measurement " ++ toString n else source

/-- The loop over the groups of a data group (sortingtask.cpp lines 84-127): a data group with one group for each one kept. -/
def sortCgs {D : Type} (mdf4 skip : Bool) (comment : String) : Nat → List (SrcCg D) → Nat × List (SrcDg D)
  | n, [] => (n, [])
  | n, g :: gs =>
    if g.kept skip then
      let r := sortCgs mdf4 skip comment (n + 1) gs
      (r.1, ⟨sortedComment comment (n + 1), [g.copy mdf4]⟩ :: r.2)
    else sortCgs mdf4 skip comment n gs

/-- The loop over the data groups (sortingtask.cpp lines 79-150). -/
def sortDgs {D : Type} (mdf4 skip : Bool) : Nat → List (SrcDg D) → List (SrcDg D)
  | _, [] => []
  | n, d :: ds =>
    let r := sortCgs mdf4 skip d.comment n d.groups
    r.2 ++ sortDgs mdf4 skip r.1 ds

/-- The members that place a channel in the record, in a group with `dataBytes` data bytes. -/
def SrcCn.chan {D : Type} (dataBytes : Nat) (c : SrcCn D) : Chan :=
  { type := c.core.type, dataType := c.core.dataType, byteOffset := c.core.byteOffset, bitOffset := c.core.bitOffset,
    bitCount := c.core.bitCount, invalidFlag := c.core.flags &&& 0x0002#32 ≠ 0#32, invalidPos := c.core.invalidPos,
    nofDataBytes := dataBytes, arraySize := (arraySizeOf c.arrays).toNat }

/-- `Cg4Block::GetXChannel` (cg4block.cpp lines 79-109), the name of what is returned: the channel linked to if there is one, else the first
master channel of the group.  A link is there only with the flag. -/
def SrcCg.xChannel {D : Type} (g : SrcCg D) (c : SrcCn D) : Option String :=
  match (if c.core.flags &&& 0x1000#32 ≠ 0#32 then c.x else none) with
  | some n => some n
  | none => (g.channels.find? fun m => m.core.type = .master || m.core.type = .virtualMaster).map fun m => m.core.name

end Mdf
