import Verif.Model.BusName
import Verif.Model.RecordId
import Verif.Model.Lookup

/-!
# The groups of a bus log

Models `CreateConfig` of the configuration adapters (/repo/mdflib/src/canconfigadapter.cpp, linconfigadapter.cpp, ethconfigadapter.cpp,
mostconfigadapter.cpp, flexrayconfigadapter.cpp) as far as groups are concerned, and `MdfWriter::CreateBusLogConfiguration`
(/repo/mdflib/src/mdfwriter.cpp).

Simplified: the channels of a group are those of `CanCfg.members` and so on; here only the number of time masters and the `VlsdRecordId` of
the data channel are kept.  All objects are created (no `nullptr`), as in MDF 4.  Adding the channels to a group that has them already changes
nothing here.
-/

namespace Mdf

/-- A channel group of a bus log.  `dataRef` is the `VlsdRecordId` of its data channel, `none` if it was not set. -/
structure BcGroup where
  name : List Char
  vlsd : Bool := false
  bus : Bool := false
  masters : Nat := 0
  dataRef : Option Nat := none
  nof : Nat := 0
deriving DecidableEq, Repr

/-- The channel groups of a data group, in order. -/
abbrev BcDg := List BcGroup

/-- `RecordId()` of a group: `Dg4Block::AddCg4` gives all ids anew.  dg4block.cpp lines 638-661. -/
def bcRecordId (dg : BcDg) (i : Nat) : Option Nat := (recIds dg.length)[i]?

/-- `IDataGroup::CreateChannelGroup(name)`.  idatagroup.cpp lines 105-118. -/
def bcCreate (dg : BcDg) (name : List Char) : BcDg × Nat :=
  match lkFind (fun g => g.name = name && !(name = [])) dg with
  | some i => (dg, i)
  | none => (dg ++ [{ name := name }], dg.length)

/-- One kind of message: the name of its group and whether its data channel gets a VLSD group. -/
structure BcPlan where
  name : List Char
  data : Bool
deriving DecidableEq, Repr

/-- `Flags(PlainBusEvent | BusEvent)` and `CreateTimeChannel`, which keeps a time master that is there.  canconfigadapter.cpp lines 34-36 and
the same lines elsewhere, iconfigadapter.cpp lines 112-139. -/
def BcGroup.asBus (g : BcGroup) : BcGroup := { g with bus := true, vlsd := false, masters := if g.masters = 0 then 1 else g.masters }

/-- `Flags(VlsdChannel)`.  canconfigadapter.cpp line 52. -/
def BcGroup.asVlsd (g : BcGroup) : BcGroup := { g with bus := false, vlsd := true }

/-- The group of one kind, and the VLSD group behind it.  canconfigadapter.cpp lines 31-57, 60-72, 75-99, 103-113; linconfigadapter.cpp lines 28-105;
ethconfigadapter.cpp lines 72-164; mostconfigadapter.cpp lines 40-204; flexrayconfigadapter.cpp lines 38-181. -/
def BcPlan.run (p : BcPlan) (dg : BcDg) : BcDg :=
  let (d1, i) := bcCreate dg p.name
  let d2 := d1.modify i BcGroup.asBus
  if p.data then
    let (d3, j) := bcCreate d2 []
    let d4 := d3.modify j BcGroup.asVlsd
    d4.modify i fun g => { g with dataRef := bcRecordId d4 j }
  else d2

/-- All kinds of an adapter, in order. -/
def bcRun (ps : List BcPlan) (dg : BcDg) : BcDg := ps.foldl (fun d p => p.run d) dg

/-- What the adapter takes over from the writer, and its own settings.  iconfigadapter.cpp lines 17-23. -/
structure BcSettings where
  store : CanStore
  mandatory : Bool
  filter : BusFilter := .noFilter
deriving DecidableEq, Repr

/-- `CanConfigAdapter::CreateConfig`.  canconfigadapter.cpp lines 15-114. -/
def canPlans (s : BcSettings) : List BcPlan :=
  let name := fun k : CanFrame => makeGroupName "CAN".toList s.filter k.groupBase
  [⟨name .data, s.store = .vlsd⟩, ⟨name .remote, false⟩, ⟨name .error, s.store = .vlsd⟩] ++
    (if s.mandatory then [] else [⟨name .overload, false⟩])

/-- `LinConfigAdapter::CreateConfig`.  linconfigadapter.cpp lines 12-106. -/
def linPlans (s : BcSettings) : List BcPlan :=
  let name := fun k : LinKind => makeGroupName "LIN".toList s.filter k.groupBase
  [LinKind.frame, .checksumError, .receiveError, .syncError, .transmissionError, .wakeUp, .spike, .longDom].map fun k => ⟨name k, false⟩

/-- `EthConfigAdapter::CreateConfig`.  ethconfigadapter.cpp lines 64-165. -/
def ethPlans (s : BcSettings) : List BcPlan :=
  [EthKind.frame, .checksumError, .lengthError, .receiveError].map fun k =>
    ⟨k.groupName, s.store ≠ .fixed && ((EthCfg.mk k s.mandatory s.mandatory).members.map (·.1)).contains .dataBytes⟩

/-- `MostConfigAdapter::CreateConfig`: MLSD storage becomes VLSD storage.  mostconfigadapter.cpp lines 14-205. -/
def mostPlans (s : BcSettings) : List BcPlan :=
  let name := fun k : MostKind => makeGroupName "MOST".toList s.filter k.groupBase
  let vlsd : Bool := s.store ≠ .fixed
  [⟨name .message, vlsd⟩, ⟨name .packet, vlsd⟩, ⟨name .ethernetPacket, vlsd⟩, ⟨name .signalState, false⟩, ⟨name .maxPosInfo, false⟩,
   ⟨name .boundDesc, false⟩, ⟨name .allocTable, vlsd⟩, ⟨name .sysLockState, false⟩, ⟨name .shutdownFlag, false⟩]

/-- `FlexRayConfigAdapter::CreateConfig`.  flexrayconfigadapter.cpp lines 15-182. -/
def flxPlans (s : BcSettings) : List BcPlan :=
  let name := fun k : FlxKind => makeGroupName "FlexRay".toList s.filter k.groupBase
  [FlxKind.frame, .pdu, .frameHeader, .nullFrame, .errorFrame, .symbol].map fun k =>
    ⟨name k, s.store ≠ .fixed && ((FlxCfg.mk k s.mandatory).members.map (·.1)).contains .dataBytes⟩

/-- `MdfBusType`, the bits of `MdfWriter::BusType`.  include/mdf/mdfenumerates.h lines 17-23. -/
inductive BusBit where
  | can | lin | flexRay | most | ethernet
deriving DecidableEq, Repr

def BusBit.mask : BusBit → BitVec 16
  | .can => 0x1
  | .lin => 0x2
  | .flexRay => 0x4
  | .most => 0x8
  | .ethernet => 0x10

def BusBit.plans : BusBit → BcSettings → List BcPlan
  | .can => canPlans
  | .lin => linPlans
  | .flexRay => flxPlans
  | .most => mostPlans
  | .ethernet => ethPlans

/-- The adapters `MdfWriter::CreateBusLogConfiguration` runs, in order; there is none for FlexRay.  mdfwriter.cpp lines 397-412. -/
def busLogPlans (busType : BitVec 16) (s : BcSettings) : List BcPlan :=
  (if busType &&& 0x1 ≠ 0 then canPlans s else []) ++ (if busType &&& 0x2 ≠ 0 then linPlans s else []) ++
    (if busType &&& 0x10 ≠ 0 then ethPlans s else []) ++ (if busType &&& 0x8 ≠ 0 then mostPlans s else [])

/-- `IDataGroup::IsEmpty`.  idatagroup.cpp lines 97-103. -/
def BcDg.isEmpty (dg : BcDg) : Bool := dg.all fun g => g.nof = 0

/-- `MdfWriter::CreateBusLogConfiguration`: the value returned and the data groups of the file.  `none` is a writer without header.
mdfwriter.cpp lines 372-414. -/
def createBusLog (header : Option (List BcDg)) (busType : BitVec 16) (s : BcSettings) : Bool × Option (List BcDg) :=
  match header with
  | none => (false, none)
  | some dgs =>
    if busType = 0 then (false, some dgs)
    else
      let dgs' := match dgs.getLast? with
        | none => dgs ++ [[]]
        | some last => if BcDg.isEmpty last then dgs else dgs ++ [[]]
      (true, some (dgs'.modify (dgs'.length - 1) (bcRun (busLogPlans busType s))))

end Mdf
