import Verif.Model.ReadCache

/-!
Observers of a data group.

Models the observer list of /repo/mdflib/src/idatagroup.cpp (`AttachSampleObserver`, `DetachSampleObserver`,
`DetachAllSampleObservers`, `InitFastObserverList`, `NotifySampleObservers`, `IsSubscribingOnRecord`),
/repo/mdflib/src/isampleobserver.cpp and the channel observer of /repo/mdflib/src/channelobserver.h.

An observer is given by a number (its address).  `needs` is its `record_id_list_`, which may change while the observer is attached
(`IChannelObserver::ReadVlsdData`).  The record of a sample and the values decoded from it are the subject of
`Verif.Model.Channel`; here the decoding is a function.
-/

namespace Mdf

/-- What happens to the observer list. -/
inductive OOp where
  | /-- `AttachSampleObserver` -/ attach (o : Nat)
  | /-- `DetachSampleObserver` -/ detach (o : Nat)
  | /-- `DetachAllSampleObservers` -/ detachAll
deriving DecidableEq, Repr

/-- `observer_list_` after an operation (idatagroup.cpp lines 16-40). -/
def obsStep (l : List Nat) : OOp → List Nat
  | .attach o => l ++ [o]
  | .detach o => l.filter (· ≠ o)
  | .detachAll => []

def obsRun (ops : List OOp) : List Nat := ops.foldl obsStep []

/-- The constructor of a channel observer attaches it twice: once in the constructor of `ISampleObserver` (isampleobserver.cpp line
14) and once in its own (channelobserver.h line 53).  A plain sample observer is attached once. -/
def newChannelObserver (o : Nat) : List OOp := [.attach o, .attach o]

/-- `InitFastObserverList` (idatagroup.cpp lines 195-216): for each record id with observers those that need it.  `emplace` keeps the
first entry of a record id. -/
def fastList (needs : Nat → List Nat) (groups : List Nat) (obs : List Nat) : List (Nat × List Nat) :=
  groups.foldl (fun fast id =>
    let temp := obs.filter fun o => (needs o).contains id
    if temp = [] ∨ fast.any (·.1 = id) then fast else fast ++ [(id, temp)]) []

/-- The loop over observers (idatagroup.cpp lines 49-58, 66-73): the observers called and `continue_reading`.  `ans` is what the last
of the called observers answers. -/
def callLoop (ans : List Nat → Bool) : (called : List Nat) → List Nat → List Nat × Bool
  | called, [] => (called, true)
  | called, o :: os => if ans (called ++ [o]) then callLoop ans (called ++ [o]) os else (called ++ [o], false)

/-- `NotifySampleObservers` (idatagroup.cpp lines 42-76) for a record id: the observers called, in order, and the result. -/
def notifyObs (fast : List (Nat × List Nat)) (obs : List Nat) (ans : List Nat → Bool) (id : Nat) : List Nat × Bool :=
  if fast = [] then ([], false)
  else if fast.length = 1 then callLoop ans [] obs
  else
    match fast.find? (·.1 = id) with
    | none => ([], true)
    | some e => callLoop ans [] e.2

/-- `IsSubscribingOnRecord` (idatagroup.cpp lines 149-155). -/
def subscribing (needs : Nat → List Nat) (obs : List Nat) (id : Nat) : Bool := obs.any fun o => (needs o).contains id

/-- The notifications an observer gets while the events of a reading are delivered and nobody asks to stop. -/
def received (needs : Nat → List Nat) (groups obs : List Nat) (o : Nat) (events : List Event) : List Event :=
  events.flatMap fun e =>
    List.replicate ((notifyObs (fastList needs groups obs) obs (fun _ => true) e.id).1.count o) e

/-! ### Channel observers -/

/-- The cases of `ChannelObserver::OnSample`. -/
inductive ObsKind where
  | /-- `VirtualMaster`, `VirtualData` -/ virtual
  | /-- `VariableLength` -/ vlsd
  | /-- all others -/ fixed
deriving DecidableEq, Repr

/-- What a channel observer knows about its channel: `record_id_`, `VlsdRecordId()`, `ArraySize()`, `NofSamples()` of its group,
`ReadVlsdData()`, `T{}`, and the decoding: `GetChannelValue`, `GetUnsignedValue`, `GetVirtualSample`. -/
structure ObsCfg (α : Type) where
  kind : ObsKind
  recordId : Nat
  vlsdId : Nat
  arraySize : Nat
  nof : Nat
  readVlsd : Bool
  default : α
  value : Bytes → Nat → Bool × α
  offset : Bytes → Nat → Bool × Nat
  virt : Nat → α

/-- `valid_list_`, `value_list_`, `offset_list_`. -/
structure ObsSt (α : Type) where
  valid : List Bool
  value : List α
  offset : List Nat
deriving DecidableEq, Repr

/-- The constructor (channelobserver.h lines 38-54). -/
def ObsCfg.init {α : Type} (c : ObsCfg α) : ObsSt α :=
  { valid := List.replicate (c.nof * c.arraySize) false, value := List.replicate (c.nof * c.arraySize) c.default,
    offset := if c.kind = .vlsd then List.replicate (c.nof * c.arraySize) 0 else [] }

/-- `sample_index` (channelobserver.h lines 92, 113, ...), `uint64_t` arithmetic. -/
def ObsCfg.index {α : Type} (c : ObsCfg α) (sample j : Nat) : Nat := (sample * c.arraySize + j) % 2 ^ 64

/-- Store a value and its validity; `List.set` does nothing out of range, as the checks of the code. -/
def ObsSt.put {α : Type} (s : ObsSt α) (i : Nat) (r : Bool × α) : ObsSt α :=
  { s with valid := s.valid.set i r.1, value := s.value.set i r.2 }

def ObsSt.putOffset {α : Type} (s : ObsSt α) (i : Nat) (r : Bool × Nat) : ObsSt α :=
  { s with valid := s.valid.set i r.1, offset := s.offset.set i r.2 }

/-- The body of the loops over the array index of `OnSample` (channelobserver.h lines 84-163). -/
def ObsCfg.store {α : Type} (c : ObsCfg α) (e : Event) (s : ObsSt α) (j : Nat) : ObsSt α :=
  match c.kind with
  | .virtual => if c.recordId = e.id then s.put (c.index e.sample j) (true, c.virt e.sample) else s
  | .vlsd =>
    if c.recordId = e.id then
      let s := s.putOffset (c.index e.sample j) (c.offset e.data j)
      if c.readVlsd ∧ c.vlsdId = 0 then s.put (c.index e.sample j) (c.value e.data j) else s
    else if c.vlsdId > 0 ∧ e.id = c.vlsdId then s.put (c.index e.sample j) (c.value e.data j)
    else s
  | .fixed => if c.recordId = e.id then s.put (c.index e.sample j) (c.value e.data j) else s

/-- `ChannelObserver::OnSample` (channelobserver.h lines 71-166). -/
def ObsCfg.onSample {α : Type} (c : ObsCfg α) (s : ObsSt α) (e : Event) : ObsSt α :=
  if e.id = c.recordId ∨ (c.vlsdId > 0 ∧ e.id = c.vlsdId) then (List.range c.arraySize).foldl (c.store e) s else s

def ObsCfg.onSamples {α : Type} (c : ObsCfg α) (events : List Event) : ObsSt α := events.foldl c.onSample c.init

/-- `GetSampleUnsigned` and so on (channelobserver.h lines 172-228): validity and value. -/
def ObsCfg.get {α : Type} (c : ObsCfg α) (s : ObsSt α) (sample j : Nat) : Bool × α :=
  (s.valid.getD (c.index sample j) false, s.value.getD (c.index sample j) c.default)

/-- `GetSampleByteArray` of an observer of byte arrays (channelobserver.cpp lines 91-98): the array index is not used. -/
def ObsCfg.getBytes {α : Type} (c : ObsCfg α) (s : ObsSt α) (sample : Nat) : Bool × α :=
  (s.valid.getD sample false, s.value.getD sample c.default)

end Mdf
