import Verif.Model.Can

/-! Finding groups and channels by their names: ichannelgroup.cpp, idatagroup.cpp, mdfreader.cpp, cg4block.cpp, cg3block.cpp.

Null pointers in the lists are left out (the lists never hold any).  Names are lists of characters without NUL. -/

namespace Mdf

/-- A `std::string_view`: the text from where it begins to the next NUL (what `data()` is as a C string), and how much of it is seen. -/
structure NameView where
  text : List Char
  len : Nat
deriving DecidableEq, Repr

/-- The characters of the view. -/
def NameView.seen (v : NameView) : List Char := v.text.take v.len

/-- A view of a whole text. -/
def NameView.whole (s : List Char) : NameView := ⟨s, s.length⟩

/-- `ChannelType` (ichannel.h), as far as looked at. -/
inductive LkType where
  | fixed | master | virtualMaster | other
deriving DecidableEq, Repr

structure LkCn where
  name : List Char
  type : LkType := .fixed
  sync : Nat := 0                -- ChannelSyncType: 1 is Time
deriving DecidableEq, Repr

/-- A channel group; `channels` is `Channels()`, with the channels of compositions behind their channel. -/
structure LkCg where
  name : List Char
  recordId : Nat := 0
  nof : Nat := 0
  channels : List LkCn := []
deriving DecidableEq, Repr

/-- The position of the first element with a property: `std::find_if`. -/
def lkFind {α : Type} (p : α → Bool) : List α → Option Nat
  | [] => none
  | a :: as => if p a then some 0 else (lkFind p as).map (· + 1)

/-- `IDataGroup::GetChannelGroup(name)`.  idatagroup.cpp lines 120-138. -/
def lkGroup (cgs : List LkCg) (name : List Char) : Option Nat :=
  if name = [] then none
  else
    match lkFind (fun g => g.name = name) cgs with
    | some i => some i
    | none => if name.length > 3 then lkFind (fun g => containsName name g.name) cgs else none

/-- `IDataGroup::GetChannelGroup(record_id)`.  idatagroup.cpp lines 140-147. -/
def lkGroupById (cgs : List LkCg) (id : Nat) : Option Nat := lkFind (fun g => g.recordId = id) cgs

/-- `IDataGroup::CreateChannelGroup(name)`: the groups after the call and the one returned.  The comparison is with the view, the new group
gets the C string.  idatagroup.cpp lines 105-118. -/
def lkCreateGroup (cgs : List LkCg) (v : NameView) : List LkCg × Nat :=
  match lkFind (fun g => g.name = v.seen && !(v.seen = [])) cgs with
  | some i => (cgs, i)
  | none => (cgs ++ [{ name := v.text }], cgs.length)

/-- `IChannelGroup::CreateChannel(name)`: comparison and new name both with the C string.  The new channel comes last in `cn_list_`, and in
`Channels()`.  ichannelgroup.cpp lines 42-57, cg4block.cpp lines 345-378, 424-429. -/
def lkCreateChannel (cns : List LkCn) (v : NameView) : List LkCn × Nat :=
  match lkFind (fun c => c.name = v.text) cns with
  | some i => (cns, i)
  | none => (cns ++ [{ name := v.text }], cns.length)

/-- `IChannelGroup::GetChannel(name)`.  ichannelgroup.cpp lines 59-71. -/
def lkChannel (cns : List LkCn) (name : List Char) : Option Nat := lkFind (fun c => containsName name c.name) cns

def LkCn.isMaster (c : LkCn) : Bool := c.type = .master || c.type = .virtualMaster

/-- `IChannelGroup::GetMasterChannel`.  ichannelgroup.cpp lines 73-82. -/
def lkMaster (cns : List LkCn) : Option Nat := lkFind LkCn.isMaster cns

/-- `IChannelGroup::GetMasterTimeChannel`.  ichannelgroup.cpp lines 84-90. -/
def lkMasterTime (cns : List LkCn) : Option Nat :=
  match lkMaster cns with
  | some i => if (cns[i]?.map (·.sync)) = some 1 then some i else none
  | none => none

/-- The case of a letter, as `strcasecmp` in the C locale.  platform.cpp lines 15-21. -/
def lkFold (c : Char) : Char := if 'A'.toNat ≤ c.toNat ∧ c.toNat ≤ 'Z'.toNat then Char.ofNat (c.toNat + 32) else c

def lkSameName (a b : List Char) : Bool := a.map lkFold = b.map lkFold

/-- The inner loop of `CreateChannelObserver(dg_group, name)` over the channels of the group `g` (its position is `i`); the state is the
number of samples and the channel chosen so far.  mdfreader.cpp lines 194-207. -/
def lkScanGroup (name : List Char) (i : Nat) (g : LkCg) (st : Nat × Option (Nat × Nat)) : Nat × Option (Nat × Nat) :=
  (g.channels.zipIdx).foldl (fun st c =>
    if lkSameName name c.1.name then (if st.1 ≤ g.nof then (g.nof, some (i, c.2)) else st) else st) st

/-- `CreateChannelObserver(dg_group, name)`: the group and the channel the observer is made for.  mdfreader.cpp lines 182-213. -/
def lkObserved (cgs : List LkCg) (name : List Char) : Option (Nat × Nat) :=
  ((cgs.zipIdx).foldl (fun st g => lkScanGroup name g.2 g.1 st) (0, none)).2

/-- `CreateChannelObserverForDataGroup`: the channels observers are made for, in order.  mdfreader.cpp lines 227-245. -/
def lkObservedAll (cgs : List LkCg) : List (Nat × Nat) :=
  (cgs.zipIdx).flatMap fun g => if g.1.nof = 0 then [] else (List.range g.1.channels.length).map fun k => (g.2, k)

end Mdf
