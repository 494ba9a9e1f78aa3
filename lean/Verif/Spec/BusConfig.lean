import Verif.Model.BusConfig

/-! What the groups of a bus log should look like. -/

namespace Mdf

/-- The groups of a data group refer to each other properly: named groups have different names, a group has at most one time master, a
VLSD group has no name and no data channel, the data channels refer to the record ids of VLSD groups, and no two to the same. -/
structure BcProper (dg : BcDg) : Prop where
  names : ∀ (i j : Nat) (g h : BcGroup), dg[i]? = some g → dg[j]? = some h → g.name = h.name → g.name ≠ [] → i = j
  masters : ∀ (i : Nat) (g : BcGroup), dg[i]? = some g → g.masters ≤ 1
  vlsd : ∀ (i : Nat) (g : BcGroup), dg[i]? = some g → g.vlsd = true → g.name = [] ∧ g.dataRef = none
  refs : ∀ (i : Nat) (g : BcGroup) (r : Nat), dg[i]? = some g → g.dataRef = some r → ∃ (j : Nat) (v : BcGroup), bcRecordId dg j = some r ∧ dg[j]? = some v ∧ v.vlsd = true
  differ : ∀ (i j : Nat) (g h : BcGroup) (r : Nat), dg[i]? = some g → dg[j]? = some h → g.dataRef = some r → h.dataRef = some r → i = j

/-- There is the group of a kind of message: a bus group with one time master, whose data channel refers to a VLSD group if it should. -/
def BcHas (dg : BcDg) (p : BcPlan) : Prop :=
  ∃ (i : Nat) (g : BcGroup), dg[i]? = some g ∧ g.name = p.name ∧ g.bus = true ∧ g.vlsd = false ∧ g.masters = 1 ∧
    (p.data = true → ∃ (r j : Nat) (v : BcGroup), g.dataRef = some r ∧ bcRecordId dg j = some r ∧ dg[j]? = some v ∧ v.vlsd = true)

/-- What is seen of a group besides the record id its data channel refers to. -/
def BcGroup.shape (g : BcGroup) : List Char × Bool × Bool × Nat × Nat := (g.name, g.vlsd, g.bus, g.masters, g.nof)

/-- The groups wanted for a kind of message. -/
def BcPlan.shapes (p : BcPlan) : List (List Char × Bool × Bool × Nat × Nat) :=
  (p.name, false, true, 1, 0) :: (if p.data then [([], true, false, 0, 0)] else [])

/-- The groups as `IDataGroup::GetChannelGroup` sees them. -/
def BcGroup.toLk (g : BcGroup) : LkCg := { name := g.name, nof := g.nof }

end Mdf
