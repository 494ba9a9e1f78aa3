import Verif.Model.Array
import Verif.Spec.Block

/-!
# What is kept of an array

Independent of how the block is written: which of the values set on an array are given back after reading.
-/

namespace Mdf

/-- The first `n` values of a list, `x` where the list has none. -/
def firstN {α : Type} (l : List α) (n : Nat) (x : α) : List α := (List.range n).map fun i => l.getD i x

/-- The number of values of an array with these dimensions; a dimension of size zero counts as one. -/
def shapeProduct : List Nat → Nat
  | [] => 1
  | d :: ds => max d 1 * shapeProduct ds

/-- The number of values on the axes. -/
def shapeSum : List Nat → Nat
  | [] => 0
  | d :: ds => d + shapeSum ds

/-- The shape of the array as numbers. -/
def CaDef.shape (a : CaDef) : List Nat := a.dims.map BitVec.toNat

/-- Cycle counters are kept for the storage types `CgTemplate` (1) and `DgTemplate` (2). -/
def CaDef.counts (a : CaDef) : Prop := a.storage = 1#8 ∨ a.storage = 2#8

/-- What a reader gets of the array `a`.  Bits of the flags: 0 dynamic size, 1 input quantity, 2 output quantity, 3 comparison quantity,
4 axis, 5 fixed axis.  A list is kept if its flag is set; it then has as many entries as the shape asks for. -/
structure ReadAs (a r : CaDef) : Prop where
  type : r.type = a.type
  storage : r.storage = a.storage
  flags : r.flags = a.flags
  shape : r.dims = a.dims
  dimensions : r.dimensions = a.dimensions
  byteBase : r.byteBase = a.byteBase
  invalidBase : r.invalidBase = a.invalidBase
  axis : a.flags.getLsbD 5 = true → r.axisValues = firstN a.axisValues (shapeSum a.shape) 0
  noAxis : a.flags.getLsbD 5 = false → r.axisValues = []
  cycles : a.counts → r.cycles = firstN a.cycles (shapeProduct a.shape) 0
  noCycles : ¬ a.counts → r.cycles = []
  dataLinks : a.storage = 2#8 → r.dataLinks = firstN a.dataLinks (shapeProduct a.shape) 0
  noDataLinks : a.storage ≠ 2#8 → r.dataLinks = []
  dynamicSizes : a.flags.getLsbD 0 = true → r.dynamicSizes = firstN a.dynamicSizes a.dims.length .none
  noDynamicSizes : a.flags.getLsbD 0 = false → r.dynamicSizes = []
  inputs : a.flags.getLsbD 1 = true → r.inputs = firstN a.inputs a.dims.length .none
  noInputs : a.flags.getLsbD 1 = false → r.inputs = []
  output : a.flags.getLsbD 2 = true → r.output = a.output
  noOutput : a.flags.getLsbD 2 = false → r.output = .none
  comparison : a.flags.getLsbD 3 = true → r.comparison = a.comparison
  noComparison : a.flags.getLsbD 3 = false → r.comparison = .none
  conversions : a.flags.getLsbD 4 = true → r.conversions = firstN a.conversions a.dims.length 0
  noConversions : a.flags.getLsbD 4 = false → r.conversions = []
  axes : a.flags.getLsbD 4 = true → a.flags.getLsbD 5 = false → r.axes = firstN a.axes a.dims.length .none
  noAxes : ¬ (a.flags.getLsbD 4 = true ∧ a.flags.getLsbD 5 = false) → r.axes = []

def CaRef.Valid (r : CaRef) : Prop := r.dg < 2 ^ 63 ∧ r.cg < 2 ^ 63 ∧ r.cn < 2 ^ 63

/-- All positions are positions in a file. -/
structure CaDef.ValidRefs (a : CaDef) : Prop where
  dataLinks : ∀ l ∈ a.dataLinks, l < 2 ^ 63
  dynamicSizes : ∀ r ∈ a.dynamicSizes, r.Valid
  inputs : ∀ r ∈ a.inputs, r.Valid
  output : a.output.Valid
  comparison : a.comparison.Valid
  conversions : ∀ l ∈ a.conversions, l < 2 ^ 63
  axes : ∀ r ∈ a.axes, r.Valid

/-- The array stands at a position of a file: with the links and values `Write` gave, and a link to a next array. -/
def CaDef.StandsAt (a : CaDef) (data : Bytes) (pos : Nat) : Prop :=
  ∃ links body next, a.write = some (links, body) ∧ next < 2 ^ 63 ∧ 24 + 8 * links.length + body.length < 2 ^ 63 ∧
    HasAt data pos (headerBytes [0x23, 0x23, 0x43, 0x41] (24 + 8 * links.length + body.length) (links.set 0 next) ++ body)

end Mdf
