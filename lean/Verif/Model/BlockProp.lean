import Verif.Model.CommentApi

/-!
# Links in lists of properties

The list of properties of a block (`GetBlockProperty`) shows its links as text; `BlockProperty::Link` makes the link of the text.
/repo/mdflib/src/blockproperty.cpp, mdfblock.h lines 60-70, ch4block.cpp lines 21-41.  The descriptions of properties are left out.
-/

namespace Mdf

/-- `BlockItemType`.  blockproperty.h lines 10-15. -/
inductive BlockItem | normal | link | header | blank
deriving DecidableEq, Repr

/-- `ToHexString` of an `int64_t`: a stream shows negative numbers as unsigned ones.  mdfblock.h lines 60-70. -/
def linkText (v : BitVec 64) : Bytes := hexText v.toNat

/-- `stream >> std::hex >> pos` for an `int64_t`: 0 without digits, the largest or smallest number if it is too large.  Standard library. -/
def streamHex (s : Bytes) : Int :=
  let n := hexNumber (skipHex (numSign s).2)
  if (numSign s).1 then (if 2 ^ 63 < n then -2 ^ 63 else -(n : Int))
  else if 2 ^ 63 ≤ n then 2 ^ 63 - 1 else n

/-- `BlockProperty::Link`.  blockproperty.cpp lines 18-34. -/
def propLink (type : BlockItem) (value : Bytes) : Int :=
  if type ≠ .link then 0
  else if value.length ≤ 2 then 0
  else streamHex (value.drop 2)

/-- `MdfBlock::Link`.  mdfblock.h lines 128-130. -/
def blockLink (links : List (BitVec 64)) (i : Nat) : BitVec 64 := links.getD i 0

/-- The labels of the links of a CH block; `dg`, `cg`, `cn` are the references of the `i`-th element. -/
inductive ChLabel | next | first | name | comment | dg (i : Nat) | cg (i : Nat) | cn (i : Nat)
deriving DecidableEq, Repr

/-- The link properties of `Ch4Block::GetBlockProperty`: label and value.  `3 * ii` is a number of 32 bits.  ch4block.cpp lines 24-41. -/
def chLinkProps (links : List (BitVec 64)) (elements : Nat) : List (ChLabel × Bytes) :=
  [(.next, linkText (blockLink links 0)), (.first, linkText (blockLink links 0)), (.name, linkText (blockLink links 0)),
    (.comment, linkText (blockLink links 3))] ++
  (List.range elements).flatMap fun i =>
    [(.dg i, linkText (blockLink links (4 + 3 * i % 2 ^ 32))), (.cg i, linkText (blockLink links (4 + 3 * i % 2 ^ 32 + 1))),
      (.cn i, linkText (blockLink links (4 + 3 * i % 2 ^ 32 + 2)))]

end Mdf
