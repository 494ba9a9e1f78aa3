import Verif.Spec.Block

/-!
# Which block is written before another is begun

A link to a block of somebody else (`Info.refs`) can only be set if that block has its place in the file.  Here the order of
writing is read off the tree.
-/

namespace Mdf

mutual
/-- Block `t` of the tree is written before the writing of block `h` begins.  The writing of a block begins, then the blocks of the lists in
`pre` are written, then the block itself gets its place, then those in `post` are written. -/
def Node.before (t h : Nat) : Node → Prop
  | .mk id pre post => pre.before t h ∨ post.before t h ∨ (h ∈ post.ids ∧ (t = id ∨ t ∈ pre.ids))
def Slots.before (t h : Nat) : Slots → Prop
  | .nil => False
  | .cons _ kids rest => kids.before t h ∨ rest.before t h ∨ (t ∈ kids.ids ∧ h ∈ rest.ids)
def Kids.before (t h : Nat) : Kids → Prop
  | .nil => False
  | .cons n rest => n.before t h ∨ rest.before t h ∨ (t ∈ n.ids ∧ h ∈ rest.ids)
end

/-- Each of the links to blocks of others is one of its own, within the list of links. -/
def Info.RefsOk (inf : Info) : Prop := (inf.refs.map (·.1)).Nodup ∧ ∀ r ∈ inf.refs, r.1 < inf.nlinks

end Mdf
