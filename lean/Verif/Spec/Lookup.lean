import Verif.Model.Comment

/-!
# Where a property of a comment is, and its path
-/

namespace Mdf

/-- Below the tree `t`, the entry `x` (a property with `items := MdTree.props`, an enumeration with `items := MdTree.enums`) has the path
`path`: the names of the trees and lists on the way, and at last its own. -/
inductive MdTree.Has {α : Type} (items : MdTree → List α) (key : α → Bytes) : MdTree → List Bytes → α → Prop
  | here {t : MdTree} {x : α} : x ∈ items t → Has items key t [key x] x
  | inside {t s : MdTree} {path : List Bytes} {x : α} : s ∈ t.trees ∨ s ∈ t.lists → Has items key s path x → Has items key t (s.name :: path) x

/-- A path as text, as `a/b/c`. -/
def pathText : List Bytes → Bytes
  | [] => []
  | [n] => n
  | n :: m :: rest => n ++ 0x2F#8 :: pathText (m :: rest)

/-- A path that can be told from its text. -/
def GoodPath (path : List Bytes) : Prop := ∀ n ∈ path, 0x2F#8 ∉ n

mutual
/-- All entries at least `k` levels below the tree, in the order: its own, those of its trees, those of its lists. -/
def MdTree.deep {α : Type} (items : MdTree → List α) (k : Nat) : MdTree → List α
  | .mk s n d p trees lists e =>
    (if k = 0 then items (.mk s n d p trees lists e) else []) ++ treesDeep items (k - 1) trees ++ treesDeep items (k - 1) lists
/-- The same of several trees. -/
def treesDeep {α : Type} (items : MdTree → List α) (k : Nat) : List MdTree → List α
  | [] => []
  | t :: ts => t.deep items k ++ treesDeep items k ts
end

/-- The number of slashes in a text. -/
def slashes (s : Bytes) : Nat := s.count 0x2F#8

/-- The text behind the last slash. -/
def lastPart (s : Bytes) : Bytes := (s.reverse.takeWhile (· ≠ 0x2F#8)).reverse

end Mdf
