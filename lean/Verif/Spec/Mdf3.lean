import Verif.Model.Mdf3

/-!
Specification vocabulary for MDF 3 files.
-/

namespace Mdf

/-- The record ids of a data group fit in a byte and are different. -/
structure Groups3 (groups : List Cg3) : Prop where
  distinct : (groups.map (·.id)).Nodup
  byte : ∀ g ∈ groups, g.id < 256

/-- The groups after creating groups with records of the given sizes (`CreateChannelGroup`). -/
def newGroups3 (sizes : List Nat) : List Cg3 :=
  sizes.foldl (fun gs n => addCg3 gs { id := 0, size := n, nof := 0, sample := 0 }) []

/-- The record ids are written if (and only if) there are several groups. -/
def Ids3 (idBytes : Nat) (groups : List Cg3) : Prop :=
  idBytes = 1 ∨ idBytes = 2 ∨ (idBytes = 0 ∧ groups.length = 1)

/-- The sample belongs to a group of the data group, and its record has the (non-zero) size of the group. -/
def Fits3 (groups : List Cg3) (s : Sample) : Prop := ∃ g ∈ groups, g.id = s.id ∧ s.data.length = g.size ∧ 0 < g.size

/-- The samples as the user shall get them: in the order they were saved, with the number of earlier samples of the same
group as sample number. -/
def events3 (l : List Sample) : List Event :=
  l.mapIdx fun i s => ⟨(l.take i).countP (·.id = s.id), s.id, s.data⟩

/-- The observers may end the reading: the samples up to and including the first one after which they do not want more. -/
def upTo (go : Event → Bool) : List Event → List Event
  | [] => []
  | e :: es => if go e then e :: upTo go es else [e]

/-- The samples for `l` that come after the samples `before`, if only the first `nof id` samples of a group count. -/
def deliver3 (nof : Nat → Nat) : (before : List Sample) → List Sample → List Event
  | _, [] => []
  | before, s :: l =>
    let k := before.countP (·.id = s.id)
    (if k < nof s.id then [⟨k, s.id, s.data⟩] else []) ++ deliver3 nof (before ++ [s]) l

/-- The records needed to cover the first `left` bytes. -/
def cover3 (idBytes : Nat) : (left : Nat) → List Sample → List Sample
  | _, [] => []
  | left, s :: l => if left = 0 then [] else s :: cover3 idBytes (left - (record3 idBytes s).length) l

/-- The bytes of the samples. -/
def stream3 (idBytes : Nat) (l : List Sample) : Bytes := (l.map (record3 idBytes)).flatten

/-- The samples of data group `i` in a history: those added since it was saved last, and those saved. -/
def saved3 (i : Nat) (ops : List M3Op) : List Sample × List Sample :=
  ops.foldl (fun st op =>
    match op with
    | .add j s => if j = i then (st.1 ++ [s], st.2) else st
    | .clean j => if j = i then ([], st.2 ++ st.1) else st) ([], [])

/-- The writer saves a data group while measuring only if it is the only one, otherwise once at the end (`SaveQueue`,
/repo/mdflib/src/samplequeue.cpp lines 88-98). -/
def Schedule3 (n : Nat) (ops : List M3Op) : Prop := n = 1 ∨ ∀ i, ops.count (.clean i) ≤ 1

end Mdf
