import Verif.Model.Channel

/-!
Record ids of the channel groups of a data group.

Models /repo/mdflib/src/dg4block.cpp `Dg4Block::AddCg4` and the record id part of
/repo/mdflib/src/cg4block.cpp `Cg4Block::WriteSample` and /repo/mdflib/src/readcache.cpp
`ReadCache::ParseRecordId`.
-/

namespace Mdf

/-- The record id size chosen by `Dg4Block::AddCg4` for `n` channel groups (dg4block.cpp lines 643-653). -/
def recIdSize (n : Nat) : Nat :=
  if n < 2 then 0
  else if n < 0x100 then 1
  else if n < 0x10000 then 2
  else if n < 0x100000000 then 4
  else 8

/-- The ids given to `n` channel groups (dg4block.cpp lines 655-660). -/
def recIds (n : Nat) : List Nat := (List.range n).map fun k => (if n < 2 then 0 else 1) + k

/-- A data group as far as record ids are concerned: the id size and the ids of the groups in order. -/
structure DgIds where
  idSize : Nat
  ids : List Nat
deriving DecidableEq, Repr

/-- `Dg4Block::AddCg4` (dg4block.cpp lines 638-661): a group is added and all ids are given anew. -/
def DgIds.addCg (d : DgIds) : DgIds :=
  let n := d.ids.length + 1
  { idSize := recIdSize n, ids := recIds n }

/-- A new data group (dg4block.h: `rec_id_size_ = 0`, no groups). -/
def DgIds.new : DgIds := { idSize := 0, ids := [] }

/-- The record id written before a sample (cg4block.cpp lines 494-520): the id cast to the width of the
id size. -/
def writeRecordId (idSize id : Nat) : Bytes :=
  match idSize with
  | 0 => []
  | 1 => leBytes 1 id
  | 2 => leBytes 2 id
  | 4 => leBytes 4 id
  | _ => leBytes 8 id

end Mdf
