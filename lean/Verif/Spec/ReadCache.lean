import Verif.Model.ReadCache

/-!
Specification of reading: what the observers shall get for a sequence of records.
-/

namespace Mdf

/-- The group of a record id in the data group. -/
def RCfg.group (cfg : RCfg) (id : Nat) : Option RGroup := cfg.groups.find? (·.id = id)

/-- A well-formed data group: different record ids that fit the id size; without id field there is one group,
and its records are not empty. -/
structure RCfg.Ok (cfg : RCfg) : Prop where
  distinct : (cfg.groups.map (·.id)).Nodup
  width : cfg.idSize = 0 ∨ cfg.idSize = 1 ∨ cfg.idSize = 2 ∨ cfg.idSize = 4 ∨ cfg.idSize = 8
  fits : cfg.idSize ≠ 0 → ∀ g ∈ cfg.groups, g.id < 256 ^ cfg.idSize
  single : cfg.idSize = 0 → cfg.groups.length = 1
  progress : cfg.idSize = 0 → ∀ g ∈ cfg.groups, g.vlsd = false → 0 < g.size

/-- A record that belongs to a group of the data group. -/
def RCfg.ValidRec (cfg : RCfg) (r : Rec) : Prop :=
  ∃ g, cfg.group r.id = some g ∧ (if g.vlsd then r.data.length < 2 ^ 32 else r.data.length = g.size)

/-- The data bytes of a sequence of records. -/
def RCfg.encode (cfg : RCfg) (recs : List Rec) : Bytes :=
  recs.flatMap fun r => encodeRec cfg.idSize (((cfg.group r.id).map (·.vlsd)).getD false) r

/-- `NofSamples` of the group with the given id. -/
def RCfg.nof (cfg : RCfg) (id : Nat) : Nat := ((cfg.group id).map (·.nof)).getD 0

/-- What the observers shall get for the records `recs` that come after the records `before`: for every record of
a subscribed group its bytes, its group's record id and its index in the group (the number of earlier
records of the same group), as long as the index is below the group's sample count. -/
def RCfg.deliver (cfg : RCfg) : (before : List Rec) → List Rec → List Event
  | _, [] => []
  | before, r :: rs =>
    let k := before.countP (·.id = r.id)
    let tail := RCfg.deliver cfg (before ++ [r]) rs
    if cfg.subs r.id = true ∧ k < cfg.nof r.id then ⟨k, r.id, r.data⟩ :: tail else tail

/-- The observers may stop the reading: the events up to and including the one that is answered with `false`. -/
def cutAt (cont : List Event → Bool) : (seen : List Event) → List Event → List Event
  | _, [] => []
  | seen, e :: es => if cont (seen ++ [e]) then e :: cutAt cont (seen ++ [e]) es else [e]

/-- Bytes at the end of the data that are not a complete record: too short for the record id, an id without group,
too short for the length field or (of a subscribed group) too short for the record bytes. -/
def RCfg.Tail (cfg : RCfg) (t : Bytes) : Prop :=
  t = [] ∨ t.length < cfg.idSize ∨
  (cfg.idSize ≠ 0 ∧ 1 < cfg.groups.length ∧ cfg.group (leNat (t.take cfg.idSize)) = none) ∨
  ∃ g, g ∈ cfg.groups ∧ (cfg.idSize ≠ 0 → leNat (t.take cfg.idSize) = g.id) ∧
    (if g.vlsd then t.length < cfg.idSize + 4 ∨
        (cfg.subs g.id = true ∧ t.length < cfg.idSize + 4 + leNat ((t.drop cfg.idSize).take 4))
     else cfg.subs g.id = true ∧ t.length < cfg.idSize + g.size)

/-- A block list that holds the given bytes, without empty blocks. -/
structure Holds (blocks : List Blk) (stream : Bytes) : Prop where
  nonempty : ∀ b ∈ blocks, b.data ≠ []
  flat : blocks.flatMap (·.data) = stream

/-! ### Reading a plain byte string

The reader as it would be if the data were one contiguous byte string, without blocks, file positions or
counters. -/

inductive Flat where
  | /-- no (complete) record left -/ stop
  | /-- the data end inside a record of a group nobody subscribes on -/ cut
  | /-- a record has been taken from the front -/ next (goOn : Bool) (sample : Nat → Nat) (events : List Event) (rest : Bytes)

/-- The record bytes: delivered if subscribed, else passed over. -/
def RCfg.flatBody (cfg : RCfg) (id : Nat) (g : RGroup) (n : Nat) (sample : Nat → Nat) (events : List Event) (S : Bytes) : Flat :=
  if S.length < n then (if cfg.subs id then .stop else .cut)
  else
    let sample' := if sample g.id < g.nof then fun i => if i = g.id then sample g.id + 1 else sample i else sample
    if cfg.subs id ∧ sample g.id < g.nof then
      let ev := events ++ [⟨sample g.id, g.id, S.take n⟩]
      .next (cfg.cont ev) sample' ev (S.drop n)
    else .next true sample' events (S.drop n)

/-- One record from the front of `S`. -/
def RCfg.flatOne (cfg : RCfg) (sample : Nat → Nat) (events : List Event) (S : Bytes) : Flat :=
  if S.length < cfg.idSize then .stop
  else
    let id := if cfg.idSize = 0 then ((cfg.groups.head?).map (·.id)).getD 0 else leNat (S.take cfg.idSize)
    let S := S.drop cfg.idSize
    match (if cfg.groups.length = 1 then cfg.groups.head? else cfg.group id) with
    | none => .stop
    | some g =>
      if g.vlsd then
        if S.length < 4 then .stop else cfg.flatBody id g (leNat (S.take 4)) sample events (S.drop 4)
      else cfg.flatBody id g g.size sample events S

/-- All records of `S`; `none` if the data end inside a record nobody subscribes on. -/
def RCfg.flatLoop (cfg : RCfg) : (fuel : Nat) → (Nat → Nat) → List Event → Bytes → Option (List Event)
  | 0, _, events, _ => some events
  | fuel + 1, sample, events, S =>
    if S = [] then some events
    else
      match cfg.flatOne sample events S with
      | .stop => some events
      | .cut => none
      | .next c sample events S => if c then cfg.flatLoop fuel sample events S else some events

/-- The events for the byte string `S` (every record is at least one byte long). -/
def RCfg.flat (cfg : RCfg) (S : Bytes) : Option (List Event) := cfg.flatLoop S.length (fun _ => 0) [] S

end Mdf
