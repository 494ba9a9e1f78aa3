import Verif.Model.ReadCache

/-!
Reading a range of samples.

Models `ReadCache::ParseRangeRecord` (/repo/mdflib/src/readcache.cpp lines 122-215), `DgRange`
(/repo/mdflib/src/dgrange.cpp), the loop of `Dg4Block::ReadRangeData` (/repo/mdflib/src/dg4block.cpp lines 345-447) and
`MdfReader::ReadPartialData` (/repo/mdflib/src/mdfreader.cpp lines 594-631) for an MDF 4 file.
-/

namespace Mdf

/-- The initial `IsUsed` flags (dgrange.cpp lines 18-45), by record id. -/
def RCfg.initUsed (cfg : RCfg) (lo : Nat) : Nat → Bool := fun id =>
  match cfg.groups.find? (·.id = id) with
  | none => false
  | some g => if g.vlsd = false ∧ lo > g.nof then false else cfg.subs g.id

/-- `DgRange::IsReady` (dgrange.cpp lines 57-62). -/
def RCfg.rangeReady (cfg : RCfg) (used : Nat → Bool) : Bool := cfg.groups.all fun g => !used g.id

/-- `cg_range->IsUsed(false)`. -/
def markRead (used : Nat → Bool) (id : Nat) : Nat → Bool := fun i => if i = id then false else used i

/-- The record part of `ParseRangeRecord` with `n` bytes (readcache.cpp lines 149-172, 178-203). -/
def RCfg.rangeBody (cfg : RCfg) (lo hi recordId : Nat) (g : RGroup) (n : Nat) (rc : RC) (st : RSt) (used : Nat → Bool) :
    Out (Bool × RSt × (Nat → Bool)) :=
  let next := st.sample g.id + 1
  if used recordId = false ∨ next < lo ∨ next > hi then
    (rc.skipBytes n).bind fun rc =>
      .ok (true, { st with rc := rc, sample := bumpSample g st.sample }, if next > hi then markRead used recordId else used)
  else if cfg.subs recordId = false then
    (rc.skipBytes n).bind fun rc => .ok (true, { st with rc := rc, sample := bumpSample g st.sample }, used)
  else
    (rc.getArray n).bind fun r =>
      if st.sample g.id < g.nof then
        let ev := st.events ++ [⟨st.sample g.id, g.id, r.1⟩]
        .ok (cfg.cont ev, { rc := r.2, sample := bumpSample g st.sample, events := ev }, used)
      else .ok (true, { st with rc := r.2 }, used)

/-- The body of `ParseRangeRecord` inside `try` (readcache.cpp lines 131-204). -/
def RCfg.rangeOne (cfg : RCfg) (lo hi : Nat) (st : RSt) (used : Nat → Bool) : Out (Bool × RSt × (Nat → Bool)) :=
  (cfg.parseRecordId st.rc).bind fun r =>
    if cfg.groups.find? (·.id = r.1) = none then .throw
    else
      match cfg.find r.1 with
      | none => .throw
      | some g =>
        if g.vlsd then
          (r.2.getArray 4).bind fun l => cfg.rangeBody lo hi r.1 g (leNat l.1) l.2 st used
        else cfg.rangeBody lo hi r.1 g g.size r.2 st used

/-- `ParseRangeRecord` and the loop `while (ParseRangeRecord(range)) {}` (dg4block.cpp lines 431-433), with at most
`fuel` iterations. -/
def RCfg.rangeLoop (cfg : RCfg) (lo hi : Nat) : (fuel : Nat) → RSt → (Nat → Bool) → Run
  | 0, _, _ => .running
  | fuel + 1, st, used =>
    if cfg.groups = [] ∨ st.rc.count ≥ st.rc.max then .done st.events
    else
      match cfg.rangeOne lo hi st used with
      | .ub => .ub
      | .throw => .done st.events
      | .ok (c, st, used) => if c && !cfg.rangeReady used then cfg.rangeLoop lo hi fuel st used else .done st.events

/-- `MdfReader::ReadPartialData(data_group, min_sample, max_sample)`. -/
def RCfg.readPartial (cfg : RCfg) (minSample maxSample fuel : Nat) (blocks : List Blk) (file : Bytes) : Run :=
  let hi := if maxSample < minSample then minSample else maxSample
  cfg.rangeLoop minSample hi fuel { rc := RC.init blocks file, sample := fun _ => 0, events := [] } (cfg.initUsed minSample)

end Mdf
