import Verif.Model.ReadCache

/-!
Variable length signal data (VLSD).

Models the signal data kept by a variable length channel (/repo/mdflib/src/cn4block.cpp `SetTextValue`,
`SetByteArray`, `WriteSdSample`, `GetByteArrayValue`, `WriteSignalData`; /repo/mdflib/src/sd4block.cpp `AppendData`;
/repo/mdflib/src/vlsddata.cpp), the VLSD channel groups (/repo/mdflib/src/cg4block.cpp `WriteVlsdSample`,
`WriteCompressedVlsdSample`) and the reading of VLSD values by offset (/repo/mdflib/src/readcache.cpp
`ParseSignalData`, `ParseSignalDataOffset`, `ParseVlsdCgData`; /repo/mdflib/src/dg4block.cpp `ReadVlsdData`).

The map `data_map_` (`sorted_data_` in the SD block) is searched for equal values but nothing is ever inserted in it,
so the search always fails and every value is appended.
-/

namespace Mdf

/-- Appending a value (cn4block.cpp lines 820-824, 849-853, 1275-1285; sd4block.cpp lines 33-44): the offset of the value
and the new signal data.  The length is cast to `uint32_t`. -/
def sdAppend (data v : Bytes) : Nat × Bytes := (data.length, data ++ leBytes 4 v.length ++ v)

/-- `Cn4Block::SetByteArray` of a variable length channel (cn4block.cpp lines 837-864): the record buffer and the signal
data.  `SetTextValue` (lines 808-835) does the same with the text and its terminating zero (vlsddata.cpp lines
11-15). The offset is always stored with `valid = true`. -/
def Chan.vlsdSet (c : Chan) (v : Bytes) (valid : Bool) (data buf : Bytes) : Option (Bytes × Bytes) :=
  let buf := c.setValid valid 0 buf
  let r := sdAppend data v
  if c.bitCount = 0 then some (c.setValid false 0 buf, r.2)
  else (c.setUnsignedLe (BitVec.ofNat 64 r.1) true 0 buf).map fun buf => (buf, r.2)

/-- The value at an offset of the signal data (cn4block.cpp lines 776-789, and 652-666 for a text), in 64 bit arithmetic.
`fail` is the early `return false`, else the validity and the bytes. -/
def sdGet (data : Bytes) (index : Nat) : Res (Bool × Bytes) :=
  if (index + 4) % 2 ^ 64 > data.length then .fail
  else if data.length < index + 4 then .ub
  else
    let len := leNat ((data.drop index).take 4)
    if (index + 4 + len) % 2 ^ 64 ≤ data.length then
      if data.length < index + 4 + len then .ub
      else .ok (true, (data.drop (index + 4)).take len)
    else .ok (false, List.replicate len 0)

/-- `Cn4Block::GetByteArrayValue` of a variable length channel with signal data (cn4block.cpp lines 754-789).  If the
offset cannot be read from the record, offset 0 is used and the value is not valid. -/
def Chan.vlsdGet (c : Chan) (record data : Bytes) : Res (Bool × Bytes) :=
  match c.getUnsigned record 0 with
  | .ub => .ub
  | .fail =>
    match sdGet data 0 with
    | .ok r => .ok (false, r.2)
    | r => r
  | .ok index => sdGet data index.toNat

/-- The compressed signal data blocks of `Cn4Block::WriteSignalData` (cn4block.cpp lines 1233-1258): a block is closed
when it has `max` (`kMaxDataSize`) bytes.  `cur` is the block under construction. -/
def sdChunks (max : Nat) : (cur : Bytes) → Bytes → List Bytes
  | cur, [] => if cur = [] then [] else [cur]
  | cur, b :: bs =>
    let cur := cur ++ [b]
    if cur.length + 1 > max then cur :: sdChunks max [] bs else sdChunks max cur bs

/-- `Cn4Block::WriteSignalData` (cn4block.cpp lines 1193-1266) for a channel without VLSD group and without existing
link: the blocks written, `(compressed, content)`. -/
def writeSignalData (compress : Bool) (data : Bytes) : List (Bool × Bytes) :=
  if data = [] then []
  else if !compress ∨ data.length ≤ 100 then [(false, data)]
  else if data.length ≤ 4000000 then [(true, data)]
  else (sdChunks 4000000 [] data).map fun c => (true, c)

/-! ### VLSD channel groups -/

/-- The members of `Cg4Block` used by a VLSD group: `vlsd_index_`, `nof_data_bytes_` and `nof_invalid_bytes_` (which hold
the low and high half of the number of bytes) and the sample counter. -/
structure VlsdCg where
  index : Nat
  lo : Nat
  hi : Nat
  nof : Nat
deriving DecidableEq, Repr

/-- `Cg4Block::WriteVlsdSample` and `WriteCompressedVlsdSample` (cg4block.cpp lines 578-691), except for the bytes written,
which are `encodeRec`: the offset returned and the new members. -/
def VlsdCg.write (g : VlsdCg) (v : Bytes) : Nat × VlsdCg :=
  let total := (g.hi <<< 32 + g.lo + v.length) % 2 ^ 64
  (g.index, { index := (g.index + (4 + v.length)) % 2 ^ 64, lo := total % 2 ^ 32, hi := total / 2 ^ 32, nof := g.nof + 1 })

/-! ### Reading by offset -/

/-- A call of the callback of `ReadVlsdData`. -/
structure Call where
  offset : Nat
  data : Bytes
deriving DecidableEq, Repr

/-- The reader state: cache, `offset_` and the calls so far. -/
structure VSt where
  rc : RC
  offset : Nat
  calls : List Call

/-- The body of `ReadCache::ParseSignalData` inside `try` (readcache.cpp lines 226-245).  `4 + length.value()` is
`uint32_t` arithmetic.  `keep` is the offset filter
(every offset if the filter is empty). -/
def signalOne (keep : Nat → Bool) (st : VSt) : Out VSt :=
  (st.rc.getArray 4).bind fun l =>
    let len := leNat l.1
    if keep st.offset then
      (l.2.getArray len).bind fun r =>
        .ok { rc := r.2, offset := st.offset + (4 + len) % 2 ^ 32, calls := st.calls ++ [⟨st.offset, r.1⟩] }
    else (l.2.skipBytes len).bind fun rc => .ok { rc := rc, offset := st.offset + (4 + len) % 2 ^ 32, calls := st.calls }

/-- The result of a reading loop: still running, undefined behaviour, or the calls. -/
inductive VRun where
  | running
  | ub
  | done (calls : List Call)
deriving DecidableEq, Repr

/-- `while (ParseSignalData()) {}` (dg4block.cpp line 506, readcache.cpp lines 217-251).  The inner loop of
`ParseSignalData` goes on after a skipped value and the outer loop after a delivered one, both while `data_count_ <
max_data_count_`, so they are one loop. -/
def signalLoop (keep : Nat → Bool) : (fuel : Nat) → VSt → VRun
  | 0, _ => .running
  | fuel + 1, st =>
    if st.rc.count ≥ st.rc.max then .done st.calls
    else
      match signalOne keep st with
      | .ub => .ub
      | .throw => .done st.calls
      | .ok st => signalLoop keep fuel st

/-- `ReadCache::ParseSignalDataOffset` (readcache.cpp lines 254-295): the state and the result. -/
def signalOffset (offset : Nat) (st : VSt) : Out (Bool × VSt) :=
  if st.rc.count ≥ st.rc.max then .ok (false, st)
  else if offset < st.offset then .ok (false, st)
  else
    ((if 0 < offset - st.offset then st.rc.skipBytes (offset - st.offset) else .ok st.rc)).bind fun rc =>
      if rc.count + 4 > rc.max then .ok (false, { st with rc := rc, offset := offset })
      else
        match rc.getArray 4 with
        | .ub => .ub
        | .throw => .ok (false, { st with rc := rc, offset := offset })
        | .ok l =>
          let len := leNat l.1
          if l.2.count + len > l.2.max then .ok (false, { st with rc := l.2, offset := offset })
          else
            match l.2.getArray len with
            | .ub => .ub
            | .throw => .ok (false, { st with rc := l.2, offset := offset })
            | .ok r => .ok (r.2.count < r.2.max,
                { rc := r.2, offset := offset + (4 + len) % 2 ^ 32, calls := st.calls ++ [⟨offset, r.1⟩] })

/-- The loop over the sorted offsets (dg4block.cpp lines 498-504). -/
def signalOffsets : List Nat → VSt → Out (List Call)
  | [], st => .ok st.calls
  | o :: os, st =>
    match signalOffset o st with
    | .ub => .ub
    | .throw => .throw
    | .ok (more, st) => if more then signalOffsets os st else .ok st.calls

/-- The body of `ReadCache::ParseVlsdCgData` inside `try` (readcache.cpp lines 308-346) for the VLSD group `sel`. -/
def RCfg.vlsdOne (cfg : RCfg) (sel : Nat) (keep : Nat → Bool) (st : VSt) : Out VSt :=
  (cfg.parseRecordId st.rc).bind fun r =>
    match cfg.find r.1 with
    | none => .throw
    | some g =>
      if g.vlsd then
        (r.2.getArray 4).bind fun l =>
          let len := leNat l.1
          if r.1 ≠ sel then (l.2.skipBytes len).bind fun rc => .ok { st with rc := rc }
          else if keep st.offset then
            (l.2.getArray len).bind fun d =>
              .ok { rc := d.2, offset := st.offset + (4 + len) % 2 ^ 32, calls := st.calls ++ [⟨st.offset, d.1⟩] }
          else (l.2.skipBytes len).bind fun rc => .ok { st with rc := rc, offset := st.offset + (4 + len) % 2 ^ 32 }
      else (r.2.skipBytes g.size).bind fun rc => .ok { st with rc := rc }

/-- `while (ParseVlsdCgData()) {}` (dg4block.cpp line 514, readcache.cpp lines 297-352); the inner and the outer loop are
one loop, as in `signalLoop`. -/
def RCfg.vlsdLoop (cfg : RCfg) (sel : Nat) (keep : Nat → Bool) : (fuel : Nat) → VSt → VRun
  | 0, _ => .running
  | fuel + 1, st =>
    if cfg.groups = [] ∨ st.rc.count ≥ st.rc.max then .done st.calls
    else
      match cfg.vlsdOne sel keep st with
      | .ub => .ub
      | .throw => .done st.calls
      | .ok st => cfg.vlsdLoop sel keep fuel st

/-- The initial state of the readers. -/
def VSt.init (blocks : List Blk) (file : Bytes) : VSt := { rc := RC.init blocks file, offset := 0, calls := [] }

/-- What `Dg4Block::ReadVlsdData` does for the type of the block the channel links to (dg4block.cpp lines 474-496). -/
inductive VlsdSource where
  | none | signal | group
deriving DecidableEq, Repr

/-- Block types a VLSD channel may link to. -/
inductive LinkType where
  | cg (vlsd : Bool) | sd | dz | dl | hl
deriving DecidableEq, Repr

def vlsdSource : LinkType → VlsdSource
  | .cg true => .group
  | .cg false => .none
  | .sd => .signal
  | .dz => .signal
  | .dl => .signal
  | .hl => .none

/-- The same decision of `ReadData` and `ReadRangeData` (dg4block.cpp lines 263-275, 404-416): whether the signal data are
loaded. -/
def signalLoaded : LinkType → Bool
  | .cg _ => false
  | .sd => true
  | .dz => true
  | .dl => true
  | .hl => true

/-- The type of the block linked by `WriteSignalData` (cn4block.cpp lines 1208-1265). -/
def writtenLink (compress : Bool) (data : Bytes) : Option LinkType :=
  if data = [] then none
  else if !compress ∨ data.length ≤ 100 then some .sd
  else if data.length ≤ 4000000 then some .dz
  else some .hl

end Mdf
