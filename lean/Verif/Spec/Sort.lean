import Verif.Spec.ReadCache
import Verif.Spec.Vlsd
import Verif.Model.Sort

/-! What sorting shall do with the records of a channel group. -/

namespace Mdf

/-- The value of a record whose last 8 bytes are an offset into the values of the VLSD group `vid`. -/
def valueAt (vid : Nat) (recs : List Rec) (record : Bytes) : Option Bytes :=
  ((callsOf 0 (valuesOf vid recs)).find? fun c => c.offset = leNat (record.drop (record.length - 8))).map (·.data)

/-- Every record of the group `id` has its value directly before or after it in the stream (apart from records of other groups). -/
inductive Paired (id vid : Nat) : List Rec → List (Bytes × Bytes) → Prop
  | nil : Paired id vid [] []
  | before {recs ps} (r v : Bytes) : Paired id vid recs ps → Paired id vid (⟨vid, v⟩ :: ⟨id, r⟩ :: recs) ((r, v) :: ps)
  | after {recs ps} (r v : Bytes) : Paired id vid recs ps → Paired id vid (⟨id, r⟩ :: ⟨vid, v⟩ :: recs) ((r, v) :: ps)

/-- A measurement started at time `t` and stopped, in which the given samples are saved, in any interleaving of the writer's thread with the
caller; nobody starts a second time, and the file can be opened at the end.  `w` is the state afterwards. -/
def Measured (cfg : WCfg) (t : Nat) (samples : List Sample) (w : W) : Prop :=
  ∃ b1 b2 a2 w0 w1, W.run cfg b1 W.init = some w0 ∧ W.run cfg (.start t :: .recalculate :: b2) w0 = some w1 ∧
    W.run cfg (.requestStop :: a2) w1 = some w ∧ (∀ t, .start t ∉ b1 ++ b2 ++ a2) ∧ .finalize ∉ b1 ++ b2 ∧ .opened false ∉ a2 ∧
    (w.pc = .ended ∨ w.pc = .gone) ∧ w.added = w1.added ∧ (w.added.map fun s => { s with stamp := none }) = samples

/-- The record with the master time calculated again from the time read from it (see C58 for the difference). -/
def resorted (master : Option Master) (sample : Nat) (record : Bytes) : Bytes :=
  match master with
  | none => record
  | some m => m.set (relSeconds (relNanos (m.get sample record))) record

end Mdf
