import Verif.Proof.ReadEmpty
import Verif.Props.Read

/-! C13: what is read when there are empty blocks in the list of data blocks. -/

namespace Mdf

/-- If all groups are subscribed, exactly the records in front of the first empty block are read, as if the list ended there; never a byte
that is not in one of the blocks. -/
theorem C13_read_to_first_empty_partial (cfg : RCfg) (hok : cfg.Ok) (hs : ∀ id, cfg.subs id = true) (hg : cfg.groups ≠ []) (blocks : List Blk)
    (file : Bytes) : ∃ n evs, cfg.flat ((fullBlocks blocks).flatMap (·.data)) = some evs ∧
      ∀ fuel, n ≤ fuel → cfg.read fuel blocks file = .done evs := by
  obtain ⟨evs, h⟩ := flatLoop_isSome hs ((fullBlocks blocks).flatMap (·.data)).length (fun _ => 0) [] ((fullBlocks blocks).flatMap (·.data))
  exact ⟨2 * (blocks.flatMap (·.data)).length + 1, evs, h, fun fuel hf => read_cut hok hs hg blocks file evs h fuel (by omega)⟩

/-- Records written in front of an empty block are all read, those behind it are not: whatever the blocks behind hold. -/
theorem C13_records_before_partial (cfg : RCfg) (hok : cfg.Ok) (hs : ∀ id, cfg.subs id = true) (hg : cfg.groups ≠ []) (front back : List Blk)
    (e : Blk) (he : e.data = []) (recs : List Rec) (hv : ∀ r ∈ recs, cfg.ValidRec r) (hb : Holds front (cfg.encode recs)) (file : Bytes) :
    ∃ n, ∀ fuel, n ≤ fuel → cfg.read fuel (front ++ e :: back) file = .done (cutAt cfg.cont [] (cfg.deliver [] recs)) := by
  have hcut : fullBlocks (front ++ e :: back) = front := by
    unfold fullBlocks
    rw [List.takeWhile_append_of_pos (fun b hb' => by simpa using hb.nonempty b hb')]
    simp [he]
  obtain ⟨n, evs, h1, h2⟩ := C13_read_to_first_empty_partial cfg hok hs hg (front ++ e :: back) file
  rw [hcut, hb.flat] at h1
  refine ⟨n, fun fuel hf => ?_⟩
  rw [h2 fuel hf]
  have r1 := read_flat hok (cfg.encode recs) evs h1 front file hb (2 * (cfg.encode recs).length + recs.length + 1) (by omega)
  have r2 := read_spec hok recs hv [] (Or.inl rfl) front file (by rw [List.append_nil]; exact hb)
    (2 * (cfg.encode recs).length + recs.length + 1) (by rw [List.append_nil]; omega)
  rw [r1] at r2
  exact r2

example : exCfg.Ok ∧ (∀ id, exCfg.subs id = true) ∧ exCfg.groups ≠ [] ∧ (∀ r ∈ [(⟨1, [0x11, 0x12]⟩ : Rec)], exCfg.ValidRec r) ∧
    Holds [⟨false, [1, 0x11], [9]⟩, ⟨true, [0x12], []⟩] (exCfg.encode [⟨1, [0x11, 0x12]⟩]) :=
  ⟨exCfg_ok, fun _ => rfl, by decide, by decide, ⟨by decide, by decide⟩⟩

/-- The bytes that follow an empty block in the file are not taken for data. -/
example : exCfg.read 40 [⟨false, [1, 0x11, 0x12], []⟩, ⟨false, [], [1, 7, 7, 1, 8, 8]⟩, ⟨false, [1, 9, 9], []⟩] [] =
    .done [⟨0, 1, [0x11, 0x12]⟩] := by decide +kernel

end Mdf
