import Verif.Proof.Finalize
import Verif.Props.Read
import Verif.Props.Vlsd

/-!
Properties of finalizing: C24, C25, C51.
-/

namespace Mdf

/-- The reader's groups with the counters found by finalizing. -/
def RCfg.finalized (cfg : RCfg) (st : Nat → VlsdCg) : RCfg :=
  { cfg with groups := cfg.groups.map fun g => { g with nof := (st g.id).nof } }

theorem finalized_group (cfg : RCfg) (st : Nat → VlsdCg) (id : Nat) :
    (cfg.finalized st).group id = (cfg.group id).map fun g => { g with nof := (st g.id).nof } := by
  unfold RCfg.group RCfg.finalized
  dsimp only
  rw [List.find?_map]
  rfl

theorem finalized_ok {cfg : RCfg} (hok : cfg.Ok) (st : Nat → VlsdCg) : (cfg.finalized st).Ok := by
  refine ⟨?_, hok.width, ?_, ?_, ?_⟩
  · have : (cfg.finalized st).groups.map (·.id) = cfg.groups.map (·.id) := by
      unfold RCfg.finalized; simp
    rw [this]; exact hok.distinct
  · intro h0 g hg
    obtain ⟨g', hg', rfl⟩ := List.mem_map.mp hg
    exact hok.fits h0 g' hg'
  · intro h0
    unfold RCfg.finalized
    simpa using hok.single h0
  · intro h0 g hg
    obtain ⟨g', hg', rfl⟩ := List.mem_map.mp hg
    exact hok.progress h0 g' hg'

theorem finalized_valid {cfg : RCfg} (st : Nat → VlsdCg) {r : Rec} (h : cfg.ValidRec r) : (cfg.finalized st).ValidRec r := by
  obtain ⟨g, hg, hv⟩ := h
  exact ⟨{ g with nof := (st g.id).nof }, by rw [finalized_group, hg]; rfl, hv⟩

theorem finalized_encode (cfg : RCfg) (st : Nat → VlsdCg) (recs : List Rec) : (cfg.finalized st).encode recs = cfg.encode recs := by
  unfold RCfg.encode
  congr 1
  funext r
  rw [finalized_group]
  cases cfg.group r.id <;> rfl

/-- Finalizing in terms of the counting loop. -/
theorem finalizeFile_spec {cfg : RCfg} (hok : cfg.Ok) {flags : Nat} (h0 : flags.testBit 0 = true) (h2 : flags.testBit 2 = true)
    (size : Nat) {file : Bytes} (hne : file ≠ []) (hgne : cfg.groups ≠ []) (st : Nat → VlsdCg) :
    finalizeFile flags cfg.idSize cfg.groups size file st =
      (finLoop cfg.idSize cfg.groups file.length file (fun _ => ⟨0, 0⟩)).map fun cs =>
        (!(flags.testBit 4 || flags.testBit 3 || flags.testBit 1), file.length, fun id =>
          match cfg.group id with
          | some g => updateCg (st id) g.vlsd true (flags.testBit 5 || flags.testBit 6) (cs id)
          | none => st id) := by
  unfold finalizeFile finalizeCg
  have hf : flags ≠ 0 := by rintro rfl; simp at h0
  have hcl := counterList_eq cfg.groups [] hok.distinct
  rw [List.nil_append] at hcl
  rw [if_neg hf]
  simp only [h0, h2, if_true, Bool.true_or]
  rw [hcl, if_neg hgne]
  have hsz : updateDataSize size file = file.length := by
    unfold updateDataSize; rw [if_pos (List.length_pos_iff.mpr hne)]
  rw [hsz]
  cases finLoop cfg.idSize cfg.groups file.length file (fun _ => ⟨0, 0⟩) <;> rfl

theorem encode_ne_nil {cfg : RCfg} (hok : cfg.Ok) {recs : List Rec} (hv : ∀ r ∈ recs, cfg.ValidRec r) (hne : recs ≠ []) :
    cfg.encode recs ≠ [] ∧ cfg.groups ≠ [] := by
  cases recs with
  | nil => exact absurd rfl hne
  | cons r rs =>
    obtain ⟨g, hg, hgv⟩ := hv r List.mem_cons_self
    obtain ⟨hmem, -⟩ := group_mem hg
    refine ⟨?_, List.ne_nil_of_mem hmem⟩
    rw [encode_cons cfg r rs hg]
    intro h
    have h1 := recBytes_length hok hgv
    have h2 := recBytes_pos hok hmem r
    have := congrArg List.length h
    rw [List.length_append, List.length_nil] at this
    omega

theorem updateCg_nof (g : VlsdCg) (v u : Bool) (c : Counter) : (updateCg g v true u c).nof = (g.nof + c.samples) % 2 ^ 64 := by
  unfold updateCg
  simp only [if_true]
  split <;> rfl

/-! ### C24: counters -/

/-- Exactly what finalizing does to the sample counters of the last data group, for any records and any stored counters: the
number of records is added. -/
theorem C24_adds_records (cfg : RCfg) (hok : cfg.Ok) (flags size : Nat) (h0 : flags.testBit 0 = true) (h2 : flags.testBit 2 = true)
    (recs : List Rec) (hv : ∀ r ∈ recs, cfg.ValidRec r) (hne : recs ≠ []) (st : Nat → VlsdCg) :
    ∃ ok st', finalizeFile flags cfg.idSize cfg.groups size (cfg.encode recs) st = .ok (ok, (cfg.encode recs).length, st') ∧
      ∀ g ∈ cfg.groups, (st' g.id).nof = ((st g.id).nof + recs.countP (·.id = g.id)) % 2 ^ 64 := by
  obtain ⟨e1, e2⟩ := encode_ne_nil hok hv hne
  rw [finalizeFile_spec hok h0 h2 size e1 e2 st]
  have := finLoop_spec hok recs 0 [] (fun _ => ⟨0, 0⟩) hv
  rw [List.append_nil, Nat.add_zero, finLoop_zero] at this
  rw [this]
  refine ⟨_, _, rfl, ?_⟩
  intro g hg
  rw [group_of_mem hok hg]
  dsimp only
  rw [updateCg_nof, counted_samples recs g.id _ hv, Nat.zero_add]

/-- C24: after finalizing, the counter of each group is the number of its records, whatever was stored before. -/
def C24_Statement : Prop :=
  ∀ (cfg : RCfg), cfg.Ok → ∀ (flags size : Nat), flags.testBit 0 = true → flags.testBit 2 = true →
    ∀ recs : List Rec, (∀ r ∈ recs, cfg.ValidRec r) → recs ≠ [] → recs.length < 2 ^ 64 → ∀ st : Nat → VlsdCg,
    ∃ ok size' st', finalizeFile flags cfg.idSize cfg.groups size (cfg.encode recs) st = .ok (ok, size', st') ∧
      ∀ g ∈ cfg.groups, (st' g.id).nof = recs.countP (·.id = g.id)

/-- A fixed length group and a VLSD group. -/
def exFin : RCfg := ⟨1, [⟨1, false, 2, 0⟩, ⟨2, true, 0, 0⟩], fun _ => true, fun _ => true⟩

theorem exFin_ok : exFin.Ok := ⟨by decide, by decide, by decide, by decide, by decide⟩

def exFinRecs : List Rec := [⟨1, [7, 7]⟩, ⟨2, [1, 2, 3]⟩, ⟨1, [8, 8]⟩]

/-- The members of the groups 1 and 2. -/
def finView (r : FinRes (Bool × Nat × (Nat → VlsdCg))) : FinRes (Bool × Nat × List VlsdCg) :=
  r.map fun r => (r.1, r.2.1, [r.2.2 1, r.2.2 2])

example : (∀ r ∈ exFinRecs, exFin.ValidRec r) ∧
    finView (finalizeFile 0x25 1 exFin.groups 0 (exFin.encode exFinRecs) (fun _ => ⟨0, 0, 0, 0⟩)) =
      .ok (true, 14, [⟨0, 0, 0, 2⟩, ⟨0, 7, 0, 1⟩]) := by decide +kernel

/-- It is false: the number of records is added to the stored counter. -/
theorem C24_false : ¬ C24_Statement := by
  intro h
  obtain ⟨ok, size', st', h1, h2⟩ := h exFin exFin_ok 5 0 rfl rfl exFinRecs (by decide) (by decide) (by decide) (fun _ => ⟨0, 0, 0, 1⟩)
  obtain ⟨ok', st'', h3, h4⟩ := C24_adds_records exFin exFin_ok 5 0 rfl rfl exFinRecs (by decide) (by decide) (fun _ => ⟨0, 0, 0, 1⟩)
  have h1 : finalizeFile 5 exFin.idSize exFin.groups 0 (exFin.encode exFinRecs) (fun _ => ⟨0, 0, 0, 1⟩) = .ok (ok, size', st') := h1
  have h3 : finalizeFile 5 exFin.idSize exFin.groups 0 (exFin.encode exFinRecs) (fun _ => ⟨0, 0, 0, 1⟩) = .ok _ := h3
  rw [h1] at h3
  simp only [FinRes.ok.injEq, Prod.mk.injEq] at h3
  have a := h2 ⟨1, false, 2, 0⟩ (by decide)
  have b := h4 ⟨1, false, 2, 0⟩ (by decide)
  rw [← h3.2.2, a] at b
  revert b
  decide

/-- It holds if the stored counters are zero, as they are in a file of this library whose writing was interrupted. -/
theorem C24_partial (cfg : RCfg) (hok : cfg.Ok) (flags size : Nat) (h0 : flags.testBit 0 = true) (h2 : flags.testBit 2 = true)
    (recs : List Rec) (hv : ∀ r ∈ recs, cfg.ValidRec r) (hne : recs ≠ []) (hlt : recs.length < 2 ^ 64) (st : Nat → VlsdCg)
    (hz : ∀ g ∈ cfg.groups, (st g.id).nof = 0) :
    ∃ ok size' st', finalizeFile flags cfg.idSize cfg.groups size (cfg.encode recs) st = .ok (ok, size', st') ∧
      ∀ g ∈ cfg.groups, (st' g.id).nof = recs.countP (·.id = g.id) := by
  obtain ⟨ok, st', h3, h4⟩ := C24_adds_records cfg hok flags size h0 h2 recs hv hne st
  refine ⟨ok, _, st', h3, fun g hg => ?_⟩
  rw [h4 g hg, hz g hg, Nat.zero_add, Nat.mod_eq_of_lt (Nat.lt_of_le_of_lt List.countP_le_length hlt)]

/-- If a flag asks for something that is not supported, finalizing says it failed although the counters are updated, and
reading the file's blocks again (`ReadEverythingButData`) counts the records once more. -/
theorem C24_repeated (cfg : RCfg) (hok : cfg.Ok) (flags size : Nat) (h0 : flags.testBit 0 = true) (h2 : flags.testBit 2 = true)
    (h4 : flags.testBit 4 = true) (recs : List Rec) (hv : ∀ r ∈ recs, cfg.ValidRec r) (hne : recs ≠ []) (st : Nat → VlsdCg) :
    ∃ size1 st1 size2 st2, finalizeFile flags cfg.idSize cfg.groups size (cfg.encode recs) st = .ok (false, size1, st1) ∧
      finalizeFile flags cfg.idSize cfg.groups size1 (cfg.encode recs) st1 = .ok (false, size2, st2) ∧
      ∀ g ∈ cfg.groups, (st2 g.id).nof = ((st g.id).nof + 2 * recs.countP (·.id = g.id)) % 2 ^ 64 := by
  obtain ⟨e1, e2⟩ := encode_ne_nil hok hv hne
  obtain ⟨ok1, st1, a1, a2⟩ := C24_adds_records cfg hok flags size h0 h2 recs hv hne st
  obtain ⟨ok2, st2, b1, b2⟩ := C24_adds_records cfg hok flags (cfg.encode recs).length h0 h2 recs hv hne st1
  have hfalse : ∀ ok size st st' n, finalizeFile flags cfg.idSize cfg.groups size (cfg.encode recs) st = .ok (ok, n, st') →
      ok = false := by
    intro ok size st st' n h
    rw [finalizeFile_spec hok h0 h2 size e1 e2 st] at h
    cases hl : finLoop cfg.idSize cfg.groups (cfg.encode recs).length (cfg.encode recs) (fun _ => ⟨0, 0⟩) with
    | throw => rw [hl] at h; cases h
    | hang => rw [hl] at h; cases h
    | ok cs =>
      rw [hl, h4] at h
      simp only [FinRes.map, FinRes.ok.injEq, Prod.mk.injEq] at h
      rw [← h.1]; rfl
  have f1 := hfalse _ _ _ _ _ a1
  have f2 := hfalse _ _ _ _ _ b1
  subst f1; subst f2
  refine ⟨_, st1, _, st2, a1, b1, fun g hg => ?_⟩
  rw [b2 g hg, a2 g hg]
  omega

/-! ### C25: sizes of VLSD groups -/

/-- The number of bytes kept in the two 32 bit members of a VLSD group. -/
def VlsdCg.total (g : VlsdCg) : Nat := g.hi * 2 ^ 32 + g.lo

/-- C25: finalizing gives the size the writer would have stored. -/
def C25_Statement : Prop :=
  ∀ (cfg : RCfg), cfg.Ok → ∀ (flags size : Nat), flags.testBit 0 = true → flags.testBit 2 = true → flags.testBit 5 = true →
    ∀ recs : List Rec, (∀ r ∈ recs, cfg.ValidRec r) → recs ≠ [] → ∀ vg ∈ cfg.groups, vg.vlsd = true →
    sdSize (valuesOf vg.id recs) < 2 ^ 64 →
    ∃ ok size' st', finalizeFile flags cfg.idSize cfg.groups size (cfg.encode recs) (fun _ => ⟨0, 0, 0, 0⟩) = .ok (ok, size', st') ∧
      (st' vg.id).total = (VlsdCg.writes ⟨0, 0, 0, 0⟩ (valuesOf vg.id recs)).2.total

/-- Exactly what finalizing gives: the writer's size and 4 for each record. -/
theorem C25_difference_partial (cfg : RCfg) (hok : cfg.Ok) (flags size : Nat) (h0 : flags.testBit 0 = true)
    (h2 : flags.testBit 2 = true) (h5 : flags.testBit 5 = true) (recs : List Rec) (hv : ∀ r ∈ recs, cfg.ValidRec r)
    (hne : recs ≠ []) (vg : RGroup) (hm : vg ∈ cfg.groups) (hvl : vg.vlsd = true) (hlt : sdSize (valuesOf vg.id recs) < 2 ^ 64) :
    ∃ ok size' st', finalizeFile flags cfg.idSize cfg.groups size (cfg.encode recs) (fun _ => ⟨0, 0, 0, 0⟩) = .ok (ok, size', st') ∧
      (st' vg.id).total =
        (VlsdCg.writes ⟨0, 0, 0, 0⟩ (valuesOf vg.id recs)).2.total + 4 * recs.countP (·.id = vg.id) := by
  obtain ⟨e1, e2⟩ := encode_ne_nil hok hv hne
  rw [finalizeFile_spec hok h0 h2 size e1 e2]
  have := finLoop_spec hok recs 0 [] (fun _ => ⟨0, 0⟩) hv
  rw [List.append_nil, Nat.add_zero, finLoop_zero] at this
  rw [this]
  refine ⟨_, _, _, rfl, ?_⟩
  rw [group_of_mem hok hm]
  dsimp only
  have hb := counted_bytes (group_of_mem hok hm) hvl recs (fun _ => ⟨0, 0⟩) hv
  have hsum : ∀ vs : List Bytes, sdSize vs = (vs.map (·.length)).sum + 4 * vs.length := by
    intro vs
    induction vs with
    | nil => rfl
    | cons v vs ih => simp only [sdSize, List.map_cons, List.sum_cons, List.length_cons] at ih ⊢; omega
  have hlen : (valuesOf vg.id recs).length = recs.countP (·.id = vg.id) := by
    unfold valuesOf; rw [List.length_map, List.countP_eq_length_filter]
  have hs := hsum (valuesOf vg.id recs)
  obtain ⟨-, -, w3⟩ := writes_spec (valuesOf vg.id recs) ⟨0, 0, 0, 0⟩ 0 rfl
    (by unfold sdSize at hlt; simp only; omega) (by omega)
  have hw : (VlsdCg.writes ⟨0, 0, 0, 0⟩ (valuesOf vg.id recs)).2.total = ((valuesOf vg.id recs).map (·.length)).sum := by
    unfold VlsdCg.total
    rw [Nat.shiftLeft_eq] at w3
    omega
  rw [hw]
  have hu : (updateCg ⟨0, 0, 0, 0⟩ vg.vlsd true (flags.testBit 5 || flags.testBit 6)
      (cfg.counted (fun _ => ⟨0, 0⟩) recs vg.id)).total = sdSize (valuesOf vg.id recs) := by
    unfold updateCg VlsdCg.total
    simp only [h5, hvl, if_true, Bool.true_or, and_self, hb]
    omega
  rw [hu, hs, hlen]

/-- It is false. -/
theorem C25_false : ¬ C25_Statement := by
  intro h
  obtain ⟨ok, n, st', h1, h2⟩ := h exFin exFin_ok 0x25 0 rfl rfl rfl exFinRecs (by decide) (by decide) ⟨2, true, 0, 0⟩ (by decide) rfl
    (by decide)
  obtain ⟨ok', n', st'', h3, h4⟩ := C25_difference_partial exFin exFin_ok 0x25 0 rfl rfl rfl exFinRecs (by decide) (by decide)
    ⟨2, true, 0, 0⟩ (by decide) rfl (by decide)
  rw [h1] at h3
  simp only [FinRes.ok.injEq, Prod.mk.injEq] at h3
  rw [← h3.2.2, h2] at h4
  revert h4
  decide

/-! ### C51: recovery after a crash -/

/-- Any beginning of the data is a number of complete records and a beginning of the next one. -/
theorem prefix_split {cfg : RCfg} (recs : List Rec) : ∀ {S : Bytes}, (∀ r ∈ recs, cfg.ValidRec r) → S <+: cfg.encode recs →
    ∃ k T, k ≤ recs.length ∧ S = cfg.encode (recs.take k) ++ T ∧
      (T = [] ∨ ∃ r g, recs[k]? = some r ∧ cfg.group r.id = some g ∧ T <+: encodeRec cfg.idSize g.vlsd r ∧
        T.length < (encodeRec cfg.idSize g.vlsd r).length) := by
  induction recs with
  | nil =>
    intro S _ hS
    exact ⟨0, [], Nat.le_refl _, by simpa [RCfg.encode] using hS, .inl rfl⟩
  | cons r rs ih =>
    intro S hv hS
    obtain ⟨g, hg, hgv⟩ := hv r List.mem_cons_self
    rw [encode_cons cfg r rs hg] at hS
    by_cases hlt : S.length < (encodeRec cfg.idSize g.vlsd r).length
    · refine ⟨0, S, Nat.zero_le _, rfl, .inr ⟨r, g, rfl, hg, ?_, hlt⟩⟩
      exact List.prefix_of_prefix_length_le hS (List.prefix_append _ _) (by omega)
    · have h1 : encodeRec cfg.idSize g.vlsd r <+: S :=
        List.prefix_of_prefix_length_le (List.prefix_append _ _) hS (by omega)
      obtain ⟨S', rfl⟩ := h1
      obtain ⟨k, T, hk, hS', hT⟩ := ih (fun r h => hv r (List.mem_cons_of_mem _ h)) ((List.prefix_append_right_inj _).mp hS)
      refine ⟨k + 1, T, by simp only [List.length_cons]; omega, ?_, ?_⟩
      · rw [List.take_succ_cons, encode_cons cfg r _ hg, List.append_assoc, ← hS']
      · simpa using hT

/-- What reading a file gives whose writing was interrupted, so that it holds only the bytes `S` of the data: the file is
finalized, then the data are read. -/
def RCfg.recover (cfg : RCfg) (flags fuel : Nat) (S : Bytes) (blocks : List Blk) (file : Bytes) : FinRes Run :=
  (finalizeFile flags cfg.idSize cfg.groups 0 S (fun _ => ⟨0, 0, 0, 0⟩)).map fun r =>
    (cfg.finalized r.2.2).read fuel blocks file

/-- C51: writing is interrupted at any byte; then exactly the complete records are read. -/
def C51_Statement : Prop :=
  ∀ (cfg : RCfg), cfg.Ok → (∀ g ∈ cfg.groups, cfg.subs g.id = true) → (∀ l, cfg.cont l = true) →
    ∀ flags : Nat, flags.testBit 0 = true → flags.testBit 2 = true →
    ∀ recs : List Rec, (∀ r ∈ recs, cfg.ValidRec r) → recs.length < 2 ^ 64 → ∀ S, S <+: cfg.encode recs → S ≠ [] →
    ∀ (blocks : List Blk) (file : Bytes), Holds blocks S →
    ∃ k, k ≤ recs.length ∧ cfg.encode (recs.take k) <+: S ∧
      (∀ j, cfg.encode (recs.take j) <+: S → (cfg.encode (recs.take j)).length ≤ (cfg.encode (recs.take k)).length) ∧
      ∃ n, ∀ fuel, n ≤ fuel → cfg.recover flags fuel S blocks file =
        .ok (.done ((recs.take k).mapIdx fun i r => ⟨((recs.take k).take i).countP (·.id = r.id), r.id, r.data⟩))

/-- It is false: if the file ends inside a record id or the length of a VLSD value, finalizing fails and nothing of the last
data group can be read. -/
theorem C51_false : ¬ C51_Statement := by
  intro h
  obtain ⟨k, -, -, -, n, hn⟩ := h exFin exFin_ok (by decide) (fun _ => rfl) 5 rfl rfl exFinRecs (by decide) (by decide)
    [1, 7, 7, 2, 3, 0] (by decide) (by decide) [⟨true, [1, 7, 7, 2, 3, 0], []⟩] [] ⟨by decide, by decide⟩
  have := hn n (Nat.le_refl _)
  have ht : finalizeFile 5 exFin.idSize exFin.groups 0 [1, 7, 7, 2, 3, 0] (fun _ => ⟨0, 0, 0, 0⟩) = .throw := by
    rw [finalizeFile_spec exFin_ok rfl rfl 0 (by decide) (by decide)]
    have := finLoop_spec exFin_ok [⟨1, [7, 7]⟩] 3 [2, 3, 0] (fun _ => ⟨0, 0⟩) (by decide)
    have h3 := finLoop_cut exFin_ok (r := ⟨2, [1, 2, 3]⟩) (g := ⟨2, true, 0, 0⟩) (by decide) (by decide) (T := [2, 3, 0]) (by decide)
      (by decide) (exFin.counted (fun _ => ⟨0, 0⟩) [⟨1, [7, 7]⟩])
    have h4 : finLoop exFin.idSize exFin.groups [1, 7, 7, 2, 3, 0].length [1, 7, 7, 2, 3, 0] (fun _ => ⟨0, 0⟩) = .throw := by
      exact this.trans h3
    exact congrArg _ h4
  unfold RCfg.recover at this
  rw [ht] at this
  cases this

/-- For an interruption at any byte, either the file ends inside a record id or a length, and finalizing fails, or exactly the
complete records are read, with their data and indices. -/
theorem C51_partial (cfg : RCfg) (hok : cfg.Ok) (hsub : ∀ g ∈ cfg.groups, cfg.subs g.id = true) (hcont : ∀ l, cfg.cont l = true)
    (flags : Nat) (h0 : flags.testBit 0 = true) (h2 : flags.testBit 2 = true) (recs : List Rec)
    (hv : ∀ r ∈ recs, cfg.ValidRec r) (hlt : recs.length < 2 ^ 64) (S : Bytes) (hS : S <+: cfg.encode recs) (hne : S ≠ [])
    (blocks : List Blk) (file : Bytes) (hb : Holds blocks S) :
    ∃ k T, k ≤ recs.length ∧ S = cfg.encode (recs.take k) ++ T ∧
      (T = [] ∨ ∃ r, recs[k]? = some r ∧ T.length < (cfg.encode [r]).length) ∧
      ((T ≠ [] ∧ T.length < cfg.idSize + 4 ∧ ∀ fuel, cfg.recover flags fuel S blocks file = .throw) ∨
       ∃ n, ∀ fuel, n ≤ fuel → cfg.recover flags fuel S blocks file =
        .ok (.done ((recs.take k).mapIdx fun i r => ⟨((recs.take k).take i).countP (·.id = r.id), r.id, r.data⟩))) := by
  obtain ⟨k, T, hk, hS', hT⟩ := prefix_split recs hv hS
  have hvk : ∀ r ∈ recs.take k, cfg.ValidRec r := fun r h => hv r (List.mem_of_mem_take h)
  have hgne : cfg.groups ≠ [] := by
    cases recs with
    | nil => simp [RCfg.encode] at hS; exact absurd hS hne
    | cons r rs =>
      obtain ⟨g, hg, -⟩ := hv r List.mem_cons_self
      exact List.ne_nil_of_mem (group_mem hg).1
  have hloop := finLoop_spec hok (recs.take k) T.length T (fun _ => ⟨0, 0⟩) hvk
  rw [← List.length_append, ← hS'] at hloop
  -- reading with counters that are not too low
  have hread : ∀ cs : Nat → Counter, finLoop cfg.idSize cfg.groups S.length S (fun _ => ⟨0, 0⟩) = .ok cs →
      (∀ g ∈ cfg.groups, (recs.take k).countP (·.id = g.id) ≤ (cs g.id).samples ∧ (cs g.id).samples < 2 ^ 64) →
      (∀ st', (cfg.finalized st').Tail T) →
      ∃ n, ∀ fuel, n ≤ fuel → cfg.recover flags fuel S blocks file =
        .ok (.done ((recs.take k).mapIdx fun i r => ⟨((recs.take k).take i).countP (·.id = r.id), r.id, r.data⟩)) := by
    intro cs hcs hst hTail
    refine ⟨S.length + (recs.take k).length + 1, fun fuel hf => ?_⟩
    unfold RCfg.recover
    rw [finalizeFile_spec hok h0 h2 0 hne hgne, hcs]
    simp only [FinRes.map, FinRes.ok.injEq]
    rw [read_spec (finalized_ok hok _) (recs.take k) (fun r h => finalized_valid _ (hvk r h)) T (hTail _) blocks file
      (by rw [finalized_encode, ← hS']; exact hb) fuel (by rw [finalized_encode, ← hS']; omega),
      cutAt_nil_of_cont (cont := (cfg.finalized _).cont) _ _ hcont]
    congr 1
    refine deliver_all _ ?_ _ (fun r h => finalized_valid _ (hvk r h)) ?_
    · intro g hg
      obtain ⟨g', hg', rfl⟩ := List.mem_map.mp hg
      exact hsub g' hg'
    · intro g hg
      obtain ⟨g', hg', rfl⟩ := List.mem_map.mp hg
      dsimp only
      rw [group_of_mem hok hg']
      dsimp only
      rw [updateCg_nof, Nat.zero_add, Nat.mod_eq_of_lt (hst g' hg').2]
      exact (hst g' hg').1
  have hcount : ∀ g : RGroup, (cfg.counted (fun _ => ⟨0, 0⟩) (recs.take k) g.id).samples = (recs.take k).countP (·.id = g.id) := by
    intro g; rw [counted_samples _ _ _ hvk, Nat.zero_add]
  have hcle : ∀ g : RGroup, (recs.take k).countP (fun x => decide (x.id = g.id)) ≤ k := by
    intro g
    have := List.countP_le_length (p := fun x : Rec => decide (x.id = g.id)) (l := recs.take k)
    rw [List.length_take] at this
    omega
  by_cases hTn : T = []
  · refine ⟨k, T, hk, hS', .inl hTn, .inr (hread (cfg.counted (fun _ => ⟨0, 0⟩) (recs.take k)) ?_ ?_ (fun _ => .inl hTn))⟩
    · rw [hloop, hTn]; exact finLoop_zero ..
    · intro g _
      rw [hcount]
      have := hcle g
      omega
  · rcases hT with hT | ⟨r, g, hr, hg, hTp, hTl⟩
    · exact absurd hT hTn
    obtain ⟨g', hg', hgv⟩ := hv r (List.mem_of_getElem? hr)
    have : g' = g := by rw [hg] at hg'; simpa using hg'.symm
    subst this
    obtain ⟨hmem, hid⟩ := group_mem hg
    have henc : cfg.encode [r] = encodeRec cfg.idSize g'.vlsd r := by
      rw [encode_cons cfg r [] hg]; simp [RCfg.encode]
    have hklt : k < recs.length := (List.getElem?_eq_some_iff.mp hr).1
    refine ⟨k, T, hk, hS', .inr ⟨r, hr, by rw [henc]; exact hTl⟩, ?_⟩
    rw [finLoop_cut hok hg hgv hTn hTp] at hloop
    by_cases hcut : T.length < cfg.idSize + (if g'.vlsd then 4 else 0)
    · left
      refine ⟨hTn, by split at hcut <;> omega, fun fuel => ?_⟩
      unfold RCfg.recover
      rw [finalizeFile_spec hok h0 h2 0 hne hgne, hloop, if_pos hcut]
      rfl
    · right
      rw [if_neg hcut] at hloop
      refine hread _ hloop ?_ (fun st' => ?_)
      · intro g hg
        rw [addCounter_samples, hcount]
        have := hcle g
        split <;> omega
      · -- the incomplete record is a tail
        obtain ⟨U, hU⟩ := hTp
        have hid4 : T.take cfg.idSize = leBytes cfg.idSize r.id := by
          have := congrArg (List.take cfg.idSize) hU
          unfold encodeRec at this
          rw [writeRecordId_eq hok, List.take_append_of_le_length (by omega), List.take_append_of_le_length (by simp)] at this
          rw [this, List.take_of_length_le (by simp)]
        have hlen := recBytes_length hok hgv
        unfold recBytes at hlen
        refine .inr (.inr (.inr ⟨{ g' with nof := (st' g'.id).nof }, List.mem_map_of_mem hmem, ?_, ?_⟩))
        · intro hz
          show leNat (T.take cfg.idSize) = g'.id
          rw [hid4, leNat_leBytes, ← hid, Nat.mod_eq_of_lt (hok.fits hz g' hmem)]
        · show if g'.vlsd = true then _ else _
          by_cases hvl : g'.vlsd = true
          · rw [if_pos hvl] at hcut hlen ⊢
            refine .inr ⟨hsub g' hmem, ?_⟩
            show T.length < cfg.idSize + 4 + leNat ((T.drop cfg.idSize).take 4)
            have h4 : (T.drop cfg.idSize).take 4 = leBytes 4 r.data.length := by
              have := congrArg (fun l => (List.drop cfg.idSize l).take 4) hU
              unfold encodeRec at this
              rw [writeRecordId_eq hok, List.drop_append_of_le_length (by omega),
                List.take_append_of_le_length (by simp; omega), List.drop_left' (by simp), if_pos hvl,
                List.take_left' (by simp)] at this
              exact this
            rw [if_pos hvl] at hgv
            rw [h4, leNat_leBytes, Nat.mod_eq_of_lt (by omega)]
            omega
          · rw [if_neg hvl] at hlen ⊢
            exact ⟨hsub g' hmem, by show T.length < cfg.idSize + g'.size; rw [← hlen]; exact hTl⟩

example : (∀ r ∈ exFinRecs, exFin.ValidRec r) ∧ [1, 7, 7, 2, 3, 0, 0, 0, 9] <+: exFin.encode [⟨1, [7, 7]⟩, ⟨2, [9, 2, 3]⟩] ∧
    finView (finalizeFile 5 1 exFin.groups 0 [1, 7, 7, 2, 3, 0, 0, 0, 9] (fun _ => ⟨0, 0, 0, 0⟩)) =
      .ok (true, 9, [⟨0, 0, 0, 1⟩, ⟨0, 0, 0, 1⟩]) := by decide +kernel

end Mdf
