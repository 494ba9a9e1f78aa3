import Verif.Model.Finalize
import Verif.Spec.Vlsd
import Verif.Proof.Store

namespace Mdf

theorem counterList_eq (gs : List RGroup) : ∀ acc, ((acc ++ gs).map (·.id)).Nodup → counterList acc gs = acc ++ gs := by
  induction gs with
  | nil => intro acc _; simp [counterList]
  | cons g gs ih =>
    intro acc hd
    unfold counterList
    have hno : ¬ acc.any (·.id = g.id) = true := by
      intro h
      obtain ⟨x, hx, he⟩ := List.any_eq_true.mp h
      rw [List.map_append, List.nodup_append] at hd
      exact hd.2.2 x.id (List.mem_map_of_mem hx) g.id (by simp) (by simpa using he)
    rw [if_neg hno, ih (acc ++ [g]) (by simpa using hd)]
    simp

/-- The bytes counted for a record. -/
def recBytes (g : RGroup) (r : Rec) : Nat := if g.vlsd then 4 + r.data.length else g.size

/-- The counters after the records. -/
def RCfg.counted (cfg : RCfg) : (Nat → Counter) → List Rec → Nat → Counter
  | cs, [] => cs
  | cs, r :: rs => cfg.counted (match cfg.group r.id with | some g => addCounter cs g.id (recBytes g r) | none => cs) rs

theorem encode_cons (cfg : RCfg) (r : Rec) (rs : List Rec) {g : RGroup} (hg : cfg.group r.id = some g) :
    cfg.encode (r :: rs) = encodeRec cfg.idSize g.vlsd r ++ cfg.encode rs := by
  unfold RCfg.encode
  rw [List.flatMap_cons, hg]
  rfl

theorem counterFind_mem {cfg : RCfg} (hok : cfg.Ok) {g : RGroup} (hg : g ∈ cfg.groups) : counterFind cfg.groups g.id = some g :=
  find_of_mem hok hg

theorem readNumber_append {n : Nat} {a b : Bytes} (h : a.length = n) : readNumber n (a ++ b) = some (leNat a, b) := by
  unfold readNumber
  rw [if_neg (by simp; omega), List.take_left' h, List.drop_left' h]

/-- The id at the front of the file. -/
theorem finRecordId_spec {cfg : RCfg} (hok : cfg.Ok) {g : RGroup} (hg : g ∈ cfg.groups) (T : Bytes) :
    ∃ id, finRecordId cfg.idSize (leBytes cfg.idSize g.id ++ T) = some (id, cfg.idSize, T) ∧
      counterFind cfg.groups id = some g := by
  by_cases h0 : cfg.idSize = 0
  · refine ⟨0, by rw [h0]; rfl, ?_⟩
    obtain ⟨x, hx⟩ := List.length_eq_one_iff.mp (hok.single h0)
    rw [hx] at hg ⊢
    simp only [List.mem_singleton] at hg
    rw [hg]; rfl
  · refine ⟨g.id, ?_, counterFind_mem hok hg⟩
    unfold finRecordId
    rw [if_pos (by rcases hok.width with h | h | h | h | h <;> simp_all), readNumber_append (by simp)]
    simp only [Option.map_some, leNat_leBytes]
    rw [Nat.mod_eq_of_lt (hok.fits h0 g hg)]

theorem finSkip_spec {g : RGroup} {r : Rec} (hv : if g.vlsd then r.data.length < 2 ^ 32 else r.data.length = g.size) (T : Bytes) :
    finSkip g ((if g.vlsd then leBytes 4 r.data.length ++ r.data else r.data) ++ T) = some (recBytes g r, T) := by
  unfold finSkip recBytes
  by_cases hvl : g.vlsd = true
  · simp only [hvl, if_true] at hv ⊢
    rw [List.append_assoc, readNumber_append (by simp)]
    simp only [Option.map_some, leNat_leBytes]
    rw [Nat.mod_eq_of_lt (by omega), List.drop_left' rfl]
  · simp only [hvl] at hv ⊢
    simp only [Bool.false_eq_true, if_false] at hv ⊢
    rw [List.drop_left' hv]

theorem recBytes_length {cfg : RCfg} (hok : cfg.Ok) {g : RGroup} {r : Rec}
    (hv : if g.vlsd then r.data.length < 2 ^ 32 else r.data.length = g.size) :
    (encodeRec cfg.idSize g.vlsd r).length = cfg.idSize + recBytes g r := by
  unfold encodeRec recBytes
  rw [writeRecordId_eq hok]
  by_cases hvl : g.vlsd = true
  · simp [hvl]
  · simp only [hvl] at hv ⊢
    simp only [Bool.false_eq_true, if_false] at hv ⊢
    simp [hv]

theorem recBytes_pos {cfg : RCfg} (hok : cfg.Ok) {g : RGroup} (hg : g ∈ cfg.groups) (r : Rec) :
    0 < cfg.idSize + recBytes g r := by
  unfold recBytes
  by_cases h0 : cfg.idSize = 0
  · by_cases hvl : g.vlsd = true
    · simp [hvl]; omega
    · have := hok.progress h0 g hg (by simpa using hvl)
      simp [hvl]; omega
  · omega

theorem finLoop_spec {cfg : RCfg} (hok : cfg.Ok) (recs : List Rec) : ∀ (left : Nat) (T : Bytes) (cs : Nat → Counter),
    (∀ r ∈ recs, cfg.ValidRec r) →
    finLoop cfg.idSize cfg.groups ((cfg.encode recs).length + left) (cfg.encode recs ++ T) cs =
      finLoop cfg.idSize cfg.groups left T (cfg.counted cs recs) := by
  induction recs with
  | nil => intro left T cs _; simp [RCfg.encode, RCfg.counted]
  | cons r rs ih =>
    intro left T cs hv
    obtain ⟨g, hg, hgv⟩ := hv r List.mem_cons_self
    obtain ⟨hmem, hid⟩ := group_mem hg
    have hpos := recBytes_pos hok hmem r
    have hlen := recBytes_length hok hgv
    rw [encode_cons cfg r rs hg]
    conv => lhs; unfold finLoop
    rw [if_neg (by rw [List.length_append]; omega)]
    obtain ⟨id, h1, h2⟩ := finRecordId_spec hok hmem
      ((if g.vlsd then leBytes 4 r.data.length ++ r.data else r.data) ++ (cfg.encode rs ++ T))
    have he : encodeRec cfg.idSize g.vlsd r ++ cfg.encode rs ++ T =
        leBytes cfg.idSize g.id ++ ((if g.vlsd then leBytes 4 r.data.length ++ r.data else r.data) ++ (cfg.encode rs ++ T)) := by
      unfold encodeRec
      rw [writeRecordId_eq hok, hid]
      simp only [List.append_assoc]
    rw [he, h1]
    dsimp only
    rw [h2]
    dsimp only
    rw [finSkip_spec hgv]
    dsimp only
    rw [if_neg (by omega)]
    have hl : (encodeRec cfg.idSize g.vlsd r ++ cfg.encode rs).length + left - (cfg.idSize + recBytes g r) =
        (cfg.encode rs).length + left := by
      rw [List.length_append]; omega
    rw [hl, ih _ _ _ (fun r h => hv r (List.mem_cons_of_mem _ h))]
    rw [RCfg.counted, hg]

theorem finLoop_zero (idSize : Nat) (groups : List RGroup) (T : Bytes) (cs : Nat → Counter) :
    finLoop idSize groups 0 T cs = .ok cs := by
  unfold finLoop; rfl

/-- An incomplete record at the end: its id or length cannot be read, or it is counted. -/
theorem finLoop_cut {cfg : RCfg} (hok : cfg.Ok) {r : Rec} {g : RGroup} (hg : cfg.group r.id = some g)
    (hv : if g.vlsd then r.data.length < 2 ^ 32 else r.data.length = g.size) {T : Bytes}
    (hne : T ≠ []) (hT : T <+: encodeRec cfg.idSize g.vlsd r) (cs : Nat → Counter) :
    finLoop cfg.idSize cfg.groups T.length T cs =
      if T.length < cfg.idSize + (if g.vlsd then 4 else 0) then .throw else .ok (addCounter cs g.id (recBytes g r)) := by
  obtain ⟨hmem, hid⟩ := group_mem hg
  have hpos := recBytes_pos hok hmem r
  have hlen := recBytes_length hok hv
  have hTl : 0 < T.length := List.length_pos_iff.mpr hne
  have hle : T.length ≤ cfg.idSize + recBytes g r := by rw [← hlen]; exact hT.length_le
  unfold finLoop
  rw [if_neg (by omega)]
  by_cases hs : T.length < cfg.idSize
  · rw [if_pos (by split <;> omega)]
    have : finRecordId cfg.idSize T = none := by
      unfold finRecordId readNumber
      rw [if_pos (by rcases hok.width with h | h | h | h | h <;> simp_all), if_pos hs]
      rfl
    rw [this]
  · -- the id is complete
    obtain ⟨U, hU⟩ := hT
    unfold encodeRec at hU
    rw [writeRecordId_eq hok, ← hid] at hU
    have hT' : T = leBytes cfg.idSize g.id ++ T.drop cfg.idSize := by
      have h1 : T.take cfg.idSize = leBytes cfg.idSize g.id := by
        have := congrArg (List.take cfg.idSize) hU
        rw [List.take_append_of_le_length (by omega), List.take_append_of_le_length (by simp)] at this
        rw [this, List.take_of_length_le (by simp)]
      rw [← h1, List.take_append_drop]
    have hD : T.drop cfg.idSize ++ U = if g.vlsd then leBytes 4 r.data.length ++ r.data else r.data := by
      have := congrArg (List.drop cfg.idSize) hU
      rwa [List.drop_append_of_le_length (by omega), List.drop_left' (by simp)] at this
    obtain ⟨id, h1, h2⟩ := finRecordId_spec hok hmem (T.drop cfg.idSize)
    have hfin : finRecordId cfg.idSize T = some (id, cfg.idSize, T.drop cfg.idSize) := by
      conv => lhs; rw [hT']
      exact h1
    rw [hfin]
    dsimp only
    rw [h2]
    dsimp only
    by_cases hvl : g.vlsd = true
    · simp only [hvl, if_true] at hD ⊢
      unfold finSkip readNumber
      rw [if_pos hvl]
      by_cases h4 : (T.drop cfg.idSize).length < 4
      · rw [if_pos h4, if_pos (by simp at h4; omega)]
        rfl
      · rw [if_neg h4, if_neg (by simp at h4; omega)]
        have h5 : (T.drop cfg.idSize).take 4 = leBytes 4 r.data.length := by
          have := congrArg (List.take 4) hD
          rw [List.take_append_of_le_length (by omega), List.take_append_of_le_length (by simp)] at this
          rw [this, List.take_of_length_le (by simp)]
        rw [h5]
        simp only [Option.map_some, leNat_leBytes]
        simp only [hvl, if_true] at hv
        rw [Nat.mod_eq_of_lt (by omega), if_neg (by omega)]
        have hrb : recBytes g r = 4 + r.data.length := by unfold recBytes; rw [if_pos hvl]
        have : T.length - (cfg.idSize + (4 + r.data.length)) = 0 := by omega
        rw [this, finLoop_zero, hrb]
    · have hrb : recBytes g r = g.size := by unfold recBytes; rw [if_neg hvl]
      have hsk : finSkip g (T.drop cfg.idSize) = some (g.size, (T.drop cfg.idSize).drop g.size) := by
        unfold finSkip; rw [if_neg hvl]
      rw [hsk]
      dsimp only
      have h0 : T.length - (cfg.idSize + g.size) = 0 := by omega
      rw [if_neg (by omega), h0, finLoop_zero, hrb, if_neg (by rw [if_neg hvl]; omega)]

theorem addCounter_samples (cs : Nat → Counter) (id n i : Nat) :
    (addCounter cs id n i).samples = (cs i).samples + if i = id then 1 else 0 := by
  unfold addCounter; split <;> simp

theorem addCounter_bytes (cs : Nat → Counter) (id n i : Nat) :
    (addCounter cs id n i).bytes = (cs i).bytes + if i = id then n else 0 := by
  unfold addCounter; split <;> simp

theorem counted_samples {cfg : RCfg} (recs : List Rec) (i : Nat) : ∀ cs, (∀ r ∈ recs, cfg.ValidRec r) →
    (cfg.counted cs recs i).samples = (cs i).samples + recs.countP (·.id = i) := by
  induction recs with
  | nil => intro cs _; rfl
  | cons r rs ih =>
    intro cs hv
    obtain ⟨g, hg, -⟩ := hv r List.mem_cons_self
    obtain ⟨-, hid⟩ := group_mem hg
    rw [RCfg.counted, hg]
    dsimp only
    rw [ih _ (fun r h => hv r (List.mem_cons_of_mem _ h)), addCounter_samples, hid, List.countP_cons]
    by_cases h : r.id = i
    · simp [h]; omega
    · simp [h, Ne.symm h]

theorem counted_bytes {cfg : RCfg} {vg : RGroup} (hvg : cfg.group vg.id = some vg) (hvl : vg.vlsd = true) (recs : List Rec) :
    ∀ cs, (∀ r ∈ recs, cfg.ValidRec r) →
    (cfg.counted cs recs vg.id).bytes = (cs vg.id).bytes + sdSize (valuesOf vg.id recs) := by
  induction recs with
  | nil => intro cs _; rfl
  | cons r rs ih =>
    intro cs hv
    obtain ⟨g, hg, -⟩ := hv r List.mem_cons_self
    obtain ⟨-, hid⟩ := group_mem hg
    rw [RCfg.counted, hg]
    dsimp only
    rw [ih _ (fun r h => hv r (List.mem_cons_of_mem _ h)), addCounter_bytes, hid, valuesOf_cons, sdSize_append]
    by_cases h : r.id = vg.id
    · have : g = vg := by rw [h, hvg] at hg; simpa using hg.symm
      subst this
      simp [h, sdSize, recBytes, hvl]; omega
    · simp [h, Ne.symm h, sdSize]

end Mdf
