import Verif.Proof.Flat

/-! Reading with empty blocks in the list: as if the list ended in front of the first one. -/

namespace Mdf

/-- The blocks in front of the first empty one. -/
def fullBlocks (blocks : List Blk) : List Blk := blocks.takeWhile fun b => !b.data.isEmpty

def RC.cutRest (s : RC) : RC := { s with rest := fullBlocks s.rest }

def Out.map {α β : Type} (f : α → β) : Out α → Out β
  | .ub => .ub
  | .throw => .throw
  | .ok a => .ok (f a)

theorem Out.map_bind {α β γ δ : Type} (f : α → β) (g : γ → δ) (x : Out α) (k : β → Out δ) (k' : α → Out γ)
    (h : ∀ a, k (f a) = (k' a).map g) : (x.map f).bind k = (x.bind k').map g := by
  cases x with
  | ub => rfl
  | throw => rfl
  | ok a => exact h a

def cutRc {α : Type} (p : α × RC) : α × RC := (p.1, p.2.cutRest)

theorem takeByte_cut (s : RC) : s.cutRest.takeByte = s.takeByte.map cutRc := by
  unfold RC.takeByte
  show (if s.buf = [] then _ else _) = _
  by_cases h : s.buf = []
  · rw [if_pos h, if_pos h]; rfl
  · rw [if_neg h, if_neg h]
    show (match s.buf[s.idx]? with | none => _ | some b => _) = _
    cases s.buf[s.idx]? <;> rfl

theorem getNextByte_cut (s : RC) : s.cutRest.getNextByte = s.getNextByte.map cutRc := by
  unfold RC.getNextByte
  show (if s.idx < s.size then _ else _) = _
  by_cases h : s.idx < s.size
  · rw [if_pos h, if_pos h]; exact takeByte_cut s
  · rw [if_neg h, if_neg h]
    show (match fullBlocks s.rest with | [] => _ | b :: rest => _) = _
    cases hr : s.rest with
    | nil => rfl
    | cons b rest =>
      by_cases hb : b.data = []
      · have h1 : fullBlocks (b :: rest) = [] := by simp [fullBlocks, hb]
        rw [h1]
        have h2 : (({ s with rest := rest } : RC).enter b).idx ≥ (({ s with rest := rest } : RC).enter b).size := by
          unfold RC.enter; split <;> simp [hb]
        simp only
        rw [if_pos h2]; rfl
      · have h1 : fullBlocks (b :: rest) = b :: fullBlocks rest := by
          unfold fullBlocks
          rw [List.takeWhile_cons_of_pos (by simpa using hb)]
        rw [h1]
        simp only
        have h2 : ({ s.cutRest with rest := fullBlocks rest } : RC).enter b = (({ s with rest := rest } : RC).enter b).cutRest := by
          unfold RC.enter; split <;> rfl
        rw [h2]
        generalize ({ s with rest := rest } : RC).enter b = t
        show (if t.idx ≥ t.size then _ else _) = _
        by_cases h3 : t.idx ≥ t.size
        · rw [if_pos h3, if_pos h3]; rfl
        · rw [if_neg h3, if_neg h3]; exact takeByte_cut t

theorem getBytes_cut (n : Nat) : ∀ s : RC, RC.getBytes n s.cutRest = (RC.getBytes n s).map cutRc := by
  induction n with
  | zero => intro s; rfl
  | succ n ih =>
    intro s
    unfold RC.getBytes
    rw [getNextByte_cut]
    cases s.getNextByte with
    | ub => rfl
    | throw => rfl
    | ok p =>
      obtain ⟨b, t⟩ := p
      simp only [Out.map, cutRc]
      rw [ih t]
      cases RC.getBytes n t with
      | ub => rfl
      | throw => rfl
      | ok q => rfl

theorem getArray_cut (n : Nat) (s : RC) : RC.getArray n s.cutRest = (RC.getArray n s).map cutRc := by
  unfold RC.getArray
  show (if s.idx + n ≤ s.size then _ else _) = _
  by_cases h : s.idx + n ≤ s.size
  · rw [if_pos h, if_pos h]
    show (if s.buf = [] then _ else _) = _
    by_cases h2 : s.buf = []
    · rw [if_pos h2, if_pos h2]
      show (if s.file.length < n then _ else _) = _
      split <;> rfl
    · rw [if_neg h2, if_neg h2]
      show (if s.buf.length < s.idx + n then _ else _) = _
      split <;> rfl
  · rw [if_neg h, if_neg h]; exact getBytes_cut n s

theorem parseRecordId_cut (cfg : RCfg) (s : RC) : cfg.parseRecordId s.cutRest = (cfg.parseRecordId s).map cutRc := by
  unfold RCfg.parseRecordId
  split
  · rfl
  all_goals first | rfl | (rw [getArray_cut]; exact Out.map_bind _ _ _ _ _ fun a => rfl)

def RSt.cutRest (st : RSt) : RSt := { st with rc := st.rc.cutRest }

def cutSt (p : Bool × RSt) : Bool × RSt := (p.1, p.2.cutRest)

theorem body_cut {cfg : RCfg} (hs : ∀ id, cfg.subs id = true) (id : Nat) (g : RGroup) (n : Nat) (rc : RC) (st : RSt) :
    cfg.body id g n rc.cutRest st.cutRest = (cfg.body id g n rc st).map cutSt := by
  unfold RCfg.body
  rw [if_pos (hs id), if_pos (hs id), getArray_cut]
  refine Out.map_bind _ _ _ _ _ fun a => ?_
  show (if st.sample g.id < g.nof then _ else _) = _
  split <;> rfl

theorem parseOne_cut {cfg : RCfg} (hs : ∀ id, cfg.subs id = true) (st : RSt) : cfg.parseOne st.cutRest = (cfg.parseOne st).map cutSt := by
  unfold RCfg.parseOne
  show (cfg.parseRecordId st.rc.cutRest).bind _ = _
  rw [parseRecordId_cut]
  refine Out.map_bind _ _ _ _ _ fun a => ?_
  show (match cfg.find a.1 with | none => _ | some g => _) = _
  cases cfg.find a.1 with
  | none => rfl
  | some g =>
    simp only
    split
    · show (RC.getArray 4 a.2.cutRest).bind _ = _
      rw [getArray_cut]
      exact Out.map_bind _ _ _ _ _ fun l => body_cut hs a.1 g _ l.2 st
    · exact body_cut hs a.1 g g.size a.2 st

theorem readLoop_cut {cfg : RCfg} (hs : ∀ id, cfg.subs id = true) (fuel : Nat) : ∀ st : RSt, cfg.readLoop fuel st.cutRest = cfg.readLoop fuel st := by
  induction fuel with
  | zero => intro st; rfl
  | succ fuel ih =>
    intro st
    unfold RCfg.readLoop
    show (if cfg.groups = [] ∨ st.rc.count ≥ st.rc.max then _ else _) = _
    split
    · rfl
    · rw [parseOne_cut hs]
      cases cfg.parseOne st with
      | ub => rfl
      | throw => rfl
      | ok p =>
        obtain ⟨c, st'⟩ := p
        simp only [Out.map, cutSt]
        rw [ih st']
        rfl

theorem read_cut {cfg : RCfg} (hok : cfg.Ok) (hs : ∀ id, cfg.subs id = true) (hg : cfg.groups ≠ []) (blocks : List Blk) (file : Bytes)
    (evs : List Event) (he : cfg.flat ((fullBlocks blocks).flatMap (·.data)) = some evs) (fuel : Nat)
    (hf : 2 * (blocks.flatMap (·.data)).length < fuel) : cfg.read fuel blocks file = .done evs := by
  unfold RCfg.read
  rw [← readLoop_cut hs]
  have hsub : (fullBlocks blocks).flatMap (·.data) <+: blocks.flatMap (·.data) := by
    obtain ⟨t, ht⟩ := List.takeWhile_prefix (p := fun b : Blk => !b.data.isEmpty) (l := blocks)
    refine ⟨t.flatMap (·.data), ?_⟩
    rw [← List.flatMap_append]
    unfold fullBlocks
    rw [ht]
  have hmax : (RC.init blocks file).max = (blocks.flatMap (·.data)).length := by simp [RC.init, List.length_flatMap]
  refine readLoop_flat hok hg ((fullBlocks blocks).flatMap (·.data)).length _ fuel evs ?_ ?_ ?_ ?_ ?_
  · exact ⟨by simp [RSt.cutRest, RC.cutRest, RC.init], by simp [RSt.cutRest, RC.cutRest, RC.init], by simp [RSt.cutRest, RC.cutRest, RC.init],
      fun b hb => by
        have hb' : b ∈ blocks.takeWhile (fun b => !b.data.isEmpty) := hb
        have := List.all_eq_true.mp (List.all_takeWhile (l := blocks) (p := fun b : Blk => !b.data.isEmpty)) b hb'
        simpa using this⟩
  · show 0 + (([] : Bytes) ++ (fullBlocks blocks).flatMap (·.data)).length ≤ (RC.init blocks file).max
    rw [hmax]
    have := hsub.length_le
    simpa using this
  · show (([] : Bytes) ++ (fullBlocks blocks).flatMap (·.data)).length ≤ _
    simp
  · show (RC.init blocks file).max + _ < fuel
    rw [hmax]
    have := hsub.length_le
    omega
  · exact he

end Mdf
