import Verif.Spec.Vlsd
import Verif.Proof.Terminate

namespace Mdf

theorem signalOne_spec (keep : Nat → Bool) (v : Bytes) (hv : v.length + 4 < 2 ^ 32) (st : VSt) (h : st.rc.Wf) (T : Bytes)
    (hS : st.rc.stream = leBytes 4 v.length ++ v ++ T) :
    ∃ rc', signalOne keep st = .ok ⟨rc', st.offset + 4 + v.length,
        st.calls ++ (if keep st.offset then [⟨st.offset, v⟩] else [])⟩ ∧
      rc'.Wf ∧ rc'.stream = T ∧ rc'.count ≤ st.rc.count + (4 + v.length) ∧ rc'.max = st.rc.max := by
  unfold signalOne
  obtain ⟨rc1, q1, q2, q3, q4, q5⟩ := (getArray_spec 4 h).1 (by rw [hS]; simp)
  rw [hS, List.append_assoc, List.drop_left' (by simp)] at q3
  rw [hS, List.append_assoc, List.take_left' (by simp)] at q1
  have hlen : leNat (leBytes 4 v.length) = v.length := by rw [leNat_leBytes, Nat.mod_eq_of_lt (by omega)]
  have hoff : st.offset + (4 + v.length) % 2 ^ 32 = st.offset + 4 + v.length := by
    rw [Nat.mod_eq_of_lt (by omega)]; omega
  rw [q1]
  simp only [Out.bind, hlen, hoff]
  by_cases hk : keep st.offset = true
  · simp only [hk, if_true]
    obtain ⟨rc2, g1, g2, g3, g4, g5⟩ := (getArray_spec v.length q2).1 (by rw [q3]; simp)
    rw [q3, List.take_left' rfl] at g1
    rw [q3, List.drop_left' rfl] at g3
    rw [g1]
    exact ⟨rc2, rfl, g2, g3, by omega, by omega⟩
  · simp only [hk]
    obtain ⟨rc2, g1, g2, g3, g4, g5⟩ := skipBytes_spec v.length q2 (by rw [q3]; simp)
    rw [q3, List.drop_left' rfl] at g3
    rw [g1]
    exact ⟨rc2, by simp, g2, g3, by omega, by omega⟩

theorem signalOne_exhausted (keep : Nat → Bool) (st : VSt) (h : st.rc.Exhausted) : signalOne keep st = .throw := by
  unfold signalOne
  rw [exhausted_getArray h (by omega)]; rfl

theorem signalLoop_spec (keep : Nat → Bool) (vs : List Bytes) : ∀ (st : VSt) (fuel : Nat),
    (∀ v ∈ vs, v.length + 4 < 2 ^ 32) → st.rc.Wf → st.rc.stream = sdEncode vs →
    st.rc.count + st.rc.stream.length ≤ st.rc.max → vs.length < fuel →
    signalLoop keep fuel st = .done (st.calls ++ (callsOf st.offset vs).filter fun c => keep c.offset) := by
  induction vs with
  | nil =>
    intro st fuel _ hw hs hc hf
    obtain ⟨fuel, rfl⟩ : ∃ k, fuel = k + 1 := ⟨fuel - 1, by simp at hf; omega⟩
    unfold signalLoop
    rw [signalOne_exhausted keep st (exhausted_of_nil hw hs)]
    simp [callsOf]
  | cons v vs ih =>
    intro st fuel hv hw hs hc hf
    obtain ⟨fuel, rfl⟩ : ∃ k, fuel = k + 1 := ⟨fuel - 1, by simp at hf; omega⟩
    simp only [List.length_cons] at hf
    have henc : sdEncode (v :: vs) = leBytes 4 v.length ++ v ++ sdEncode vs := by
      unfold sdEncode; rw [List.flatMap_cons]
    rw [henc] at hs
    have hlen : st.rc.stream.length = 4 + v.length + (sdEncode vs).length := by
      rw [hs, List.length_append, List.length_append, leBytes_length]
    obtain ⟨rc', h1, h2, h3, h4, h5⟩ := signalOne_spec keep v (hv v (by simp)) st hw _ hs
    unfold signalLoop
    rw [if_neg (by omega), h1]
    simp only
    rw [ih _ fuel (fun x hx => hv x (List.mem_cons_of_mem _ hx)) h2 h3 (by simp only [h3]; omega) (by omega)]
    simp only [callsOf, List.filter_cons, List.append_assoc]
    congr 2
    split <;> rfl

theorem callsOf_mem {vs : List Bytes} : ∀ {o : Nat} {c : Call}, c ∈ callsOf o vs →
    o ≤ c.offset ∧ c.offset + 4 + c.data.length ≤ o + (sdEncode vs).length := by
  induction vs with
  | nil => intro o c h; cases h
  | cons v vs ih =>
    intro o c h
    have henc : (sdEncode (v :: vs)).length = 4 + v.length + (sdEncode vs).length := by
      unfold sdEncode; rw [List.flatMap_cons, List.length_append, List.length_append, leBytes_length]
    rcases List.mem_cons.mp h with rfl | h
    · simp only; omega
    · have := ih h; omega

/-- The signal data from the offset of a value on. -/
theorem callsOf_split {vs : List Bytes} : ∀ {o : Nat} {c : Call}, c ∈ callsOf o vs →
    ∃ vs', (sdEncode vs).drop (c.offset - o) = sdEncode (c.data :: vs') ∧
      (∀ v ∈ c.data :: vs', v ∈ vs) ∧
      ∀ d ∈ callsOf o vs, c.offset < d.offset → d ∈ callsOf (c.offset + 4 + c.data.length) vs' := by
  induction vs with
  | nil => intro o c h; cases h
  | cons v vs ih =>
    intro o c h
    have henc : sdEncode (v :: vs) = leBytes 4 v.length ++ v ++ sdEncode vs := by
      unfold sdEncode; rw [List.flatMap_cons]
    have hl : (leBytes 4 v.length ++ v).length = 4 + v.length := by rw [List.length_append, leBytes_length]
    rcases List.mem_cons.mp h with rfl | h
    · refine ⟨vs, by simp, fun x hx => hx, ?_⟩
      intro d hd hlt
      rcases List.mem_cons.mp hd with rfl | hd
      · simp at hlt
      · exact hd
    · obtain ⟨vs', h1, h2, h3⟩ := ih h
      have hm := callsOf_mem h
      refine ⟨vs', ?_, fun x hx => List.mem_cons_of_mem _ (h2 x hx), ?_⟩
      · rw [henc, List.drop_append, List.drop_of_length_le (by omega), hl, List.nil_append, ← h1]
        congr 1; omega
      · intro d hd hlt
        rcases List.mem_cons.mp hd with rfl | hd
        · simp only at hlt; omega
        · exact h3 d hd hlt

theorem sdEncode_cons (v : Bytes) (vs : List Bytes) : sdEncode (v :: vs) = leBytes 4 v.length ++ v ++ sdEncode vs := by
  unfold sdEncode; rw [List.flatMap_cons]

theorem signalOffset_spec (c : Call) (vs : List Bytes) (st : VSt) (hv : ∀ v ∈ vs, v.length + 4 < 2 ^ 32) (hw : st.rc.Wf)
    (hs : st.rc.stream = sdEncode vs) (hc : st.rc.count + st.rc.stream.length ≤ st.rc.max)
    (hm : c ∈ callsOf st.offset vs) :
    ∃ vs' rc' more, signalOffset c.offset st = .ok (more, ⟨rc', c.offset + 4 + c.data.length, st.calls ++ [c]⟩) ∧
      rc'.Wf ∧ rc'.stream = sdEncode vs' ∧ rc'.count + rc'.stream.length ≤ rc'.max ∧
      (more = true ↔ rc'.count < rc'.max) ∧ (∀ v ∈ vs', v ∈ vs) ∧
      ∀ d ∈ callsOf st.offset vs, c.offset < d.offset → d ∈ callsOf (c.offset + 4 + c.data.length) vs' := by
  obtain ⟨vs', h1, h2, h3⟩ := callsOf_split hm
  obtain ⟨hlo, hhi⟩ := callsOf_mem hm
  have hcl := hv c.data (h2 c.data (by simp))
  have hlen : st.rc.stream.length = (sdEncode vs).length := by rw [hs]
  -- the skip
  have hskip : ∃ rc1, ((if 0 < c.offset - st.offset then st.rc.skipBytes (c.offset - st.offset) else .ok st.rc) : Out RC)
      = .ok rc1 ∧ rc1.Wf ∧ rc1.stream = sdEncode (c.data :: vs') ∧
      rc1.count ≤ st.rc.count + (c.offset - st.offset) ∧ rc1.max = st.rc.max := by
    split
    · obtain ⟨rc1, g1, g2, g3, g4, g5⟩ := skipBytes_spec (c.offset - st.offset) hw (by omega)
      exact ⟨rc1, g1, g2, by rw [g3, hs, h1], g4, g5⟩
    · refine ⟨st.rc, rfl, hw, ?_, by omega, rfl⟩
      have h0 : c.offset - st.offset = 0 := by omega
      rw [hs, ← h1, h0]; rfl
  obtain ⟨rc1, g1, g2, g3, g4, g5⟩ := hskip
  have hdl : (sdEncode (c.data :: vs')).length = (sdEncode vs).length - (c.offset - st.offset) := by
    rw [← h1, List.length_drop]
  rw [sdEncode_cons] at g3 hdl
  rw [List.length_append, List.length_append, leBytes_length] at hdl
  unfold signalOffset
  rw [if_neg (by omega), if_neg (by omega), g1]
  simp only [Out.bind]
  rw [if_neg (by omega)]
  obtain ⟨rc2, q1, q2, q3, q4, q5⟩ := (getArray_spec 4 g2).1 (by rw [g3]; simp)
  rw [g3, List.append_assoc, List.drop_left' (by simp)] at q3
  rw [g3, List.append_assoc, List.take_left' (by simp)] at q1
  have hl : leNat (leBytes 4 c.data.length) = c.data.length := by rw [leNat_leBytes, Nat.mod_eq_of_lt (by omega)]
  rw [q1]
  simp only [hl]
  rw [if_neg (by omega)]
  obtain ⟨rc3, p1, p2, p3, p4, p5⟩ := (getArray_spec c.data.length q2).1 (by rw [q3]; simp)
  rw [q3, List.take_left' rfl] at p1
  rw [q3, List.drop_left' rfl] at p3
  rw [p1]
  have hoff : c.offset + (4 + c.data.length) % 2 ^ 32 = c.offset + 4 + c.data.length := by
    rw [Nat.mod_eq_of_lt (by omega)]; omega
  simp only [hoff]
  refine ⟨vs', rc3, decide (rc3.count < rc3.max), rfl, p2, p3, ?_, by simp, fun v hv' => h2 v (List.mem_cons_of_mem _ hv'), h3⟩
  rw [p3]; omega

theorem signalOffsets_spec (cs : List Call) : ∀ (vs : List Bytes) (st : VSt), (∀ v ∈ vs, v.length + 4 < 2 ^ 32) → st.rc.Wf →
    st.rc.stream = sdEncode vs → st.rc.count + st.rc.stream.length ≤ st.rc.max →
    (∀ c ∈ cs, c ∈ callsOf st.offset vs) → (cs.map (·.offset)).Pairwise (· < ·) →
    signalOffsets (cs.map (·.offset)) st = .ok (st.calls ++ cs) := by
  induction cs with
  | nil => intros; simp [signalOffsets]
  | cons c cs ih =>
    intro vs st hv hw hs hc hm hp
    obtain ⟨vs', rc', more, h1, h2, h3, h4, h5, h6, h7⟩ := signalOffset_spec c vs st hv hw hs hc (hm c (by simp))
    rw [List.map_cons, signalOffsets, h1]
    simp only
    rw [List.map_cons, List.pairwise_cons] at hp
    have hrec := ih vs' ⟨rc', c.offset + 4 + c.data.length, st.calls ++ [c]⟩ (fun v h => hv v (h6 v h)) h2 h3 h4
      (fun d hd => h7 d (hm d (List.mem_cons_of_mem _ hd)) (hp.1 _ (List.mem_map.mpr ⟨d, hd, rfl⟩))) hp.2
    by_cases hmore : more = true
    · rw [if_pos hmore, hrec]; simp
    · rw [if_neg hmore]
      match cs with
      | [] => rfl
      | d :: _ =>
        exfalso
        have hd := callsOf_mem (h7 d (hm d (by simp)) (hp.1 _ (by simp)))
        apply hmore
        rw [h5]
        rw [h3] at h4
        omega

/-! ### VLSD channel groups -/

theorem vlsdOne_spec {cfg : RCfg} (hok : cfg.Ok) (sel : Nat) (keep : Nat → Bool) {r : Rec} {g : RGroup}
    (hg : cfg.group r.id = some g) (hv : if g.vlsd then r.data.length < 2 ^ 32 else r.data.length = g.size)
    (hsel : r.id = sel → g.vlsd = true ∧ r.data.length + 4 < 2 ^ 32) (st : VSt) (h : st.rc.Wf) (T : Bytes)
    (hS : st.rc.stream = encodeRec cfg.idSize g.vlsd r ++ T) :
    ∃ rc', cfg.vlsdOne sel keep st =
        .ok (if r.id = sel then ⟨rc', st.offset + 4 + r.data.length,
          st.calls ++ (if keep st.offset then [⟨st.offset, r.data⟩] else [])⟩ else { st with rc := rc' }) ∧
      rc'.Wf ∧ rc'.stream = T ∧ rc'.count ≤ st.rc.count + (encodeRec cfg.idSize g.vlsd r).length ∧ rc'.max = st.rc.max := by
  obtain ⟨hmem, hid⟩ := group_mem hg
  unfold encodeRec at hS ⊢
  rw [writeRecordId_eq hok] at hS ⊢
  have hstep : ∃ rc1, cfg.parseRecordId st.rc = .ok (g.id, rc1) ∧ rc1.Wf ∧
      rc1.stream = (if g.vlsd then leBytes 4 r.data.length ++ r.data else r.data) ++ T ∧
      rc1.count = st.rc.count + cfg.idSize ∧ rc1.max = st.rc.max := by
    by_cases h0 : cfg.idSize = 0
    · refine ⟨st.rc, parseRecordId_zero hok h0 hmem _, h, ?_, by omega, rfl⟩
      rw [hS, h0]; rfl
    · obtain ⟨rc1, h1, h2, h3, h4, h5⟩ := (parseRecordId_spec hok h0 h).1 (by rw [hS]; simp)
      refine ⟨rc1, ?_, h2, ?_, h4, h5⟩
      · rw [h1, hS, List.append_assoc, List.take_left' (by simp), leNat_leBytes, Nat.mod_eq_of_lt, hid]
        rw [← hid]; exact hok.fits h0 g hmem
      · rw [h3, hS, List.append_assoc, List.drop_left' (by simp)]
  obtain ⟨rc1, p1, p2, p3, p4, p5⟩ := hstep
  unfold RCfg.vlsdOne
  rw [p1]
  simp only [Out.bind]
  rw [find_of_mem hok hmem]
  simp only
  by_cases hvl : g.vlsd = true
  · simp only [hvl, if_true] at p3 hv ⊢
    obtain ⟨rc2, q1, q2, q3, q4, q5⟩ := (getArray_spec 4 p2).1 (by rw [p3]; simp)
    rw [p3, List.append_assoc, List.drop_left' (by simp)] at q3
    rw [p3, List.append_assoc, List.take_left' (by simp)] at q1
    have hl : leNat (leBytes 4 r.data.length) = r.data.length := by rw [leNat_leBytes, Nat.mod_eq_of_lt (by omega)]
    rw [q1]
    simp only [hl, hid]
    by_cases hs : r.id = sel
    · have hoff : st.offset + (4 + r.data.length) % 2 ^ 32 = st.offset + 4 + r.data.length := by
        rw [Nat.mod_eq_of_lt (by have := (hsel hs).2; omega)]; omega
      rw [if_neg (by simp [hs])]
      simp only [hs, if_true, hoff]
      by_cases hk : keep st.offset = true
      · simp only [hk, if_true]
        obtain ⟨rc3, g1, g2, g3, g4, g5⟩ := (getArray_spec r.data.length q2).1 (by rw [q3]; simp)
        rw [q3, List.take_left' rfl] at g1
        rw [q3, List.drop_left' rfl] at g3
        rw [g1]
        exact ⟨rc3, rfl, g2, g3, by simp; omega, by omega⟩
      · simp only [hk]
        obtain ⟨rc3, g1, g2, g3, g4, g5⟩ := skipBytes_spec r.data.length q2 (by rw [q3]; simp)
        rw [q3, List.drop_left' rfl] at g3
        rw [g1]
        exact ⟨rc3, by simp, g2, g3, by simp; omega, by omega⟩
    · rw [if_pos (by simpa using hs)]
      simp only [hs, if_false]
      obtain ⟨rc3, g1, g2, g3, g4, g5⟩ := skipBytes_spec r.data.length q2 (by rw [q3]; simp)
      rw [q3, List.drop_left' rfl] at g3
      rw [g1]
      exact ⟨rc3, rfl, g2, g3, by simp; omega, by omega⟩
  · have hs : r.id ≠ sel := fun e => hvl (hsel e).1
    simp only [hvl] at p3 hv ⊢
    simp only [Bool.false_eq_true, if_false] at p3 hv ⊢
    simp only [hs, if_false]
    obtain ⟨rc3, b1, b2, b3, b4, b5⟩ := skipBytes_spec g.size p2 (by rw [p3]; simp; omega)
    rw [p3, List.drop_left' hv] at b3
    rw [b1]
    exact ⟨rc3, rfl, b2, b3, by simp; omega, by omega⟩

theorem vlsdOne_exhausted {cfg : RCfg} (hok : cfg.Ok) (sel : Nat) (keep : Nat → Bool) {g : RGroup} (hg : cfg.group sel = some g)
    (hvl : g.vlsd = true) (st : VSt) (hw : st.rc.Wf) (hs : st.rc.stream = []) : cfg.vlsdOne sel keep st = .throw := by
  obtain ⟨hmem, hid⟩ := group_mem hg
  unfold RCfg.vlsdOne
  by_cases h0 : cfg.idSize = 0
  · rw [parseRecordId_zero hok h0 hmem]
    simp only [Out.bind]
    rw [find_of_mem hok hmem]
    simp only [hvl, if_true]
    rw [exhausted_getArray (exhausted_of_nil hw hs) (by omega)]
  · rw [(parseRecordId_spec hok h0 hw).2 (by rw [hs]; simp; omega)]; rfl

theorem vlsdLoop_spec {cfg : RCfg} (hok : cfg.Ok) (sel : Nat) (keep : Nat → Bool) {gs : RGroup} (hgs : cfg.group sel = some gs)
    (hvs : gs.vlsd = true) (recs : List Rec) : ∀ (st : VSt) (fuel : Nat), (∀ r ∈ recs, cfg.ValidRec r) →
    (∀ r ∈ recs, r.id = sel → r.data.length + 4 < 2 ^ 32) →
    st.rc.Wf → st.rc.stream = cfg.encode recs → st.rc.count + st.rc.stream.length ≤ st.rc.max → recs.length < fuel →
    cfg.vlsdLoop sel keep fuel st =
      .done (st.calls ++ (callsOf st.offset (valuesOf sel recs)).filter fun c => keep c.offset) := by
  induction recs with
  | nil =>
    intro st fuel _ _ hw hs hc hf
    obtain ⟨fuel, rfl⟩ : ∃ k, fuel = k + 1 := ⟨fuel - 1, by simp at hf; omega⟩
    unfold RCfg.vlsdLoop
    rw [vlsdOne_exhausted hok sel keep hgs hvs st hw hs]
    simp [callsOf, valuesOf]
  | cons r rs ih =>
    intro st fuel hv hl hw hs hc hf
    obtain ⟨fuel, rfl⟩ : ∃ k, fuel = k + 1 := ⟨fuel - 1, by simp at hf; omega⟩
    simp only [List.length_cons] at hf
    obtain ⟨g, hg, hsize⟩ := hv r (by simp)
    obtain ⟨hmem, hid⟩ := group_mem hg
    have henc : cfg.encode (r :: rs) = encodeRec cfg.idSize g.vlsd r ++ cfg.encode rs := by
      unfold RCfg.encode
      rw [List.flatMap_cons, hg]; rfl
    rw [henc] at hs
    have hpos : 0 < (encodeRec cfg.idSize g.vlsd r).length := by
      unfold encodeRec
      rw [writeRecordId_eq hok, List.length_append, leBytes_length]
      by_cases h0 : cfg.idSize = 0
      · by_cases hvl : g.vlsd = true
        · simp only [hvl, if_true, List.length_append, leBytes_length]; omega
        · simp only [hvl] at hsize ⊢
          simp only [Bool.false_eq_true, if_false] at hsize ⊢
          have := hok.progress h0 g hmem (by simpa using hvl)
          omega
      · omega
    have hlen : st.rc.stream.length = (encodeRec cfg.idSize g.vlsd r).length + (cfg.encode rs).length := by
      rw [hs, List.length_append]
    obtain ⟨rc', h1, h2, h3, h4, h5⟩ := vlsdOne_spec hok sel keep hg hsize
      (fun e => ⟨by rw [e, hgs] at hg; cases hg; exact hvs, hl r (by simp) e⟩) st hw _ hs
    unfold RCfg.vlsdLoop
    rw [if_neg (by
      intro h
      rcases h with h | h
      · rw [h] at hmem; cases hmem
      · omega), h1]
    simp only
    have hv' : ∀ x ∈ rs, cfg.ValidRec x := fun x hx => hv x (List.mem_cons_of_mem _ hx)
    have hl' : ∀ x ∈ rs, x.id = sel → x.data.length + 4 < 2 ^ 32 := fun x hx => hl x (List.mem_cons_of_mem _ hx)
    by_cases hs' : r.id = sel
    · rw [if_pos hs', ih _ fuel hv' hl' h2 h3 (by simp only [h3]; omega) (by omega)]
      have : valuesOf sel (r :: rs) = r.data :: valuesOf sel rs := by
        unfold valuesOf; rw [List.filter_cons_of_pos (by simpa using hs')]; rfl
      rw [this]
      simp only [callsOf, List.filter_cons, List.append_assoc]
      congr 2
      split <;> rfl
    · rw [if_neg hs', ih _ fuel hv' hl' h2 h3 (by simp only [h3]; omega) (by omega)]
      have : valuesOf sel (r :: rs) = valuesOf sel rs := by
        unfold valuesOf; rw [List.filter_cons_of_neg (by simpa using hs')]
      rw [this]

end Mdf
