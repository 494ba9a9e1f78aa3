import Verif.Proof.Reader2

/-!
C98: reading the description of a file in steps.  C99: objects stay valid.  C100: files are left open or closed as they were.

`d` is the file, `cs` are calls of `ReadHeader` (`.header`), `ReadMeasurementInfo` (`.info`) and `ReadEverythingButData`
(`.everything`) on a new reader, `outs` what they returned.
-/

namespace Mdf

/-- The full claim: after a call that returned true the description is what the call promises. -/
def C98_Statement : Prop :=
  ∀ (d : Img) (cs : List RCall) (c : RCall) (h : HdObj) (outs : List Bool),
    runCalls (RCall.run4 d) (cs ++ [c]) HdObj.fresh = some (h, outs ++ [true]) → h.Whole d c

/-- Two data groups; the second cannot be read. -/
def exBroken : Img :=
  { hdLinks := ([100, 0, 0, 0, 0, 0], true), hdVal := some [], hdMd := true, fuel := 10,
    blk := fun k _ p => match k, p with
      | .dg, 100 => some ⟨[200, 300, 0, 0], [1#8]⟩
      | .cg, 300 => some ⟨[0, 0, 0, 0, 0, 0], [2#8]⟩
      | _, _ => none }

/-- It is false: the first call fails, the same call again returns true, and the description has one data group of two. -/
theorem C98_false : ¬ C98_Statement := by
  intro h
  have := h exBroken [.everything] .everything
    ⟨true, [100, 0, 0, 0, 0, 0], [], [], [⟨⟨0, ⟨[200, 300, 0, 0], [1#8]⟩⟩, [⟨⟨2, ⟨[0, 0, 0, 0, 0, 0], [2#8]⟩⟩, [], []⟩]⟩], [], [], [], 3⟩
    [false] (by decide)
  have hd := this.1.2.1
  cases hd with
  | cons _ hb ht =>
    have hb' := hb
    simp [exBroken, HdObj.link] at hb'
    cases ht with
    | nil hv => simp [RBlk.link] at hv; revert hv; decide

/-- If all calls returned true, in whatever order and number, then the state is exactly that of a new reader after the one call that
reads most, objects included, and the description is what that call promises. -/
theorem C98_staged_partial (d : Img) (cs : List RCall) (c : RCall) (hc : c ∈ cs) (hmax : ∀ c' ∈ cs, c'.rank ≤ c.rank) (h : HdObj)
    (outs : List Bool) (hrun : runCalls (RCall.run4 d) cs HdObj.fresh = some (h, outs)) (hall : ∀ o ∈ outs, o = true) :
    c.run4 d HdObj.fresh = (h, .ok) ∧ h.Whole d c := by
  have key : ∀ (cs : List RCall) (c0 : RCall) (h0 : HdObj) (outs : List Bool), c0.run4 d HdObj.fresh = (h0, .ok) →
      runCalls (RCall.run4 d) cs h0 = some (h, outs) → (∀ o ∈ outs, o = true) →
      ∃ c1, (c1 = c0 ∨ c1 ∈ cs) ∧ c0.rank ≤ c1.rank ∧ (∀ c' ∈ cs, c'.rank ≤ c1.rank) ∧ c1.run4 d HdObj.fresh = (h, .ok) := by
    intro cs
    induction cs with
    | nil =>
      intro c0 h0 outs h1 h2 _
      simp only [runCalls, Option.some.injEq, Prod.mk.injEq] at h2
      exact ⟨c0, .inl rfl, Nat.le_refl _, by simp, by rw [h1, h2.1]⟩
    | cons c cs ih =>
      intro c0 h0 outs h1 h2 h3
      obtain ⟨w, hr⟩ := run4_fresh d c0 (by rw [h1])
      rw [h1] at w hr
      unfold runCalls at h2
      by_cases hle : c.rank ≤ c0.rank
      · have hf := run4_fix d h0 c0 c hr w hle
        rw [hf] at h2
        obtain ⟨q, hq, he⟩ := Option.map_eq_some_iff.mp h2
        simp only [Prod.mk.injEq] at he
        obtain ⟨c1, k1, k2, k3, k4⟩ := ih c0 h0 q.2 h1 (by rw [hq, ← he.1]) (fun o ho => h3 o (by rw [← he.2]; exact List.mem_cons_of_mem _ ho))
        refine ⟨c1, k1.imp_right (List.mem_cons_of_mem _), k2, ?_, k4⟩
        intro c' hc'
        rcases List.mem_cons.mp hc' with rfl | hc'
        · omega
        · exact k3 c' hc'
      · have hs := run4_stage d c0 c (by omega) (by rw [h1])
        rw [h1] at hs
        simp only at hs
        split at h2
        · simp at h2
        · rename_i h' o hno he'
          obtain ⟨q, hq, he⟩ := Option.map_eq_some_iff.mp h2
          simp only [Prod.mk.injEq] at he
          have ho : o = .ok := by
            have := h3 (decide (o = .ok)) (by rw [← he.2]; exact List.mem_cons_self)
            simpa using this
          rw [ho] at he'
          obtain ⟨c1, k1, k2, k3, k4⟩ := ih c h' q.2 (by rw [← hs, he']) (by rw [hq, ← he.1])
            (fun o ho => h3 o (by rw [← he.2]; exact List.mem_cons_of_mem _ ho))
          refine ⟨c1, .inr ?_, by omega, ?_, k4⟩
          · rcases k1 with rfl | k1
            · exact List.mem_cons_self
            · exact List.mem_cons_of_mem _ k1
          · intro c' hc'
            rcases List.mem_cons.mp hc' with rfl | hc'
            · exact k2
            · exact k3 c' hc'
  have hgoal : c.run4 d HdObj.fresh = (h, .ok) := by
    cases cs with
    | nil => simp at hc
    | cons c0 cs =>
      unfold runCalls at hrun
      split at hrun
      · simp at hrun
      · rename_i h' o hno he'
        obtain ⟨q, hq, he⟩ := Option.map_eq_some_iff.mp hrun
        simp only [Prod.mk.injEq] at he
        have ho : o = .ok := by
          have := hall (decide (o = .ok)) (by rw [← he.2]; exact List.mem_cons_self)
          simpa using this
        rw [ho] at he'
        obtain ⟨c1, k1, k2, k3, k4⟩ := key cs c0 h' q.2 he' (by rw [hq, ← he.1])
          (fun o ho => hall o (by rw [← he.2]; exact List.mem_cons_of_mem _ ho))
        have hmem : c1 ∈ c0 :: cs := by
          rcases k1 with rfl | k1
          · exact List.mem_cons_self
          · exact List.mem_cons_of_mem _ k1
        have h1 := hmax c1 hmem
        have h2 : c.rank ≤ c1.rank := by
          rcases List.mem_cons.mp hc with rfl | hc
          · exact k2
          · exact k3 c hc
        have : c1 = c := by
          have : c1.rank = c.rank := by omega
          revert this
          cases c1 <;> cases c <;> simp [RCall.rank]
        rw [← this]; exact k4
  refine ⟨hgoal, ?_⟩
  have := (run4_fresh d c (by rw [hgoal])).1
  rwa [hgoal] at this

/-- Two data groups with a group and a channel each, an attachment. -/
def exTree : Img :=
  { hdLinks := ([100, 0, 0, 400, 0, 0], true), hdVal := some [7#8], hdMd := true, fuel := 10,
    blk := fun k att p => match k, p with
      | .dg, 100 => some ⟨[200, 300, 0, 0], [1#8]⟩
      | .dg, 200 => some ⟨[0, 301, 0, 0], [2#8]⟩
      | .cg, 300 => some ⟨[0, 500, 0, 0, 0, 0], [3#8]⟩
      | .cg, 301 => some ⟨[0, 501, 0, 0, 0, 0], [4#8]⟩
      | .cn, 500 => some ⟨[501], BitVec.ofNat 8 att.length :: [5#8]⟩
      | .cn, 501 => some ⟨[0], [6#8]⟩
      | .at, 400 => some ⟨[0], [8#8]⟩
      | _, _ => none }

/-- Its description. -/
def exTreeRead : HdObj :=
  ⟨true, [100, 0, 0, 400, 0, 0], [7#8], [],
    [⟨⟨0, ⟨[200, 300, 0, 0], [1#8]⟩⟩, [⟨⟨2, ⟨[0, 500, 0, 0, 0, 0], [3#8]⟩⟩, [⟨5, ⟨[501], [1#8, 5#8]⟩⟩, ⟨6, ⟨[0], [6#8]⟩⟩], []⟩]⟩,
     ⟨⟨1, ⟨[0, 301, 0, 0], [2#8]⟩⟩, [⟨⟨3, ⟨[0, 501, 0, 0, 0, 0], [4#8]⟩⟩, [⟨7, ⟨[0], [6#8]⟩⟩], []⟩]⟩],
    [⟨4, ⟨[0], [8#8]⟩⟩], [], [], 8⟩

example : runCalls (RCall.run4 exTree) [.info, .header, .everything, .info, .everything] HdObj.fresh =
    some (exTreeRead, [true, true, true, true, true]) ∧ RCall.everything.run4 exTree HdObj.fresh = (exTreeRead, .ok) := by decide

/-- If the file can be read at all, no call in any sequence fails. -/
theorem C98_no_call_fails (d : Img) (hok : (RCall.everything.run4 d HdObj.fresh).2 = .ok) (cs : List RCall) :
    ∃ h, runCalls (RCall.run4 d) cs HdObj.fresh = some (h, cs.map fun _ => true) := by
  have hfresh : ∀ c : RCall, (c.run4 d HdObj.fresh).2 = .ok := by
    intro c
    have h3 : ((d.header4.seq d.info4).seq d.rest4 HdObj.fresh).2 = .ok := hok
    cases c with
    | header => exact (seq_ok.mp (seq_ok.mp h3).1).1
    | info => exact (seq_ok.mp h3).1
    | everything => exact hok
  have key : ∀ (cs : List RCall) (h : HdObj), (h = HdObj.fresh ∨ ∃ c : RCall, c.run4 d HdObj.fresh = (h, .ok)) →
      ∃ h', runCalls (RCall.run4 d) cs h = some (h', cs.map fun _ => true) := by
    intro cs
    induction cs with
    | nil => intro h _; exact ⟨h, rfl⟩
    | cons c cs ih =>
      intro h hh
      have hstep : ∃ h', c.run4 d h = (h', .ok) ∧ ∃ c' : RCall, c'.run4 d HdObj.fresh = (h', .ok) := by
        rcases hh with rfl | ⟨c0, h0⟩
        · exact ⟨_, Prod.ext rfl (hfresh c), c, Prod.ext rfl (hfresh c)⟩
        · obtain ⟨w, hr⟩ := run4_fresh d c0 (by rw [h0])
          rw [h0] at w hr
          by_cases hle : c.rank ≤ c0.rank
          · exact ⟨h, run4_fix d h c0 c hr w hle, c0, h0⟩
          · have hs := run4_stage d c0 c (by omega) (by rw [h0])
            rw [h0] at hs
            simp only at hs
            exact ⟨_, hs.trans (Prod.ext rfl (hfresh c)), c, Prod.ext rfl (hfresh c)⟩
      obtain ⟨h', e1, hc'⟩ := hstep
      obtain ⟨h'', e2⟩ := ih h' (.inr hc')
      refine ⟨h'', ?_⟩
      unfold runCalls
      rw [e1]
      simp [e2]
  exact key cs _ (.inl rfl)

example : (RCall.everything.run4 exTree HdObj.fresh).2 = .ok := by decide

/-- Whatever calls were made and whichever of them failed: nothing is in the description that is not in the file, and no list has a
gap; what is missing is missing at the ends of lists. -/
theorem C98_nothing_foreign (d : Img) (cs : List RCall) (h : HdObj) (outs : List Bool)
    (hrun : runCalls (RCall.run4 d) cs HdObj.fresh = some (h, outs)) : h.Sound d :=
  (runCalls_inv (P := HdObj.Inv4 d) (fun c h hp => rcall4_inv d c h hp) cs HdObj.fresh (inv4_fresh d) (h, outs) hrun).sound

example : (runCalls (RCall.run4 exBroken) [.everything, .info, .everything] HdObj.fresh).map (·.2) = some [false, true, true] := by decide

/-- A list of data groups of which the first can be read and a later one cannot: the first call fails, every further one returns true. -/
theorem C98_failure_reported_once (d : Img) (hh : (d.header4 HdObj.fresh).2 = .ok) (os : List Obj) (m : Nat) (hos : os ≠ [])
    (hw : walk (d.blk .dg []) d.fuel (d.hdLinks.1.getD 0 0) (d.header4 HdObj.fresh).1.made = (os, m, .thrown))
    (hcg : ∀ o ∈ os, ∀ made, (walk (d.blk .cg []) d.fuel (o.blk.link 1) made).2.2 = .ok)
    (hat : ∀ made, (walk (d.blk .at []) d.fuel (d.hdLinks.1.getD 3 0) made).2.2 = .ok) :
    ∃ h, runCalls (RCall.run4 d) [.info, .info] HdObj.fresh = some (h, [false, true]) ∧ h.dg.map (·.self) = os := by
  obtain ⟨⟨wh, _⟩, hr, hdg, hatt, _, _⟩ := d.header4_fresh hh
  generalize hh1 : (d.header4 HdObj.fresh).1 = h1 at *
  have hl : ∀ i, h1.link i = d.hdLinks.1.getD i 0 := by intro i; unfold HdObj.link; rw [wh.2.1]
  have e1 : d.dgList4 h1 = ({ h1 with dg := os.map (⟨·, []⟩), made := m }, .thrown) := by
    unfold Img.dgList4
    rw [hdg, hl]
    simp only [if_true]
    rw [hw]
  have e2 : RCall.info.run4 d HdObj.fresh = ({ h1 with dg := os.map (⟨·, []⟩), made := m }, .thrown) := by
    show d.header4.seq d.info4 HdObj.fresh = _
    rw [seq_fst hh, hh1]
    show (d.dgList4.seq d.cgLists4).seq d.atList4 h1 = _
    rw [seq_stop (by rw [seq_stop (by rw [e1]; simp), e1]; simp), seq_stop (by rw [e1]; simp), e1]
  generalize hh2 : ({ h1 with dg := os.map (⟨·, []⟩), made := m } : HdObj) = h2 at *
  have d2 : h2.dg = os.map (⟨·, []⟩) := by rw [← hh2]
  have r2 : h2.read = true := by rw [← hh2]; exact hr
  have a2 : h2.att = [] := by rw [← hh2]; exact hatt
  have l2 : ∀ i, h2.link i = d.hdLinks.1.getD i 0 := by intro i; rw [← hl i, ← hh2]; rfl
  have f1 : d.dgList4 h2 = (h2, .ok) := by
    unfold Img.dgList4
    rw [if_neg (by rw [d2]; simpa using hos)]
  have allok : ∀ (xs : List DgObj) (made : Nat), (∀ g ∈ xs, ∀ made, (d.cgList4 g made).2.2 = .ok) → (eachObj d.cgList4 xs made).2.2 = .ok := by
    intro xs
    induction xs with
    | nil => intro made _; rfl
    | cons x xs ih =>
      intro made hx
      unfold eachObj
      have h0 := hx x List.mem_cons_self made
      split
      · exact ih _ fun g hg => hx g (List.mem_cons_of_mem _ hg)
      · rename_i x' made' o hno he
        rw [he] at h0
        exact absurd h0 hno
  have f2 : (d.cgLists4 h2).2 = .ok := by
    unfold Img.cgLists4
    simp only
    apply allok
    intro g hg made
    rw [d2] at hg
    obtain ⟨o, ho, rfl⟩ := List.mem_map.mp hg
    unfold Img.cgList4
    simp only [if_true]
    exact hcg o ho made
  have f2' : (d.cgLists4 h2).1.dg.map (·.self) = os := by
    have hrel := eachObj_rel d.cgList4 (fun x y => y.self = x.self) (fun _ => rfl) (fun x m => (d.cgList4_rel x m).1) h2.dg h2.made
    have h0 : h2.dg.map (·.self) = (d.cgLists4 h2).1.dg.map (·.self) := forall₂_map_eq hrel _ fun x y h => by simp [h]
    rw [← h0, d2]
    simp [Function.comp_def]
  have f3 : (d.atList4 (d.cgLists4 h2).1).2 = .ok := by
    show (readObjList (d.blk .at []) d.fuel h2.att (h2.link 3) (d.cgLists4 h2).1.made).2.2 = .ok
    rw [a2, l2]
    exact hat _
  have hinfo : d.info4 h2 = d.atList4 (d.cgLists4 h2).1 := by
    show (d.dgList4.seq d.cgLists4).seq d.atList4 h2 = _
    rw [seq_fst (by rw [seq_fst (by rw [f1]), f1]; exact f2), seq_fst (by rw [f1]), f1]
  have e3 : RCall.info.run4 d h2 = ((d.atList4 (d.cgLists4 h2).1).1, .ok) := by
    show d.header4.seq d.info4 h2 = _
    rw [seq_fst (by rw [d.header4_fix h2 r2]), d.header4_fix h2 r2]
    simp only
    rw [hinfo]
    exact Prod.ext rfl f3
  refine ⟨(d.atList4 (d.cgLists4 h2).1).1, ?_, f2'⟩
  unfold runCalls
  rw [e2]
  unfold runCalls
  simp only
  rw [e3]
  simp [runCalls]

example : (exBroken.header4 HdObj.fresh).2 = .ok ∧ walk (exBroken.blk .dg []) 10 100 0 = ([⟨0, ⟨[200, 300, 0, 0], [1#8]⟩⟩], 2, .thrown) ∧
    (∀ made, (walk (exBroken.blk .cg []) 10 300 made).2.2 = .ok) ∧ ∀ made, (walk (exBroken.blk .at []) 10 0 made).2.2 = .ok := by
  refine ⟨by decide, by decide, fun made => ?_, fun made => ?_⟩
  · rfl
  · rfl

/-- MDF 3: if the header can be read, then after a call that returned true the description is what the call promises, whatever failed
before. -/
theorem C98_mdf3_partial (d : Img) (h1 : d.hdLinks.2 = true) (h2 : d.hdVal.isSome = true) (h3 : d.hdMd = true) (cs : List RCall)
    (c : RCall) (h : HdObj) (outs : List Bool) (hrun : runCalls (RCall.run3 d) (cs ++ [c]) HdObj.fresh = some (h, outs ++ [true])) :
    h.Whole3 d c := by
  have key : ∀ (cs : List RCall) (h0 : HdObj) (outs : List Bool), h0.Inv3 d → runCalls (RCall.run3 d) (cs ++ [c]) h0 = some (h, outs ++ [true]) →
      ∃ h1, h1.Inv3 d ∧ c.run3 d h1 = (h, .ok) := by
    intro cs
    induction cs with
    | nil =>
      intro h0 outs p hr
      simp only [List.nil_append, runCalls] at hr
      split at hr
      · simp at hr
      · rename_i h' o hno he
        simp only [Option.map_some, Option.some.injEq, Prod.mk.injEq] at hr
        refine ⟨h0, p, ?_⟩
        cases outs with
        | nil =>
          have : decide (o = .ok) = true := by simpa using hr.2
          rw [he, hr.1, of_decide_eq_true this]
        | cons x xs => simp at hr
    | cons c' cs ih =>
      intro h0 outs p hr
      simp only [List.cons_append, runCalls] at hr
      have hs := rcall3_inv d c' h0 p
      split at hr
      · simp at hr
      · rename_i h' o hno he
        rw [he] at hs
        obtain ⟨q, hq, hqe⟩ := Option.map_eq_some_iff.mp hr
        simp only [Prod.mk.injEq] at hqe
        cases outs with
        | nil =>
          exfalso
          have : q.2 = [] := by have := hqe.2; simp at this; exact this.2
          have hlen : ∀ (cs : List RCall) (h : HdObj) r, runCalls (RCall.run3 d) cs h = some r → r.2.length = cs.length := by
            intro cs
            induction cs with
            | nil => intro h r hr; simp only [runCalls, Option.some.injEq] at hr; rw [← hr]; rfl
            | cons c cs ih =>
              intro h r hr
              unfold runCalls at hr
              split at hr
              · simp at hr
              · obtain ⟨q, hq, rfl⟩ := Option.map_eq_some_iff.mp hr
                simp [ih _ _ hq]
          have := hlen _ _ _ hq
          rw [‹q.2 = []›] at this
          simp at this
        | cons x xs =>
          have hq2 : q.2 = xs ++ [true] := by have := hqe.2; simp at this; exact this.2
          exact ih h' xs hs (by rw [hq, ← hqe.1, ← hq2])
  obtain ⟨h0, p, hc⟩ := key cs HdObj.fresh outs (inv3_fresh d) hrun
  have kh := d.header3_inv h0 p
  have kr := d.header3_read h0
  have hw := kh.header kr h1 h2 h3
  cases c with
  | header =>
    have : d.header3 h0 = (h, .ok) := hc
    rw [this] at hw; exact hw
  | info =>
    have hc' : d.header3.seq d.info3 h0 = (h, .ok) := hc
    obtain ⟨o1, o2⟩ := seq_ok.mp (show (d.header3.seq d.info3 h0).2 = .ok by rw [hc'])
    rw [seq_fst o1] at hc'
    have k := d.walkDg3_ok d.fuel _ _ o2
    have e : (d.info3 (d.header3 h0).1).1 = h := by rw [hc']
    rw [← e]
    exact ⟨hw, k.1, fun g hg => (k.2 g hg).1⟩
  | everything =>
    have hc' : (d.header3.seq d.info3).seq d.rest3 h0 = (h, .ok) := hc
    obtain ⟨o12, o3⟩ := seq_ok.mp (show ((d.header3.seq d.info3).seq d.rest3 h0).2 = .ok by rw [hc'])
    obtain ⟨o1, o2⟩ := seq_ok.mp o12
    rw [seq_fst o12, seq_fst o1] at hc'
    rw [seq_fst o1] at o3
    have k := d.walkDg3_ok d.fuel _ _ o2
    have w := d.rest3_ok (d.info3 (d.header3 h0).1).1 ⟨k.1, fun g hg => (k.2 g hg).1⟩ (fun g hg => (k.2 g hg).2) o3
    have e : (d.rest3 (d.info3 (d.header3 h0).1).1).1 = h := by rw [hc']
    rw [← e]
    exact ⟨⟨hw, w.1⟩, w.2⟩

example : exTree.hdLinks.2 = true ∧ exTree.hdVal.isSome = true ∧ exTree.hdMd = true ∧
    (runCalls (RCall.run3 exTree) [.info, .everything] HdObj.fresh).map (·.2) = some [true, true] := by decide

example : runCalls (RCall.run3 exBroken) [.everything, .info, .everything] HdObj.fresh =
    some (⟨true, [100, 0, 0, 0, 0, 0], [], [], [⟨⟨6, ⟨[200, 300, 0, 0], [1#8]⟩⟩, [⟨⟨7, ⟨[0, 0, 0, 0, 0, 0], [2#8]⟩⟩, [], []⟩]⟩], [], [], [], 9⟩,
      [false, false, false]) := by decide

/-- MDF 3, without the condition: a header that is cut off is an error in the first call and none in the second; the file then
seems to have no data groups. -/
theorem C98_mdf3_header_false : ∃ (d : Img) (h : HdObj),
    runCalls (RCall.run3 d) [.everything, .everything] HdObj.fresh = some (h, [false, true]) ∧ ¬ h.Whole3 d .everything ∧ h.dg = [] := by
  refine ⟨{ exTree with hdLinks := ([], false) }, ⟨true, [], [], [], [], [], [], [], 0⟩, by decide, ?_, rfl⟩
  intro hw
  have := hw.1.1.1
  simp at this

/-! ### C99 -/

/-- The full claim: an object the reader gave out is there as long as the reader. -/
def C99_Statement : Prop :=
  ∀ (d : Img) (run : Img → RCall → ReadM), run ∈ [fun d c => c.run3 d, fun d c => c.run4 d] →
    ∀ (cs : List RCall) (c : RCall) (h : HdObj) (outs : List Bool), runCalls (run d) cs HdObj.fresh = some (h, outs) →
      h.live ⊆ (run d c h).1.live

/-- It is false of MDF 3 files: the data groups from `ReadMeasurementInfo` are destroyed by `ReadEverythingButData`. -/
theorem C99_false : ¬ C99_Statement := by
  intro h
  have := h exTree (fun d c => c.run3 d) (by simp) [.info] .everything
    ⟨true, [100, 0, 0, 400, 0, 0], [7#8], [], [⟨⟨0, ⟨[200, 300, 0, 0], [1#8]⟩⟩, [⟨⟨1, ⟨[0, 500, 0, 0, 0, 0], [3#8]⟩⟩, [], []⟩]⟩,
      ⟨⟨2, ⟨[0, 301, 0, 0], [2#8]⟩⟩, [⟨⟨3, ⟨[0, 501, 0, 0, 0, 0], [4#8]⟩⟩, [], []⟩]⟩], [], [], [], 4⟩ [true] (by decide)
  have h0 : 0 ∈ _ := this (show 0 ∈ _ by decide)
  revert h0
  decide

/-- MDF 4: every object stays, in every state (also after failed calls, and if this call fails). -/
theorem C99_mdf4_partial (d : Img) (c : RCall) (h : HdObj) : h.live ⊆ (c.run4 d h).1.live := run4_keeps d c h

example : exTreeRead.live = [4, 0, 2, 5, 6, 1, 3, 7] ∧ 5 ∈ (RCall.info.run4 exTree exTreeRead).1.live := by decide

/-- MDF 3: after each `ReadMeasurementInfo` or `ReadEverythingButData` none of the objects given out before is left; `ReadHeader` keeps
them. -/
theorem C99_mdf3_destroyed (d : Img) (cs : List RCall) (h : HdObj) (outs : List Bool)
    (hrun : runCalls (RCall.run3 d) cs HdObj.fresh = some (h, outs)) :
    (∀ i ∈ h.live, i ∉ (RCall.info.run3 d h).1.live ∧ i ∉ (RCall.everything.run3 d h).1.live) ∧
      (RCall.header.run3 d h).1.live = h.live := by
  have p : h.Inv3 d :=
    runCalls_inv (P := HdObj.Inv3 d) (fun c h hp => rcall3_inv d c h hp) cs HdObj.fresh (inv3_fresh d) (h, outs) hrun
  have hlive : (d.header3 h).1.live = h.live := by
    obtain ⟨k1, k2, k3, k4, k5, k6⟩ := d.header3_dg h
    rw [live_eq, live_eq, k1, k3, k4, k5, k6]
  refine ⟨?_, hlive⟩
  intro i hi
  have hread : h.read = true := by
    by_contra hf
    have := p.start (by simpa using hf)
    rw [this] at hi
    simp [HdObj.fresh, HdObj.live] at hi
  have e0 : d.header3 h = (h, .ok) := by unfold Img.header3; simp [hread]
  have k1 := d.info3_destroys h p i hi
  have e1 : RCall.info.run3 d h = d.info3 h := by
    show d.header3.seq d.info3 h = _
    rw [seq_fst (by rw [e0]), e0]
  refine ⟨by rw [e1]; exact k1, ?_⟩
  have e2 : RCall.everything.run3 d h = d.info3.seq d.rest3 h := by
    show (d.header3.seq d.info3).seq d.rest3 h = _
    unfold ReadM.seq
    rw [e0]
  rw [e2]
  by_cases hok : (d.info3 h).2 = .ok
  · rw [seq_fst hok]
    intro hi'
    have k2 := d.info3_inv h hread p
    rcases (d.rest3_inv _ k2.2 k2.1).2.2 i hi' with h1 | h1
    · exact k1 h1
    · have h2 := p.made i hi
      have h3 : h.made ≤ (d.info3 h).1.made := (d.walkDg3_made d.fuel (h.link 0) h.made).1
      omega
  · rw [seq_stop hok]; exact k1

example : (runCalls (RCall.run3 exTree) [.info] HdObj.fresh).map (fun r => (r.1.live, (RCall.everything.run3 exTree r.1).1.live)) =
    some ([0, 1, 2, 3], [4, 5, 8, 9, 6, 7, 10]) := by decide

/-! ### C100 -/

/-- The full claim: no function of the reader leaves a file open that was closed, or closed that was open. -/
def C100_Statement : Prop :=
  ∀ (can good : Bool) (s : RStream), (s.call can good).1 = s ∧ ∀ pos nof, (s.inBuffer can good pos nof).1 = s

/-- It is false of `ReadInDataBuffer`: a closed file is open afterwards. -/
theorem C100_false : ¬ C100_Statement := by
  intro h
  have := (h true true (.file false)).2 100 8
  revert this
  decide

/-- All other functions leave the file as it was, whether they succeed or fail, and succeed exactly if the file is open or can be
opened and nothing is thrown. -/
theorem C100_other_calls_partial (can good : Bool) (s : RStream) :
    (s.call can good).1 = s ∧ ((s.call can good).2 = true ↔ (s.isOpen = true ∨ can = true) ∧ good = true) := by
  cases s with
  | own => cases can <;> cases good <;> decide
  | file b => cases b <;> cases can <;> cases good <;> decide

example : (RStream.file false).call true true = (.file false, true) ∧ (RStream.file true).call false false = (.file true, false) := by decide

/-- What `ReadInDataBuffer` does: nothing to the file if there is nothing to read or the position is not positive; otherwise the file is
opened (again) and stays open, or, if it cannot be opened, is closed, even if it was open.  An own stream is never touched. -/
theorem C100_in_buffer (can good : Bool) (pos : Int) (nof : Nat) (s : RStream) :
    s.inBuffer can good pos nof =
      if pos ≤ 0 then (s, false) else if nof = 0 then (s, true) else
      match s with
      | .own => (.own, good)
      | .file _ => (.file can, can && good) := by
  unfold RStream.inBuffer
  split
  · rfl
  · split
    · rfl
    · cases s with
      | own => cases can <;> cases good <;> rfl
      | file b => cases can <;> cases good <;> rfl

example : (RStream.file true).inBuffer false true 64 8 = (.file false, false) ∧
    (RStream.file false).inBuffer true false 64 8 = (.file true, false) := by decide

end Mdf
