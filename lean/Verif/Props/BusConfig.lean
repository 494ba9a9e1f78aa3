import Verif.Proof.BusConfig
import Verif.Props.BusName

/-!
# C114: The groups of a bus log

After `CreateBusLogConfiguration` the last data group has, for every bus of `BusType` and every kind of message of the bus, a group under the
name the kind is stored by, with one time channel, and a VLSD group of its own for its data bytes where the storage type demands it.
-/

namespace Mdf

theorem makeGroupName_ne_nil (bus base : List Char) (f : BusFilter) : makeGroupName bus f base ≠ [] := by
  cases f <;> simp [makeGroupName]

/-- All kinds of message have a named group. -/
theorem plans_named (b : BusBit) (s : BcSettings) : ∀ p ∈ b.plans s, p.name ≠ [] := by
  intro p hp
  cases b
  · simp only [BusBit.plans, canPlans] at hp
    split at hp <;> simp only [List.cons_append, List.nil_append, List.append_nil, List.mem_cons, List.not_mem_nil, or_false] at hp
    · rcases hp with rfl | rfl | rfl <;> exact makeGroupName_ne_nil _ _ _
    · rcases hp with rfl | rfl | rfl | rfl <;> exact makeGroupName_ne_nil _ _ _
  · simp only [BusBit.plans, linPlans, List.mem_map] at hp
    obtain ⟨k, _, rfl⟩ := hp
    exact makeGroupName_ne_nil _ _ _
  · simp only [BusBit.plans, flxPlans, List.mem_map] at hp
    obtain ⟨k, _, rfl⟩ := hp
    exact makeGroupName_ne_nil _ _ _
  · simp only [BusBit.plans, mostPlans, List.mem_cons, List.not_mem_nil, or_false] at hp
    rcases hp with rfl | rfl | rfl | rfl | rfl | rfl | rfl | rfl | rfl <;> exact makeGroupName_ne_nil _ _ _
  · simp only [BusBit.plans, ethPlans, List.mem_map] at hp
    obtain ⟨k, _, rfl⟩ := hp
    show k.groupName ≠ []
    cases k <;> decide

theorem mem_busLogPlans (busType : BitVec 16) (s : BcSettings) (p : BcPlan) :
    p ∈ busLogPlans busType s ↔ ∃ b : BusBit, b ≠ .flexRay ∧ busType &&& b.mask ≠ 0 ∧ p ∈ b.plans s := by
  unfold busLogPlans
  simp only [List.mem_append]
  constructor
  · rintro (((h | h) | h) | h) <;> split at h
    · exact ⟨.can, by decide, by assumption, h⟩
    · cases h
    · exact ⟨.lin, by decide, by assumption, h⟩
    · cases h
    · exact ⟨.ethernet, by decide, by assumption, h⟩
    · cases h
    · exact ⟨.most, by decide, by assumption, h⟩
    · cases h
  · rintro ⟨b, h1, h2, h3⟩
    cases b
    · exact .inl (.inl (.inl (by rw [if_pos (by exact h2)]; exact h3)))
    · exact .inl (.inl (.inr (by rw [if_pos (by exact h2)]; exact h3)))
    · exact absurd rfl h1
    · exact .inr (by rw [if_pos (by exact h2)]; exact h3)
    · exact .inl (.inr (by rw [if_pos (by exact h2)]; exact h3))

theorem busLog_named (busType : BitVec 16) (s : BcSettings) : ∀ p ∈ busLogPlans busType s, p.name ≠ [] := by
  intro p hp
  obtain ⟨b, _, _, h⟩ := (mem_busLogPlans busType s p).1 hp
  exact plans_named b s p h

/-! ### The adapters -/

/-- Any number of adapters, of any buses and with any settings, on one data group: the groups refer to each other properly, whatever was there
before, and every kind of message of every adapter has its group. -/
theorem C114_adapters (as : List (BusBit × BcSettings)) (dg : BcDg) (h : BcProper dg) :
    BcProper (bcRun (as.flatMap fun a => a.1.plans a.2) dg) ∧
    ∀ a ∈ as, ∀ p ∈ a.1.plans a.2, BcHas (bcRun (as.flatMap fun a => a.1.plans a.2) dg) p := by
  have hn : ∀ p ∈ as.flatMap (fun a => a.1.plans a.2), p.name ≠ [] := by
    intro p hp
    obtain ⟨a, _, h1⟩ := List.mem_flatMap.1 hp
    exact plans_named a.1 a.2 p h1
  have hi := (bcInv_iff dg).1 h
  have hp := (bcInv_iff _).2 (inv_bcRun _ hn dg hi)
  refine ⟨hp, fun a ha p hpa => has_of _ p hp (has_bcRun _ hn p dg hi (.inl ?_))⟩
  exact List.mem_flatMap.2 ⟨a, ha, hpa⟩

example : BcProper [] := (bcInv_iff []).2 inv_nil

example : (bcRun (canPlans ⟨.vlsd, true, .noFilter⟩) []).map (fun g => (String.ofList g.name, g.vlsd, g.dataRef)) =
    [("CAN_DataFrame", false, some 2), ("", true, none), ("CAN_RemoteFrame", false, none), ("CAN_ErrorFrame", false, some 5), ("", true, none)] := by
  decide

/-- The record ids stay right when groups are added later: the ids are given anew, but those of the groups that are referred to do not change. -/
theorem C114_ids_kept (dg more : BcDg) (h : 2 ≤ dg.length) (i : Nat) (hi : i < dg.length) : bcRecordId (dg ++ more) i = bcRecordId dg i := by
  rw [bcRecordId_two dg h i hi, bcRecordId_two (dg ++ more) (by simp; omega) i (by simp; omega)]

/-- The id of a single group does change. -/
theorem C114_ids_first (g : BcGroup) (h : BcGroup) : bcRecordId [g] 0 = some 0 ∧ bcRecordId [g, h] 0 = some 1 := ⟨rfl, rfl⟩

/-- Adapters with different filters do not share groups. -/
theorem C114_filters (b : BusBit) (hb : b ≠ .ethernet) (s s' : BcSettings) (h : s.filter ≠ s'.filter) (p q : BcPlan) (hp : p ∈ b.plans s)
    (hq : q ∈ b.plans s') : p.name ≠ q.name := by
  have can : ∀ k : CanFrame, '_' ∉ k.groupBase ∧ k.groupBase ≠ [] := by intro k; cases k <;> decide
  have lin : ∀ k : LinKind, '_' ∉ k.groupBase ∧ k.groupBase ≠ [] := by intro k; cases k <;> decide
  have most : ∀ k : MostKind, '_' ∉ k.groupBase ∧ k.groupBase ≠ [] := by intro k; cases k <;> decide
  have flx : ∀ k : FlxKind, '_' ∉ k.groupBase ∧ k.groupBase ≠ [] := by intro k; cases k <;> decide
  have fin : ∀ bus x y, ('_' ∉ x ∧ x ≠ []) → ('_' ∉ y ∧ y ≠ []) → p.name = makeGroupName bus s.filter x →
      q.name = makeGroupName bus s'.filter y → p.name ≠ q.name := by
    intro bus x y hx hy e1 e2 e
    rw [e1, e2] at e
    exact h (C83_names_differ bus x y _ _ hx.1 hx.2 hy.1 hy.2 e).1
  have hcan : ∀ (s : BcSettings) (p : BcPlan), p ∈ canPlans s → ∃ k : CanFrame, p.name = makeGroupName "CAN".toList s.filter k.groupBase := by
    intro s p hp
    simp only [canPlans] at hp
    split at hp <;> simp only [List.cons_append, List.nil_append, List.append_nil, List.mem_cons, List.not_mem_nil, or_false] at hp
    · rcases hp with rfl | rfl | rfl <;> exact ⟨_, rfl⟩
    · rcases hp with rfl | rfl | rfl | rfl <;> exact ⟨_, rfl⟩
  have hmost : ∀ (s : BcSettings) (p : BcPlan), p ∈ mostPlans s → ∃ k : MostKind, p.name = makeGroupName "MOST".toList s.filter k.groupBase := by
    intro s p hp
    simp only [mostPlans, List.mem_cons, List.not_mem_nil, or_false] at hp
    rcases hp with rfl | rfl | rfl | rfl | rfl | rfl | rfl | rfl | rfl <;> exact ⟨_, rfl⟩
  cases b
  · obtain ⟨k, hk⟩ := hcan s p hp
    obtain ⟨l, hl⟩ := hcan s' q hq
    exact fin _ _ _ (can k) (can l) hk hl
  · obtain ⟨k, _, rfl⟩ := List.mem_map.1 hp
    obtain ⟨l, _, rfl⟩ := List.mem_map.1 hq
    exact fin _ _ _ (lin k) (lin l) rfl rfl
  · obtain ⟨k, _, rfl⟩ := List.mem_map.1 hp
    obtain ⟨l, _, rfl⟩ := List.mem_map.1 hq
    exact fin _ _ _ (flx k) (flx l) rfl rfl
  · obtain ⟨k, hk⟩ := hmost s p hp
    obtain ⟨l, hl⟩ := hmost s' q hq
    exact fin _ _ _ (most k) (most l) hk hl
  · exact absurd rfl hb

example : (canPlans ⟨.vlsd, true, .channel 0x31⟩).map (fun p => String.ofList p.name) = ["CAN1_DataFrame", "CAN1_RemoteFrame", "CAN1_ErrorFrame"] := by
  decide

/-- Those of Ethernet do: the filter is not part of the names. -/
theorem C114_ethernet_filter (s s' : BcSettings) : (ethPlans s).map BcPlan.name = (ethPlans s').map BcPlan.name := rfl

/-! ### The configuration of the writer -/

/-- **C114, full statement.**  A bus log can be configured for every bus. -/
def C114_Statement : Prop :=
  ∀ (dgs : List BcDg) (busType : BitVec 16) (s : BcSettings) (b : BusBit), (∀ dg ∈ dgs, BcProper dg) → busType &&& b.mask ≠ 0 →
    ∃ dgs' dg, createBusLog (some dgs) busType s = (true, some dgs') ∧ dgs'.getLast? = some dg ∧ BcProper dg ∧ ∀ p ∈ b.plans s, BcHas dg p

/-- The data group that is used: the last one, if it has no samples, or a new one. -/
theorem createBusLog_last (dgs : List BcDg) (busType : BitVec 16) (s : BcSettings) (hb : busType ≠ 0) :
    ∃ old base : _, createBusLog (some dgs) busType s = (true, some (old ++ [bcRun (busLogPlans busType s) base])) ∧
      ((dgs = old ++ [base] ∧ BcDg.isEmpty base = true) ∨ (dgs = old ∧ base = [] ∧ ∀ l, dgs.getLast? = some l → BcDg.isEmpty l = false)) := by
  have two : ∀ (l : List BcDg) (x : BcDg) (f : BcDg → BcDg), (l ++ [x]).modify ((l ++ [x]).length - 1) f = l ++ [f x] := by
    intro l x f
    rw [show (l ++ [x]).length - 1 = l.length by simp]
    exact modify_mid l [] x f
  rcases List.eq_nil_or_concat dgs with rfl | ⟨l, x, rfl⟩
  · refine ⟨[], [], ?_, .inr ⟨rfl, rfl, by simp⟩⟩
    simp [createBusLog, show ¬ busType = 0#16 from hb]
  · rw [List.concat_eq_append]
    by_cases he : BcDg.isEmpty x = true
    · refine ⟨l, x, ?_, .inl ⟨rfl, he⟩⟩
      simp only [createBusLog, hb, if_false, List.getLast?_concat, he, if_true, two]
    · refine ⟨l ++ [x], [], ?_, .inr ⟨rfl, rfl, ?_⟩⟩
      · simp only [createBusLog, hb, if_false, List.getLast?_concat, he, Bool.false_eq_true, two]
      · intro y hy
        rw [List.getLast?_concat] at hy
        cases hy
        simpa using he

/-- What holds: all buses but FlexRay. -/
theorem C114_configured_partial (dgs : List BcDg) (busType : BitVec 16) (s : BcSettings) (b : BusBit) (h : ∀ dg ∈ dgs, BcProper dg)
    (hb : busType &&& b.mask ≠ 0) (hf : b ≠ .flexRay) :
    ∃ dgs' dg, createBusLog (some dgs) busType s = (true, some dgs') ∧ dgs'.getLast? = some dg ∧ BcProper dg ∧ ∀ p ∈ b.plans s, BcHas dg p := by
  have h0 : busType ≠ 0 := by
    rintro rfl
    exact hb (by simp)
  obtain ⟨old, base, h1, h2⟩ := createBusLog_last dgs busType s h0
  have hbase : BcProper base := by
    rcases h2 with ⟨h2, _⟩ | ⟨_, h2, _⟩
    · exact h base (by rw [h2]; simp)
    · rw [h2]
      exact (bcInv_iff []).2 inv_nil
  have hn := busLog_named busType s
  have hi := (bcInv_iff base).1 hbase
  have hp := (bcInv_iff _).2 (inv_bcRun _ hn base hi)
  refine ⟨_, _, h1, List.getLast?_concat .., hp, fun p hpp => has_of _ p hp (has_bcRun _ hn p base hi (.inl ?_))⟩
  exact (mem_busLogPlans busType s p).2 ⟨b, hf, hb, hpp⟩

/-- The full statement is false: nothing is made for FlexRay, and the function reports success. -/
theorem C114_flexray (s : BcSettings) : createBusLog (some []) 0x4 s = (true, some [[]]) := rfl

theorem C114_false : ¬ C114_Statement := by
  intro h
  obtain ⟨dgs', dg, h1, h2, _, h3⟩ := h [] 0x4 ⟨.vlsd, true, .noFilter⟩ .flexRay (by simp) (by decide)
  rw [C114_flexray] at h1
  cases h1
  cases h2
  obtain ⟨i, g, h4, _⟩ := h3 ⟨"FLX_Symbol".toList, false⟩ (by decide)
  simp at h4

/-- The adapter for FlexRay itself makes the groups. -/
theorem C114_flexray_adapter (s : BcSettings) (dg : BcDg) (h : BcProper dg) : ∀ p ∈ flxPlans s, BcHas (bcRun (flxPlans s) dg) p := by
  have := (C114_adapters [(.flexRay, s)] dg h).2 (.flexRay, s) List.mem_cons_self
  simpa [BusBit.plans] using this

/-- Without header or bus, the function fails and changes nothing. -/
theorem C114_refused (dgs : List BcDg) (busType : BitVec 16) (s : BcSettings) :
    createBusLog none busType s = (false, none) ∧ createBusLog (some dgs) 0 s = (false, some dgs) ∧
    (busType ≠ 0 → (createBusLog (some dgs) busType s).1 = true) := by
  refine ⟨rfl, rfl, fun h => ?_⟩
  simp [createBusLog, show ¬ busType = 0#16 from h]

/-- Data groups before the last, and a last one with samples, are left as they are. -/
theorem C114_earlier (dgs : List BcDg) (busType : BitVec 16) (s : BcSettings) (hb : busType ≠ 0) :
    ∃ old dg, createBusLog (some dgs) busType s = (true, some (old ++ [dg])) ∧
      (old = dgs ∨ ∃ base, dgs = old ++ [base] ∧ BcDg.isEmpty base = true) := by
  obtain ⟨old, base, h1, h2⟩ := createBusLog_last dgs busType s hb
  refine ⟨old, _, h1, ?_⟩
  rcases h2 with ⟨h2, h3⟩ | ⟨h2, _⟩
  · exact .inr ⟨base, h2, h3⟩
  · exact .inl h2.symm

example : createBusLog (some [[{ name := ['a'], nof := 1 }]]) 0x4 ⟨.vlsd, true, .noFilter⟩ = (true, some [[{ name := ['a'], nof := 1 }], []]) := by decide

/-! ### Exactly these groups -/

theorem allNames : ((canPlans ⟨.fixed, false, .noFilter⟩ ++ linPlans ⟨.fixed, false, .noFilter⟩ ++ ethPlans ⟨.fixed, false, .noFilter⟩ ++
    mostPlans ⟨.fixed, false, .noFilter⟩).map BcPlan.name).Nodup := by decide

theorem busLog_nodup (busType : BitVec 16) (s : BcSettings) (hs : s.filter = .noFilter) : ((busLogPlans busType s).map BcPlan.name).Nodup := by
  obtain ⟨store, mandatory, filter⟩ := s
  simp only at hs
  subst hs
  refine List.Nodup.sublist ?_ allNames
  unfold busLogPlans
  simp only [List.map_append]
  have opt : ∀ (c : Prop) [Decidable c] (l m : List BcPlan), (l.map BcPlan.name).Sublist (m.map BcPlan.name) →
      ((if c then l else []).map BcPlan.name).Sublist (m.map BcPlan.name) := by
    intro c _ l m h
    split
    · exact h
    · exact List.nil_sublist _
  refine List.Sublist.append (List.Sublist.append (List.Sublist.append (opt _ _ _ ?_) (opt _ _ _ ?_)) (opt _ _ _ ?_)) (opt _ _ _ ?_)
  · cases mandatory
    · exact List.Sublist.refl _
    · show (List.map BcPlan.name _).Sublist _
      simp only [canPlans, if_true, List.append_nil, Bool.false_eq_true, if_false, List.map_append]
      exact List.sublist_append_left _ _
  · exact List.Sublist.refl _
  · exact List.Sublist.refl _
  · exact List.Sublist.refl _

/-- In a new file there are the groups of the kinds and their VLSD groups, in this order, and no others. -/
theorem C114_groups (busType : BitVec 16) (s : BcSettings) (hs : s.filter = .noFilter) (hb : busType ≠ 0) :
    ∃ dg, createBusLog (some []) busType s = (true, some [dg]) ∧ dg.map BcGroup.shape = (busLogPlans busType s).flatMap BcPlan.shapes := by
  refine ⟨bcRun (busLogPlans busType s) [], by simp [createBusLog, show ¬ busType = 0#16 from hb], ?_⟩
  have := bcRun_new _ (busLog_named busType s) (busLog_nodup busType s hs) [] (by simp)
  simpa using this

example : ∃ dg, createBusLog (some []) 0x3 ⟨.vlsd, true, .noFilter⟩ = (true, some [dg]) ∧ dg.length = 13 := ⟨_, rfl, by decide⟩

/-- Which kinds there are, and which of them have a VLSD group. -/
theorem C114_kinds (s : BcSettings) :
    ((canPlans s).length = if s.mandatory then 3 else 4) ∧ ((canPlans s).countP (·.data) = if s.store = .vlsd then 2 else 0) ∧
    (linPlans s).length = 8 ∧ (linPlans s).countP (·.data) = 0 ∧
    (ethPlans s).length = 4 ∧ ((ethPlans s).countP (·.data) = if s.store = .fixed then 0 else if s.mandatory then 1 else 4) ∧
    (mostPlans s).length = 9 ∧ ((mostPlans s).countP (·.data) = if s.store = .fixed then 0 else 4) ∧
    (flxPlans s).length = 6 ∧ ((flxPlans s).countP (·.data) = if s.store = .fixed then 0 else if s.mandatory then 2 else 5) := by
  obtain ⟨store, mandatory, filter⟩ := s
  cases store <;> cases mandatory <;> exact ⟨rfl, rfl, rfl, rfl, rfl, rfl, rfl, rfl, rfl, rfl⟩

/-- Every kind of message has its group, but overload frames of CAN if only mandatory members are stored. -/
theorem C114_all_kinds (s : BcSettings) :
    (∀ k : CanFrame, (k = .overload ∧ s.mandatory = true) ∨ makeGroupName "CAN".toList s.filter k.groupBase ∈ (canPlans s).map BcPlan.name) ∧
    (∀ k : LinKind, makeGroupName "LIN".toList s.filter k.groupBase ∈ (linPlans s).map BcPlan.name) ∧
    (∀ k : EthKind, k.groupName ∈ (ethPlans s).map BcPlan.name) ∧
    (∀ k : MostKind, makeGroupName "MOST".toList s.filter k.groupBase ∈ (mostPlans s).map BcPlan.name) ∧
    (∀ k : FlxKind, makeGroupName "FlexRay".toList s.filter k.groupBase ∈ (flxPlans s).map BcPlan.name) := by
  obtain ⟨store, mandatory, filter⟩ := s
  refine ⟨fun k => ?_, fun k => ?_, fun k => ?_, fun k => ?_, fun k => ?_⟩
  · cases mandatory <;> cases k <;> simp [canPlans]
  · simp only [linPlans, List.map_map, List.mem_map]
    exact ⟨k, by cases k <;> simp, rfl⟩
  · simp only [ethPlans, List.map_map, List.mem_map]
    exact ⟨k, by cases k <;> simp, rfl⟩
  · cases k <;> simp [mostPlans]
  · simp only [flxPlans, List.map_map, List.mem_map]
    exact ⟨k, by cases k <;> simp, rfl⟩

/-- "When the property is true, only data frames are saved": there are groups for remote and error frames too, only that for overload frames is
missing. -/
theorem C114_mandatory (s : BcSettings) (h : s.mandatory = true) : (canPlans s).map BcPlan.name =
    [CanFrame.data, .remote, .error].map fun k => makeGroupName "CAN".toList s.filter k.groupBase := by
  simp [canPlans, h]

/-! ### Finding the groups -/

/-- `GetChannelGroup` with the name of a kind finds its group. -/
theorem C114_found (dg : BcDg) (p : BcPlan) (hn : p.name ≠ []) (h : BcProper dg) (hh : BcHas dg p) :
    ∃ i g, lkGroup (dg.map BcGroup.toLk) p.name = some i ∧ dg[i]? = some g ∧ g.name = p.name ∧ g.bus = true ∧
      ∀ j g', dg[j]? = some g' → g'.name = p.name → j = i := by
  obtain ⟨i, g, h1, h2, h3, _⟩ := hh
  obtain ⟨k, l, h4, h5, h6, _⟩ := C105_group_exact (dg.map BcGroup.toLk) p.name hn ⟨g.toLk, List.mem_map_of_mem (List.mem_of_getElem? h1), h2⟩
  rw [List.getElem?_map] at h5
  obtain ⟨a, h7, h8⟩ := Option.map_eq_some_iff.1 h5
  have h9 : a.name = p.name := by
    rw [← h6, ← h8]
    rfl
  have e : k = i := h.names k i a g h7 h1 (by rw [h9, h2]) (by rw [h9]; exact hn)
  subst e
  exact ⟨k, g, h4, h1, h2, h3, fun j g' hj hg => h.names j k g' g hj h1 (by rw [hg, h2]) (by rw [hg]; exact hn)⟩

/-! ### Calling it again -/

/-- The configuration is made once only: calling the function again changes nothing as long as there are no samples. -/
def C114_Again_Statement : Prop :=
  ∀ (busType : BitVec 16) (s : BcSettings), createBusLog (createBusLog (some []) busType s).2 busType s = createBusLog (some []) busType s

/-- The groups keep being without samples. -/
theorem isEmpty_bcRun (ps : List BcPlan) (hp : ∀ p ∈ ps, p.name ≠ []) (hn : (ps.map BcPlan.name).Nodup) : BcDg.isEmpty (bcRun ps []) = true := by
  have h := bcRun_new ps hp hn [] (by simp)
  simp only [List.map_nil, List.nil_append] at h
  simp only [BcDg.isEmpty, List.all_eq_true, decide_eq_true_eq]
  intro g hg
  have h1 : g.shape ∈ ps.flatMap BcPlan.shapes := h ▸ List.mem_map_of_mem hg
  obtain ⟨p, _, h2⟩ := List.mem_flatMap.1 h1
  simp only [BcPlan.shapes, List.mem_cons] at h2
  have nof : g.shape.2.2.2.2 = g.nof := rfl
  rcases h2 with h2 | h2
  · rw [← nof, h2]
  · split at h2
    · simp only [List.mem_cons, List.not_mem_nil, or_false] at h2
      rw [← nof, h2]
    · cases h2

/-- What happens: the named groups are kept, but another VLSD group is added for every kind that has one. -/
theorem C114_again (busType : BitVec 16) (s : BcSettings) (hs : s.filter = .noFilter) (hb : busType ≠ 0) :
    ∃ dg dg', createBusLog (some []) busType s = (true, some [dg]) ∧ createBusLog (some [dg]) busType s = (true, some [dg']) ∧
      BcProper dg' ∧ dg'.map BcGroup.shape = dg.map BcGroup.shape ++
        List.replicate ((busLogPlans busType s).countP (·.data)) ([], true, false, 0, 0) := by
  have hn := busLog_named busType s
  have h1 := inv_bcRun _ hn [] inv_nil
  refine ⟨bcRun (busLogPlans busType s) [], bcRun (busLogPlans busType s) (bcRun (busLogPlans busType s) []), by simp [createBusLog, show ¬ busType = 0#16 from hb], ?_,
    (bcInv_iff _).2 (inv_bcRun _ hn _ h1), bcRun_again _ hn _ h1 fun p hp => has_bcRun _ hn p [] inv_nil (.inl hp)⟩
  simp [createBusLog, show ¬ busType = 0#16 from hb, isEmpty_bcRun _ hn (busLog_nodup busType s hs)]

theorem C114_again_false : ¬ C114_Again_Statement := by
  intro h
  have := h 0x1 ⟨.vlsd, true, .noFilter⟩
  have h1 : (createBusLog (createBusLog (some []) 0x1 ⟨.vlsd, true, .noFilter⟩).2 0x1 ⟨.vlsd, true, .noFilter⟩).2.map (·.map List.length) = some [7] := by decide
  rw [this] at h1
  revert h1
  decide

/-- Where no kind has a VLSD group, the second call changes nothing that is seen of the groups. -/
theorem C114_again_partial (busType : BitVec 16) (s : BcSettings) (hs : s.filter = .noFilter) (hb : busType ≠ 0)
    (hd : ∀ p ∈ busLogPlans busType s, p.data = false) :
    ∃ dg dg', createBusLog (some []) busType s = (true, some [dg]) ∧ createBusLog (some [dg]) busType s = (true, some [dg']) ∧
      dg'.map BcGroup.shape = dg.map BcGroup.shape := by
  obtain ⟨dg, dg', h1, h2, _, h3⟩ := C114_again busType s hs hb
  refine ⟨dg, dg', h1, h2, ?_⟩
  rw [h3, List.countP_eq_zero.2 (fun p hp => by simp [hd p hp])]
  simp

example : ∀ p ∈ busLogPlans 0x3 ⟨.mlsd, true, .noFilter⟩, p.data = false := by decide

/-- The VLSD group of a kind is no longer referred to when its adapter runs again. -/
theorem C114_again_unused (p : BcPlan) (dg : BcDg) (hp : p.name ≠ []) (hd : p.data = true) (h : BcProper dg) (hh : BcHas dg p) :
    ∃ (j r : Nat) (v : BcGroup), (p.run dg)[j]? = some v ∧ v.vlsd = true ∧ bcRecordId (p.run dg) j = some r ∧
      ∀ (k : Nat) (g : BcGroup), (p.run dg)[k]? = some g → g.dataRef ≠ some r := by
  obtain ⟨i, g, h1, h2, _, _, _, h3⟩ := hh
  obtain ⟨r, j, v, h4, h5, h6, h7⟩ := h3 hd
  have hi := (bcInv_iff dg).1 h
  have two := two_of_ref h.vlsd h1 h6 (by rw [h4]; rfl) h7
  obtain ⟨hj, _⟩ := List.getElem?_eq_some_iff.1 h6
  rw [bcRecordId_two dg two j hj] at h5
  injection h5 with h5
  subst h5
  have hv : v.name ≠ p.name := by
    rw [(h.vlsd j v h6 h7).1]
    exact hp.symm
  obtain ⟨v', h8, _, _, h9, _⟩ := run_elem p dg hp j v h6
  rw [h9 hv] at h8
  obtain ⟨d1, k, a, e1, e2, e3, e4⟩ := run_eq p dg hp
  have e5 : d1 = dg ∧ k = i := by
    rcases e3 with ⟨e3, _⟩ | ⟨e3, _⟩
    · subst e3
      exact ⟨rfl, h.names k i a g e1 h1 (by rw [e2, h2]) (by rw [e2]; exact hp)⟩
    · exact absurd h2 (e3 g (List.mem_of_getElem? h1))
  obtain ⟨rfl, rfl⟩ := e5
  rw [if_pos hd] at e4
  have len : (p.run d1).length = d1.length + 1 := by
    rw [e4]
    simp
  refine ⟨j, j + 1, v, h8, h7, bcRecordId_two _ (by omega) j (by omega), ?_⟩
  intro l b hl hbr
  rw [e4] at hl
  obtain ⟨c, h10, h11⟩ := (getElem?_modify_some _ _ _ _ _).1 hl
  by_cases e : k = l
  · subst e
    rw [if_pos rfl] at h11
    rw [h11] at hbr
    simp only [BcGroup.withRef, Option.some.injEq] at hbr
    omega
  · rw [if_neg e] at h11
    subst h11
    rw [getElem?_append_one] at h10
    rcases h10 with h10 | ⟨_, rfl⟩
    · obtain ⟨c, h12, h13⟩ := (getElem?_modify_some _ _ _ _ _).1 h10
      rw [if_neg e] at h13
      subst h13
      exact e (h.differ k l g b _ h1 h12 h4 hbr)
    · cases hbr

example : BcHas (bcRun (canPlans ⟨.vlsd, true, .noFilter⟩) []) ⟨"CAN_DataFrame".toList, true⟩ :=
  (C114_adapters [(.can, ⟨.vlsd, true, .noFilter⟩)] [] ((bcInv_iff []).2 inv_nil)).2 (.can, ⟨.vlsd, true, .noFilter⟩) List.mem_cons_self
    ⟨"CAN_DataFrame".toList, true⟩ (by decide)

end Mdf
