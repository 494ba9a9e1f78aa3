import Verif.Model.Lookup
import Mathlib.Data.List.Nodup

/-! C105: groups and channels are found by their names.  C106: groups and channels are made once for each name.  C107: observers by name. -/

namespace Mdf

theorem lkFind_some {α : Type} (p : α → Bool) : ∀ (l : List α) (i : Nat), lkFind p l = some i ↔
    (∃ a, l[i]? = some a ∧ p a = true) ∧ ∀ j b, j < i → l[j]? = some b → p b = false := by
  intro l
  induction l with
  | nil => intro i; simp [lkFind]
  | cons x l ih =>
    intro i
    unfold lkFind
    by_cases hx : p x = true
    · rw [if_pos hx]
      cases i with
      | zero => simp [hx]
      | succ i =>
        simp only [Option.some.injEq]
        refine ⟨(fun h => by omega), ?_⟩
        rintro ⟨_, h⟩
        have := h 0 x (by omega) rfl
        rw [hx] at this
        cases this
    · rw [if_neg hx]
      simp only [Bool.not_eq_true] at hx
      cases i with
      | zero => simp [hx]
      | succ i =>
        simp only [Option.map_eq_some_iff, Nat.add_right_cancel_iff, exists_eq_right, List.getElem?_cons_succ]
        rw [ih]
        refine and_congr_right fun _ => ⟨?_, ?_⟩
        · intro h j b hj hb
          cases j with
          | zero => simp only [List.getElem?_cons_zero, Option.some.injEq] at hb; rw [← hb]; exact hx
          | succ j => exact h j b (by omega) (by simpa using hb)
        · intro h j b hj hb
          exact h (j + 1) b (by omega) (by simpa using hb)

theorem lkFind_none {α : Type} (p : α → Bool) (l : List α) : lkFind p l = none ↔ ∀ a ∈ l, p a = false := by
  induction l with
  | nil => simp [lkFind]
  | cons x l ih =>
    unfold lkFind
    by_cases hx : p x = true
    · simp [hx]
    · simp only [Bool.not_eq_true] at hx
      simp [hx, ih]

/-- `containsName` is what it should be. -/
theorem containsName_iff (pat s : List Char) : containsName pat s = true ↔ pat <:+: s := by
  induction s with
  | nil => simp [containsName]
  | cons c s ih =>
    simp only [containsName, Bool.or_eq_true, List.isPrefixOf_iff_prefix, ih]
    exact List.infix_cons_iff.symm

/-! ### C105 -/

/-- A group of the name asked for is found if there is one, the first of them. -/
theorem C105_group_exact (cgs : List LkCg) (name : List Char) (hn : name ≠ []) (h : ∃ g ∈ cgs, g.name = name) :
    ∃ i g, lkGroup cgs name = some i ∧ cgs[i]? = some g ∧ g.name = name ∧ ∀ j b, j < i → cgs[j]? = some b → b.name ≠ name := by
  unfold lkGroup
  rw [if_neg hn]
  cases hq : lkFind (fun g => decide (g.name = name)) cgs with
  | none =>
    obtain ⟨g, hg, he⟩ := h
    have := (lkFind_none _ _).mp hq g hg
    simp [he] at this
  | some i =>
    obtain ⟨⟨a, h1, h2⟩, h3⟩ := (lkFind_some _ _ _).mp hq
    refine ⟨i, a, rfl, h1, by simpa using h2, ?_⟩
    intro j b hj hb
    simpa using h3 j b hj hb

example : lkGroup [{ name := "Speed2".toList }, { name := "Speed".toList }] "Speed".toList = some 1 := by decide

/-- If none has the name, the first whose name contains it is found, if the name is longer than three characters. -/
theorem C105_group_part (cgs : List LkCg) (name : List Char) (h : ∀ g ∈ cgs, g.name ≠ name) :
    (∀ i, lkGroup cgs name = some i → 3 < name.length ∧ ∃ g, cgs[i]? = some g ∧ name <:+: g.name ∧
      ∀ j b, j < i → cgs[j]? = some b → ¬ name <:+: b.name) ∧
    (lkGroup cgs name = none → 3 < name.length → ∀ g ∈ cgs, ¬ name <:+: g.name) := by
  have hno : lkFind (fun g : LkCg => decide (g.name = name)) cgs = none :=
    (lkFind_none _ _).mpr (fun a ha => by simpa using h a ha)
  unfold lkGroup
  rw [hno]
  constructor
  · intro i hi
    split at hi
    · cases hi
    · simp only at hi
      split at hi
      · rename_i hl
        obtain ⟨⟨a, h1, h2⟩, h3⟩ := (lkFind_some _ _ _).mp hi
        refine ⟨hl, a, h1, (containsName_iff _ _).mp h2, ?_⟩
        intro j b hj hb hc
        have := h3 j b hj hb
        rw [(containsName_iff _ _).mpr hc] at this
        cases this
      · cases hi
  · intro hi hl g hg hc
    have hne : name ≠ [] := by intro e; rw [e] at hl; simp at hl
    rw [if_neg hne] at hi
    simp only [if_pos hl] at hi
    have := (lkFind_none _ _).mp hi g hg
    rw [(containsName_iff _ _).mpr hc] at this
    cases this

example : lkGroup [{ name := "Fast".toList }, { name := "CAN_DataFrame_1".toList }] "DataFrame".toList = some 1 ∧
    lkGroup [{ name := "CAN_DataFrame_1".toList }] "CAN".toList = none := by decide

/-- The full claim for channels: a channel of the name asked for is found if there is one. -/
def C105_Statement : Prop := ∀ (cns : List LkCn) (name : List Char), (∃ c ∈ cns, c.name = name) →
  ∃ i c, lkChannel cns name = some i ∧ cns[i]? = some c ∧ c.name = name

/-- It is false: `GetChannel("Speed")` with channels `SpeedLimit` and `Speed`. -/
theorem C105_channel_false : ¬ C105_Statement := by
  intro h
  obtain ⟨i, c, h1, h2, h3⟩ := h [{ name := "SpeedLimit".toList }, { name := "Speed".toList }] "Speed".toList
    ⟨_, List.mem_cons_of_mem _ (List.mem_cons_self ..), rfl⟩
  have hi : i = 0 := by
    have : lkChannel [{ name := "SpeedLimit".toList }, { name := "Speed".toList }] "Speed".toList = some 0 := by decide
    rw [this] at h1
    exact (Option.some.inj h1).symm
  subst hi
  simp only [List.getElem?_cons_zero, Option.some.injEq] at h2
  subst h2
  exact absurd h3 (by decide)

/-- It holds if the names of the channels in front of the first one of that name do not contain it.  Missing: the other files. -/
theorem C105_channel_partial (cns : List LkCn) (name : List Char) (k : Nat) (c : LkCn) (hc : cns[k]? = some c) (hn : c.name = name)
    (h : ∀ j b, j < k → cns[j]? = some b → ¬ name <:+: b.name) : lkChannel cns name = some k := by
  refine (lkFind_some _ _ _).mpr ⟨⟨c, hc, ?_⟩, ?_⟩
  · rw [containsName_iff, hn]
    exact List.infix_rfl
  · intro j b hj hb
    rw [← Bool.not_eq_true, containsName_iff]
    exact h j b hj hb

example : lkChannel [{ name := "Time".toList }, { name := "Speed".toList }, { name := "SpeedLimit".toList }] "Speed".toList = some 1 := by decide

/-- What is found in all files: the first channel whose name contains the one asked for, and none only if there is none. -/
theorem C105_channel_contains (cns : List LkCn) (name : List Char) :
    (∀ i, lkChannel cns name = some i → ∃ c, cns[i]? = some c ∧ name <:+: c.name ∧ ∀ j b, j < i → cns[j]? = some b → ¬ name <:+: b.name) ∧
    (lkChannel cns name = none ↔ ∀ c ∈ cns, ¬ name <:+: c.name) := by
  constructor
  · intro i hi
    obtain ⟨⟨a, h1, h2⟩, h3⟩ := (lkFind_some _ _ _).mp hi
    refine ⟨a, h1, (containsName_iff _ _).mp h2, ?_⟩
    intro j b hj hb
    rw [← containsName_iff, h3 j b hj hb]
    simp
  · unfold lkChannel
    rw [lkFind_none]
    refine forall_congr' fun c => imp_congr_right fun _ => ?_
    rw [← containsName_iff, Bool.not_eq_true]

/-- A group is found by its record id, if the ids are different (C10). -/
theorem C105_by_record_id (cgs : List LkCg) (k : Nat) (g : LkCg) (hg : cgs[k]? = some g) (hd : (cgs.map (·.recordId)).Nodup) :
    lkGroupById cgs g.recordId = some k := by
  refine (lkFind_some _ _ _).mpr ⟨⟨g, hg, by simp⟩, ?_⟩
  intro j b hj hb
  simp only [decide_eq_false_iff_not]
  intro e
  have h1 : (cgs.map (·.recordId))[j]? = some g.recordId := by rw [List.getElem?_map, hb, ← e]; rfl
  have h2 : (cgs.map (·.recordId))[k]? = some g.recordId := by rw [List.getElem?_map, hg]; rfl
  obtain ⟨hj', h1⟩ := List.getElem?_eq_some_iff.mp h1
  obtain ⟨hk', h2⟩ := List.getElem?_eq_some_iff.mp h2
  have := (List.Nodup.getElem_inj_iff hd).mp (h1.trans h2.symm)
  omega

example : lkGroupById [{ name := [], recordId := 4 }, { name := [], recordId := 7 }] 7 = some 1 := by decide

/-- The master channel is the first one that is master or virtual master, and its time channel that one if it is for time. -/
theorem C105_master (cns : List LkCn) :
    (∀ i, lkMaster cns = some i ↔ (∃ c, cns[i]? = some c ∧ (c.type = .master ∨ c.type = .virtualMaster)) ∧
      ∀ j b, j < i → cns[j]? = some b → b.type ≠ .master ∧ b.type ≠ .virtualMaster) ∧
    (∀ i, lkMasterTime cns = some i ↔ lkMaster cns = some i ∧ ∃ c, cns[i]? = some c ∧ c.sync = 1) := by
  constructor
  · intro i
    unfold lkMaster
    rw [lkFind_some]
    simp only [LkCn.isMaster, Bool.or_eq_true, decide_eq_true_eq, Bool.or_eq_false_iff, decide_eq_false_iff_not, ne_eq]
  · intro i
    unfold lkMasterTime
    cases lkMaster cns with
    | none => simp
    | some k =>
      simp only
      by_cases hk : (cns[k]?.map (·.sync)) = some 1
      · rw [if_pos hk]
        simp only [Option.some.injEq]
        constructor
        · intro e
          subst e
          exact ⟨rfl, by simpa using hk⟩
        · exact fun h => h.1
      · rw [if_neg hk]
        simp only [Option.some.injEq]
        constructor
        · intro e; cases e
        · rintro ⟨rfl, h⟩
          exact absurd (by simpa using h) hk

example : lkMaster [{ name := [] }, { name := [], type := .virtualMaster, sync := 2 }, { name := [], type := .master, sync := 1 }] = some 1 ∧
    lkMasterTime [{ name := [] }, { name := [], type := .virtualMaster, sync := 2 }, { name := [], type := .master, sync := 1 }] = none := by decide

/-! ### C106 -/

/-- The full claim: what `CreateChannelGroup(name)` and `CreateChannel(name)` return has the name given. -/
def C106_Statement : Prop := ∀ v : NameView,
  (∀ cgs, ∃ g, (lkCreateGroup cgs v).1[(lkCreateGroup cgs v).2]? = some g ∧ g.name = v.seen) ∧
  (∀ cns, ∃ c, (lkCreateChannel cns v).1[(lkCreateChannel cns v).2]? = some c ∧ c.name = v.seen)

/-- It is false for views that do not reach to the end of their text: `std::string_view("Speed_1").substr(0, 5)`. -/
theorem C106_false : ¬ C106_Statement := by
  intro h
  obtain ⟨c, h1, h2⟩ := (h ⟨"Speed_1".toList, 5⟩).2 []
  have : lkCreateChannel [] ⟨"Speed_1".toList, 5⟩ = ([{ name := "Speed_1".toList }], 0) := by decide
  rw [this] at h1
  simp only [List.getElem?_cons_zero, Option.some.injEq] at h1
  subst h1
  exact absurd h2 (by decide)

/-- With such a view each call makes a further group, all of the same wrong name. -/
theorem C106_group_twice : let v : NameView := ⟨"Speed_1".toList, 5⟩
    (lkCreateGroup (lkCreateGroup [] v).1 v).1.map (·.name) = ["Speed_1".toList, "Speed_1".toList] := by decide

/-- For whole texts it holds, and what was there stays.  Missing: views of a part of a text. -/
theorem C106_group_partial (cgs : List LkCg) (name : List Char) :
    (∃ g, (lkCreateGroup cgs (.whole name)).1[(lkCreateGroup cgs (.whole name)).2]? = some g ∧ g.name = name) ∧
    cgs <+: (lkCreateGroup cgs (.whole name)).1 ∧
    ((lkCreateGroup cgs (.whole name)).1 = cgs ↔ name ≠ [] ∧ ∃ g ∈ cgs, g.name = name) := by
  have hs : (NameView.whole name).seen = name := by simp [NameView.seen, NameView.whole]
  unfold lkCreateGroup
  rw [hs]
  cases hq : lkFind (fun g : LkCg => decide (g.name = name) && !decide (name = [])) cgs with
  | none =>
    have hn := (lkFind_none _ _).mp hq
    refine ⟨⟨_, List.getElem?_concat_length, rfl⟩, List.prefix_append .., ?_⟩
    simp only [List.append_right_eq_self, List.cons_ne_self, false_iff]
    rintro ⟨h1, g, hg, he⟩
    have := hn g hg
    simp [he, h1] at this
  | some i =>
    obtain ⟨⟨a, h1, h2⟩, _⟩ := (lkFind_some _ _ _).mp hq
    simp only [Bool.and_eq_true, decide_eq_true_eq, Bool.not_eq_true', decide_eq_false_iff_not] at h2
    exact ⟨⟨a, h1, h2.1⟩, List.prefix_rfl, by simp only [true_iff]; exact ⟨h2.2, a, List.mem_of_getElem? h1, h2.1⟩⟩

theorem C106_channel_partial (cns : List LkCn) (name : List Char) :
    (∃ c, (lkCreateChannel cns (.whole name)).1[(lkCreateChannel cns (.whole name)).2]? = some c ∧ c.name = name) ∧
    cns <+: (lkCreateChannel cns (.whole name)).1 ∧
    ((lkCreateChannel cns (.whole name)).1 = cns ↔ ∃ c ∈ cns, c.name = name) := by
  unfold lkCreateChannel
  cases hq : lkFind (fun c : LkCn => decide (c.name = (NameView.whole name).text)) cns with
  | none =>
    have hn := (lkFind_none _ _).mp hq
    refine ⟨⟨_, List.getElem?_concat_length, rfl⟩, List.prefix_append .., ?_⟩
    simp only [List.append_right_eq_self, List.cons_ne_self, false_iff]
    rintro ⟨g, hg, he⟩
    have := hn g hg
    simp [he, NameView.whole] at this
  | some i =>
    obtain ⟨⟨a, h1, h2⟩, _⟩ := (lkFind_some _ _ _).mp hq
    simp only [decide_eq_true_eq] at h2
    exact ⟨⟨a, h1, h2⟩, List.prefix_rfl, by simp only [true_iff]; exact ⟨a, List.mem_of_getElem? h1, h2⟩⟩

example : lkCreateChannel [{ name := "a".toList }, { name := "b".toList }] (.whole "b".toList) = ([{ name := "a".toList }, { name := "b".toList }], 1) := by decide

/-- All sequences of calls: no two channels of the same name. -/
theorem C106_channels_distinct (names : List (List Char)) :
    ((names.foldl (fun cns n => (lkCreateChannel cns (.whole n)).1) []).map (·.name)).Nodup ∧
    ∀ n, n ∈ (names.foldl (fun cns n => (lkCreateChannel cns (.whole n)).1) []).map (·.name) ↔ n ∈ names := by
  have key : ∀ (names : List (List Char)) (cns : List LkCn), (cns.map (·.name)).Nodup →
      ((names.foldl (fun cns n => (lkCreateChannel cns (.whole n)).1) cns).map (·.name)).Nodup ∧
      ∀ n, n ∈ (names.foldl (fun cns n => (lkCreateChannel cns (.whole n)).1) cns).map (·.name) ↔ n ∈ names ∨ n ∈ cns.map (·.name) := by
    intro names
    induction names with
    | nil => intro cns h; exact ⟨h, fun n => by simp⟩
    | cons m names ih =>
      intro cns h
      have hstep : ((lkCreateChannel cns (.whole m)).1.map (·.name)).Nodup ∧
          ∀ n, n ∈ (lkCreateChannel cns (.whole m)).1.map (·.name) ↔ n = m ∨ n ∈ cns.map (·.name) := by
        unfold lkCreateChannel
        cases hq : lkFind (fun c : LkCn => decide (c.name = (NameView.whole m).text)) cns with
        | none =>
          have hn := (lkFind_none _ _).mp hq
          have hm : m ∉ cns.map (·.name) := by
            intro hm
            obtain ⟨c, hc, e⟩ := List.mem_map.mp hm
            have := hn c hc
            simp [NameView.whole, e] at this
          simp only [List.map_append, List.map_cons, List.map_nil, NameView.whole]
          refine ⟨List.nodup_append.mpr ⟨h, List.nodup_singleton _, ?_⟩, ?_⟩
          · intro a ha b hb e
            rw [List.mem_singleton.mp hb] at e
            exact hm (e ▸ ha)
          · intro n
            simp only [List.mem_append, List.mem_singleton]
            exact or_comm
        | some i =>
          obtain ⟨⟨a, h1, h2⟩, _⟩ := (lkFind_some _ _ _).mp hq
          simp only [decide_eq_true_eq] at h2
          refine ⟨h, fun n => ⟨.inr, ?_⟩⟩
          rintro (rfl | hn)
          · exact List.mem_map.mpr ⟨a, List.mem_of_getElem? h1, h2⟩
          · exact hn
      obtain ⟨h1, h2⟩ := ih _ hstep.1
      refine ⟨h1, fun n => ?_⟩
      rw [List.foldl_cons, h2, hstep.2, List.mem_cons]
      tauto
  have := key names [] List.nodup_nil
  exact ⟨this.1, fun n => by simpa using this.2 n⟩

example : (["a".toList, "b".toList, "a".toList].foldl (fun cns n => (lkCreateChannel cns (.whole n)).1) []).map (·.name) = ["a".toList, "b".toList] := by decide

/-! ### C107 -/

/-- Which characters count as the same: a capital letter of ASCII and its small one, and no others. -/
theorem C107_same_letter (a b : Char) : lkFold a = lkFold b ↔
    a = b ∨ (∃ i, i < 26 ∧ ((a.toNat = 65 + i ∧ b.toNat = 97 + i) ∨ (a.toNat = 97 + i ∧ b.toNat = 65 + i))) := by
  have hu : 'A'.toNat = 65 ∧ 'Z'.toNat = 90 := ⟨rfl, rfl⟩
  have ht : ∀ n, n < 55296 → (Char.ofNat n).toNat = n := by
    intro n hn
    have hv : n.isValidChar := .inl hn
    unfold Char.ofNat
    rw [dif_pos hv]
    rfl
  have hinj : ∀ x y : Char, x = y ↔ x.toNat = y.toNat := fun x y => Char.toNat_inj.symm
  unfold lkFold
  rw [hu.1, hu.2]
  split <;> split <;> rename_i h1 h2
  · rw [hinj, hinj, ht _ (by omega), ht _ (by omega)]
    constructor
    · intro h; left; omega
    · rintro (h | ⟨i, hi, h⟩) <;> omega
  · rw [hinj, hinj, ht _ (by omega)]
    constructor
    · intro h; right; exact ⟨a.toNat - 65, by omega, by omega⟩
    · rintro (h | ⟨i, hi, h⟩) <;> omega
  · rw [hinj, hinj, ht _ (by omega)]
    constructor
    · intro h; right; exact ⟨b.toNat - 65, by omega, by omega⟩
    · rintro (h | ⟨i, hi, h⟩) <;> omega
  · rw [hinj]
    constructor
    · intro h; left; exact h
    · rintro (h | ⟨i, hi, h⟩) <;> omega

example : lkSameName "Zeit_1A".toList "zeiT_1a".toList = true ∧ lkSameName "[".toList "{".toList = false := by decide

/-- The channel the observer is made for, as it should be: of the channels of that name, without regard to case, the last one in a
group with the most samples. -/
def LkBest (cgs : List LkCg) (name : List Char) (r : Option (Nat × Nat)) : Prop :=
  match r with
  | none => ∀ g ∈ cgs, ∀ c ∈ g.channels, lkSameName name c.name = false
  | some (i, k) => ∃ g c, cgs[i]? = some g ∧ g.channels[k]? = some c ∧ lkSameName name c.name = true ∧
      ∀ i' k' g' c', cgs[i']? = some g' → g'.channels[k']? = some c' → lkSameName name c'.name = true →
        g'.nof < g.nof ∨ (g'.nof = g.nof ∧ (i' < i ∨ (i' = i ∧ k' ≤ k)))

/-- What the state of the loops stands for: the best of the channels with a property. -/
def LkSt (cgs : List LkCg) (name : List Char) (seen : Nat → Nat → Prop) (st : Nat × Option (Nat × Nat)) : Prop :=
  match st.2 with
  | none => st.1 = 0 ∧ ∀ i k g c, seen i k → cgs[i]? = some g → g.channels[k]? = some c → lkSameName name c.name = false
  | some (i, k) => ∃ g c, cgs[i]? = some g ∧ g.channels[k]? = some c ∧ lkSameName name c.name = true ∧ st.1 = g.nof ∧
      ∀ i' k' g' c', seen i' k' → cgs[i']? = some g' → g'.channels[k']? = some c' → lkSameName name c'.name = true →
        g'.nof < g.nof ∨ (g'.nof = g.nof ∧ (i' < i ∨ (i' = i ∧ k' ≤ k)))

theorem lkScan_inner (cgs : List LkCg) (name : List Char) (i : Nat) (g : LkCg) (hg : cgs[i]? = some g) :
    ∀ (cs pre : List LkCn) (st : Nat × Option (Nat × Nat)), g.channels = pre ++ cs →
      LkSt cgs name (fun i' k' => i' < i ∨ (i' = i ∧ k' < pre.length)) st →
      LkSt cgs name (fun i' k' => i' < i ∨ (i' = i ∧ k' < g.channels.length))
        ((cs.zipIdx pre.length).foldl (fun st c =>
          if lkSameName name c.1.name then (if st.1 ≤ g.nof then (g.nof, some (i, c.2)) else st) else st) st) := by
  intro cs
  induction cs with
  | nil =>
    intro pre st hp h
    rw [List.append_nil] at hp
    rw [hp]
    exact h
  | cons c cs ih =>
    intro pre st hp h
    rw [List.zipIdx_cons, List.foldl_cons]
    have hpl : pre.length + 1 = (pre ++ [c]).length := by simp
    rw [hpl]
    refine ih (pre ++ [c]) _ (by rw [hp]; simp) ?_
    have hck : g.channels[pre.length]? = some c := by rw [hp]; simp
    simp only
    by_cases hs : lkSameName name c.name = true
    · rw [if_pos hs]
      by_cases hle : st.1 ≤ g.nof
      · rw [if_pos hle]
        refine ⟨g, c, hg, hck, hs, rfl, ?_⟩
        intro i' k' g' c' hseen hg' hc' hs'
        have hnew : (i' = i ∧ k' = pre.length) ∨ (i' < i ∨ (i' = i ∧ k' < pre.length)) := by
          simp only [List.length_append, List.length_singleton] at hseen
          omega
        rcases hnew with ⟨rfl, rfl⟩ | hold
        · rw [hg] at hg'
          cases hg'
          exact .inr ⟨rfl, .inr ⟨rfl, Nat.le_refl _⟩⟩
        · unfold LkSt at h
          cases hst : st.2 with
          | none =>
            rw [hst] at h
            have := h.2 i' k' g' c' hold hg' hc'
            rw [hs'] at this
            cases this
          | some r =>
            rw [hst] at h
            obtain ⟨g0, c0, hg0, hc0, hs0, hn0, hbest⟩ := h
            have := hbest i' k' g' c' hold hg' hc' hs'
            have hi : i' < i ∨ (i' = i ∧ k' ≤ pre.length) := by omega
            omega
      · rw [if_neg hle]
        unfold LkSt at h ⊢
        cases hst : st.2 with
        | none => rw [hst] at h; omega
        | some r =>
          rw [hst] at h
          obtain ⟨g0, c0, hg0, hc0, hs0, hn0, hbest⟩ := h
          refine ⟨g0, c0, hg0, hc0, hs0, hn0, ?_⟩
          intro i' k' g' c' hseen hg' hc' hs'
          have hnew : (i' = i ∧ k' = pre.length) ∨ (i' < i ∨ (i' = i ∧ k' < pre.length)) := by
            simp only [List.length_append, List.length_singleton] at hseen
            omega
          rcases hnew with ⟨rfl, rfl⟩ | hold
          · rw [hg] at hg'
            cases hg'
            left; omega
          · exact hbest i' k' g' c' hold hg' hc' hs'
    · rw [if_neg hs]
      simp only [Bool.not_eq_true] at hs
      have hno : ∀ i' k' g' c', (i' < i ∨ (i' = i ∧ k' < (pre ++ [c]).length)) → cgs[i']? = some g' → g'.channels[k']? = some c' →
          lkSameName name c'.name = true → (i' < i ∨ (i' = i ∧ k' < pre.length)) := by
        intro i' k' g' c' hseen hg' hc' hs'
        have hnew : (i' = i ∧ k' = pre.length) ∨ (i' < i ∨ (i' = i ∧ k' < pre.length)) := by
          simp only [List.length_append, List.length_singleton] at hseen
          omega
        rcases hnew with ⟨rfl, rfl⟩ | hold
        · rw [hg] at hg'
          cases hg'
          rw [hck] at hc'
          cases hc'
          rw [hs] at hs'
          cases hs'
        · exact hold
      unfold LkSt at h ⊢
      cases hst : st.2 with
      | none =>
        rw [hst] at h
        refine ⟨h.1, ?_⟩
        intro i' k' g' c' hseen hg' hc'
        by_contra hs'
        simp only [Bool.not_eq_false] at hs'
        have := h.2 i' k' g' c' (hno i' k' g' c' hseen hg' hc' hs') hg' hc'
        rw [hs'] at this
        cases this
      | some r =>
        rw [hst] at h
        obtain ⟨g0, c0, hg0, hc0, hs0, hn0, hbest⟩ := h
        refine ⟨g0, c0, hg0, hc0, hs0, hn0, ?_⟩
        intro i' k' g' c' hseen hg' hc' hs'
        exact hbest i' k' g' c' (hno i' k' g' c' hseen hg' hc' hs') hg' hc' hs'

/-- The channel an observer is made for by name: none only if no channel has the name, without regard to case; else one in a group
with the most samples of the groups that have such a channel, the last of them. -/
theorem C107_observed (cgs : List LkCg) (name : List Char) : LkBest cgs name (lkObserved cgs name) := by
  have key : ∀ (gs pre : List LkCg) (st : Nat × Option (Nat × Nat)), cgs = pre ++ gs →
      LkSt cgs name (fun i' _ => i' < pre.length) st →
      LkSt cgs name (fun i' _ => i' < cgs.length) ((gs.zipIdx pre.length).foldl (fun st g => lkScanGroup name g.2 g.1 st) st) := by
    intro gs
    induction gs with
    | nil =>
      intro pre st hp h
      rw [List.append_nil] at hp
      subst hp
      exact h
    | cons g gs ih =>
      intro pre st hp h
      rw [List.zipIdx_cons, List.foldl_cons]
      have hpl : pre.length + 1 = (pre ++ [g]).length := by simp
      rw [hpl]
      refine ih (pre ++ [g]) _ (by rw [hp]; simp) ?_
      have hg : cgs[pre.length]? = some g := by rw [hp]; simp
      have hi := lkScan_inner cgs name pre.length g hg g.channels [] st rfl (by
        have he : (fun i' k' => i' < pre.length ∨ (i' = pre.length ∧ k' < ([] : List LkCn).length)) = (fun i' (_ : Nat) => i' < pre.length) := by
          funext a b; simp
        rw [he]; exact h)
      show LkSt cgs name _ (lkScanGroup name pre.length g st)
      unfold lkScanGroup
      have hmono : ∀ st', LkSt cgs name (fun i' k' => i' < pre.length ∨ (i' = pre.length ∧ k' < g.channels.length)) st' →
          LkSt cgs name (fun i' _ => i' < (pre ++ [g]).length) st' := by
        intro st' h'
        have hsub : ∀ i' k' g' c', i' < (pre ++ [g]).length → cgs[i']? = some g' → g'.channels[k']? = some c' →
            (i' < pre.length ∨ (i' = pre.length ∧ k' < g.channels.length)) := by
          intro i' k' g' c' hi' hg' hc'
          simp only [List.length_append, List.length_singleton] at hi'
          by_cases hq : i' < pre.length
          · exact .inl hq
          · have : i' = pre.length := by omega
            subst this
            rw [hg] at hg'
            cases hg'
            exact .inr ⟨rfl, (List.getElem?_eq_some_iff.mp hc').1⟩
        unfold LkSt at h' ⊢
        cases hst : st'.2 with
        | none =>
          rw [hst] at h'
          exact ⟨h'.1, fun i' k' g' c' a b c => h'.2 i' k' g' c' (hsub i' k' g' c' a b c) b c⟩
        | some r =>
          rw [hst] at h'
          obtain ⟨g0, c0, hg0, hc0, hs0, hn0, hbest⟩ := h'
          exact ⟨g0, c0, hg0, hc0, hs0, hn0, fun i' k' g' c' a b c d => hbest i' k' g' c' (hsub i' k' g' c' a b c) b c d⟩
      exact hmono _ hi
  have h := key cgs [] (0, none) rfl ⟨rfl, fun i k g c hs => absurd hs (by simp)⟩
  unfold lkObserved
  unfold LkSt at h
  simp only [List.length_nil] at h
  cases hst : ((cgs.zipIdx).foldl (fun st g => lkScanGroup name g.2 g.1 st) (0, none)).2 with
  | none =>
    rw [hst] at h
    intro g hg c hc
    obtain ⟨i, hi⟩ := List.mem_iff_getElem?.mp hg
    obtain ⟨k, hk⟩ := List.mem_iff_getElem?.mp hc
    exact h.2 i k g c (List.getElem?_eq_some_iff.mp hi).1 hi hk
  | some r =>
    rw [hst] at h
    obtain ⟨g0, c0, hg0, hc0, hs0, _, hbest⟩ := h
    exact ⟨g0, c0, hg0, hc0, hs0, fun i' k' g' c' b c d => hbest i' k' g' c' (List.getElem?_eq_some_iff.mp b).1 b c d⟩

def exNames : List LkCg := [
  { name := "a".toList, nof := 5, channels := [{ name := "t".toList }, { name := "Speed".toList }] },
  { name := "b".toList, nof := 9, channels := [{ name := "t".toList }, { name := "SPEED".toList }, { name := "x".toList }] },
  { name := "c".toList, nof := 0, channels := [{ name := "x".toList }] }]

example : lkObserved exNames "speed".toList = some (1, 1) ∧ lkObserved exNames "x".toList = some (1, 2) ∧ lkObserved exNames "y".toList = none := by
  decide +kernel

/-- The full claim: if there is a channel of exactly that name, the observer is made for one of that name. -/
def C107_Statement : Prop := ∀ (cgs : List LkCg) (name : List Char), (∃ g ∈ cgs, ∃ c ∈ g.channels, c.name = name) →
  ∃ i k g c, lkObserved cgs name = some (i, k) ∧ cgs[i]? = some g ∧ g.channels[k]? = some c ∧ c.name = name

/-- It is false: a channel of another case in a group with more samples is taken. -/
theorem C107_case_false : ¬ C107_Statement := by
  intro h
  obtain ⟨i, k, g, c, h1, h2, h3, h4⟩ := h exNames "Speed".toList ⟨_, List.mem_cons_self .., _, List.mem_cons_of_mem _ (List.mem_cons_self ..), rfl⟩
  have : lkObserved exNames "Speed".toList = some (1, 1) := by decide +kernel
  rw [this] at h1
  cases h1
  simp only [exNames, List.getElem?_cons_succ, List.getElem?_cons_zero, Option.some.injEq] at h2
  subst h2
  simp only [List.getElem?_cons_succ, List.getElem?_cons_zero, Option.some.injEq] at h3
  subst h3
  exact absurd h4 (by decide)

/-- It holds in data groups whose channels do not differ by case alone. -/
theorem C107_exact_partial (cgs : List LkCg) (name : List Char) (hex : ∃ g ∈ cgs, ∃ c ∈ g.channels, c.name = name)
    (hcase : ∀ g ∈ cgs, ∀ c ∈ g.channels, lkSameName name c.name = true → c.name = name) :
    ∃ i k g c, lkObserved cgs name = some (i, k) ∧ cgs[i]? = some g ∧ g.channels[k]? = some c ∧ c.name = name := by
  have hb := C107_observed cgs name
  cases hq : lkObserved cgs name with
  | none =>
    rw [hq] at hb
    obtain ⟨g, hg, c, hc, e⟩ := hex
    have := hb g hg c hc
    simp [lkSameName, e] at this
  | some r =>
    rw [hq] at hb
    obtain ⟨g, c, h1, h2, h3, _⟩ := hb
    exact ⟨r.1, r.2, g, c, rfl, h1, h2, hcase g (List.mem_of_getElem? h1) c (List.mem_of_getElem? h2) h3⟩

/-- Observers for a data group: one for each channel of the groups that have samples, in order. -/
theorem C107_all (cgs : List LkCg) :
    (∀ i k, (i, k) ∈ lkObservedAll cgs ↔ ∃ g c, cgs[i]? = some g ∧ g.nof ≠ 0 ∧ g.channels[k]? = some c) ∧ (lkObservedAll cgs).Nodup := by
  constructor
  · intro i k
    unfold lkObservedAll
    simp only [List.mem_flatMap, Prod.exists, List.mem_zipIdx_iff_getElem?]
    constructor
    · rintro ⟨g, n, hg, hm⟩
      split at hm
      · cases hm
      · rename_i hz
        obtain ⟨k', hk', e⟩ := List.mem_map.mp hm
        cases e
        have hlt := List.mem_range.mp hk'
        exact ⟨g, g.channels[k], hg, hz, List.getElem?_eq_getElem hlt⟩
    · rintro ⟨g, c, hg, hz, hc⟩
      refine ⟨g, i, hg, ?_⟩
      rw [if_neg hz]
      exact List.mem_map.mpr ⟨k, List.mem_range.mpr (List.getElem?_eq_some_iff.mp hc).1, rfl⟩
  · unfold lkObservedAll
    rw [List.nodup_flatMap]
    constructor
    · intro g _
      split
      · exact List.nodup_nil
      · exact List.nodup_range.map (fun a b e => (Prod.mk.inj e).2)
    · have hz : (cgs.zipIdx).Pairwise (fun a b => a.2 ≠ b.2) := by
        have : ((cgs.zipIdx).map Prod.snd).Nodup := by
          rw [List.zipIdx_map_snd]
          exact List.nodup_range'
        exact List.pairwise_map.mp this
      refine hz.imp ?_
      intro a b hab x hx hy
      simp only at hx hy
      split at hx
      · cases hx
      · split at hy
        · cases hy
        · obtain ⟨_, _, e1⟩ := List.mem_map.mp hx
          obtain ⟨_, _, e2⟩ := List.mem_map.mp hy
          exact hab ((Prod.mk.inj (e1.trans e2.symm)).1)

example : lkObservedAll exNames = [(0, 0), (0, 1), (1, 0), (1, 1), (1, 2)] := by decide

end Mdf
