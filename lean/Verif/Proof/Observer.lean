import Verif.Spec.Observer
import Verif.Spec.ReadCache

namespace Mdf

/-! ### The observer list -/

theorem obsRun_attached (ops : List OOp) (l : List Nat) :
    ops.foldl obsStep l = l.filter (fun o => !ops.any (OOp.removes o)) ++ attached ops := by
  induction ops generalizing l with
  | nil => simpa [attached] using (List.filter_eq_self.2 (fun _ _ => rfl)).symm
  | cons op ops ih =>
    rw [List.foldl_cons, ih]
    cases op with
    | attach o =>
      simp only [obsStep, List.filter_append, attached, List.any_cons, OOp.removes, Bool.false_or, List.append_assoc]
      congr 1
      by_cases h : ops.any (OOp.removes o) = true
      · rw [if_pos h]; simp [h]
      · rw [if_neg h]; simp [h]
    | detach p =>
      simp only [obsStep, List.filter_filter, attached, List.any_cons, OOp.removes]
      congr 1
      apply List.filter_congr
      intro x _
      by_cases hx : x = p
      · subst hx; simp
      · have : (p == x) = false := by simpa using fun e => hx e.symm
        simp [hx, this]
    | detachAll => simp [obsStep, attached, OOp.removes]

/-! ### Notifications -/

theorem callLoop_spec (ans : List Nat → Bool) (l : List Nat) : ∀ (called : List Nat),
    (∀ n, 0 < n → n ≤ called.length → ans (called.take n) = true) →
    CalledUntilStop ans (called ++ l) (callLoop ans called l).1 (callLoop ans called l).2 := by
  induction l with
  | nil =>
    intro called h
    refine ⟨⟨[], by simp [callLoop]⟩, ?_, ?_, ?_⟩
    · intro n h1 h2; exact h n h1 (Nat.le_of_lt h2)
    · intro _
      refine ⟨by simp [callLoop], fun hne => ?_⟩
      have := h called.length (List.length_pos_iff.2 hne) (Nat.le_refl _)
      rwa [List.take_length] at this
    · intro hc; simp [callLoop] at hc
  | cons o os ih =>
    intro called h
    by_cases ha : ans (called ++ [o]) = true
    · have hstep : callLoop ans called (o :: os) = callLoop ans (called ++ [o]) os := by
        simp only [callLoop]; rw [if_pos ha]
      have := ih (called ++ [o]) (by
        intro n h1 h2
        simp only [List.length_append, List.length_singleton] at h2
        by_cases hn : n ≤ called.length
        · rw [List.take_append_of_le_length hn]; exact h n h1 hn
        · have : n = (called ++ [o]).length := by simp; omega
          rw [this, List.take_length]; exact ha)
      rw [hstep]
      simpa using this
    · have hstep : callLoop ans called (o :: os) = (called ++ [o], false) := by
        simp only [callLoop]; rw [if_neg ha]
      rw [hstep]
      refine ⟨⟨os, by simp⟩, ?_, fun hc => by simp at hc, fun _ => ⟨by simp, by simpa using ha⟩⟩
      intro n h1 h2
      simp only [List.length_append, List.length_singleton] at h2
      rw [List.take_append_of_le_length (by omega)]
      exact h n h1 (by omega)

theorem callLoop_true (l called : List Nat) : callLoop (fun _ => true) called l = (called ++ l, true) := by
  induction l generalizing called with
  | nil => simp [callLoop]
  | cons o os ih => simp [callLoop, ih]

theorem fastFold_find (needs : Nat → List Nat) (obs : List Nat) (groups : List Nat) : ∀ (fast : List (Nat × List Nat)) (id : Nat),
    (∀ e ∈ fast, e.2 = subscribers needs obs e.1 ∧ e.2 ≠ []) →
    (groups.foldl (fun fast id =>
      let temp := obs.filter fun o => (needs o).contains id
      if temp = [] ∨ fast.any (·.1 = id) then fast else fast ++ [(id, temp)]) fast).find? (·.1 = id) =
    if subscribers needs obs id = [] then none
    else if fast.any (·.1 = id) ∨ id ∈ groups then some (id, subscribers needs obs id) else none := by
  induction groups with
  | nil =>
    intro fast id hf
    simp only [List.foldl_nil, List.not_mem_nil, or_false]
    by_cases ha : fast.any (·.1 = id) = true
    · rw [if_pos ha]
      rw [List.any_eq_true] at ha
      obtain ⟨e, he, hid⟩ := ha
      cases hx : fast.find? (·.1 = id) with
      | none => rw [List.find?_eq_none] at hx; exact absurd hid (hx e he)
      | some e' =>
        have h1 := List.find?_some hx
        have h2 := hf e' (List.mem_of_find?_eq_some hx)
        simp only [decide_eq_true_eq] at h1
        rw [h1] at h2
        rw [if_neg (by rw [← h2.1]; exact h2.2), ← h2.1, ← h1]
    · rw [if_neg ha]
      have : fast.find? (·.1 = id) = none := by
        rw [List.find?_eq_none]
        intro e he hc
        exact ha (List.any_eq_true.2 ⟨e, he, hc⟩)
      rw [this]
      split <;> rfl
  | cons g groups ih =>
    intro fast id hf
    rw [List.foldl_cons]
    simp only []
    by_cases hc : (obs.filter fun o => (needs o).contains g) = [] ∨ fast.any (·.1 = g) = true
    · rw [if_pos hc, ih fast id hf]
      by_cases hs : subscribers needs obs id = []
      · rw [if_pos hs, if_pos hs]
      · rw [if_neg hs, if_neg hs]
        congr 1
        by_cases hg : id = g
        · subst hg
          rcases hc with hc | hc
          · exact absurd hc hs
          · simp [hc]
        · simp [hg]
    · rw [if_neg hc, ih]
      · by_cases hs : subscribers needs obs id = []
        · rw [if_pos hs, if_pos hs]
        · rw [if_neg hs, if_neg hs]
          congr 1
          simp only [List.any_append, List.any_cons, List.any_nil, Bool.or_false, Bool.or_eq_true, decide_eq_true_eq, List.mem_cons,
            eq_iff_iff]
          constructor
          · rintro ((h | h) | h)
            · exact Or.inl h
            · exact Or.inr (Or.inl h.symm)
            · exact Or.inr (Or.inr h)
          · rintro (h | h | h)
            · exact Or.inl (Or.inl h)
            · exact Or.inl (Or.inr h.symm)
            · exact Or.inr h
      · intro e he
        simp only [List.mem_append, List.mem_singleton] at he
        rcases he with he | he
        · exact hf e he
        · subst he
          exact ⟨rfl, fun h => hc (Or.inl h)⟩

theorem fastList_find (needs : Nat → List Nat) (obs groups : List Nat) (id : Nat) :
    (fastList needs groups obs).find? (·.1 = id) =
      if subscribers needs obs id = [] ∨ id ∉ groups then none else some (id, subscribers needs obs id) := by
  unfold fastList
  rw [fastFold_find needs obs groups [] id (by simp)]
  by_cases hs : subscribers needs obs id = []
  · simp [hs]
  · by_cases hg : id ∈ groups <;> simp [hs, hg]

theorem subscribing_iff (needs : Nat → List Nat) (obs : List Nat) (id : Nat) :
    subscribing needs obs id = true ↔ subscribers needs obs id ≠ [] := by
  unfold subscribing subscribers
  rw [List.any_eq_true]
  constructor
  · rintro ⟨o, ho, hn⟩ h
    have := (List.mem_filter (p := fun o => (needs o).contains id)).2 ⟨ho, hn⟩
    rw [h] at this
    exact absurd this (by simp)
  · intro h
    obtain ⟨o, ho⟩ := List.exists_mem_of_ne_nil _ h
    exact ⟨o, (List.mem_filter.1 ho).1, (List.mem_filter.1 ho).2⟩

/-- The observers that are called for a record id that is subscribed. -/
theorem notify_eq (needs : Nat → List Nat) (groups obs : List Nat) (ans : List Nat → Bool) (id : Nat) (hg : id ∈ groups)
    (hs : subscribers needs obs id ≠ []) (h : (fastList needs groups obs).length ≠ 1 ∨ ∀ o ∈ obs, id ∈ needs o) :
    notifyObs (fastList needs groups obs) obs ans id = callLoop ans [] (subscribers needs obs id) := by
  have hf := fastList_find needs obs groups id
  rw [if_neg (fun hh => hh.elim hs (fun hh => hh hg))] at hf
  have hne : fastList needs groups obs ≠ [] := by intro he; rw [he] at hf; cases hf
  unfold notifyObs
  rw [if_neg hne]
  by_cases h1 : (fastList needs groups obs).length = 1
  · rw [if_pos h1]
    rcases h with h | h
    · exact absurd h1 h
    · have : subscribers needs obs id = obs := by
        unfold subscribers
        rw [List.filter_eq_self]
        intro o ho
        simpa using h o ho
      rw [this]
  · rw [if_neg h1, hf]

/-! ### Channel observers -/

section
variable {α : Type}

/-- The contents of a place. -/
def ObsSt.cell (s : ObsSt α) (d : α) (k : Nat) : Bool × α × Nat := (s.valid.getD k false, s.value.getD k d, s.offset.getD k 0)

/-- What an event does to the place of array index `j` of its sample. -/
def ObsCfg.upd (c : ObsCfg α) (e : Event) (j : Nat) (x : Bool × α × Nat) : Bool × α × Nat :=
  match c.kind with
  | .virtual => if c.recordId = e.id then (true, c.virt e.sample, x.2.2) else x
  | .vlsd =>
    if c.recordId = e.id then
      if c.readVlsd ∧ c.vlsdId = 0 then ((c.value e.data j).1, (c.value e.data j).2, (c.offset e.data j).2)
      else ((c.offset e.data j).1, x.2.1, (c.offset e.data j).2)
    else if c.vlsdId > 0 ∧ e.id = c.vlsdId then ((c.value e.data j).1, (c.value e.data j).2, x.2.2)
    else x
  | .fixed => if c.recordId = e.id then ((c.value e.data j).1, (c.value e.data j).2, x.2.2) else x

/-- All lists have their full size. -/
structure ObsCfg.Sized (c : ObsCfg α) (s : ObsSt α) : Prop where
  valid : s.valid.length = c.nof * c.arraySize
  value : s.value.length = c.nof * c.arraySize
  offset : s.offset.length = if c.kind = .vlsd then c.nof * c.arraySize else 0

theorem ObsCfg.sized_store {c : ObsCfg α} {s : ObsSt α} (h : c.Sized s) (e : Event) (j : Nat) : c.Sized (c.store e s j) := by
  obtain ⟨h1, h2, h3⟩ := h
  unfold ObsCfg.store
  cases hk : c.kind <;> simp only [] <;> repeat' split
  all_goals exact ⟨by simp [ObsSt.put, ObsSt.putOffset, h1], by simp [ObsSt.put, ObsSt.putOffset, h2], by
    simp [ObsSt.put, ObsSt.putOffset, h3]⟩

theorem getD_set_if {β : Type} (l : List β) (i k : Nat) (v d : β) : (l.set i v).getD k d = if i = k ∧ k < l.length then v else l.getD k d := by
  simp only [List.getD_eq_getElem?_getD, List.getElem?_set]
  by_cases h : i = k
  · subst h
    by_cases hl : i < l.length
    · simp [hl]
    · simp [hl]
  · simp [h]

theorem ObsCfg.cell_store {c : ObsCfg α} {s : ObsSt α} (h : c.Sized s) (e : Event) (j k : Nat) (hk : k < c.nof * c.arraySize) :
    (c.store e s j).cell c.default k = if c.index e.sample j = k then c.upd e j (s.cell c.default k) else s.cell c.default k := by
  obtain ⟨h1, h2, h3⟩ := h
  unfold ObsCfg.store ObsCfg.upd ObsSt.cell
  cases hkd : c.kind
  · simp only []
    by_cases hr : c.recordId = e.id
    · simp only [if_pos hr, ObsSt.put, getD_set_if, h1, h2, hk, and_true]
      by_cases hi : c.index e.sample j = k <;> simp [hi]
    · simp [hr]
  · simp only []
    rw [if_pos hkd] at h3
    by_cases hr : c.recordId = e.id
    · simp only [if_pos hr]
      by_cases hv : c.readVlsd = true ∧ c.vlsdId = 0
      · simp only [if_pos hv, ObsSt.put, ObsSt.putOffset, getD_set_if, h1, h2, h3, hk, and_true, List.length_set]
        by_cases hi : c.index e.sample j = k <;> simp [hi]
      · simp only [if_neg hv, ObsSt.putOffset, getD_set_if, h1, h3, hk, and_true]
        by_cases hi : c.index e.sample j = k <;> simp [hi]
    · simp only [if_neg hr]
      by_cases hv : c.vlsdId > 0 ∧ e.id = c.vlsdId
      · simp only [if_pos hv, ObsSt.put, getD_set_if, h1, h2, hk, and_true]
        by_cases hi : c.index e.sample j = k <;> simp [hi]
      · simp [hv]
  · simp only []
    by_cases hr : c.recordId = e.id
    · simp only [if_pos hr, ObsSt.put, getD_set_if, h1, h2, hk, and_true]
      by_cases hi : c.index e.sample j = k <;> simp [hi]
    · simp [hr]

theorem ObsCfg.sized_fold {c : ObsCfg α} (e : Event) (js : List Nat) {s : ObsSt α} (h : c.Sized s) :
    c.Sized (js.foldl (c.store e) s) := by
  induction js generalizing s with
  | nil => exact h
  | cons j js ih => exact ih (ObsCfg.sized_store h e j)

/-- The loop over the array index updates each place of the sample once and no other place. -/
theorem ObsCfg.cell_fold {c : ObsCfg α} (e : Event) (n : Nat) (hn : n ≤ c.arraySize) (hw : (e.sample + 1) * c.arraySize ≤ 2 ^ 64)
    {s : ObsSt α} (h : c.Sized s) (i j : Nat) (hi : i < c.nof) (hj : j < c.arraySize) :
    ((List.range n).foldl (c.store e) s).cell c.default (i * c.arraySize + j) =
      if e.sample = i ∧ j < n then c.upd e j (s.cell c.default (i * c.arraySize + j)) else s.cell c.default (i * c.arraySize + j) := by
  have hk : i * c.arraySize + j < c.nof * c.arraySize := by
    have : (i + 1) * c.arraySize ≤ c.nof * c.arraySize := Nat.mul_le_mul_right _ hi
    rw [Nat.succ_mul] at this
    omega
  induction n with
  | zero => simp
  | succ n ih =>
    rw [List.range_succ, List.foldl_append, List.foldl_cons, List.foldl_nil, cell_store (sized_fold e _ h) e n _ hk, ih (by omega)]
    have hix : c.index e.sample n = e.sample * c.arraySize + n := by
      unfold ObsCfg.index
      apply Nat.mod_eq_of_lt
      rw [Nat.succ_mul] at hw
      omega
    have hij : e.sample * c.arraySize + n = i * c.arraySize + j ↔ e.sample = i ∧ n = j := by
      constructor
      · intro heq
        have h1 : (e.sample * c.arraySize + n) / c.arraySize = e.sample := by
          rw [Nat.mul_comm, Nat.mul_add_div (by omega), Nat.div_eq_of_lt (by omega)]; simp
        have h2 : (i * c.arraySize + j) / c.arraySize = i := by
          rw [Nat.mul_comm, Nat.mul_add_div (by omega), Nat.div_eq_of_lt hj]; simp
        have : e.sample = i := by rw [← h1, heq, h2]
        refine ⟨this, ?_⟩
        subst this
        omega
      · rintro ⟨rfl, rfl⟩; rfl
    rw [hix]
    by_cases hs : e.sample = i
    · by_cases hnj : n = j
      · subst hnj
        rw [if_pos (hij.2 ⟨hs, rfl⟩), if_neg (by omega), if_pos ⟨hs, by omega⟩]
      · rw [if_neg (fun hh => hnj (hij.1 hh).2)]
        by_cases hjn : j < n
        · rw [if_pos ⟨hs, hjn⟩, if_pos ⟨hs, by omega⟩]
        · rw [if_neg (by omega), if_neg (by omega)]
    · rw [if_neg (fun hh => hs (hij.1 hh).1), if_neg (fun hh => hs hh.1), if_neg (fun hh => hs hh.1)]

theorem ObsCfg.upd_other {c : ObsCfg α} (e : Event) (j : Nat) (x : Bool × α × Nat)
    (h : ¬ (e.id = c.recordId ∨ (c.vlsdId > 0 ∧ e.id = c.vlsdId))) : c.upd e j x = x := by
  unfold ObsCfg.upd
  have h1 : ¬ c.recordId = e.id := fun hh => h (Or.inl hh.symm)
  have h2 : ¬ (c.vlsdId > 0 ∧ e.id = c.vlsdId) := fun hh => h (Or.inr hh)
  cases c.kind <;> simp [h1, h2]

theorem ObsCfg.cell_onSample {c : ObsCfg α} (e : Event) (hw : (e.sample + 1) * c.arraySize ≤ 2 ^ 64) {s : ObsSt α} (h : c.Sized s)
    (i j : Nat) (hi : i < c.nof) (hj : j < c.arraySize) :
    (c.onSample s e).cell c.default (i * c.arraySize + j) =
      if e.sample = i then c.upd e j (s.cell c.default (i * c.arraySize + j)) else s.cell c.default (i * c.arraySize + j) := by
  unfold ObsCfg.onSample
  by_cases hr : e.id = c.recordId ∨ (c.vlsdId > 0 ∧ e.id = c.vlsdId)
  · rw [if_pos hr, cell_fold e _ (Nat.le_refl _) hw h i j hi hj]
    simp only [hj, and_true]
  · rw [if_neg hr, upd_other e j _ hr]
    split <;> rfl

theorem ObsCfg.sized_onSample {c : ObsCfg α} (e : Event) {s : ObsSt α} (h : c.Sized s) : c.Sized (c.onSample s e) := by
  unfold ObsCfg.onSample
  split
  · exact sized_fold e _ h
  · exact h

theorem ObsCfg.sized_init (c : ObsCfg α) : c.Sized c.init := by
  refine ⟨by simp [ObsCfg.init], by simp [ObsCfg.init], ?_⟩
  unfold ObsCfg.init
  simp only []
  split <;> simp

theorem ObsCfg.cell_run {c : ObsCfg α} (events : List Event) (hw : ∀ e ∈ events, (e.sample + 1) * c.arraySize ≤ 2 ^ 64)
    {s : ObsSt α} (h : c.Sized s) (i j : Nat) (hi : i < c.nof) (hj : j < c.arraySize) :
    (events.foldl c.onSample s).cell c.default (i * c.arraySize + j) =
      (events.filter (fun e => e.sample = i)).foldl (fun x e => c.upd e j x) (s.cell c.default (i * c.arraySize + j)) := by
  induction events generalizing s with
  | nil => rfl
  | cons e es ih =>
    rw [List.foldl_cons, ih (fun x hx => hw x (by simp [hx])) (sized_onSample e h), cell_onSample e (hw e (by simp)) h i j hi hj]
    by_cases he : e.sample = i
    · rw [if_pos he, List.filter_cons_of_pos (by simpa using he), List.foldl_cons]
    · rw [if_neg he, List.filter_cons_of_neg (by simpa using he)]

theorem ObsCfg.cell_init {c : ObsCfg α} (k : Nat) : c.init.cell c.default k = (false, c.default, 0) := by
  have hrep : ∀ {β : Type} (n k : Nat) (v : β), (List.replicate n v).getD k v = v := by
    intro β n k v
    simp only [List.getD_eq_getElem?_getD, List.getElem?_replicate]
    split <;> rfl
  unfold ObsSt.cell ObsCfg.init
  simp only [hrep]
  split
  · rw [hrep]
  · rfl

theorem ObsCfg.get_cell {c : ObsCfg α} (s : ObsSt α) (i j : Nat) (hi : i < c.nof) (hj : j < c.arraySize)
    (hw : c.nof * c.arraySize ≤ 2 ^ 64) :
    c.get s i j = ((s.cell c.default (i * c.arraySize + j)).1, (s.cell c.default (i * c.arraySize + j)).2.1) := by
  have hk : i * c.arraySize + j < c.nof * c.arraySize := by
    have : (i + 1) * c.arraySize ≤ c.nof * c.arraySize := Nat.mul_le_mul_right _ hi
    rw [Nat.succ_mul] at this
    omega
  have hix : c.index i j = i * c.arraySize + j := by
    unfold ObsCfg.index
    exact Nat.mod_eq_of_lt (by omega)
  unfold ObsCfg.get ObsSt.cell
  rw [hix]

/-- Updates that overwrite a component: the last one stays. -/
theorem foldl_last {β γ δ : Type} (π : γ → δ) (f : β → δ) (p : β → Bool) (g : γ → β → γ) (hp : ∀ x b, p b = true → π (g x b) = f b)
    (hn : ∀ x b, ¬ p b = true → π (g x b) = π x) (l : List β) (x : γ) :
    π (l.foldl g x) = (((l.filter p).getLast?).map f).getD (π x) := by
  induction l generalizing x with
  | nil => rfl
  | cons b l ih =>
    rw [List.foldl_cons, ih]
    by_cases hb : p b = true
    · rw [hp x b hb, List.filter_cons_of_pos hb, List.getLast?_cons]
      cases (l.filter p).getLast? <;> rfl
    · rw [hn x b hb, List.filter_cons_of_neg hb]

/-- The last of the events of a sample for which `p` holds. -/
theorem ObsCfg.run_last {c : ObsCfg α} {δ : Type} (π : Bool × α × Nat → δ) (f : Event → δ) (p : Event → Bool) (events : List Event)
    (hw : ∀ e ∈ events, (e.sample + 1) * c.arraySize ≤ 2 ^ 64) (i j : Nat) (hi : i < c.nof) (hj : j < c.arraySize)
    (hp : ∀ x e, p e = true → π (c.upd e j x) = f e) (hn : ∀ x e, ¬ p e = true → π (c.upd e j x) = π x) :
    π ((c.onSamples events).cell c.default (i * c.arraySize + j)) =
      (((events.filter fun e => p e && decide (e.sample = i)).getLast?).map f).getD (π (false, c.default, 0)) := by
  unfold ObsCfg.onSamples
  rw [ObsCfg.cell_run events hw (ObsCfg.sized_init c) i j hi hj, ObsCfg.cell_init]
  rw [foldl_last π f p _ hp hn, List.filter_filter]

end

/-! ### The notifications of a reading -/

theorem getLast?_filter_replicate {β : Type} (n : β → Nat) (p : β → Bool) (h : ∀ e, p e = true → 0 < n e) (l : List β) :
    ((l.flatMap fun e => List.replicate (n e) e).filter p).getLast? = (l.filter p).getLast? := by
  induction l with
  | nil => rfl
  | cons e l ih =>
    rw [List.flatMap_cons, List.filter_append, List.getLast?_append, ih]
    by_cases hp : p e = true
    · rw [List.filter_cons_of_pos hp, List.getLast?_cons, List.filter_replicate_of_pos hp, List.getLast?_replicate]
      rw [if_neg (by have := h e hp; omega)]
      cases (l.filter p).getLast? <;> rfl
    · rw [List.filter_cons_of_neg hp, List.filter_replicate_of_neg hp]
      cases (l.filter p).getLast? <;> rfl

/-- The delivered events of a sample number of a subscribed group: the record with that index. -/
theorem deliver_sample (cfg : RCfg) (id : Nat) (hsub : cfg.subs id = true) (i : Nat) (hi : i < cfg.nof id) (recs : List Rec) :
    ∀ before : List Rec, (cfg.deliver before recs).filter (fun e => decide (e.id = id) && decide (e.sample = i)) =
      (if before.countP (·.id = id) ≤ i then (groupRecs recs id)[i - before.countP (·.id = id)]? else none).toList.map
        (fun b => (⟨i, id, b⟩ : Event)) := by
  induction recs with
  | nil => intro before; simp [RCfg.deliver, groupRecs]
  | cons r rs ih =>
    intro before
    rw [RCfg.deliver]
    by_cases hr : r.id = id
    · have hc : (before ++ [r]).countP (·.id = id) = before.countP (·.id = id) + 1 := by simp [List.countP_append, hr]
      have hg : groupRecs (r :: rs) id = r.data :: groupRecs rs id := by simp [groupRecs, hr]
      have hih := ih (before ++ [r])
      rw [hc] at hih
      subst hr
      by_cases hlt : before.countP (·.id = r.id) < cfg.nof r.id
      · rw [if_pos ⟨hsub, hlt⟩, List.filter_cons]
        by_cases hi2 : before.countP (·.id = r.id) = i
        · rw [if_pos (by simp [hi2]), hih, if_neg (by omega), if_pos (by omega), hg]
          simp [hi2]
        · rw [if_neg (by simp [hi2]), hih, hg]
          by_cases hle : before.countP (·.id = r.id) ≤ i
          · rw [if_pos (by omega), if_pos hle]
            have : i - before.countP (·.id = r.id) = (i - (before.countP (·.id = r.id) + 1)) + 1 := by omega
            rw [this, List.getElem?_cons_succ]
          · rw [if_neg (by omega), if_neg hle]
      · rw [if_neg (fun hh => hlt hh.2), hih, if_neg (by omega), if_neg (by omega)]
    · have hc : (before ++ [r]).countP (·.id = id) = before.countP (·.id = id) := by simp [List.countP_append, hr]
      have hg : groupRecs (r :: rs) id = groupRecs rs id := by simp [groupRecs, hr]
      have hih := ih (before ++ [r])
      rw [hc] at hih
      rw [hg]
      split
      · rw [List.filter_cons_of_neg (by simp [hr]), hih]
      · exact hih

/-- Every delivered event is of a subscribed group, with a sample number below its count. -/
theorem deliver_mem (cfg : RCfg) (recs : List Rec) : ∀ before : List Rec, ∀ e ∈ cfg.deliver before recs,
    cfg.subs e.id = true ∧ e.sample < cfg.nof e.id := by
  induction recs with
  | nil => intro before e he; simp [RCfg.deliver] at he
  | cons r rs ih =>
    intro before e he
    rw [RCfg.deliver] at he
    split at he
    next h =>
      rw [List.mem_cons] at he
      rcases he with he | he
      · subst he; exact h
      · exact ih _ e he
    next h => exact ih _ e he

/-- No observer asks to stop. -/
theorem cutAt_all (cont : List Event → Bool) (events : List Event) (h : ∀ e ∈ events, ∀ seen, cont (seen ++ [e]) = true) :
    ∀ seen, cutAt cont seen events = events := by
  induction events with
  | nil => intro _; rfl
  | cons e es ih =>
    intro seen
    rw [cutAt, if_pos (h e (by simp) seen), ih (fun x hx => h x (by simp [hx]))]

end Mdf
