import Verif.Proof.Mdf3Write

/-!
Lemmas about MDF 3 records: record ids, and reading what has been written.
-/

namespace Mdf

theorem number3_eq (gs : List Cg3) : ∀ k, k < 256 → number3 k gs = gs.mapIdx fun i g => { g with id := (k + i) % 256 } := by
  induction gs with
  | nil => intros; rfl
  | cons g gs ih =>
    intro k hk
    rw [number3, ih _ (by omega), List.mapIdx_cons]
    congr 1
    · have : (k + 0) % 256 = k := by omega
      rw [this]
    · apply List.mapIdx_eq_mapIdx_iff.mpr
      intro i hi
      have : ((k + 1) % 2 ^ 8 + i) % 256 = (k + (i + 1)) % 256 := by omega
      rw [this]

theorem newGroups3_eq (sizes : List Nat) : newGroups3 sizes = sizes.mapIdx fun i n =>
    { id := ((if sizes.length < 2 then 0 else 1) + i) % 256, size := n, nof := 0, sample := 0 } := by
  induction sizes using snocInd with
  | nil => rfl
  | snoc l n ih =>
    have e : newGroups3 (l ++ [n]) = addCg3 (newGroups3 l) { id := 0, size := n, nof := 0, sample := 0 } := by
      unfold newGroups3; rw [List.foldl_append]; rfl
    rw [e, addCg3, ih]
    have hl : (l.mapIdx (fun i n => ({ id := ((if l.length < 2 then 0 else 1) + i) % 256, size := n, nof := 0, sample := 0 } : Cg3)) ++
        [({ id := 0, size := n, nof := 0, sample := 0 } : Cg3)]).length = (l ++ [n]).length := by simp
    have hk : (if (l ++ [n]).length < 2 then 0 else 1) < 256 := by split <;> omega
    rw [hl, number3_eq _ _ hk]
    rw [List.mapIdx_append, List.mapIdx_append, List.mapIdx_mapIdx]
    congr 1
    · simp only [List.length_mapIdx, List.mapIdx_cons, List.mapIdx_nil]

theorem newGroups3_ids (sizes : List Nat) : (newGroups3 sizes).map (·.id) =
    (List.range sizes.length).map fun i => ((if sizes.length < 2 then 0 else 1) + i) % 256 := by
  rw [newGroups3_eq]
  apply List.ext_getElem?
  intro k
  rw [List.getElem?_map, List.getElem?_mapIdx, List.getElem?_map]
  by_cases h : k < sizes.length
  · rw [List.getElem?_eq_getElem h, List.getElem?_range h]; rfl
  · rw [List.getElem?_eq_none (by omega), List.getElem?_eq_none (by simp; omega)]; rfl

theorem newGroups3_length (sizes : List Nat) : (newGroups3 sizes).length = sizes.length := by
  rw [newGroups3_eq]; simp

theorem newGroups3_distinct (sizes : List Nat) (h : sizes.length ≤ 256) : ((newGroups3 sizes).map (·.id)).Nodup := by
  rw [newGroups3_ids]
  unfold List.Nodup
  rw [List.pairwise_map, List.pairwise_iff_getElem]
  intro i j hi hj hij
  simp only [List.length_range] at hi hj
  rw [List.getElem_range, List.getElem_range]
  split <;> omega

theorem newGroups3_ok (sizes : List Nat) (h1 : 1 ≤ sizes.length) (h : sizes.length ≤ 256) :
    Groups3 (newGroups3 sizes) ∧ Ids3 (idBytes3 (newGroups3 sizes)) (newGroups3 sizes) := by
  refine ⟨⟨newGroups3_distinct sizes h, ?_⟩, ?_⟩
  · intro g hg
    have : g.id ∈ (newGroups3 sizes).map (·.id) := List.mem_map_of_mem hg
    rw [newGroups3_ids, List.mem_map] at this
    obtain ⟨i, _, e⟩ := this
    omega
  · unfold Ids3 idBytes3
    rw [newGroups3_length]
    split <;> omega

/-- Reading a data group whose counters are not larger than the number of samples in the file. -/
theorem readDg3_spec (groups : List Cg3) (hg : Groups3 groups) (hi : Ids3 (idBytes3 groups) groups) (l : List Sample)
    (hf : ∀ s ∈ l, Fits3 groups s) (nof : Nat → Nat) (hn : ∀ g ∈ groups, g.nof = nof g.id)
    (hle : ∀ g ∈ groups, g.nof ≤ l.countP (·.id = g.id)) (pre tail : Bytes) (go : Event → Bool) :
    readDg3 (idBytes3 groups) go groups pre.length (pre ++ stream3 (idBytes3 groups) l ++ tail) =
      (upTo go (deliver3 nof [] (cover3 (idBytes3 groups) (dataSize3 (idBytes3 groups) groups) l)), .done) := by
  unfold readDg3
  rw [List.append_assoc, List.drop_append_of_le_length (Nat.le_refl _), List.drop_length, List.nil_append]
  have hids : (groups.map fun g => { g with sample := 0 }).map (·.id) = groups.map (·.id) := by
    rw [List.map_map]; rfl
  refine parse3_spec _ go nof tail l [] _ _ ?_ ⟨by rw [hids]; exact hg.distinct, ?_⟩ ?_ ?_ ?_
  · unfold Ids3; rw [List.length_map]; exact hi
  · intro g h
    obtain ⟨a, ha, rfl⟩ := List.mem_map.mp h
    exact hg.byte a ha
  · intro s hs
    obtain ⟨g, h1, h2, h3, h4⟩ := hf s hs
    exact ⟨_, List.mem_map_of_mem h1, h2, h3, h4⟩
  · intro g h
    obtain ⟨a, ha, rfl⟩ := List.mem_map.mp h
    exact ⟨hn a ha, by simp⟩
  · rw [stream3_length hi hg.distinct l hf]
    exact sum_map_le _ _ _ fun g h => Nat.mul_le_mul_left _ (hle g h)

theorem countP_zero_of_fits {groups : List Cg3} {l : List Sample} (hf : ∀ s ∈ l, Fits3 groups s) (s : Sample) (hs : s ∈ l)
    (P : Cg3 → Prop) (h : ∀ g ∈ groups, P g) : ∃ g ∈ groups, g.id = s.id ∧ P g := by
  obtain ⟨g, h1, h2, _⟩ := hf s hs
  exact ⟨g, h1, h2, h g h1⟩

/-- Reading a data group whose counters are the numbers of samples in the file. -/
theorem readDg3_exact (groups : List Cg3) (hg : Groups3 groups) (hi : Ids3 (idBytes3 groups) groups) (l : List Sample)
    (hf : ∀ s ∈ l, Fits3 groups s) (he : ∀ g ∈ groups, g.nof = l.countP (·.id = g.id)) (pre tail : Bytes) (go : Event → Bool) :
    readDg3 (idBytes3 groups) go groups pre.length (pre ++ stream3 (idBytes3 groups) l ++ tail) = (upTo go (events3 l), .done) := by
  rw [readDg3_spec groups hg hi l hf (fun id => l.countP (·.id = id)) he (fun g h => Nat.le_of_eq (he g h)) pre tail go]
  have hds : dataSize3 (idBytes3 groups) groups = (stream3 (idBytes3 groups) l).length := by
    rw [stream3_length hi hg.distinct l hf]
    unfold dataSize3
    congr 1
    apply List.map_congr_left
    intro g h
    rw [he g h]
  rw [hds, cover3_all, deliver3_events]
  · intro s _; exact Nat.le_refl _
  · intro s hs
    obtain ⟨g, _, _, h3, h4⟩ := hf s hs
    rw [record3_length]; omega

theorem upTo_prefix (go : Event → Bool) (l : List Event) : upTo go l <+: l := by
  induction l with
  | nil => exact List.prefix_refl _
  | cons e l ih =>
    rw [upTo]
    split
    · exact (List.cons_prefix_cons).mpr ⟨rfl, ih⟩
    · exact (List.cons_prefix_cons).mpr ⟨rfl, List.nil_prefix⟩

theorem cover3_prefix (ib : Nat) (l : List Sample) : ∀ left, cover3 ib left l <+: l := by
  induction l with
  | nil => intro; exact List.prefix_refl _
  | cons s l ih =>
    intro left
    rw [cover3]
    split
    · exact List.nil_prefix
    · exact (List.cons_prefix_cons).mpr ⟨rfl, ih _⟩

theorem deliver3_sublist (nof nof' : Nat → Nat) (h : ∀ id, nof id ≤ nof' id) (l : List Sample) : ∀ (before l' : List Sample),
    l <+: l' → (deliver3 nof before l).Sublist (deliver3 nof' before l') := by
  induction l with
  | nil => intro before l' _; exact List.nil_sublist _
  | cons s l ih =>
    intro before l' hp
    cases l' with
    | nil => simp at hp
    | cons s' l' =>
      obtain ⟨rfl, hp'⟩ := (List.cons_prefix_cons).mp hp
      rw [deliver3, deliver3]
      apply List.Sublist.append _ (ih _ _ hp')
      have := h s.id
      by_cases h1 : before.countP (·.id = s.id) < nof s.id
      · rw [if_pos h1, if_pos (by omega)]
        exact List.Sublist.refl _
      · rw [if_neg h1]; exact List.nil_sublist _

end Mdf
