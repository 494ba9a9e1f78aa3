import Verif.Proof.HdComment
import Verif.Proof.CommentKinds
import Verif.Proof.Number

/-! A comment that is read and written again: the attributes the library adds to those of the user are not written twice. -/

namespace Mdf

/-! ### Attributes -/

theorem setA_has {as : List (Bytes × Bytes)} {a : Bytes × Bytes} (h : ∃ b ∈ as, b.1 = a.1) : setA as a = as := by
  rw [setA, if_pos]
  simpa using h

theorem setA_keeps {as : List (Bytes × Bytes)} {a : Bytes × Bytes} {k : Bytes} (h : ∃ b ∈ as, b.1 = k) : ∃ b ∈ setA as a, b.1 = k := by
  rw [setA]
  split
  · exact h
  · obtain ⟨b, hb, e⟩ := h
    exact ⟨b, List.mem_append_left _ hb, e⟩

/-- An attribute whose key is there already changes nothing, wherever it is in the map. -/
theorem foldl_setA_insert {a : Bytes × Bytes} : ∀ (m as : List (Bytes × Bytes)), (∃ b ∈ as, b.1 = a.1) →
    (mapInsert (·.1) a m).foldl setA as = m.foldl setA as
  | [], as, h => by rw [mapInsert, List.foldl_cons, setA_has h]
  | y :: ys, as, h => by
    rw [mapInsert]
    split
    · rfl
    · split
      · rw [List.foldl_cons, setA_has h]
      · rw [List.foldl_cons, List.foldl_cons, foldl_setA_insert ys _ (setA_keeps h)]

theorem foldl_setA_inserts (m as : List (Bytes × Bytes)) : ∀ own : List (Bytes × Bytes), (∀ a ∈ own, ∃ b ∈ as, b.1 = a.1) →
    (own.foldl (fun m a => mapInsert (·.1) a m) m).foldl setA as = m.foldl setA as := by
  intro own
  induction own generalizing m with
  | nil => intro _; rfl
  | cons a own ih =>
    intro h
    rw [List.foldl_cons, ih _ (fun b hb => h b (List.mem_cons_of_mem _ hb)), foldl_setA_insert _ _ (h a (by simp))]

/-- Two maps with the same entries are the same. -/
theorem sorted_ext {α : Type} {key : α → Bytes} : ∀ {l m : List α}, SortedBy key l → SortedBy key m → (∀ x, x ∈ l ↔ x ∈ m) → l = m
  | [], [], _, _, _ => rfl
  | [], y :: _, _, _, h => by have := (h y).mpr (by simp); cases this
  | x :: _, [], _, _, h => by have := (h x).mp (by simp); cases this
  | x :: l, y :: m, hl, hm, h => by
    have hl' := List.pairwise_cons.mp hl
    have hm' := List.pairwise_cons.mp hm
    have e : x = y := by
      have h1 := (h x).mp (by simp)
      have h2 := (h y).mpr (by simp)
      rcases List.mem_cons.mp h1 with e | h1
      · exact e
      · rcases List.mem_cons.mp h2 with e | h2
        · exact e.symm
        · have a := hm'.1 x h1
          have b := hl'.1 y h2
          rw [nameLt_asymm _ _ a] at b
          cases b
    subst e
    congr 1
    refine sorted_ext hl'.2 hm'.2 fun z => ⟨fun hz => ?_, fun hz => ?_⟩
    · rcases List.mem_cons.mp ((h z).mp (List.mem_cons_of_mem _ hz)) with e | hz'
      · subst e; exact absurd rfl (nameLt_ne (hl'.1 _ hz))
      · exact hz'
    · rcases List.mem_cons.mp ((h z).mpr (List.mem_cons_of_mem _ hz)) with e | hz'
      · subst e; exact absurd rfl (nameLt_ne (hm'.1 _ hz))
      · exact hz'

theorem inserts_sorted {own : List (Bytes × Bytes)} : ∀ {m : List (Bytes × Bytes)}, SortedBy (·.1) m →
    SortedBy (·.1) (own.foldl (fun m a => mapInsert (·.1) a m) m) := by
  induction own with
  | nil => intro m h; exact h
  | cons a own ih => intro m h; exact ih (mapInsert_sorted h)

theorem inserts_mem {own : List (Bytes × Bytes)} : ∀ {m : List (Bytes × Bytes)}, ((m ++ own).map (·.1)).Nodup → ∀ x,
    x ∈ own.foldl (fun m a => mapInsert (·.1) a m) m ↔ x ∈ m ∨ x ∈ own := by
  induction own with
  | nil => intro m _ x; simp
  | cons a own ih =>
    intro m h x
    have hn : ∀ y ∈ m, y.1 ≠ a.1 := by
      rw [List.map_append, List.nodup_append] at h
      intro y hy
      exact h.2.2 _ (List.mem_map_of_mem hy) _ (by simp)
    have hmem : ∀ z, z ∈ mapInsert (·.1) a m ↔ z ∈ m ∨ z = a := by
      intro z
      constructor
      · intro hz
        rcases mem_mapInsert hz with e | e
        · exact .inr e
        · exact .inl e
      · rintro (hz | rfl)
        · exact mem_mapInsert_old hz
        · exact mem_mapInsert_new hn
    have hnd : ((mapInsert (·.1) a m ++ own).map (·.1)).Nodup := by
      rw [List.map_append, List.nodup_append] at h ⊢
      obtain ⟨h1, h2, h3⟩ := h
      rw [List.map_cons, List.nodup_cons] at h2
      refine ⟨?_, h2.2, ?_⟩
      · clear ih hmem h3
        induction m with
        | nil => simp [mapInsert]
        | cons y ys ih2 =>
          rw [List.map_cons, List.nodup_cons] at h1
          have hy := hn y (by simp)
          rw [mapInsert, if_neg (fun e => hy e.symm)]
          split
          · rw [List.map_cons, List.nodup_cons]
            refine ⟨?_, by rw [List.map_cons, List.nodup_cons]; exact h1⟩
            rw [List.mem_map]
            rintro ⟨z, hz, e⟩
            exact hn z hz e
          · rw [List.map_cons, List.nodup_cons]
            refine ⟨?_, ih2 (fun z hz => hn z (List.mem_cons_of_mem _ hz)) h1.2⟩
            rw [List.mem_map]
            rintro ⟨z, hz, e⟩
            rcases mem_mapInsert hz with rfl | hz
            · exact hy e.symm
            · exact h1.1 (e ▸ List.mem_map_of_mem hz)
      · intro k hk k' hk'
        rw [List.mem_map] at hk
        obtain ⟨z, hz, rfl⟩ := hk
        rcases (hmem z).mp hz with hz | rfl
        · exact h3 _ (List.mem_map_of_mem hz) _ (List.mem_cons_of_mem _ hk')
        · rintro rfl
          exact h2.1 hk'
    rw [List.foldl_cons, ih hnd x, hmem x, List.mem_cons]
    constructor
    · rintro ((h | h) | h)
      · exact .inl h
      · exact .inr (.inl h)
      · exact .inr (.inr h)
    · rintro (h | h | h)
      · exact .inl (.inl h)
      · exact .inl (.inr h)
      · exact .inr h

/-- The attributes that are read do not depend on whether those of the library or those of the user come first. -/
theorem readBack_custom {s : MdStd} (hs : s.Good) {own : List (Bytes × Bytes)} (hk : OwnKeys (own.map (·.1))) :
    (s.readBack own).custom = (given own).foldl (fun m a => mapInsert (·.1) a m) s.custom := by
  show attrMap (given own ++ s.custom) = _
  have hn := keys_nodup hs hk
  have h1 : ((given own ++ s.custom).map (·.1)).Nodup := by
    refine hn.sublist (List.Sublist.map _ ?_)
    rw [List.append_assoc]
    exact (given_sublist own).append (List.sublist_append_right _ _)
  have h2 : ((s.custom ++ given own).map (·.1)).Nodup := by
    refine (List.Perm.nodup_iff ?_).mp h1
    exact (List.perm_append_comm).map _
  refine sorted_ext (inserts_sorted (m := []) List.Pairwise.nil) (inserts_sorted hs.2.2.1) fun x => ?_
  rw [inserts_mem h2]
  have := inserts_mem (m := []) (own := given own ++ s.custom) (by simpa using h1) x
  rw [attrMap, this]
  simp only [List.not_mem_nil, false_or, List.mem_append]
  exact or_comm

theorem setAll_keeps {k : Bytes} : ∀ (cs as : List (Bytes × Bytes)), (∃ b ∈ as, b.1 = k) → ∃ b ∈ setAll as cs, b.1 = k
  | [], _, h => h
  | c :: cs, as, h => by
    rw [setAll, List.foldl_cons]
    refine setAll_keeps cs _ ?_
    split
    · exact h
    · exact setA_keeps h

theorem setAll_has : ∀ (cs as : List (Bytes × Bytes)), ∀ a ∈ given cs, ∃ b ∈ setAll as cs, b.1 = a.1
  | [], _, a, h => by cases h
  | c :: cs, as, a, h => by
    rw [setAll, List.foldl_cons]
    by_cases hc : c.2.isEmpty = true
    · rw [if_pos hc]
      refine setAll_has cs as a ?_
      rwa [given, List.filter_cons_of_neg (by simpa using hc)] at h
    · rw [if_neg hc]
      rw [given, List.filter_cons_of_pos (by simpa using hc), List.mem_cons] at h
      rcases h with rfl | h
      · refine setAll_keeps cs _ ?_
        rw [setA]
        split
        · rename_i h'
          simpa using h'
        · exact ⟨a, by simp, rfl⟩
      · exact setAll_has cs _ a h

/-- Attributes that were read are written as those that were written first, if the library writes the same attributes of its own. -/
theorem write_readBack {s : MdStd} (hs : s.Good) {own as : List (Bytes × Bytes)} (hk : OwnKeys (own.map (·.1)))
    (ho : ∀ a ∈ given own, ∃ b ∈ as, b.1 = a.1) : (s.readBack own).write as = s.write as := by
  rw [MdStd.write, readBack_custom hs hk, foldl_setA_inserts]
  · rfl
  · intro a ha
    exact setAll_keeps _ _ (ho a ha)

theorem write_readBack_own {s : MdStd} (hs : s.Good) {own : List (Bytes × Bytes)} (hk : OwnKeys (own.map (·.1))) :
    (s.readBack own).write (setAll [] own) = s.write (setAll [] own) := write_readBack hs hk (setAll_has own [])

/-! ### Texts -/

theorem std_readBack_nil {s : MdStd} (hs : s.Good) : s.readBack [] = s := by
  obtain ⟨ci, lang, custom⟩ := s
  show (⟨ci, lang, attrMap custom⟩ : MdStd) = _
  rw [attrMap_sorted hs.2.2.1]

theorem str_readBack_nil {s : MdStr} (hs : s.Good) : s.readBack [] = { std := s.std, text := trim s.text, offset := none } := by
  rw [MdStr.readBack, std_readBack_nil hs.1]

theorem plain_trim_text {b : Bytes} (h : PlainText b) : PlainText (trim b) := by
  intro c hc
  obtain ⟨l, r, e, _⟩ := trim_split b
  refine h c ?_
  rw [e]
  simp [hc]

theorem str_back_good {s : MdStr} (hs : s.Good) : (s.readBack []).Good := by
  rw [str_readBack_nil hs]
  exact ⟨hs.1, plain_trim_text hs.2⟩

theorem str_back_twice {s : MdStr} (hs : s.Good) : (s.readBack []).readBack [] = s.readBack [] := by
  rw [str_readBack_nil (str_back_good hs), str_readBack_nil hs, trim_trim]

/-! ### Properties -/

/-- The texts in attributes have no blanks around them. -/
def MdProp.Clean (p : MdProp) : Prop := trim p.desc = p.desc ∧ trim p.unit = p.unit ∧ trim p.unitRef = p.unitRef

/-- The property a copy of which is written. -/
def MdProp.tidy (p : MdProp) : MdProp := { p with value := trim p.value, type := p.type.readBack }

theorem tidy_own (p : MdProp) : p.tidy.own = p.own := by
  rw [MdProp.own, MdProp.own, MdProp.tidy]
  cases p.type <;> rfl

theorem prop_back_attrs {p : MdProp} (hp : p.Good) (hc : p.Clean) : p.readBack.attrs = p.tidy.attrs := by
  have e : p.readBack.attrs = (p.std.readBack p.own).write (setAll [] p.tidy.own) := by
    unfold MdProp.attrs MdProp.readBack MdProp.tidy MdProp.own
    dsimp only
    rw [hc.1, hc.2.1, hc.2.2]
  rw [e, tidy_own, write_readBack_own hp.1 (prop_keys p), ← tidy_own]
  rfl

theorem prop_back_node {p : MdProp} (hp : p.Good) (hc : p.Clean) : p.readBack.node = p.tidy.node := by
  rw [MdProp.node, MdProp.node, prop_back_attrs hp hc]
  rfl

theorem prop_tidy_good {p : MdProp} (hp : p.Good) : p.tidy.Good :=
  ⟨hp.1, hp.2.1, hp.2.2.1, hp.2.2.2.1, hp.2.2.2.2.1, plain_trim_text hp.2.2.2.2.2⟩

theorem prop_tidy_back (p : MdProp) : p.tidy.readBack = p.readBack := by
  rw [MdProp.readBack, tidy_own, MdProp.readBack, MdProp.tidy]
  dsimp only
  rw [trim_trim]
  cases p.type <;> rfl

/-! ### Enumerations -/

/-- The texts have no blanks around them. -/
def MdEnum.Clean (e : MdEnum) : Prop := e.prop.Clean ∧ ∀ v ∈ e.values, trim v.text = v.text

/-- The enumeration a copy of which is written. -/
def MdEnum.tidy (e : MdEnum) : MdEnum := { prop := { e.prop.tidy with value := [] }, values := (nonEmpty e.values).map (·.readBack []) }

theorem enum_back_node {e : MdEnum} (he : e.Good) (hc : e.Clean) : e.readBack.node = e.tidy.node := by
  rw [MdEnum.node, MdEnum.node]
  have h : e.readBack.prop.attrs = e.tidy.prop.attrs := prop_back_attrs he.1 hc.1
  rw [h]
  rfl

theorem enum_tidy_good {e : MdEnum} (he : e.Good) : e.tidy.Good := by
  obtain ⟨h1, h2⟩ := he
  refine ⟨⟨h1.1, h1.2.1, h1.2.2.1, h1.2.2.2.1, h1.2.2.2.2.1, plainText_nil⟩, ?_⟩
  intro v hv
  obtain ⟨w, hw, rfl⟩ := List.mem_map.mp hv
  exact str_back_good (h2 w (List.mem_of_mem_filter hw))

theorem back_values {l : List MdStr} (hg : ∀ v ∈ l, v.Good) (hc : ∀ v ∈ l, trim v.text = v.text) :
    (nonEmpty ((nonEmpty l).map (·.readBack []))).map (·.readBack []) = (nonEmpty l).map (·.readBack []) := by
  have h1 : nonEmpty ((nonEmpty l).map (·.readBack [])) = (nonEmpty l).map (·.readBack []) := by
    rw [nonEmpty, List.filter_eq_self]
    intro v hv
    obtain ⟨w, hw, rfl⟩ := List.mem_map.mp hv
    have hm := List.mem_filter.mp hw
    show !(trim w.text).isEmpty
    rw [hc w hm.1]
    exact hm.2
  rw [h1, List.map_map]
  refine List.map_congr_left fun v hv => ?_
  exact str_back_twice (hg v (List.mem_of_mem_filter hv))

theorem enum_tidy_back {e : MdEnum} (he : e.Good) (hc : e.Clean) : e.tidy.readBack = e.readBack := by
  rw [MdEnum.readBack, MdEnum.readBack]
  congr 1
  · have h := prop_tidy_back e.prop
    have h' : e.tidy.prop.readBack = { e.prop.tidy.readBack with value := trim [] } := rfl
    rw [h', h]
  · exact back_values he.2 hc.2

/-! ### Trees and lists -/

mutual
/-- The texts in attributes have no blanks around them. -/
def MdTree.Clean : MdTree → Prop
  | .mk _ _ desc props trees lists enums =>
    trim desc = desc ∧ (∀ p ∈ props, p.Clean) ∧ AllTreesClean trees ∧ AllTreesClean lists ∧ ∀ e ∈ enums, e.Clean
/-- The same for several trees. -/
def AllTreesClean : List MdTree → Prop
  | [] => True
  | t :: ts => t.Clean ∧ AllTreesClean ts
end

mutual
/-- The tree a copy of which is written. -/
def MdTree.tidy : MdTree → MdTree
  | .mk std name desc props trees lists enums =>
    .mk std name desc (props.map MdProp.tidy) (allTidy trees) (allTidy lists) (enums.map MdEnum.tidy)
/-- The same for several trees. -/
def allTidy : List MdTree → List MdTree
  | [] => []
  | t :: ts => t.tidy :: allTidy ts
end

theorem tidy_name (t : MdTree) : t.tidy.name = t.name := by
  obtain ⟨s, n, d, P, T, L, E⟩ := t
  rw [MdTree.tidy]
  rfl

theorem allTidy_map (ts : List MdTree) : allTidy ts = ts.map MdTree.tidy := by
  induction ts with
  | nil => rfl
  | cons t ts ih => rw [allTidy, ih, List.map_cons]

theorem tidy_std (t : MdTree) : t.tidy.std = t.std := by
  obtain ⟨s, n, d, P, T, L, E⟩ := t
  rw [MdTree.tidy]
  rfl

theorem tidy_desc (t : MdTree) : t.tidy.desc = t.desc := by
  obtain ⟨s, n, d, P, T, L, E⟩ := t
  rw [MdTree.tidy]
  rfl

theorem tree_back_attrs {t : MdTree} (h : t.Good) (hc : t.Clean) :
    t.readBack.std.write (setAll [] [(kName, t.readBack.name), (kDesc, t.readBack.desc)]) =
      t.tidy.std.write (setAll [] [(kName, t.tidy.name), (kDesc, t.tidy.desc)]) := by
  have hs := h.head
  rw [tidy_std, tidy_name, tidy_desc]
  have hk := tree_keys t
  obtain ⟨s, n, d, P, T, L, E⟩ := t
  rw [MdTree.Clean] at hc
  rw [MdTree.readBack]
  show (s.readBack [(kName, n), (kDesc, d)]).write (setAll [] [(kName, n), (kDesc, trim d)]) = _
  rw [hc.1]
  exact write_readBack_own hs.1 hk

mutual
theorem inner_back : ∀ t : MdTree, t.Good → t.Clean → t.readBack.inner = t.tidy.inner
  | .mk s n d P T L E, h, hc => by
    rw [MdTree.Good] at h
    rw [MdTree.Clean] at hc
    obtain ⟨_, _, _, _, hp, _, ht, _, hl, _, he, _⟩ := h
    obtain ⟨_, cp, ct, cl, ce⟩ := hc
    rw [MdTree.readBack, MdTree.tidy, MdTree.inner, MdTree.inner, trees_back T ht ct, lists_back L hl cl, List.map_map, List.map_map,
      List.map_map, List.map_map]
    rw [List.map_congr_left (f := MdProp.node ∘ MdProp.readBack) (g := MdProp.node ∘ MdProp.tidy) fun p hp' => prop_back_node (hp p hp') (cp p hp'),
      List.map_congr_left (f := MdEnum.node ∘ MdEnum.readBack) (g := MdEnum.node ∘ MdEnum.tidy) fun e he' => enum_back_node (he e he') (ce e he')]
theorem trees_back : ∀ ts : List MdTree, AllTreesGood ts → AllTreesClean ts → treeNodes (allReadBack ts) = treeNodes (allTidy ts)
  | [], _, _ => rfl
  | t :: ts, h, hc => by
    rw [AllTreesGood] at h
    rw [AllTreesClean] at hc
    rw [allReadBack, allTidy, treeNodes, treeNodes, trees_back ts h.2 hc.2, inner_back t h.1 hc.1, tree_back_attrs h.1 hc.1]
theorem lists_back : ∀ ts : List MdTree, AllTreesGood ts → AllTreesClean ts → listNodes (allReadBack ts) = listNodes (allTidy ts)
  | [], _, _ => rfl
  | t :: ts, h, hc => by
    rw [AllTreesGood] at h
    rw [AllTreesClean] at hc
    rw [allReadBack, allTidy, listNodes, listNodes, lists_back ts h.2 hc.2, inner_back t h.1 hc.1, tree_back_attrs h.1 hc.1]
end

theorem tidy_sorted {ts : List MdTree} (h : SortedBy MdTree.name ts) : SortedBy MdTree.name (allTidy ts) := by
  rw [allTidy_map, SortedBy, List.pairwise_map]
  refine h.imp ?_
  intro a b hab
  rw [tidy_name, tidy_name]
  exact hab

theorem mem_allTidy {ts : List MdTree} {x : MdTree} (h : x ∈ allTidy ts) : ∃ t ∈ ts, x.name = t.name := by
  rw [allTidy_map] at h
  obtain ⟨t, ht, rfl⟩ := List.mem_map.mp h
  exact ⟨t, ht, tidy_name t⟩

mutual
theorem tree_tidy_good : ∀ t : MdTree, t.Good → t.tidy.Good
  | .mk s n d P T L E, h => by
    rw [MdTree.Good] at h
    obtain ⟨h1, h2, h3, h4, hp, sp, ht, st, hl, sl, he, se, x1, x2⟩ := h
    rw [MdTree.tidy, MdTree.Good]
    refine ⟨h1, h2, h3, h4, ?_, ?_, trees_tidy_good T ht, tidy_sorted st, trees_tidy_good L hl, tidy_sorted sl, ?_, ?_, ?_, ?_⟩
    · intro p hp'
      obtain ⟨q, hq, rfl⟩ := List.mem_map.mp hp'
      exact prop_tidy_good (hp q hq)
    · rw [SortedBy, List.pairwise_map]
      exact sp
    · intro e he'
      obtain ⟨q, hq, rfl⟩ := List.mem_map.mp he'
      exact enum_tidy_good (he q hq)
    · rw [SortedBy, List.pairwise_map]
      exact se
    · intro l hl'
      obtain ⟨l0, hl0, el⟩ := mem_allTidy hl'
      obtain ⟨a, b, c⟩ := x1 l0 hl0
      rw [el]
      refine ⟨a, ?_, ?_⟩
      · intro p hp'
        obtain ⟨q, hq, rfl⟩ := List.mem_map.mp hp'
        exact b q hq
      · intro t ht'
        obtain ⟨t0, ht0, et⟩ := mem_allTidy ht'
        rw [et]
        exact c t0 ht0
    · intro e he'
      obtain ⟨e0, he0, rfl⟩ := List.mem_map.mp he'
      obtain ⟨a, b, c⟩ := x2 e0 he0
      refine ⟨?_, ?_, ?_⟩
      · intro p hp'
        obtain ⟨q, hq, rfl⟩ := List.mem_map.mp hp'
        exact a q hq
      · intro t ht'
        obtain ⟨t0, ht0, et⟩ := mem_allTidy ht'
        rw [et]
        exact b t0 ht0
      · intro t ht'
        obtain ⟨t0, ht0, et⟩ := mem_allTidy ht'
        rw [et]
        exact c t0 ht0
theorem trees_tidy_good : ∀ ts : List MdTree, AllTreesGood ts → AllTreesGood (allTidy ts)
  | [], _ => by rw [allTidy, AllTreesGood]; trivial
  | t :: ts, h => by
    rw [AllTreesGood] at h
    rw [allTidy, AllTreesGood]
    exact ⟨tree_tidy_good t h.1, trees_tidy_good ts h.2⟩
end

mutual
theorem tree_tidy_back : ∀ t : MdTree, t.Good → t.Clean → t.tidy.readBack = t.readBack
  | .mk s n d P T L E, h, hc => by
    rw [MdTree.Good] at h
    rw [MdTree.Clean] at hc
    obtain ⟨_, _, _, _, hp, _, ht, _, hl, _, he, _⟩ := h
    obtain ⟨_, cp, ct, cl, ce⟩ := hc
    rw [MdTree.tidy, MdTree.readBack, MdTree.readBack, trees_tidy_back T ht ct, trees_tidy_back L hl cl, List.map_map, List.map_map]
    rw [List.map_congr_left (f := MdProp.readBack ∘ MdProp.tidy) (g := MdProp.readBack) fun p _ => prop_tidy_back p,
      List.map_congr_left (f := MdEnum.readBack ∘ MdEnum.tidy) (g := MdEnum.readBack) fun e he' => enum_tidy_back (he e he') (ce e he')]
theorem trees_tidy_back : ∀ ts : List MdTree, AllTreesGood ts → AllTreesClean ts → allReadBack (allTidy ts) = allReadBack ts
  | [], _, _ => rfl
  | t :: ts, h, hc => by
    rw [AllTreesGood] at h
    rw [AllTreesClean] at hc
    rw [allTidy, allReadBack, allReadBack, trees_tidy_back ts h.2 hc.2, tree_tidy_back t h.1 hc.1]
end

theorem tidy_active (t : MdTree) (hd : trim t.desc = t.desc) : t.readBack.isActive = t.tidy.isActive := by
  obtain ⟨s, n, d, P, T, L, E⟩ := t
  have hd : trim d = d := hd
  rw [MdTree.readBack, MdTree.tidy, MdTree.isActive, MdTree.isActive, hd]
  have h1 : ∀ ts : List MdTree, (allReadBack ts).isEmpty = ts.isEmpty := fun ts => by cases ts <;> rfl
  have h2 : ∀ ts : List MdTree, (allTidy ts).isEmpty = ts.isEmpty := fun ts => by cases ts <;> rfl
  simp only [MdTree.name, MdTree.desc, MdTree.props, MdTree.trees, MdTree.lists, MdTree.enums, List.isEmpty_map, h1, h2]

/-! ### Header comments -/

/-- The texts in attributes and the time source have no blanks around them. -/
def HdCom.Clean (h : HdCom) : Prop := h.com.common.Clean ∧ trim h.timeSource.text = h.timeSource.text

/-- The header comment a copy of which is written. -/
def HdCom.tidy (h : HdCom) : HdCom where
  com := { text := h.com.text.readBack [], common := h.com.common.tidy }
  timeSource := if h.timeSource.text = [] then {} else h.timeSource.readBack []
  constants := h.constants.map fun c => ({ std := c.1.std, text := c.1.text }, trim c.2)

theorem hd_tidy_good {h : HdCom} (hg : h.Good) : h.tidy.Good := by
  obtain ⟨h1, h2, h3, h4, h5, h6, h7, h8⟩ := hg
  refine ⟨str_back_good h1, tree_tidy_good _ h2, (tidy_std _).trans h3, (tidy_name _).trans h4, (tidy_desc _).trans h5, ?_, ?_, ?_⟩
  · show (if h.timeSource.text = [] then ({} : MdStr) else h.timeSource.readBack []).Good
    split
    · exact ⟨hd_std_good, plainText_nil⟩
    · exact str_back_good h6
  · intro c hc
    obtain ⟨d, hd, rfl⟩ := List.mem_map.mp hc
    obtain ⟨a, b, e⟩ := h7 d hd
    exact ⟨a, b, plain_trim_text e⟩
  · show SortedBy _ (h.constants.map _)
    rw [SortedBy, List.pairwise_map]
    exact h8

theorem hd_tidy_back {h : HdCom} (hg : h.Good) (hc : h.Clean) : h.tidy.readBack = h.readBack := by
  obtain ⟨h1, h2, h3, h4, h5, h6, h7, h8⟩ := hg
  rw [HdCom.readBack, HdCom.readBack]
  congr 1
  · show ({ text := (h.com.text.readBack []).readBack [], common := h.com.common.tidy.readBack } : MdCom) = _
    rw [str_back_twice h1, tree_tidy_back _ h2 hc.1]
  · show (if (if h.timeSource.text = [] then ({} : MdStr) else h.timeSource.readBack []).text = [] then ({} : MdStr)
      else (if h.timeSource.text = [] then ({} : MdStr) else h.timeSource.readBack []).readBack []) = _
    by_cases ht : h.timeSource.text = []
    · simp [ht]
    · rw [if_neg ht, str_back_twice h6, if_neg]
      show trim h.timeSource.text ≠ []
      rw [hc.2]
      exact ht
  · show (h.constants.map _).map constReadBack = _
    rw [List.map_map]
    refine List.map_congr_left fun c _ => ?_
    show (({ std := c.1.std.readBack [(kName, c.1.text)], text := c.1.text } : MdStr), trim (trim c.2)) = constReadBack c
    rw [trim_trim]
    rfl

theorem const_back_node {c : MdStr × Bytes} (hc : GoodConst c) :
    constNode (constReadBack c) = constNode ({ std := c.1.std, text := c.1.text }, trim c.2) := by
  show XmlTree.mk tConst ((c.1.std.readBack [(kName, c.1.text)]).write [(kName, c.1.text)]) (trim c.2) [] = _
  rw [write_readBack hc.1 (const_keys c.1.text)]
  · rfl
  · intro a ha
    exact ⟨a, (given_sublist _).subset ha, rfl⟩

theorem hd_back_node {h : HdCom} (hg : h.Good) (hc : h.Clean) : h.readBack.node = h.tidy.node := by
  obtain ⟨h1, h2, h3, h4, h5, h6, h7, h8⟩ := hg
  rw [HdCom.node, HdCom.node]
  have e1 : h.readBack.com.common.isActive = h.tidy.com.common.isActive := tidy_active _ (by rw [h5]; rfl)
  have e2 : h.readBack.com.common.inner = h.tidy.com.common.inner := inner_back _ h2 hc.1
  have e3 : h.readBack.constants.map constNode = h.tidy.constants.map constNode := by
    show (h.constants.map _).map _ = (h.constants.map _).map _
    rw [List.map_map, List.map_map]
    exact List.map_congr_left fun c hc' => const_back_node (h7 c hc')
  have e4 : (h.readBack.constants = []) = (h.tidy.constants = []) := by
    show (h.constants.map _ = []) = (h.constants.map _ = [])
    rw [List.map_eq_nil_iff, List.map_eq_nil_iff]
  rw [e1, e2, e3]
  simp only [e4]
  rfl

/-- A header comment that is read, written again and read again is the one that was read. -/
theorem hd_copy {h : HdCom} (hg : h.Good) (hc : h.Clean) :
    ({} : HdCom).fromXml (({} : HdCom).fromXml h.toXml).toXml = ({} : HdCom).fromXml h.toXml := by
  rw [hd_read hg, HdCom.toXml, hd_back_node hg hc]
  have := hd_read (hd_tidy_good hg)
  rw [HdCom.toXml] at this
  rw [this, hd_tidy_back hg hc]

/-! ### Comments of file histories and of attachments -/

/-- The texts in attributes and of the tool and the user have no blanks around them. -/
def FhCom.Clean (c : FhCom) : Prop := c.com.common.Clean ∧ trim c.toolId.text = c.toolId.text ∧ trim c.toolVendor.text = c.toolVendor.text ∧
  trim c.toolVersion.text = c.toolVersion.text ∧ trim c.userName.text = c.userName.text

theorem readAs_good {s : MdStr} (hs : s.Good) : s.readAs.Good := by
  rw [MdStr.readAs]
  split
  · exact ⟨hd_std_good, plainText_nil⟩
  · exact str_back_good hs

theorem readAs_twice {s : MdStr} (hs : s.Good) (hc : trim s.text = s.text) : s.readAs.readAs = s.readAs := by
  rw [MdStr.readAs, MdStr.readAs]
  by_cases h : s.text = []
  · simp [h]
  · rw [if_neg h, str_back_twice hs, if_neg]
    show trim s.text ≠ []
    rw [hc]
    exact h

/-- The comment a copy of which is written. -/
def FhCom.tidy (c : FhCom) : FhCom where
  com := { text := c.com.text.readBack [], common := c.com.common.tidy }
  toolId := c.toolId.readAs
  toolVendor := c.toolVendor.readAs
  toolVersion := c.toolVersion.readAs
  userName := c.userName.readAs

theorem names_empty_good : ({} : MdNames).Good := ⟨hd_std_good, plainLine_nil, by simp, by simp, by simp, by simp⟩

theorem form_empty_good : ({} : MdForm).Good :=
  ⟨hd_std_good, ⟨⟨hd_std_good, plainText_nil⟩, by unfold PlainLine; decide, by unfold PlainLine; decide⟩, by simp, List.Pairwise.nil,
    by simp, List.Pairwise.nil⟩

/-- A comment of a file history that is read, written again and read again is the one that was read. -/
theorem fh_copy {c : FhCom} (hg : c.Good) (hc : c.Clean) :
    ({} : FhCom).fromXml (({} : FhCom).fromXml c.toXml).toXml = ({} : FhCom).fromXml c.toXml := by
  obtain ⟨⟨h1, h2, h3, h4, h5, h6, h7⟩, g1, g2, g3, g4⟩ := hg
  obtain ⟨c1, c2, c3, c4, c5⟩ := hc
  have hgood : c.tidy.Good := ⟨⟨str_back_good h1, names_empty_good, form_empty_good,
    tree_tidy_good _ h4, (tidy_std _).trans h5, (tidy_name _).trans h6, (tidy_desc _).trans h7⟩, readAs_good g1, readAs_good g2, readAs_good g3,
    readAs_good g4⟩
  have e := fhCom_read (c := c) ⟨⟨h1, h2, h3, h4, h5, h6, h7⟩, g1, g2, g3, g4⟩
  rw [e]
  have ek : FhCom.toXml
      { com := { c.com.readBack with names := {}, formula := {} }, toolId := c.toolId.readAs, toolVendor := c.toolVendor.readAs,
        toolVersion := c.toolVersion.readAs, userName := c.userName.readAs } = c.tidy.toXml := by
    rw [FhCom.toXml, FhCom.toXml, FhCom.kids, FhCom.kids, MdCom.commonNodes, MdCom.commonNodes]
    have a1 : c.com.readBack.common.isActive = c.tidy.com.common.isActive := tidy_active _ (by rw [h7]; rfl)
    have a2 : c.com.readBack.common.inner = c.tidy.com.common.inner := inner_back _ h4 c1
    show (XmlTree.mk _ _ _ (_ ++ (_ ++ (_ ++ (_ ++ (_ ++ if c.com.readBack.common.isActive then [.mk tCommon [] [] c.com.readBack.common.inner] else [])))))).text = _
    rw [a1, a2]
    rfl
  rw [ek, fhCom_read hgood]
  have t1 : c.tidy.com.readBack = { text := (c.com.text.readBack []).readBack [], common := c.com.common.tidy.readBack } := rfl
  rw [t1, str_back_twice h1, tree_tidy_back _ h4 c1]
  show FhCom.mk _ c.toolId.readAs.readAs c.toolVendor.readAs.readAs c.toolVersion.readAs.readAs c.userName.readAs.readAs = _
  rw [readAs_twice g1 c2, readAs_twice g2 c3, readAs_twice g3 c4, readAs_twice g4 c5]
  rfl

/-- A comment without alternative names and formula. -/
theorem com_copy {c : MdCom} (hg : c.Good) (hc : c.common.Clean) (hn : c.names = {}) (hf : c.formula = {}) {block : Bytes} (hb : XmlName block) :
    ({} : MdCom).fromXml ((({} : MdCom).fromXml (c.toXml block)).toXml block) = ({} : MdCom).fromXml (c.toXml block) := by
  obtain ⟨h1, h2, h3, h4, h5, h6, h7⟩ := hg
  have e := com_read (c := c) ⟨h1, h2, h3, h4, h5, h6, h7⟩ hb
  obtain ⟨text, common, names, formula⟩ := c
  dsimp only at hn hf
  subst hn hf
  have hr : (MdCom.mk text common {} {}).readBack = ⟨text.readBack [], common.readBack, {}, {}⟩ := rfl
  rw [e, hr]
  have hgood : (MdCom.mk (text.readBack []) common.tidy {} {}).Good :=
    ⟨str_back_good h1, h2, h3, tree_tidy_good _ h4, (tidy_std _).trans h5, (tidy_name _).trans h6, (tidy_desc _).trans h7⟩
  have ek : MdCom.toXml ⟨text.readBack [], common.readBack, {}, {}⟩ block = MdCom.toXml ⟨text.readBack [], common.tidy, {}, {}⟩ block := by
    rw [MdCom.toXml, MdCom.toXml, MdCom.node, MdCom.node]
    have h7' : common.desc = [] := h7
    have a1 : common.readBack.isActive = common.tidy.isActive := tidy_active _ (by rw [h7']; rfl)
    have a2 : common.readBack.inner = common.tidy.inner := inner_back _ h4 hc
    dsimp only
    rw [a1, a2]
  rw [ek, com_read hgood hb, MdCom.readBack]
  dsimp only
  rw [str_back_twice h1, tree_tidy_back _ h4 hc]
  rfl

end Mdf
