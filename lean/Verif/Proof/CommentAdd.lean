import Verif.Proof.CommentParts

/-! Structured comments: what the calls that add to a comment keep. -/

namespace Mdf

theorem allTreesGood_iff {ts : List MdTree} : AllTreesGood ts ↔ ∀ t ∈ ts, t.Good := by
  induction ts with
  | nil => simp [AllTreesGood]
  | cons t ts ih => simp [AllTreesGood, ih]

theorem duplicate_false {s : MdStd} {n d : Bytes} {P : List MdProp} {T L : List MdTree} {E : List MdEnum} {x : Bytes}
    (h : ¬ (MdTree.mk s n d P T L E).duplicate x = true) :
    x ≠ [] ∧ (∀ p ∈ P, p.name ≠ x) ∧ (∀ t ∈ T, t.name ≠ x) ∧ (∀ t ∈ L, t.name ≠ x) ∧ ∀ e ∈ E, e.prop.name ≠ x := by
  simp only [MdTree.duplicate, MdTree.props, MdTree.trees, MdTree.lists, MdTree.enums, Bool.or_eq_true, List.any_eq_true, beq_iff_eq,
    List.isEmpty_iff, not_or, not_exists, not_and] at h
  exact ⟨h.1.1.1.1, h.1.1.1.2, h.1.1.2, h.1.2, h.2⟩

theorem addProp_good {t : MdTree} {x : MdProp} (h : t.Good) (hx : x.Good) : (t.addProp x).Good := by
  obtain ⟨s, n, d, P, T, L, E⟩ := t
  rw [MdTree.addProp]
  split
  · exact h
  · rename_i hd
    obtain ⟨d1, d2, d3, d4, d5⟩ := duplicate_false hd
    rw [MdTree.Good] at h ⊢
    obtain ⟨h1, h2, h3, h4, hp, hps, ht, hts, hl, hls, he, hes, hld, hed⟩ := h
    refine ⟨h1, h2, h3, h4, ?_, mapInsert_sorted hps, ht, hts, hl, hls, he, hes, ?_, ?_⟩
    · intro p hm
      rcases mem_mapInsert hm with rfl | hm
      · exact hx
      · exact hp p hm
    · intro l hm
      obtain ⟨a, b, c⟩ := hld l hm
      refine ⟨a, ?_, c⟩
      intro p hm'
      rcases mem_mapInsert hm' with rfl | hm'
      · exact fun e => d4 l hm e.symm
      · exact b p hm'
    · intro l hm
      obtain ⟨b, c⟩ := hed l hm
      refine ⟨?_, c⟩
      intro p hm'
      rcases mem_mapInsert hm' with rfl | hm'
      · exact fun e => d5 l hm e.symm
      · exact b p hm'

theorem addProp_name (t : MdTree) (x : MdProp) : (t.addProp x).name = t.name := by
  obtain ⟨s, n, d, P, T, L, E⟩ := t
  rw [MdTree.addProp]
  split <;> rfl

theorem addProps_good {xs : List MdProp} : ∀ {t : MdTree}, t.Good → (∀ x ∈ xs, x.Good) → (t.addProps xs).Good ∧ (t.addProps xs).name = t.name := by
  induction xs with
  | nil => intro t h _; exact ⟨h, rfl⟩
  | cons x xs ih =>
    intro t h hx
    have := ih (addProp_good h (hx x (by simp))) (fun y hy => hx y (by simp [hy]))
    rw [addProp_name] at this
    exact this

theorem mergeTrees_good {n : Bytes} {xs : List MdProp} (hx : ∀ x ∈ xs, x.Good) : ∀ {ts : List MdTree}, (∀ t ∈ ts, t.Good) →
    (∀ t ∈ mergeTrees n xs ts, t.Good) ∧ (mergeTrees n xs ts).map MdTree.name = ts.map MdTree.name
  | [], _ => by simp [mergeTrees]
  | t :: ts, h => by
    have hb := addProps_good (h t (by simp)) hx
    have ih := mergeTrees_good hx (fun u hu => h u (List.mem_cons_of_mem _ hu)) (ts := ts) (n := n)
    rw [mergeTrees]
    split
    · refine ⟨?_, ?_⟩
      · intro u hu
        rcases List.mem_cons.mp hu with rfl | hu
        · exact hb.1
        · exact h u (by simp [hu])
      · rw [List.map_cons, hb.2]
        rfl
    · refine ⟨?_, ?_⟩
      · intro u hu
        rcases List.mem_cons.mp hu with rfl | hu
        · exact h _ (by simp)
        · exact ih.1 u hu
      · rw [List.map_cons, ih.2]
        rfl

theorem MdTree.Good.props {t : MdTree} (h : t.Good) : ∀ p ∈ t.props, p.Good := by
  obtain ⟨s, n, d, P, T, L, E⟩ := t
  rw [MdTree.Good] at h
  exact h.2.2.2.2.1

theorem mem_name_of_map {ts us : List MdTree} (h : ts.map MdTree.name = us.map MdTree.name) {t : MdTree} (ht : t ∈ ts) :
    ∃ u ∈ us, u.name = t.name := by
  have : t.name ∈ us.map MdTree.name := by rw [← h]; exact List.mem_map_of_mem ht
  obtain ⟨u, hu, he⟩ := List.mem_map.mp this
  exact ⟨u, hu, he⟩

theorem addTree_good {t x : MdTree} (h : t.Good) (hx : x.Good) (hl : ∀ l ∈ t.lists, l.name ≠ x.name) (he : ∀ e ∈ t.enums, e.prop.name ≠ x.name) :
    (t.addTree x).Good := by
  obtain ⟨s, n, d, P, T, L, E⟩ := t
  rw [MdTree.addTree]
  rw [MdTree.Good] at h
  obtain ⟨h1, h2, h3, h4, hp, hps, ht, hts, hgl, hls, hge, hes, hld, hed⟩ := h
  split
  · obtain ⟨m1, m2⟩ := mergeTrees_good hx.props (allTreesGood_iff.mp ht) (n := x.name)
    rw [MdTree.Good]
    refine ⟨h1, h2, h3, h4, hp, hps, allTreesGood_iff.mpr m1, ?_, hgl, hls, hge, hes, ?_, ?_⟩
    · rw [sortedBy_map, m2, ← sortedBy_map]
      exact hts
    · intro l hm
      obtain ⟨a, b, c⟩ := hld l hm
      refine ⟨a, b, ?_⟩
      intro t' hm'
      obtain ⟨u, hu, hn⟩ := mem_name_of_map m2 hm'
      rw [← hn]
      exact c u hu
    · intro l hm
      obtain ⟨a, b, c⟩ := hed l hm
      refine ⟨a, ?_, c⟩
      intro t' hm'
      obtain ⟨u, hu, hn⟩ := mem_name_of_map m2 hm'
      rw [← hn]
      exact b u hu
  · rw [MdTree.Good]
    refine ⟨h1, h2, h3, h4, hp, hps, ?_, mapInsert_sorted hts, hgl, hls, hge, hes, ?_, ?_⟩
    · rw [allTreesGood_iff] at ht ⊢
      intro u hm
      rcases mem_mapInsert hm with rfl | hm
      · exact hx
      · exact ht u hm
    · intro l hm
      obtain ⟨a, b, c⟩ := hld l hm
      refine ⟨a, b, ?_⟩
      intro u hm'
      rcases mem_mapInsert hm' with rfl | hm'
      · exact fun e => hl l hm e.symm
      · exact c u hm'
    · intro l hm
      obtain ⟨a, b, c⟩ := hed l hm
      refine ⟨a, ?_, c⟩
      intro u hm'
      rcases mem_mapInsert hm' with rfl | hm'
      · exact fun e => he l hm e.symm
      · exact b u hm'

theorem addList_good {t x : MdTree} (h : t.Good) (hx : x.Good) : (t.addList x).Good := by
  obtain ⟨s, n, d, P, T, L, E⟩ := t
  rw [MdTree.addList]
  split
  · exact h
  · rename_i hd
    obtain ⟨d1, d2, d3, d4, d5⟩ := duplicate_false hd
    rw [MdTree.Good] at h ⊢
    obtain ⟨h1, h2, h3, h4, hp, hps, ht, hts, hl, hls, he, hes, hld, hed⟩ := h
    refine ⟨h1, h2, h3, h4, hp, hps, ht, hts, ?_, mapInsert_sorted hls, he, hes, ?_, ?_⟩
    · rw [allTreesGood_iff] at hl ⊢
      intro p hm
      rcases mem_mapInsert hm with rfl | hm
      · exact hx
      · exact hl p hm
    · intro l hm
      rcases mem_mapInsert hm with rfl | hm
      · exact ⟨d1, d2, d3⟩
      · exact hld l hm
    · intro l hm
      obtain ⟨a, b, c⟩ := hed l hm
      refine ⟨a, b, ?_⟩
      intro p hm'
      rcases mem_mapInsert hm' with rfl | hm'
      · exact fun e => d5 l hm e.symm
      · exact c p hm'

theorem addEnum_good {t : MdTree} {x : MdEnum} (h : t.Good) (hx : x.Good) : (t.addEnum x).Good := by
  obtain ⟨s, n, d, P, T, L, E⟩ := t
  rw [MdTree.addEnum]
  split
  · exact h
  · rename_i hd
    obtain ⟨d1, d2, d3, d4, d5⟩ := duplicate_false hd
    rw [MdTree.Good] at h ⊢
    obtain ⟨h1, h2, h3, h4, hp, hps, ht, hts, hl, hls, he, hes, hld, hed⟩ := h
    refine ⟨h1, h2, h3, h4, hp, hps, ht, hts, hl, hls, ?_, mapInsert_sorted hes, hld, ?_⟩
    · intro p hm
      rcases mem_mapInsert hm with rfl | hm
      · exact hx
      · exact he p hm
    · intro l hm
      rcases mem_mapInsert hm with rfl | hm
      · exact ⟨d2, d3, d4⟩
      · exact hed l hm

/-- The names of the lists and enumerations are from `N`. -/
def ListNames (N : List Bytes) (t : MdTree) : Prop := (∀ l ∈ t.lists, l.name ∈ N) ∧ ∀ e ∈ t.enums, e.prop.name ∈ N

/-- What an added entry must keep: the head. -/
theorem apply_head (t : MdTree) (o : MdOp) : (o.apply t).std = t.std ∧ (o.apply t).name = t.name ∧ (o.apply t).desc = t.desc := by
  obtain ⟨s, n, d, P, T, L, E⟩ := t
  cases o with
  | prop p => rw [MdOp.apply, MdTree.addProp]; split <;> exact ⟨rfl, rfl, rfl⟩
  | tree p => rw [MdOp.apply, MdTree.addTree]; split <;> exact ⟨rfl, rfl, rfl⟩
  | list p => rw [MdOp.apply, MdTree.addList]; split <;> exact ⟨rfl, rfl, rfl⟩
  | enum p => rw [MdOp.apply, MdTree.addEnum]; split <;> exact ⟨rfl, rfl, rfl⟩

theorem apply_listNames {N : List Bytes} {t : MdTree} {o : MdOp} (h : ListNames N t) (ho : ∀ n, o.listName = some n → n ∈ N) :
    ListNames N (o.apply t) := by
  obtain ⟨s, n, d, P, T, L, E⟩ := t
  obtain ⟨ha, hb⟩ := h
  simp only [MdTree.lists, MdTree.enums] at ha hb
  cases o with
  | prop p => rw [MdOp.apply, MdTree.addProp]; split <;> exact ⟨ha, hb⟩
  | tree p => rw [MdOp.apply, MdTree.addTree]; split <;> exact ⟨ha, hb⟩
  | list p =>
    rw [MdOp.apply, MdTree.addList]
    split
    · exact ⟨ha, hb⟩
    · refine ⟨?_, hb⟩
      intro l hl
      rcases mem_mapInsert hl with rfl | hl
      · exact ho _ rfl
      · exact ha l hl
  | enum p =>
    rw [MdOp.apply, MdTree.addEnum]
    split
    · exact ⟨ha, hb⟩
    · refine ⟨ha, ?_⟩
      intro l hl
      rcases mem_mapInsert hl with rfl | hl
      · exact ho _ rfl
      · exact hb l hl

theorem run_good {ops : List MdOp} (hg : ∀ o ∈ ops, o.Good) {N : List Bytes} (hN : ∀ o ∈ ops, ∀ n, o.listName = some n → n ∈ N)
    (hT : ∀ o ∈ ops, ∀ n, o.treeName = some n → n ∉ N) :
    ∀ {t : MdTree}, t.Good → ListNames N t → (ops.foldl MdOp.apply t).Good ∧ (ops.foldl MdOp.apply t).std = t.std ∧
      (ops.foldl MdOp.apply t).name = t.name ∧ (ops.foldl MdOp.apply t).desc = t.desc := by
  induction ops with
  | nil => intro t h _; exact ⟨h, rfl, rfl, rfl⟩
  | cons o ops ih =>
    intro t h hl
    have ho := hg o (by simp)
    have h1 : (o.apply t).Good := by
      cases o with
      | prop p => exact addProp_good h ho
      | tree x =>
        have hx := hT (.tree x) (by simp) x.name rfl
        exact addTree_good h ho (fun l hm e => hx (e ▸ hl.1 l hm)) (fun l hm e => hx (e ▸ hl.2 l hm))
      | list x => exact addList_good h ho
      | enum x => exact addEnum_good h ho
    have h2 := apply_listNames hl (hN o (by simp))
    obtain ⟨a, b, c⟩ := apply_head t o
    have := ih (fun p hp => hg p (by simp [hp])) (fun p hp => hN p (by simp [hp])) (fun p hp => hT p (by simp [hp])) h1 h2
    rw [List.foldl_cons]
    exact ⟨this.1, this.2.1.trans a, this.2.2.1.trans b, this.2.2.2.trans c⟩

end Mdf
