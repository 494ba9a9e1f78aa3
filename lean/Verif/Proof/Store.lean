import Verif.Model.Store
import Verif.Proof.Queue
import Verif.Proof.Vlsd
import Verif.Props.Vlsd
import Verif.Props.Read

namespace Mdf

theorem store_append (cfg : SCfg) (a b : List Sample) : ∀ st : SSt,
    cfg.store (a ++ b) st = ((cfg.store a st).1 ++ (cfg.store b (cfg.store a st).2).1, (cfg.store b (cfg.store a st).2).2) := by
  induction a with
  | nil => intro st; rfl
  | cons s a ih =>
    intro st
    simp only [List.cons_append, SCfg.store]
    rw [ih]
    simp

theorem bytes_append (cfg : SCfg) (a b : List (Bool × Rec)) : cfg.bytes (a ++ b) = cfg.bytes a ++ cfg.bytes b := by
  unfold SCfg.bytes; rw [List.flatMap_append]

theorem chunks_flatten (cfg : SCfg) (bs : List (List Sample)) : ∀ st : SSt,
    (cfg.chunks bs st).flatten = cfg.bytes (cfg.store bs.flatten st).1 := by
  induction bs with
  | nil => intro st; rfl
  | cons b bs ih =>
    intro st
    simp only [SCfg.chunks, List.flatten_cons]
    rw [ih, store_append, bytes_append]

/-! ### Counters -/

theorem setCg_self (st : SSt) (id : Nat) (g : VlsdCg) : (st.setCg id g).cg id = g := by simp [SSt.setCg]

theorem setCg_other (st : SSt) {id i : Nat} (h : i ≠ id) (g : VlsdCg) : (st.setCg id g).cg i = st.cg i := by
  simp [SSt.setCg, h]

theorem count_nof (st : SSt) (id i : Nat) : ((st.count id).cg i).nof = (st.cg i).nof + if id = i then 1 else 0 := by
  unfold SSt.count
  by_cases h : i = id
  · subst h; rw [setCg_self]; simp
  · rw [setCg_other _ h, if_neg (Ne.symm h)]; rfl

theorem setCg_write_nof (st : SSt) (id i : Nat) (v : Bytes) :
    ((st.setCg id ((st.cg id).write v).2).cg i).nof = (st.cg i).nof + if id = i then 1 else 0 := by
  by_cases h : i = id
  · subst h; rw [setCg_self]; simp [VlsdCg.write]
  · rw [setCg_other _ h, if_neg (Ne.symm h)]; rfl

theorem storeOne_nof (cfg : SCfg) (st : SSt) (s : Sample) (i : Nat) :
    ((cfg.storeOne st s).2.cg i).nof = (st.cg i).nof + (cfg.storeOne st s).1.countP (·.2.id = i) := by
  unfold SCfg.storeOne
  split
  · simp
  · split
    · rw [count_nof]; simp [List.countP_cons]
    · split
      · dsimp only
        rw [count_nof, setCg_write_nof]; simp [List.countP_cons]; omega
      · split
        · dsimp only
          rw [count_nof]; simp [List.countP_cons]
        · rw [count_nof]; simp [List.countP_cons]

theorem store_nof (cfg : SCfg) (i : Nat) (ss : List Sample) : ∀ st : SSt,
    ((cfg.store ss st).2.cg i).nof = (st.cg i).nof + (cfg.store ss st).1.countP (·.2.id = i) := by
  induction ss with
  | nil => intro st; rfl
  | cons s ss ih =>
    intro st
    simp only [SCfg.store]
    rw [ih, storeOne_nof, List.countP_append, Nat.add_assoc]

/-! ### Offsets -/

theorem setOffset_append (l : List Nat) (v : Nat) : setOffset l l.length v = l ++ [v] := by
  unfold setOffset
  have : l.length + 1 - l.length = 1 := by omega
  rw [this]
  simp

theorem setOffset_getD (l : List Nat) (i j v : Nat) :
    (setOffset l i v).getD j 0 = if j = i then v else l.getD j 0 := by
  unfold setOffset
  simp only [List.getD_eq_getElem?_getD, List.getElem?_set, List.length_append, List.length_replicate]
  by_cases hj : i = j
  · subst hj
    rw [if_pos rfl, if_pos rfl, if_pos (by omega)]
    rfl
  · rw [if_neg hj, if_neg (Ne.symm hj)]
    rw [List.getElem?_append]
    split
    · rfl
    · rename_i hlt
      rw [List.getElem?_replicate]
      split
      · rw [List.getElem?_eq_none (by omega)]; rfl
      · rw [List.getElem?_eq_none (by omega)]

/-- Running sums. -/
def sumsFrom (offset : Nat) : List Bytes → List Nat
  | [] => []
  | b :: bs => offset :: sumsFrom (offset + b.length) bs

theorem sumsFrom_append (bs cs : List Bytes) : ∀ o, sumsFrom o (bs ++ cs) = sumsFrom o bs ++ sumsFrom (o + bs.flatten.length) cs := by
  induction bs with
  | nil => intro o; simp [sumsFrom]
  | cons b bs ih =>
    intro o
    simp only [List.cons_append, sumsFrom, List.flatten_cons, List.length_append]
    rw [ih, Nat.add_assoc]

theorem setOffset_length (l : List Nat) (i v : Nat) : (setOffset l i v).length = max l.length (i + 1) := by
  unfold setOffset
  simp only [List.length_set, List.length_append, List.length_replicate]
  omega

theorem push_written (d : Dl) (offset : Nat) (b : Bytes) (_ : d.blocks.length ≤ d.offsets.length) :
    (d.push offset b).1.written = d.written ++ [offset] ∧
    (d.push offset b).1.blocks.length ≤ (d.push offset b).1.offsets.length := by
  unfold Dl.push Dl.written
  simp only [List.length_append, List.length_singleton]
  constructor
  · rw [List.range_succ, List.map_append]
    congr 1
    · apply List.map_congr_left
      intro i hi
      rw [setOffset_getD, if_neg (by have := List.mem_range.mp hi; omega)]
    · simp only [List.map_cons, List.map_nil]
      rw [setOffset_getD, if_pos rfl]
  · rw [setOffset_length]; omega

theorem pushAll_spec (bs : List Bytes) : ∀ (d : Dl) (offset : Nat), d.blocks.length ≤ d.offsets.length →
    (d.pushAll offset bs).1.written = d.written ++ sumsFrom offset bs ∧
    (d.pushAll offset bs).1.blocks = d.blocks ++ bs ∧
    (d.pushAll offset bs).2 = offset + bs.flatten.length := by
  induction bs with
  | nil => intro d offset _; simp [Dl.pushAll, sumsFrom]
  | cons b bs ih =>
    intro d offset h
    obtain ⟨h1, h2⟩ := push_written d offset b h
    obtain ⟨h3, h4, h5⟩ := ih (d.push offset b).1 (d.push offset b).2 h2
    simp only [Dl.pushAll, sumsFrom]
    refine ⟨?_, ?_, ?_⟩
    · rw [h3, h1]; simp [Dl.push]
    · rw [h4]; simp [Dl.push]
    · rw [h5]; simp [Dl.push]; omega

theorem dlSaves_spec (saves : List (List Bytes)) : ∀ offset,
    (dlSaves offset saves).flatMap Dl.written = sumsFrom offset saves.flatten ∧
    (dlSaves offset saves).map Dl.blocks = saves := by
  induction saves with
  | nil => intro offset; exact ⟨rfl, rfl⟩
  | cons bs rest ih =>
    intro offset
    obtain ⟨h1, h2, h3⟩ := pushAll_spec bs (Dl.new offset) offset (by simp [Dl.new])
    obtain ⟨h4, h5⟩ := ih (((Dl.new offset).pushAll offset bs).2)
    simp only [dlSaves, List.flatMap_cons, List.map_cons, List.flatten_cons]
    rw [h4, h5, h1, h2, h3, sumsFrom_append]
    exact ⟨by simp [Dl.written, Dl.new], by simp [Dl.new]⟩

theorem sumsFrom_getElem (bs : List Bytes) : ∀ (o i : Nat), i < bs.length →
    (sumsFrom o bs)[i]? = some (o + (bs.take i).flatten.length) := by
  induction bs with
  | nil => intro o i hi; cases hi
  | cons b bs ih =>
    intro o i hi
    cases i with
    | zero => simp [sumsFrom]
    | succ i =>
      simp only [sumsFrom, List.getElem?_cons_succ, List.take_succ_cons, List.flatten_cons, List.length_append]
      rw [ih _ _ (by simpa using hi), Nat.add_assoc]

/-! ### What is stored is a sequence of valid records -/

/-- The reader's view of the data group after the samples have been stored: the counters are those in the file. -/
def SCfg.reader (cfg : SCfg) (st : SSt) (subs : Nat → Bool) (cont : List Event → Bool) : RCfg :=
  { idSize := cfg.idSize, groups := cfg.groups.map fun g => { g with nof := (st.cg g.id).nof }, subs := subs, cont := cont }

/-- A sample that suits its group. -/
structure SCfg.SampleOk (cfg : SCfg) (s : Sample) : Prop where
  group : ∃ g ∈ cfg.groups, g.id = s.id ∧ g.vlsd = false ∧ (cfg.render s).length = g.size
  vlsd : ∀ v, s.vlsd = some v → v.length + 4 < 2 ^ 32

/-- A data group as made by the writer: different record ids. -/
def SCfg.Distinct (cfg : SCfg) : Prop := (cfg.groups.map (·.id)).Nodup

theorem find?_of_nodup {l : List RGroup} (hd : (l.map (·.id)).Nodup) {g : RGroup} (h : g ∈ l) :
    l.find? (·.id = g.id) = some g := by
  induction l with
  | nil => cases h
  | cons a l ih =>
    rw [List.map_cons, List.nodup_cons] at hd
    rcases List.mem_cons.mp h with rfl | h
    · rw [List.find?_cons_of_pos (by simp)]
    · rw [List.find?_cons_of_neg, ih hd.2 h]
      intro he
      exact hd.1 (by rw [of_decide_eq_true he]; exact List.mem_map_of_mem h)

theorem SCfg.find_of_mem {cfg : SCfg} (hd : cfg.Distinct) {g : RGroup} (h : g ∈ cfg.groups) : cfg.find g.id = some g := by
  unfold SCfg.find
  split
  · rename_i h1
    match hg : cfg.groups, h1 with
    | [a], _ => rw [hg] at h; simp at h; simp [h]
  · exact find?_of_nodup hd h

theorem SCfg.find_mem {cfg : SCfg} {id : Nat} {g : RGroup} (h : cfg.find id = some g) : g ∈ cfg.groups := by
  unfold SCfg.find at h
  split at h
  · exact List.mem_of_mem_head? h
  · exact List.mem_of_find?_eq_some h

theorem patchIndex_length (data : Bytes) (i : Nat) : (patchIndex data i).length = data.length := by
  unfold patchIndex
  split
  · rw [List.length_append, List.length_take, leBytes_length]; omega
  · rfl

/-- The records of a sample fit their groups. -/
theorem storeOne_ok {cfg : SCfg} (hd : cfg.Distinct) (st : SSt) {s : Sample} (hs : cfg.SampleOk s) :
    ∀ r ∈ (cfg.storeOne st s).1, ∃ g ∈ cfg.groups, g.id = r.2.id ∧ g.vlsd = r.1 ∧
      (if g.vlsd then r.2.data.length + 4 < 2 ^ 32 else r.2.data.length = g.size) := by
  obtain ⟨g, hg, hid, hv, hlen⟩ := hs.group
  have hf : cfg.find s.id = some g := by rw [← hid]; exact SCfg.find_of_mem hd hg
  unfold SCfg.storeOne
  rw [hf]
  dsimp only
  split
  · intro r hr
    simp only [List.mem_singleton] at hr
    subst hr
    exact ⟨g, hg, rfl, hv, by simp [hv, hlen]⟩
  · rename_i v hvl
    split
    · rename_i vg hvg
      unfold SCfg.vlsdGroup at hvg
      obtain ⟨h1, h2⟩ := Option.filter_eq_some_iff.mp hvg
      intro r hr
      simp only [List.mem_cons, List.not_mem_nil, or_false] at hr
      rcases hr with rfl | rfl
      · exact ⟨vg, SCfg.find_mem h1, rfl, h2, by rw [if_pos h2]; exact hs.vlsd v hvl⟩
      · exact ⟨g, hg, rfl, hv, by rw [if_neg (by simp [hv])]; rw [patchIndex_length]; exact hlen⟩
    · split
      · intro r hr
        simp only [List.mem_singleton] at hr
        subst hr
        exact ⟨g, hg, rfl, hv, by rw [if_neg (by simp [hv])]; rw [patchIndex_length]; exact hlen⟩
      · intro r hr
        simp only [List.mem_singleton] at hr
        subst hr
        exact ⟨g, hg, rfl, hv, by simp [hv, hlen]⟩

theorem store_ok {cfg : SCfg} (hd : cfg.Distinct) (ss : List Sample) : ∀ (st : SSt), (∀ s ∈ ss, cfg.SampleOk s) →
    ∀ r ∈ (cfg.store ss st).1, ∃ g ∈ cfg.groups, g.id = r.2.id ∧ g.vlsd = r.1 ∧
      (if g.vlsd then r.2.data.length + 4 < 2 ^ 32 else r.2.data.length = g.size) := by
  induction ss with
  | nil => intro st _ r hr; cases hr
  | cons s ss ih =>
    intro st hs r hr
    rcases List.mem_append.mp hr with hr | hr
    · exact storeOne_ok hd st (hs s List.mem_cons_self) r hr
    · exact ih _ (fun s h => hs s (List.mem_cons_of_mem _ h)) r hr

theorem reader_group {cfg : SCfg} (hd : cfg.Distinct) (st : SSt) (subs : Nat → Bool) (cont : List Event → Bool) {g : RGroup}
    (h : g ∈ cfg.groups) : (cfg.reader st subs cont).group g.id = some { g with nof := (st.cg g.id).nof } := by
  have : { g with nof := (st.cg g.id).nof } ∈ (cfg.reader st subs cont).groups := List.mem_map_of_mem h
  unfold RCfg.group
  refine find?_of_nodup ?_ this
  have : (cfg.reader st subs cont).groups.map (·.id) = cfg.groups.map (·.id) := by
    simp [SCfg.reader, Function.comp_def]
  rw [this]; exact hd

theorem encode_store {cfg : SCfg} (hd : cfg.Distinct) (st : SSt) (subs : Nat → Bool) (cont : List Event → Bool)
    (recs : List (Bool × Rec)) (h : ∀ r ∈ recs, ∃ g ∈ cfg.groups, g.id = r.2.id ∧ g.vlsd = r.1 ∧
      (if g.vlsd then r.2.data.length + 4 < 2 ^ 32 else r.2.data.length = g.size)) :
    (cfg.reader st subs cont).encode (recs.map (·.2)) = cfg.bytes recs ∧
    ∀ r ∈ recs.map (·.2), (cfg.reader st subs cont).ValidRec r := by
  constructor
  · unfold RCfg.encode SCfg.bytes
    rw [List.flatMap_map]
    induction recs with
    | nil => rfl
    | cons r recs ih =>
      rw [List.flatMap_cons, List.flatMap_cons, ih (fun r hr => h r (List.mem_cons_of_mem _ hr))]
      obtain ⟨g, hg, h1, h2, h3⟩ := h r List.mem_cons_self
      rw [← h1, reader_group hd st subs cont hg]
      simp [h2, SCfg.reader]
  · intro r hr
    obtain ⟨r', hr', rfl⟩ := List.mem_map.mp hr
    obtain ⟨g, hg, h1, h2, h3⟩ := h r' hr'
    refine ⟨_, by rw [← h1]; exact reader_group hd st subs cont hg, ?_⟩
    split at h3
    · rename_i hv
      rw [if_pos (by exact hv)]; omega
    · rename_i hv
      rw [if_neg (by exact hv)]; exact h3

/-! ### The index in the record -/

/-- The bytes of signal data of the values. -/
def sdSize (vs : List Bytes) : Nat := (vs.map (4 + ·.length)).sum

theorem valuesOf_append (sel : Nat) (a b : List Rec) : valuesOf sel (a ++ b) = valuesOf sel a ++ valuesOf sel b := by
  unfold valuesOf; rw [List.filter_append, List.map_append]

theorem sdSize_append (a b : List Bytes) : sdSize (a ++ b) = sdSize a + sdSize b := by
  unfold sdSize; rw [List.map_append, List.sum_append]

theorem callsOf_append (a b : List Bytes) : ∀ o, callsOf o (a ++ b) = callsOf o a ++ callsOf (o + sdSize a) b := by
  induction a with
  | nil => intro o; rfl
  | cons v a ih =>
    intro o
    simp only [List.cons_append, callsOf]
    rw [ih]
    have : sdSize (v :: a) = 4 + v.length + sdSize a := by simp [sdSize]
    rw [this]
    simp only [Nat.add_assoc]

theorem count_index (st : SSt) (id i : Nat) : ((st.count id).cg i).index = (st.cg i).index := by
  unfold SSt.count
  by_cases h : i = id
  · subst h; rw [setCg_self]
  · rw [setCg_other _ h]

theorem valuesOf_cons (sel : Nat) (r : Rec) (rs : List Rec) :
    valuesOf sel (r :: rs) = (if r.id = sel then [r.data] else []) ++ valuesOf sel rs := by
  unfold valuesOf
  by_cases h : r.id = sel <;> simp [h]

theorem eq_of_id {cfg : SCfg} (hd : cfg.Distinct) {g g' : RGroup} (h : g ∈ cfg.groups) (h' : g' ∈ cfg.groups) (he : g.id = g'.id) :
    g = g' := by
  have h1 := find?_of_nodup hd h
  rw [he, find?_of_nodup hd h'] at h1
  simpa using h1.symm

theorem storeOne_index {cfg : SCfg} (hd : cfg.Distinct) (st : SSt) {s : Sample} (hs : cfg.SampleOk s) {vg : RGroup}
    (hm : vg ∈ cfg.groups) (hv : vg.vlsd = true)
    (h64 : (st.cg vg.id).index + sdSize (valuesOf vg.id ((cfg.storeOne st s).1.map (·.2))) < 2 ^ 64) :
    ((cfg.storeOne st s).2.cg vg.id).index =
      (st.cg vg.id).index + sdSize (valuesOf vg.id ((cfg.storeOne st s).1.map (·.2))) := by
  obtain ⟨g, hg, hid, hv0, hlen⟩ := hs.group
  have hf : cfg.find s.id = some g := by rw [← hid]; exact SCfg.find_of_mem hd hg
  have hne : g.id ≠ vg.id := by
    intro he
    rw [eq_of_id hd hg hm he, hv] at hv0
    cases hv0
  revert h64
  unfold SCfg.storeOne
  rw [hf]
  dsimp only
  split
  · intro h64
    rw [count_index]
    simp [hne, valuesOf, sdSize]
  · split
    · rename_i v hvl wg hwg
      intro h64
      dsimp only at h64 ⊢
      rw [count_index]
      by_cases he : wg.id = vg.id
      · rw [he, setCg_self]
        simp [hne, he, valuesOf, sdSize] at h64
        simp [hne, valuesOf, sdSize, VlsdCg.write]
        omega
      · rw [setCg_other _ (Ne.symm he)]
        simp [hne, he, valuesOf, sdSize]
    · split
      · intro h64
        dsimp only at h64 ⊢
        rw [count_index]
        simp [hne, valuesOf, sdSize]
      · intro h64
        rw [count_index]
        simp [hne, valuesOf, sdSize]

theorem store_index {cfg : SCfg} (hd : cfg.Distinct) {vg : RGroup} (hm : vg ∈ cfg.groups) (hv : vg.vlsd = true)
    (ss : List Sample) : ∀ (st : SSt), (∀ s ∈ ss, cfg.SampleOk s) →
    (st.cg vg.id).index + sdSize (valuesOf vg.id ((cfg.store ss st).1.map (·.2))) < 2 ^ 64 →
    ((cfg.store ss st).2.cg vg.id).index = (st.cg vg.id).index + sdSize (valuesOf vg.id ((cfg.store ss st).1.map (·.2))) := by
  induction ss with
  | nil => intro st _ _; rfl
  | cons s ss ih =>
    intro st hs h64
    simp only [SCfg.store] at h64 ⊢
    rw [List.map_append, valuesOf_append, sdSize_append] at h64 ⊢
    have h1 := storeOne_index hd st (hs s List.mem_cons_self) hm hv (by omega)
    rw [ih _ (fun s h => hs s (List.mem_cons_of_mem _ h)) (by omega)]
    omega

end Mdf
