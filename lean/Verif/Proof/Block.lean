import Verif.Spec.Block
import Verif.Proof.Text
import Verif.Proof.Finalize

/-! Lemmas about writing blocks. -/

namespace Mdf

theorem putAt_length {data : Bytes} {pos : Nat} {bs : Bytes} (h : pos ≤ data.length) :
    (putAt data pos bs).length = max data.length (pos + bs.length) := by
  unfold putAt
  split
  next he => subst he; simp; omega
  · simp; omega

theorem putAt_nil (data : Bytes) (pos : Nat) : putAt data pos [] = data := by simp [putAt]

theorem putAt_get {data : Bytes} {pos : Nat} {bs : Bytes} (h : pos ≤ data.length) (q : Nat) :
    (putAt data pos bs)[q]? =
      if q < pos then data[q]? else if q < pos + bs.length then bs[q - pos]? else data[q]? := by
  by_cases he : bs = []
  · subst he
    rw [putAt_nil]
    split
    · rfl
    · rw [if_neg (by simp; omega)]
  unfold putAt
  rw [if_neg he]
  have h0 : pos - data.length = 0 := by omega
  rw [h0, List.replicate_zero, List.append_nil]
  have hl : (data.take pos).length = pos := by simp; omega
  by_cases h1 : q < pos
  · rw [if_pos h1, List.append_assoc, List.getElem?_append_left (by omega), List.getElem?_take_of_lt h1]
  · rw [if_neg h1]
    by_cases h2 : q < pos + bs.length
    · rw [if_pos h2, List.getElem?_append_left (by simp; omega), List.getElem?_append_right (by omega), hl]
    · rw [if_neg h2, List.getElem?_append_right (by simp; omega), List.getElem?_drop]
      congr 1
      simp; omega

/-- The two files hold the same bytes from `lo` to `hi`. -/
def Agree (d d' : Bytes) (lo hi : Nat) : Prop := ∀ q, lo ≤ q → q < hi → d'[q]? = d[q]?

theorem Agree.refl (d : Bytes) (lo hi : Nat) : Agree d d lo hi := fun _ _ _ => rfl

theorem Agree.trans {d d' d'' : Bytes} {lo hi : Nat} (h : Agree d d' lo hi) (h' : Agree d' d'' lo hi) :
    Agree d d'' lo hi := fun q a b => (h' q a b).trans (h q a b)

theorem agree_putAt {data : Bytes} {pos : Nat} {bs : Bytes} {lo hi : Nat} (h : pos ≤ data.length)
    (hd : hi ≤ pos ∨ pos + bs.length ≤ lo) : Agree data (putAt data pos bs) lo hi := by
  intro q h1 h2
  rw [putAt_get h]
  rcases hd with hd | hd
  · rw [if_pos (by omega)]
  · rw [if_neg (by omega), if_neg (by omega)]

theorem agree_append (data x : Bytes) {lo hi : Nat} (h : hi ≤ data.length) : Agree data (data ++ x) lo hi := by
  intro q _ h2
  rw [List.getElem?_append_left (by omega)]

theorem HasAt.agree {d d' : Bytes} {p : Nat} {bs : Bytes} (h : HasAt d p bs) (ha : Agree d d' p (p + bs.length)) :
    HasAt d' p bs := by
  intro i hi
  rw [ha (p + i) (by omega) (by omega)]
  exact h i hi

theorem hasAt_putAt {data : Bytes} {p o : Nat} {bs xs : Bytes} (h : HasAt data p bs) (hin : p + bs.length ≤ data.length)
    (ho : o + xs.length ≤ bs.length) : HasAt (putAt data (p + o) xs) p (putAt bs o xs) := by
  intro i hi
  rw [putAt_length (by omega)] at hi
  rw [putAt_get (by omega), putAt_get (by omega)]
  have hi' : i < bs.length := by omega
  by_cases h1 : i < o
  · rw [if_pos (by omega), if_pos h1]; exact h i hi'
  · rw [if_neg (by omega), if_neg h1]
    by_cases h2 : i < o + xs.length
    · rw [if_pos (by omega), if_pos h2]; congr 1; omega
    · rw [if_neg (by omega), if_neg h2]; exact h i hi'

theorem linkBytes_length (ls : List Nat) : (linkBytes ls).length = 8 * ls.length := by
  induction ls with
  | nil => rfl
  | cons l ls ih => simp [linkBytes, ih]; omega

theorem headerBytes_length (ty : Bytes) (len : Nat) (ls : List Nat) :
    (headerBytes ty len ls).length = 24 + 8 * ls.length := by
  simp [headerBytes, linkBytes_length, writeStr_length]; omega

theorem putAt_append_left {a b x : Bytes} {o : Nat} (h : o + x.length ≤ a.length) :
    putAt (a ++ b) o x = putAt a o x ++ b := by
  by_cases he : x = []
  · subst he; rw [putAt_nil, putAt_nil]
  unfold putAt
  rw [if_neg he, if_neg he]
  have h1 : o - (a ++ b).length = 0 := by simp; omega
  have h2 : o - a.length = 0 := by omega
  rw [h1, h2, List.take_append_of_le_length (by omega), List.drop_append_of_le_length (by omega)]
  simp

theorem putAt_append_right {a b x : Bytes} {o : Nat} :
    putAt (a ++ b) (a.length + o) x = a ++ putAt b o x := by
  by_cases he : x = []
  · subst he; rw [putAt_nil, putAt_nil]
  unfold putAt
  rw [if_neg he, if_neg he]
  have h1 : a.length + o - (a ++ b).length = o - b.length := by simp; omega
  rw [h1]
  have h2 : (a ++ b).take (a.length + o) = a ++ b.take o := List.take_length_add_append o
  have h3 : (a ++ b).drop (a.length + o + x.length) = b.drop (o + x.length) := by
    rw [Nat.add_assoc, List.drop_length_add_append]
  rw [h2, h3]
  simp

theorem putAt_whole {a x : Bytes} (h : x.length = a.length) : putAt a 0 x = x := by
  by_cases he : x = []
  · subst he
    rw [putAt_nil]
    exact List.length_eq_zero_iff.1 (by simpa using h.symm)
  · unfold putAt
    rw [if_neg he]
    simp [h]

theorem putAt_linkBytes (ls : List Nat) (i v : Nat) (hi : i < ls.length) :
    linkBytes (ls.set i v) = putAt (linkBytes ls) (8 * i) (leBytes 8 v) := by
  induction ls generalizing i with
  | nil => simp at hi
  | cons l ls ih =>
    cases i with
    | zero =>
      simp only [List.set_cons_zero, linkBytes, Nat.mul_zero]
      rw [putAt_append_left (by simp), putAt_whole (by simp)]
    | succ i =>
      simp only [List.set_cons_succ, linkBytes]
      rw [ih i (by simpa using hi)]
      have : 8 * (i + 1) = (leBytes 8 l).length + 8 * i := by simp; omega
      rw [this, putAt_append_right]

theorem putAt_headerBytes_link (ty : Bytes) (len : Nat) (ls : List Nat) (i v : Nat) (hi : i < ls.length) :
    headerBytes ty len (ls.set i v) = putAt (headerBytes ty len ls) (24 + i * 8) (leBytes 8 v) := by
  unfold headerBytes
  rw [putAt_linkBytes ls i v hi, List.length_set]
  have : 24 + i * 8 = (writeStr ty 4 ++ List.replicate 4 0#8 ++ leBytes 8 len ++ leBytes 8 ls.length).length + 8 * i := by
    simp [writeStr_length]; omega
  rw [this, putAt_append_right]

theorem putAt_headerBytes_len (ty : Bytes) (len len' : Nat) (ls : List Nat) :
    headerBytes ty len' ls = putAt (headerBytes ty len ls) 8 (leBytes 8 len') := by
  unfold headerBytes
  rw [putAt_append_left (by simp [writeStr_length]), putAt_append_left (by simp [writeStr_length])]
  have h8 : (writeStr ty 4 ++ List.replicate 4 0#8).length + 0 = 8 := by simp [writeStr_length]
  have := putAt_append_right (a := writeStr ty 4 ++ List.replicate 4 0#8) (b := leBytes 8 len) (x := leBytes 8 len') (o := 0)
  rw [h8, putAt_whole (by simp)] at this
  rw [this]

/-! ### The invariant -/

section
variable {I : Nat → Info}

theorem set_st_same (S : FileSt) (id : Nat) (b : BObj) : (S.set id b).st id = b := by simp [FileSt.set]

theorem set_st_other (S : FileSt) {id j : Nat} (b : BObj) (h : j ≠ id) : (S.set id b).st j = S.st j := by
  simp [FileSt.set, h]

theorem Mirror.agree {S S' : FileSt} {id : Nat} (h : Mirror I S id) (hst : S'.st id = S.st id)
    (ha : Agree S.data S'.data (S.pos id) (S.pos id + S.size id)) (hl : S.data.length ≤ S'.data.length) :
    Mirror I S' id := by
  obtain ⟨h1, h2, h3, h4, h5⟩ := h
  have hp : S'.pos id = S.pos id := by unfold FileSt.pos; rw [hst]
  have hz : S'.size id = S.size id := by unfold FileSt.size; rw [hst]
  have hz' : S.size id = 24 + 8 * (S.st id).links.length + (S.st id).body.length := rfl
  refine ⟨by rw [hp]; exact h1, by rw [hst, hz]; exact h2, by rw [hp, hz]; omega, ?_, ?_⟩
  · rw [hp, hst]
    apply h4.agree
    intro q hq1 hq2
    rw [headerBytes_length] at hq2
    exact ha q hq1 (by omega)
  · rw [hp, hst]
    intro i hi hr
    rw [ha _ (by omega) (by omega)]
    exact h5 i hi hr

theorem BExact.agree {S S' : FileSt} {id : Nat} (h : BExact S id) (hst : S'.st id = S.st id)
    (ha : Agree S.data S'.data (S.pos id) (S.pos id + S.size id)) : BExact S' id := by
  unfold BExact
  have hp : S'.pos id = S.pos id := by unfold FileSt.pos; rw [hst]
  rw [hp, hst]
  apply HasAt.agree h
  intro q hq1 hq2
  have hz' : S.size id = 24 + 8 * (S.st id).links.length + (S.st id).body.length := rfl
  exact ha q (by omega) (by omega)

theorem Mirror.of {S : FileSt} {id : Nat} {b : BObj} (hb : S.st id = b) (h1 : b.pos % 8 = 0)
    (h2 : b.len = 24 + 8 * b.links.length + b.body.length)
    (h3 : b.pos + (24 + 8 * b.links.length + b.body.length) ≤ S.data.length)
    (h4 : HasAt S.data b.pos (headerBytes (I id).ty b.len b.links))
    (h5 : ∀ i, i < b.body.length → ¬ (I id).rewrites i →
      S.data[b.pos + (24 + 8 * b.links.length) + i]? = b.body[i]?) : Mirror I S id := by
  subst hb
  exact ⟨h1, h2, h3, h4, h5⟩

theorem BExact.of {S : FileSt} {id : Nat} {b : BObj} (hb : S.st id = b)
    (h : HasAt S.data (b.pos + (24 + 8 * b.links.length)) b.body) : BExact S id := by
  subst hb
  exact h

/-- What a change that touches block `id` only leaves as it was. -/
structure BFrame (S S' : FileSt) (id : Nat) : Prop where
  st : ∀ j, j ≠ id → S'.st j = S.st j
  agree : ∀ j, j ≠ id → 0 < S.pos j → Agree S.data S'.data (S.pos j) (S.pos j + S.size j)
  grow : S.data.length ≤ S'.data.length

theorem BFrame.mirror {S S' : FileSt} {id j : Nat} (hf : BFrame S S' id) (hj : j ≠ id) (hp : 0 < S.pos j)
    (h : Mirror I S j) : Mirror I S' j := h.agree (hf.st j hj) (hf.agree j hj hp) hf.grow

theorem BFrame.pos {S S' : FileSt} {id j : Nat} (hf : BFrame S S' id) (hj : j ≠ id) : S'.pos j = S.pos j := by
  unfold FileSt.pos; rw [hf.st j hj]

theorem BFrame.size {S S' : FileSt} {id j : Nat} (hf : BFrame S S' id) (hj : j ≠ id) : S'.size j = S.size j := by
  unfold FileSt.size; rw [hf.st j hj]

/-- A change of one block keeps the invariant if it does so for the block. -/
theorem BFrame.inv {S S' : FileSt} {id : Nat} (hf : BFrame S S' id) (h : FileInv I S)
    (hm : 0 < S'.pos id → Mirror I S' id)
    (hd : 0 < S'.pos id → ∀ j, j ≠ id → 0 < S.pos j →
      S'.pos id + S'.size id ≤ S.pos j ∨ S.pos j + S.size j ≤ S'.pos id) : FileInv I S' := by
  refine ⟨?_, ?_⟩
  · intro j hj
    by_cases hji : j = id
    · subst hji; exact hm hj
    · rw [hf.pos hji] at hj
      exact hf.mirror hji hj (h.mirror j hj)
  · intro a b hab ha hb
    by_cases h1 : a = id
    · subst h1
      have hb' : b ≠ a := fun e => hab e.symm
      rw [hf.pos hb'] at hb ⊢
      rw [hf.size hb']
      exact hd ha b hb' hb
    · by_cases h2 : b = id
      · subst h2
        rw [hf.pos h1] at ha ⊢
        rw [hf.size h1]
        have := hd hb a h1 ha
        omega
      · rw [hf.pos h1] at ha ⊢
        rw [hf.pos h2] at hb ⊢
        rw [hf.size h1, hf.size h2]
        exact h.disjoint a b hab ha hb

/-! #### updateLink -/

theorem updateLink_st_other (S : FileSt) (id i v : Nat) {j : Nat} (h : j ≠ id) :
    (S.updateLink id i v).st j = S.st j := by
  unfold FileSt.updateLink
  split
  · rfl
  · split
    · rfl
    · exact set_st_other S _ h

theorem updateLink_st_same (S : FileSt) (id i v : Nat) (hi : i < (S.st id).links.length) :
    (S.updateLink id i v).st id = { S.st id with links := (S.st id).links.set i v } := by
  unfold FileSt.updateLink
  rw [if_neg (by omega)]
  split
  next hv =>
    have : (S.st id).links.set i v = (S.st id).links := by
      rw [hv]
      unfold FileSt.link
      rw [List.getD_eq_getElem?_getD, List.getElem?_eq_getElem hi]
      simp
    rw [this]
  · exact set_st_same S _ _

theorem updateLink_frame (S : FileSt) (id i v : Nat) (h : FileInv I S) : BFrame S (S.updateLink id i v) id := by
  refine ⟨fun j hj => updateLink_st_other S id i v hj, ?_, ?_⟩
  · intro j hj hp
    unfold FileSt.updateLink
    split
    · exact Agree.refl _ _ _
    next hi =>
      split
      · exact Agree.refl _ _ _
      · show Agree S.data (if 0 < S.pos id then _ else _) _ _
        split
        next hpi =>
          have hm := h.mirror id hpi
          have hin := hm.inside
          have hz : S.size id = 24 + 8 * (S.st id).links.length + (S.st id).body.length := rfl
          apply agree_putAt (by omega)
          rw [leBytes_length]
          have := h.disjoint j id hj hp hpi
          omega
        · exact Agree.refl _ _ _
  · unfold FileSt.updateLink
    split
    · exact Nat.le_refl _
    · split
      · exact Nat.le_refl _
      · show S.data.length ≤ (if 0 < S.pos id then _ else S.data : Bytes).length
        split
        next hpi =>
          have hin := (h.mirror id hpi).inside
          have hz : S.size id = 24 + 8 * (S.st id).links.length + (S.st id).body.length := rfl
          rw [putAt_length (by omega)]; omega
        · exact Nat.le_refl _

theorem updateLink_pos (S : FileSt) (id i v j : Nat) : (S.updateLink id i v).pos j = S.pos j := by
  unfold FileSt.updateLink
  split
  · rfl
  · split
    · rfl
    · by_cases hj : j = id
      · subst hj; show ((S.set j _).st j).pos = _; rw [set_st_same]; rfl
      · show ((S.set id _).st j).pos = _; rw [set_st_other S _ hj]; rfl

theorem updateLink_size (S : FileSt) (id i v j : Nat) : (S.updateLink id i v).size j = S.size j := by
  unfold FileSt.updateLink
  split
  · rfl
  · split
    · rfl
    · by_cases hj : j = id
      · subst hj
        show 24 + 8 * ((S.set j _).st j).links.length + ((S.set j _).st j).body.length = _
        rw [set_st_same]; simp [FileSt.size]
      · show 24 + 8 * ((S.set id _).st j).links.length + ((S.set id _).st j).body.length = _
        rw [set_st_other S _ hj]; rfl

theorem updateLink_mirror (S : FileSt) (id i v : Nat) (h : FileInv I S) (hp : 0 < S.pos id) :
    Mirror I (S.updateLink id i v) id ∧ (BExact S id → BExact (S.updateLink id i v) id) := by
  have hm := h.mirror id hp
  have hz : S.size id = 24 + 8 * (S.st id).links.length + (S.st id).body.length := rfl
  unfold FileSt.updateLink
  split
  · exact ⟨⟨hm.aligned, hm.len, hm.inside, hm.header, hm.body⟩, fun x => x⟩
  next hi =>
    split
    · exact ⟨hm, fun x => x⟩
    · obtain ⟨h1, h2, h3, h4, h5⟩ := hm
      have hbody : Agree S.data (putAt S.data (S.pos id + 24 + i * 8) (leBytes 8 v))
          (S.pos id + (24 + 8 * (S.st id).links.length))
          (S.pos id + (24 + 8 * (S.st id).links.length) + (S.st id).body.length) := by
        apply agree_putAt (by omega)
        rw [leBytes_length]; omega
      refine ⟨Mirror.of (set_st_same S id _) h1 ?_ ?_ ?_ ?_, ?_⟩
      · simp only [List.length_set]; exact h2
      · simp only [List.length_set]
        show S.pos id + S.size id ≤ (putAt S.data _ _).length
        rw [putAt_length (by omega)]
        omega
      · show HasAt (putAt S.data (S.pos id + 24 + i * 8) (leBytes 8 v)) (S.pos id)
          (headerBytes (I id).ty (S.st id).len ((S.st id).links.set i v))
        rw [putAt_headerBytes_link _ _ _ _ _ (by omega), Nat.add_assoc]
        apply hasAt_putAt h4
        · rw [headerBytes_length]; omega
        · rw [headerBytes_length, leBytes_length]; omega
      · simp only [List.length_set]
        intro k hk hr
        exact (hbody (S.pos id + (24 + 8 * (S.st id).links.length) + k) (by omega) (by omega)).trans (h5 k hk hr)
      · intro he
        refine BExact.of (b := { S.st id with links := (S.st id).links.set i v }) (set_st_same S id _) ?_
        simp only [List.length_set]
        exact HasAt.agree he hbody

theorem updateLink_inv (S : FileSt) (id i v : Nat) (h : FileInv I S) : FileInv I (S.updateLink id i v) := by
  have hf := updateLink_frame (I := I) S id i v h
  apply hf.inv h
  · intro hp
    rw [updateLink_pos] at hp
    exact (updateLink_mirror S id i v h hp).1
  · intro hp j hj hpj
    rw [updateLink_pos] at hp ⊢
    rw [updateLink_size]
    have := h.disjoint id j (fun e => hj e.symm) hp hpj
    omega

theorem BFrame.exact {S S' : FileSt} {id j : Nat} (hf : BFrame S S' id) (hj : j ≠ id) (hp : 0 < S.pos j)
    (h : BExact S j) : BExact S' j := h.agree (hf.st j hj) (hf.agree j hj hp)

theorem updateLink_thrown (S : FileSt) (id i v : Nat) (hi : i < (S.st id).links.length) :
    (S.updateLink id i v).thrown = S.thrown := by
  unfold FileSt.updateLink
  rw [if_neg (by omega)]
  split <;> rfl

/-! #### start -/

theorem start_frame (S : FileSt) (id : Nat) : BFrame S (S.start I id) id := by
  unfold FileSt.start
  split
  · exact ⟨fun _ _ => rfl, fun _ _ _ => Agree.refl _ _ _, Nat.le_refl _⟩
  · exact ⟨fun j hj => set_st_other S _ hj, fun _ _ _ => Agree.refl _ _ _, Nat.le_refl _⟩

theorem start_pos (S : FileSt) (id j : Nat) : (S.start I id).pos j = S.pos j := by
  unfold FileSt.start
  split
  · rfl
  · by_cases hj : j = id
    · subst hj; show ((S.set j _).st j).pos = _; rw [set_st_same]; rfl
    · show ((S.set id _).st j).pos = _; rw [set_st_other S _ hj]; rfl

theorem start_thrown (S : FileSt) (id : Nat) : (S.start I id).thrown = S.thrown := by
  unfold FileSt.start; split <;> rfl

theorem start_data (S : FileSt) (id : Nat) : (S.start I id).data = S.data := by
  unfold FileSt.start; split <;> rfl

theorem start_written (S : FileSt) (id : Nat) (h : 0 < S.pos id) : S.start I id = S := by
  unfold FileSt.start; rw [if_pos h]

theorem start_inv (S : FileSt) (id : Nat) (h : FileInv I S) : FileInv I (S.start I id) := by
  by_cases hp : 0 < S.pos id
  · rw [start_written S id hp]; exact h
  · apply (start_frame S id).inv h
    · intro hp'; rw [start_pos] at hp'; exact absurd hp' hp
    · intro hp'; rw [start_pos] at hp'; exact absurd hp' hp

/-! #### append -/

theorem pad8_length (d : Bytes) : d.length ≤ (pad8 d).length ∧ (pad8 d).length % 8 = 0 ∧ (pad8 d).length < d.length + 8 := by
  unfold pad8
  simp
  omega

theorem hasAt_append_right (a b : Bytes) : HasAt (a ++ b) a.length b := by
  intro i hi
  rw [List.getElem?_append_right (by omega)]
  congr 1; omega

theorem hasAt_split {data a b : Bytes} {p : Nat} (h : HasAt data p (a ++ b)) :
    HasAt data p a ∧ HasAt data (p + a.length) b := by
  refine ⟨?_, ?_⟩
  · intro i hi
    rw [h i (by simp; omega), List.getElem?_append_left hi]
  · intro i hi
    rw [Nat.add_assoc, h (a.length + i) (by simp; omega), List.getElem?_append_right (by omega)]
    congr 1; omega

/-- The block as it is in memory after it was appended. -/
def appended (S : FileSt) (id : Nat) : BObj :=
  { S.st id with pos := (pad8 S.data).length, len := S.size id }

/-- The file after a block was appended. -/
def appendedData (I : Nat → Info) (S : FileSt) (id : Nat) : Bytes :=
  pad8 S.data ++ headerBytes (I id).ty (S.size id) (S.st id).links ++ (S.st id).body

theorem writeSelf_append (S : FileSt) (id : Nat) (hp : S.pos id = 0) (hd : S.data ≠ []) :
    (S.writeSelf I id).st id = appended S id ∧ (∀ j, j ≠ id → (S.writeSelf I id).st j = S.st j) ∧
    (S.writeSelf I id).data = appendedData I S id ∧ (S.writeSelf I id).thrown = S.thrown := by
  have hlen : 0 < S.data.length := List.length_pos_iff.2 hd
  have hpad := pad8_length S.data
  unfold FileSt.writeSelf
  rw [if_neg (by omega)]
  have hst : (S.append I id).st id = { S.st id with pos := (pad8 S.data).length } := by
    unfold FileSt.append; exact set_st_same S id _
  have hpos : (S.append I id).pos id = (pad8 S.data).length := by unfold FileSt.pos; rw [hst]
  have hlen' : ((S.append I id).st id).len = (S.st id).len := by rw [hst]
  have hsz : 24 + 8 * (S.st id).links.length + (S.st id).body.length = S.size id := rfl
  have hoth : ∀ j, j ≠ id → (S.append I id).st j = S.st j := by
    intro j hj; unfold FileSt.append; exact set_st_other S _ hj
  unfold FileSt.updateBlockSize
  rw [if_neg (by rw [hpos]; omega), hsz, hlen']
  split
  next he =>
    refine ⟨?_, hoth, ?_, rfl⟩
    · rw [hst]; unfold appended; rw [← he]
    · unfold appendedData FileSt.append; rw [← he]
  next he =>
    refine ⟨?_, ?_, ?_, rfl⟩
    · show ((S.append I id).set id _).st id = _
      rw [set_st_same, hst]; rfl
    · intro j hj
      show ((S.append I id).set id _).st j = _
      rw [set_st_other _ _ hj, hoth j hj]
    · show putAt (S.append I id).data ((S.append I id).pos id + 8) (leBytes 8 (S.size id)) = _
      rw [hpos]
      unfold appendedData FileSt.append
      show putAt (pad8 S.data ++ headerBytes (I id).ty (S.st id).len (S.st id).links ++ (S.st id).body)
        ((pad8 S.data).length + 8) (leBytes 8 (S.size id)) = _
      rw [List.append_assoc, putAt_append_right, putAt_append_left (by rw [headerBytes_length, leBytes_length]; omega),
        ← putAt_headerBytes_len, List.append_assoc]

theorem writeSelf_append_spec (S : FileSt) (id : Nat) (hp : S.pos id = 0) (hd : S.data ≠ []) (h : FileInv I S) :
    FileInv I (S.writeSelf I id) ∧ BExact (S.writeSelf I id) id ∧ BFrame S (S.writeSelf I id) id ∧
    0 < (S.writeSelf I id).pos id ∧ (S.writeSelf I id).thrown = S.thrown ∧
    S.data.length ≤ (S.writeSelf I id).pos id := by
  obtain ⟨h1, h2, h3, h4⟩ := writeSelf_append (I := I) S id hp hd
  have hlen : 0 < S.data.length := List.length_pos_iff.2 hd
  have hpad := pad8_length S.data
  have hgrow : S.data.length ≤ (S.writeSelf I id).data.length := by
    rw [h3]; unfold appendedData; simp; omega
  have hf : BFrame S (S.writeSelf I id) id := by
    refine ⟨h2, ?_, hgrow⟩
    intro j hj hpj
    rw [h3]
    unfold appendedData pad8
    have := (h.mirror j hpj).inside
    rw [List.append_assoc, List.append_assoc]
    exact agree_append _ _ this
  have hpos : (S.writeSelf I id).pos id = (pad8 S.data).length := by unfold FileSt.pos; rw [h1]; rfl
  have hall : HasAt (S.writeSelf I id).data (pad8 S.data).length
      (headerBytes (I id).ty (S.size id) (S.st id).links ++ (S.st id).body) := by
    rw [h3]; unfold appendedData; rw [List.append_assoc]; exact hasAt_append_right _ _
  obtain ⟨ha, hb⟩ := hasAt_split hall
  rw [headerBytes_length] at hb
  have hex : BExact (S.writeSelf I id) id := BExact.of h1 hb
  refine ⟨?_, hex, hf, by rw [hpos]; omega, h4, by rw [hpos]; omega⟩
  apply hf.inv h
  · intro _
    refine Mirror.of h1 hpad.2.1 rfl ?_ ha ?_
    · show (pad8 S.data).length + (24 + 8 * (S.st id).links.length + (S.st id).body.length) ≤ _
      rw [h3]; unfold appendedData
      simp only [List.length_append, headerBytes_length]; omega
    · intro i hi _
      exact hb i hi
  · intro _ j hj hpj
    have := (h.mirror j hpj).inside
    rw [hpos]; omega

/-! #### rewrite -/

/-- The values written again. -/
def rewriteFrom (b : BObj) : List (Nat × Nat) → Bytes → Bytes
  | [], d => d
  | r :: rs, d => rewriteFrom b rs (putAt d (b.pos + 24 + 8 * b.links.length + r.1) ((b.body.drop r.1).take r.2))

theorem rewrite_eq (S : FileSt) (id : Nat) :
    (S.rewrite I id).data = rewriteFrom (S.st id) (I id).upd S.data := by
  unfold FileSt.rewrite
  show List.foldl _ S.data (I id).upd = _
  generalize S.data = d
  induction (I id).upd generalizing d with
  | nil => rfl
  | cons r rs ih => simp only [List.foldl_cons, rewriteFrom]; rw [ih]; rfl

theorem rewriteFrom_spec (b : BObj) (rs : List (Nat × Nat)) (d : Bytes)
    (hin : b.pos + (24 + 8 * b.links.length + b.body.length) ≤ d.length) :
    (rewriteFrom b rs d).length = d.length ∧
    (∀ q, q < b.pos + (24 + 8 * b.links.length) ∨ b.pos + (24 + 8 * b.links.length + b.body.length) ≤ q →
      (rewriteFrom b rs d)[q]? = d[q]?) ∧
    (∀ i, i < b.body.length → ((∃ r ∈ rs, r.1 ≤ i ∧ i < r.1 + r.2) ∨
        d[b.pos + (24 + 8 * b.links.length) + i]? = b.body[i]?) →
      (rewriteFrom b rs d)[b.pos + (24 + 8 * b.links.length) + i]? = b.body[i]?) := by
  induction rs generalizing d with
  | nil =>
    refine ⟨rfl, fun _ _ => rfl, ?_⟩
    intro i _ h
    rcases h with ⟨r, hr, _⟩ | h
    · simp at hr
    · exact h
  | cons r rs ih =>
    simp only [rewriteFrom]
    by_cases hr : r.1 ≤ b.body.length
    · have hxl : ((b.body.drop r.1).take r.2).length ≤ b.body.length - r.1 := by simp; omega
      have hpl : (putAt d (b.pos + 24 + 8 * b.links.length + r.1) ((b.body.drop r.1).take r.2)).length = d.length := by
        rw [putAt_length (by omega)]; omega
      obtain ⟨i1, i2, i3⟩ := ih (putAt d (b.pos + 24 + 8 * b.links.length + r.1) ((b.body.drop r.1).take r.2))
        (by rw [hpl]; exact hin)
      refine ⟨by rw [i1, hpl], ?_, ?_⟩
      · intro q hq
        rw [i2 q hq, putAt_get (by omega)]
        rcases hq with hq | hq
        · rw [if_pos (by omega)]
        · rw [if_neg (by omega), if_neg (by omega)]
      · intro i hi hc
        apply i3 i hi
        rcases hc with ⟨r', hr', h1, h2⟩ | hc
        · rcases List.mem_cons.1 hr' with rfl | hr'
          · right
            rw [putAt_get (by omega), if_neg (by omega), if_pos (by simp; omega)]
            rw [List.getElem?_take_of_lt (by omega), List.getElem?_drop]
            congr 1; omega
          · left; exact ⟨r', hr', h1, h2⟩
        · by_cases hin' : r.1 ≤ i ∧ i < r.1 + r.2
          · right
            rw [putAt_get (by omega), if_neg (by omega), if_pos (by simp; omega)]
            rw [List.getElem?_take_of_lt (by omega), List.getElem?_drop]
            congr 1; omega
          · right
            rw [putAt_get (by omega)]
            by_cases hlt : i < r.1
            · rw [if_pos (by omega)]; exact hc
            · rw [if_neg (by omega), if_neg (by simp; omega)]; exact hc
    · have hx : (b.body.drop r.1).take r.2 = [] := by rw [List.drop_of_length_le (by omega)]; simp
      rw [hx, putAt_nil]
      obtain ⟨i1, i2, i3⟩ := ih d hin
      refine ⟨i1, i2, ?_⟩
      intro i hi hc
      apply i3 i hi
      rcases hc with ⟨r', hr', h1, h2⟩ | hc
      · rcases List.mem_cons.1 hr' with rfl | hr'
        · omega
        · left; exact ⟨r', hr', h1, h2⟩
      · right; exact hc

theorem rewrite_spec (S : FileSt) (id : Nat) (hp : 0 < S.pos id) (h : FileInv I S) :
    FileInv I (S.rewrite I id) ∧ BExact (S.rewrite I id) id ∧ BFrame S (S.rewrite I id) id := by
  have hm := h.mirror id hp
  obtain ⟨h1, h2, h3, h4, h5⟩ := hm
  have hz : S.size id = 24 + 8 * (S.st id).links.length + (S.st id).body.length := rfl
  have hpp : S.pos id = (S.st id).pos := rfl
  obtain ⟨r1, r2, r3⟩ := rewriteFrom_spec (S.st id) (I id).upd S.data h3
  rw [← rewrite_eq] at r1 r2 r3
  have hf : BFrame S (S.rewrite I id) id := by
    refine ⟨fun _ _ => rfl, ?_, by rw [r1]; exact Nat.le_refl _⟩
    intro j hj hpj q hq1 hq2
    apply r2
    have := h.disjoint j id hj hpj hp
    omega
  have hex : BExact (S.rewrite I id) id := by
    intro i hi
    have hi' : i < (S.st id).body.length := hi
    apply r3 i hi'
    by_cases hr : (I id).rewrites i
    · left; exact hr
    · right; exact h5 i hi' hr
  refine ⟨?_, hex, hf⟩
  apply hf.inv h
  · intro _
    refine ⟨h1, h2, by rw [r1]; exact h3, ?_, ?_⟩
    · apply h4.agree
      intro q hq1 hq2
      rw [headerBytes_length] at hq2
      apply r2
      left; omega
    · intro i hi _; exact hex i hi
  · intro _ j hj hpj
    have := h.disjoint id j (fun e => hj e.symm) hp hpj
    exact this

/-- Writing the block itself, in both cases. -/
theorem writeSelf_spec (S : FileSt) (id : Nat) (hd : S.data ≠ []) (h : FileInv I S) :
    FileInv I (S.writeSelf I id) ∧ BExact (S.writeSelf I id) id ∧ BFrame S (S.writeSelf I id) id ∧
    0 < (S.writeSelf I id).pos id ∧ (S.writeSelf I id).thrown = S.thrown ∧
    ((S.writeSelf I id).st id).links = (S.st id).links ∧ ((S.writeSelf I id).st id).body = (S.st id).body ∧
    (0 < S.pos id → (S.writeSelf I id).pos id = S.pos id) := by
  by_cases hp : 0 < S.pos id
  · have he : S.writeSelf I id = S.rewrite I id := by unfold FileSt.writeSelf; rw [if_pos hp]
    rw [he]
    obtain ⟨a, b, c⟩ := rewrite_spec S id hp h
    exact ⟨a, b, c, hp, rfl, rfl, rfl, fun _ => rfl⟩
  · obtain ⟨a, b, c, d, e, _⟩ := writeSelf_append_spec (I := I) S id (by omega) hd h
    have h1 := (writeSelf_append (I := I) S id (by omega) hd).1
    exact ⟨a, b, c, d, e, by rw [h1]; rfl, by rw [h1]; rfl, fun h => absurd h hp⟩

theorem BFrame.ne {S S' : FileSt} {id : Nat} (hf : BFrame S S' id) (hd : S.data ≠ []) : S'.data ≠ [] := by
  have := hf.grow
  have h1 := List.length_pos_iff.2 hd
  exact List.length_pos_iff.1 (by omega)

end

end Mdf
