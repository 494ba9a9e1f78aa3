import Verif.Spec.Block3
import Verif.Proof.Block

/-! Lemmas about writing MDF 3 blocks. -/

namespace Mdf

theorem links4_length (ls : List Nat) : (links4 ls).length = 4 * ls.length := by
  induction ls with
  | nil => rfl
  | cons l ls ih => simp [links4, ih]; omega

theorem lay3_length (inf : Info3) (b : BObj) : (lay3 inf b).length = 4 + 4 * b.links.length + b.body.length := by
  unfold lay3
  simp only [List.length_append, writeStr_length, leBytes_length, links4_length, List.length_take, List.length_drop]
  omega

theorem putAt_links4 (ls : List Nat) (i v : Nat) (hi : i < ls.length) :
    links4 (ls.set i v) = putAt (links4 ls) (4 * i) (leBytes 4 v) := by
  induction ls generalizing i with
  | nil => simp at hi
  | cons l ls ih =>
    cases i with
    | zero =>
      simp only [List.set_cons_zero, links4, Nat.mul_zero]
      rw [putAt_append_left (by simp), putAt_whole (by simp)]
    | succ i =>
      simp only [List.set_cons_succ, links4]
      rw [ih i (by simpa using hi)]
      have : 4 * (i + 1) = (leBytes 4 l).length + 4 * i := by simp; omega
      rw [this, putAt_append_right]

theorem lay3_link (inf : Info3) (b : BObj) (i v : Nat) (hi : i < b.links.length) (hh : i < inf.head) :
    lay3 inf { b with links := b.links.set i v } = putAt (lay3 inf b) (4 + i * 4) (leBytes 4 v) := by
  unfold lay3
  have e1 : (b.links.set i v).take inf.head = (b.links.take inf.head).set i v := by rw [List.take_set]
  have e2 : (b.links.set i v).drop inf.head = b.links.drop inf.head := by
    rw [List.drop_set, if_pos hh]
  simp only [e1, e2]
  have hlen : i < (b.links.take inf.head).length := by simp; omega
  rw [putAt_links4 _ _ _ hlen]
  have h1 : (writeStr inf.ty 2 ++ leBytes 2 b.len).length = 4 := by simp [writeStr_length]
  have h2 : (4 : Nat) + i * 4 = (writeStr inf.ty 2 ++ leBytes 2 b.len).length + 4 * i := by rw [h1]; omega
  rw [putAt_append_left, putAt_append_left, putAt_append_left, h2, putAt_append_right]
  all_goals simp only [List.length_append, writeStr_length, leBytes_length, links4_length]; omega

theorem leBytes2_mod (n : Nat) : leBytes 2 (n % 2 ^ 16) = leBytes 2 n := by
  simp only [leBytes, List.cons.injEq, and_true]
  constructor
  · apply BitVec.eq_of_toNat_eq; simp only [BitVec.toNat_ofNat]; omega
  · apply BitVec.eq_of_toNat_eq; simp only [BitVec.toNat_ofNat]; omega

theorem lay3_len (inf : Info3) (b : BObj) (n : Nat) :
    lay3 inf { b with len := n % 2 ^ 16 } = putAt (lay3 inf b) 2 (leBytes 2 n) := by
  unfold lay3
  simp only [leBytes2_mod]
  have h1 : (2 : Nat) = (writeStr inf.ty 2).length + 0 := by simp [writeStr_length]
  have key : putAt (writeStr inf.ty 2 ++ leBytes 2 b.len) 2 (leBytes 2 n) = writeStr inf.ty 2 ++ leBytes 2 n := by
    have := putAt_append_right (a := writeStr inf.ty 2) (b := leBytes 2 b.len) (x := leBytes 2 n) (o := 0)
    rw [← h1, putAt_whole (by simp)] at this
    exact this
  rw [putAt_append_left, putAt_append_left, putAt_append_left, putAt_append_left, key]
  all_goals simp only [List.length_append, writeStr_length, leBytes_length, links4_length]; omega

section
variable {I : Nat → Info3}

theorem Mirror3.agree {S S' : FileSt} {id : Nat} (h : Mirror3 I S id) (hst : S'.st id = S.st id)
    (ha : Agree S.data S'.data (S.pos id) (S.pos id + S.size3 id)) (hl : S.data.length ≤ S'.data.length) :
    Mirror3 I S' id := by
  obtain ⟨h2, h3, h5⟩ := h
  have hp : S'.pos id = S.pos id := by unfold FileSt.pos; rw [hst]
  have hz : S'.size3 id = S.size3 id := by unfold FileSt.size3; rw [hst]
  refine ⟨by rw [hst]; exact h2, by rw [hp, hz]; omega, ?_⟩
  rw [hp, hst, hz]
  intro i hi hr
  rw [ha _ (by omega) (by omega)]
  exact h5 i hi hr

theorem BExact3.agree {S S' : FileSt} {id : Nat} (h : BExact3 I S id) (hst : S'.st id = S.st id)
    (ha : Agree S.data S'.data (S.pos id) (S.pos id + S.size3 id)) : BExact3 I S' id := by
  unfold BExact3
  have hp : S'.pos id = S.pos id := by unfold FileSt.pos; rw [hst]
  rw [hp, hst]
  apply HasAt.agree h
  rw [lay3_length]
  exact ha

/-- No block has the byte `q` of the file. -/
def FileSt.Free3 (S : FileSt) (q : Nat) : Prop := ∀ id, 0 < S.pos id → q < S.pos id ∨ S.pos id + S.size3 id ≤ q

/-- What a change that touches block `id` only leaves as it was. -/
structure BFrame3 (S S' : FileSt) (id : Nat) : Prop where
  st : ∀ j, j ≠ id → S'.st j = S.st j
  agree : ∀ j, j ≠ id → 0 < S.pos j → Agree S.data S'.data (S.pos j) (S.pos j + S.size3 j)
  grow : S.data.length ≤ S'.data.length
  free : ∀ q, q < S.data.length → S.Free3 q → S'.data[q]? = S.data[q]? ∧ S'.Free3 q

theorem BFrame3.mirror {S S' : FileSt} {id j : Nat} (hf : BFrame3 S S' id) (hj : j ≠ id) (hp : 0 < S.pos j)
    (h : Mirror3 I S j) : Mirror3 I S' j := h.agree (hf.st j hj) (hf.agree j hj hp) hf.grow

theorem BFrame3.pos {S S' : FileSt} {id j : Nat} (hf : BFrame3 S S' id) (hj : j ≠ id) : S'.pos j = S.pos j := by
  unfold FileSt.pos; rw [hf.st j hj]

theorem BFrame3.size {S S' : FileSt} {id j : Nat} (hf : BFrame3 S S' id) (hj : j ≠ id) : S'.size3 j = S.size3 j := by
  unfold FileSt.size3; rw [hf.st j hj]

theorem BFrame3.exact {S S' : FileSt} {id j : Nat} (hf : BFrame3 S S' id) (hj : j ≠ id) (hp : 0 < S.pos j)
    (h : BExact3 I S j) : BExact3 I S' j := h.agree (hf.st j hj) (hf.agree j hj hp)

theorem BFrame3.ne {S S' : FileSt} {id : Nat} (hf : BFrame3 S S' id) (hd : S.data ≠ []) : S'.data ≠ [] := by
  have := hf.grow
  have h1 := List.length_pos_iff.2 hd
  exact List.length_pos_iff.1 (by omega)

/-- A change of one block keeps the invariant if it does so for the block. -/
theorem BFrame3.inv {S S' : FileSt} {id : Nat} (hf : BFrame3 S S' id) (h : FileInv3 I S)
    (hm : 0 < S'.pos id → Mirror3 I S' id)
    (hd : 0 < S'.pos id → ∀ j, j ≠ id → 0 < S.pos j →
      S'.pos id + S'.size3 id ≤ S.pos j ∨ S.pos j + S.size3 j ≤ S'.pos id) : FileInv3 I S' := by
  refine ⟨?_, ?_⟩
  · intro j hj
    by_cases hji : j = id
    · subst hji; exact hm hj
    · rw [hf.pos hji] at hj
      exact hf.mirror hji hj (h.mirror j hj)
  · intro a b hab ha hb
    by_cases h1 : a = id
    · subst h1
      have hb' : b ≠ a := fun e => hab e.symm
      rw [hf.pos hb'] at hb ⊢
      rw [hf.size hb']
      exact hd ha b hb' hb
    · by_cases h2 : b = id
      · subst h2
        rw [hf.pos h1] at ha ⊢
        rw [hf.size h1]
        have := hd hb a h1 ha
        omega
      · rw [hf.pos h1] at ha ⊢
        rw [hf.pos h2] at hb ⊢
        rw [hf.size h1, hf.size h2]
        exact h.disjoint a b hab ha hb

/-! #### updateLink3 -/

/-- The link may be set. -/
def LinkOk3 (I : Nat → Info3) (S : FileSt) (id i : Nat) : Prop :=
  i < (S.st id).links.length ∧ (0 < S.pos id → i < (I id).head)

theorem LinkOk3.cond {S : FileSt} {id i : Nat} (h : LinkOk3 I S id i) :
    ¬ ((S.st id).links.length ≤ i ∨ (0 < S.pos id ∧ (I id).head ≤ i)) := by
  intro hc
  rcases hc with hc | ⟨h1, h2⟩
  · exact absurd h.1 (by omega)
  · exact absurd (h.2 h1) (by omega)

theorem updateLink3_st_other (S : FileSt) (id i v : Nat) {j : Nat} (h : j ≠ id) :
    (S.updateLink3 I id i v).st j = S.st j := by
  unfold FileSt.updateLink3
  split
  · rfl
  · split
    · rfl
    · exact set_st_other S _ h

theorem updateLink3_st_same (S : FileSt) (id i v : Nat) (hi : LinkOk3 I S id i) :
    (S.updateLink3 I id i v).st id = { S.st id with links := (S.st id).links.set i v } := by
  unfold FileSt.updateLink3
  rw [if_neg hi.cond]
  split
  next hv =>
    have : (S.st id).links.set i v = (S.st id).links := by
      rw [hv]
      unfold FileSt.link
      rw [List.getD_eq_getElem?_getD, List.getElem?_eq_getElem hi.1]
      simp
    rw [this]
  · exact set_st_same S _ _

theorem updateLink3_pos (S : FileSt) (id i v j : Nat) : (S.updateLink3 I id i v).pos j = S.pos j := by
  unfold FileSt.updateLink3
  split
  · rfl
  · split
    · rfl
    · by_cases hj : j = id
      · subst hj; show ((S.set j _).st j).pos = _; rw [set_st_same]; rfl
      · show ((S.set id _).st j).pos = _; rw [set_st_other S _ hj]; rfl

theorem updateLink3_size (S : FileSt) (id i v j : Nat) : (S.updateLink3 I id i v).size3 j = S.size3 j := by
  unfold FileSt.updateLink3
  split
  · rfl
  · split
    · rfl
    · by_cases hj : j = id
      · subst hj
        show 4 + 4 * ((S.set j _).st j).links.length + ((S.set j _).st j).body.length = _
        rw [set_st_same]; simp [FileSt.size3]
      · show 4 + 4 * ((S.set id _).st j).links.length + ((S.set id _).st j).body.length = _
        rw [set_st_other S _ hj]; rfl

theorem updateLink3_frame (S : FileSt) (id i v : Nat) (h : FileInv3 I S) : BFrame3 S (S.updateLink3 I id i v) id := by
  refine ⟨fun j hj => updateLink3_st_other S id i v hj, ?_, ?_, fun q hq hfree => ⟨?_, fun j hj => ?_⟩⟩
  · intro j hj hp
    unfold FileSt.updateLink3
    split
    · exact Agree.refl _ _ _
    next hi =>
      split
      · exact Agree.refl _ _ _
      · show Agree S.data (if 0 < S.pos id then _ else _) _ _
        split
        next hpi =>
          have hm := h.mirror id hpi
          have hin := hm.inside
          have hz : S.size3 id = 4 + 4 * (S.st id).links.length + (S.st id).body.length := rfl
          have hi' : i < (S.st id).links.length := Nat.lt_of_not_le (fun hc => hi (Or.inl hc))
          apply agree_putAt (by omega)
          rw [leBytes_length]
          have := h.disjoint j id hj hp hpi
          omega
        · exact Agree.refl _ _ _
  · unfold FileSt.updateLink3
    split
    · exact Nat.le_refl _
    next hi =>
      split
      · exact Nat.le_refl _
      · show S.data.length ≤ (if 0 < S.pos id then _ else S.data : Bytes).length
        split
        next hpi =>
          have hin := (h.mirror id hpi).inside
          have hz : S.size3 id = 4 + 4 * (S.st id).links.length + (S.st id).body.length := rfl
          have hi' : i < (S.st id).links.length := Nat.lt_of_not_le (fun hc => hi (Or.inl hc))
          rw [putAt_length (by omega)]; omega
        · exact Nat.le_refl _
  · unfold FileSt.updateLink3
    split
    · rfl
    next hi =>
      split
      · rfl
      · show (if 0 < S.pos id then _ else S.data : Bytes)[q]? = _
        split
        next hpi =>
          have hin := (h.mirror id hpi).inside
          have hz : S.size3 id = 4 + 4 * (S.st id).links.length + (S.st id).body.length := rfl
          have hi' : i < (S.st id).links.length := Nat.lt_of_not_le (fun hc => hi (Or.inl hc))
          have := hfree id hpi
          rw [putAt_get (by omega), leBytes_length]
          by_cases hlt : q < S.pos id + (4 + i * 4)
          · rw [if_pos hlt]
          · rw [if_neg hlt, if_neg (by omega)]
        · rfl
  · rw [updateLink3_pos] at hj ⊢
    rw [updateLink3_size]
    exact hfree j hj

theorem Mirror3.of {S : FileSt} {id : Nat} {b : BObj} (hb : S.st id = b) (h2 : b.len = (I id).decl b.body.length)
    (h3 : b.pos + (4 + 4 * b.links.length + b.body.length) ≤ S.data.length)
    (h5 : ∀ i, i < 4 + 4 * b.links.length + b.body.length → ¬ (I id).rewrites i →
      S.data[b.pos + i]? = (lay3 (I id) b)[i]?) : Mirror3 I S id := by
  subst hb
  exact ⟨h2, h3, h5⟩

theorem BExact3.of {S : FileSt} {id : Nat} {b : BObj} (hb : S.st id = b)
    (h : HasAt S.data b.pos (lay3 (I id) b)) : BExact3 I S id := by
  subst hb
  exact h

/-- A patch of the file that goes with a patch of the block. -/
theorem patch_bytes {data bs xs : Bytes} {p o : Nat} (hin : p + bs.length ≤ data.length) (ho : o + xs.length ≤ bs.length)
    {i : Nat} (h : data[p + i]? = bs[i]?) :
    (putAt data (p + o) xs)[p + i]? = (putAt bs o xs)[i]? := by
  rw [putAt_get (by omega), putAt_get (by omega)]
  by_cases h1 : i < o
  · rw [if_pos (by omega), if_pos h1]; exact h
  · rw [if_neg (by omega), if_neg h1]
    by_cases h2 : i < o + xs.length
    · rw [if_pos (by omega), if_pos h2]; congr 1; omega
    · rw [if_neg (by omega), if_neg h2]; exact h

theorem updateLink3_mirror (S : FileSt) (id i v : Nat) (h : FileInv3 I S) (hp : 0 < S.pos id) :
    Mirror3 I (S.updateLink3 I id i v) id ∧ (BExact3 I S id → BExact3 I (S.updateLink3 I id i v) id) := by
  have hm := h.mirror id hp
  have hz : S.size3 id = 4 + 4 * (S.st id).links.length + (S.st id).body.length := rfl
  unfold FileSt.updateLink3
  split
  · exact ⟨⟨hm.len, hm.inside, hm.bytes⟩, fun x => x⟩
  next hi =>
    have hi' : i < (S.st id).links.length := Nat.lt_of_not_le (fun hc => hi (Or.inl hc))
    have hh : i < (I id).head := Nat.lt_of_not_le (fun hc => hi (Or.inr ⟨hp, hc⟩))
    split
    · exact ⟨hm, fun x => x⟩
    · obtain ⟨h2, h3, h5⟩ := hm
      have hll := lay3_length (I id) (S.st id)
      have hlay := lay3_link (I id) (S.st id) i v hi' hh
      refine ⟨Mirror3.of (set_st_same S id _) h2 ?_ ?_, ?_⟩
      · simp only [List.length_set]
        show S.pos id + S.size3 id ≤ (putAt S.data _ _).length
        rw [putAt_length (by omega)]
        omega
      · simp only [List.length_set]
        intro k hk hr
        show (putAt S.data _ _)[S.pos id + k]? = _
        rw [hlay]
        apply patch_bytes
        · rw [hll]; exact h3
        · rw [hll, leBytes_length]; omega
        · exact h5 k hk hr
      · intro he
        refine BExact3.of (b := { S.st id with links := (S.st id).links.set i v }) (set_st_same S id _) ?_
        show HasAt (putAt S.data (S.pos id + (4 + i * 4)) (leBytes 4 v)) (S.pos id)
          (lay3 (I id) { S.st id with links := (S.st id).links.set i v })
        rw [hlay]
        apply hasAt_putAt he
        · rw [hll]; exact h3
        · rw [hll, leBytes_length]; omega

theorem updateLink3_inv (S : FileSt) (id i v : Nat) (h : FileInv3 I S) : FileInv3 I (S.updateLink3 I id i v) := by
  have hf := updateLink3_frame (I := I) S id i v h
  apply hf.inv h
  · intro hp
    rw [updateLink3_pos] at hp
    exact (updateLink3_mirror S id i v h hp).1
  · intro hp j hj hpj
    rw [updateLink3_pos] at hp ⊢
    rw [updateLink3_size]
    have := h.disjoint id j (fun e => hj e.symm) hp hpj
    omega

theorem updateLink3_thrown (S : FileSt) (id i v : Nat) (hi : LinkOk3 I S id i) :
    (S.updateLink3 I id i v).thrown = S.thrown := by
  unfold FileSt.updateLink3
  rw [if_neg hi.cond]
  split <;> rfl

/-! #### start3 -/

theorem start3_pos (S : FileSt) (id j : Nat) : (S.start3 I id).pos j = S.pos j := by
  unfold FileSt.start3
  split
  · rfl
  · by_cases hj : j = id
    · subst hj; show ((S.set j _).st j).pos = _; rw [set_st_same]; rfl
    · show ((S.set id _).st j).pos = _; rw [set_st_other S _ hj]; rfl

theorem start3_frame (S : FileSt) (id : Nat) : BFrame3 S (S.start3 I id) id := by
  unfold FileSt.start3
  split
  · exact ⟨fun _ _ => rfl, fun _ _ _ => Agree.refl _ _ _, Nat.le_refl _, fun _ _ h => ⟨rfl, h⟩⟩
  next hp =>
    refine ⟨fun j hj => set_st_other S _ hj, fun _ _ _ => Agree.refl _ _ _, Nat.le_refl _, fun q _ h => ⟨rfl, fun j hj => ?_⟩⟩
    by_cases hji : j = id
    · subst hji
      have e : ((S.set j { S.st j with
        len := (I j).first (S.st j).body.length % 2 ^ 16, links := resizeLinks (S.st j).links (I j).nlinks }).st j).pos = S.pos j := by
        rw [set_st_same]; rfl
      have hj' : 0 < S.pos j := by rw [← e]; exact hj
      exact absurd hj' hp
    · have e := set_st_other S { S.st id with
        len := (I id).first (S.st id).body.length % 2 ^ 16, links := resizeLinks (S.st id).links (I id).nlinks } hji
      unfold FileSt.pos FileSt.size3 at *
      rw [e] at hj ⊢
      exact h j hj

theorem start3_thrown (S : FileSt) (id : Nat) : (S.start3 I id).thrown = S.thrown := by
  unfold FileSt.start3; split <;> rfl

theorem start3_written (S : FileSt) (id : Nat) (h : 0 < S.pos id) : S.start3 I id = S := by
  unfold FileSt.start3; rw [if_pos h]

theorem start3_inv (S : FileSt) (id : Nat) (h : FileInv3 I S) : FileInv3 I (S.start3 I id) := by
  by_cases hp : 0 < S.pos id
  · rw [start3_written S id hp]; exact h
  · apply (start3_frame S id).inv h
    · intro hp'; rw [start3_pos] at hp'; exact absurd hp' hp
    · intro hp'; rw [start3_pos] at hp'; exact absurd hp' hp

/-! #### append3 -/

/-- The block as it is in memory after it was appended. -/
def appended3 (I : Nat → Info3) (S : FileSt) (id : Nat) : BObj :=
  { S.st id with pos := S.data.length, len := (I id).decl (S.st id).body.length }

theorem writeSelf3_append (S : FileSt) (id : Nat) (hp : S.pos id = 0) (hd : S.data ≠ [])
    (hlen : (S.st id).len = (I id).first (S.st id).body.length % 2 ^ 16) :
    (S.writeSelf3 I id).st id = appended3 I S id ∧ (∀ j, j ≠ id → (S.writeSelf3 I id).st j = S.st j) ∧
    (S.writeSelf3 I id).data = S.data ++ lay3 (I id) (appended3 I S id) ∧ (S.writeSelf3 I id).thrown = S.thrown := by
  have hl0 : 0 < S.data.length := List.length_pos_iff.2 hd
  have hst : (S.append3 I id).st id = { S.st id with pos := S.data.length } := by
    unfold FileSt.append3; exact set_st_same S id _
  have hpos : (S.append3 I id).pos id = S.data.length := by unfold FileSt.pos; rw [hst]
  have hlen' : ((S.append3 I id).st id).len = (S.st id).len := by rw [hst]
  have hoth : ∀ j, j ≠ id → (S.append3 I id).st j = S.st j := by
    intro j hj; unfold FileSt.append3; exact set_st_other S _ hj
  have hlaypos : ∀ (b : BObj) (p : Nat), lay3 (I id) { b with pos := p } = lay3 (I id) b := fun _ _ => rfl
  unfold FileSt.writeSelf3
  rw [if_neg (by omega)]
  cases hf : (I id).final with
  | none =>
    have hdecl : (I id).decl (S.st id).body.length = (S.st id).len := by unfold Info3.decl; rw [hf]; exact hlen.symm
    have happ : appended3 I S id = { S.st id with pos := S.data.length } := by unfold appended3; rw [hdecl]
    dsimp only
    refine ⟨by rw [hst, happ], hoth, ?_, rfl⟩
    rw [happ, hlaypos]; rfl
  | some f =>
    have hdecl : (I id).decl (S.st id).body.length = f (S.st id).body.length % 2 ^ 16 := by unfold Info3.decl; rw [hf]
    dsimp only
    unfold FileSt.updateBlockSize3
    rw [if_neg (by rw [hpos]; omega), hlen']
    split
    next he =>
      have hm : f (S.st id).body.length % 2 ^ 16 = (S.st id).len := by
        have h1 : (S.st id).len < 2 ^ 16 := by rw [hlen]; exact Nat.mod_lt _ (by decide)
        rw [← he, Nat.mod_eq_of_lt h1]
      have happ : appended3 I S id = { S.st id with pos := S.data.length } := by unfold appended3; rw [hdecl, hm]
      refine ⟨by rw [hst, happ], hoth, ?_, rfl⟩
      rw [happ, hlaypos]; rfl
    next he =>
      refine ⟨?_, ?_, ?_, rfl⟩
      · show ((S.append3 I id).set id _).st id = _
        rw [set_st_same, hst]; unfold appended3; rw [hdecl]
      · intro j hj
        show ((S.append3 I id).set id _).st j = _
        rw [set_st_other _ _ hj, hoth j hj]
      · show putAt (S.append3 I id).data ((S.append3 I id).pos id + 2) (leBytes 2 (f (S.st id).body.length)) = _
        rw [hpos]
        show putAt (S.data ++ lay3 (I id) (S.st id)) (S.data.length + 2) _ = _
        rw [putAt_append_right, ← lay3_len]
        unfold appended3
        rw [hdecl]
        rfl

theorem writeSelf3_append_spec (S : FileSt) (id : Nat) (hp : S.pos id = 0) (hd : S.data ≠ []) (h : FileInv3 I S)
    (hlen : (S.st id).len = (I id).first (S.st id).body.length % 2 ^ 16) :
    FileInv3 I (S.writeSelf3 I id) ∧ BExact3 I (S.writeSelf3 I id) id ∧ BFrame3 S (S.writeSelf3 I id) id ∧
    0 < (S.writeSelf3 I id).pos id ∧ (S.writeSelf3 I id).thrown = S.thrown ∧
    S.data.length ≤ (S.writeSelf3 I id).pos id := by
  obtain ⟨h1, h2, h3, h4⟩ := writeSelf3_append (I := I) S id hp hd hlen
  have hlen0 : 0 < S.data.length := List.length_pos_iff.2 hd
  have hgrow : S.data.length ≤ (S.writeSelf3 I id).data.length := by
    rw [h3]; simp
  have hf : BFrame3 S (S.writeSelf3 I id) id := by
    refine ⟨h2, ?_, hgrow, fun q hq hfree => ⟨by rw [h3, List.getElem?_append_left hq], fun j hj => ?_⟩⟩
    · intro j hj hpj
      rw [h3]
      exact agree_append _ _ (h.mirror j hpj).inside
    · by_cases hji : j = id
      · subst hji
        left
        unfold FileSt.pos; rw [h1]; exact hq
      · unfold FileSt.pos FileSt.size3 at *
        rw [h2 j hji] at hj ⊢
        exact hfree j hj
  have hpos : (S.writeSelf3 I id).pos id = S.data.length := by unfold FileSt.pos; rw [h1]; rfl
  have hall : HasAt (S.writeSelf3 I id).data S.data.length (lay3 (I id) (appended3 I S id)) := by
    rw [h3]; exact hasAt_append_right _ _
  have hex : BExact3 I (S.writeSelf3 I id) id := BExact3.of h1 hall
  refine ⟨?_, hex, hf, by rw [hpos]; omega, h4, by rw [hpos]; omega⟩
  apply hf.inv h
  · intro _
    refine Mirror3.of h1 rfl ?_ ?_
    · show S.data.length + _ ≤ _
      rw [h3, List.length_append, lay3_length]
      exact Nat.le_refl _
    · intro i hi _
      exact hall i (by rw [lay3_length]; exact hi)
  · intro _ j hj hpj
    have := (h.mirror j hpj).inside
    rw [hpos]; omega

/-! #### rewrite3 -/

/-- The values written again. -/
def rewriteFrom3 (p : Nat) (bs : Bytes) : List (Nat × Nat) → Bytes → Bytes
  | [], d => d
  | r :: rs, d => rewriteFrom3 p bs rs (putAt d (p + r.1) ((bs.drop r.1).take r.2))

theorem rewrite3_eq (S : FileSt) (id : Nat) :
    (S.rewrite3 I id).data = rewriteFrom3 (S.pos id) (lay3 (I id) (S.st id)) (I id).upd S.data := by
  unfold FileSt.rewrite3
  show List.foldl _ S.data (I id).upd = _
  generalize S.data = d
  induction (I id).upd generalizing d with
  | nil => rfl
  | cons r rs ih => simp only [List.foldl_cons, rewriteFrom3]; rw [ih]

theorem rewriteFrom3_spec (p : Nat) (bs : Bytes) (rs : List (Nat × Nat)) (d : Bytes) (hin : p + bs.length ≤ d.length) :
    (rewriteFrom3 p bs rs d).length = d.length ∧
    (∀ q, q < p ∨ p + bs.length ≤ q → (rewriteFrom3 p bs rs d)[q]? = d[q]?) ∧
    (∀ i, i < bs.length → ((∃ r ∈ rs, r.1 ≤ i ∧ i < r.1 + r.2) ∨ d[p + i]? = bs[i]?) →
      (rewriteFrom3 p bs rs d)[p + i]? = bs[i]?) := by
  induction rs generalizing d with
  | nil =>
    refine ⟨rfl, fun _ _ => rfl, ?_⟩
    intro i _ h
    rcases h with ⟨r, hr, _⟩ | h
    · simp at hr
    · exact h
  | cons r rs ih =>
    simp only [rewriteFrom3]
    by_cases hr : r.1 ≤ bs.length
    · have hxl : ((bs.drop r.1).take r.2).length ≤ bs.length - r.1 := by simp; omega
      have hpl : (putAt d (p + r.1) ((bs.drop r.1).take r.2)).length = d.length := by
        rw [putAt_length (by omega)]; omega
      obtain ⟨i1, i2, i3⟩ := ih (putAt d (p + r.1) ((bs.drop r.1).take r.2)) (by rw [hpl]; exact hin)
      refine ⟨by rw [i1, hpl], ?_, ?_⟩
      · intro q hq
        rw [i2 q hq, putAt_get (by omega)]
        rcases hq with hq | hq
        · rw [if_pos (by omega)]
        · rw [if_neg (by omega), if_neg (by omega)]
      · intro i hi hc
        apply i3 i hi
        by_cases hin' : r.1 ≤ i ∧ i < r.1 + r.2
        · right
          rw [putAt_get (by omega), if_neg (by omega), if_pos (by simp; omega)]
          rw [List.getElem?_take_of_lt (by omega), List.getElem?_drop]
          congr 1; omega
        · rcases hc with ⟨r', hr', h1, h2⟩ | hc
          · rcases List.mem_cons.1 hr' with rfl | hr'
            · exact absurd ⟨h1, h2⟩ hin'
            · left; exact ⟨r', hr', h1, h2⟩
          · right
            rw [putAt_get (by omega)]
            by_cases hlt : i < r.1
            · rw [if_pos (by omega)]; exact hc
            · rw [if_neg (by omega), if_neg (by simp; omega)]; exact hc
    · have hx : (bs.drop r.1).take r.2 = [] := by rw [List.drop_of_length_le (by omega)]; simp
      rw [hx, putAt_nil]
      obtain ⟨i1, i2, i3⟩ := ih d hin
      refine ⟨i1, i2, ?_⟩
      intro i hi hc
      apply i3 i hi
      rcases hc with ⟨r', hr', h1, h2⟩ | hc
      · rcases List.mem_cons.1 hr' with rfl | hr'
        · omega
        · left; exact ⟨r', hr', h1, h2⟩
      · right; exact hc

theorem rewrite3_spec (S : FileSt) (id : Nat) (hp : 0 < S.pos id) (h : FileInv3 I S) :
    FileInv3 I (S.rewrite3 I id) ∧ BExact3 I (S.rewrite3 I id) id ∧ BFrame3 S (S.rewrite3 I id) id := by
  have hm := h.mirror id hp
  obtain ⟨h2, h3, h5⟩ := hm
  have hll : (lay3 (I id) (S.st id)).length = S.size3 id := lay3_length _ _
  obtain ⟨r1, r2, r3⟩ := rewriteFrom3_spec (S.pos id) (lay3 (I id) (S.st id)) (I id).upd S.data (by rw [hll]; exact h3)
  rw [← rewrite3_eq] at r1 r2 r3
  have hf : BFrame3 S (S.rewrite3 I id) id := by
    refine ⟨fun _ _ => rfl, ?_, by rw [r1]; exact Nat.le_refl _, fun q _ hfree => ⟨?_, hfree⟩⟩
    · intro j hj hpj q hq1 hq2
      apply r2
      have := h.disjoint j id hj hpj hp
      omega
    · apply r2
      have := hfree id hp
      omega
  have hex : BExact3 I (S.rewrite3 I id) id := by
    intro i hi
    have hi' : i < (lay3 (I id) (S.st id)).length := hi
    apply r3 i hi'
    by_cases hr : (I id).rewrites i
    · left; exact hr
    · right; exact h5 i (by rw [← hll]; exact hi') hr
  refine ⟨?_, hex, hf⟩
  apply hf.inv h
  · intro _
    refine ⟨h2, by rw [r1]; exact h3, ?_⟩
    intro i hi _; exact hex i (by
      have : i < S.size3 id := hi
      rw [← hll] at this; exact this)
  · intro _ j hj hpj
    have := h.disjoint id j (fun e => hj e.symm) hp hpj
    exact this

/-- Writing the block itself, in both cases. -/
theorem writeSelf3_spec (S : FileSt) (id : Nat) (hd : S.data ≠ []) (h : FileInv3 I S)
    (hlen : S.pos id = 0 → (S.st id).len = (I id).first (S.st id).body.length % 2 ^ 16) :
    FileInv3 I (S.writeSelf3 I id) ∧ BExact3 I (S.writeSelf3 I id) id ∧ BFrame3 S (S.writeSelf3 I id) id ∧
    0 < (S.writeSelf3 I id).pos id ∧ (S.writeSelf3 I id).thrown = S.thrown ∧
    ((S.writeSelf3 I id).st id).links = (S.st id).links ∧ ((S.writeSelf3 I id).st id).body = (S.st id).body ∧
    (0 < S.pos id → (S.writeSelf3 I id).pos id = S.pos id) := by
  by_cases hp : 0 < S.pos id
  · have he : S.writeSelf3 I id = S.rewrite3 I id := by unfold FileSt.writeSelf3; rw [if_pos hp]
    rw [he]
    obtain ⟨a, b, c⟩ := rewrite3_spec S id hp h
    exact ⟨a, b, c, hp, rfl, rfl, rfl, fun _ => rfl⟩
  · obtain ⟨a, b, c, d, e, _⟩ := writeSelf3_append_spec (I := I) S id (by omega) hd h (hlen (by omega))
    have h1 := (writeSelf3_append (I := I) S id (by omega) hd (hlen (by omega))).1
    exact ⟨a, b, c, d, e, by rw [h1]; rfl, by rw [h1]; rfl, fun h => absurd h hp⟩

end

end Mdf
