import Verif.Proof.Block

/-! Sequences of block operations, and reading a block header. -/

namespace Mdf

section
variable {I : Nat → Info}

theorem values_inv (S : FileSt) (id : Nat) (body : Bytes) (h : FileInv I S)
    (ha : (BOp.values id body).Allowed I S) : FileInv I (S.step I (.values id body)) := by
  have hf : BFrame S (S.step I (.values id body)) id :=
    ⟨fun j hj => set_st_other S _ hj, fun _ _ _ => Agree.refl _ _ _, Nat.le_refl _⟩
  have hst : (S.step I (.values id body)).st id = { S.st id with body := body } := set_st_same S id _
  have hpos : (S.step I (.values id body)).pos id = S.pos id := by unfold FileSt.pos; rw [hst]
  apply hf.inv h
  · intro hp
    rw [hpos] at hp
    obtain ⟨hl, hb⟩ := ha hp
    obtain ⟨h1, h2, h3, h4, h5⟩ := h.mirror id hp
    refine Mirror.of hst h1 ?_ ?_ h4 ?_
    · show (S.st id).len = 24 + 8 * (S.st id).links.length + body.length
      rw [hl]; exact h2
    · show S.pos id + (24 + 8 * (S.st id).links.length + body.length) ≤ S.data.length
      rw [hl]; exact h3
    · intro i hi hr
      have := h5 i (by have hi' : i < body.length := hi; omega) hr
      exact this.trans (hb i hr).symm
  · intro hp j hj hpj
    rw [hpos] at hp ⊢
    have hz : (S.step I (.values id body)).size id = S.size id := by
      unfold FileSt.size; rw [hst]
      show 24 + 8 * (S.st id).links.length + body.length = _
      rw [(ha hp).1]
    rw [hz]
    have := h.disjoint id j (fun e => hj e.symm) hp hpj
    omega

theorem data_inv (S : FileSt) (bs : Bytes) (h : FileInv I S) : FileInv I (S.step I (.data bs)) := by
  refine ⟨?_, h.disjoint⟩
  intro id hp
  have hm := h.mirror id hp
  refine Mirror.agree (S' := S.step I (.data bs)) hm rfl ?_ ?_
  · exact agree_append _ _ hm.inside
  · show S.data.length ≤ (S.data ++ bs).length
    simp

theorem bstep_ne (S : FileSt) (op : BOp) (h : FileInv I S) (hd : S.data ≠ []) : (S.step I op).data ≠ [] := by
  cases op with
  | start id => exact (start_frame S id).ne hd
  | write id => exact (writeSelf_spec (I := I) S id hd h).2.2.1.ne hd
  | link id i v => exact (updateLink_frame (I := I) S id i v h).ne hd
  | values id body => exact hd
  | data bs => show S.data ++ bs ≠ []; simp [hd]

theorem bstep_inv (S : FileSt) (op : BOp) (h : FileInv I S) (hd : S.data ≠ []) (ha : op.Allowed I S) :
    FileInv I (S.step I op) := by
  cases op with
  | start id => exact start_inv S id h
  | write id => exact (writeSelf_spec (I := I) S id hd h).1
  | link id i v => exact updateLink_inv S id i v h
  | values id body => exact values_inv S id body h ha
  | data bs => exact data_inv S bs h

theorem brun_inv (S : FileSt) (ops : List BOp) (h : FileInv I S) (hd : S.data ≠ []) (ha : AllowedRun I S ops) :
    FileInv I (S.run I ops) ∧ (S.run I ops).data ≠ [] := by
  induction ops generalizing S with
  | nil => exact ⟨h, hd⟩
  | cons op ops ih => exact ih (S.step I op) (bstep_inv S op h hd ha.1) (bstep_ne S op h hd) ha.2

theorem bstep_keeps {n : Nat} {file : Bytes} (S : FileSt) (op : BOp) (h : FileInv I S) (hd : S.data ≠ [])
    (hk : Keeps n file S) : Keeps n file (S.step I op) := by
  obtain ⟨k1, k2, k3⟩ := hk
  cases op with
  | start id =>
    refine ⟨?_, ?_, ?_⟩
    · show n ≤ (S.start I id).data.length; rw [start_data]; exact k1
    · show ∀ q, q < n → (S.start I id).data[q]? = _; rw [start_data]; exact k2
    · intro j hj
      have hj' : 0 < (S.start I id).pos j := hj
      show n ≤ (S.start I id).pos j
      rw [start_pos] at hj' ⊢; exact k3 j hj'
  | write id =>
    show Keeps n file (S.writeSelf I id)
    by_cases hp : 0 < S.pos id
    · have he : S.writeSelf I id = S.rewrite I id := by unfold FileSt.writeSelf; rw [if_pos hp]
      rw [he]
      have hm := h.mirror id hp
      obtain ⟨r1, r2, _⟩ := rewriteFrom_spec (S.st id) (I id).upd S.data hm.inside
      rw [← rewrite_eq] at r1 r2
      refine ⟨by rw [r1]; exact k1, ?_, k3⟩
      intro q hq
      rw [r2 q (by left; have := k3 id hp; have e : S.pos id = (S.st id).pos := rfl; omega)]
      exact k2 q hq
    · obtain ⟨h1, h2, h3, _⟩ := writeSelf_append (I := I) S id (by omega) hd
      have hpad := pad8_length S.data
      refine ⟨?_, ?_, ?_⟩
      · rw [h3]; unfold appendedData; simp; omega
      · intro q hq
        rw [h3]; unfold appendedData pad8
        rw [List.append_assoc, List.append_assoc, List.getElem?_append_left (by omega)]
        exact k2 q hq
      · intro j hj
        by_cases hji : j = id
        · subst hji
          have : (S.writeSelf I j).pos j = (pad8 S.data).length := by unfold FileSt.pos; rw [h1]; rfl
          rw [this]; omega
        · have : (S.writeSelf I id).pos j = S.pos j := by unfold FileSt.pos; rw [h2 j hji]
          rw [this] at hj ⊢; exact k3 j hj
  | link id i v =>
    show Keeps n file (S.updateLink id i v)
    refine ⟨?_, ?_, ?_⟩
    · have := (updateLink_frame (I := I) S id i v h).grow; omega
    · intro q hq
      unfold FileSt.updateLink
      split
      · exact k2 q hq
      next hi =>
        split
        · exact k2 q hq
        · show (if 0 < S.pos id then putAt S.data (S.pos id + 24 + i * 8) (leBytes 8 v) else S.data)[q]? = _
          split
          next hp =>
            have hm := (h.mirror id hp).inside
            have hz : S.size id = 24 + 8 * (S.st id).links.length + (S.st id).body.length := rfl
            have := k3 id hp
            rw [putAt_get (by omega), if_pos (by omega)]; exact k2 q hq
          · exact k2 q hq
    · intro j hj
      rw [updateLink_pos] at hj ⊢; exact k3 j hj
  | values id body =>
    refine ⟨k1, k2, ?_⟩
    intro j hj
    have he : (S.step I (.values id body)).pos j = S.pos j := by
      by_cases hji : j = id
      · subst hji; show ((S.set j _).st j).pos = _; rw [set_st_same]; rfl
      · show ((S.set id _).st j).pos = _; rw [set_st_other S _ hji]; rfl
    rw [he] at hj ⊢; exact k3 j hj
  | data bs =>
    refine ⟨?_, ?_, k3⟩
    · show n ≤ (S.data ++ bs).length; simp; omega
    · intro q hq
      show (S.data ++ bs)[q]? = _
      rw [List.getElem?_append_left (by omega)]; exact k2 q hq

theorem brun_keeps {n : Nat} {file : Bytes} (S : FileSt) (ops : List BOp) (h : FileInv I S) (hd : S.data ≠ [])
    (ha : AllowedRun I S ops) (hk : Keeps n file S) : Keeps n file (S.run I ops) := by
  induction ops generalizing S with
  | nil => exact hk
  | cons op ops ih =>
    exact ih (S.step I op) (bstep_inv S op h hd ha.1) (bstep_ne S op h hd) ha.2 (bstep_keeps S op h hd hk)

/-! ### Reading a header -/

theorem HasAt.drop {data bs : Bytes} {p : Nat} (h : HasAt data p bs) :
    data.drop p = bs ++ data.drop (p + bs.length) := by
  apply List.ext_getElem?
  intro i
  rw [List.getElem?_drop]
  by_cases hi : i < bs.length
  · rw [List.getElem?_append_left hi]; exact h i hi
  · rw [List.getElem?_append_right (by omega), List.getElem?_drop]
    congr 1; omega

theorem readStr_writeStr {ty : Bytes} (h : TypeOk ty) (rest : Bytes) : readStr 4 (writeStr ty 4 ++ rest) = (ty, rest) := by
  unfold readStr
  rw [readStrLoop_write, List.take_of_length_le h.len, takeWhile_all h.zero]
  simp [trim_id h.first h.last]

theorem readLinks_append (ls : List Nat) (rest : Bytes) (h : ∀ l ∈ ls, l < 2 ^ 64) :
    readLinks ls.length (linkBytes ls ++ rest) = some (ls, rest) := by
  induction ls with
  | nil => rfl
  | cons l ls ih =>
    simp only [List.length_cons, readLinks, linkBytes, List.append_assoc]
    rw [readNumber_append (leBytes_length 8 l)]
    simp only [Option.bind_some]
    rw [ih (fun x hx => h x (by simp [hx]))]
    have : leNat (leBytes 8 l) = l := by
      rw [leNat_leBytes, Nat.mod_eq_of_lt]
      have := h l (by simp)
      omega
    simp [this]

theorem readHeader_append {ty : Bytes} {len : Nat} {ls : List Nat} (hty : TypeOk ty) (hlen : len < 2 ^ 64)
    (hn : ls.length < 2 ^ 64) (hl : ∀ l ∈ ls, l < 2 ^ 64) {data : Bytes} {p : Nat} (h : HasAt data p (headerBytes ty len ls)) :
    readHeader data p = some (⟨ty, len, ls⟩, data.drop (p + (24 + 8 * ls.length))) := by
  have hd := h.drop
  rw [headerBytes_length] at hd
  have e1 : leNat (leBytes 8 len) = len := by rw [leNat_leBytes, Nat.mod_eq_of_lt (by omega)]
  have e2 : leNat (leBytes 8 ls.length) = ls.length := by rw [leNat_leBytes, Nat.mod_eq_of_lt (by omega)]
  unfold readHeader
  simp only [hd, headerBytes, List.append_assoc]
  rw [readStr_writeStr hty]
  simp only
  rw [readNumber_append (by simp)]
  simp only [Option.bind_some]
  rw [readNumber_append (leBytes_length 8 len)]
  simp only [Option.bind_some]
  rw [readNumber_append (leBytes_length 8 ls.length)]
  simp only [Option.bind_some, e1, e2]
  rw [readLinks_append ls _ hl]
  simp

end

end Mdf
