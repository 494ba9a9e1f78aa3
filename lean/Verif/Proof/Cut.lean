import Verif.Proof.TreeRead

/-! Reading blocks of a file that was cut off. -/

namespace Mdf

theorem readNumber_prefix {n x : Nat} {a r b : Bytes} (h : readNumber n a = some (x, r)) :
    a.length = n + r.length ∧ readNumber n (a ++ b) = some (x, r ++ b) := by
  unfold readNumber at h ⊢
  split at h
  · exact nomatch h
  · next hl =>
    simp only [Option.some.injEq, Prod.mk.injEq] at h
    obtain ⟨rfl, rfl⟩ := h
    rw [if_neg (by simp only [List.length_append]; omega), List.take_append_of_le_length (by omega),
      List.drop_append_of_le_length (by omega)]
    exact ⟨by rw [List.length_drop]; omega, rfl⟩

theorem readStrLoop_length (n : Nat) (a acc : Bytes) : (readStrLoop n a acc).2.length ≤ a.length := by
  induction n generalizing a acc with
  | zero => exact Nat.le_refl _
  | succ n ih =>
    cases a with
    | nil => exact ih [] _
    | cons c a =>
      simp only [readStrLoop]
      split
      · simp only [List.length_drop, List.length_cons]; omega
      · have := ih a (acc ++ [c]); simp only [List.length_cons]; omega

theorem readStrLoop_append (n : Nat) (a b acc : Bytes) (h : n ≤ a.length) :
    readStrLoop n (a ++ b) acc = ((readStrLoop n a acc).1, (readStrLoop n a acc).2 ++ b) ∧
    (readStrLoop n a acc).2.length = a.length - n := by
  induction n generalizing a acc with
  | zero => exact ⟨rfl, rfl⟩
  | succ n ih =>
    cases a with
    | nil => simp at h
    | cons c a =>
      simp only [List.length_cons] at h
      simp only [readStrLoop, List.cons_append, List.length_cons]
      split
      · rw [List.drop_append_of_le_length (by omega)]
        exact ⟨rfl, by rw [List.length_drop]; omega⟩
      · have := ih a (acc ++ [c]) (by omega)
        exact ⟨this.1, by rw [this.2]; omega⟩

theorem readLinks_prefix {n : Nat} {a b : Bytes} {ls : List Nat} {r : Bytes} (h : readLinks n a = some (ls, r)) :
    a.length = 8 * n + r.length ∧ ls.length = n ∧ readLinks n (a ++ b) = some (ls, r ++ b) := by
  induction n generalizing a ls r with
  | zero =>
    simp only [readLinks, Option.some.injEq, Prod.mk.injEq] at h
    obtain ⟨rfl, rfl⟩ := h
    exact ⟨by simp, rfl, rfl⟩
  | succ n ih =>
    simp only [readLinks] at h ⊢
    cases hx : readNumber 8 a with
    | none => rw [hx] at h; exact nomatch h
    | some x =>
      obtain ⟨x, r1⟩ := x
      rw [hx] at h
      obtain ⟨e1, e2⟩ := readNumber_prefix (b := b) hx
      simp only [Option.bind_some] at h
      cases hy : readLinks n r1 with
      | none => rw [hy] at h; exact nomatch h
      | some y =>
        obtain ⟨ys, r2⟩ := y
        rw [hy] at h
        simp only [Option.map_some, Option.some.injEq, Prod.mk.injEq] at h
        obtain ⟨rfl, rfl⟩ := h
        obtain ⟨f1, f2, f3⟩ := ih hy
        rw [e2]
        simp only [Option.bind_some]
        rw [f3]
        exact ⟨by omega, by simp [f2], rfl⟩

/-- A header that was read is complete, and it is the same if the file goes on. -/
theorem readHeader_prefix {a b : Bytes} {pos : Nat} {h : Hdr} {r : Bytes} (hh : readHeader a pos = some (h, r)) :
    a.length = pos + (24 + 8 * h.links.length) + r.length ∧ readHeader (a ++ b) pos = some (h, r ++ b) := by
  unfold readHeader at hh ⊢
  dsimp only at hh ⊢
  have hlen : 4 ≤ (a.drop pos).length := by
    cases hx : readNumber 4 (readStr 4 (a.drop pos)).2 with
    | none => rw [hx] at hh; exact nomatch hh
    | some x =>
      have := (readNumber_prefix (b := b) (x := x.1) (r := x.2) hx).1
      have h2 := readStrLoop_length 4 (a.drop pos) []
      have h3 : (readStr 4 (a.drop pos)).2 = (readStrLoop 4 (a.drop pos) []).2 := rfl
      rw [h3] at this
      omega
  have hp : pos ≤ a.length := by rw [List.length_drop] at hlen; omega
  obtain ⟨s1, s2⟩ := readStrLoop_append 4 (a.drop pos) b [] hlen
  have e : readStr 4 ((a ++ b).drop pos) = ((readStr 4 (a.drop pos)).1, (readStr 4 (a.drop pos)).2 ++ b) := by
    rw [List.drop_append_of_le_length hp]
    unfold readStr
    dsimp only
    rw [s1]
  have s2' : (readStr 4 (a.drop pos)).2.length = a.length - pos - 4 := by
    rw [List.length_drop] at s2
    exact s2
  rw [e]
  dsimp only
  generalize readStr 4 (a.drop pos) = t at *
  rw [List.length_drop] at hlen
  cases h1 : readNumber 4 t.2 with
  | none => rw [h1] at hh; exact nomatch hh
  | some x1 =>
    rw [h1] at hh
    simp only [Option.bind_some] at hh
    obtain ⟨a1, b1⟩ := readNumber_prefix (b := b) (x := x1.1) (r := x1.2) h1
    rw [b1]
    simp only [Option.bind_some]
    cases h2 : readNumber 8 x1.2 with
    | none => rw [h2] at hh; exact nomatch hh
    | some x2 =>
      rw [h2] at hh
      simp only [Option.bind_some] at hh
      obtain ⟨a2, b2⟩ := readNumber_prefix (b := b) (x := x2.1) (r := x2.2) h2
      rw [b2]
      simp only [Option.bind_some]
      cases h3 : readNumber 8 x2.2 with
      | none => rw [h3] at hh; exact nomatch hh
      | some x3 =>
        rw [h3] at hh
        simp only [Option.bind_some] at hh
        obtain ⟨a3, b3⟩ := readNumber_prefix (b := b) (x := x3.1) (r := x3.2) h3
        rw [b3]
        simp only [Option.bind_some]
        cases h4 : readLinks x3.1 x3.2 with
        | none => rw [h4] at hh; exact nomatch hh
        | some x4 =>
          rw [h4] at hh
          simp only [Option.map_some, Option.some.injEq, Prod.mk.injEq] at hh
          obtain ⟨rfl, rfl⟩ := hh
          obtain ⟨a4, c4, b4⟩ := readLinks_prefix (b := b) (ls := x4.1) (r := x4.2) h4
          rw [b4]
          refine ⟨?_, rfl⟩
          dsimp only
          omega

section
variable {I : Nat → Info} {Sc : Schema} {S : FileSt}

/-- What must be left of a block so that it can be read: the header, and the values if they are numbers. -/
def Readable (I : Nat → Info) (S : FileSt) (k id : Nat) : Prop :=
  S.pos id + (24 + 8 * (S.st id).links.length) ≤ k ∧ (bodyMode (I id).kind = .values → S.pos id + S.size id ≤ k)

instance (k id : Nat) : Decidable (Readable I S k id) := by unfold Readable; exact inferInstance

/-- The values that are read of a block of a file with `k` bytes. -/
def cutBody (I : Nat → Info) (S : FileSt) (k id : Nat) : Bytes :=
  let left := k - (S.pos id + (24 + 8 * (S.st id).links.length))
  match bodyMode (I id).kind with
  | .text => (S.st id).body.take left ++ List.replicate ((S.st id).body.length - left) 0xFF#8
  | _ => (S.st id).body.take left

theorem HasAt.take {d bs : Bytes} {p k : Nat} (h : HasAt d p bs) (hk : p + bs.length ≤ k) : HasAt (d.take k) p bs := by
  intro i hi
  rw [List.getElem?_take, if_pos (by omega)]
  exact h i hi

theorem readHeader_cut (hinv : FileInv I S) (hlen : S.data.length < 2 ^ 63) {id : Nat} (hp : 0 < S.pos id)
    (hty : TypeOk (I id).ty) (k : Nat) :
    readHeader (S.data.take k) (S.pos id) =
      if S.pos id + (24 + 8 * (S.st id).links.length) ≤ k then
        some (⟨(I id).ty, (S.st id).len, (S.st id).links.map (· % 2 ^ 64)⟩,
          (S.data.take k).drop (S.pos id + (24 + 8 * (S.st id).links.length)))
      else none := by
  have hm := hinv.mirror id hp
  have hin := hm.inside
  have hl := hm.len
  unfold FileSt.size at hin hl
  split
  · next h =>
    exact readHeader_mod hty (by omega) (by omega) (hm.header.take (by rw [headerBytes_length]; omega))
  · next h =>
    cases hh : readHeader (S.data.take k) (S.pos id) with
    | none => rfl
    | some x =>
      obtain ⟨x, r⟩ := x
      obtain ⟨e1, e2⟩ := readHeader_prefix (b := S.data.drop k) hh
      rw [List.take_append_drop, readHeader_mod hty (by omega) (by omega) hm.header] at e2
      simp only [Option.some.injEq, Prod.mk.injEq] at e2
      obtain ⟨rfl, _⟩ := e2
      simp only [List.length_map, List.length_take] at e1
      omega

theorem readBody_cut (hinv : FileInv I S) {id : Nat} (hp : 0 < S.pos id) (hb : BExact S id) (k : Nat)
    (hk : S.pos id + (24 + 8 * (S.st id).links.length) ≤ k) :
    readBody (bodyMode (I id).kind) ((S.st id).len - (24 + 8 * (S.st id).links.length))
        ((S.data.take k).drop (S.pos id + (24 + 8 * (S.st id).links.length))) =
      if Readable I S k id then .ok (cutBody I S k id) else .throw := by
  have hm := hinv.mirror id hp
  have hin := hm.inside
  have hl := hm.len
  have hs : S.size id = 24 + 8 * (S.st id).links.length + (S.st id).body.length := rfl
  rw [hs] at hin hl
  have e1 : (S.st id).len - (24 + 8 * (S.st id).links.length) = (S.st id).body.length := by omega
  rw [e1]
  generalize hP : S.pos id + (24 + 8 * (S.st id).links.length) = P at *
  have e2 : ((S.data.take k).drop P).take (S.st id).body.length = (S.st id).body.take (k - P) := by
    have : BExact S id := hb
    unfold BExact at this
    rw [hP] at this
    rw [List.drop_take, this.drop, List.take_take, Nat.min_comm, ← List.take_take, List.take_left' rfl]
  have e3 : ((S.data.take k).drop P).length = min k S.data.length - P := by
    rw [List.length_drop, List.length_take]
  have hr : Readable I S k id ↔ P ≤ k ∧ (bodyMode (I id).kind = .values →
      S.pos id + (24 + 8 * (S.st id).links.length + (S.st id).body.length) ≤ k) := by
    unfold Readable
    rw [hP, hs]
  unfold readBody cutBody
  rw [hP]
  cases hmode : bodyMode (I id).kind with
  | values =>
    simp only [e2, e3]
    rw [hmode] at hr
    by_cases h : S.pos id + (24 + 8 * (S.st id).links.length + (S.st id).body.length) ≤ k
    · rw [if_neg (by omega), if_pos (hr.mpr ⟨hk, fun _ => h⟩)]
    · rw [if_pos (by omega), if_neg fun x => h ((hr.mp x).2 rfl)]
  | text =>
    rw [hmode] at hr
    simp only [e2, e3]
    rw [if_pos (hr.mpr ⟨hk, nofun⟩)]
    by_cases h : k ≤ S.data.length
    · rw [show min k S.data.length = k by omega]
    · rw [show min k S.data.length = S.data.length by omega,
        show (S.st id).body.length - (S.data.length - P) = 0 by omega,
        show (S.st id).body.length - (k - P) = 0 by omega]
  | data =>
    rw [hmode] at hr
    simp only [e2]
    rw [if_pos (hr.mpr ⟨hk, nofun⟩)]

/-- The result of reading from a cut file. -/
def cutRes {α : Type} (c : Prop) [Decidable c] (a : α) : FinRes α := if c then .ok a else .throw

theorem cutRes_pos {α : Type} {c : Prop} [Decidable c] {a : α} (h : c) : cutRes c a = .ok a := if_pos h

theorem cutRes_neg {α : Type} {c : Prop} [Decidable c] {a : α} (h : ¬ c) : cutRes c a = .throw := if_neg h

theorem cutRes_map {α β : Type} {c : Prop} [Decidable c] {a : α} (f : α → β) : (cutRes c a).map f = cutRes c (f a) := by
  unfold cutRes
  split <;> rfl

theorem cutRes_bind {α β : Type} {c d e : Prop} [Decidable c] [Decidable d] [Decidable e] {a : α} {b : β} {f : α → FinRes β}
    (h : c → f a = cutRes d b) (he : e ↔ c ∧ d) : (cutRes c a).bind f = cutRes e b := by
  by_cases hc : c
  · rw [cutRes_pos hc]
    show f a = _
    rw [h hc]
    by_cases hd : d
    · rw [cutRes_pos hd, cutRes_pos (he.mpr ⟨hc, hd⟩)]
    · rw [cutRes_neg hd, cutRes_neg fun x => hd (he.mp x).2]
  · rw [cutRes_neg hc, cutRes_neg fun x => hc (he.mp x).1]
    rfl

theorem readAll_cut {g : Slot → FinRes (List RTree)} {a b : List Slot} {x y : List (List RTree)} {p q r : Prop} [Decidable p]
    [Decidable q] [Decidable r] (ha : readAll g a = cutRes p x) (hb : readAll g b = cutRes q y) (hr : r ↔ p ∧ q) :
    readAll g (a ++ b) = cutRes r (x ++ y) := by
  by_cases hp : p
  · rw [cutRes_pos hp] at ha
    by_cases hq : q
    · rw [cutRes_pos hq] at hb
      rw [cutRes_pos (hr.mpr ⟨hp, hq⟩)]
      exact readAll_append ha hb
    · rw [cutRes_neg hq] at hb
      rw [cutRes_neg fun h => hq (hr.mp h).2]
      clear hr
      induction a generalizing x with
      | nil => exact hb
      | cons s a ih =>
        simp only [readAll, List.cons_append] at ha ⊢
        cases hg : g s with
        | throw => rfl
        | hang => rw [hg] at ha; simp [FinRes.bind] at ha
        | ok k =>
          rw [hg] at ha
          simp only [FinRes.bind] at ha ⊢
          cases hz : readAll g a with
          | throw => rw [hz] at ha; simp [FinRes.map] at ha
          | hang => rw [hz] at ha; simp [FinRes.map] at ha
          | ok z => rw [ih hz]; rfl
  · rw [cutRes_neg hp] at ha
    rw [cutRes_neg fun h => hp (hr.mp h).1]
    clear hr
    induction a with
    | nil => simp [readAll] at ha
    | cons s a ih =>
      simp only [readAll, List.cons_append] at ha ⊢
      cases hg : g s with
      | throw => rfl
      | hang => rw [hg] at ha; simp [FinRes.bind] at ha
      | ok k =>
        rw [hg] at ha
        simp only [FinRes.bind] at ha ⊢
        cases hz : readAll g a with
        | throw => rw [ih hz]; rfl
        | hang => rw [hz] at ha; simp [FinRes.map] at ha
        | ok z => rw [hz] at ha; simp [FinRes.map] at ha

mutual
theorem readNode_cut (hinv : FileInv I S) (hlen : S.data.length < 2 ^ 63) (k : Nat) (n : Node) : ∀ fuel c, n.ids.length ≤ fuel →
    NodeOk I S true n → NodeShape I c n → NodeFits I Sc n →
    readNode Sc (S.data.take k) fuel (I n.id).kind (S.pos n.id) =
      cutRes (∀ id ∈ n.ids, Readable I S k id) (n.view I (cutBody I S k), S.link n.id 0 % 2 ^ 64) := by
  intro fuel c hf hok hshape hfit
  match n, fuel with
  | .mk id pre post, 0 => simp [Node.ids] at hf
  | .mk id pre post, fuel + 1 =>
    simp only [NodeOk] at hok
    simp only [NodeShape] at hshape
    simp only [NodeFits] at hfit
    simp only [Node.ids, List.length_cons, List.length_append] at hf
    obtain ⟨o1, _, o3, o4, o5⟩ := hok
    obtain ⟨hty, _, _, _, _, s1, s2⟩ := hshape
    have r1 := readSlots_cut hinv hlen k pre fuel id (by omega) o4 s1 hfit.2.1
    have r2 := readSlots_cut hinv hlen k post fuel id (by omega) o5 s2 hfit.2.2
    have r := readAll_cut (r := ∀ j ∈ pre.ids ++ post.ids, Readable I S k j) r1 r2 (by
      simp only [List.mem_append]
      exact ⟨fun h => ⟨fun j hj => h j (Or.inl hj), fun j hj => h j (Or.inr hj)⟩, fun h j hj => hj.elim (h.1 j) (h.2 j)⟩)
    simp only [Node.id, readNode]
    rw [readHeader_cut hinv hlen o1 hty]
    by_cases hk : S.pos id + (24 + 8 * (S.st id).links.length) ≤ k
    · rw [if_pos hk]
      simp only [FinRes.ofOption, FinRes.bind, List.length_map]
      rw [readBody_cut hinv o1 (o3 trivial) k hk]
      have : (fun s => if s.chain = true then
            readChain (readNode Sc (S.data.take k) fuel s.kind) fuel (((S.st id).links.map (· % 2 ^ 64)).getD s.index 0)
          else readSingle (readNode Sc (S.data.take k) fuel s.kind) (((S.st id).links.map (· % 2 ^ 64)).getD s.index 0)) =
          readSlot Sc (S.data.take k) fuel ((S.st id).links.map (· % 2 ^ 64)) := rfl
      simp only [this, hfit.1]
      rw [r]
      refine cutRes_bind (c := Readable I S k id) (d := ∀ j ∈ pre.ids ++ post.ids, Readable I S k j) (fun _ => ?_) ?_
      · rw [cutRes_map]
        simp only [map_mod_getD, Node.view]
        rfl
      · simp only [Node.ids, List.mem_cons]
        exact ⟨fun h => ⟨h id (Or.inl rfl), fun j hj => h j (Or.inr hj)⟩, fun h j hj => by
          rcases hj with rfl | hj
          · exact h.1
          · exact h.2 j hj⟩
    · rw [if_neg hk, cutRes_neg]
      · rfl
      · intro h
        exact hk (h id (by simp [Node.ids])).1
theorem readSlots_cut (hinv : FileInv I S) (hlen : S.data.length < 2 ^ 63) (k : Nat) (l : Slots) : ∀ fuel id, l.ids.length ≤ fuel →
    SlotsOk I S true id l → SlotsShape I l → SlotsFits I Sc l →
    readAll (readSlot Sc (S.data.take k) fuel ((S.st id).links.map (· % 2 ^ 64))) l.slots =
      cutRes (∀ id ∈ l.ids, Readable I S k id) (l.views I (cutBody I S k)) := by
  intro fuel id hf hok hshape hfit
  match l with
  | .nil => exact (cutRes_pos (by simp [Slots.ids])).symm
  | .cons s kids rest =>
    simp only [SlotsOk] at hok
    simp only [SlotsShape] at hshape
    simp only [SlotsFits] at hfit
    simp only [Slots.ids, List.length_append] at hf
    have hk := readKids_cut hinv hlen k kids fuel fuel s id s.index (by omega) (by omega) hok.1 hshape.1 hfit.1
    have hr := readSlots_cut hinv hlen k rest fuel id (by omega) hok.2 hshape.2 hfit.2
    simp only [Slots.slots, readAll, Slots.views]
    have : readSlot Sc (S.data.take k) fuel ((S.st id).links.map (· % 2 ^ 64)) s =
        cutRes (∀ id ∈ kids.ids, Readable I S k id) (kids.views I (cutBody I S k)) := by
      unfold readSlot
      rw [map_mod_getD]
      split
      · next h => exact hk.1 h
      · next h => exact hk.2 (by simpa using h)
    rw [this, hr]
    refine cutRes_bind (d := ∀ id ∈ rest.ids, Readable I S k id) (fun _ => cutRes_map _) ?_
    simp only [Slots.ids, List.mem_append]
    exact ⟨fun h => ⟨fun j hj => h j (Or.inl hj), fun j hj => h j (Or.inr hj)⟩, fun h j hj => hj.elim (h.1 j) (h.2 j)⟩
theorem readKids_cut (hinv : FileInv I S) (hlen : S.data.length < 2 ^ 63) (k : Nat) (l : Kids) : ∀ fuel fuel' s tid ti,
    l.ids.length ≤ fuel → l.ids.length ≤ fuel' → KidsOk I S true s tid ti l → KidsShape I s l → KidsFits I Sc l →
    (s.chain = true →
      readChain (readNode Sc (S.data.take k) fuel s.kind) fuel' (S.link tid ti % 2 ^ 64) =
        cutRes (∀ id ∈ l.ids, Readable I S k id) (l.views I (cutBody I S k))) ∧
    (s.chain = false →
      readSingle (readNode Sc (S.data.take k) fuel s.kind) (S.link tid ti % 2 ^ 64) =
        cutRes (∀ id ∈ l.ids, Readable I S k id) (l.views I (cutBody I S k))) := by
  intro fuel fuel' s tid ti hf hf' hok hshape hfit
  match l with
  | .nil =>
    simp only [KidsOk] at hok
    rw [hok, cutRes_pos (by simp [Kids.ids])]
    constructor
    · intro _; cases fuel' <;> simp [readChain, validLink, Kids.views]
    · intro _; simp [readSingle, validLink, Kids.views]
  | .cons n rest =>
    simp only [KidsOk] at hok
    simp only [KidsShape] at hshape
    simp only [KidsFits] at hfit
    simp only [Kids.ids, List.length_append] at hf hf'
    obtain ⟨s1, s2, s3, s4⟩ := hshape
    rcases hok with ⟨_, h, _⟩ | ⟨o1, o2, o3, o4⟩
    · exact absurd h (by simp)
    · have hin := (hinv.mirror n.id o1).inside
      have hn := readNode_cut hinv hlen k n fuel s.chain (by omega) (by simpa using o3) s1 hfit.1
      rw [s2] at hn
      have hpos : S.pos n.id < 2 ^ 63 := by omega
      have hv : validLink (S.link tid ti % 2 ^ 64) = true := by
        rw [o2, Nat.mod_eq_of_lt (by omega)]
        simp [validLink, o1, hpos]
      have hmod : S.link tid ti % 2 ^ 64 = S.pos n.id := by rw [o2, Nat.mod_eq_of_lt (by omega)]
      have hids := n.ids_pos
      constructor
      · intro hc
        cases fuel' with
        | zero => omega
        | succ fuel' =>
          have hr := (readKids_cut hinv hlen k rest fuel fuel' s n.id 0 (by omega) (by omega) (o4 hc) s4 hfit.2).1 hc
          rw [readChain, if_pos hv, hmod, hn]
          refine cutRes_bind (d := ∀ id ∈ rest.ids, Readable I S k id) (fun _ => ?_) ?_
          · dsimp only
            rw [hr, cutRes_map]
            rfl
          · simp only [Kids.ids, List.mem_append]
            exact ⟨fun h => ⟨fun j hj => h j (Or.inl hj), fun j hj => h j (Or.inr hj)⟩, fun h j hj => hj.elim (h.1 j) (h.2 j)⟩
      · intro hc
        have hnil := s3 hc
        match rest with
        | .nil =>
          rw [readSingle, if_pos hv, hmod, hn, cutRes_map]
          simp only [Kids.ids, List.append_nil]
          rfl
        | .cons _ _ => simp [Kids.isNil] at hnil
end

end

end Mdf
