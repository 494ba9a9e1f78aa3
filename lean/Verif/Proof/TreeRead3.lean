import Verif.Proof.TreeWrite3
import Verif.Proof.TreeRead

/-! Reading a written tree of MDF 3 blocks, and writing it again after changes. -/

namespace Mdf

variable {I : Nat → Info3}

/-! ### Headers -/

theorem readLinks3_mod (ls : List Nat) (rest : Bytes) :
    readLinks3 ls.length (links4 ls ++ rest) = some (ls.map (· % 2 ^ 32), rest) := by
  induction ls with
  | nil => rfl
  | cons l ls ih =>
    simp only [List.length_cons, readLinks3, links4, List.append_assoc]
    rw [readNumber_append (leBytes_length 4 l)]
    simp only [Option.bind_some]
    rw [ih, leNat_leBytes]
    simp

theorem readStr_type3 {ty : Bytes} (h : TypeOk3 ty) (rest : Bytes) : readStr 2 (writeStr ty 2 ++ rest) = (ty, rest) := by
  obtain ⟨h1, h2⟩ := h
  match ty, h1 with
  | [a, b], _ =>
    have ha := h2 a (by simp)
    have hb := h2 b (by simp)
    have sp : ∀ c : Byte, 0x41 ≤ c.toNat → isSpace c = false := by
      intro c hc
      have key : ∀ x : Fin 256, 0x41 ≤ x.val → isSpace (BitVec.ofNat 8 x.val) = false := by decide +kernel
      have := key ⟨c.toNat, c.isLt⟩ hc
      simpa using this
    unfold readStr
    rw [readStrLoop_write, List.take_of_length_le (by simp), takeWhile_all]
    · simp only [List.nil_append]
      rw [trim_id]
      · intro x hx; simp at hx; subst hx; exact sp _ ha.1
      · intro x hx; simp at hx; subst hx; exact sp _ hb.1
    · intro c hc e
      subst e
      rcases List.mem_cons.1 hc with e | hc
      · rw [← e] at ha; exact absurd ha.1 (by decide)
      · rcases List.mem_cons.1 hc with e | hc
        · rw [← e] at hb; exact absurd hb.1 (by decide)
        · simp at hc

theorem readHeader3_ok {inf : Info3} {b : BObj} (hty : TypeOk3 inf.ty) (hlen : b.len < 2 ^ 16) (hl : inf.head ≤ b.links.length)
    {data : Bytes} {p : Nat} (h : HasAt data p (lay3 inf b)) :
    ∃ rest, readHeader3 inf.head data p = some ((b.len, (b.links.take inf.head).map (· % 2 ^ 32)),
      b.body.take inf.cut ++ links4 (b.links.drop inf.head) ++ b.body.drop inf.cut ++ rest) := by
  refine ⟨data.drop (p + (lay3 inf b).length), ?_⟩
  have hd := h.drop
  generalize data.drop (p + (lay3 inf b).length) = rest at *
  have hne : inf.ty ≠ [0x23#8, 0x23#8] := by
    intro e
    have := (hty.2 0x23#8 (by rw [e]; simp)).1
    exact absurd this (by decide)
  have e1 : leNat (leBytes 2 b.len) = b.len := by rw [leNat_leBytes, Nat.mod_eq_of_lt (by omega)]
  unfold readHeader3
  simp only [hd, lay3, List.append_assoc]
  rw [readStr_type3 hty]
  simp only
  rw [if_neg hne, readNumber_append (leBytes_length 2 b.len)]
  simp only [Option.bind_some, e1]
  have hk : (b.links.take inf.head).length = inf.head := by simp; omega
  have := readLinks3_mod (b.links.take inf.head)
    (b.body.take inf.cut ++ (links4 (b.links.drop inf.head) ++ (b.body.drop inf.cut ++ rest)))
  rw [hk] at this
  rw [this]
  simp

theorem map_mod_getD3 (ls : List Nat) (i : Nat) : (ls.map (· % 2 ^ 32)).getD i 0 = ls.getD i 0 % 2 ^ 32 := by
  induction ls generalizing i with
  | nil => simp
  | cons l ls ih =>
    cases i with
    | zero => simp
    | succ i => simpa using ih i

section
variable {V : Type}

theorem readAll3_append {g : Slot → FinRes (List (RTree3 V))} {a b : List Slot} {x y : List (List (RTree3 V))}
    (ha : readAll3 g a = .ok x) (hb : readAll3 g b = .ok y) : readAll3 g (a ++ b) = .ok (x ++ y) := by
  induction a generalizing x with
  | nil => simp only [readAll3, FinRes.ok.injEq] at ha; subst ha; simpa using hb
  | cons s a ih =>
    simp only [readAll3, List.cons_append] at ha ⊢
    cases hg : g s with
    | throw => rw [hg] at ha; simp [FinRes.bind] at ha
    | hang => rw [hg] at ha; simp [FinRes.bind] at ha
    | ok k =>
      rw [hg] at ha
      simp only [FinRes.bind] at ha ⊢
      cases hr : readAll3 g a with
      | throw => rw [hr] at ha; simp [FinRes.map] at ha
      | hang => rw [hr] at ha; simp [FinRes.map] at ha
      | ok z =>
        rw [hr] at ha
        simp only [FinRes.map, FinRes.ok.injEq] at ha
        rw [ih hr]
        subst ha
        simp [FinRes.map]

/-- The blocks behind a link. -/
def readSlot3 (G : Getter V) (heads : Nat → Nat) (Sc : Schema) (data : Bytes) (fuel : Nat) (links : List Nat) (s : Slot) :
    FinRes (List (RTree3 V)) :=
  if s.chain then readChain3 (readNode3 G heads Sc data fuel s.kind) fuel (links.getD s.index 0)
  else readSingle3 (readNode3 G heads Sc data fuel s.kind) (links.getD s.index 0)

theorem readNode3_succ (G : Getter V) (heads : Nat → Nat) (Sc : Schema) (data : Bytes) (fuel kind pos : Nat)
    {h : (Nat × List Nat) × Bytes} (hh : readHeader3 (heads kind) data pos = some h) {v : V × List Nat}
    (hv : G kind h.1.1 h.2 = some v) {kids : List (List (RTree3 V))}
    (hk : readAll3 (readSlot3 G heads Sc data fuel (h.1.2 ++ v.2)) (Sc kind) = .ok kids) :
    readNode3 G heads Sc data (fuel + 1) kind pos = .ok (.mk v.1 kids, h.1.2.getD 0 0) := by
  simp only [readNode3, hh, FinRes.ofOption, FinRes.bind, hv]
  have : (fun s => if s.chain = true then readChain3 (readNode3 G heads Sc data fuel s.kind) fuel ((h.1.2 ++ v.2).getD s.index 0)
          else readSingle3 (readNode3 G heads Sc data fuel s.kind) ((h.1.2 ++ v.2).getD s.index 0))
        = readSlot3 G heads Sc data fuel (h.1.2 ++ v.2) := rfl
  rw [this, hk]
  rfl

variable {Sc : Schema} {S : FileSt} {G : Getter V} {heads : Nat → Nat} {val : Nat → V}

mutual
theorem readNode3_ok (hinv : FileInv3 I S) (hlen : S.data.length < 2 ^ 32) (n : Node) : ∀ fuel c, n.ids.length ≤ fuel →
    NodeOk3 I S true n → NodeShape3 I c n → NodeFits3 I Sc n →
    (∀ j ∈ n.ids, Reads3 G heads (I j) (S.st j).body (val j)) →
    ∃ nx, readNode3 G heads Sc S.data fuel (I n.id).kind (S.pos n.id) = .ok (n.view3 val, nx) ∧
      (c = true → nx = S.link n.id 0 % 2 ^ 32) := by
  intro fuel c hf hok hshape hfit hrd
  match n, fuel with
  | .mk id pre post, 0 => simp [Node.ids] at hf
  | .mk id pre post, fuel + 1 =>
    simp only [NodeOk3] at hok
    simp only [NodeShape3] at hshape
    simp only [NodeFits3] at hfit
    simp only [Node.ids, List.length_cons, List.length_append] at hf
    obtain ⟨o1, o2, o3, o4, o5⟩ := hok
    obtain ⟨hch, hhn, _, _, _, s1, s2⟩ := hshape
    have hm := hinv.mirror id o1
    have hl : (S.st id).len < 2 ^ 16 := by
      rw [hm.len]; unfold Info3.decl; exact Nat.mod_lt _ (by decide)
    obtain ⟨w1, w2, w3⟩ := hrd id (by simp [Node.ids])
    obtain ⟨rest, hh⟩ := readHeader3_ok (inf := I id) (b := S.st id) w2 hl (by rw [o2]; exact hhn) (o3 trivial)
    have hg := w3 ((S.st id).links.drop (I id).head) rest (by rw [List.length_drop, o2])
    rw [← hm.len] at hg
    have hlinks : ((S.st id).links.take (I id).head).map (· % 2 ^ 32) ++ ((S.st id).links.drop (I id).head).map (· % 2 ^ 32)
        = (S.st id).links.map (· % 2 ^ 32) := by rw [← List.map_append, List.take_append_drop]
    have r1 := readSlots3_ok hinv hlen pre fuel id (by omega) o4 s1 hfit.2.1 (fun j hj => hrd j (by simp [Node.ids, hj]))
    have r2 := readSlots3_ok hinv hlen post fuel id (by omega) o5 s2 hfit.2.2 (fun j hj => hrd j (by simp [Node.ids, hj]))
    have r := readAll3_append r1 r2
    have key := readNode3_succ G heads Sc S.data fuel (I id).kind (S.pos id) (by rw [w1]; exact hh) hg
      (by rw [hfit.1]; dsimp only; rw [hlinks]; exact r)
    refine ⟨_, key, ?_⟩
    intro hc
    have h0 := hch hc
    rw [map_mod_getD3]
    unfold FileSt.link
    simp only [Node.id]
    congr 1
    rw [List.getD_eq_getElem?_getD, List.getD_eq_getElem?_getD, List.getElem?_take_of_lt h0]
theorem readSlots3_ok (hinv : FileInv3 I S) (hlen : S.data.length < 2 ^ 32) (l : Slots) : ∀ fuel id, l.ids.length ≤ fuel →
    SlotsOk3 I S true id l → SlotsShape3 I l → SlotsFits3 I Sc l →
    (∀ j ∈ l.ids, Reads3 G heads (I j) (S.st j).body (val j)) →
    readAll3 (readSlot3 G heads Sc S.data fuel ((S.st id).links.map (· % 2 ^ 32))) l.slots = .ok (l.views3 val) := by
  intro fuel id hf hok hshape hfit hrd
  match l with
  | .nil => rfl
  | .cons s kids rest =>
    simp only [SlotsOk3] at hok
    simp only [SlotsShape3] at hshape
    simp only [SlotsFits3] at hfit
    simp only [Slots.ids, List.length_append] at hf
    have hk := readKids3_ok hinv hlen kids fuel fuel s id s.index (by omega) (by omega) hok.1 hshape.1 hfit.1
      (fun j hj => hrd j (by simp [Slots.ids, hj]))
    have hr := readSlots3_ok hinv hlen rest fuel id (by omega) hok.2 hshape.2 hfit.2 (fun j hj => hrd j (by simp [Slots.ids, hj]))
    simp only [Slots.slots, readAll3, Slots.views3]
    have : readSlot3 G heads Sc S.data fuel ((S.st id).links.map (· % 2 ^ 32)) s = .ok (kids.views3 val) := by
      unfold readSlot3
      rw [map_mod_getD3]
      split
      · next h => exact hk.1 h
      · next h => exact hk.2 (by simpa using h)
    rw [this, hr]
    rfl
theorem readKids3_ok (hinv : FileInv3 I S) (hlen : S.data.length < 2 ^ 32) (l : Kids) : ∀ fuel fuel' s tid ti,
    l.ids.length ≤ fuel → l.ids.length ≤ fuel' → KidsOk3 I S true s tid ti l → KidsShape3 I s l → KidsFits3 I Sc l →
    (∀ j ∈ l.ids, Reads3 G heads (I j) (S.st j).body (val j)) →
    (s.chain = true →
      readChain3 (readNode3 G heads Sc S.data fuel s.kind) fuel' (S.link tid ti % 2 ^ 32) = .ok (l.views3 val)) ∧
    (s.chain = false →
      readSingle3 (readNode3 G heads Sc S.data fuel s.kind) (S.link tid ti % 2 ^ 32) = .ok (l.views3 val)) := by
  intro fuel fuel' s tid ti hf hf' hok hshape hfit hrd
  match l with
  | .nil =>
    simp only [KidsOk3] at hok
    rw [hok]
    constructor
    · intro _; cases fuel' <;> simp [readChain3, Kids.views3]
    · intro _; simp [readSingle3, Kids.views3]
  | .cons n rest =>
    simp only [KidsOk3] at hok
    simp only [KidsShape3] at hshape
    simp only [KidsFits3] at hfit
    simp only [Kids.ids, List.length_append] at hf hf'
    obtain ⟨s1, s2, s3, s4⟩ := hshape
    rcases hok with ⟨_, h, _⟩ | ⟨o1, o2, o3, o4⟩
    · exact absurd h (by simp)
    · have hin := (hinv.mirror n.id o1).inside
      obtain ⟨nx, hn, hnx⟩ := readNode3_ok hinv hlen n fuel s.chain (by omega) (by simpa using o3) s1 hfit.1
        (fun j hj => hrd j (by simp [Kids.ids, hj]))
      rw [s2] at hn
      have hpos : S.pos n.id < 2 ^ 32 := by omega
      have hmod : S.link tid ti % 2 ^ 32 = S.pos n.id := by rw [o2, Nat.mod_eq_of_lt (by omega)]
      have hids := n.ids_pos
      constructor
      · intro hc
        cases fuel' with
        | zero => omega
        | succ fuel' =>
          have hr := (readKids3_ok hinv hlen rest fuel fuel' s n.id 0 (by omega) (by omega) (o4 hc) s4 hfit.2
            (fun j hj => hrd j (by simp [Kids.ids, hj]))).1 hc
          rw [readChain3, hmod, if_pos o1, hn]
          simp only [FinRes.bind]
          rw [hnx hc, hr]
          rfl
      · intro hc
        have hnil := s3 hc
        match rest with
        | .nil =>
          rw [readSingle3, hmod, if_pos o1, hn]
          rfl
        | .cons _ _ => simp [Kids.isNil] at hnil
end

end

/-! ### Changes between two writes -/

section
variable {S S' : FileSt}

/-- The values of `id` are as they were if the block is not live. -/
structure Quiet3 (I : Nat → Info3) (live : List Nat) (S S' : FileSt) : Prop where
  inv : FileInv3 I S
  data : S'.data = S.data
  pos : ∀ id, S'.pos id = S.pos id
  links : ∀ id, 0 < S.pos id → (S'.st id).links = (S.st id).links
  len : ∀ id, 0 < S.pos id → (S'.st id).len = (S.st id).len
  values : ∀ id, 0 < S.pos id → id ∉ live → (S'.st id).body = (S.st id).body

theorem Quiet3.exact {live : List Nat} (hq : Quiet3 I live S S') {id : Nat} (h : 0 < S.pos id) (hl : id ∉ live)
    (he : BExact3 I S id) : BExact3 I S' id := by
  unfold BExact3 at he ⊢
  have e : lay3 (I id) (S'.st id) = lay3 (I id) (S.st id) := by
    unfold lay3; rw [hq.links id h, hq.len id h, hq.values id h hl]
  rw [hq.pos id, hq.data, e]
  exact he

mutual
/-- Nothing changed below. -/
theorem NodeOk3.quiet {live : List Nat} (hq : Quiet3 I live S S') (n : Node) (hl : ∀ j ∈ n.ids, j ∉ live)
    (h : NodeOk3 I S true n) : NodeOk3 I S' true n := by
  match n with
  | .mk id pre post =>
    simp only [NodeOk3] at h ⊢
    obtain ⟨h1, h2, h3, h4, h5⟩ := h
    refine ⟨by rw [hq.pos]; exact h1, by rw [hq.links id h1]; exact h2, fun _ => ?_, ?_, ?_⟩
    · exact hq.exact h1 (hl id (by simp [Node.ids])) (h3 trivial)
    · exact SlotsOk3.quiet hq pre h1 (fun j hj => hl j (by simp [Node.ids, hj])) h4
    · exact SlotsOk3.quiet hq post h1 (fun j hj => hl j (by simp [Node.ids, hj])) h5
theorem SlotsOk3.quiet {live : List Nat} (hq : Quiet3 I live S S') (l : Slots) {id : Nat} (hp : 0 < S.pos id)
    (hl : ∀ j ∈ l.ids, j ∉ live) (h : SlotsOk3 I S true id l) : SlotsOk3 I S' true id l := by
  match l with
  | .nil => trivial
  | .cons s kids rest =>
    simp only [SlotsOk3] at h ⊢
    exact ⟨KidsOk3.quiet hq kids hp (fun j hj => hl j (by simp [Slots.ids, hj])) h.1,
      SlotsOk3.quiet hq rest hp (fun j hj => hl j (by simp [Slots.ids, hj])) h.2⟩
theorem KidsOk3.quiet {live : List Nat} (hq : Quiet3 I live S S') (l : Kids) {s : Slot} {tid ti : Nat} (hp : 0 < S.pos tid)
    (hl : ∀ j ∈ l.ids, j ∉ live) (h : KidsOk3 I S true s tid ti l) : KidsOk3 I S' true s tid ti l := by
  match l with
  | .nil => simp only [KidsOk3] at h ⊢; rw [edited_link hq.links hp]; exact h
  | .cons n rest =>
    simp only [KidsOk3] at h ⊢
    rcases h with ⟨_, h, _⟩ | ⟨o1, o2, o3, o4⟩
    · exact absurd h (by simp)
    · right
      refine ⟨by rw [hq.pos]; exact o1, by rw [edited_link hq.links hp, hq.pos]; exact o2, ?_, fun hc => ?_⟩
      · exact NodeOk3.quiet hq n (fun j hj => hl j (by simp [Kids.ids, hj])) o3
      · exact KidsOk3.quiet hq rest o1 (fun j hj => hl j (by simp [Kids.ids, hj])) (o4 hc)
end

mutual
theorem Node.live3_sub (n : Node) : ∀ j ∈ n.live3, j ∈ n.ids := by
  match n with
  | .mk id pre post =>
    intro j hj
    simp only [Node.live3, List.mem_cons] at hj
    simp only [Node.ids, List.mem_cons, List.mem_append]
    rcases hj with h | h
    · exact Or.inl h
    · exact Or.inr (Or.inr (Slots.live3_sub post j h))
theorem Slots.live3_sub (l : Slots) : ∀ j ∈ l.live3, j ∈ l.ids := by
  match l with
  | .nil => intro j hj; simp [Slots.live3] at hj
  | .cons s kids rest =>
    intro j hj
    simp only [Slots.live3, List.mem_append] at hj
    simp only [Slots.ids, List.mem_append]
    rcases hj with h | h
    · exact Or.inl (Kids.live3_sub s.opt kids j h)
    · exact Or.inr (Slots.live3_sub rest j h)
theorem Kids.live3_sub (opt : UpdOpt) (l : Kids) : ∀ j ∈ l.live3 opt, j ∈ l.ids := by
  match l with
  | .nil => intro j hj; simp [Kids.live3] at hj
  | .cons n rest =>
    intro j hj
    simp only [Kids.live3, List.mem_append] at hj
    simp only [Kids.ids, List.mem_append]
    rcases hj with h | h
    · split at h
      · exact Or.inl (Node.live3_sub n j h)
      · simp at h
    · exact Or.inr (Kids.live3_sub opt rest j h)
end

theorem NodeGrown3.id_eq {n n' : Node} (h : NodeGrown3 S n n') : n'.id = n.id := by
  cases n; cases n'
  simp only [NodeGrown3] at h
  exact h.1

mutual
theorem NodeOk3.grown {live : List Nat} (hq : Quiet3 I live S S') (n n' : Node)
    (hl : ∀ j ∈ n'.ids, j ∉ n'.live3 → j ∉ live) (hnd : n'.ids.Nodup) (h : NodeOk3 I S true n) (hg : NodeGrown3 S' n n') :
    NodeOk3 I S' false n' := by
  match n, n' with
  | .mk id pre post, .mk id' pre' post' =>
    simp only [NodeGrown3] at hg
    obtain ⟨g1, g2, g3⟩ := hg
    subst g1
    subst g2
    simp only [NodeOk3] at h ⊢
    obtain ⟨h1, h2, _, h4, h5⟩ := h
    simp only [Node.ids, List.nodup_cons, List.mem_append, not_or] at hnd
    obtain ⟨⟨hi1, hi2⟩, hnd2⟩ := hnd
    obtain ⟨n1, n2, nd⟩ := List.nodup_append.1 hnd2
    refine ⟨by rw [hq.pos]; exact h1, by rw [hq.links _ h1]; exact h2, fun hc => absurd hc (by simp), ?_, ?_⟩
    · apply SlotsOk3.quiet hq _ h1 _ h4
      intro j hj
      apply hl j (by simp [Node.ids, hj])
      simp only [Node.live3, List.mem_cons, not_or]
      exact ⟨fun e => hi1 (e ▸ hj), fun hx => nd j hj j (Slots.live3_sub _ j hx) rfl⟩
    · apply SlotsOk3.grown hq post post' h1 _ n2 h5 g3
      intro j hj hj'
      apply hl j (by simp [Node.ids, hj])
      simp only [Node.live3, List.mem_cons, not_or]
      exact ⟨fun e => hi2 (e ▸ hj), hj'⟩
theorem SlotsOk3.grown {live : List Nat} (hq : Quiet3 I live S S') (l l' : Slots) {id : Nat} (hp : 0 < S.pos id)
    (hl : ∀ j ∈ l'.ids, j ∉ l'.live3 → j ∉ live) (hnd : l'.ids.Nodup) (h : SlotsOk3 I S true id l) (hg : SlotsGrown3 S' l l') :
    SlotsOk3 I S' false id l' := by
  match l, l' with
  | .nil, .nil => trivial
  | .nil, .cons _ _ _ => simp [SlotsGrown3] at hg
  | .cons _ _ _, .nil => simp [SlotsGrown3] at hg
  | .cons s kids rest, .cons s' kids' rest' =>
    simp only [SlotsGrown3] at hg
    obtain ⟨g1, g2, g3⟩ := hg
    subst g1
    simp only [SlotsOk3] at h ⊢
    simp only [Slots.ids] at hnd
    obtain ⟨n1, n2, nd⟩ := List.nodup_append.1 hnd
    constructor
    · apply KidsOk3.grown hq kids kids' hp _ n1 h.1 g2
      intro j hj hj'
      apply hl j (by simp [Slots.ids, hj])
      simp only [Slots.live3, List.mem_append, not_or]
      exact ⟨hj', fun hx => nd j hj j (Slots.live3_sub rest' j hx) rfl⟩
    · apply SlotsOk3.grown hq rest rest' hp _ n2 h.2 g3
      intro j hj hj'
      apply hl j (by simp [Slots.ids, hj])
      simp only [Slots.live3, List.mem_append, not_or]
      exact ⟨fun hx => nd j (Kids.live3_sub _ kids' j hx) j hj rfl, hj'⟩
theorem KidsOk3.grown {live : List Nat} (hq : Quiet3 I live S S') (l l' : Kids) {s : Slot} {tid ti : Nat} (hp : 0 < S.pos tid)
    (hl : ∀ j ∈ l'.ids, j ∉ l'.live3 s.opt → j ∉ live) (hnd : l'.ids.Nodup)
    (h : KidsOk3 I S true s tid ti l) (hg : KidsGrown3 S' s.opt l l') : KidsOk3 I S' false s tid ti l' := by
  match l, l' with
  | .nil, l' =>
    simp only [KidsGrown3] at hg
    simp only [KidsOk3] at h
    exact KidsOk3.of_fresh l' (by rw [edited_link hq.links hp]; exact h) hg
  | .cons _ _, .nil => simp [KidsGrown3] at hg
  | .cons n rest, .cons n' rest' =>
    simp only [KidsGrown3] at hg
    obtain ⟨g1, g2⟩ := hg
    simp only [Kids.ids] at hnd
    obtain ⟨nd1, nd2, nd⟩ := List.nodup_append.1 hnd
    simp only [KidsOk3] at h ⊢
    have hrest : ∀ j ∈ rest'.ids, j ∉ rest'.live3 s.opt → j ∉ live := by
      intro j hj hj'
      apply hl j (by simp [Kids.ids, hj])
      simp only [Kids.live3, List.mem_append, not_or]
      refine ⟨fun hx => ?_, hj'⟩
      split at hx
      · exact nd j (Node.live3_sub n' j hx) j hj rfl
      · simp at hx
    rcases h with ⟨_, h, _⟩ | ⟨o1, o2, o3, o4⟩
    · exact absurd h (by simp)
    · right
      have hid : n'.id = n.id := by
        split at g1
        · exact g1.id_eq
        · rw [g1]
      rw [hid]
      refine ⟨by rw [hq.pos]; exact o1, by rw [edited_link hq.links hp, hq.pos]; exact o2, ?_, fun hc => ?_⟩
      · by_cases ha : s.opt.again rest'.isNil = true
        · rw [if_pos ha] at g1
          have hf : (false || !s.opt.again rest'.isNil) = false := by simp [ha]
          rw [hf]
          apply NodeOk3.grown hq n n' _ nd1 (by simpa using o3) g1
          intro j hj hj'
          apply hl j (by simp [Kids.ids, hj])
          simp only [Kids.live3, List.mem_append, not_or]
          rw [if_pos ha]
          exact ⟨hj', fun hx => nd j hj j (Kids.live3_sub _ rest' j hx) rfl⟩
        · rw [if_neg ha] at g1
          subst g1
          have hf : (false || !s.opt.again rest'.isNil) = true := by simp [ha]
          rw [hf]
          apply NodeOk3.quiet hq _ _ (by simpa using o3)
          intro j hj
          apply hl j (by simp [Kids.ids, hj])
          simp only [Kids.live3, List.mem_append, not_or]
          rw [if_neg ha]
          exact ⟨by simp, fun hx => nd j hj j (Kids.live3_sub _ rest' j hx) rfl⟩
      · exact KidsOk3.grown hq rest rest' o1 hrest nd2 (o4 hc) g2
end

theorem Edited3.quiet {n n' : Node} (h : Edited3 I S n S' n') (hinv : FileInv3 I S) : Quiet3 I n'.live3 S S' :=
  ⟨hinv, h.data, h.pos, fun id hp => (h.kept id hp).2.1, fun id hp => (h.kept id hp).1, h.values⟩

theorem Edited3.size {n n' : Node} (h : Edited3 I S n S' n') {id : Nat} (hp : 0 < S.pos id) : S'.size3 id = S.size3 id := by
  unfold FileSt.size3
  rw [(h.kept id hp).2.1, (h.kept id hp).2.2.1]

theorem Edited3.inv {n n' : Node} (h : Edited3 I S n S' n') (hinv : FileInv3 I S) : FileInv3 I S' := by
  constructor
  · intro id hp
    rw [h.pos] at hp
    have hm := hinv.mirror id hp
    obtain ⟨k1, k2, k3, k4⟩ := h.kept id hp
    have hsz := h.size hp
    constructor
    · rw [k1, k3]; exact hm.len
    · rw [h.pos, hsz, h.data]; exact hm.inside
    · intro i hi hr
      rw [hsz] at hi
      rw [h.pos, h.data, k4 i hr]
      exact hm.bytes i hi hr
  · intro a b hab ha hb
    rw [h.pos] at ha hb ⊢
    rw [h.pos, h.size ha, h.size hb]
    exact hinv.disjoint a b hab ha hb

theorem Edited3.free {n n' : Node} (h : Edited3 I S n S' n') {q : Nat} (hf : S.Free3 q) : S'.Free3 q := by
  intro id hp
  rw [h.pos] at hp ⊢
  rw [h.size hp]
  exact hf id hp

end

end Mdf
