import Verif.Proof.TreeWrite

/-! Reading a written tree of blocks, and writing it again after changes. -/

namespace Mdf

variable {I : Nat → Info}

/-! ### Headers -/

theorem readLinks_mod (ls : List Nat) (rest : Bytes) :
    readLinks ls.length (linkBytes ls ++ rest) = some (ls.map (· % 2 ^ 64), rest) := by
  induction ls with
  | nil => rfl
  | cons l ls ih =>
    simp only [List.length_cons, readLinks, linkBytes, List.append_assoc]
    rw [readNumber_append (leBytes_length 8 l)]
    simp only [Option.bind_some]
    rw [ih, leNat_leBytes]
    simp

theorem readHeader_mod {ty : Bytes} {len : Nat} {ls : List Nat} (hty : TypeOk ty) (hlen : len < 2 ^ 64)
    (hn : ls.length < 2 ^ 64) {data : Bytes} {p : Nat} (h : HasAt data p (headerBytes ty len ls)) :
    readHeader data p = some (⟨ty, len, ls.map (· % 2 ^ 64)⟩, data.drop (p + (24 + 8 * ls.length))) := by
  have hd := h.drop
  rw [headerBytes_length] at hd
  have e1 : leNat (leBytes 8 len) = len := by rw [leNat_leBytes, Nat.mod_eq_of_lt (by omega)]
  have e2 : leNat (leBytes 8 ls.length) = ls.length := by rw [leNat_leBytes, Nat.mod_eq_of_lt (by omega)]
  unfold readHeader
  simp only [hd, headerBytes, List.append_assoc]
  rw [readStr_writeStr hty]
  simp only
  rw [readNumber_append (by simp)]
  simp only [Option.bind_some]
  rw [readNumber_append (leBytes_length 8 len)]
  simp only [Option.bind_some]
  rw [readNumber_append (leBytes_length 8 ls.length)]
  simp only [Option.bind_some, e1, e2]
  rw [readLinks_mod ls _]
  simp

theorem map_mod_getD (ls : List Nat) (i : Nat) : (ls.map (· % 2 ^ 64)).getD i 0 = ls.getD i 0 % 2 ^ 64 := by
  induction ls generalizing i with
  | nil => simp
  | cons l ls ih =>
    cases i with
    | zero => simp
    | succ i => simpa using ih i

theorem readAll_append {g : Slot → FinRes (List RTree)} {a b : List Slot} {x y : List (List RTree)}
    (ha : readAll g a = .ok x) (hb : readAll g b = .ok y) : readAll g (a ++ b) = .ok (x ++ y) := by
  induction a generalizing x with
  | nil => simp only [readAll, FinRes.ok.injEq] at ha; subst ha; simpa using hb
  | cons s a ih =>
    simp only [readAll, List.cons_append] at ha ⊢
    cases hg : g s with
    | throw => rw [hg] at ha; simp [FinRes.bind] at ha
    | hang => rw [hg] at ha; simp [FinRes.bind] at ha
    | ok k =>
      rw [hg] at ha
      simp only [FinRes.bind] at ha ⊢
      cases hr : readAll g a with
      | throw => rw [hr] at ha; simp [FinRes.map] at ha
      | hang => rw [hr] at ha; simp [FinRes.map] at ha
      | ok z =>
        rw [hr] at ha
        simp only [FinRes.map, FinRes.ok.injEq] at ha
        rw [ih hr]
        subst ha
        simp [FinRes.map]

/-- The blocks behind a link. -/
def readSlot (Sc : Schema) (data : Bytes) (fuel : Nat) (links : List Nat) (s : Slot) : FinRes (List RTree) :=
  if s.chain then readChain (readNode Sc data fuel s.kind) fuel (links.getD s.index 0)
  else readSingle (readNode Sc data fuel s.kind) (links.getD s.index 0)

theorem readBody_ok (mode : BodyMode) {size : Nat} {rest : Bytes} (h : size ≤ rest.length) :
    readBody mode size rest = .ok (rest.take size) := by
  cases mode with
  | values => exact if_neg (by omega)
  | text => simp [readBody, show size - rest.length = 0 by omega]
  | data => rfl

theorem readNode_succ (Sc : Schema) (data : Bytes) (fuel kind pos : Nat) {h : Hdr × Bytes} (hh : readHeader data pos = some h)
    (hs : h.1.len - (24 + 8 * h.1.links.length) ≤ h.2.length) {kids : List (List RTree)}
    (hk : readAll (readSlot Sc data fuel h.1.links) (Sc kind) = .ok kids) :
    readNode Sc data (fuel + 1) kind pos =
      .ok (.mk h.1.ty (h.2.take (h.1.len - (24 + 8 * h.1.links.length))) kids, h.1.links.getD 0 0) := by
  simp only [readNode, hh, FinRes.ofOption, FinRes.bind]
  rw [readBody_ok _ hs]
  have : (fun s => if s.chain = true then readChain (readNode Sc data fuel s.kind) fuel (h.1.links.getD s.index 0)
          else readSingle (readNode Sc data fuel s.kind) (h.1.links.getD s.index 0)) = readSlot Sc data fuel h.1.links := rfl
  simp only
  rw [this, hk]
  rfl

theorem Node.ids_pos (n : Node) : 0 < n.ids.length := List.length_pos_of_mem n.id_mem

section
variable {Sc : Schema} {S : FileSt}

mutual
theorem readNode_ok (hinv : FileInv I S) (hlen : S.data.length < 2 ^ 63) (n : Node) : ∀ fuel c, n.ids.length ≤ fuel →
    NodeOk I S true n → NodeShape I c n → NodeFits I Sc n →
    readNode Sc S.data fuel (I n.id).kind (S.pos n.id) = .ok (n.view I S.bodies, S.link n.id 0 % 2 ^ 64) := by
  intro fuel c hf hok hshape hfit
  match n, fuel with
  | .mk id pre post, 0 => simp [Node.ids] at hf
  | .mk id pre post, fuel + 1 =>
    simp only [NodeOk] at hok
    simp only [NodeShape] at hshape
    simp only [NodeFits] at hfit
    simp only [Node.ids, List.length_cons, List.length_append] at hf
    obtain ⟨o1, _, o3, o4, o5⟩ := hok
    obtain ⟨hty, _, _, _, _, s1, s2⟩ := hshape
    have hm := hinv.mirror id o1
    have hin := hm.inside
    have hl := hm.len
    unfold FileSt.size at hin hl
    have hh := readHeader_mod hty (by omega) (by omega) hm.header
    have r1 := readSlots_ok hinv hlen pre fuel id (by omega) o4 s1 hfit.2.1
    have r2 := readSlots_ok hinv hlen post fuel id (by omega) o5 s2 hfit.2.2
    have r := readAll_append r1 r2
    have key := readNode_succ Sc S.data fuel (I id).kind (S.pos id) hh
      (by simp only [List.length_map, List.length_drop]; omega) (by rw [hfit.1]; exact r)
    simp only [Node.id]
    rw [key]
    have hb : (S.data.drop (S.pos id + (24 + 8 * (S.st id).links.length))).take (S.st id).body.length = (S.st id).body := by
      rw [(o3 trivial).drop, List.take_left' rfl]
    simp only [List.length_map, map_mod_getD, Node.view, FinRes.ok.injEq, Prod.mk.injEq, RTree.mk.injEq, true_and, and_true]
    refine ⟨?_, rfl⟩
    rw [hl, show 24 + 8 * (S.st id).links.length + (S.st id).body.length - (24 + 8 * (S.st id).links.length) = (S.st id).body.length
      by omega]
    exact hb
theorem readSlots_ok (hinv : FileInv I S) (hlen : S.data.length < 2 ^ 63) (l : Slots) : ∀ fuel id, l.ids.length ≤ fuel →
    SlotsOk I S true id l → SlotsShape I l → SlotsFits I Sc l →
    readAll (readSlot Sc S.data fuel ((S.st id).links.map (· % 2 ^ 64))) l.slots = .ok (l.views I S.bodies) := by
  intro fuel id hf hok hshape hfit
  match l with
  | .nil => rfl
  | .cons s kids rest =>
    simp only [SlotsOk] at hok
    simp only [SlotsShape] at hshape
    simp only [SlotsFits] at hfit
    simp only [Slots.ids, List.length_append] at hf
    have hk := readKids_ok hinv hlen kids fuel fuel s id s.index (by omega) (by omega) hok.1 hshape.1 hfit.1
    have hr := readSlots_ok hinv hlen rest fuel id (by omega) hok.2 hshape.2 hfit.2
    simp only [Slots.slots, readAll, Slots.views]
    have : readSlot Sc S.data fuel ((S.st id).links.map (· % 2 ^ 64)) s = .ok (kids.views I S.bodies) := by
      unfold readSlot
      rw [map_mod_getD]
      split
      · next h => exact hk.1 h
      · next h => exact hk.2 (by simpa using h)
    rw [this, hr]
    rfl
theorem readKids_ok (hinv : FileInv I S) (hlen : S.data.length < 2 ^ 63) (l : Kids) : ∀ fuel fuel' s tid ti,
    l.ids.length ≤ fuel → l.ids.length ≤ fuel' → KidsOk I S true s tid ti l → KidsShape I s l → KidsFits I Sc l →
    (s.chain = true →
      readChain (readNode Sc S.data fuel s.kind) fuel' (S.link tid ti % 2 ^ 64) = .ok (l.views I S.bodies)) ∧
    (s.chain = false →
      readSingle (readNode Sc S.data fuel s.kind) (S.link tid ti % 2 ^ 64) = .ok (l.views I S.bodies)) := by
  intro fuel fuel' s tid ti hf hf' hok hshape hfit
  match l with
  | .nil =>
    simp only [KidsOk] at hok
    rw [hok]
    constructor
    · intro _; cases fuel' <;> simp [readChain, validLink, Kids.views]
    · intro _; simp [readSingle, validLink, Kids.views]
  | .cons n rest =>
    simp only [KidsOk] at hok
    simp only [KidsShape] at hshape
    simp only [KidsFits] at hfit
    simp only [Kids.ids, List.length_append] at hf hf'
    obtain ⟨s1, s2, s3, s4⟩ := hshape
    rcases hok with ⟨_, h, _⟩ | ⟨o1, o2, o3, o4⟩
    · exact absurd h (by simp)
    · have hin := (hinv.mirror n.id o1).inside
      have hn := readNode_ok hinv hlen n fuel s.chain (by omega) (by simpa using o3) s1 hfit.1
      rw [s2] at hn
      have hpos : S.pos n.id < 2 ^ 63 := by omega
      have hv : validLink (S.link tid ti % 2 ^ 64) = true := by
        rw [o2, Nat.mod_eq_of_lt (by omega)]
        simp [validLink, o1, hpos]
      have hmod : S.link tid ti % 2 ^ 64 = S.pos n.id := by rw [o2, Nat.mod_eq_of_lt (by omega)]
      have hids := n.ids_pos
      constructor
      · intro hc
        cases fuel' with
        | zero => omega
        | succ fuel' =>
          have hr := (readKids_ok hinv hlen rest fuel fuel' s n.id 0 (by omega) (by omega) (o4 hc) s4 hfit.2).1 hc
          rw [readChain, if_pos hv, hmod, hn]
          simp only [FinRes.bind]
          rw [hr]
          rfl
      · intro hc
        have hnil := s3 hc
        match rest with
        | .nil =>
          rw [readSingle, if_pos hv, hmod, hn]
          rfl
        | .cons _ _ => simp [Kids.isNil] at hnil
end

end

/-! ### Views depend on the values only -/

mutual
theorem Node.view_congr {f g : Nat → Bytes} (n : Node) (h : ∀ j ∈ n.ids, f j = g j) : n.view I f = n.view I g := by
  match n with
  | .mk id pre post =>
    simp only [Node.view]
    rw [h id (by simp [Node.ids]), Slots.views_congr pre (fun j hj => h j (by simp [Node.ids, hj])),
      Slots.views_congr post (fun j hj => h j (by simp [Node.ids, hj]))]
theorem Slots.views_congr {f g : Nat → Bytes} (l : Slots) (h : ∀ j ∈ l.ids, f j = g j) : l.views I f = l.views I g := by
  match l with
  | .nil => rfl
  | .cons s kids rest =>
    simp only [Slots.views]
    rw [Kids.views_congr kids (fun j hj => h j (by simp [Slots.ids, hj])),
      Slots.views_congr rest (fun j hj => h j (by simp [Slots.ids, hj]))]
theorem Kids.views_congr {f g : Nat → Bytes} (l : Kids) (h : ∀ j ∈ l.ids, f j = g j) : l.views I f = l.views I g := by
  match l with
  | .nil => rfl
  | .cons n rest =>
    simp only [Kids.views]
    rw [Node.view_congr n (fun j hj => h j (by simp [Kids.ids, hj])),
      Kids.views_congr rest (fun j hj => h j (by simp [Kids.ids, hj]))]
end

/-! ### Changes between two writes -/

section
variable {S S' : FileSt}

theorem edited_link (hp : ∀ id, 0 < S.pos id → (S'.st id).links = (S.st id).links) {id : Nat} (h : 0 < S.pos id) (i : Nat) :
    S'.link id i = S.link id i := by
  unfold FileSt.link; rw [hp id h]

/-- The data of a block in the file is there also after something was appended. -/
theorem edited_exact (hinv : FileInv I S) (hd : ∃ bs, S'.data = S.data ++ bs) (hpos : ∀ id, S'.pos id = S.pos id)
    (hlinks : ∀ id, 0 < S.pos id → (S'.st id).links = (S.st id).links) {id : Nat} (h : 0 < S.pos id)
    (hb : (S'.st id).body = (S.st id).body) (he : BExact S id) : BExact S' id := by
  obtain ⟨bs, hbs⟩ := hd
  have hin := (hinv.mirror id h).inside
  unfold FileSt.size at hin
  unfold BExact at he ⊢
  rw [hpos id, hlinks id h, hb, hbs]
  exact he.agree (agree_append _ _ (by omega))

/-- The values of `id` are as they were if the block is not live. -/
structure Quiet (I : Nat → Info) (live : List Nat) (S S' : FileSt) : Prop where
  inv : FileInv I S
  data : ∃ bs, S'.data = S.data ++ bs
  pos : ∀ id, S'.pos id = S.pos id
  links : ∀ id, 0 < S.pos id → (S'.st id).links = (S.st id).links
  values : ∀ id, 0 < S.pos id → id ∉ live → (S'.st id).body = (S.st id).body

mutual
/-- Nothing changed below. -/
theorem NodeOk.quiet {live : List Nat} (hq : Quiet I live S S') (n : Node) (hl : ∀ j ∈ n.ids, j ∉ live)
    (h : NodeOk I S true n) : NodeOk I S' true n := by
  match n with
  | .mk id pre post =>
    simp only [NodeOk] at h ⊢
    obtain ⟨h1, h2, h3, h4, h5⟩ := h
    refine ⟨by rw [hq.pos]; exact h1, by rw [hq.links id h1]; exact h2, fun _ => ?_, ?_, ?_⟩
    · exact edited_exact hq.inv hq.data hq.pos hq.links h1 (hq.values id h1 (hl id (by simp [Node.ids]))) (h3 trivial)
    · exact SlotsOk.quiet hq pre h1 (fun j hj => hl j (by simp [Node.ids, hj])) h4
    · exact SlotsOk.quiet hq post h1 (fun j hj => hl j (by simp [Node.ids, hj])) h5
theorem SlotsOk.quiet {live : List Nat} (hq : Quiet I live S S') (l : Slots) {id : Nat} (hp : 0 < S.pos id)
    (hl : ∀ j ∈ l.ids, j ∉ live) (h : SlotsOk I S true id l) : SlotsOk I S' true id l := by
  match l with
  | .nil => trivial
  | .cons s kids rest =>
    simp only [SlotsOk] at h ⊢
    exact ⟨KidsOk.quiet hq kids hp (fun j hj => hl j (by simp [Slots.ids, hj])) h.1,
      SlotsOk.quiet hq rest hp (fun j hj => hl j (by simp [Slots.ids, hj])) h.2⟩
theorem KidsOk.quiet {live : List Nat} (hq : Quiet I live S S') (l : Kids) {s : Slot} {tid ti : Nat} (hp : 0 < S.pos tid)
    (hl : ∀ j ∈ l.ids, j ∉ live) (h : KidsOk I S true s tid ti l) : KidsOk I S' true s tid ti l := by
  match l with
  | .nil => simp only [KidsOk] at h ⊢; rw [edited_link hq.links hp]; exact h
  | .cons n rest =>
    simp only [KidsOk] at h ⊢
    rcases h with ⟨_, h, _⟩ | ⟨o1, o2, o3, o4⟩
    · exact absurd h (by simp)
    · right
      refine ⟨by rw [hq.pos]; exact o1, by rw [edited_link hq.links hp, hq.pos]; exact o2, ?_, fun hc => ?_⟩
      · exact NodeOk.quiet hq n (fun j hj => hl j (by simp [Kids.ids, hj])) o3
      · exact KidsOk.quiet hq rest o1 (fun j hj => hl j (by simp [Kids.ids, hj])) (o4 hc)
end

mutual
theorem Node.live_sub (n : Node) : ∀ j ∈ n.live, j ∈ n.ids := by
  match n with
  | .mk id pre post =>
    intro j hj
    simp only [Node.live, List.mem_cons, List.mem_append] at hj
    simp only [Node.ids, List.mem_cons, List.mem_append]
    rcases hj with h | h | h
    · exact Or.inl h
    · exact Or.inr (Or.inl (Slots.live_sub pre j h))
    · exact Or.inr (Or.inr (Slots.live_sub post j h))
theorem Slots.live_sub (l : Slots) : ∀ j ∈ l.live, j ∈ l.ids := by
  match l with
  | .nil => intro j hj; simp [Slots.live] at hj
  | .cons s kids rest =>
    intro j hj
    simp only [Slots.live, List.mem_append] at hj
    simp only [Slots.ids, List.mem_append]
    rcases hj with h | h
    · split at h
      · exact Or.inl (Kids.live_sub kids j h)
      · simp at h
    · exact Or.inr (Slots.live_sub rest j h)
theorem Kids.live_sub (l : Kids) : ∀ j ∈ l.live, j ∈ l.ids := by
  match l with
  | .nil => intro j hj; simp [Kids.live] at hj
  | .cons n rest =>
    intro j hj
    simp only [Kids.live, List.mem_append] at hj
    simp only [Kids.ids, List.mem_append]
    rcases hj with h | h
    · exact Or.inl (Node.live_sub n j h)
    · exact Or.inr (Kids.live_sub rest j h)
end

theorem NodeGrown.id_eq {n n' : Node} (h : NodeGrown S n n') : n'.id = n.id := by
  cases n; cases n'
  simp only [NodeGrown] at h
  exact h.1

mutual
theorem NodeOk.grown {live : List Nat} (hq : Quiet I live S S') (n n' : Node)
    (hl : ∀ j ∈ n.ids, j ∉ n.live → j ∉ live) (hnd : n.ids.Nodup) (h : NodeOk I S true n) (hg : NodeGrown S' n n') :
    NodeOk I S' false n' := by
  match n, n' with
  | .mk id pre post, .mk id' pre' post' =>
    simp only [NodeGrown] at hg
    obtain ⟨g1, g2, g3⟩ := hg
    subst g1
    simp only [NodeOk] at h ⊢
    obtain ⟨h1, h2, _, h4, h5⟩ := h
    simp only [Node.ids, List.nodup_cons, List.mem_append, not_or] at hnd
    obtain ⟨⟨hi1, hi2⟩, hnd2⟩ := hnd
    obtain ⟨n1, n2, nd⟩ := List.nodup_append.1 hnd2
    refine ⟨by rw [hq.pos]; exact h1, by rw [hq.links _ h1]; exact h2, fun hc => absurd hc (by simp), ?_, ?_⟩
    · apply SlotsOk.grown hq pre pre' h1 _ n1 h4 g2
      intro j hj hj'
      apply hl j (by simp [Node.ids, hj])
      simp only [Node.live, List.mem_cons, List.mem_append, not_or]
      exact ⟨fun e => hi1 (e ▸ hj), hj', fun hx => nd j hj j (Slots.live_sub post j hx) rfl⟩
    · apply SlotsOk.grown hq post post' h1 _ n2 h5 g3
      intro j hj hj'
      apply hl j (by simp [Node.ids, hj])
      simp only [Node.live, List.mem_cons, List.mem_append, not_or]
      exact ⟨fun e => hi2 (e ▸ hj), fun hx => nd j (Slots.live_sub pre j hx) j hj rfl, hj'⟩
theorem SlotsOk.grown {live : List Nat} (hq : Quiet I live S S') (l l' : Slots) {id : Nat} (hp : 0 < S.pos id)
    (hl : ∀ j ∈ l.ids, j ∉ l.live → j ∉ live) (hnd : l.ids.Nodup) (h : SlotsOk I S true id l) (hg : SlotsGrown S' l l') :
    SlotsOk I S' false id l' := by
  match l, l' with
  | .nil, .nil => trivial
  | .nil, .cons _ _ _ => simp [SlotsGrown] at hg
  | .cons _ _ _, .nil => simp [SlotsGrown] at hg
  | .cons s kids rest, .cons s' kids' rest' =>
    simp only [SlotsGrown] at hg
    obtain ⟨g1, g2, g3⟩ := hg
    subst g1
    simp only [SlotsOk] at h ⊢
    simp only [Slots.ids] at hnd
    obtain ⟨n1, n2, nd⟩ := List.nodup_append.1 hnd
    constructor
    · apply KidsOk.grown hq kids kids' hp _ n1 h.1 g2
      intro j hj hj'
      apply hl j (by simp [Slots.ids, hj])
      simp only [Slots.live, List.mem_append, not_or]
      exact ⟨hj', fun hx => nd j hj j (Slots.live_sub rest j hx) rfl⟩
    · apply SlotsOk.grown hq rest rest' hp _ n2 h.2 g3
      intro j hj hj'
      apply hl j (by simp [Slots.ids, hj])
      simp only [Slots.live, List.mem_append, not_or]
      refine ⟨fun hx => ?_, hj'⟩
      split at hx
      · exact nd j (Kids.live_sub kids j hx) j hj rfl
      · simp at hx
theorem KidsOk.grown {live : List Nat} (hq : Quiet I live S S') (l l' : Kids) {s : Slot} {tid ti : Nat} (hp : 0 < S.pos tid)
    (hl : ∀ j ∈ l.ids, j ∉ (if s.opt = .all then l.live else []) → j ∉ live) (hnd : l.ids.Nodup)
    (h : KidsOk I S true s tid ti l) (hg : KidsGrown S' s.opt l l') : KidsOk I S' false s tid ti l' := by
  match l, l' with
  | .nil, l' =>
    simp only [KidsGrown] at hg
    simp only [KidsOk] at h
    exact KidsOk.of_fresh l' (by rw [edited_link hq.links hp]; exact h) hg
  | .cons _ _, .nil => simp [KidsGrown] at hg
  | .cons n rest, .cons n' rest' =>
    simp only [KidsGrown] at hg
    obtain ⟨g1, g2⟩ := hg
    simp only [Kids.ids] at hnd
    obtain ⟨nd1, nd2, nd⟩ := List.nodup_append.1 hnd
    simp only [KidsOk] at h ⊢
    have hrest : ∀ j ∈ rest.ids, j ∉ (if s.opt = .all then rest.live else []) → j ∉ live := by
      intro j hj hj'
      apply hl j (by simp [Kids.ids, hj])
      split at hj'
      · simp only [Kids.live]
        rw [if_pos (by assumption)]
        simp only [List.mem_append, not_or]
        exact ⟨fun hx => nd j (Node.live_sub n j hx) j hj rfl, hj'⟩
      · rw [if_neg (by assumption)]; simp
    rcases h with ⟨_, h, _⟩ | ⟨o1, o2, o3, o4⟩
    · exact absurd h (by simp)
    · right
      have hid : n'.id = n.id := by
        split at g1
        · exact g1.id_eq
        · rw [g1]
      rw [hid]
      refine ⟨by rw [hq.pos]; exact o1, by rw [edited_link hq.links hp, hq.pos]; exact o2, ?_, fun hc => ?_⟩
      · by_cases ha : s.opt = .all
        · rw [if_pos ha] at g1
          have hf : (false || decide (s.opt ≠ .all)) = false := by simp [ha]
          rw [hf]
          apply NodeOk.grown hq n n' _ nd1 (by simpa using o3) g1
          intro j hj hj'
          apply hl j (by simp [Kids.ids, hj])
          rw [if_pos ha]
          simp only [Kids.live, List.mem_append, not_or]
          exact ⟨hj', fun hx => nd j hj j (Kids.live_sub rest j hx) rfl⟩
        · rw [if_neg ha] at g1
          subst g1
          have hf : (false || decide (s.opt ≠ .all)) = true := by simp [ha]
          rw [hf]
          apply NodeOk.quiet hq _ _ (by simpa using o3)
          intro j hj
          apply hl j (by simp [Kids.ids, hj])
          rw [if_neg ha]; simp
      · exact KidsOk.grown hq rest rest' o1 hrest nd2 (o4 hc) g2
end

theorem Edited.quiet {n n' : Node} (h : Edited I S n S' n') (hinv : FileInv I S) : Quiet I n.live S S' :=
  ⟨hinv, h.data, h.pos, fun id hp => (h.kept id hp).2.1, h.values⟩

theorem Edited.size {n n' : Node} (h : Edited I S n S' n') {id : Nat} (hp : 0 < S.pos id) : S'.size id = S.size id := by
  unfold FileSt.size
  rw [(h.kept id hp).2.1, (h.kept id hp).2.2.1]

theorem Edited.inv {n n' : Node} (h : Edited I S n S' n') (hinv : FileInv I S) : FileInv I S' := by
  obtain ⟨bs, hbs⟩ := h.data
  constructor
  · intro id hp
    rw [h.pos] at hp
    have hm := hinv.mirror id hp
    obtain ⟨k1, k2, k3, k4⟩ := h.kept id hp
    have hin := hm.inside
    have hsz := h.size hp
    constructor
    · rw [h.pos]; exact hm.aligned
    · rw [k1, hsz]; exact hm.len
    · rw [h.pos, hsz, hbs, List.length_append]; omega
    · rw [h.pos, k1, k2, hbs]
      apply hm.header.agree (agree_append _ _ _)
      rw [headerBytes_length]
      unfold FileSt.size at hin
      omega
    · intro i hi hr
      rw [k3] at hi
      rw [h.pos, k2, hbs, k4 i hr, ← hm.body i hi hr]
      apply List.getElem?_append_left
      unfold FileSt.size at hin
      omega
  · intro a b hab ha hb
    rw [h.pos] at ha hb ⊢
    rw [h.pos, h.size ha, h.size hb]
    exact hinv.disjoint a b hab ha hb

/-- The file after any number of rounds. -/
theorem Session.ok {S : FileSt} {n : Node} (h : Session I S n) :
    FileInv I S ∧ S.data ≠ [] ∧ S.thrown = false ∧ NodeOk I S true n ∧ NodeShape I false n ∧ n.ids.Nodup := by
  induction h with
  | first h1 h2 h3 h4 h5 h6 =>
    have hp := writeNode_spec _ _ false h1 h2 h5 h6 (Or.inl h4)
    exact ⟨hp.post.inv, hp.post.ne, by rw [hp.post.thrown]; exact h3, hp.ok, h5, h6⟩
  | again _ he hs hn ih =>
    obtain ⟨i1, i2, i3, i4, i5, i6⟩ := ih
    have hne : ∃ bs, _ := he.data
    obtain ⟨bs, hbs⟩ := hne
    have ok := NodeOk.grown (he.quiet i1) _ _ (fun j _ hj => hj) i6 i4 he.grown
    have hp := writeNode_spec _ _ false (he.inv i1) (by rw [hbs]; simp [i2]) hs hn (Or.inr ok)
    exact ⟨hp.post.inv, hp.post.ne, by rw [hp.post.thrown, he.thrown]; exact i3, hp.ok, hs, hn⟩

end

end Mdf
