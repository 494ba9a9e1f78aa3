import Verif.Spec.Reader
import Mathlib.Data.List.Forall2

namespace Mdf

/-! ### Lists -/

theorem walk_not_valid (rd : Nat → Option RBlk) (fuel link made : Nat) (h : validLink link = false) :
    walk rd fuel link made = ([], made, .ok) := by
  cases fuel <;> simp [walk, h]

theorem walk_ok (rd : Nat → Option RBlk) : ∀ (fuel link made : Nat), (walk rd fuel link made).2.2 = .ok →
    ReadsAll rd link (blks (walk rd fuel link made).1)
  | 0, link, made, h => by
    simp only [walk] at h ⊢
    cases hv : validLink link
    · exact .nil hv
    · simp [hv] at h
  | fuel + 1, link, made, h => by
    unfold walk at h ⊢
    cases hv : validLink link
    · simp only [hv, Bool.false_eq_true, if_false]; exact .nil hv
    · simp only [hv, if_true] at h ⊢
      cases hr : rd link with
      | none => simp [hr] at h
      | some b =>
        simp only [hr] at h ⊢
        exact .cons hv hr (walk_ok rd fuel _ _ h)

theorem walk_to (rd : Nat → Option RBlk) : ∀ (fuel link made : Nat), ReadsTo rd link (blks (walk rd fuel link made).1)
  | 0, link, made => by simp only [walk]; exact .nil _
  | fuel + 1, link, made => by
    unfold walk
    cases hv : validLink link
    · simp only [Bool.false_eq_true, if_false]; exact .nil _
    · simp only [if_true]
      cases hr : rd link with
      | none => exact .nil _
      | some b => exact .cons hv hr (walk_to rd fuel _ _)

theorem ReadsAll.nil_or {rd : Nat → Option RBlk} {link : Nat} {bs : List RBlk} (h : ReadsAll rd link bs) :
    bs ≠ [] ∨ validLink link = false := by
  cases h with
  | nil h => exact .inr h
  | cons _ _ _ => exact .inl (by simp)

theorem ReadsAll.to {rd : Nat → Option RBlk} {link : Nat} {bs : List RBlk} (h : ReadsAll rd link bs) : ReadsTo rd link bs := by
  induction h with
  | nil => exact .nil _
  | cons h1 h2 _ ih => exact .cons h1 h2 ih

/-- The blocks of the file are determined. -/
theorem ReadsAll.det {rd : Nat → Option RBlk} {link : Nat} {bs : List RBlk} (h : ReadsAll rd link bs) :
    ∀ {bs' : List RBlk}, ReadsAll rd link bs' → bs = bs' := by
  induction h with
  | nil h1 =>
    intro bs' h'
    cases h' with
    | nil _ => rfl
    | cons h2 _ _ => rw [h1] at h2; exact absurd h2 (by decide)
  | cons h1 h2 _ ih =>
    intro bs' h'
    cases h' with
    | nil h3 => rw [h1] at h3; exact absurd h3 (by decide)
    | cons h3 h4 h5 =>
      rw [h2] at h4
      cases h4
      rw [ih h5]

theorem ReadsTo.prefix {rd : Nat → Option RBlk} {link : Nat} {bs : List RBlk} (h : ReadsTo rd link bs) :
    ∀ {bs' : List RBlk}, ReadsAll rd link bs' → bs <+: bs' := by
  induction h with
  | nil => intro bs' _; exact List.nil_prefix
  | cons h1 h2 _ ih =>
    intro bs' h'
    cases h' with
    | nil h3 => rw [h1] at h3; exact absurd h3 (by decide)
    | cons h3 h4 h5 =>
      rw [h2] at h4
      cases h4
      exact List.cons_prefix_cons.mpr ⟨rfl, ih h5⟩

theorem walk_made (rd : Nat → Option RBlk) : ∀ (fuel link made : Nat), made ≤ (walk rd fuel link made).2.1 ∧
    ∀ o ∈ (walk rd fuel link made).1, made ≤ o.id ∧ o.id < (walk rd fuel link made).2.1
  | 0, link, made => by simp [walk]
  | fuel + 1, link, made => by
    unfold walk
    cases hv : validLink link
    · simp
    · simp only [if_true]
      cases hr : rd link with
      | none => simp
      | some b =>
        have ih := walk_made rd fuel (b.link 0) (made + 1)
        refine ⟨by have := ih.1; simp only; omega, ?_⟩
        intro o ho
        rcases List.mem_cons.mp ho with rfl | ho
        · simp only; have := ih.1; omega
        · have := ih.2 o ho; simp only; omega

/-! ### `eachObj` -/

theorem eachObj_fix {α : Type} (f : α → Nat → α × Nat × ReadOut) : ∀ (xs : List α) (made : Nat),
    (∀ x ∈ xs, f x made = (x, made, .ok)) → eachObj f xs made = (xs, made, .ok)
  | [], _, _ => rfl
  | x :: xs, made, h => by
    rw [eachObj, h x List.mem_cons_self]
    simp only
    rw [eachObj_fix f xs made fun y hy => h y (List.mem_cons_of_mem _ hy)]

/-- Every object in the result is one of the objects, `f` applied to it or not. -/
theorem eachObj_rel {α : Type} (f : α → Nat → α × Nat × ReadOut) (R : α → α → Prop) (hrefl : ∀ x, R x x)
    (hf : ∀ x made, R x (f x made).1) : ∀ (xs : List α) (made : Nat), List.Forall₂ R xs (eachObj f xs made).1
  | [], _ => by simp [eachObj]
  | x :: xs, made => by
    have hx := hf x made
    unfold eachObj
    split
    · rename_i x' made' he
      rw [he] at hx
      exact .cons hx (eachObj_rel f R hrefl hf xs made')
    · rename_i x' made' o _ he
      rw [he] at hx
      refine .cons hx ?_
      clear hf he hx
      induction xs with
      | nil => exact .nil
      | cons y ys ih => exact .cons (hrefl y) ih

/-- If the loop came to its end, `f` was applied to every object and came to its end. -/
theorem eachObj_ok {α : Type} (f : α → Nat → α × Nat × ReadOut) : ∀ (xs : List α) (made : Nat), (eachObj f xs made).2.2 = .ok →
    List.Forall₂ (fun x x' => ∃ m, (f x m).1 = x' ∧ (f x m).2.2 = .ok) xs (eachObj f xs made).1
  | [], _, _ => by simp [eachObj]
  | x :: xs, made, h => by
    unfold eachObj at h ⊢
    split
    · rename_i x' made' he
      rw [he] at h
      exact .cons ⟨made, by rw [he], by rw [he]⟩ (eachObj_ok f xs made' h)
    · rename_i x' made' o hno he
      rw [he] at h
      exfalso
      cases o with
      | ok => exact hno rfl
      | thrown => simp at h
      | hang => simp at h

theorem eachObj_made {α : Type} (f : α → Nat → α × Nat × ReadOut) (hf : ∀ x made, made ≤ (f x made).2.1) :
    ∀ (xs : List α) (made : Nat), made ≤ (eachObj f xs made).2.1
  | [], _ => by simp [eachObj]
  | x :: xs, made => by
    have hx := hf x made
    unfold eachObj
    split
    · rename_i x' made' he
      rw [he] at hx
      exact Nat.le_trans hx (eachObj_made f hf xs made')
    · rename_i x' made' o _ he
      rw [he] at hx
      exact hx

theorem forall₂_mem_right {α β : Type} {R : α → β → Prop} {l : List α} {l' : List β} (h : List.Forall₂ R l l') :
    ∀ y ∈ l', ∃ x ∈ l, R x y := by
  induction h with
  | nil => intro y hy; simp at hy
  | cons hr _ ih =>
    intro y hy
    rcases List.mem_cons.mp hy with rfl | hy
    · exact ⟨_, List.mem_cons_self, hr⟩
    · obtain ⟨x, hx, hxy⟩ := ih y hy
      exact ⟨x, List.mem_cons_of_mem _ hx, hxy⟩

theorem forall₂_mem_left {α β : Type} {R : α → β → Prop} {l : List α} {l' : List β} (h : List.Forall₂ R l l') :
    ∀ x ∈ l, ∃ y ∈ l', R x y := by
  induction h with
  | nil => intro y hy; simp at hy
  | cons hr _ ih =>
    intro y hy
    rcases List.mem_cons.mp hy with rfl | hy
    · exact ⟨_, List.mem_cons_self, hr⟩
    · obtain ⟨x, hx, hxy⟩ := ih y hy
      exact ⟨x, List.mem_cons_of_mem _ hx, hxy⟩

theorem forall₂_map_eq {α γ : Type} {R : α → α → Prop} {l l' : List α} (h : List.Forall₂ R l l') (k : α → γ)
    (hk : ∀ x y, R x y → k x = k y) : l.map k = l'.map k := by
  induction h with
  | nil => rfl
  | cons hr _ ih => simp [hk _ _ hr, ih]

/-! ### The steps -/

theorem seq_ok {a b : ReadM} {h : HdObj} : (a.seq b h).2 = .ok ↔ (a h).2 = .ok ∧ (b (a h).1).2 = .ok := by
  unfold ReadM.seq
  split
  · rename_i h' he; rw [he]; simp
  · rename_i hno
    constructor
    · intro hok
      exact absurd (show a h = ((a h).1, .ok) from Prod.ext rfl hok) (hno _)
    · intro hok
      exact absurd (show a h = ((a h).1, .ok) from Prod.ext rfl hok.1) (hno _)

theorem seq_fst {a b : ReadM} {h : HdObj} (hok : (a h).2 = .ok) : a.seq b h = b (a h).1 := by
  have : a h = ((a h).1, .ok) := Prod.ext rfl hok
  unfold ReadM.seq
  rw [this]

theorem seq_stop {a b : ReadM} {h : HdObj} (hok : (a h).2 ≠ .ok) : a.seq b h = a h := by
  unfold ReadM.seq
  split
  · rename_i h' he; rw [he] at hok; simp at hok
  · rfl

/-- A property of a state that every step keeps is kept by the sequence. -/
theorem seq_keep {a b : ReadM} (P : HdObj → Prop) (ha : ∀ h, P h → P (a h).1) (hb : ∀ h, P h → P (b h).1) (h : HdObj) (hp : P h) :
    P (a.seq b h).1 := by
  by_cases hok : (a h).2 = .ok
  · rw [seq_fst hok]; exact hb _ (ha _ hp)
  · rw [seq_stop hok]; exact ha _ hp

theorem readLinkList_fix (rd : Nat → Option RBlk) (fuel : Nat) (old : List Obj) (link made : Nat)
    (h : ReadsAll rd link (blks old)) : readObjList rd fuel old link made = (old, made, .ok) := by
  unfold readObjList
  split
  · rename_i he
    subst he
    rcases h.nil_or with h | h
    · simp [blks] at h
    · exact walk_not_valid rd fuel link made h
  · rfl

theorem readLinkList_ok (rd : Nat → Option RBlk) (fuel : Nat) (link made : Nat) (h : (readObjList rd fuel [] link made).2.2 = .ok) :
    ReadsAll rd link (blks (readObjList rd fuel [] link made).1) := by
  unfold readObjList at h ⊢
  simp only [if_true] at h ⊢
  exact walk_ok rd fuel link made h

theorem readLinkList_to (rd : Nat → Option RBlk) (fuel : Nat) (old : List Obj) (link made : Nat) (h : ReadsTo rd link (blks old)) :
    ReadsTo rd link (blks (readObjList rd fuel old link made).1) := by
  unfold readObjList
  split
  · exact walk_to rd fuel link made
  · exact h

theorem readLinkList_sub (rd : Nat → Option RBlk) (fuel : Nat) (old : List Obj) (link made : Nat) :
    old = [] ∨ (readObjList rd fuel old link made).1 = old := by
  unfold readObjList
  split
  · rename_i h; exact .inl h
  · exact .inr rfl

theorem readLinkList_made (rd : Nat → Option RBlk) (fuel : Nat) (old : List Obj) (link made : Nat) :
    made ≤ (readObjList rd fuel old link made).2.1 := by
  unfold readObjList
  split
  · exact (walk_made rd fuel link made).1
  · exact Nat.le_refl _

namespace Img
variable (d : Img)

/-! #### Reading from the start -/

theorem header4_fresh (hok : (d.header4 HdObj.fresh).2 = .ok) : (d.header4 HdObj.fresh).1.Whole d .header ∧
    (d.header4 HdObj.fresh).1.read = true ∧ (d.header4 HdObj.fresh).1.dg = [] ∧ (d.header4 HdObj.fresh).1.att = [] ∧
    (d.header4 HdObj.fresh).1.ch = [] ∧ (d.header4 HdObj.fresh).1.ev = [] := by
  unfold header4 at hok ⊢
  simp only [HdObj.fresh, Bool.false_eq_true, if_false] at hok ⊢
  by_cases h2 : d.hdLinks.2 = true
  · simp only [h2, if_true] at hok ⊢
    cases hv : d.hdVal with
    | none => simp [hv] at hok
    | some v =>
      simp only [hv] at hok ⊢
      have hw := readLinkList_ok (d.blk .fh []) d.fuel (HdObj.link ⟨true, d.hdLinks.1, v, [], [], [], [], [], 0⟩ 1) 0
      generalize readObjList (d.blk .fh []) d.fuel [] (HdObj.link ⟨true, d.hdLinks.1, v, [], [], [], [], [], 0⟩ 1) 0 = r at hok hw ⊢
      obtain ⟨r1, r2, r3⟩ := r
      cases r3 with
      | ok =>
        have hm : d.hdMd = true := by
          cases h : d.hdMd
          · simp [h] at hok
          · rfl
        exact ⟨⟨⟨h2, rfl, hv, hm⟩, hw rfl⟩, by simp⟩
      | thrown => simp at hok
      | hang => simp at hok
  · simp only [h2, if_false] at hok
    simp at hok

theorem dgList4_ok (h : HdObj) (he : h.dg = []) (hok : (d.dgList4 h).2 = .ok) :
    ReadsAll (d.blk .dg []) (h.link 0) ((d.dgList4 h).1.dg.map (·.self.blk)) ∧ ∀ g ∈ (d.dgList4 h).1.dg, g.cg = [] := by
  unfold dgList4 at hok ⊢
  simp only [he, if_true] at hok ⊢
  constructor
  · have := walk_ok _ _ _ _ hok
    simpa [blks, Function.comp_def] using this
  · intro g hg
    obtain ⟨o, _, rfl⟩ := List.mem_map.mp hg
    rfl

theorem dgList4_same (h : HdObj) : ∃ dg m, (d.dgList4 h).1 = { h with dg := dg, made := m } := by
  unfold dgList4
  split
  · exact ⟨_, _, rfl⟩
  · exact ⟨h.dg, h.made, rfl⟩

theorem cgList4_rel (g : DgObj) (made : Nat) : (d.cgList4 g made).1.self = g.self ∧ (g.cg = [] ∨ (d.cgList4 g made).1 = g) := by
  unfold cgList4
  split
  · rename_i h; exact ⟨rfl, .inl h⟩
  · exact ⟨rfl, .inr rfl⟩

theorem cgList4_ok (g : DgObj) (made : Nat) (he : g.cg = []) (hok : (d.cgList4 g made).2.2 = .ok) :
    ReadsAll (d.blk .cg []) (g.self.blk.link 1) ((d.cgList4 g made).1.cg.map (·.self.blk)) ∧
      ∀ c ∈ (d.cgList4 g made).1.cg, c.cn = [] ∧ c.sr = [] := by
  unfold cgList4 at hok ⊢
  simp only [he, if_true] at hok ⊢
  constructor
  · have := walk_ok _ _ _ _ hok
    simpa [blks, Function.comp_def] using this
  · intro g hg
    obtain ⟨o, _, rfl⟩ := List.mem_map.mp hg
    exact ⟨rfl, rfl⟩

theorem cgList4_fix (g : DgObj) (made : Nat) (h : ReadsAll (d.blk .cg []) (g.self.blk.link 1) (g.cg.map (·.self.blk))) :
    d.cgList4 g made = (g, made, .ok) := by
  unfold cgList4
  split
  · rename_i he
    rcases h.nil_or with h | h
    · simp [he] at h
    · rw [walk_not_valid _ _ _ _ h]
      cases g
      simp only [List.map_nil, Prod.mk.injEq, and_true]
      simp only at he
      rw [he]
  · rfl

theorem cgLists4_ok (h : HdObj) (he : ∀ g ∈ h.dg, g.cg = []) (hok : (d.cgLists4 h).2 = .ok) :
    (d.cgLists4 h).1.dg.map (·.self.blk) = h.dg.map (·.self.blk) ∧
    (∀ g ∈ (d.cgLists4 h).1.dg, ReadsAll (d.blk .cg []) (g.self.blk.link 1) (g.cg.map (·.self.blk))) ∧
    ∀ g ∈ (d.cgLists4 h).1.dg, ∀ c ∈ g.cg, c.cn = [] ∧ c.sr = [] := by
  unfold cgLists4 at hok ⊢
  simp only at hok ⊢
  have hr := eachObj_rel d.cgList4 (fun x y => y.self = x.self) (fun _ => rfl) (fun x m => (d.cgList4_rel x m).1) h.dg h.made
  have ho := eachObj_ok d.cgList4 h.dg h.made hok
  refine ⟨(forall₂_map_eq hr _ fun x y h => by simp [h]).symm, ?_, ?_⟩
  · intro g hg
    obtain ⟨x, hx, m, rfl, hm⟩ := forall₂_mem_right ho g hg
    have := (d.cgList4_ok x m (he x hx) hm).1
    rwa [(d.cgList4_rel x m).1]
  · intro g hg
    obtain ⟨x, hx, m, rfl, hm⟩ := forall₂_mem_right ho g hg
    exact (d.cgList4_ok x m (he x hx) hm).2

theorem info4_ok (h : HdObj) (hdg : h.dg = []) (hat : h.att = []) (hok : (d.info4 h).2 = .ok) :
    ∃ dg att m, (d.info4 h).1 = { h with dg := dg, att := att, made := m } ∧ (d.info4 h).1.InfoWhole d ∧
      ∀ g ∈ dg, ∀ c ∈ g.cg, c.cn = [] ∧ c.sr = [] := by
  unfold info4 at hok ⊢
  obtain ⟨hok12, hok3⟩ := seq_ok.mp hok
  obtain ⟨hok1, hok2⟩ := seq_ok.mp hok12
  rw [seq_fst hok12, seq_fst hok1]
  rw [seq_fst hok1] at hok3
  obtain ⟨w1, e1⟩ := d.dgList4_ok h hdg hok1
  obtain ⟨dg1, m1, s1⟩ := d.dgList4_same h
  obtain ⟨k2, w2, e2⟩ := d.cgLists4_ok _ e1 hok2
  have s2 : (d.cgLists4 (d.dgList4 h).1).1 = { (d.dgList4 h).1 with
    dg := (d.cgLists4 (d.dgList4 h).1).1.dg, made := (d.cgLists4 (d.dgList4 h).1).1.made } := rfl
  generalize hg2 : (d.cgLists4 (d.dgList4 h).1).1 = h2 at *
  have hlink : h2.links = h.links := by rw [s2, s1]
  have hatt : h2.att = [] := by rw [s2, s1]; exact hat
  unfold atList4 at hok3 ⊢
  simp only at hok3 ⊢
  refine ⟨h2.dg, (readObjList (d.blk .at []) d.fuel h2.att (h2.link 3) h2.made).1,
    (readObjList (d.blk .at []) d.fuel h2.att (h2.link 3) h2.made).2.1, ?_, ?_, e2⟩
  · generalize readObjList (d.blk .at []) d.fuel h2.att (h2.link 3) h2.made = r
    rw [s2, s1]
  · refine ⟨?_, w2, ?_⟩
    · show ReadsAll (d.blk .dg []) (h2.links.getD 0 0) (h2.dg.map (·.self.blk))
      rw [hlink, k2]
      exact w1
    · show ReadsAll (d.blk .at []) (h2.links.getD 3 0) (blks _)
      rw [hatt] at hok3 ⊢
      exact readLinkList_ok _ _ _ _ hok3

theorem cnList4_self (att : List RBlk) (g : CgObj) (made : Nat) : (d.cnList4 att g made).1.self = g.self := by
  unfold cnList4
  simp only
  split <;> rfl

theorem cnList4_ok (att : List RBlk) (g : CgObj) (made : Nat) (he : g.cn = [] ∧ g.sr = []) (hok : (d.cnList4 att g made).2.2 = .ok) :
    ReadsAll (d.blk .cn att) (g.self.blk.link 1) (blks (d.cnList4 att g made).1.cn) ∧
    ReadsAll (d.blk .sr att) (g.self.blk.link 4) (blks (d.cnList4 att g made).1.sr) := by
  unfold cnList4 at hok ⊢
  simp only [he] at hok ⊢
  split
  · rename_i hr
    simp only [hr] at hok
    exact ⟨readLinkList_ok _ _ _ _ hr, readLinkList_ok _ _ _ _ hok⟩
  · rename_i hr
    split at hok
    · rename_i hr'; exact absurd hr' hr
    · exact absurd hok hr

theorem cnList4_fix (att : List RBlk) (g : CgObj) (made : Nat) (h1 : ReadsAll (d.blk .cn att) (g.self.blk.link 1) (blks g.cn))
    (h2 : ReadsAll (d.blk .sr att) (g.self.blk.link 4) (blks g.sr)) : d.cnList4 att g made = (g, made, .ok) := by
  unfold cnList4
  simp only [readLinkList_fix _ _ _ _ _ h1, readLinkList_fix _ _ _ _ _ h2]

theorem cnLists4_self (att : List RBlk) (g : DgObj) (made : Nat) : (d.cnLists4 att g made).1.self = g.self := rfl

theorem cnLists4_cg (att : List RBlk) (g : DgObj) (made : Nat) :
    (d.cnLists4 att g made).1.cg.map (·.self.blk) = g.cg.map (·.self.blk) := by
  have := eachObj_rel (d.cnList4 att) (fun x y => y.self = x.self) (fun _ => rfl) (fun x m => d.cnList4_self att x m) g.cg made
  exact (forall₂_map_eq this _ fun x y h => by simp [h]).symm

theorem cnLists4_ok (att : List RBlk) (g : DgObj) (made : Nat) (he : ∀ c ∈ g.cg, c.cn = [] ∧ c.sr = [])
    (hok : (d.cnLists4 att g made).2.2 = .ok) : ∀ c ∈ (d.cnLists4 att g made).1.cg,
      ReadsAll (d.blk .cn att) (c.self.blk.link 1) (blks c.cn) ∧ ReadsAll (d.blk .sr att) (c.self.blk.link 4) (blks c.sr) := by
  have ho := eachObj_ok (d.cnList4 att) g.cg made hok
  intro c hc
  obtain ⟨x, hx, m, rfl, hm⟩ := forall₂_mem_right ho c hc
  rw [d.cnList4_self att x m]
  exact d.cnList4_ok att x m (he x hx) hm

theorem channels4_ok (h : HdObj) (he : ∀ g ∈ h.dg, ∀ c ∈ g.cg, c.cn = [] ∧ c.sr = []) (hok : (d.channels4 h).2 = .ok) :
    ∀ g ∈ (d.channels4 h).1.dg, ∀ c ∈ g.cg, ReadsAll (d.blk .cn (blks h.att)) (c.self.blk.link 1) (blks c.cn) ∧
      ReadsAll (d.blk .sr (blks h.att)) (c.self.blk.link 4) (blks c.sr) := by
  unfold channels4 at hok ⊢
  simp only at hok ⊢
  have ho := eachObj_ok (d.cnLists4 (h.att.map (·.blk))) h.dg h.made hok
  intro g hg
  obtain ⟨x, hx, m, rfl, hm⟩ := forall₂_mem_right ho g hg
  exact d.cnLists4_ok _ x m (he x hx) hm

theorem channels4_rel (h : HdObj) : List.Forall₂ (fun x y : DgObj => y.self = x.self ∧ y.cg.map (·.self.blk) = x.cg.map (·.self.blk))
    h.dg (d.channels4 h).1.dg :=
  eachObj_rel _ _ (fun _ => ⟨rfl, rfl⟩) (fun x m => ⟨rfl, d.cnLists4_cg _ x m⟩) h.dg h.made

theorem channels4_info (h : HdObj) (w : h.InfoWhole d) : (d.channels4 h).1.InfoWhole d := by
  have hr := d.channels4_rel h
  refine ⟨?_, ?_, w.2.2⟩
  · have : (d.channels4 h).1.dg.map (·.self.blk) = h.dg.map (·.self.blk) :=
      (forall₂_map_eq hr _ fun x y h => by simp [h.1]).symm
    rw [this]
    exact w.1
  · intro g hg
    obtain ⟨x, hx, h1, h2⟩ := forall₂_mem_right hr g hg
    rw [h2, h1]
    exact w.2.1 x hx

theorem rest4_ok (h : HdObj) (w : h.InfoWhole d) (he : ∀ g ∈ h.dg, ∀ c ∈ g.cg, c.cn = [] ∧ c.sr = []) (hch : h.ch = [])
    (hev : h.ev = []) (hok : (d.rest4 h).2 = .ok) :
    ∃ dg ch ev m, (d.rest4 h).1 = { h with dg := dg, ch := ch, ev := ev, made := m } ∧ (d.rest4 h).1.InfoWhole d ∧
      (d.rest4 h).1.RestWhole d := by
  unfold rest4 at hok ⊢
  obtain ⟨hok12, hok3⟩ := seq_ok.mp hok
  obtain ⟨hok1, hok2⟩ := seq_ok.mp hok12
  rw [seq_fst hok12, seq_fst hok1]
  rw [seq_fst hok1] at hok3
  have w1 := d.channels4_ok h he hok1
  have w2 := d.channels4_info h w
  have s1 : (d.channels4 h).1 = { h with dg := (d.channels4 h).1.dg, made := (d.channels4 h).1.made } := rfl
  generalize (d.channels4 h).1 = h1 at *
  have a1 : h1.att = h.att := by rw [s1]
  have c1 : h1.ch = [] := by rw [s1]; exact hch
  have e1 : h1.ev = [] := by rw [s1]; exact hev
  have hch' : ReadsAll (d.blk .ch (blks h1.att)) (h1.link 2) (blks (d.chList4 h1).1.ch) := by
    unfold chList4 at hok2 ⊢
    simp only [c1] at hok2 ⊢
    exact readLinkList_ok _ _ _ _ hok2
  have s2 : (d.chList4 h1).1 = { h1 with ch := (d.chList4 h1).1.ch, made := (d.chList4 h1).1.made } := rfl
  generalize (d.chList4 h1).1 = h2 at *
  have e2 : h2.ev = [] := by rw [s2]; exact e1
  have hev' : ReadsAll (d.blk .ev (blks h2.att)) (h2.link 4) (blks (d.evList4 h2).1.ev) := by
    unfold evList4 at hok3 ⊢
    simp only [e2] at hok3 ⊢
    exact readLinkList_ok _ _ _ _ hok3
  have s3 : (d.evList4 h2).1 = { h2 with ev := (d.evList4 h2).1.ev, made := (d.evList4 h2).1.made } := rfl
  generalize (d.evList4 h2).1 = h3 at *
  have l2 : h2.att = h1.att := by rw [s2]
  have l3 : h2.links = h1.links := by rw [s2]
  have l4 : h2.dg = h1.dg := by rw [s2]
  have k2 : h3.att = h2.att := by rw [s3]
  have k3 : h3.links = h2.links := by rw [s3]
  have k4 : h3.dg = h2.dg := by rw [s3]
  have k5 : h3.ch = h2.ch := by rw [s3]
  have n3 : ∀ i, h3.link i = h1.link i := by intro i; unfold HdObj.link; rw [k3, l3]
  have n2 : ∀ i, h2.link i = h1.link i := by intro i; unfold HdObj.link; rw [l3]
  refine ⟨h1.dg, h2.ch, h3.ev, h3.made, ?_, ⟨?_, ?_, ?_⟩, ⟨?_, ?_, ?_⟩⟩
  · rw [s3, s2, s1]
  · rw [n3, k4, l4]; exact w2.1
  · rw [k4, l4]; exact w2.2.1
  · rw [n3, k2, l2]; exact w2.2.2
  · rw [k4, l4, k2, l2, a1]; exact w1
  · rw [n3, k2, l2, k5]; exact hch'
  · rw [n3, k2, ← n2]; exact hev'

/-! #### Reading what is there already -/

theorem header4_fix (h : HdObj) (hr : h.read = true) : d.header4 h = (h, .ok) := by
  unfold header4
  simp [hr]

theorem info4_fix (h : HdObj) (w : h.InfoWhole d) : d.info4 h = (h, .ok) := by
  have h1 : d.dgList4 h = (h, .ok) := by
    unfold dgList4
    split
    · rename_i he
      rcases w.1.nil_or with hn | hn
      · simp [he] at hn
      · simp only [walk_not_valid _ _ _ _ hn, List.map_nil]
        cases h; simp only at he ⊢; rw [he]
    · rfl
  have h2 : d.cgLists4 h = (h, .ok) := by
    unfold cgLists4
    rw [eachObj_fix d.cgList4 h.dg h.made fun g hg => d.cgList4_fix g _ (w.2.1 g hg)]
  have h3 : d.atList4 h = (h, .ok) := by
    unfold atList4
    rw [readLinkList_fix _ _ _ _ _ w.2.2]
  unfold info4
  rw [seq_fst (by rw [seq_fst (by rw [h1]), h1]; simp [h2]), seq_fst (by rw [h1]), h1]
  simp only [h2, h3]

theorem rest4_fix (h : HdObj) (w : h.RestWhole d) : d.rest4 h = (h, .ok) := by
  have h1 : d.channels4 h = (h, .ok) := by
    unfold channels4
    rw [eachObj_fix _ h.dg h.made fun g hg => ?_]
    unfold cnLists4
    have := eachObj_fix (d.cnList4 (blks h.att)) g.cg h.made fun c hc => d.cnList4_fix _ c _ (w.1 g hg c hc).1 (w.1 g hg c hc).2
    simp only [blks] at this
    simp only [this]
  have h2 : d.chList4 h = (h, .ok) := by
    unfold chList4
    simp only
    have := readLinkList_fix _ d.fuel _ _ h.made w.2.1
    simp only [blks] at this ⊢
    rw [this]
  have h3 : d.evList4 h = (h, .ok) := by
    unfold evList4
    simp only
    have := readLinkList_fix _ d.fuel _ _ h.made w.2.2
    simp only [blks] at this ⊢
    rw [this]
  unfold rest4
  rw [seq_fst (by rw [seq_fst (by rw [h1]), h1]; simp [h2]), seq_fst (by rw [h1]), h1]
  simp only [h2, h3]

end Img

theorem run4_fresh (d : Img) (c : RCall) (hok : (c.run4 d HdObj.fresh).2 = .ok) :
    (c.run4 d HdObj.fresh).1.Whole d c ∧ (c.run4 d HdObj.fresh).1.read = true := by
  cases c with
  | header => exact ⟨(d.header4_fresh hok).1, (d.header4_fresh hok).2.1⟩
  | info =>
    have hrun : RCall.info.run4 d = d.header4.seq d.info4 := rfl
    rw [hrun] at hok ⊢
    obtain ⟨h1, h2⟩ := seq_ok.mp hok
    rw [seq_fst h1]
    obtain ⟨⟨wh, wf⟩, hr, hdg, hat, _, _⟩ := d.header4_fresh h1
    obtain ⟨dg, att, m, s, w, _⟩ := d.info4_ok _ hdg hat h2
    refine ⟨⟨?_, w⟩, ?_⟩
    · rw [s]; exact ⟨wh, wf⟩
    · rw [s]; exact hr
  | everything =>
    have hrun : RCall.everything.run4 d = (d.header4.seq d.info4).seq d.rest4 := rfl
    rw [hrun] at hok ⊢
    obtain ⟨h12, h3⟩ := seq_ok.mp hok
    obtain ⟨h1, h2⟩ := seq_ok.mp h12
    rw [seq_fst h12, seq_fst h1]
    rw [seq_fst h1] at h3
    obtain ⟨⟨wh, wf⟩, hr, hdg, hat, hch, hev⟩ := d.header4_fresh h1
    obtain ⟨dg, att, m, s, w, he⟩ := d.info4_ok _ hdg hat h2
    obtain ⟨dg', ch, ev, m', s', w', wr⟩ := d.rest4_ok _ w (by rw [s]; exact he) (by rw [s]; exact hch) (by rw [s]; exact hev) h3
    refine ⟨⟨⟨?_, w'⟩, wr⟩, ?_⟩
    · rw [s', s]; exact ⟨wh, wf⟩
    · rw [s', s]; exact hr

theorem Whole.info {d : Img} {h : HdObj} {c : RCall} (w : h.Whole d c) (hc : 1 ≤ c.rank) : h.InfoWhole d := by
  cases c with
  | header => simp [RCall.rank] at hc
  | info => exact w.2
  | everything => exact w.1.2

theorem run4_fix (d : Img) (h : HdObj) (c c' : RCall) (hr : h.read = true) (w : h.Whole d c) (hc : c'.rank ≤ c.rank) :
    c'.run4 d h = (h, .ok) := by
  have e1 := d.header4_fix h hr
  cases c' with
  | header => exact e1
  | info =>
    show d.header4.seq d.info4 h = _
    rw [seq_fst (by rw [e1]), e1]
    exact d.info4_fix h (Whole.info w hc)
  | everything =>
    cases c with
    | header => simp [RCall.rank] at hc
    | info => simp [RCall.rank] at hc
    | everything =>
      have e2 := d.info4_fix h w.1.2
      show (d.header4.seq d.info4).seq d.rest4 h = _
      rw [seq_fst (by rw [seq_fst (by rw [e1]), e1]; simp [e2]), seq_fst (by rw [e1]), e1]
      simp only [e2]
      exact d.rest4_fix h w.2

/-- A call after a successful smaller one does what it does at the start. -/
theorem run4_stage (d : Img) (c c' : RCall) (hc : c.rank ≤ c'.rank) (hok : (c.run4 d HdObj.fresh).2 = .ok) :
    c'.run4 d (c.run4 d HdObj.fresh).1 = c'.run4 d HdObj.fresh := by
  obtain ⟨w, hr⟩ := run4_fresh d c hok
  generalize hh : (c.run4 d HdObj.fresh).1 = h at w hr
  have e1 := d.header4_fix h hr
  cases c with
  | header =>
    have hh' : (d.header4 HdObj.fresh).1 = h := hh
    have hok' : (d.header4 HdObj.fresh).2 = .ok := hok
    cases c' with
    | header =>
      show d.header4 h = d.header4 HdObj.fresh
      rw [e1]
      exact (Prod.ext hh' hok').symm
    | info =>
      show d.header4.seq d.info4 h = d.header4.seq d.info4 HdObj.fresh
      rw [seq_fst (by rw [e1]), seq_fst hok', e1, hh']
    | everything =>
      have : d.header4.seq d.info4 h = d.header4.seq d.info4 HdObj.fresh := by
        rw [seq_fst (by rw [e1]), seq_fst hok', e1, hh']
      show ReadM.seq _ _ _ = ReadM.seq _ _ _
      unfold ReadM.seq at this ⊢
      rw [this]
  | info =>
    have hh' : (d.header4.seq d.info4 HdObj.fresh).1 = h := hh
    have hok' : (d.header4.seq d.info4 HdObj.fresh).2 = .ok := hok
    have e2 := run4_fix d h .info .info hr w (Nat.le_refl _)
    have e2' : d.header4.seq d.info4 h = (h, .ok) := e2
    cases c' with
    | header => simp [RCall.rank] at hc
    | info =>
      rw [e2]
      exact (Prod.ext hh' hok').symm
    | everything =>
      show ReadM.seq _ _ _ = ReadM.seq _ _ _
      rw [seq_fst hok', hh', seq_fst (by rw [e2']), e2']
  | everything =>
    cases c' with
    | header => simp [RCall.rank] at hc
    | info => simp [RCall.rank] at hc
    | everything =>
      rw [run4_fix d h .everything .everything hr w (Nat.le_refl _)]
      exact (Prod.ext hh hok).symm

end Mdf
