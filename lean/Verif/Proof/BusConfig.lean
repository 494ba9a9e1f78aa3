import Verif.Spec.BusConfig
import Verif.Props.Lookup

namespace Mdf

theorem bcRecordId_two (dg : BcDg) (h : 2 ≤ dg.length) (j : Nat) (hj : j < dg.length) : bcRecordId dg j = some (j + 1) := by
  simp only [bcRecordId, recIds, List.getElem?_map, List.getElem?_range hj, Option.map_some]
  rw [if_neg (by omega), Nat.add_comm]

theorem bcRecordId_lt (dg : BcDg) (j r : Nat) (h : bcRecordId dg j = some r) : j < dg.length := by
  simp only [bcRecordId, recIds, List.getElem?_map, Option.map_eq_some_iff] at h
  obtain ⟨a, h1, _⟩ := h
  have := List.getElem?_eq_some_iff.1 h1
  obtain ⟨h2, _⟩ := this
  simpa using h2

/-- The same with the numbers instead of the record ids. -/
structure BcInv (dg : BcDg) : Prop where
  names : ∀ (i j : Nat) (g h : BcGroup), dg[i]? = some g → dg[j]? = some h → g.name = h.name → g.name ≠ [] → i = j
  masters : ∀ (i : Nat) (g : BcGroup), dg[i]? = some g → g.masters ≤ 1
  vlsd : ∀ (i : Nat) (g : BcGroup), dg[i]? = some g → g.vlsd = true → g.name = [] ∧ g.dataRef = none
  refs : ∀ (i : Nat) (g : BcGroup) (r : Nat), dg[i]? = some g → g.dataRef = some r → ∃ (j : Nat) (v : BcGroup), r = j + 1 ∧ dg[j]? = some v ∧ v.vlsd = true
  differ : ∀ (i j : Nat) (g h : BcGroup) (r : Nat), dg[i]? = some g → dg[j]? = some h → g.dataRef = some r → h.dataRef = some r → i = j

theorem two_of_ref {dg : BcDg} {i j : Nat} {g v : BcGroup} (hv : ∀ (i : Nat) (g : BcGroup), dg[i]? = some g → g.vlsd = true → g.name = [] ∧ g.dataRef = none)
    (hi : dg[i]? = some g) (hj : dg[j]? = some v) (hr : g.dataRef.isSome = true) (hvv : v.vlsd = true) : 2 ≤ dg.length := by
  have h1 : i ≠ j := by
    intro e
    subst e
    rw [hi] at hj
    cases hj
    rw [(hv i g hi hvv).2] at hr
    cases hr
  obtain ⟨h2, _⟩ := List.getElem?_eq_some_iff.1 hi
  obtain ⟨h3, _⟩ := List.getElem?_eq_some_iff.1 hj
  omega

theorem bcInv_iff (dg : BcDg) : BcProper dg ↔ BcInv dg := by
  constructor
  · intro h
    refine ⟨h.names, h.masters, h.vlsd, ?_, h.differ⟩
    intro i g r hi hr
    obtain ⟨j, v, h1, h2, h3⟩ := h.refs i g r hi hr
    have h4 := two_of_ref h.vlsd hi h2 (by rw [hr]; rfl) h3
    rw [bcRecordId_two dg h4 j (bcRecordId_lt dg j r h1)] at h1
    exact ⟨j, v, by injection h1 with h1; exact h1.symm, h2, h3⟩
  · intro h
    refine ⟨h.names, h.masters, h.vlsd, ?_, h.differ⟩
    intro i g r hi hr
    obtain ⟨j, v, h1, h2, h3⟩ := h.refs i g r hi hr
    have h4 := two_of_ref h.vlsd hi h2 (by rw [hr]; rfl) h3
    obtain ⟨h5, _⟩ := List.getElem?_eq_some_iff.1 h2
    exact ⟨j, v, by rw [bcRecordId_two dg h4 j h5, h1], h2, h3⟩

theorem bcCreate_cases (dg : BcDg) (name : List Char) :
    (name ≠ [] ∧ ∃ (i : Nat) (g : BcGroup), dg[i]? = some g ∧ g.name = name ∧ bcCreate dg name = (dg, i)) ∨
    ((name = [] ∨ ∀ g ∈ dg, g.name ≠ name) ∧ bcCreate dg name = (dg ++ [{ name := name }], dg.length)) := by
  unfold bcCreate
  cases hf : lkFind (fun g : BcGroup => decide (g.name = name) && !decide (name = [])) dg with
  | some i =>
    left
    obtain ⟨⟨g, h1, h2⟩, _⟩ := (lkFind_some _ _ _).1 hf
    simp only [Bool.and_eq_true, decide_eq_true_eq, Bool.not_eq_true', decide_eq_false_iff_not] at h2
    exact ⟨h2.2, i, g, h1, h2.1, rfl⟩
  | none =>
    right
    refine ⟨?_, rfl⟩
    have h := (lkFind_none _ _).1 hf
    by_cases hn : name = []
    · exact .inl hn
    · right
      intro g hg e
      have := h g hg
      simp [e, hn] at this

theorem getElem?_append_one {α : Type} (l : List α) (a : α) (i : Nat) (b : α) :
    (l ++ [a])[i]? = some b ↔ l[i]? = some b ∨ (i = l.length ∧ b = a) := by
  by_cases h : i < l.length
  · rw [List.getElem?_append_left h]
    constructor
    · exact .inl
    · rintro (h1 | ⟨h1, _⟩)
      · exact h1
      · omega
  · rw [List.getElem?_append_right (by omega)]
    by_cases e : i = l.length
    · subst e
      simp [eq_comm]
    · have h1 : l[i]? = none := List.getElem?_eq_none (by omega)
      have h2 : i - l.length ≠ 0 := by omega
      simp [h1, e, h2]

theorem getElem?_modify_some {α : Type} (l : List α) (f : α → α) (i j : Nat) (b : α) :
    (l.modify i f)[j]? = some b ↔ ∃ a, l[j]? = some a ∧ b = if i = j then f a else a := by
  rw [List.getElem?_modify]
  cases h : l[j]? with
  | none => simp
  | some a =>
    simp only [Functor.map, Option.map_some, Option.some.injEq, exists_eq_left', eq_comm (b := b)]

theorem inv_append {dg : BcDg} (h : BcInv dg) (g : BcGroup) (hn : g.name = [] ∨ ∀ x ∈ dg, x.name ≠ g.name) (hm : g.masters ≤ 1)
    (hv : g.vlsd = true → g.name = []) (hr : g.dataRef = none) : BcInv (dg ++ [g]) := by
  refine ⟨?_, ?_, ?_, ?_, ?_⟩
  · intro i j a b ha hb e ne
    rw [getElem?_append_one] at ha hb
    rcases ha with ha | ⟨ha, rfl⟩ <;> rcases hb with hb | ⟨hb, rfl⟩
    · exact h.names i j a b ha hb e ne
    · rcases hn with hn | hn
      · exact absurd (e.trans hn) ne
      · exact absurd e (hn a (List.mem_of_getElem? ha))
    · rcases hn with hn | hn
      · exact absurd hn ne
      · exact absurd e.symm (hn b (List.mem_of_getElem? hb))
    · omega
  · intro i a ha
    rw [getElem?_append_one] at ha
    rcases ha with ha | ⟨ha, rfl⟩
    · exact h.masters i a ha
    · exact hm
  · intro i a ha hav
    rw [getElem?_append_one] at ha
    rcases ha with ha | ⟨ha, rfl⟩
    · exact h.vlsd i a ha hav
    · exact ⟨hv hav, hr⟩
  · intro i a r ha har
    rw [getElem?_append_one] at ha
    rcases ha with ha | ⟨ha, rfl⟩
    · obtain ⟨j, v, h1, h2, h3⟩ := h.refs i a r ha har
      exact ⟨j, v, h1, (getElem?_append_one _ _ _ _).2 (.inl h2), h3⟩
    · rw [hr] at har
      cases har
  · intro i j a b r ha hb har hbr
    rw [getElem?_append_one] at ha hb
    rcases ha with ha | ⟨ha, rfl⟩
    · rcases hb with hb | ⟨hb, rfl⟩
      · exact h.differ i j a b r ha hb har hbr
      · rw [hr] at hbr
        cases hbr
    · rw [hr] at har
      cases har

theorem inv_modify {dg : BcDg} (h : BcInv dg) (i : Nat) (g : BcGroup) (hg : dg[i]? = some g) (hgn : g.name ≠ []) (f : BcGroup → BcGroup)
    (hn : (f g).name = g.name) (hm : (f g).masters ≤ 1) (hv : (f g).vlsd = false)
    (hr : (f g).dataRef = g.dataRef ∨ ∃ (j : Nat) (v : BcGroup), (f g).dataRef = some (j + 1) ∧ dg[j]? = some v ∧ v.vlsd = true ∧
      ∀ (k : Nat) (b : BcGroup), dg[k]? = some b → b.dataRef ≠ some (j + 1)) : BcInv (dg.modify i f) := by
  have key : ∀ (k : Nat) (b : BcGroup), (dg.modify i f)[k]? = some b → ∃ a, dg[k]? = some a ∧ b.name = a.name ∧ ((k = i ∧ a = g ∧ b = f g) ∨ (k ≠ i ∧ b = a)) := by
    intro k b hb
    obtain ⟨a, h1, h2⟩ := (getElem?_modify_some _ _ _ _ _).1 hb
    by_cases e : i = k
    · subst e
      rw [hg] at h1
      cases h1
      rw [if_pos rfl] at h2
      subst h2
      exact ⟨g, hg, hn, .inl ⟨rfl, rfl, rfl⟩⟩
    · rw [if_neg e] at h2
      subst h2
      exact ⟨b, h1, rfl, .inr ⟨fun e' => e e'.symm, rfl⟩⟩
  have keep : ∀ (k : Nat) (v : BcGroup), dg[k]? = some v → v.vlsd = true → (dg.modify i f)[k]? = some v := by
    intro k v hk hvv
    refine (getElem?_modify_some _ _ _ _ _).2 ⟨v, hk, ?_⟩
    have : i ≠ k := by
      intro e
      subst e
      rw [hg] at hk
      cases hk
      exact hgn (h.vlsd i g hg hvv).1
    rw [if_neg this]
  refine ⟨?_, ?_, ?_, ?_, ?_⟩
  · intro p q a b ha hb e ne
    obtain ⟨a', h1, h2, _⟩ := key p a ha
    obtain ⟨b', h3, h4, _⟩ := key q b hb
    exact h.names p q a' b' h1 h3 (by rw [← h2, ← h4, e]) (by rw [← h2]; exact ne)
  · intro p a ha
    obtain ⟨a', h1, _, ⟨_, _, rfl⟩ | ⟨_, rfl⟩⟩ := key p a ha
    · exact hm
    · exact h.masters p a h1
  · intro p a ha hav
    obtain ⟨a', h1, _, ⟨_, _, rfl⟩ | ⟨_, rfl⟩⟩ := key p a ha
    · rw [hv] at hav
      cases hav
    · exact h.vlsd p a h1 hav
  · intro p a r ha har
    obtain ⟨a', h1, _, ⟨_, rfl, rfl⟩ | ⟨_, rfl⟩⟩ := key p a ha
    · rcases hr with hr | ⟨j, v, h2, h3, h4, _⟩
      · obtain ⟨j, v, h2, h3, h4⟩ := h.refs p a' r h1 (hr ▸ har)
        exact ⟨j, v, h2, keep j v h3 h4, h4⟩
      · rw [h2] at har
        cases har
        exact ⟨j, v, rfl, keep j v h3 h4, h4⟩
    · obtain ⟨j, v, h2, h3, h4⟩ := h.refs p a r h1 har
      exact ⟨j, v, h2, keep j v h3 h4, h4⟩
  · intro p q a b r ha hb har hbr
    obtain ⟨a', h1, _, ha'⟩ := key p a ha
    obtain ⟨b', h2, _, hb'⟩ := key q b hb
    rcases ha' with ⟨e1, e2, e3⟩ | ⟨e1, e2⟩ <;> rcases hb' with ⟨e4, e5, e6⟩ | ⟨e4, e5⟩
    · omega
    · subst e2 e3 e5
      rcases hr with hr | ⟨j, v, h3, h4, h5, h6⟩
      · exact h.differ p q a' b r h1 h2 (hr ▸ har) hbr
      · rw [h3] at har
        cases har
        exact absurd hbr (h6 q b h2)
    · subst e5 e6 e2
      rcases hr with hr | ⟨j, v, h3, h4, h5, h6⟩
      · exact h.differ p q a b' r h1 h2 har (hr ▸ hbr)
      · rw [h3] at hbr
        cases hbr
        exact absurd har (h6 p a h1)
    · subst e2 e5
      exact h.differ p q a b r h1 h2 har hbr

theorem bcCreate_nil (dg : BcDg) : bcCreate dg [] = (dg ++ [{ name := [] }], dg.length) := by
  rcases bcCreate_cases dg [] with ⟨h, _⟩ | ⟨_, h⟩
  · exact absurd rfl h
  · exact h

theorem modify_mid {α : Type} (l r : List α) (a : α) (f : α → α) : (l ++ a :: r).modify l.length f = l ++ f a :: r := by
  induction l with
  | nil => simp
  | cons x l ih => simp [ih]

/-- The VLSD group behind a group. -/
def bcVlsd : BcGroup := { name := [], vlsd := true }

def BcGroup.withRef (r : Nat) (g : BcGroup) : BcGroup := { g with dataRef := some r }

/-- One kind of message: the groups afterwards. -/
theorem run_eq (p : BcPlan) (dg : BcDg) (hp : p.name ≠ []) :
    ∃ (d1 : BcDg) (i : Nat) (g : BcGroup), d1[i]? = some g ∧ g.name = p.name ∧
      ((d1 = dg ∧ i < dg.length) ∨ ((∀ x ∈ dg, x.name ≠ p.name) ∧ d1 = dg ++ [g] ∧ i = dg.length ∧ g = { name := p.name })) ∧
      p.run dg = if p.data then (d1.modify i BcGroup.asBus ++ [bcVlsd]).modify i
        (BcGroup.withRef (d1.length + 1)) else d1.modify i BcGroup.asBus := by
  have fin : ∀ (d1 : BcDg) (i : Nat) (g : BcGroup), d1[i]? = some g → bcCreate dg p.name = (d1, i) → p.run dg = if p.data then
      (d1.modify i BcGroup.asBus ++ [bcVlsd]).modify i
        (BcGroup.withRef (d1.length + 1)) else d1.modify i BcGroup.asBus := by
    intro d1 i g hg hc
    obtain ⟨hlt, _⟩ := List.getElem?_eq_some_iff.1 hg
    unfold BcPlan.run
    rw [hc]
    simp only [bcCreate_nil, modify_mid]
    split
    · have e : ∀ (a : BcGroup), bcRecordId (d1.modify i BcGroup.asBus ++ [a]) (d1.modify i BcGroup.asBus).length = some (d1.length + 1) := by
        intro a
        rw [bcRecordId_two]
        · simp
        · simp; omega
        · simp
      simp only [e]
      rfl
    · rfl
  rcases bcCreate_cases dg p.name with ⟨_, i, g, h1, h2, h3⟩ | ⟨h1, h2⟩
  · obtain ⟨hlt, _⟩ := List.getElem?_eq_some_iff.1 h1
    exact ⟨dg, i, g, h1, h2, .inl ⟨rfl, hlt⟩, fin dg i g h1 h3⟩
  · have h4 : (dg ++ [({ name := p.name } : BcGroup)])[dg.length]? = some { name := p.name } := by simp
    refine ⟨_, dg.length, _, h4, rfl, .inr ⟨?_, rfl, rfl, rfl⟩, fin _ _ _ h4 h2⟩
    rcases h1 with h1 | h1
    · exact absurd h1 hp
    · exact h1

theorem inv_nil : BcInv [] := by
  constructor <;> simp

theorem asBus_masters (g : BcGroup) (h : g.masters ≤ 1) : g.asBus.masters = 1 := by
  simp only [BcGroup.asBus]
  split <;> omega

theorem inv_run (p : BcPlan) (dg : BcDg) (hp : p.name ≠ []) (h : BcInv dg) : BcInv (p.run dg) := by
  obtain ⟨d1, i, g, h1, h2, h3, h4⟩ := run_eq p dg hp
  have hd1 : BcInv d1 := by
    rcases h3 with ⟨h3, _⟩ | ⟨h3, h5, _, h6⟩
    · rw [h3]
      exact h
    · rw [h5]
      refine inv_append h g ?_ (by rw [h6]; simp) (by rw [h6]; simp) (by rw [h6])
      right
      rw [h2]
      exact h3
  have hd2 : BcInv (d1.modify i BcGroup.asBus) :=
    inv_modify hd1 i g h1 (by rw [h2]; exact hp) _ rfl (Nat.le_of_eq (asBus_masters g (hd1.masters i g h1))) rfl (.inl rfl)
  rw [h4]
  split
  · have hd3 : BcInv (d1.modify i BcGroup.asBus ++ [bcVlsd]) := inv_append hd2 bcVlsd (.inl rfl) (by simp [bcVlsd]) (fun _ => rfl) rfl
    have hi : (d1.modify i BcGroup.asBus ++ [bcVlsd])[i]? = some g.asBus := by
      rw [getElem?_append_one]
      left
      exact (getElem?_modify_some _ _ _ _ _).2 ⟨g, h1, by rw [if_pos rfl]⟩
    refine inv_modify hd3 i g.asBus hi (by rw [BcGroup.asBus, h2]; exact hp) _ rfl (show g.asBus.masters ≤ 1 from hd3.masters i g.asBus hi) rfl (.inr ⟨d1.length, bcVlsd, rfl, ?_, rfl, ?_⟩)
    · simp
    · intro k b hb hbr
      rw [getElem?_append_one] at hb
      rcases hb with hb | ⟨_, rfl⟩
      · obtain ⟨j, v, h5, h6, _⟩ := hd2.refs k b _ hb hbr
        obtain ⟨h7, _⟩ := List.getElem?_eq_some_iff.1 h6
        simp only [List.length_modify] at h7
        omega
      · cases hbr
  · exact hd2

theorem inv_bcRun (ps : List BcPlan) (hp : ∀ p ∈ ps, p.name ≠ []) : ∀ dg, BcInv dg → BcInv (bcRun ps dg) := by
  induction ps with
  | nil => exact fun _ h => h
  | cons p ps ih =>
    intro dg h
    exact ih (fun q hq => hp q (List.mem_cons_of_mem _ hq)) _ (inv_run p dg (hp p List.mem_cons_self) h)

/-- There is the group of a kind, without looking for the VLSD group. -/
def BcHas' (dg : BcDg) (p : BcPlan) : Prop :=
  ∃ (i : Nat) (g : BcGroup), dg[i]? = some g ∧ g.name = p.name ∧ g.bus = true ∧ g.vlsd = false ∧ g.masters = 1 ∧
    (p.data = true → g.dataRef.isSome = true)

theorem has_of (dg : BcDg) (p : BcPlan) (h : BcProper dg) (hh : BcHas' dg p) : BcHas dg p := by
  obtain ⟨i, g, h1, h2, h3, h4, h5, h6⟩ := hh
  refine ⟨i, g, h1, h2, h3, h4, h5, fun hd => ?_⟩
  obtain ⟨r, hr⟩ := Option.isSome_iff_exists.1 (h6 hd)
  obtain ⟨j, v, h7, h8, h9⟩ := h.refs i g r h1 hr
  exact ⟨r, j, v, hr, h7, h8, h9⟩

/-- What a kind of message does to a group that is there. -/
theorem run_elem (p : BcPlan) (dg : BcDg) (hp : p.name ≠ []) (k : Nat) (a : BcGroup) (ha : dg[k]? = some a) :
    ∃ b : BcGroup, (p.run dg)[k]? = some b ∧ b.name = a.name ∧ b.nof = a.nof ∧ (a.name ≠ p.name → b = a) ∧
      (b = a ∨ (b.bus = true ∧ b.vlsd = false ∧ b.masters = a.asBus.masters ∧
        (b.dataRef = a.dataRef ∨ b.dataRef = some ((p.run dg).length)))) := by
  obtain ⟨d1, i, g, h1, h2, h3, h4⟩ := run_eq p dg hp
  obtain ⟨hlt, _⟩ := List.getElem?_eq_some_iff.1 ha
  have hk : d1[k]? = some a := by
    rcases h3 with ⟨h3, _⟩ | ⟨_, h5, _⟩
    · rw [h3]
      exact ha
    · rw [h5, getElem?_append_one]
      exact .inl ha
  obtain ⟨hlt1, _⟩ := List.getElem?_eq_some_iff.1 hk
  by_cases e : i = k
  · subst e
    have hag : a = g := by
      rw [h1] at hk
      injection hk with hk
      exact hk.symm
    subst hag
    rw [h4]
    split
    · refine ⟨a.asBus.withRef (d1.length + 1), ?_, rfl, rfl, fun hne => absurd h2 hne, .inr ⟨rfl, rfl, rfl, .inr ?_⟩⟩
      · refine (getElem?_modify_some _ _ _ _ _).2 ⟨a.asBus, ?_, by rw [if_pos rfl]⟩
        rw [getElem?_append_one]
        exact .inl ((getElem?_modify_some _ _ _ _ _).2 ⟨a, h1, by rw [if_pos rfl]⟩)
      · simp [BcGroup.withRef]
    · refine ⟨a.asBus, ?_, rfl, rfl, fun hne => absurd h2 hne, .inr ⟨rfl, rfl, rfl, .inl rfl⟩⟩
      exact (getElem?_modify_some _ _ _ _ _).2 ⟨a, h1, by rw [if_pos rfl]⟩
  · refine ⟨a, ?_, rfl, rfl, fun _ => rfl, .inl rfl⟩
    have h5 : (d1.modify i BcGroup.asBus)[k]? = some a := (getElem?_modify_some _ _ _ _ _).2 ⟨a, hk, by rw [if_neg e]⟩
    rw [h4]
    split
    · exact (getElem?_modify_some _ _ _ _ _).2 ⟨a, (getElem?_append_one _ _ _ _).2 (.inl h5), by rw [if_neg e]⟩
    · exact h5

theorem has_mono (p q : BcPlan) (dg : BcDg) (hp : p.name ≠ []) (h : BcHas' dg q) : BcHas' (p.run dg) q := by
  obtain ⟨i, g, h1, h2, h3, h4, h5, h6⟩ := h
  obtain ⟨b, h7, h8, _, _, h9⟩ := run_elem p dg hp i g h1
  rcases h9 with rfl | ⟨h9, h10, h11, h12⟩
  · exact ⟨i, b, h7, h2, h3, h4, h5, h6⟩
  · refine ⟨i, b, h7, by rw [h8, h2], h9, h10, by rw [h11]; exact asBus_masters g (by omega), fun hd => ?_⟩
    rcases h12 with h12 | h12
    · rw [h12]
      exact h6 hd
    · rw [h12]
      rfl

theorem has_run (p : BcPlan) (dg : BcDg) (hp : p.name ≠ []) (h : BcInv dg) : BcHas' (p.run dg) p := by
  obtain ⟨d1, i, g, h1, h2, h3, h4⟩ := run_eq p dg hp
  have hm : g.asBus.masters = 1 := by
    refine asBus_masters g ?_
    rcases h3 with ⟨h3, _⟩ | ⟨h3, h5, _, h6⟩
    · exact h.masters i g (h3 ▸ h1)
    · rw [h6]
      simp
  have h5 : (d1.modify i BcGroup.asBus)[i]? = some g.asBus := (getElem?_modify_some _ _ _ _ _).2 ⟨g, h1, by rw [if_pos rfl]⟩
  rw [h4]
  split
  · refine ⟨i, g.asBus.withRef (d1.length + 1), ?_, h2, rfl, rfl, hm, fun _ => rfl⟩
    exact (getElem?_modify_some _ _ _ _ _).2 ⟨g.asBus, (getElem?_append_one _ _ _ _).2 (.inl h5), by rw [if_pos rfl]⟩
  · rename_i hd
    exact ⟨i, g.asBus, h5, h2, rfl, rfl, hm, fun h => absurd h hd⟩

theorem has_bcRun (ps : List BcPlan) (hp : ∀ p ∈ ps, p.name ≠ []) (q : BcPlan) : ∀ dg, BcInv dg → (q ∈ ps ∨ BcHas' dg q) → BcHas' (bcRun ps dg) q := by
  induction ps with
  | nil =>
    intro dg _ h
    rcases h with h | h
    · cases h
    · exact h
  | cons p ps ih =>
    intro dg hi h
    have hp1 := hp p List.mem_cons_self
    refine ih (fun q hq => hp q (List.mem_cons_of_mem _ hq)) _ (inv_run p dg hp1 hi) ?_
    rcases h with h | h
    · rcases List.mem_cons.1 h with rfl | h
      · exact .inr (has_run q dg hp1 hi)
      · exact .inl h
    · exact .inr (has_mono p q dg hp1 h)

/-- A new kind of message: the groups it adds. -/
theorem run_new (p : BcPlan) (dg : BcDg) (hp : p.name ≠ []) (h : ∀ x ∈ dg, x.name ≠ p.name) :
    (p.run dg).map BcGroup.shape = dg.map BcGroup.shape ++ p.shapes := by
  obtain ⟨d1, i, g, h1, h2, h3, h4⟩ := run_eq p dg hp
  rcases h3 with ⟨h3, _⟩ | ⟨_, h5, h6, h7⟩
  · subst h3
    exact absurd h2 (h g (List.mem_of_getElem? h1))
  · subst h5 h6
    rw [h4]
    simp only [modify_mid, List.append_assoc, List.cons_append, List.nil_append]
    rw [h7]
    split <;> rename_i hd <;> simp [BcPlan.shapes, hd, BcGroup.shape, BcGroup.asBus, BcGroup.withRef, bcVlsd]

theorem shapes_names (dg : BcDg) (e : BcDg) (ss : List (List Char × Bool × Bool × Nat × Nat)) (h : dg.map BcGroup.shape = e.map BcGroup.shape ++ ss)
    (n : List Char) (h1 : ∀ x ∈ e, x.name ≠ n) (h2 : ∀ s ∈ ss, s.1 ≠ n) : ∀ x ∈ dg, x.name ≠ n := by
  intro x hx
  have : x.shape ∈ e.map BcGroup.shape ++ ss := h ▸ List.mem_map_of_mem hx
  rcases List.mem_append.1 this with h3 | h3
  · obtain ⟨y, hy, h4⟩ := List.mem_map.1 h3
    have : y.name = x.name := congrArg Prod.fst h4
    rw [← this]
    exact h1 y hy
  · exact h2 _ h3

theorem bcRun_new (ps : List BcPlan) (hp : ∀ p ∈ ps, p.name ≠ []) (hn : (ps.map BcPlan.name).Nodup) : ∀ dg : BcDg,
    (∀ x ∈ dg, ∀ p ∈ ps, x.name ≠ p.name) → (bcRun ps dg).map BcGroup.shape = dg.map BcGroup.shape ++ ps.flatMap BcPlan.shapes := by
  induction ps with
  | nil =>
    intro dg _
    simp [bcRun]
  | cons p ps ih =>
    intro dg h
    have hp1 := hp p List.mem_cons_self
    have h1 := run_new p dg hp1 (fun x hx => h x hx p List.mem_cons_self)
    simp only [List.map_cons, List.nodup_cons, List.mem_map, not_exists, not_and] at hn
    have h2 := ih (fun q hq => hp q (List.mem_cons_of_mem _ hq)) hn.2 (p.run dg) ?_
    · show (bcRun ps (p.run dg)).map BcGroup.shape = _
      rw [h2, h1]
      simp
    · intro x hx q hq
      refine shapes_names _ _ _ h1 q.name (fun y hy => h y hy q (List.mem_cons_of_mem _ hq)) ?_ x hx
      intro s hs e
      simp only [BcPlan.shapes, List.mem_cons] at hs
      rcases hs with rfl | hs
      · exact hn.1 q hq e.symm
      · split at hs
        · simp only [List.mem_cons, List.not_mem_nil, or_false] at hs
          subst hs
          exact hp q (List.mem_cons_of_mem _ hq) e.symm
        · cases hs

/-- A kind of message that is there already: only a VLSD group is added. -/
theorem run_again (p : BcPlan) (dg : BcDg) (hp : p.name ≠ []) (hi : BcInv dg) (h : BcHas' dg p) :
    (p.run dg).map BcGroup.shape = dg.map BcGroup.shape ++ (if p.data then [bcVlsd.shape] else []) := by
  obtain ⟨d1, i, g, h1, h2, h3, h4⟩ := run_eq p dg hp
  obtain ⟨k, a, h5, h6, h7, h8, h9, _⟩ := h
  rcases h3 with ⟨h3, _⟩ | ⟨h3, _⟩
  · subst h3
    have e := hi.names i k g a h1 h5 (by rw [h2, h6]) (by rw [h2]; exact hp)
    subst e
    rw [h1] at h5
    cases h5
    have hs : ∀ (l : BcDg) (f : BcGroup → BcGroup) (x : BcGroup), l[i]? = some x → (f x).shape = x.shape → (l.modify i f).map BcGroup.shape = l.map BcGroup.shape := by
      intro l f x hx hf
      apply List.ext_getElem?
      intro j
      rw [List.getElem?_map, List.getElem?_map, List.getElem?_modify]
      by_cases e : i = j
      · subst e
        simp [hx, hf]
      · simp [e]
    have hb : g.asBus.shape = g.shape := by
      simp [BcGroup.shape, BcGroup.asBus, h7, h8, h9]
    have h10 : (d1.modify i BcGroup.asBus)[i]? = some g.asBus := (getElem?_modify_some _ _ _ _ _).2 ⟨g, h1, by rw [if_pos rfl]⟩
    rw [h4]
    split
    · rw [hs _ _ g.asBus ((getElem?_append_one _ _ _ _).2 (.inl h10)) rfl, List.map_append, hs _ _ g h1 hb]
      rfl
    · rw [hs _ _ g h1 hb, List.append_nil]
  · exact absurd h6 (h3 a (List.mem_of_getElem? h5))

theorem bcRun_again (ps : List BcPlan) (hp : ∀ p ∈ ps, p.name ≠ []) : ∀ dg : BcDg, BcInv dg → (∀ p ∈ ps, BcHas' dg p) →
    (bcRun ps dg).map BcGroup.shape = dg.map BcGroup.shape ++ List.replicate (ps.countP (·.data)) bcVlsd.shape := by
  induction ps with
  | nil =>
    intro dg _ _
    simp [bcRun]
  | cons p ps ih =>
    intro dg hi h
    have hp1 := hp p List.mem_cons_self
    show (bcRun ps (p.run dg)).map BcGroup.shape = _
    rw [ih (fun q hq => hp q (List.mem_cons_of_mem _ hq)) (p.run dg) (inv_run p dg hp1 hi)
      (fun q hq => has_mono p q dg hp1 (h q (List.mem_cons_of_mem _ hq))), run_again p dg hp1 hi (h p List.mem_cons_self)]
    rw [List.countP_cons]
    split
    · rw [List.append_assoc, List.cons_append, List.nil_append, ← List.replicate_succ]
    · simp

end Mdf
