import Verif.Spec.Convert
import Mathlib.Tactic.Linarith
import Mathlib.Tactic.FieldSimp
import Mathlib.Tactic.Ring

set_option linter.unusedSectionVars false

namespace Mdf

section
variable {D : Type}

theorem tablePars_length (t : List (D × D)) : (tablePars t).length = 2 * t.length := by
  unfold tablePars
  induction t with
  | nil => rfl
  | cons e t ih => rw [List.flatMap_cons, List.length_append, ih]; simp; omega

theorem tablePars_get (t : List (D × D)) (i : Nat) :
    (tablePars t)[2 * i]? = (t[i]?).map (fun e => .num e.1) ∧ (tablePars t)[2 * i + 1]? = (t[i]?).map (fun e => .num e.2) := by
  unfold tablePars
  induction t generalizing i with
  | nil => simp
  | cons e t ih =>
    rw [List.flatMap_cons]
    cases i with
    | zero => simp
    | succ i =>
      have h1 : 2 * (i + 1) = 2 * i + 2 := by omega
      have h2 : 2 * i + 2 + 1 = (2 * i + 1) + 2 := by omega
      rw [h1, h2]
      simpa using ih i

theorem tablePars_last (t : List (D × D)) : (tablePars t).getLast? = (t.getLast?).map (fun e => .num e.2) := by
  unfold tablePars
  induction t with
  | nil => rfl
  | cons e t ih =>
    rw [List.flatMap_cons, List.getLast?_append, ih, List.getLast?_cons (a := e)]
    cases t.getLast? <;> rfl

theorem rangePars_length (t : List (D × D × D)) (d : D) : (rangePars t d).length = 3 * t.length + 1 := by
  unfold rangePars
  rw [List.length_append]
  have : (t.flatMap fun e => ([.num e.1, .num e.2.1, .num e.2.2] : List (CcPar D))).length = 3 * t.length := by
    induction t with
    | nil => rfl
    | cons e t ih => rw [List.flatMap_cons, List.length_append, ih]; simp; omega
  rw [this]
  rfl

theorem rangePars_get (t : List (D × D × D)) (d : D) (i : Nat) (e : D × D × D) (h : t[i]? = some e) :
    (rangePars t d)[3 * i]? = some (.num e.1) ∧ (rangePars t d)[3 * i + 1]? = some (.num e.2.1) ∧
    (rangePars t d)[3 * i + 2]? = some (.num e.2.2) := by
  induction t generalizing i with
  | nil => simp at h
  | cons e' t ih =>
    have hr : rangePars (e' :: t) d = [.num e'.1, .num e'.2.1, .num e'.2.2] ++ rangePars t d := by
      unfold rangePars; rw [List.flatMap_cons, List.append_assoc]
    rw [hr]
    cases i with
    | zero =>
      simp only [List.getElem?_cons_zero, Option.some.injEq] at h
      subst h
      simp
    | succ i =>
      rw [List.getElem?_cons_succ] at h
      have h1 : 3 * (i + 1) = 3 * i + 3 := by omega
      have h2 : 3 * i + 3 + 1 = (3 * i + 1) + 3 := by omega
      have h3 : 3 * i + 3 + 2 = (3 * i + 2) + 3 := by omega
      rw [h1, h2, h3]
      simpa using ih i h

theorem rangePars_last (t : List (D × D × D)) (d : D) : (rangePars t d).getLast? = some (.num d) := by
  unfold rangePars; simp

end

section
variable {D : Type} [Zero D] [One D] [Add D] [Sub D] [Mul D] [Div D] [LinearOrder D] (ofNat : Nat → D)

theorem param_num (c : Conv D) (i : Nat) (hi : i < 2 ^ 16) (d : D) (h : c.values[i]? = some (.num d)) : c.param ofNat i = d := by
  unfold Conv.param
  rw [Nat.mod_eq_of_lt hi, h]

/-- The keys and values of a table. -/
theorem table_param (c : Conv D) (t : List (D × D)) (hval : c.values = tablePars t) (hlen : 2 * t.length ≤ 2 ^ 16) (i : Nat) (e : D × D)
    (h : t[i]? = some e) : c.param ofNat (2 * i) = e.1 ∧ c.param ofNat (2 * i + 1) = e.2 := by
  have hi : i < t.length := by
    rw [List.getElem?_eq_some_iff] at h
    exact h.1
  obtain ⟨h1, h2⟩ := tablePars_get t i
  rw [h] at h1 h2
  exact ⟨param_num ofNat c _ (by omega) _ (by rw [hval]; exact h1), param_num ofNat c _ (by omega) _ (by rw [hval]; exact h2)⟩

/-- The loop stops at the first key that is not below the value. -/
theorem tableLoop_at (mid : D → D → D → D → D → Option D) (c : Conv D) (t : List (D × D)) (hval : c.values = tablePars t)
    (hlen : 2 * t.length ≤ 2 ^ 16) (x : D) (i : Nat) (e : D × D) (hi : t[i]? = some e) (hx : x ≤ e.1) :
    ∀ (fuel m : Nat), m ≤ i → i - m < fuel → (∀ j e', m ≤ j → j < i → t[j]? = some e' → e'.1 < x) →
    Conv.tableLoop ofNat mid c x fuel m =
      if x = e.1 ∨ i = 0 then .ok (some e.2)
      else .ok (mid x (c.param ofNat (2 * i - 2)) (c.param ofNat (2 * i + 1 - 2)) e.1 e.2) := by
  have hil : i < t.length := by
    rw [List.getElem?_eq_some_iff] at hi
    exact hi.1
  intro fuel
  induction fuel with
  | zero => intro m _ h; omega
  | succ fuel ih =>
    intro m hm hf hlt
    rw [Conv.tableLoop, if_neg (by rw [hval, tablePars_length]; omega)]
    by_cases hmi : m = i
    · subst hmi
      obtain ⟨h1, h2⟩ := table_param ofNat c t hval hlen m e hi
      rw [h1, h2]
      by_cases he : x = e.1
      · rw [if_pos he, if_pos (Or.inl he)]
      · rw [if_neg he, if_pos (lt_of_le_of_ne hx he)]
        by_cases h0 : m = 0
        · rw [if_pos h0, if_pos (Or.inr h0)]
        · rw [if_neg h0, if_neg (by rintro (h | h); exacts [he h, h0 h])]
    · have hml : m < t.length := by omega
      obtain ⟨h1, h2⟩ := table_param ofNat c t hval hlen m t[m] (List.getElem?_eq_getElem hml)
      have hlt1 := hlt m t[m] (Nat.le_refl _) (by omega) (List.getElem?_eq_getElem hml)
      rw [h1, if_neg (ne_of_gt hlt1), if_neg (lt_asymm hlt1)]
      exact ih (m + 1) (by omega) (by omega) (fun j e' hj => hlt j e' (by omega))

/-- All keys are below the value. -/
theorem tableLoop_above (mid : D → D → D → D → D → Option D) (c : Conv D) (t : List (D × D)) (hval : c.values = tablePars t)
    (hlen : 2 * t.length ≤ 2 ^ 16) (x : D) (hlt : ∀ e ∈ t, e.1 < x) :
    ∀ (fuel m : Nat), Conv.tableLoop ofNat mid c x fuel m = c.back := by
  intro fuel
  induction fuel with
  | zero => intro m; rfl
  | succ fuel ih =>
    intro m
    rw [Conv.tableLoop]
    by_cases hm : m < t.length
    · rw [if_neg (by rw [hval, tablePars_length]; omega)]
      obtain ⟨h1, h2⟩ := table_param ofNat c t hval hlen m t[m] (List.getElem?_eq_getElem hm)
      have hlt1 := hlt t[m] (List.getElem_mem hm)
      rw [h1, if_neg (ne_of_gt hlt1), if_neg (lt_asymm hlt1)]
      exact ih (m + 1)
    · rw [if_pos (by rw [hval, tablePars_length]; omega)]

theorem SortedTable.get {t : List (D × D)} (h : SortedTable t) {i j : Nat} {a b : D × D} (hij : i < j) (ha : t[i]? = some a)
    (hb : t[j]? = some b) : a.1 < b.1 := by
  unfold SortedTable at h
  rw [List.pairwise_iff_getElem] at h
  rw [List.getElem?_eq_some_iff] at ha hb
  obtain ⟨hi, rfl⟩ := ha
  obtain ⟨hj, rfl⟩ := hb
  exact h i j hi hj hij

/-- The table conversions at position `i` of the table. -/
theorem table_at (mid : D → D → D → D → D → Option D) (c : Conv D) (t : List (D × D)) (hs : SortedTable t)
    (hval : c.values = tablePars t) (hlen : 2 * t.length ≤ 2 ^ 16) (hnof : t.length ≤ c.nof) (x : D) (i : Nat) (e : D × D)
    (hi : t[i]? = some e) (hx : x ≤ e.1) (hprev : ∀ j e', j + 1 = i → t[j]? = some e' → e'.1 < x) :
    Conv.tableLoop ofNat mid c x c.nof 0 =
      if x = e.1 ∨ i = 0 then .ok (some e.2)
      else .ok (mid x (c.param ofNat (2 * i - 2)) (c.param ofNat (2 * i + 1 - 2)) e.1 e.2) := by
  have hil : i < t.length := by
    have := hi
    rw [List.getElem?_eq_some_iff] at this
    exact this.1
  apply tableLoop_at ofNat mid c t hval hlen x i e hi hx c.nof 0 (by omega) (by omega)
  intro j e' _ hj he'
  have hil' : i - 1 < t.length := by omega
  have hp := hprev (i - 1) t[i - 1] (by omega) (List.getElem?_eq_getElem hil')
  by_cases hji : j = i - 1
  · subst hji
    rw [List.getElem?_eq_getElem hil'] at he'
    cases he'
    exact hp
  · exact lt_trans (hs.get (by omega) he' (List.getElem?_eq_getElem hil')) hp

/-- All keys are at most the value. -/
theorem table_last (mid : D → D → D → D → D → Option D) (c : Conv D) (t : List (D × D)) (hs : SortedTable t)
    (hval : c.values = tablePars t) (hlen : 2 * t.length ≤ 2 ^ 16) (hnof : t.length ≤ c.nof) (x : D) (e : D × D)
    (hi : t.getLast? = some e) (hx : e.1 ≤ x) : Conv.tableLoop ofNat mid c x c.nof 0 = .ok (some e.2) := by
  rw [List.getLast?_eq_getElem?] at hi
  rcases lt_or_eq_of_le hx with hlt | heq
  · rw [tableLoop_above ofNat mid c t hval hlen x]
    · unfold Conv.back
      rw [hval, tablePars_last, List.getLast?_eq_getElem?, hi]
      rfl
    · intro e' he'
      rw [List.mem_iff_getElem?] at he'
      obtain ⟨j, hj⟩ := he'
      have hjl : j < t.length := by
        have := hj; rw [List.getElem?_eq_some_iff] at this; exact this.1
      by_cases hjj : j = t.length - 1
      · subst hjj; rw [hi] at hj; cases hj; exact hlt
      · exact lt_trans (hs.get (by omega) hj hi) hlt
  · rw [table_at ofNat mid c t hs hval hlen hnof x _ e hi (le_of_eq heq.symm), if_pos (Or.inl heq.symm)]
    intro j e' hj he'
    rw [← heq]
    exact hs.get (by omega) he' hi

/-! ### Ranges -/

theorem inRange_eq (c : Conv D) (integer : Bool) (hk : KindOf c.dataType integer) (x lo hi : D) :
    c.inRange x lo hi = Contains integer x (lo, hi) := by
  unfold Conv.inRange Contains Conv.isInteger Conv.isFloat
  cases integer
  · have h1 : ¬ c.dataType ≤ 3 := by unfold KindOf at hk; simp at hk; omega
    have h2 : 3 < c.dataType ∧ c.dataType ≤ 5 := by unfold KindOf at hk; simp at hk; omega
    simp [h1, h2]
  · have h1 : c.dataType ≤ 3 := by unfold KindOf at hk; simpa using hk
    have h2 : ¬ (3 < c.dataType ∧ c.dataType ≤ 5) := by omega
    simp [h1, h2]

theorem rangeLoop_eq (c : Conv D) (t : List (D × D × D)) (d : D) (hval : c.values = rangePars t d) (hlen : 3 * t.length < 2 ^ 16) (x : D)
    (integer : Bool) (hk : KindOf c.dataType integer) :
    ∀ (fuel m : Nat), t.length - m ≤ fuel →
      Conv.rangeLoop ofNat c x fuel m =
        .ok (some ((((t.drop m).find? fun r => Contains integer x (r.1, r.2.1)).map (·.2.2)).getD d)) := by
  have hback : c.back = .ok (some d) := by unfold Conv.back; rw [hval, rangePars_last]
  intro fuel
  induction fuel with
  | zero =>
    intro m hm
    rw [Conv.rangeLoop, hback, List.drop_eq_nil_of_le (by omega)]
    rfl
  | succ fuel ih =>
    intro m hm
    rw [Conv.rangeLoop]
    by_cases hml : m < t.length
    · obtain ⟨h1, h2, h3⟩ := rangePars_get t d m t[m] (List.getElem?_eq_getElem hml)
      rw [if_neg (by rw [hval, rangePars_length]; omega), List.drop_eq_getElem_cons hml,
        param_num ofNat c (3 * m) (by omega) _ (by rw [hval]; exact h1),
        param_num ofNat c (3 * m + 1) (by omega) _ (by rw [hval]; exact h2),
        param_num ofNat c (3 * m + 2) (by omega) _ (by rw [hval]; exact h3), inRange_eq c integer hk]
      by_cases hc : Contains integer x (t[m].1, t[m].2.1) = true
      · rw [if_pos hc, List.find?_cons_of_pos (p := fun r : D × D × D => Contains integer x (r.1, r.2.1)) hc]
        rfl
      · rw [if_neg hc, List.find?_cons_of_neg (p := fun r : D × D × D => Contains integer x (r.1, r.2.1)) hc]
        exact ih (m + 1) (by omega)
    · rw [if_pos (by rw [hval, rangePars_length]; omega), hback, List.drop_eq_nil_of_le (by omega)]
      rfl

/-! ### Texts -/

theorem keyLoop_eq (c : Conv D) (keys : List D) (hval : c.values = keys.map .num) (hlen : keys.length ≤ 2 ^ 16) (x : D) :
    ∀ (fuel m : Nat), keys.length - m ≤ fuel →
      Conv.keyLoop ofNat c x fuel m = ((keys.drop m).findIdx? (· = x)).map (· + m) := by
  intro fuel
  induction fuel with
  | zero => intro m hm; rw [Conv.keyLoop, List.drop_eq_nil_of_le (by omega)]; rfl
  | succ fuel ih =>
    intro m hm
    rw [Conv.keyLoop]
    by_cases hml : m < keys.length
    · rw [if_neg (by rw [hval]; simpa using hml), List.drop_eq_getElem_cons hml, List.findIdx?_cons,
        param_num ofNat c m (by omega) keys[m] (by rw [hval]; simp [hml])]
      by_cases hx : x = keys[m]
      · simp [hx]
      · have : ¬ keys[m] = x := fun h => hx h.symm
        rw [if_neg hx, ih (m + 1) (by omega)]
        simp only [this, decide_false]
        cases List.findIdx? (fun a => decide (a = x)) (keys.drop (m + 1)) with
        | none => rfl
        | some k => simp; omega
    · rw [if_pos (by rw [hval]; simpa using hml), List.drop_eq_nil_of_le (by omega)]; rfl

theorem keyRangeLoop_eq (c : Conv D) (t : List (D × D)) (hval : c.values = keyRangePars t) (hlen : 2 * t.length < 2 ^ 16) (x : D)
    (integer : Bool) (hk : KindOf c.dataType integer) :
    ∀ (fuel m : Nat), t.length - m ≤ fuel → m ≤ t.length →
      Conv.keyRangeLoop ofNat c x fuel m = ((t.drop m).findIdx? (Contains integer x)).map (· + m) := by
  intro fuel
  induction fuel with
  | zero => intro m hm _; rw [Conv.keyRangeLoop, List.drop_eq_nil_of_le (by omega)]; rfl
  | succ fuel ih =>
    intro m hm hmt
    have hval' : c.values = tablePars t := hval
    rw [Conv.keyRangeLoop]
    have hlo : (2 * m) % 2 ^ 16 = 2 * m := Nat.mod_eq_of_lt (by omega)
    have hhi : (2 * m + 1) % 2 ^ 16 = 2 * m + 1 := Nat.mod_eq_of_lt (by omega)
    simp only [hlo, hhi]
    by_cases hml : m < t.length
    · obtain ⟨h1, h2⟩ := table_param ofNat c t hval' (by omega) m t[m] (List.getElem?_eq_getElem hml)
      rw [if_neg (by rw [hval', tablePars_length]; omega), List.drop_eq_getElem_cons hml, List.findIdx?_cons, h1, h2,
        inRange_eq c integer hk]
      by_cases hx : Contains integer x t[m] = true
      · have hx' : Contains integer x (t[m].1, t[m].2) = true := hx
        simp [hx]
      · have hx' : ¬ Contains integer x (t[m].1, t[m].2) = true := hx
        rw [if_neg hx', ih (m + 1) (by omega) (by omega)]
        simp only [hx]
        cases List.findIdx? (Contains integer x) (t.drop (m + 1)) with
        | none => rfl
        | some k => simp; omega
    · rw [if_pos (by rw [hval', tablePars_length]; omega), List.drop_eq_nil_of_le (by omega)]; rfl

theorem mkRefs_length (l : List (RefItem D)) : (mkRefs l).length = l.length := by
  induction l with
  | nil => rfl
  | cons r l ih => cases r <;> simp [mkRefs, CcRefs.length, ih]

theorem mkRefs_textAt (l : List (RefItem D)) (i : Nat) (s : String) (h : l[i]? = some (.text s)) : (mkRefs l).textAt i = .text s := by
  induction l generalizing i with
  | nil => simp at h
  | cons r l ih =>
    cases i with
    | zero => simp at h; subst h; rfl
    | succ i => rw [List.getElem?_cons_succ] at h; cases r <;> simp [mkRefs, CcRefs.textAt, ih i h]

theorem mkRefs_outside (l : List (RefItem D)) (i : Nat) (h : l.length ≤ i) : (mkRefs l).textAt i = .outside := by
  induction l generalizing i with
  | nil => rfl
  | cons r l ih =>
    cases i with
    | zero => simp at h
    | succ i => cases r <;> simp [mkRefs, CcRefs.textAt, ih i (by simpa using h)]

theorem mkRefs_toTextAt (fmt : D → Nat → String) (l : List (RefItem D)) (i : Nat) (r : RefItem D) (x : D) (h : l[i]? = some r) :
    CcRefs.toTextAt ofNat fmt (mkRefs l) i x = r.meaning ofNat fmt x := by
  induction l generalizing i with
  | nil => simp at h
  | cons r' l ih =>
    cases i with
    | zero =>
      simp only [List.getElem?_cons_zero, Option.some.injEq] at h
      subst h
      cases r' <;> simp only [mkRefs, CcRefs.toTextAt, RefItem.meaning]
    | succ i =>
      rw [List.getElem?_cons_succ] at h
      cases r' <;> simp only [mkRefs, CcRefs.toTextAt, ih i h]

/-- Looking up by position is looking up in the list of pairs. -/
theorem lookup_idx {α β : Type} (keys : List α) (items : List β) (hl : keys.length = items.length) (p : α → Bool) (d : β) :
    (items ++ [d])[(keys.findIdx? p).getD items.length]? = some ((((keys.zip items).find? fun e => p e.1).map (·.2)).getD d) := by
  induction keys generalizing items with
  | nil =>
    have : items = [] := List.length_eq_zero_iff.1 hl.symm
    subst this
    rfl
  | cons k keys ih =>
    cases items with
    | nil => simp at hl
    | cons r items =>
      simp only [List.length_cons, Nat.add_right_cancel_iff] at hl
      rw [List.findIdx?_cons, List.zip_cons_cons]
      by_cases hp : p k = true
      · simp [hp]
      · rw [List.find?_cons_of_neg (by simpa using hp), ← ih items hl]
        simp only [hp]
        cases keys.findIdx? p <;> simp

end

end Mdf
