import Verif.Proof.Convert
import Mathlib.Algebra.Order.Ring.Rat
import Mathlib.Algebra.Field.Rat

/-! Properties C31 (conversions) and C32 (copies of conversions). -/

set_option linter.unusedSectionVars false

namespace Mdf

/-! ### C31 -/

section
variable {D : Type} [Zero D] [One D] [Add D] [Sub D] [Mul D] [Div D] [LinearOrder D] (ofNat : Nat → D)

/-- C31, linear: the value is the offset plus the factor times the raw value. -/
theorem C31_linear (nof dt dec : Nat) (refs : CcRefs D) (offset factor x : D) (more : List (CcPar D)) :
    (Conv.mk .linear nof (.num offset :: .num factor :: more) dt dec refs).convert ofNat x = .ok (some (offset + factor * x)) := rfl

/-- C31, table conversions (with and without interpolation), for any arithmetic on a linear order: the value of a key is found exactly;
below the first key it is the first value and above the last key the last one. -/
theorem C31_table (c : Conv D) (hc : c.type = .interpolation ∨ c.type = .valueToValue) (t : List (D × D)) (hs : SortedTable t)
    (hval : c.values = tablePars t) (hlen : 2 * t.length ≤ 2 ^ 16) (hnof : t.length ≤ c.nof) (x : D) :
    (∀ v, (x, v) ∈ t → c.convert ofNat x = .ok (some v)) ∧
    (∀ e, t.head? = some e → x ≤ e.1 → c.convert ofNat x = .ok (some e.2)) ∧
    (∀ e, t.getLast? = some e → e.1 ≤ x → c.convert ofNat x = .ok (some e.2)) := by
  have hconv : t ≠ [] → ∃ mid, c.convert ofNat x = Conv.tableLoop ofNat mid c x c.nof 0 := by
    intro hne
    have hl : ¬ c.values.length < 2 := by
      rw [hval, tablePars_length]
      have := List.length_pos_iff.2 hne
      omega
    unfold Conv.convert Conv.interpolate Conv.valueToValue
    rcases hc with hc | hc
    · rw [hc]; exact ⟨Conv.between, by simp only [if_neg hl]⟩
    · rw [hc]; exact ⟨Conv.nearer, by simp only [if_neg hl]⟩
  refine ⟨?_, ?_, ?_⟩
  · intro v hv
    obtain ⟨mid, hm⟩ := hconv (List.ne_nil_of_mem hv)
    obtain ⟨i, hi⟩ := List.mem_iff_getElem?.1 hv
    rw [hm, table_at ofNat mid c t hs hval hlen hnof x i (x, v) hi (le_refl _), if_pos (Or.inl rfl)]
    intro j e' hj he'
    exact hs.get (by omega) he' hi
  · intro e he hx
    have hne : t ≠ [] := by rintro rfl; simp at he
    obtain ⟨mid, hm⟩ := hconv hne
    rw [List.head?_eq_getElem?] at he
    rw [hm, table_at ofNat mid c t hs hval hlen hnof x 0 e he hx (by intro j e' hj; omega), if_pos (Or.inr rfl)]
  · intro e he hx
    have hne : t ≠ [] := by rintro rfl; simp at he
    obtain ⟨mid, hm⟩ := hconv hne
    rw [hm, table_last ofNat mid c t hs hval hlen hnof x e he hx]

/-- C31, ranges: the value of the first range that contains the raw value, else the default value. -/
theorem C31_range_to_value (nof dt dec : Nat) (refs : CcRefs D) (t : List (D × D × D)) (d : D) (hlen : 3 * t.length < 2 ^ 16)
    (hnof : t.length ≤ nof) (integer : Bool) (hk : KindOf dt integer) (x : D) :
    (Conv.mk .rangeToValue nof (rangePars t d) dt dec refs).convert ofNat x =
      .ok (some (((t.find? fun r => Contains integer x (r.1, r.2.1)).map (·.2.2)).getD d)) := by
  have hne : rangePars t d ≠ [] := by
    intro h
    have := rangePars_length t d
    rw [h] at this
    simp at this
  have := rangeLoop_eq ofNat (Conv.mk .rangeToValue nof (rangePars t d) dt dec refs) t d rfl hlen x integer hk nof 0 (by omega)
  rw [List.drop_zero] at this
  rw [← this]
  exact if_neg hne

/-- C31, value to text: the reference of the first equal key, else the last reference; a reference may be a text, nothing or another
conversion. -/
theorem C31_value_to_text (fmt : D → Nat → String) (nof dt dec : Nat) (keys : List D) (items : List (RefItem D)) (d : RefItem D)
    (hl : keys.length = items.length) (hlen : keys.length ≤ 2 ^ 16) (hnof : keys.length ≤ nof) (x : D) :
    (Conv.mk .valueToText nof (keys.map .num) dt dec (mkRefs (items ++ [d]))).toText ofNat fmt x =
      ((((keys.zip items).find? (·.1 = x)).map (·.2)).getD d).meaning ofNat fmt x := by
  rw [Conv.toText, if_pos (Or.inl rfl)]
  apply mkRefs_toTextAt
  have h := keyLoop_eq ofNat (Conv.mk .valueToText nof (keys.map .num) dt dec (mkRefs (items ++ [d]))) keys rfl hlen x nof 0 (by omega)
  rw [List.drop_zero] at h
  have hi : Conv.refIndex ofNat (Conv.mk .valueToText nof (keys.map .num) dt dec (mkRefs (items ++ [d]))) x =
      (keys.findIdx? (· = x)).getD items.length := by
    unfold Conv.refIndex
    simp only [Conv.type, Conv.nof, Conv.refs]
    rw [h, mkRefs_length]
    cases keys.findIdx? (· = x) <;> simp
  rw [hi]
  exact lookup_idx keys items hl (fun k => decide (k = x)) d

/-- C31, value range to text. -/
theorem C31_range_to_text (fmt : D → Nat → String) (nof dt dec : Nat) (t : List (D × D)) (items : List (RefItem D)) (d : RefItem D)
    (hl : t.length = items.length) (hlen : 2 * t.length < 2 ^ 16) (hnof : t.length ≤ nof) (integer : Bool) (hk : KindOf dt integer)
    (x : D) :
    (Conv.mk .rangeToText nof (keyRangePars t) dt dec (mkRefs (items ++ [d]))).toText ofNat fmt x =
      ((((t.zip items).find? fun e => Contains integer x e.1).map (·.2)).getD d).meaning ofNat fmt x := by
  rw [Conv.toText, if_pos (Or.inr rfl)]
  apply mkRefs_toTextAt
  have h := keyRangeLoop_eq ofNat (Conv.mk .rangeToText nof (keyRangePars t) dt dec (mkRefs (items ++ [d]))) t rfl hlen x integer hk nof 0
    (by omega) (by omega)
  rw [List.drop_zero] at h
  have hi : Conv.refIndex ofNat (Conv.mk .rangeToText nof (keyRangePars t) dt dec (mkRefs (items ++ [d]))) x =
      (t.findIdx? (Contains integer x)).getD items.length := by
    unfold Conv.refIndex
    simp only [Conv.type, Conv.nof, Conv.refs]
    rw [h, mkRefs_length]
    cases t.findIdx? (Contains integer x) <;> simp
  rw [hi]
  exact lookup_idx t items hl (Contains integer x) d

/-- C31, text to value: the value of the first equal text, else the default value. -/
theorem C31_text_to_value (stod : String → Option D) (nof dt dec : Nat) (texts : List String) (vals : List D) (d : D)
    (hl : texts.length = vals.length) (hlen : vals.length < 2 ^ 16) (hnof : texts.length ≤ nof) (s : String) :
    (Conv.mk .textToValue nof ((vals ++ [d]).map .num) dt dec (mkRefs (texts.map .text))).convertTextToNum ofNat stod s =
      .ok (true, (((texts.zip vals).find? (·.1 = s)).map (·.2)).getD d) := by
  set c := Conv.mk .textToValue nof ((vals ++ [d]).map .num) dt dec (mkRefs (texts.map .text)) with hc
  have hloop : ∀ fuel m, texts.length - m ≤ fuel →
      c.textLoop s fuel m = some (((texts.drop m).findIdx? (· = s)).map (· + m)) := by
    intro fuel
    induction fuel with
    | zero => intro m hm; rw [Conv.textLoop, List.drop_eq_nil_of_le (by omega)]; rfl
    | succ fuel ih =>
      intro m hm
      rw [Conv.textLoop]
      by_cases hml : m < texts.length
      · have ht : c.refs.textAt m = .text texts[m] := mkRefs_textAt _ _ _ (by simp [hml])
        rw [ht, List.drop_eq_getElem_cons hml, List.findIdx?_cons]
        simp only []
        by_cases hx : texts[m] = s
        · simp [hx]
        · rw [if_neg hx, ih (m + 1) (by omega)]
          simp only [hx, decide_false]
          cases List.findIdx? (fun a => decide (a = s)) (texts.drop (m + 1)) with
          | none => rfl
          | some k => simp; omega
      · have ht : c.refs.textAt m = .outside := mkRefs_outside _ _ (by simpa using hml)
        rw [ht, List.drop_eq_nil_of_le (by omega)]
        rfl
  have h0 := hloop nof 0 (by omega)
  rw [List.drop_zero] at h0
  have hvl : c.values.length = vals.length + 1 := by simp [hc, Conv.values]
  have hi : ((((texts.findIdx? (· = s)).map (· + 0)) : Option Nat).getD ((c.values.length - 1) % 2 ^ 16)) =
      (texts.findIdx? (· = s)).getD vals.length := by
    rw [hvl, Nat.add_sub_cancel, Nat.mod_eq_of_lt hlen]
    cases texts.findIdx? (· = s) <;> rfl
  have hlk := lookup_idx texts vals hl (fun k => decide (k = s)) d
  have hlt : (texts.findIdx? (· = s)).getD vals.length < vals.length + 1 := by
    rw [List.getElem?_eq_some_iff] at hlk
    simpa using hlk.1
  have hpar : c.param ofNat ((texts.findIdx? (· = s)).getD vals.length) = (((texts.zip vals).find? (·.1 = s)).map (·.2)).getD d := by
    apply param_num ofNat c _ (by omega)
    show ((vals ++ [d]).map CcPar.num)[_]? = _
    rw [List.getElem?_map, hlk]
    rfl
  have hne : c.values ≠ [] := by intro h; rw [h] at hvl; simp at hvl
  have htv : c.textToValue ofNat s = some ((((texts.zip vals).find? (·.1 = s)).map (·.2)).getD d) := by
    unfold Conv.textToValue
    rw [if_neg hne]
    show (match c.textLoop s nof 0 with | none => none | some i => _) = _
    rw [h0]
    simp only [hi]
    rw [if_neg (by omega), hpar]
  show Out.ok (true, (c.textToValue ofNat s).getD 0) = _
  rw [htv]
  rfl

/-- C31, text to text: the translation of the first equal text, else the default text. -/
theorem C31_translate (nof dt dec : Nat) (vals : List (CcPar D)) (pairs : List (String × String)) (d s : String) :
    (Conv.mk .textToText nof vals dt dec (mkRefs ((pairs.flatMap fun p => [.text p.1, .text p.2]) ++ [.text d]))).convertText s =
      (true, ((pairs.find? (·.1 = s)).map (·.2)).getD d) := by
  set refs : List (RefItem D) := (pairs.flatMap fun p => [.text p.1, .text p.2]) ++ [.text d] with hrefs
  set c := Conv.mk .textToText nof vals dt dec (mkRefs refs) with hc
  have hflen' : ∀ ps : List (String × String),
      (ps.flatMap fun p => ([.text p.1, .text p.2] : List (RefItem D))).length = 2 * ps.length := by
    intro ps
    induction ps with
    | nil => rfl
    | cons p ps ih => rw [List.flatMap_cons, List.length_append, ih]; simp; omega
  have hflen := hflen' pairs
  have hrl : refs.length = 2 * pairs.length + 1 := by rw [hrefs, List.length_append, hflen]; rfl
  have hcl : c.refs.length = 2 * pairs.length + 1 := by
    show (mkRefs refs).length = _
    rw [mkRefs_length, hrl]
  have hget : ∀ (ps : List (String × String)) (i : Nat) (p : String × String), ps[i]? = some p →
      ((ps.flatMap fun p => ([.text p.1, .text p.2] : List (RefItem D))) ++ [.text d])[2 * i]? = some (.text p.1) ∧
      ((ps.flatMap fun p => ([.text p.1, .text p.2] : List (RefItem D))) ++ [.text d])[2 * i + 1]? = some (.text p.2) := by
    intro ps
    induction ps with
    | nil => intro i p h; simp at h
    | cons q ps ih =>
      intro i p h
      cases i with
      | zero => simp at h; subst h; simp
      | succ i =>
        rw [List.getElem?_cons_succ] at h
        have h1 : 2 * (i + 1) = 2 * i + 2 := by omega
        have h2 : 2 * i + 2 + 1 = (2 * i + 1) + 2 := by omega
        rw [h1, h2, List.flatMap_cons, List.append_assoc]
        simpa using ih i p h
  have hlast : c.refs.textAt (2 * pairs.length) = .text d := by
    apply mkRefs_textAt
    rw [hrefs, List.getElem?_append_right (by omega), hflen, Nat.sub_self]
    rfl
  have hloop : ∀ fuel m, pairs.length - m ≤ fuel → m ≤ pairs.length →
      c.translateLoop s fuel (2 * m) = some (((pairs.drop m).findIdx? (·.1 = s)).map (fun k => 2 * (k + m) + 1)) := by
    intro fuel
    induction fuel with
    | zero => intro m hm hm2; rw [Conv.translateLoop, List.drop_eq_nil_of_le (by omega)]; rfl
    | succ fuel ih =>
      intro m hm hm2
      rw [Conv.translateLoop, hcl]
      by_cases hml : m < pairs.length
      · have ht : c.refs.textAt (2 * m) = .text pairs[m].1 :=
          mkRefs_textAt _ _ _ (hget pairs m pairs[m] (List.getElem?_eq_getElem hml)).1
        rw [if_neg (by omega), ht, List.drop_eq_getElem_cons hml, List.findIdx?_cons]
        simp only []
        by_cases hx : pairs[m].1 = s
        · simp [hx]
        · have h2 : 2 * m + 2 = 2 * (m + 1) := by omega
          rw [if_neg hx, h2, ih (m + 1) (by omega) (by omega)]
          simp only [hx, decide_false]
          cases List.findIdx? (fun a => decide (a.1 = s)) (pairs.drop (m + 1)) with
          | none => rfl
          | some k => simp; omega
      · rw [if_pos (by omega), List.drop_eq_nil_of_le (by omega)]
        rfl
  have h0 := hloop c.refs.length 0 (by omega) (by omega)
  rw [List.drop_zero, Nat.mul_zero] at h0
  show (true, (c.translate s).getD "") = _
  congr 1
  unfold Conv.translate
  rw [if_neg (by omega), h0]
  simp only []
  cases hf : pairs.findIdx? (·.1 = s) with
  | none =>
    have hnone : pairs.find? (·.1 = s) = none := by
      rw [List.findIdx?_eq_none_iff] at hf
      rw [List.find?_eq_none]
      intro x hx
      simpa using hf x hx
    rw [hnone]
    have h1 : c.refs.length - 1 = 2 * pairs.length := by omega
    simp [h1, hlast]
  | some k =>
    rw [List.findIdx?_eq_some_iff_getElem] at hf
    obtain ⟨hk, hp, hbefore⟩ := hf
    have hsome : pairs.find? (·.1 = s) = some pairs[k] := by
      rw [List.find?_eq_some_iff_getElem]
      exact ⟨hp, k, hk, rfl, fun j hj => by simpa using hbefore j hj⟩
    have ht : c.refs.textAt (2 * k + 1) = .text pairs[k].2 := mkRefs_textAt _ _ _ (hget pairs k pairs[k] (List.getElem?_eq_getElem hk)).2
    rw [hsome]
    simp [ht]

/-- An MDF 3 conversion of values to texts: the text of the first equal key, else there is no text. -/
theorem C31_value_to_text3 (c : Conv3 D) (x : D) :
    (∀ s, c.valueToText x = some s → ∃ l r, c.texts = l ++ (x, s) :: r ∧ ∀ e ∈ l, e.1 ≠ x) ∧
    (c.valueToText x = none → ∀ e ∈ c.texts, e.1 ≠ x) := by
  unfold Conv3.valueToText
  refine ⟨?_, ?_⟩
  · intro s h
    rw [Option.map_eq_some_iff] at h
    obtain ⟨e, he, hs⟩ := h
    rw [List.find?_eq_some_iff_append] at he
    obtain ⟨hp, l, r, hlr, hl⟩ := he
    have : e = (x, s) := Prod.ext (by simpa using hp) hs
    subst this
    exact ⟨l, r, hlr, fun e' he' => by simpa using hl e' he'⟩
  · intro h e he
    rw [Option.map_eq_none_iff, List.find?_eq_none] at h
    simpa using h e he

/-- An MDF 3 conversion of ranges to texts, as the data type is never set: the text of the first range that contains the value with
both ends, else the default. -/
theorem C31_range_to_text3 (d : D × D × String) (rs : List (D × D × String)) (texts : List (D × String)) (x : D) :
    ({ texts := texts, ranges := d :: rs, dataType := 0 } : Conv3 D).rangeToText x =
      some (((rs.find? fun r => Contains true x (r.1, r.2.1)).map (·.2.2)).getD d.2.2) := by
  unfold Conv3.rangeToText Contains
  simp

end

section
variable {D : Type} [Field D] [LinearOrder D] [IsStrictOrderedRing D] (ofNat : Nat → D)

/-- C31, rational, with exact arithmetic: the quotient of the two polynomials, unless the divisor is 0. -/
theorem C31_rational (nof dt dec : Nat) (refs : CcRefs D) (a b c d e f x : D) (more : List (CcPar D)) :
    (Conv.mk .rational nof (.num a :: .num b :: .num c :: .num d :: .num e :: .num f :: more) dt dec refs).convert ofNat x =
      .ok (if d * x ^ 2 + e * x + f = 0 then none else some ((a * x ^ 2 + b * x + c) / (d * x ^ 2 + e * x + f))) := by
  simp only [pow_two]
  rfl

/-- C31, polynomial: (P2 - P4 (x - P5 - P6)) / (P3 (x - P5 - P6) - P1), unless the divisor is 0. -/
theorem C31_polynomial (nof dt dec : Nat) (refs : CcRefs D) (p1 p2 p3 p4 p5 p6 x : D) (more : List (CcPar D)) :
    (Conv.mk .polynomial nof (.num p1 :: .num p2 :: .num p3 :: .num p4 :: .num p5 :: .num p6 :: more) dt dec refs).convert ofNat x =
      .ok (if p3 * (x - p5 - p6) - p1 = 0 then none else some ((p2 - p4 * (x - p5 - p6)) / (p3 * (x - p5 - p6) - p1))) := rfl

/-- Two neighbours of a table. -/
theorem table_pair (mid : D → D → D → D → D → Option D) (c : Conv D) (t : List (D × D)) (hs : SortedTable t)
    (hval : c.values = tablePars t) (hlen : 2 * t.length ≤ 2 ^ 16) (hnof : t.length ≤ c.nof) (x : D) (i : Nat) (e f : D × D)
    (hi : t[i]? = some e) (hj : t[i + 1]? = some f) (h1 : e.1 < x) (h2 : x < f.1) :
    Conv.tableLoop ofNat mid c x c.nof 0 = .ok (mid x e.1 e.2 f.1 f.2) := by
  rw [table_at ofNat mid c t hs hval hlen hnof x (i + 1) f hj (le_of_lt h2), if_neg (by
    rintro (h | h)
    · exact absurd h (ne_of_lt h2)
    · omega)]
  · obtain ⟨h3, h4⟩ := table_param ofNat c t hval hlen i e hi
    have h5 : 2 * (i + 1) - 2 = 2 * i := by omega
    have h6 : 2 * (i + 1) + 1 - 2 = 2 * i + 1 := by omega
    rw [h5, h6, h3, h4]
  · intro j e' hj' he'
    have : j = i := by omega
    subst this
    rw [hi] at he'
    cases he'
    exact h1

/-- C31, value to value with interpolation, with exact arithmetic: between two keys the value lies on the straight line between their
values. -/
theorem C31_interpolation (nof dt dec : Nat) (refs : CcRefs D) (t : List (D × D)) (hs : SortedTable t) (hlen : 2 * t.length ≤ 2 ^ 16)
    (hnof : t.length ≤ nof) (x : D) (i : Nat) (k v k' v' : D) (hi : t[i]? = some (k, v)) (hj : t[i + 1]? = some (k', v')) (h1 : k ≤ x)
    (h2 : x ≤ k') :
    (Conv.mk .interpolation nof (tablePars t) dt dec refs).convert ofNat x = .ok (some (v + (v' - v) * ((x - k) / (k' - k)))) := by
  have hkk : k < k' := hs.get (Nat.lt_succ_self i) hi hj
  have hpos : (0 : D) < k' - k := sub_pos.2 hkk
  have hc := C31_table ofNat (Conv.mk .interpolation nof (tablePars t) dt dec refs) (Or.inl rfl) t hs rfl hlen hnof x
  rcases lt_or_eq_of_le h1 with h1 | h1
  · rcases lt_or_eq_of_le h2 with h2 | h2
    · have hl : ¬ (tablePars t).length < 2 := by
        rw [tablePars_length]
        have : i < t.length := by have := hi; rw [List.getElem?_eq_some_iff] at this; exact this.1
        omega
      have := table_pair ofNat Conv.between (Conv.mk .interpolation nof (tablePars t) dt dec refs) t hs rfl hlen hnof x i (k, v) (k', v')
        hi hj h1 h2
      show (if (tablePars t).length < 2 then Out.ok none else Conv.tableLoop ofNat Conv.between _ x nof 0) = _
      rw [if_neg hl]
      refine this.trans ?_
      unfold Conv.between
      rw [if_neg (ne_of_gt hpos)]
      congr 2
      ring
    · subst h2
      rw [hc.1 v' (List.mem_iff_getElem?.2 ⟨_, hj⟩), div_self (ne_of_gt hpos)]
      congr 2
      ring
  · subst h1
    rw [hc.1 v (List.mem_iff_getElem?.2 ⟨_, hi⟩)]
    congr 2
    rw [sub_self, zero_div, mul_zero, add_zero]

/-- C31, value to value without interpolation, with exact arithmetic: between two keys the value of the nearer one, of the lower one if
both are equally near. -/
theorem C31_nearest (nof dt dec : Nat) (refs : CcRefs D) (t : List (D × D)) (hs : SortedTable t) (hlen : 2 * t.length ≤ 2 ^ 16)
    (hnof : t.length ≤ nof) (x : D) (i : Nat) (k v k' v' : D) (hi : t[i]? = some (k, v)) (hj : t[i + 1]? = some (k', v')) (h1 : k ≤ x)
    (h2 : x ≤ k') :
    (Conv.mk .valueToValue nof (tablePars t) dt dec refs).convert ofNat x = .ok (some (if x - k ≤ k' - x then v else v')) := by
  have hkk : k < k' := hs.get (Nat.lt_succ_self i) hi hj
  have hpos : (0 : D) < k' - k := sub_pos.2 hkk
  have hc := C31_table ofNat (Conv.mk .valueToValue nof (tablePars t) dt dec refs) (Or.inr rfl) t hs rfl hlen hnof x
  rcases lt_or_eq_of_le h1 with h1 | h1
  · rcases lt_or_eq_of_le h2 with h2 | h2
    · have hl : ¬ (tablePars t).length < 2 := by
        rw [tablePars_length]
        have : i < t.length := by have := hi; rw [List.getElem?_eq_some_iff] at this; exact this.1
        omega
      have := table_pair ofNat Conv.nearer (Conv.mk .valueToValue nof (tablePars t) dt dec refs) t hs rfl hlen hnof x i (k, v) (k', v')
        hi hj h1 h2
      show (if (tablePars t).length < 2 then Out.ok none else Conv.tableLoop ofNat Conv.nearer _ x nof 0) = _
      rw [if_neg hl]
      refine this.trans ?_
      unfold Conv.nearer
      rw [if_neg (ne_of_gt hpos)]
      have hiff : (x - k) / (k' - k) ≤ 1 / (1 + 1) ↔ x - k ≤ k' - x := by
        rw [div_le_div_iff₀ hpos (by norm_num)]
        constructor <;> intro h <;> linarith
      congr 2
      exact if_congr hiff rfl rfl
    · subst h2
      rw [hc.1 v' (List.mem_iff_getElem?.2 ⟨_, hj⟩), if_neg (by linarith)]
  · subst h1
    rw [hc.1 v (List.mem_iff_getElem?.2 ⟨_, hi⟩), if_pos (by linarith)]

/-- Every raw value is below the table, above it or between two neighbours. -/
theorem table_position (t : List (D × D)) (hne : t ≠ []) (hs : SortedTable t) (x : D) :
    (∃ e, t.head? = some e ∧ x ≤ e.1) ∨ (∃ e, t.getLast? = some e ∧ e.1 ≤ x) ∨
    ∃ i e f, t[i]? = some e ∧ t[i + 1]? = some f ∧ e.1 ≤ x ∧ x ≤ f.1 := by
  induction t with
  | nil => exact absurd rfl hne
  | cons a t ih =>
    rcases le_total x a.1 with h | h
    · exact Or.inl ⟨a, rfl, h⟩
    · cases t with
      | nil => exact Or.inr (Or.inl ⟨a, rfl, h⟩)
      | cons b t =>
        have hs' : SortedTable (b :: t) := by
          unfold SortedTable at hs ⊢
          exact (List.pairwise_cons.1 hs).2
        rcases ih (by simp) hs' with ⟨e, he, hx⟩ | ⟨e, he, hx⟩ | ⟨i, e, f, h1, h2, h3, h4⟩
        · simp at he
          subst he
          exact Or.inr (Or.inr ⟨0, a, b, rfl, rfl, h, hx⟩)
        · refine Or.inr (Or.inl ⟨e, ?_, hx⟩)
          rw [List.getLast?_cons_cons]
          exact he
        · exact Or.inr (Or.inr ⟨i + 1, e, f, h1, h2, h3, h4⟩)

/-- C31: the position of a raw value in a sorted table always is one of the cases above, so that the theorems `C31_table`,
`C31_interpolation` and `C31_nearest` determine the result for every raw value; it is always valid. -/
theorem C31_table_total (c : Conv D) (hc : c.type = .interpolation ∨ c.type = .valueToValue) (t : List (D × D)) (hne : t ≠ [])
    (hs : SortedTable t) (hval : c.values = tablePars t) (hlen : 2 * t.length ≤ 2 ^ 16) (hnof : t.length ≤ c.nof) (x : D) :
    ∃ y, c.convert ofNat x = .ok (some y) := by
  have h := C31_table ofNat c hc t hs hval hlen hnof x
  rcases table_position t hne hs x with ⟨e, he, hx⟩ | ⟨e, he, hx⟩ | ⟨i, e, f, h1, h2, h3, h4⟩
  · exact ⟨_, h.2.1 e he hx⟩
  · exact ⟨_, h.2.2 e he hx⟩
  · obtain ⟨ty, nof, vals, dt, dec, refs⟩ := c
    simp only [Conv.values] at hval
    subst hval
    simp only [Conv.type] at hc
    rcases hc with rfl | rfl
    · exact ⟨_, C31_interpolation ofNat nof dt dec refs t hs hlen hnof x i _ _ _ _ h1 h2 h3 h4⟩
    · exact ⟨_, C31_nearest ofNat nof dt dec refs t hs hlen hnof x i _ _ _ _ h1 h2 h3 h4⟩

/-- C31: interpolation of increasing values is increasing. -/
theorem C31_interpolation_monotone (nof dt dec : Nat) (refs : CcRefs D) (t : List (D × D)) (hne : t ≠ []) (hs : SortedTable t)
    (hv : t.Pairwise fun a b => a.2 ≤ b.2) (hlen : 2 * t.length ≤ 2 ^ 16) (hnof : t.length ≤ nof) (x y a b : D) (hxy : x ≤ y)
    (ha : (Conv.mk .interpolation nof (tablePars t) dt dec refs).convert ofNat x = .ok (some a))
    (hb : (Conv.mk .interpolation nof (tablePars t) dt dec refs).convert ofNat y = .ok (some b)) : a ≤ b := by
  -- values at positions
  have hval : ∀ (i j : Nat) (e f : D × D), i ≤ j → t[i]? = some e → t[j]? = some f → e.2 ≤ f.2 := by
    intro i j e f hij he hf
    rw [List.getElem?_eq_some_iff] at he hf
    obtain ⟨hi, rfl⟩ := he
    obtain ⟨hj, rfl⟩ := hf
    rcases Nat.lt_or_eq_of_le hij with h | h
    · exact (List.pairwise_iff_getElem.1 hv) i j hi hj h
    · subst h; exact le_refl _
  have hlast : ∀ (i : Nat) (e : D × D), t[i]? = some e → ∃ l, t[t.length - 1]? = some l ∧ e.2 ≤ l.2 ∧ e.1 ≤ l.1 := by
    intro i e he
    have hi : i < t.length := by have := he; rw [List.getElem?_eq_some_iff] at this; exact this.1
    have hl : t.length - 1 < t.length := by omega
    refine ⟨t[t.length - 1], List.getElem?_eq_getElem hl, hval i _ e _ (by omega) he (List.getElem?_eq_getElem hl), ?_⟩
    by_cases h : i = t.length - 1
    · subst h; rw [List.getElem?_eq_getElem hl] at he; cases he; exact le_refl _
    · exact le_of_lt (hs.get (by omega) he (List.getElem?_eq_getElem hl))
  -- the result is between the values of the neighbours
  have hbet : ∀ z w : D, (Conv.mk .interpolation nof (tablePars t) dt dec refs).convert ofNat z = .ok (some w) →
      ∀ (i : Nat) (e f : D × D), t[i]? = some e → t[i + 1]? = some f → e.1 ≤ z → z ≤ f.1 →
        w = e.2 + (f.2 - e.2) * ((z - e.1) / (f.1 - e.1)) ∧ e.2 ≤ w ∧ w ≤ f.2 := by
    intro z w hw i e f he hf h1 h2
    have hk : e.1 < f.1 := hs.get (Nat.lt_succ_self i) he hf
    have hp : (0 : D) < f.1 - e.1 := sub_pos.2 hk
    have hvle : e.2 ≤ f.2 := hval i (i + 1) e f (by omega) he hf
    have hq : w = e.2 + (f.2 - e.2) * ((z - e.1) / (f.1 - e.1)) := by
      have := C31_interpolation ofNat nof dt dec refs t hs hlen hnof z i e.1 e.2 f.1 f.2 he hf h1 h2
      rw [this] at hw
      injection hw with hw
      injection hw with hw
      exact hw.symm
    have h0 : 0 ≤ (z - e.1) / (f.1 - e.1) := div_nonneg (by linarith) (le_of_lt hp)
    have h1' : (z - e.1) / (f.1 - e.1) ≤ 1 := (div_le_one hp).2 (by linarith)
    refine ⟨hq, ?_, ?_⟩
    · rw [hq]
      have := mul_nonneg (sub_nonneg.2 hvle) h0
      linarith
    · rw [hq]
      have := mul_le_mul_of_nonneg_left h1' (sub_nonneg.2 hvle)
      linarith
  have htab := fun z => C31_table ofNat (Conv.mk .interpolation nof (tablePars t) dt dec refs) (Or.inl rfl) t hs rfl hlen hnof z
  have hfirst : ∀ z w e, t.head? = some e → z ≤ e.1 →
      (Conv.mk .interpolation nof (tablePars t) dt dec refs).convert ofNat z = .ok (some w) → w = e.2 := by
    intro z w e he hz hw
    rw [(htab z).2.1 e he hz] at hw
    injection hw with hw
    injection hw with hw
    exact hw.symm
  have hlst : ∀ z w e, t.getLast? = some e → e.1 ≤ z →
      (Conv.mk .interpolation nof (tablePars t) dt dec refs).convert ofNat z = .ok (some w) → w = e.2 := by
    intro z w e he hz hw
    rw [(htab z).2.2 e he hz] at hw
    injection hw with hw
    injection hw with hw
    exact hw.symm
  rcases table_position t hne hs x with ⟨e, he, hx⟩ | ⟨e, he, hx⟩ | ⟨i, e, f, h1, h2, h3, h4⟩
  · -- `x` is below the table
    have haeq := hfirst x a e he hx ha
    rw [List.head?_eq_getElem?] at he
    rcases table_position t hne hs y with ⟨e', he', hy⟩ | ⟨e', he', hy⟩ | ⟨i, e', f', h1, h2, h3, h4⟩
    · have := hfirst y b e' he' hy hb
      rw [List.head?_eq_getElem?, he] at he'
      cases he'
      rw [haeq, this]
    · have := hlst y b e' he' hy hb
      rw [List.getLast?_eq_getElem?] at he'
      rw [haeq, this]
      exact hval _ _ _ _ (Nat.zero_le _) he he'
    · have := (hbet y b hb i e' f' h1 h2 h3 h4).2.1
      rw [haeq]
      exact le_trans (hval _ _ _ _ (Nat.zero_le _) he h1) this
  · -- `x` is above the table, and so is `y`
    have haeq := hlst x a e he hx ha
    have := hlst y b e he (le_trans hx hxy) hb
    rw [haeq, this]
  · obtain ⟨hae, ha1, ha2⟩ := hbet x a ha i e f h1 h2 h3 h4
    rcases table_position t hne hs y with ⟨e', he', hy⟩ | ⟨e', he', hy⟩ | ⟨j, e', f', g1, g2, g3, g4⟩
    · -- `y` is below the table: then `x` is the first key
      have hbeq := hfirst y b e' he' hy hb
      have haeq := hfirst x a e' he' (le_trans hxy hy) ha
      rw [haeq, hbeq]
    · have hbeq := hlst y b e' he' hy hb
      rw [List.getLast?_eq_getElem?] at he'
      obtain ⟨l, hl, hle, _⟩ := hlast (i + 1) f h2
      rw [hl] at he'
      cases he'
      rw [hbeq]
      exact le_trans ha2 hle
    · obtain ⟨hbe, hb1, hb2⟩ := hbet y b hb j e' f' g1 g2 g3 g4
      rcases Nat.lt_trichotomy i j with hij | hij | hij
      · exact le_trans ha2 (le_trans (hval (i + 1) j f e' hij h2 g1) hb1)
      · subst hij
        rw [h1] at g1
        rw [h2] at g2
        cases g1
        cases g2
        have hk : e.1 < f.1 := hs.get (Nat.lt_succ_self i) h1 h2
        have hp : (0 : D) < f.1 - e.1 := sub_pos.2 hk
        rw [hae, hbe]
        have hd : (x - e.1) / (f.1 - e.1) ≤ (y - e.1) / (f.1 - e.1) := (div_le_div_iff_of_pos_right hp).2 (by linarith)
        have := mul_le_mul_of_nonneg_left hd (sub_nonneg.2 (hval i (i + 1) e f (by omega) h1 h2))
        linarith
      · -- `y` is at most a key that is at most `x`
        have hle : f'.1 ≤ e.1 := by
          by_cases h : j + 1 = i
          · subst h; rw [g2] at h1; cases h1; exact le_refl _
          · exact le_of_lt (hs.get (by omega) g2 h1)
        have hxe : x = y := le_antisymm hxy (le_trans g4 (le_trans hle h3))
        subst hxe
        rw [ha] at hb
        injection hb with hb
        injection hb with hb
        rw [hb]

end

/-- A table with three keys, as read from a file. -/
def exTable : List (Rat × Rat) := [(0, 10), (10, 30), (20, 100)]

example : SortedTable exTable ∧ exTable.Pairwise (fun a b => a.2 ≤ b.2) ∧ 2 * exTable.length ≤ 2 ^ 16 ∧ exTable.length ≤ 6 := by
  unfold SortedTable; decide +kernel

example : [(-5 : Rat), 0, 5, 10, 15, 20, 99].map ((Conv.mk .interpolation 6 (tablePars exTable) 0 6 .nil).convert (fun n => (n : Rat))) =
    [10, 10, 20, 30, 65, 100, 100].map (fun y => .ok (some y)) := by decide +kernel

example : [(-5 : Rat), 0, 5, 6, 15, 16, 99].map ((Conv.mk .valueToValue 6 (tablePars exTable) 0 6 .nil).convert (fun n => (n : Rat))) =
    [10, 10, 10, 30, 30, 100, 100].map (fun y => .ok (some y)) := by decide +kernel

example : KindOf 4 false ∧ KindOf 2 true ∧ [(-1 : Rat), 0, 10, 15, 20].map
    ((Conv.mk .rangeToValue 7 (rangePars [(0, 10, 1), (10, 20, 2)] 9) 4 6 .nil).convert (fun n => (n : Rat))) =
    [9, 1, 2, 2, 9].map (fun y => .ok (some y)) := by unfold KindOf; decide +kernel

/-- Value to text with a nested linear conversion as default. -/
def exToText : Conv Rat :=
  .mk .valueToText 2 [.num 1, .num 2] 0 6 (mkRefs ([.text "on", .nothing] ++ [.conv (.mk .linear 2 [.num 1, .num 2] 0 6 .nil)]))

example : [(1 : Rat), 2, 3].map (exToText.toText (fun n => (n : Rat)) (fun d _ => toString d.num)) =
    [.ok (some "on"), .ok (some ""), .ok (some "7")] := by decide +kernel

/-- The property as wanted for conversions that the application has configured but not yet written. -/
def C31_ConfiguredStatement : Prop :=
  ∀ (t : List (Rat × Rat)), SortedTable t → 2 * t.length < 2 ^ 16 → ∀ x v, (x, v) ∈ t →
    (Conv.mk .valueToValue 0 (tablePars t) 0 6 .nil).convert (fun n => (n : Rat)) x = .ok (some v)

/-- It is false: the number of parameters is only counted when the block is written, and until then the last value is returned. -/
theorem C31_configured_false : ¬ C31_ConfiguredStatement := by
  intro h
  have := h exTable (by unfold SortedTable; decide +kernel) (by decide) 0 10 (by decide +kernel)
  revert this
  decide +kernel

/-- Once written the count is right, so that the theorems above apply. -/
theorem C31_written {D : Type} (ty : CcType) (nof dt dec : Nat) (refs : CcRefs D) (t : List (D × D)) (hlen : 2 * t.length < 2 ^ 16) :
    t.length ≤ (Conv.mk ty nof (tablePars t) dt dec refs).written.nof := by
  show t.length ≤ (tablePars t).length % 2 ^ 16
  rw [tablePars_length, Nat.mod_eq_of_lt hlen]
  omega

/-- MDF 3, the property as wanted: the ranges of float channels exclude the upper end. -/
def C31_Range3Statement : Prop :=
  ∀ (d : Rat × Rat × String) (rs : List (Rat × Rat × String)) (x : Rat),
    ({ texts := [], ranges := d :: rs, dataType := 0 } : Conv3 Rat).rangeToText x =
      some (((rs.find? fun r => Contains false x (r.1, r.2.1)).map (·.2.2)).getD d.2.2)

/-- It is false: the data type of the channel is never set in MDF 3, so that all channels are treated as integers. -/
theorem C31_range3_float_false : ¬ C31_Range3Statement := by
  intro h
  have := h (0, 0, "none") [(0, 10, "low"), (10, 20, "high")] 10
  revert this
  decide +kernel

/-- A conversion of texts that cannot be evaluated (a reference is missing) is reported as valid. -/
theorem C31_text_failure_reported_valid : ∃ (c : Conv Rat) (s : String),
    c.textToValue (fun n => (n : Rat)) s = none ∧ c.convertTextToNum (fun n => (n : Rat)) (fun _ => none) s = .ok (true, 0) :=
  ⟨.mk .textToValue 2 [.num 5, .num 7] 7 6 (mkRefs [.nothing]), "a", by decide +kernel, by decide +kernel⟩

/-- The engineering value of a text channel, as wanted: the translated text. -/
def C31_EngTextStatement : Prop :=
  ∀ (c : Conv Rat) (s : String), c.engText s = (c.convertText s).2

/-- C31, texts: proved for translations without blanks. -/
theorem C31_eng_text_partial {D : Type} (c : Conv D) (s : String) (h : ∀ ch ∈ (c.convertText s).2.toList, ch.isWhitespace = false) :
    c.engText s = (c.convertText s).2 := by
  unfold Conv.engText Conv.firstWord
  have hd : ∀ l : List Char, (∀ ch ∈ l, ch.isWhitespace = false) → l.dropWhile Char.isWhitespace = l := by
    intro l hl
    cases l with
    | nil => rfl
    | cons a l => rw [List.dropWhile_cons_of_neg (by simp [hl a (by simp)])]
  have ht : ∀ l : List Char, (∀ ch ∈ l, ch.isWhitespace = false) → l.takeWhile (fun ch => !ch.isWhitespace) = l := by
    intro l
    induction l with
    | nil => intro _; rfl
    | cons a l ih => intro hl; rw [List.takeWhile_cons_of_pos (by simp [hl a (by simp)]), ih (fun x hx => hl x (by simp [hx]))]
  rw [hd _ h, ht _ h]
  simp

example : (Conv.mk .textToText 0 [] 7 6 (mkRefs [.text "a", .text "first", .text "other"]) : Conv Rat).engText "a" = "first" := by
  decide +kernel

/-- It is false: the text ends at the first blank. -/
theorem C31_eng_text_false : ¬ C31_EngTextStatement := by
  intro h
  have := h (.mk .textToText 0 [] 7 6 (mkRefs [.text "a", .text "engine speed", .text "other"])) "a"
  revert this
  decide +kernel

/-! ### C32 -/

section
variable {D : Type} [Zero D] [One D] [Add D] [Sub D] [Mul D] [Div D] [LinearOrder D] (ofNat : Nat → D)

/-- The property as wanted: a copy converts every number as the original, to numbers and to texts, and every text likewise. -/
def C32_Statement : Prop :=
  ∀ (c : Conv Rat) (fmt : Rat → Nat → String) (x : Rat) (s : String),
    c.copy4.convert (fun n => (n : Rat)) x = c.convert (fun n => (n : Rat)) x ∧
    c.copy4.toText (fun n => (n : Rat)) fmt x = c.toText (fun n => (n : Rat)) fmt x ∧
    c.copy4.convertText s = c.convertText s

/-- C32, proved for conversions without references, i.e. for all conversions from numbers to numbers (to numbers and formatted as text).
Missing: conversions to and from text, for which it is false. -/
theorem C32_copy_numbers_partial (fmt : D → Nat → String) (c : Conv D)
    (hc : c.type ≠ .valueToText ∧ c.type ≠ .rangeToText) (x : D) :
    c.copy4.convert ofNat x = c.convert ofNat x ∧ c.copy4.toText ofNat fmt x = c.toText ofNat fmt x := by
  obtain ⟨ty, nof, vals, dt, dec, refs⟩ := c
  have htl : ∀ mid fuel n, Conv.tableLoop ofNat mid (.mk ty nof vals dt dec .nil) x fuel n =
      Conv.tableLoop ofNat mid (.mk ty nof vals dt dec refs) x fuel n := by
    intro mid fuel
    induction fuel with
    | zero => intro n; rfl
    | succ fuel ih => intro n; rw [Conv.tableLoop, Conv.tableLoop, ih]; rfl
  have hrl : ∀ fuel n, Conv.rangeLoop ofNat (.mk ty nof vals dt dec .nil) x fuel n =
      Conv.rangeLoop ofNat (.mk ty nof vals dt dec refs) x fuel n := by
    intro fuel
    induction fuel with
    | zero => intro n; rfl
    | succ fuel ih => intro n; rw [Conv.rangeLoop, Conv.rangeLoop, ih]; rfl
  have hconv : (Conv.mk ty nof vals dt dec .nil).convert ofNat x = (Conv.mk ty nof vals dt dec refs).convert ofNat x := by
    cases ty
    case interpolation => exact congrArg (fun r => if vals.length < 2 then Out.ok none else r) (htl Conv.between nof 0)
    case valueToValue => exact congrArg (fun r => if vals.length < 2 then Out.ok none else r) (htl Conv.nearer nof 0)
    case rangeToValue => exact congrArg (fun r => if vals = [] then Out.ok none else r) (hrl nof 0)
    all_goals rfl
  refine ⟨hconv, ?_⟩
  simp only [Conv.copy4]
  rw [Conv.toText, Conv.toText, if_neg (by rintro (h | h); exacts [hc.1 h, hc.2 h]), if_neg (by rintro (h | h); exacts [hc.1 h, hc.2 h]),
    hconv]

example : (Conv.mk .interpolation 6 (tablePars exTable) 0 6 .nil : Conv Rat).type ≠ .valueToText ∧
    (Conv.mk .interpolation 6 (tablePars exTable) 0 6 .nil : Conv Rat).type ≠ .rangeToText := by decide

/-- C32: a copy of a conversion to text has no valid result for any value. -/
theorem C32_copy_to_text (fmt : D → Nat → String) (c : Conv D) (hc : c.type = .valueToText ∨ c.type = .rangeToText) (x : D) :
    c.copy4.toText ofNat fmt x = .ok none := by
  obtain ⟨ty, nof, vals, dt, dec, refs⟩ := c
  simp only [Conv.copy4, Conv.type] at hc ⊢
  rw [Conv.toText, if_pos hc, CcRefs.toTextAt]

/-- C32: a copy of a translation of texts gives the empty text for every text. -/
theorem C32_copy_translate (c : Conv D) (hc : c.type = .textToText) (s : String) : c.copy4.convertText s = (true, "") := by
  obtain ⟨ty, nof, vals, dt, dec, refs⟩ := c
  simp only [Conv.type] at hc
  subst hc
  rfl

end

/-- C32 is false for conversions to text. -/
theorem C32_copy_false : ¬ C32_Statement := by
  intro h
  have := (h exToText (fun _ _ => "") 1 "").2.1
  revert this
  decide +kernel

end Mdf
