import Verif.Proof.XmlDoc
import Verif.Spec.Comment

/-! Maps and attributes of structured comments. -/

namespace Mdf

theorem nameLt_irrefl : ∀ s : Bytes, nameLt s s = false
  | [] => rfl
  | a :: s => by simp [nameLt, nameLt_irrefl s]

theorem nameLt_asymm : ∀ s t : Bytes, nameLt s t = true → nameLt t s = false
  | _, [], h => by simp [nameLt] at h
  | [], _ :: _, _ => rfl
  | a :: s, b :: t, h => by
    simp only [nameLt, Bool.or_eq_true, decide_eq_true_eq, Bool.and_eq_true, beq_iff_eq] at h
    simp only [nameLt, Bool.or_eq_false_iff, decide_eq_false_iff_not, Bool.and_eq_false_iff, beq_eq_false_iff_ne]
    rcases h with h | ⟨rfl, h⟩
    · refine ⟨?_, .inl ?_⟩
      · rw [BitVec.lt_def] at *; omega
      · rintro rfl; rw [BitVec.lt_def] at h; omega
    · exact ⟨by rw [BitVec.lt_def]; omega, .inr (nameLt_asymm s t h)⟩

theorem nameLt_trans : ∀ s t u : Bytes, nameLt s t = true → nameLt t u = true → nameLt s u = true
  | _, [], _, h, _ => by simp [nameLt] at h
  | _, _ :: _, [], _, h => by simp [nameLt] at h
  | [], _ :: _, _ :: _, _, _ => rfl
  | a :: s, b :: t, c :: u, h, h' => by
    simp only [nameLt, Bool.or_eq_true, decide_eq_true_eq, Bool.and_eq_true, beq_iff_eq] at h h' ⊢
    rcases h with h | ⟨rfl, h⟩
    · rcases h' with h' | ⟨rfl, h'⟩
      · exact .inl (by rw [BitVec.lt_def] at *; omega)
      · exact .inl h
    · rcases h' with h' | ⟨rfl, h'⟩
      · exact .inl h'
      · exact .inr ⟨rfl, nameLt_trans s t u h h'⟩

theorem nameLt_total : ∀ s t : Bytes, s ≠ t → nameLt s t = false → nameLt t s = true
  | [], [], h, _ => absurd rfl h
  | _ :: _, [], _, _ => rfl
  | [], _ :: _, _, h => by simp [nameLt] at h
  | a :: s, b :: t, hn, h => by
    simp only [nameLt, Bool.or_eq_false_iff, decide_eq_false_iff_not, Bool.and_eq_false_iff, beq_eq_false_iff_ne] at h
    simp only [nameLt, Bool.or_eq_true, decide_eq_true_eq, Bool.and_eq_true, beq_iff_eq]
    by_cases hab : a = b
    · subst hab
      refine .inr ⟨rfl, nameLt_total s t (by rintro rfl; exact hn rfl) (h.2.resolve_left (fun h => h rfl))⟩
    · left
      have h1 := h.1
      have hab' : a.toNat ≠ b.toNat := fun he => hab (BitVec.eq_of_toNat_eq he)
      rw [BitVec.lt_def] at *
      omega

theorem nameLt_ne {s t : Bytes} (h : nameLt s t = true) : s ≠ t := by
  rintro rfl; rw [nameLt_irrefl] at h; cases h

section
variable {α : Type} {key : α → Bytes}

theorem mapInsert_last {x : α} : ∀ {l : List α}, (∀ y ∈ l, nameLt (key y) (key x) = true) → mapInsert key x l = l ++ [x]
  | [], _ => rfl
  | y :: ys, h => by
    have hy := h y (by simp)
    rw [mapInsert, if_neg (fun he => nameLt_ne hy he.symm), if_neg (by rw [nameLt_asymm _ _ hy]; simp),
      mapInsert_last (fun z hz => h z (by simp [hz]))]
    rfl

theorem mapInsert_all {l : List α} : ∀ {acc : List α}, SortedBy key (acc ++ l) →
    l.foldl (fun m x => mapInsert key x m) acc = acc ++ l := by
  induction l with
  | nil => intro acc _; simp
  | cons x xs ih =>
    intro acc h
    have hx : mapInsert key x acc = acc ++ [x] := mapInsert_last (fun y hy => by
      rw [SortedBy, List.pairwise_append] at h
      exact h.2.2 y hy x (by simp))
    rw [List.foldl_cons, hx, ih (by simpa using h)]
    simp

theorem mem_mapInsert {x y : α} : ∀ {l : List α}, y ∈ mapInsert key x l → y = x ∨ y ∈ l
  | [], h => by simpa [mapInsert] using h
  | z :: zs, h => by
    rw [mapInsert] at h
    split at h
    · exact .inr h
    · split at h
      · simpa using h
      · rcases List.mem_cons.mp h with rfl | h
        · exact .inr (by simp)
        · exact (mem_mapInsert h).imp_right (fun h => by simp [h])

theorem mapInsert_sorted {x : α} : ∀ {l : List α}, SortedBy key l → SortedBy key (mapInsert key x l)
  | [], _ => List.pairwise_singleton _ _
  | y :: ys, h => by
    have h' := List.pairwise_cons.mp h
    rw [mapInsert]
    split
    · exact h
    · rename_i hne
      split
      · rename_i hlt
        refine List.pairwise_cons.mpr ⟨fun z hz => ?_, h⟩
        rcases List.mem_cons.mp hz with rfl | hz
        · exact hlt
        · exact nameLt_trans _ _ _ hlt (h'.1 z hz)
      · rename_i hlt
        refine List.pairwise_cons.mpr ⟨fun z hz => ?_, mapInsert_sorted h'.2⟩
        rcases mem_mapInsert hz with rfl | hz
        · exact nameLt_total _ _ hne (by simpa using hlt)
        · exact h'.1 z hz

theorem mem_mapInsert_old {x y : α} : ∀ {l : List α}, y ∈ l → y ∈ mapInsert key x l
  | z :: zs, h => by
    rw [mapInsert]
    split
    · exact h
    · split
      · exact List.mem_cons_of_mem _ h
      · rcases List.mem_cons.mp h with rfl | h
        · simp
        · exact List.mem_cons_of_mem _ (mem_mapInsert_old h)

theorem mem_mapInsert_new {x : α} : ∀ {l : List α}, (∀ y ∈ l, key y ≠ key x) → x ∈ mapInsert key x l
  | [], _ => by simp [mapInsert]
  | z :: zs, h => by
    rw [mapInsert, if_neg (fun he => h z (by simp) he.symm)]
    split
    · simp
    · exact List.mem_cons_of_mem _ (mem_mapInsert_new (fun y hy => h y (by simp [hy])))
end

theorem sortedBy_nodup {as : List (Bytes × Bytes)} (h : SortedBy (·.1) as) : (as.map (·.1)).Nodup := by
  rw [List.Nodup, List.pairwise_map]
  exact h.imp nameLt_ne

/-! ## Numbers -/

theorem digits_foldl (s : Bytes) : digits s = s.foldl (fun n c => n * 10 + (c.toNat - 48)) 0 := by
  unfold digits
  congr
  funext n c
  rw [Nat.mul_comm]

theorem decText_digit_run (n : Nat) : (decText n).takeWhile isDig = decText n := by
  have key : ∀ l : Bytes, (∀ c ∈ l, isDig c = true) → l.takeWhile isDig = l := by
    intro l
    induction l with
    | nil => intro _; rfl
    | cons c l ih =>
      intro h
      rw [List.takeWhile_cons, if_pos (h c (by simp)), ih (fun d hd => h d (by simp [hd]))]
  refine key _ fun c hc => ?_
  have := decText_digits n c hc
  simp [isDig, this]

theorem digits_decText (n : Nat) : digits (decText n) = n := by
  have h := decNumber_decText n
  rw [decNumber, show (fun c : Byte => decide (0x30#8 ≤ c) && decide (c ≤ 0x39#8)) = isDig from rfl, decText_digit_run] at h
  rw [digits_foldl, h]

theorem lTrim_decText (n : Nat) : lTrim (decText n) = decText n := by
  apply lTrim_id
  intro c hc
  have hm : c ∈ decText n := List.mem_of_head? hc
  have := decText_digits n c hm
  simp only [isSpace, BitVec.le_def] at *
  simp only [Bool.or_eq_false_iff, beq_eq_false_iff_ne, Bool.and_eq_false_iff, decide_eq_false_iff_not, ne_eq, ← BitVec.toNat_inj,
    BitVec.toNat_ofNat] at *
  omega

theorem numSign_decText (n : Nat) : numSign (decText n) = (false, decText n) := by
  unfold numSign
  rw [lTrim_decText]
  cases he : decText n with
  | nil => rfl
  | cons c t =>
    have := decText_digits n c (by rw [he]; simp)
    simp only [BitVec.le_def, BitVec.toNat_ofNat] at this
    dsimp only
    rw [if_neg, if_neg]
    · rw [← BitVec.toNat_inj, BitVec.toNat_ofNat]; omega
    · rw [← BitVec.toNat_inj, BitVec.toNat_ofNat]; omega

theorem stollText_decText {n : Nat} (h : n < 2 ^ 63) : stollText (decText n) = some (n : Int) := by
  unfold stollText
  rw [numSign_decText]
  simp only [decText_digit_run, digits_decText, decText_ne, if_false, Bool.false_eq_true]
  rw [if_pos]
  omega

theorem stoullText_decText {n : Nat} (h : n < 2 ^ 64) : stoullText (decText n) = some n := by
  unfold stoullText
  rw [numSign_decText]
  simp only [decText_digit_run, digits_decText, decText_ne, if_false, Bool.false_eq_true]
  rw [if_pos h]

/-! ## Attributes -/

theorem setA_new {as : List (Bytes × Bytes)} {a : Bytes × Bytes} (h : ∀ b ∈ as, b.1 ≠ a.1) : setA as a = as ++ [a] := by
  rw [setA, if_neg]
  simp only [List.any_eq_true, beq_iff_eq, not_exists, not_and]
  exact h

theorem setAll_new : ∀ (cs as : List (Bytes × Bytes)), ((as ++ cs).map (·.1)).Nodup → setAll as cs = as ++ given cs
  | [], as, _ => by simp [setAll, given]
  | c :: cs, as, h => by
    have hn : ∀ b ∈ as, b.1 ≠ c.1 := by
      intro b hb
      simp only [List.map_append, List.map_cons, List.nodup_append] at h
      exact h.2.2 b.1 (List.mem_map_of_mem hb) c.1 (by simp)
    rw [setAll, List.foldl_cons]
    by_cases he : c.2.isEmpty = true
    · have h' : ((as ++ cs).map (·.1)).Nodup := by
        refine h.sublist ?_
        simp
      have := setAll_new cs as h'
      rw [setAll] at this
      rw [if_pos he, this]
      simp [given, he]
    · have h' : (((as ++ [c]) ++ cs).map (·.1)).Nodup := by simpa using h
      have := setAll_new cs (as ++ [c]) h'
      rw [setAll] at this
      rw [if_neg he, setA_new hn, this]
      simp [given, he]

theorem setA_all : ∀ (cs as : List (Bytes × Bytes)), ((as ++ cs).map (·.1)).Nodup → cs.foldl setA as = as ++ cs
  | [], as, _ => by simp
  | c :: cs, as, h => by
    have hn : ∀ b ∈ as, b.1 ≠ c.1 := by
      intro b hb
      simp only [List.map_append, List.map_cons, List.nodup_append] at h
      exact h.2.2 b.1 (List.mem_map_of_mem hb) c.1 (by simp)
    rw [List.foldl_cons, setA_new hn, setA_all cs (as ++ [c]) (by simpa using h)]
    simp

/-- The attributes index and language. -/
def MdStd.base (s : MdStd) : List (Bytes × Bytes) := [(kCi, if s.ci > 0 then decText s.ci else []), (kLang, s.lang)]

/-- The keys of the attributes that a class writes itself. -/
structure OwnKeys (K : List Bytes) : Prop where
  apart : (K ++ [kCi, kLang]).Pairwise (fun a b => sameWord a b = false)
  known : ∀ k ∈ K, k ∈ reservedKeys
  other : ∀ k ∈ K, k ≠ kCi ∧ k ≠ kLang ∧ k ≠ kOffset

theorem reserved_xmlName : ∀ k ∈ reservedKeys, XmlName k := by
  have key : ∀ k ∈ reservedKeys, ((k.head?.map isNameStart).getD false && k.tail.all isNameChar) = true := by decide
  intro k hk
  have h := key k hk
  cases k with
  | nil => cases h
  | cons c r =>
    simp only [List.head?_cons, Option.map_some, Option.getD_some, List.tail_cons, Bool.and_eq_true, List.all_eq_true] at h
    exact ⟨c, r, rfl, h.1, h.2⟩

theorem sameWord_symm (a b : Bytes) : sameWord a b = sameWord b a := by
  rw [Bool.eq_iff_iff, sameWord_iff, sameWord_iff]
  exact eq_comm

theorem sameWord_ne {a b : Bytes} (h : sameWord a b = false) : a ≠ b := by
  rintro rfl; rw [sameWord_refl] at h; cases h

theorem given_sublist (as : List (Bytes × Bytes)) : (given as).Sublist as := List.filter_sublist

theorem pairwise_both {l : List (Bytes × Bytes)} (h : l.Pairwise fun a b => sameWord a.1 b.1 = false) :
    ∀ {a b : Bytes × Bytes}, a ∈ l → b ∈ l → a ≠ b → sameWord a.1 b.1 = false := by
  induction l with
  | nil => intro a b ha; cases ha
  | cons x xs ih =>
    have h' := List.pairwise_cons.mp h
    intro a b ha hb hne
    rcases List.mem_cons.mp ha with rfl | ha'
    · rcases List.mem_cons.mp hb with rfl | hb'
      · exact absurd rfl hne
      · exact h'.1 b hb'
    · rcases List.mem_cons.mp hb with rfl | hb'
      · rw [sameWord_symm]; exact h'.1 a ha'
      · exact ih h'.2 ha' hb' hne

/-- The attributes that are written are apart from each other. -/
theorem attrs_apart {s : MdStd} (hs : s.Good) {own : List (Bytes × Bytes)} (hk : OwnKeys (own.map (·.1))) :
    (own ++ s.base).Pairwise (fun a b => sameWord a.1 b.1 = false) ∧
    ∀ a ∈ own ++ s.base, ∀ b ∈ s.custom, sameWord a.1 b.1 = false := by
  constructor
  · have := hk.apart
    rw [show own.map (·.1) ++ [kCi, kLang] = (own ++ s.base).map (·.1) by simp [MdStd.base], List.pairwise_map] at this
    exact this
  · intro a ha b hb
    rw [sameWord_symm]
    refine (hs.2.2.2 b hb).2.2 a.1 ?_
    rcases List.mem_append.mp ha with ha | ha
    · exact hk.known _ (List.mem_map_of_mem ha)
    · simp only [MdStd.base, List.mem_cons, List.not_mem_nil, or_false] at ha
      rcases ha with rfl | rfl
      · exact (by decide : kCi ∈ reservedKeys)
      · exact (by decide : kLang ∈ reservedKeys)

theorem keys_nodup {s : MdStd} (hs : s.Good) {own : List (Bytes × Bytes)} (hk : OwnKeys (own.map (·.1))) :
    ((own ++ s.base ++ s.custom).map (·.1)).Nodup := by
  obtain ⟨h1, h2⟩ := attrs_apart hs hk
  rw [List.map_append, List.nodup_append]
  refine ⟨?_, sortedBy_nodup hs.2.2.1, ?_⟩
  · rw [List.Nodup, List.pairwise_map]
    exact h1.imp sameWord_ne
  · intro a ha b hb
    obtain ⟨x, hx, rfl⟩ := List.mem_map.mp ha
    obtain ⟨y, hy, rfl⟩ := List.mem_map.mp hb
    exact sameWord_ne (h2 x hx y hy)

/-- The attributes of a node. -/
def allAttrs (s : MdStd) (own : List (Bytes × Bytes)) : List (Bytes × Bytes) := given own ++ given s.base ++ s.custom

theorem write_own {s : MdStd} (hs : s.Good) {own : List (Bytes × Bytes)} (hk : OwnKeys (own.map (·.1))) :
    s.write (setAll [] own) = allAttrs s own := by
  have h := keys_nodup hs hk
  have h1 : ((([] : List (Bytes × Bytes)) ++ own).map (·.1)).Nodup := h.sublist (by
    apply List.Sublist.map
    rw [List.nil_append, List.append_assoc]
    exact List.sublist_append_left _ _)
  have h2 : ((given own ++ s.base).map (·.1)).Nodup := h.sublist (by
    apply List.Sublist.map
    exact ((given_sublist own).append (List.Sublist.refl _)).trans (List.sublist_append_left _ _))
  have h3 : ((given own ++ given s.base ++ s.custom).map (·.1)).Nodup := h.sublist (by
    apply List.Sublist.map
    exact ((given_sublist own).append (given_sublist _)).append (List.Sublist.refl _))
  rw [MdStd.write, setAll_new own [] h1, List.nil_append, show [(kCi, if s.ci > 0 then decText s.ci else []), (kLang, s.lang)] = s.base from rfl,
    setAll_new _ _ h2, setA_all _ _ h3]
  rfl

theorem allAttrs_apart {s : MdStd} (hs : s.Good) {own : List (Bytes × Bytes)} (hk : OwnKeys (own.map (·.1))) :
    ∀ a ∈ own ++ s.base, ∀ b ∈ allAttrs s own, sameWord b.1 a.1 = true → b = a := by
  obtain ⟨h1, h2⟩ := attrs_apart hs hk
  intro a ha b hb hw
  rw [allAttrs, List.mem_append] at hb
  rcases hb with hb | hb
  · have hb' : b ∈ own ++ s.base := ((given_sublist own).append (given_sublist _)).subset hb
    by_cases he : b = a
    · exact he
    · have hc : sameWord b.1 a.1 = false := by
        exact pairwise_both h1 hb' ha he
      rw [hw] at hc; cases hc
  · rw [sameWord_symm, h2 a ha b hb] at hw
    cases hw

theorem attr_find {s : MdStd} (hs : s.Good) {own : List (Bytes × Bytes)} (hk : OwnKeys (own.map (·.1))) {k v : Bytes} (hm : (k, v) ∈ own) :
    (allAttrs s own).find? (fun a => sameWord a.1 k) = if v.isEmpty then none else some (k, v) := by
  have hap := allAttrs_apart hs hk (k, v) (List.mem_append_left _ hm)
  by_cases hv : v.isEmpty = true
  · rw [if_pos hv, List.find?_eq_none]
    intro b hb hw
    have he := hap b hb hw
    subst he
    rw [allAttrs, List.mem_append, List.mem_append] at hb
    rcases hb with (hb | hb) | hb
    · simp [given, hv] at hb
    · simp [given, hv] at hb
    · have := (attrs_apart hs hk).2 (k, v) (List.mem_append_left _ hm) _ hb
      rw [sameWord_refl] at this; cases this
  · rw [if_neg hv]
    have hin : (k, v) ∈ allAttrs s own := by
      rw [allAttrs, List.mem_append, List.mem_append]
      left; left
      simp only [given, List.mem_filter]
      exact ⟨hm, by simpa using hv⟩
    cases hf : (allAttrs s own).find? (fun a => sameWord a.1 k) with
    | none =>
      rw [List.find?_eq_none] at hf
      exact absurd (sameWord_refl k) (hf _ hin)
    | some b =>
      have hb := List.mem_of_find?_eq_some hf
      have hw := List.find?_some hf
      rw [hap b hb hw]

theorem attrText_own {s : MdStd} (hs : s.Good) {own : List (Bytes × Bytes)} (hk : OwnKeys (own.map (·.1))) {k v : Bytes} (hm : (k, v) ∈ own) :
    attrText (allAttrs s own) k = trim v := by
  rw [attrText, attr_find hs hk hm]
  by_cases hv : v.isEmpty = true
  · rw [if_pos hv]
    rw [List.isEmpty_iff] at hv
    subst hv; rfl
  · rw [if_neg hv]; rfl

theorem attrBool_own {s : MdStd} (hs : s.Good) {own : List (Bytes × Bytes)} (hk : OwnKeys (own.map (·.1))) {k : Bytes} {b : Bool}
    (hm : (k, if b then wTrue else []) ∈ own) : attrBool (allAttrs s own) k = b := by
  rw [attrBool, attr_find hs hk hm]
  cases b
  · rfl
  · exact (by decide : boolText (trim wTrue) = true)

theorem allAttrs_good {s : MdStd} (hs : s.Good) {own : List (Bytes × Bytes)} (hk : OwnKeys (own.map (·.1)))
    (hl : ∀ a ∈ own, PlainLine a.2) : GoodAttrs (allAttrs s own) := by
  refine ⟨?_, ?_⟩
  · exact (keys_nodup hs hk).sublist (List.Sublist.map _ (((given_sublist own).append (given_sublist _)).append (List.Sublist.refl _)))
  · intro a ha
    rw [allAttrs, List.mem_append, List.mem_append] at ha
    rcases ha with (ha | ha) | ha
    · have hm := (given_sublist own).subset ha
      exact ⟨reserved_xmlName _ (hk.known _ (List.mem_map_of_mem hm)), hl a hm⟩
    · have hm := (given_sublist _).subset ha
      simp only [MdStd.base, List.mem_cons, List.not_mem_nil, or_false] at hm
      rcases hm with rfl | rfl
      · refine ⟨reserved_xmlName kCi (by decide), ?_⟩
        dsimp only
        split
        · exact decText_line _
        · intro c hc; cases hc
      · exact ⟨reserved_xmlName kLang (by decide), hs.2.1⟩
    · exact ⟨(hs.2.2.2 a ha).1, (hs.2.2.2 a ha).2.1⟩

/-! ## Reading the attributes -/

theorem xmlName_ne {k : Bytes} (h : XmlName k) : k ≠ [] := by
  obtain ⟨c, r, rfl, _⟩ := h
  simp

theorem addCustom_name {k v : Bytes} (h : XmlName k) (l : List (Bytes × Bytes)) : addCustom k v l = mapInsert (·.1) (k, v) l := by
  rw [addCustom, trim_name h, if_neg]
  simpa using xmlName_ne h

/-- Attributes that are custom attributes to the reader. -/
def Foreign (as : List (Bytes × Bytes)) : Prop := ∀ a ∈ as, XmlName a.1 ∧ a.1 ≠ kCi ∧ a.1 ≠ kLang ∧ a.1 ≠ kOffset

theorem read_foreign : ∀ {as : List (Bytes × Bytes)} {s : MdStd}, Foreign as →
    s.read as = some { s with custom := as.foldl (fun m a => mapInsert (·.1) a m) s.custom }
  | [], s, _ => rfl
  | a :: as, s, h => by
    have ha := h a (by simp)
    rw [MdStd.read, List.foldlM_cons]
    have h1 : s.readAttr a = some { s with custom := mapInsert (·.1) a s.custom } := by
      rw [MdStd.readAttr, if_neg (fun hc => ha.2.1 hc.1), if_neg ha.2.2.1, addCustom_name ha.1]
    rw [h1]
    exact read_foreign (fun b hb => h b (by simp [hb]))

theorem read_append (s : MdStd) (as bs : List (Bytes × Bytes)) : s.read (as ++ bs) = (s.read as).bind (·.read bs) := by
  rw [MdStd.read, List.foldlM_append]
  rfl

theorem read_base {s r : MdStd} (h : s.ci < 2 ^ 63) (h1 : r.ci = 0) (h2 : r.lang = []) :
    r.read (given s.base) = some { r with ci := s.ci, lang := s.lang } := by
  obtain ⟨ci, lang, custom⟩ := r
  dsimp only at h1 h2
  subst h1 h2
  have hci : ∀ q : MdStd, q.readAttr (kCi, decText s.ci) = some { q with ci := s.ci } := by
    intro q
    rw [MdStd.readAttr, if_pos ⟨rfl, decText_ne _⟩, stollText_decText h]
    simp only [Option.map_some]
    congr 2
    omega
  have hla : ∀ q : MdStd, q.readAttr (kLang, s.lang) = some { q with lang := s.lang } := by
    intro q
    rw [MdStd.readAttr, if_neg (fun hc => (by decide : kLang ≠ kCi) hc.1), if_pos rfl]
  have hd : (decText s.ci).isEmpty = false := by simpa using decText_ne s.ci
  by_cases hc : s.ci > 0
  · by_cases hl : s.lang.isEmpty = true
    · rw [show given s.base = [(kCi, decText s.ci)] by simp [given, MdStd.base, hc, hl, hd]]
      rw [List.isEmpty_iff] at hl
      simp [MdStd.read, hci, hl]
    · rw [show given s.base = [(kCi, decText s.ci), (kLang, s.lang)] by simp [given, MdStd.base, hc, hl, hd]]
      simp [MdStd.read, hci, hla]
  · have hc0 : s.ci = 0 := by omega
    by_cases hl : s.lang.isEmpty = true
    · rw [show given s.base = [] by simp [given, MdStd.base, hc, hl]]
      rw [List.isEmpty_iff] at hl
      simp [MdStd.read, hc0, hl]
    · rw [show given s.base = [(kLang, s.lang)] by simp [given, MdStd.base, hc, hl]]
      simp [MdStd.read, hla, hc0]

theorem foreign_own {own : List (Bytes × Bytes)} (hk : OwnKeys (own.map (·.1))) : Foreign (given own) := by
  intro a ha
  have hm := (given_sublist own).subset ha
  exact ⟨reserved_xmlName _ (hk.known _ (List.mem_map_of_mem hm)), hk.other _ (List.mem_map_of_mem hm)⟩

theorem foreign_custom {s : MdStd} (hs : s.Good) : Foreign s.custom := by
  intro a ha
  obtain ⟨h1, _, h2⟩ := hs.2.2.2 a ha
  exact ⟨h1, sameWord_ne (h2 _ (by decide)), sameWord_ne (h2 _ (by decide)), sameWord_ne (h2 _ (by decide))⟩

theorem read_own {s : MdStd} (hs : s.Good) {own : List (Bytes × Bytes)} (hk : OwnKeys (own.map (·.1))) :
    MdStd.read {} (allAttrs s own) = some (s.readBack own) := by
  rw [allAttrs, read_append, read_append, read_foreign (foreign_own hk)]
  simp only [Option.bind_some]
  rw [read_base hs.1 rfl rfl]
  simp only [Option.bind_some]
  rw [read_foreign (foreign_custom hs)]
  simp [MdStd.readBack, attrMap, List.foldl_append]

theorem strRead_foreign : ∀ {as : List (Bytes × Bytes)} {s : MdStr}, Foreign as →
    as.foldl MdStr.readAttr s = { s with std := { s.std with custom := as.foldl (fun m a => mapInsert (·.1) a m) s.std.custom } }
  | [], s, _ => rfl
  | a :: as, s, h => by
    have ha := h a (by simp)
    rw [List.foldl_cons, List.foldl_cons]
    have h1 : s.readAttr a = { s with std := { s.std with custom := mapInsert (·.1) a s.std.custom } } := by
      rw [MdStr.readAttr, if_neg (fun hc => ha.2.1 hc.1), if_neg ha.2.2.1, if_neg ha.2.2.2, addCustom_name ha.1]
    rw [h1]
    exact strRead_foreign (fun b hb => h b (by simp [hb]))

theorem strRead_base {s : MdStd} {r : MdStr} (h : s.ci < 2 ^ 63) (h1 : r.std.ci = 0) (h2 : r.std.lang = []) :
    (given s.base).foldl MdStr.readAttr r = { r with std := { r.std with ci := s.ci, lang := s.lang } } := by
  obtain ⟨⟨ci, lang, custom⟩, text, offset⟩ := r
  dsimp only at h1 h2
  subst h1 h2
  have hci : ∀ q : MdStr, q.readAttr (kCi, decText s.ci) = { q with std := { q.std with ci := s.ci } } := by
    intro q
    rw [MdStr.readAttr, if_pos ⟨rfl, decText_ne _⟩, stollText_decText h]
    simp only [Option.getD_some]
    congr 2
    omega
  have hla : ∀ q : MdStr, q.readAttr (kLang, s.lang) = { q with std := { q.std with lang := s.lang } } := by
    intro q
    rw [MdStr.readAttr, if_neg (fun hc => (by decide : kLang ≠ kCi) hc.1), if_pos rfl]
  have hd : (decText s.ci).isEmpty = false := by simpa using decText_ne s.ci
  by_cases hc : s.ci > 0
  · by_cases hl : s.lang.isEmpty = true
    · rw [show given s.base = [(kCi, decText s.ci)] by simp [given, MdStd.base, hc, hl, hd]]
      rw [List.isEmpty_iff] at hl
      simp [hci, hl]
    · rw [show given s.base = [(kCi, decText s.ci), (kLang, s.lang)] by simp [given, MdStd.base, hc, hl, hd]]
      simp [hci, hla]
  · have hc0 : s.ci = 0 := by omega
    by_cases hl : s.lang.isEmpty = true
    · rw [show given s.base = [] by simp [given, MdStd.base, hc, hl]]
      rw [List.isEmpty_iff] at hl
      simp [hc0, hl]
    · rw [show given s.base = [(kLang, s.lang)] by simp [given, MdStd.base, hc, hl]]
      simp [hla, hc0]

theorem strRead_own {s : MdStd} (hs : s.Good) {own : List (Bytes × Bytes)} (hk : OwnKeys (own.map (·.1))) :
    (allAttrs s own).foldl MdStr.readAttr {} = { std := s.readBack own } := by
  rw [allAttrs, List.foldl_append, List.foldl_append, strRead_foreign (foreign_own hk), strRead_base hs.1 rfl rfl,
    strRead_foreign (foreign_custom hs)]
  simp [MdStd.readBack, attrMap, List.foldl_append]

end Mdf
