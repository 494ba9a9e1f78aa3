import Verif.Proof.NumText
import Verif.Proof.HdComment

set_option linter.unusedSimpArgs false

/-! # Numbers in comments -/

namespace Mdf

/-- What is read of a number that was written, into a new number of type `t`. -/
def MdNum.readBack (n : MdNum) (t : MdType) : MdNum :=
  { n with
    number := trim n.number
    type := t
    byteCount := n.byteCount.filter (· ≠ 8)
    min := n.min.map fun q => dblRound (sixRound q)
    max := n.max.map fun q => dblRound (sixRound q)
    average := n.average.map fun q => dblRound (sixRound q) }

theorem stodText_general (q : ℚ) : stodText (generalText q) = some (dblRound (sixRound q)) := by
  rw [stodText, general_exact]; rfl

theorem stodText_fixed (q : ℚ) : stodText (fixedText q) = some (dblRound (microRound q)) := by
  rw [stodText, fixed_exact]; rfl

/-! ## Names of attributes -/

/-- The names of the attributes that a number writes. -/
def numNames : List Bytes := [kByteCount, kBitMask, kByteOrder, kMin, kMax, kAverage, kUnit, kUnitRef, kTriggered]

theorem numNames_eq (n : MdNum) : n.attrList.map (·.1) = numNames := rfl

theorem numNames_apart : (numNames ++ [kCi, kLang]).Pairwise (fun a b => sameWord a b = false) := by decide

theorem numNames_xml : ∀ k ∈ numNames, XmlName k := by
  have key : ∀ k ∈ numNames, ((k.head?.map isNameStart).getD false && k.tail.all isNameChar) = true := by decide
  intro k hk
  have h := key k hk
  cases k with
  | nil => cases h
  | cons c r =>
    simp only [List.head?_cons, Option.map_some, Option.getD_some, List.tail_cons, Bool.and_eq_true, List.all_eq_true] at h
    exact ⟨c, r, rfl, h.1, h.2⟩

theorem num_custom {n : MdNum} (hn : n.Good) : ∀ a ∈ n.std.custom, ∀ k ∈ numNames ++ [kCi, kLang], sameWord k a.1 = false := by
  intro a ha k hk
  rw [sameWord_symm]
  have h : k ∈ numberKeys ∨ k ∈ reservedKeys := by
    have : ∀ k ∈ numNames ++ [kCi, kLang], k ∈ numberKeys ∨ k ∈ reservedKeys := by decide
    exact this k hk
  rcases h with h | h
  · exact hn.2.1 a ha k h
  · exact (hn.1.2.2.2 a ha).2.2 k h

theorem num_nodup {n : MdNum} (hn : n.Good) : ((n.std.base ++ n.std.custom ++ n.attrList).map (·.1)).Nodup := by
  have h1 : ((n.attrList ++ n.std.base).map (·.1)).Nodup := by
    rw [List.map_append, numNames_eq]
    show (numNames ++ [kCi, kLang]).Nodup
    exact numNames_apart.imp sameWord_ne
  have h2 : (((n.attrList ++ n.std.base) ++ n.std.custom).map (·.1)).Nodup := by
    rw [List.map_append, List.nodup_append]
    refine ⟨h1, sortedBy_nodup hn.1.2.2.1, ?_⟩
    intro a ha b hb
    obtain ⟨y, hy, rfl⟩ := List.mem_map.mp hb
    rw [List.map_append, numNames_eq] at ha
    exact sameWord_ne (num_custom hn y hy a ha)
  refine (List.Perm.nodup_iff ?_).mp h2
  apply List.Perm.map
  rw [List.append_assoc]
  exact List.perm_append_comm

/-- The attributes of the node of a number. -/
def MdNum.allAttrs (n : MdNum) : List (Bytes × Bytes) := Mdf.allAttrs n.std [] ++ given n.attrList

theorem num_attrs {n : MdNum} (hn : n.Good) : setAll (n.std.write []) n.attrList = n.allAttrs := by
  rw [write_nil hn.1, setAll_new, MdNum.allAttrs]
  refine (num_nodup hn).sublist (List.Sublist.map _ (List.Sublist.append ?_ (List.Sublist.refl _)))
  exact (given_sublist n.std.base).append (List.Sublist.refl _)

theorem num_nodes {n : MdNum} (hn : n.Good) (tag : Bytes) :
    n.nodes tag = if n.number = [] then [] else [.mk tag n.allAttrs n.number []] := by
  rw [MdNum.nodes, num_attrs hn]

/-! ## Texts of attributes -/

theorem plainLine_append {a b : Bytes} (ha : PlainLine a) (hb : PlainLine b) : PlainLine (a ++ b) := by
  intro c hc
  rcases List.mem_append.mp hc with h | h
  · exact ha c h
  · exact hb c h

theorem plainLine_cons {c : Byte} {s : Bytes} (hc : 0x20#8 ≤ c) (hs : PlainLine s) : PlainLine (c :: s) := by
  intro d hd
  rcases List.mem_cons.mp hd with rfl | h
  · exact hc
  · exact hs d h

theorem padText_line : ∀ w n, PlainLine (padText w n)
  | 0, _ => plainLine_nil
  | w + 1, n => by
    rw [padText]
    refine plainLine_append (padText_line w _) (plainLine_cons ?_ plainLine_nil)
    simp only [BitVec.le_def, BitVec.toNat_ofNat]
    omega

theorem fracText_line (w n : Nat) : PlainLine (fracText w n) := by
  unfold fracText
  split
  · exact plainLine_nil
  · refine plainLine_cons (by decide) ?_
    intro c hc
    rw [dropZeros, List.mem_reverse] at hc
    exact padText_line w n c (List.mem_reverse.mp ((List.dropWhile_suffix _).subset hc))

theorem expText_line (x : Int) : PlainLine (expText x) := by
  unfold expText
  refine plainLine_cons (by decide) (plainLine_cons (by split <;> decide) ?_)
  split
  · exact plainLine_cons (by decide) (decText_line _)
  · exact decText_line _

theorem generalText_line (q : ℚ) : PlainLine (generalText q) := by
  unfold generalText
  split
  · exact plainLine_cons (by decide) plainLine_nil
  · refine plainLine_append (by split; exact plainLine_cons (by decide) plainLine_nil; exact plainLine_nil) ?_
    split
    · exact plainLine_append (decText_line _) (fracText_line _ _)
    · exact plainLine_append (plainLine_append (decText_line _) (fracText_line _ _)) (expText_line _)

theorem generalText_ne (q : ℚ) : generalText q ≠ [] := by
  intro h
  have := general_exact q
  rw [h] at this
  exact absurd this (by simp [exactText, numSign, lTrim, fracPart])

theorem fixedText_line (q : ℚ) : PlainLine (fixedText q) := by
  unfold fixedText
  refine plainLine_append (plainLine_append ?_ (decText_line _)) (plainLine_cons (by decide) (padText_line _ _))
  split
  · exact plainLine_cons (by decide) plainLine_nil
  · exact plainLine_nil

theorem hexText_line (n : Nat) : PlainLine (hexText n) := by
  refine plainLine_cons (by decide) (plainLine_cons (by decide) ?_)
  intro c hc
  obtain ⟨d, hd, rfl⟩ := hexGo_digits 16 n c hc
  have : ∀ d : Fin 16, 0x20#8 ≤ hexDigitU d.val := by decide
  exact this ⟨d, hd⟩

theorem hexText_ne (n : Nat) : hexText n ≠ [] := by simp [hexText]

theorem opt_line {α : Type} (o : Option α) (f : α → Bytes) (h : ∀ x, PlainLine (f x)) : PlainLine ((o.map f).getD []) := by
  cases o with
  | none => exact plainLine_nil
  | some x => exact h x

theorem num_lines {n : MdNum} (hn : n.Good) : ∀ a ∈ n.attrList, PlainLine a.2 := by
  intro a ha
  simp only [MdNum.attrList, List.mem_cons, List.not_mem_nil, or_false] at ha
  rcases ha with rfl | rfl | rfl | rfl | rfl | rfl | rfl | rfl | rfl
  · unfold countText
    cases n.byteCount with
    | none => exact plainLine_nil
    | some c =>
      dsimp only
      split
      · exact plainLine_nil
      · exact decText_line _
  · exact opt_line _ _ hexText_line
  · dsimp only
    split
    · intro c hc
      have : ∀ c ∈ wBE, 0x20#8 ≤ c := by decide
      exact this c hc
    · exact plainLine_nil
  · exact opt_line _ _ generalText_line
  · exact opt_line _ _ generalText_line
  · exact opt_line _ _ generalText_line
  · exact hn.2.2.2.1
  · exact hn.2.2.2.2.1
  · exact plainLine_true _

theorem num_goodAttrs {n : MdNum} (hn : n.Good) : GoodAttrs n.allAttrs := by
  refine ⟨?_, ?_⟩
  · refine (num_nodup hn).sublist (List.Sublist.map _ (List.Sublist.append ?_ (given_sublist _)))
    exact (given_sublist n.std.base).append (List.Sublist.refl _)
  · intro a ha
    rw [MdNum.allAttrs, List.mem_append] at ha
    rcases ha with ha | ha
    · exact (allAttrs_good (own := []) hn.1 ownKeys_nil (by simp)).2 a ha
    · have hm := (given_sublist _).subset ha
      exact ⟨numNames_xml a.1 (by rw [← numNames_eq n]; exact List.mem_map_of_mem hm), num_lines hn a hm⟩

/-! ## Reading -/

theorem given_step {σ : Type} {f : σ → Bytes × Bytes → Option σ} {s t : σ} {k v : Bytes} {l : List (Bytes × Bytes)} (h : v = [] → s = t)
    (h' : v ≠ [] → f s (k, v) = some t) : (given ((k, v) :: l)).foldlM f s = (given l).foldlM f t := by
  cases v with
  | nil => rw [← h rfl]; rfl
  | cons c r =>
    show ((k, c :: r) :: given l).foldlM f s = _
    rw [List.foldlM_cons, h' (by simp)]
    rfl

/-- An attribute that is not one of a number is read as one of the user. -/
theorem num_std_attr {all : List (Bytes × Bytes)} {n : MdNum} {a : Bytes × Bytes} (h : a.1 ∉ numNames) :
    n.readAttr all a = (n.std.readAttr a).map fun s => { n with std := s } := by
  simp only [numNames, List.mem_cons, List.not_mem_nil, or_false, not_or] at h
  obtain ⟨h1, h2, h3, h4, h5, h6, h7, h8, h9⟩ := h
  unfold MdNum.readAttr MdStd.readAttr
  rw [if_neg h1, if_neg h2, if_neg h3, if_neg h4, if_neg h5, if_neg h6, if_neg h7, if_neg h8, if_neg h9]
  split
  · rw [Option.map_map]; rfl
  · split <;> rfl

theorem num_std_attrs {all : List (Bytes × Bytes)} : ∀ {as : List (Bytes × Bytes)} {n : MdNum}, (∀ a ∈ as, a.1 ∉ numNames) →
    as.foldlM (MdNum.readAttr all) n = (n.std.read as).map fun s => { n with std := s }
  | [], n, _ => rfl
  | a :: as, n, h => by
    rw [List.foldlM_cons, num_std_attr (h a (by simp)), MdStd.read, List.foldlM_cons]
    cases n.std.readAttr a with
    | none => rfl
    | some s =>
      have ih := num_std_attrs (all := all) (n := { n with std := s }) (fun b hb => h b (List.mem_cons_of_mem _ hb))
      exact ih

theorem allAttrs_not_num {n : MdNum} (hn : n.Good) : ∀ a ∈ allAttrs n.std [], a.1 ∉ numNames := by
  intro a ha hk
  have ha' : a ∈ given n.std.base ++ n.std.custom := ha
  rcases List.mem_append.mp ha' with h | h
  · have hm := (given_sublist _).subset h
    simp only [MdStd.base, List.mem_cons, List.not_mem_nil, or_false] at hm
    rcases hm with rfl | rfl
    · exact absurd hk (by exact (by decide : kCi ∉ numNames))
    · exact absurd hk (by exact (by decide : kLang ∉ numNames))
  · have := num_custom hn a h a.1 (List.mem_append_left _ hk)
    rw [sameWord_refl] at this
    cases this

theorem attrMap_sorted {as : List (Bytes × Bytes)} (h : SortedBy (·.1) as) : attrMap as = as := by
  have := mapInsert_all (key := fun a : Bytes × Bytes => a.1) (l := as) (acc := []) (by simpa using h)
  simpa [attrMap] using this

theorem std_same {s : MdStd} (h : s.Good) : s.readBack [] = s := by
  rw [MdStd.readBack, show given [] ++ s.custom = s.custom from rfl, attrMap_sorted h.2.2.1]

/-! The attributes of a number, one after the other. -/

theorem num_byteCount (all l : List (Bytes × Bytes)) (n q : MdNum) (h : ∀ c ∈ n.byteCount, c < 2 ^ 64) (hq : q.byteCount = none) :
    (given ((kByteCount, countText n.byteCount) :: l)).foldlM (MdNum.readAttr all) q =
    (given l).foldlM (MdNum.readAttr all) { q with byteCount := n.byteCount.filter (· ≠ 8) } := by
  cases hb : n.byteCount with
  | none => exact given_step (fun _ => by rw [Option.filter_none, ← hq]) (fun h => absurd rfl h)
  | some c =>
    rw [countText]
    by_cases h8 : c = 8
    · subst h8
      exact given_step (fun _ => by rw [show Option.filter (fun x => decide (x ≠ 8)) (some 8) = none from rfl, ← hq]) (fun h => absurd rfl h)
    · rw [if_neg h8]
      have hc : c < 2 ^ 64 := h c (by rw [hb]; rfl)
      refine given_step (fun h => absurd h (decText_ne c)) (fun _ => ?_)
      have : Option.filter (fun x => decide (x ≠ 8)) (some c) = some c := by simp [Option.filter, h8]
      rw [this]
      show some { q with byteCount := stoullText (decText c) } = _
      rw [stoullText_decText hc]

theorem num_bitMask (all l : List (Bytes × Bytes)) (n q : MdNum) (h : ∀ c ∈ n.bitMask, c < 2 ^ 64) (hq : q.bitMask = none) :
    (given ((kBitMask, (n.bitMask.map hexText).getD []) :: l)).foldlM (MdNum.readAttr all) q =
    (given l).foldlM (MdNum.readAttr all) { q with bitMask := n.bitMask } := by
  cases hb : n.bitMask with
  | none => exact given_step (fun _ => by rw [← hq]) (fun h => absurd rfl h)
  | some c =>
    have hc : c < 2 ^ 64 := h c (by rw [hb]; rfl)
    refine given_step (fun h => absurd h (hexText_ne c)) (fun _ => ?_)
    show some { q with bitMask := hexOrDec (hexText c) } = _
    rw [hexOrDec_hex hc]

theorem num_byteOrder (all l : List (Bytes × Bytes)) (n q : MdNum) (hq : q.bigEndian = false) :
    (given ((kByteOrder, if n.bigEndian then wBE else []) :: l)).foldlM (MdNum.readAttr all) q =
    (given l).foldlM (MdNum.readAttr all) { q with bigEndian := n.bigEndian } := by
  cases hb : n.bigEndian with
  | false => exact given_step (fun _ => by rw [← hq]) (fun h => absurd rfl h)
  | true => exact given_step (fun h => by cases h) (fun _ => rfl)

theorem num_min (all l : List (Bytes × Bytes)) (n q : MdNum) (hq : q.min = none) :
    (given ((kMin, (n.min.map generalText).getD []) :: l)).foldlM (MdNum.readAttr all) q =
    (given l).foldlM (MdNum.readAttr all) { q with min := n.min.map fun q => dblRound (sixRound q) } := by
  cases hb : n.min with
  | none => exact given_step (fun _ => by rw [Option.map_none, ← hq]) (fun h => absurd rfl h)
  | some c =>
    refine given_step (fun h => absurd h (generalText_ne c)) (fun _ => ?_)
    show some { q with min := stodText (generalText c) } = _
    rw [stodText_general]
    rfl

theorem num_max (all l : List (Bytes × Bytes)) (n q : MdNum) (hq : q.max = none) :
    (given ((kMax, (n.max.map generalText).getD []) :: l)).foldlM (MdNum.readAttr all) q =
    (given l).foldlM (MdNum.readAttr all) { q with max := n.max.map fun q => dblRound (sixRound q) } := by
  cases hb : n.max with
  | none => exact given_step (fun _ => by rw [Option.map_none, ← hq]) (fun h => absurd rfl h)
  | some c =>
    refine given_step (fun h => absurd h (generalText_ne c)) (fun _ => ?_)
    show some { q with max := stodText (generalText c) } = _
    rw [stodText_general]
    rfl

theorem num_average (all l : List (Bytes × Bytes)) (n q : MdNum) (hq : q.average = none) :
    (given ((kAverage, (n.average.map generalText).getD []) :: l)).foldlM (MdNum.readAttr all) q =
    (given l).foldlM (MdNum.readAttr all) { q with average := n.average.map fun q => dblRound (sixRound q) } := by
  cases hb : n.average with
  | none => exact given_step (fun _ => by rw [Option.map_none, ← hq]) (fun h => absurd rfl h)
  | some c =>
    refine given_step (fun h => absurd h (generalText_ne c)) (fun _ => ?_)
    show some { q with average := stodText (generalText c) } = _
    rw [stodText_general]
    rfl

theorem num_unit (all l : List (Bytes × Bytes)) (n q : MdNum) (hq : q.unit = []) :
    (given ((kUnit, n.unit) :: l)).foldlM (MdNum.readAttr all) q = (given l).foldlM (MdNum.readAttr all) { q with unit := n.unit } :=
  given_step (fun h => by rw [h, ← hq]) (fun _ => rfl)

theorem num_unitRef (all l : List (Bytes × Bytes)) (n q : MdNum) (hq : q.unitRef = []) :
    (given ((kUnitRef, n.unitRef) :: l)).foldlM (MdNum.readAttr all) q = (given l).foldlM (MdNum.readAttr all) { q with unitRef := n.unitRef } :=
  given_step (fun h => by rw [h, ← hq]) (fun _ => rfl)

/-- The bool is looked up in all attributes. -/
theorem num_attrBool {n : MdNum} (hn : n.Good) (ht : n.triggered = true) : attrBool n.allAttrs kTriggered = true := by
  have hmem : (kTriggered, wTrue) ∈ n.allAttrs := by
    refine List.mem_append_right _ (List.mem_filter.mpr ⟨?_, rfl⟩)
    simp [MdNum.attrList, ht]
  have hfind : n.allAttrs.find? (fun a => sameWord a.1 kTriggered) = some (kTriggered, wTrue) := by
    cases hf : n.allAttrs.find? (fun a => sameWord a.1 kTriggered) with
    | none =>
      rw [List.find?_eq_none] at hf
      exact absurd (sameWord_refl kTriggered) (hf _ hmem)
    | some b =>
      have hb := List.mem_of_find?_eq_some hf
      have hw : sameWord b.1 kTriggered = true := by simpa using List.find?_some hf
      rcases List.mem_append.mp hb with h | h
      · have h' : b ∈ given n.std.base ++ n.std.custom := h
        rcases List.mem_append.mp h' with h' | h'
        · have hm := (given_sublist _).subset h'
          simp only [MdStd.base, List.mem_cons, List.not_mem_nil, or_false] at hm
          rcases hm with rfl | rfl
          · exact absurd hw (by exact (by decide : ¬ sameWord kCi kTriggered = true))
          · exact absurd hw (by exact (by decide : ¬ sameWord kLang kTriggered = true))
        · have := num_custom hn b h' kTriggered (by decide)
          rw [sameWord_symm, hw] at this
          cases this
      · have hm := (given_sublist _).subset h
        simp only [MdNum.attrList, List.mem_cons, List.not_mem_nil, or_false] at hm
        rcases hm with rfl | rfl | rfl | rfl | rfl | rfl | rfl | rfl | rfl
        · exact absurd hw (by exact (by decide : ¬ sameWord kByteCount kTriggered = true))
        · exact absurd hw (by exact (by decide : ¬ sameWord kBitMask kTriggered = true))
        · exact absurd hw (by exact (by decide : ¬ sameWord kByteOrder kTriggered = true))
        · exact absurd hw (by exact (by decide : ¬ sameWord kMin kTriggered = true))
        · exact absurd hw (by exact (by decide : ¬ sameWord kMax kTriggered = true))
        · exact absurd hw (by exact (by decide : ¬ sameWord kAverage kTriggered = true))
        · exact absurd hw (by exact (by decide : ¬ sameWord kUnit kTriggered = true))
        · exact absurd hw (by exact (by decide : ¬ sameWord kUnitRef kTriggered = true))
        · rw [ht]; rfl
  rw [attrBool, hfind]
  exact (by decide : boolText (trim wTrue) = true)

theorem num_triggered {n : MdNum} (hn : n.Good) (l : List (Bytes × Bytes)) (q : MdNum) (hq : q.triggered = false) :
    (given ((kTriggered, if n.triggered then wTrue else []) :: l)).foldlM (MdNum.readAttr n.allAttrs) q =
    (given l).foldlM (MdNum.readAttr n.allAttrs) { q with triggered := n.triggered } := by
  cases ht : n.triggered with
  | false => exact given_step (fun _ => by rw [← hq]) (fun h => absurd rfl h)
  | true =>
    refine given_step (fun h => by cases h) (fun _ => ?_)
    show some { q with triggered := attrBool n.allAttrs kTriggered } = _
    rw [num_attrBool hn ht]

theorem num_read {n : MdNum} (hn : n.Good) (t : MdType) (tag : Bytes) :
    MdNum.read { type := t } (.mk tag n.allAttrs n.number []) = some (n.readBack t) := by
  have h0 : (allAttrs n.std []).foldlM (MdNum.readAttr n.allAttrs) { type := t } = some { std := n.std, type := t } := by
    rw [num_std_attrs (allAttrs_not_num hn), read_own (own := []) hn.1 ownKeys_nil, std_same hn.1]
    rfl
  have h1 : n.allAttrs.foldlM (MdNum.readAttr n.allAttrs) { type := t } = some { n.readBack t with number := [] } := by
    conv => lhs; arg 3; rw [MdNum.allAttrs]
    rw [List.foldlM_append, h0]
    show (given n.attrList).foldlM (MdNum.readAttr n.allAttrs) _ = _
    unfold MdNum.attrList
    rw [num_byteCount _ _ n _ hn.2.2.2.2.2.1 (by rfl), num_bitMask _ _ n _ hn.2.2.2.2.2.2 (by rfl), num_byteOrder _ _ n _ (by rfl), num_min _ _ n _ (by rfl),
      num_max _ _ n _ (by rfl), num_average _ _ n _ (by rfl), num_unit _ _ n _ (by rfl), num_unitRef _ _ n _ (by rfl), num_triggered hn _ _ (by rfl)]
    rfl
  show (n.allAttrs.foldlM (MdNum.readAttr n.allAttrs) _).map _ = _
  rw [h1]
  rfl

theorem num_good {n : MdNum} (hn : n.Good) {tag : Bytes} (ht : XmlName tag) : (XmlTree.mk tag n.allAttrs n.number []).Good := by
  rw [XmlTree.Good]
  exact ⟨ht, num_goodAttrs hn, hn.2.2.1, trivial⟩

/-! ## What is read, in the words of the specification -/

theorem readSix_map (a : Option ℚ) : ReadSix a (a.map fun q => dblRound (sixRound q)) := by
  cases a with
  | none => trivial
  | some q => exact ⟨sixRound q, sixRound_nearest q, dblRound_nearest _⟩

/-- What is read of a number, into a number of type `t`. -/
def MdNum.readAs (n : MdNum) (t : MdType) : MdNum := if n.number = [] then { type := t } else n.readBack t

theorem readNum_readAs (n : MdNum) (t : MdType) : ReadNum t n (n.readAs t) := by
  rw [ReadNum, MdNum.readAs]
  split
  · rfl
  · refine ⟨rfl, rfl, rfl, ?_, rfl, rfl, rfl, rfl, rfl, readSix_map _, readSix_map _, readSix_map _⟩
    show (n.byteCount.filter (· ≠ 8)).getD 8 = n.byteCount.getD 8
    cases n.byteCount with
    | none => rfl
    | some c =>
      by_cases h8 : c = 8
      · subst h8; rfl
      · simp [Option.filter, h8]

end Mdf
