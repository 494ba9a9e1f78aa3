import Verif.Spec.Ho
import Verif.Proof.CommentKinds

set_option linter.unusedSimpArgs false

/-! # Computation methods and unit specifications: general lemmas, names, limits, computations -/

namespace Mdf

/-! ## Numbers -/

/-- The number that is read. -/
def rnd (q : ℚ) : ℚ := dblRound (sixRound q)

theorem readReal_rnd (q : ℚ) : ReadReal q (rnd q) := readSix_map (some q)

theorem ho_dig_space : ∀ x : Fin 256, isDig (BitVec.ofFin x) = true → isSpace (BitVec.ofFin x) = false := by decide +kernel

theorem isDig_space {c : Byte} (h : isDig c = true) : isSpace c = false := ho_dig_space c.toFin h

theorem fracText_space (w n : Nat) : ∀ c ∈ fracText w n, isSpace c = false := by
  unfold fracText
  split
  · intro c hc; cases hc
  · intro c hc
    rcases List.mem_cons.mp hc with rfl | hc
    · decide
    · exact isDig_space (dropZeros_dig (padText_dig w n) c hc)

theorem expText_space (x : Int) : ∀ c ∈ expText x, isSpace c = false := by
  unfold expText
  intro c hc
  rcases List.mem_cons.mp hc with rfl | hc
  · decide
  · rcases List.mem_cons.mp hc with rfl | hc
    · split <;> decide
    · split at hc
      · rcases List.mem_cons.mp hc with rfl | hc
        · decide
        · exact isDig_space (decText_dig _ c hc)
      · exact isDig_space (decText_dig _ c hc)

theorem generalText_space (q : ℚ) : ∀ c ∈ generalText q, isSpace c = false := by
  unfold generalText
  split
  · intro c hc
    rw [List.mem_singleton] at hc
    subst hc
    decide
  · intro c hc
    rcases List.mem_append.mp hc with hc | hc
    · split at hc
      · rw [List.mem_singleton] at hc
        subst hc
        decide
      · cases hc
    · split at hc
      · rcases List.mem_append.mp hc with hc | hc
        · exact isDig_space (decText_dig _ c hc)
        · exact fracText_space _ _ c hc
      · rcases List.mem_append.mp hc with hc | hc
        · rcases List.mem_append.mp hc with hc | hc
          · exact isDig_space (decText_dig _ c hc)
          · exact fracText_space _ _ c hc
        · exact expText_space _ c hc

theorem hoDouble_general (tag : Bytes) (a : List (Bytes × Bytes)) (k : List XmlTree) (q : ℚ) : hoDouble (.mk tag a (generalText q) k) = rnd q := by
  have h : trim (generalText q) = generalText q :=
    trim_id (fun c hc => generalText_space q c (List.mem_of_head? hc)) (fun c hc => generalText_space q c (List.mem_of_getLast? hc))
  show (stodText (trim (generalText q))).getD 0 = rnd q
  rw [h, stodText_general]
  rfl

theorem general_plain (q : ℚ) : PlainText (generalText q) := fun c hc => .inl (generalText_line q c hc)

theorem rnd_zero : rnd 0 = 0 := by
  unfold rnd sixRound
  rw [if_pos rfl]
  rfl

theorem rnd_one : rnd 1 = 1 := by
  have h1 : dblRound 1 = 1 := by decide +kernel
  have h2 : sixRound (dblRound 1) = 1 := six_kept ⟨1, 0, by norm_num, by norm_num⟩
  rw [h1] at h2
  rw [rnd, h2, h1]

/-! ## Folding over nodes -/

section
variable {σ : Type} {f : σ → XmlTree → σ}

theorem fold_skip {s : σ} (tag : Bytes) (hf : ∀ a v k, f s (.mk tag a v k) = s) (l : Nat) (rest : List XmlTree) :
    ∀ {ks : List XmlTree} (_ : HasTag tag ks), (allAsRead l (ks ++ rest)).foldl f s = (allAsRead l rest).foldl f s
  | [], _ => rfl
  | k :: ks, h => by
    obtain ⟨a, v, t, rfl⟩ := h k (by simp)
    rw [List.cons_append, allAsRead, asRead_mk, List.foldl_cons, hf]
    exact fold_skip tag hf l rest (fun k hk => h k (by simp [hk]))

theorem fold_texts {s : σ} (tag v : Bytes) (set : Bytes → σ) (hf : ∀ w, f s (.mk tag [] w []) = set (trim w)) (h0 : set [] = s) (l : Nat)
    (rest : List XmlTree) :
    (allAsRead l (hoTexts tag v ++ rest)).foldl f s = (allAsRead l rest).foldl f (set (trim v)) := by
  rw [hoTexts]
  by_cases h : v = []
  · rw [if_pos h, h]
    show _ = (allAsRead l rest).foldl f (set [])
    rw [h0]
    rfl
  · rw [if_neg h, List.cons_append, List.nil_append, allAsRead, hoLeaf, asRead_leafNode, List.foldl_cons, hf]

theorem fold_optNum {s : σ} (tag : Bytes) (q : Option ℚ) (set : Option ℚ → σ)
    (hf : ∀ w, f s (.mk tag [] w []) = set (some (hoDouble (.mk tag [] w [])))) (h0 : set none = s) (l : Nat) (rest : List XmlTree) :
    (allAsRead l (hoOptNum tag q ++ rest)).foldl f s = (allAsRead l rest).foldl f (set (q.map rnd)) := by
  cases q with
  | none => rw [Option.map_none, h0]; rfl
  | some q =>
    rw [hoOptNum, List.cons_append, List.nil_append, allAsRead, hoNumLeaf, asRead_leafNode, List.foldl_cons, hf, hoDouble_general]
    rfl

theorem fold_optText {s : σ} (tag : Bytes) (v : Option Bytes) (set : Option Bytes → σ)
    (hf : ∀ w, f s (.mk tag [] w []) = set (some (trim w))) (h0 : set none = s) (l : Nat) (rest : List XmlTree) :
    (allAsRead l (hoOptText tag v ++ rest)).foldl f s = (allAsRead l rest).foldl f (set (v.map trim)) := by
  cases v with
  | none => rw [Option.map_none, h0]; rfl
  | some v =>
    rw [hoOptText, List.cons_append, List.nil_append, allAsRead, hoLeaf, asRead_leafNode, List.foldl_cons, hf]
    rfl

/-- A leaf. -/
theorem fold_leaf {s : σ} (tag : Bytes) (a : List (Bytes × Bytes)) (v : Bytes) (l : Nat) (rest : List XmlTree) :
    (allAsRead l (.mk tag a v [] :: rest)).foldl f s = (allAsRead l rest).foldl f (f s (.mk tag a v [])) := by
  rw [allAsRead, asRead_leafNode, List.foldl_cons]

/-- A node with children, if it is there. -/
theorem fold_list {s r : σ} (tag : Bytes) (ks : List XmlTree) (e : Bool) (h0 : e = true → r = s) (l : Nat)
    (hf : e = false → ∀ v, f s (.mk tag [] v (allAsRead (l + 1) ks)) = r) (rest : List XmlTree) :
    (allAsRead l (hoList tag ks e ++ rest)).foldl f s = (allAsRead l rest).foldl f r := by
  rw [hoList]
  by_cases h : e = true
  · rw [if_pos h, h0 h]
    rfl
  · rw [if_neg h, List.cons_append, List.nil_append, allAsRead, asRead_mk, List.foldl_cons, hf (by simpa using h)]

theorem trimTexts_cons {x : MdStr} (hx : x.Good) (xs : List MdStr) :
    trimTexts (x :: xs) = (if x.text = [] then [] else [x.readBack []]) ++ trimTexts xs := by
  rw [trimTexts, nonEmpty, List.filter_cons]
  by_cases h : x.text = []
  · simp [h, trimTexts, nonEmpty]
  · have e : MdStr.readBack x [] = { std := x.std, text := trim x.text } := by rw [MdStr.readBack, std_same hx.1]
    rw [if_neg h, e]
    simp [h, trimTexts, nonEmpty]

/-- Texts that are added to a list. -/
theorem fold_strs (tag : Bytes) (ht : tag ≠ tTX) (set : List MdStr → σ)
    (hf : ∀ acc a w, f (set acc) (.mk tag a w []) = set (acc ++ [MdStr.read {} (.mk tag a w [])])) (l : Nat) (rest : List XmlTree) :
    ∀ (xs acc : List MdStr), (∀ x ∈ xs, x.Good) →
    (allAsRead l (xs.flatMap (·.nodes tag) ++ rest)).foldl f (set acc) = (allAsRead l rest).foldl f (set (acc ++ trimTexts xs))
  | [], acc, _ => by
    rw [show trimTexts [] = [] from rfl, List.append_nil]
    rfl
  | x :: xs, acc, h => by
    have hx := h x (by simp)
    have ih := fun acc => fold_strs tag ht set hf l rest xs acc (fun y hy => h y (by simp [hy]))
    rw [List.flatMap_cons, List.append_assoc, str_nodes_eq hx ht, trimTexts_cons hx]
    by_cases he : x.text = []
    · rw [if_pos he, if_pos he]
      exact ih acc
    · rw [if_neg he, if_neg he, List.cons_append, List.nil_append, fold_leaf, hf, str_read_nil hx, ih, List.append_assoc]

theorem tag_strs (tag : Bytes) (xs : List MdStr) : HasTag tag (xs.flatMap (·.nodes tag)) := by
  intro k hk
  obtain ⟨x, _, hk⟩ := List.mem_flatMap.mp hk
  exact tag_nodes x tag k hk

theorem tag_texts (tag v : Bytes) : HasTag tag (hoTexts tag v) := by
  intro k hk
  rw [hoTexts] at hk
  split at hk
  · cases hk
  · rw [List.mem_singleton] at hk
    exact ⟨_, _, _, hk⟩

/-- The names are of no concern to a reader that does not know them. -/
theorem fold_names {s : σ} (n : HoNames) (hf : ∀ t a v k, t = hoTag hShort ∨ t = hoTag hLong ∨ t = hoTag hDesc → f s (.mk t a v k) = s) (l : Nat)
    (rest : List XmlTree) : (allAsRead l (n.nodes ++ rest)).foldl f s = (allAsRead l rest).foldl f s := by
  rw [HoNames.nodes, List.append_assoc, List.append_assoc, fold_skip (hoTag hShort) (fun _ _ _ => hf _ _ _ _ (.inl rfl)) l _ (tag_texts _ _),
    fold_skip (hoTag hLong) (fun _ _ _ => hf _ _ _ _ (.inr (.inl rfl))) l _ (tag_strs _ _),
    fold_skip (hoTag hDesc) (fun _ _ _ => hf _ _ _ _ (.inr (.inr rfl))) l _ (tag_strs _ _)]
end

/-- The children of a name, read one by one. -/
theorem kids_map {α β : Type} {tag : Bytes} {l : Nat} (node : α → XmlTree) (read : XmlTree → β) (back : α → β) (xs : List α)
    (ht : ∀ x ∈ xs, (node x).isTagName tag = true) (hr : ∀ x ∈ xs, read ((node x).asRead l) = back x) :
    ((allAsRead l (xs.map node)).filter (·.isTagName tag)).map read = xs.map back := by
  rw [allAsRead_map, List.map_map, List.filter_eq_self.mpr, List.map_map]
  · apply List.map_congr_left
    intro x hx
    exact hr x hx
  · intro k hk
    obtain ⟨x, hx, rfl⟩ := List.mem_map.mp hk
    rw [Function.comp, asRead_isTagName]
    exact ht x hx

theorem allRel_map {α β : Type} {R : α → β → Prop} (back : α → β) : ∀ (xs : List α), (∀ x ∈ xs, R x (back x)) → AllRel R xs (xs.map back)
  | [], _ => trivial
  | x :: xs, h => ⟨h x (by simp), allRel_map back xs (fun y hy => h y (by simp [hy]))⟩

/-! ## Good nodes -/

theorem hoTag_name {s : Bytes} (h : ∀ d ∈ s, isNameChar d = true) : XmlName (hoTag s) := by
  refine ⟨0x68#8, [0x6F#8, 0x3A#8] ++ s, rfl, by decide, ?_⟩
  intro d hd
  rcases List.mem_append.mp hd with hd | hd
  · have : ∀ d ∈ [0x6F#8, 0x3A#8], isNameChar d = true := by decide
    exact this d hd
  · exact h d hd

theorem noAttrs_good : GoodAttrs [] := ⟨by simp, fun a ha => by cases ha⟩

theorem oneAttr_good {k v : Bytes} (hk : XmlName k) (hv : PlainLine v) : GoodAttrs [(k, v)] :=
  ⟨by simp, fun a ha => by rw [List.mem_singleton] at ha; subst ha; exact ⟨hk, hv⟩⟩

theorem good_leaf {tag v : Bytes} (ht : XmlName tag) (hv : PlainText v) : (hoLeaf tag v).Good := ⟨ht, noAttrs_good, hv, trivial⟩

theorem good_numLeaf {tag : Bytes} (ht : XmlName tag) (q : ℚ) : (hoNumLeaf tag q).Good := ⟨ht, noAttrs_good, general_plain q, trivial⟩

theorem good_refLeaf {tag v : Bytes} (ht : XmlName tag) (hv : PlainLine v) : (hoRefLeaf tag v).Good :=
  ⟨ht, oneAttr_good ⟨_, _, rfl, by decide, by decide⟩ hv, plainText_nil, trivial⟩

theorem good_one {t : XmlTree} (h : t.Good) : AllGood [t] := ⟨h, trivial⟩

theorem good_texts {tag v : Bytes} (ht : XmlName tag) (hv : PlainText v) : AllGood (hoTexts tag v) := by
  rw [hoTexts]
  split
  · trivial
  · exact good_one (good_leaf ht hv)

theorem good_optNum {tag : Bytes} (ht : XmlName tag) (q : Option ℚ) : AllGood (hoOptNum tag q) := by
  cases q with
  | none => trivial
  | some q => exact good_one (good_numLeaf ht q)

theorem good_optText {tag : Bytes} (ht : XmlName tag) {v : Option Bytes} (hv : ∀ t ∈ v, PlainText t) : AllGood (hoOptText tag v) := by
  cases v with
  | none => trivial
  | some v => exact good_one (good_leaf ht (hv v rfl))

theorem good_list {tag : Bytes} (ht : XmlName tag) {ks : List XmlTree} (hk : AllGood ks) (e : Bool) : AllGood (hoList tag ks e) := by
  rw [hoList]
  split
  · trivial
  · exact good_one ⟨ht, noAttrs_good, plainText_nil, hk⟩

theorem good_map {α : Type} {node : α → XmlTree} {xs : List α} (h : ∀ x ∈ xs, (node x).Good) : AllGood (xs.map node) := by
  rw [allGood_iff]
  intro k hk
  obtain ⟨x, hx, rfl⟩ := List.mem_map.mp hk
  exact h x hx

theorem good_flatMap {α : Type} {node : α → List XmlTree} {xs : List α} (h : ∀ x ∈ xs, AllGood (node x)) : AllGood (xs.flatMap node) := by
  rw [allGood_iff]
  intro k hk
  obtain ⟨x, hx, hk⟩ := List.mem_flatMap.mp hk
  exact (allGood_iff _).mp (h x hx) k hk

theorem good_strs {tag : Bytes} (ht : tag ≠ tTX) (hx : XmlName tag) {xs : List MdStr} (h : ∀ x ∈ xs, x.Good) :
    AllGood (xs.flatMap (·.nodes tag)) := good_flatMap fun x hm => good_str (h x hm) ht hx

theorem good_hoNames {n : HoNames} (hn : n.Good) : AllGood n.nodes :=
  allGood_append (good_texts (hoTag_name (by decide)) hn.1) (allGood_append (good_strs (by decide) (hoTag_name (by decide)) hn.2.1)
    (good_strs (by decide) (hoTag_name (by decide)) hn.2.2))

/-! ## Names -/

theorem names_back {n : HoNames} (hn : n.Good) (l : Nat) (rest : List XmlTree)
    (hf : ∀ m : HoNames, (allAsRead l rest).foldl HoNames.readKid m = m) :
    (allAsRead l (n.nodes ++ rest)).foldl HoNames.readKid {} = n.trimmed := by
  rw [HoNames.nodes, List.append_assoc, List.append_assoc,
    fold_texts (hoTag hShort) n.short (fun x => HoNames.mk x [] []) (fun _ => rfl) rfl,
    fold_strs (f := HoNames.readKid) (hoTag hLong) (by decide) (fun x => HoNames.mk (trim n.short) x []) (fun _ _ _ => rfl) l _ n.long [] hn.2.1,
    fold_strs (f := HoNames.readKid) (hoTag hDesc) (by decide) (fun x => HoNames.mk (trim n.short) ([] ++ trimTexts n.long) x) (fun _ _ _ => rfl) l _ n.desc [] hn.2.2,
    hf]
  rfl

/-! ## Limits -/

/-- What is read of a limit. -/
def HoLimit.back (i : HoLimit) : HoLimit := { limit := i.limit.map rnd, type := if i.limit = none then .closed else i.type }

theorem limit_kept (i : HoLimit) : i.Kept i.back := ⟨readSix_map i.limit, rfl⟩

theorem ivWord (t : HoIvType) : HoIvType.ofWord (trim t.word) = t ∧ trim t.word ≠ [] := by cases t <;> decide

theorem limit_read {i : HoLimit} {q : ℚ} (h : i.limit = some q) (tag : Bytes) :
    HoLimit.read {} (.mk tag (if i.type = .closed then [] else [(hIntervalType, i.type.word)]) (generalText q) []) = i.back := by
  rw [HoLimit.read, hoDouble_general, HoLimit.back, h]
  by_cases ht : i.type = .closed
  · rw [if_pos ht, ht]
    rfl
  · rw [if_neg ht]
    have e : attrText (XmlTree.mk tag [(hIntervalType, i.type.word)] (generalText q) []).attrs hIntervalType = trim i.type.word := by
      show attrText [(hIntervalType, i.type.word)] hIntervalType = _
      rw [attrText, List.find?_cons_of_pos (by exact (by decide : sameWord hIntervalType hIntervalType = true))]
      rfl
    rw [e, if_neg (ivWord i.type).2, (ivWord i.type).1]
    rfl

theorem fold_limit {σ : Type} {f : σ → XmlTree → σ} {s : σ} (i : HoLimit) (tag : Bytes) (set : HoLimit → σ)
    (hf : ∀ a w, f s (.mk tag a w []) = set (HoLimit.read {} (.mk tag a w []))) (h0 : set {} = s) (l : Nat) (rest : List XmlTree) :
    (allAsRead l (i.nodes tag ++ rest)).foldl f s = (allAsRead l rest).foldl f (set i.back) := by
  rw [HoLimit.nodes]
  cases h : i.limit with
  | none =>
    have e : i.back = {} := by rw [HoLimit.back, h]; rfl
    rw [e, h0]
    rfl
  | some q =>
    dsimp only
    rw [List.cons_append, List.nil_append, fold_leaf, hf, limit_read h]

theorem tag_limit (i : HoLimit) (tag : Bytes) : HasTag tag (i.nodes tag) := by
  intro k hk
  rw [HoLimit.nodes] at hk
  cases h : i.limit with
  | none => rw [h] at hk; cases hk
  | some q =>
    rw [h] at hk
    rw [List.mem_singleton] at hk
    exact ⟨_, _, _, hk⟩

theorem good_limit (i : HoLimit) {tag : Bytes} (ht : XmlName tag) : AllGood (i.nodes tag) := by
  rw [HoLimit.nodes]
  cases i.limit with
  | none => trivial
  | some q =>
    refine good_one ⟨ht, ?_, general_plain q, trivial⟩
    split
    · exact noAttrs_good
    · refine oneAttr_good ⟨_, _, rfl, by decide, by decide⟩ ?_
      cases i.type <;> (unfold PlainLine; decide)

/-! ## Constraints -/

/-- What is read of a constraint. -/
def HoConstr.back (c : HoConstr) : HoConstr := { lower := c.lower.back, upper := c.upper.back, valid := c.valid }

theorem constr_kept (c : HoConstr) : c.Kept c.back := ⟨limit_kept _, limit_kept _, rfl⟩

/-- The node of a constraint. -/
def HoConstr.node (c : HoConstr) : XmlTree :=
  .mk (hoTag hConstr) (if c.valid = .valid then [] else [(hValidity, c.valid.word)]) []
    (c.lower.nodes (hoTag hLower) ++ c.upper.nodes (hoTag hUpper))

theorem hasLimit_eq (c : HoConstr) : c.HasLimit = c.isActive := by
  rw [HoConstr.HasLimit, HoConstr.isActive]
  cases c.lower.limit <;> cases c.upper.limit <;> rfl

theorem constrs_eq (cs : List HoConstr) : cs.flatMap HoConstr.nodes = (cs.filter HoConstr.HasLimit).map HoConstr.node := by
  induction cs with
  | nil => rfl
  | cons c cs ih =>
    rw [List.flatMap_cons, ih, List.filter_cons, hasLimit_eq, HoConstr.nodes]
    by_cases h : c.isActive = true
    · rw [if_pos h, if_pos h]
      rfl
    · rw [if_neg h, if_neg h]
      rfl

theorem validWord (t : HoValid) : HoValid.ofWord (trim t.word) = t ∧ trim t.word ≠ [] := by cases t <;> decide

theorem constr_read (c : HoConstr) (l : Nat) : HoConstr.read {} (c.node.asRead l) = c.back := by
  have e : (if attrText (c.node.asRead l).attrs hValidity = [] then ({} : HoConstr).valid
      else HoValid.ofWord (attrText (c.node.asRead l).attrs hValidity)) = c.valid := by
    rw [HoConstr.node, asRead_mk]
    show (if attrText (if c.valid = .valid then [] else [(hValidity, c.valid.word)]) hValidity = [] then HoValid.valid
      else HoValid.ofWord (attrText (if c.valid = .valid then [] else [(hValidity, c.valid.word)]) hValidity)) = c.valid
    by_cases h : c.valid = .valid
    · rw [if_pos h, h]
      rfl
    · rw [if_neg h]
      have e : attrText [(hValidity, c.valid.word)] hValidity = trim c.valid.word := by
        rw [attrText, List.find?_cons_of_pos (by exact (by decide : sameWord hValidity hValidity = true))]
        rfl
      rw [e, if_neg (validWord c.valid).2, (validWord c.valid).1]
  rw [HoConstr.read, e, HoConstr.node, asRead_mk, XmlTree.kids, ← List.append_nil (c.upper.nodes (hoTag hUpper)),
    fold_limit c.lower (hoTag hLower) (fun x => HoConstr.mk x {} c.valid) (fun _ _ => rfl) rfl,
    fold_limit c.upper (hoTag hUpper) (fun x => HoConstr.mk c.lower.back x c.valid) (fun _ _ => rfl) rfl]
  rfl

theorem constrs_read (cs : List HoConstr) (l : Nat) (tag : Bytes) (a : List (Bytes × Bytes)) (v : Bytes) :
    hoConstrs (.mk tag a v (allAsRead l (cs.flatMap HoConstr.nodes))) = (cs.filter HoConstr.HasLimit).map HoConstr.back := by
  rw [hoConstrs, XmlTree.kids, constrs_eq]
  exact kids_map HoConstr.node _ _ _ (fun x _ => by rw [HoConstr.node, isTagName_mk]; decide) (fun x _ => constr_read x l)

theorem good_constrs (cs : List HoConstr) : AllGood (cs.flatMap HoConstr.nodes) := by
  rw [constrs_eq]
  refine good_map fun c _ => ⟨hoTag_name (by decide), ?_, plainText_nil, allGood_append (good_limit _ (hoTag_name (by decide)))
    (good_limit _ (hoTag_name (by decide)))⟩
  split
  · exact noAttrs_good
  · refine oneAttr_good ⟨_, _, rfl, by decide, by decide⟩ ?_
    cases c.valid <;> (unfold PlainLine; decide)

/-! ## Computations -/

/-- What is read of a computation. -/
def HoScale.back (s : HoScale) : HoScale where
  constr := { lower := s.constr.lower.back, upper := s.constr.upper.back }
  desc := trimTexts s.desc
  constNum := s.constNum.map rnd
  constText := s.constText.map trim
  num := s.num.map rnd
  den := s.den.map rnd
  math := trim s.math

theorem scale_kept (s : HoScale) : s.Kept s.back :=
  ⟨rfl, limit_kept _, limit_kept _, rfl, readSix_map _, rfl, allRel_map _ _ fun q _ => readReal_rnd q, allRel_map _ _ fun q _ => readReal_rnd q, rfl⟩

theorem values_read (qs : List ℚ) (l : Nat) (tag : Bytes) (a : List (Bytes × Bytes)) (v : Bytes) :
    hoValues (.mk tag a v (allAsRead l (qs.map (hoNumLeaf (hoTag hV))))) = qs.map rnd := by
  rw [hoValues, XmlTree.kids]
  exact kids_map _ _ _ _ (fun x _ => by rw [hoNumLeaf, isTagName_mk]; decide) (fun x _ => by rw [hoNumLeaf, asRead_leafNode, hoDouble_general])

theorem scale_read {s : HoScale} (hs : s.Good) (l : Nat) : HoScale.read {} (s.node.asRead l) = s.back := by
  rw [HoScale.read, HoScale.node, asRead_mk, XmlTree.kids, ← List.append_nil (hoTexts (hoTag hMath) s.math),
    fold_strs (f := HoScale.readKid) (hoTag hDesc) (by decide) (fun x => HoScale.mk {} x none none [] [] []) (fun _ _ _ => rfl) _ _ s.desc [] hs.1,
    fold_limit s.constr.lower (hoTag hLower) (fun x => HoScale.mk { lower := x } ([] ++ trimTexts s.desc) none none [] [] []) (fun _ _ => rfl) rfl,
    fold_limit s.constr.upper (hoTag hUpper) (fun x => HoScale.mk { lower := s.constr.lower.back, upper := x } ([] ++ trimTexts s.desc)
      none none [] [] []) (fun _ _ => rfl) rfl,
    hoConst,
    fold_list (r := HoScale.mk { lower := s.constr.lower.back, upper := s.constr.upper.back } ([] ++ trimTexts s.desc)
      (s.constNum.map rnd) (s.constText.map trim) [] [] []) (hoTag hConst) _ _ ?_ _ ?_,
    HoScale.coeffs,
    fold_list (r := HoScale.mk { lower := s.constr.lower.back, upper := s.constr.upper.back } ([] ++ trimTexts s.desc)
      (s.constNum.map rnd) (s.constText.map trim) (s.num.map rnd) (s.den.map rnd) []) (hoTag hCoeffs) _ _ ?_ _ ?_,
    fold_texts (hoTag hMath) s.math (fun x => HoScale.mk { lower := s.constr.lower.back, upper := s.constr.upper.back } ([] ++ trimTexts s.desc)
      (s.constNum.map rnd) (s.constText.map trim) (s.num.map rnd) (s.den.map rnd) x) (fun _ => rfl) rfl]
  · rfl
  · intro h
    rw [Bool.and_eq_true, List.isEmpty_iff, List.isEmpty_iff] at h
    rw [h.1, h.2]
    rfl
  · intro _ v
    show (allAsRead (l + 1 + 1) [.mk (hoTag hNum) [] [] (s.num.map (hoNumLeaf (hoTag hV))), .mk (hoTag hDen) [] [] (s.den.map (hoNumLeaf (hoTag hV)))]).foldl
      HoScale.readCoeff _ = _
    rw [allAsRead, allAsRead, allAsRead, List.foldl_cons, List.foldl_cons, List.foldl_nil, asRead_mk, asRead_mk]
    show HoScale.mk _ _ _ _ (_ ++ hoValues _) (_ ++ hoValues _) _ = _
    rw [values_read, values_read]
    rfl
  · intro h
    rw [Bool.and_eq_true, Option.isNone_iff_eq_none, Option.isNone_iff_eq_none] at h
    rw [h.1, h.2]
    rfl
  · intro _ v
    show (allAsRead (l + 1 + 1) (hoOptNum (hoTag hV) s.constNum ++ hoOptText (hoTag hVT) s.constText)).foldl HoScale.readConst _ = _
    rw [← List.append_nil (hoOptText (hoTag hVT) s.constText),
      fold_optNum (hoTag hV) s.constNum (fun x => HoScale.mk { lower := s.constr.lower.back, upper := s.constr.upper.back } ([] ++ trimTexts s.desc)
        x none [] [] []) (fun _ => rfl) rfl,
      fold_optText (hoTag hVT) s.constText (fun x => HoScale.mk { lower := s.constr.lower.back, upper := s.constr.upper.back } ([] ++ trimTexts s.desc)
        (s.constNum.map rnd) x [] [] []) (fun _ => rfl) rfl]
    rfl

theorem good_scale {s : HoScale} (hs : s.Good) : s.node.Good := by
  refine ⟨hoTag_name (by decide), noAttrs_good, plainText_nil, ?_⟩
  refine allGood_append (good_strs (by decide) (hoTag_name (by decide)) hs.1) (allGood_append (good_limit _ (hoTag_name (by decide)))
    (allGood_append (good_limit _ (hoTag_name (by decide))) (allGood_append ?_ (allGood_append ?_ (good_texts (hoTag_name (by decide)) hs.2.2)))))
  · exact good_list (hoTag_name (by decide)) (allGood_append (good_optNum (hoTag_name (by decide)) _)
      (good_optText (hoTag_name (by decide)) hs.2.1)) _
  · have h : ∀ t (qs : List ℚ), XmlName t → (XmlTree.mk t [] [] (qs.map (hoNumLeaf (hoTag hV)))).Good := fun t qs ht =>
      ⟨ht, noAttrs_good, plainText_nil, good_map fun q _ => good_numLeaf (hoTag_name (by decide)) q⟩
    exact good_list (hoTag_name (by decide)) (by exact ⟨h _ _ (hoTag_name (by decide)), h _ _ (hoTag_name (by decide)), trivial⟩) _

end Mdf
