import Verif.Proof.Xml

namespace Mdf

/-! ## Numbers -/

theorem decText_digits (n : Nat) : ∀ c ∈ decText n, 0x30#8 ≤ c ∧ c ≤ 0x39#8 := by
  intro c hc
  simp only [decText, List.mem_map] at hc
  obtain ⟨d, hd, rfl⟩ := hc
  have := Nat.isDigit_of_mem_toDigits (by decide) (by decide) hd
  simp only [Char.isDigit, Bool.and_eq_true, decide_eq_true_eq] at this
  have h1 : 48 ≤ d.toNat := this.1
  have h2 : d.toNat ≤ 57 := this.2
  simp only [BitVec.le_def, BitVec.toNat_ofNat]
  omega

theorem takeWhile_every {p : Byte → Bool} : ∀ {l : Bytes}, (∀ c ∈ l, p c = true) → l.takeWhile p = l
  | [], _ => rfl
  | c :: l, h => by
    rw [List.takeWhile_cons, h c (by simp), takeWhile_every (fun d hd => h d (by simp [hd]))]
    rfl

theorem decNumber_decText (n : Nat) : decNumber (decText n) = n := by
  have h : (decText n).takeWhile (fun c => 0x30#8 ≤ c && c ≤ 0x39#8) = decText n := by
    refine takeWhile_every ?_
    intro c hc
    have := decText_digits n c hc
    simp [this.1, this.2]
  rw [decNumber, h]
  have key : ∀ (l : List Char), (∀ c ∈ l, c.isDigit = true) → ∀ a,
      (l.map fun c => BitVec.ofNat 8 c.toNat).foldl (fun n c => n * 10 + (c.toNat - 48)) a = Nat.ofDigitChars 10 l a := by
    intro l
    induction l with
    | nil => intro _ a; rfl
    | cons c l ih =>
      intro hl a
      rw [List.map_cons, List.foldl_cons, ih (fun d hd => hl d (by simp [hd]))]
      have hc := hl c (by simp)
      simp only [Char.isDigit, Bool.and_eq_true, decide_eq_true_eq] at hc
      have h1 : 48 ≤ c.toNat := hc.1
      have h2 : c.toNat ≤ 57 := hc.2
      rw [Nat.ofDigitChars_cons]
      congr 1
      simp only [BitVec.toNat_ofNat]
      show a * 10 + (c.toNat % 256 - 48) = 10 * a + (c.toNat - 48)
      omega
  rw [decText, key _ (fun c hc => Nat.isDigit_of_mem_toDigits (by decide) (by decide) hc), Nat.ofDigitChars_ten_toDigits]

theorem decText_ne (n : Nat) : decText n ≠ [] := by
  simp [decText, Nat.toDigits_ne_nil]

theorem decText_trim (n : Nat) : trim (decText n) = decText n := by
  have hs : ∀ c ∈ decText n, isSpace c = false := by
    intro c hc
    obtain ⟨h1, h2⟩ := decText_digits n c hc
    simp only [BitVec.le_def, BitVec.toNat_ofNat] at h1 h2
    simp only [isSpace, Bool.or_eq_false_iff, Bool.and_eq_false_iff, beq_eq_false_iff_ne, decide_eq_false_iff_not, ne_eq,
      BitVec.le_def, ← BitVec.toNat_inj, BitVec.toNat_ofNat]
    omega
  exact trim_id (fun c hc => hs c (List.mem_of_mem_head? hc)) (fun c hc => hs c (List.mem_of_mem_getLast? hc))

theorem decText_line (n : Nat) : PlainLine (decText n) := by
  intro c hc
  have := (decText_digits n c hc).1
  simp only [BitVec.le_def, BitVec.toNat_ofNat] at this ⊢
  omega

/-! ## Attributes -/

/-- The attributes the library writes. -/
def knownKeys : List Bytes := [kName, kDesc, kCi, kType, kLang, kRo, kUnit, kUnitRef]

/-- The text of an attribute as it is stored. -/
def rawAttr (as : List (Bytes × Bytes)) (key : Bytes) : Option Bytes := (as.find? fun a => a.1 == key).map (·.2)

/-- `SetAttribute` on the list of attributes. -/
def addAttr (key v : Bytes) (as : List (Bytes × Bytes)) : List (Bytes × Bytes) :=
  if as.any (fun a => a.1 == key) then as else as ++ [(key, v)]

/-- `SetAttribute` of a text that is not empty. -/
def textAttr (key v : Bytes) (as : List (Bytes × Bytes)) : List (Bytes × Bytes) := if v.isEmpty then as else addAttr key v as

/-- `SetAttribute` of the creator index. -/
def creatorAttr (c : Option Nat) (as : List (Bytes × Bytes)) : List (Bytes × Bytes) :=
  match c with
  | some n => addAttr kCi (decText n) as
  | none => as

/-- `SetAttribute` of the read-only mark. -/
def roAttr (r : Bool) (as : List (Bytes × Bytes)) : List (Bytes × Bytes) := if r then addAttr kRo wTrue as else as

theorem rawAttr_add (key v : Bytes) (as : List (Bytes × Bytes)) (k : Bytes) :
    rawAttr (addAttr key v as) k = if k = key then (rawAttr as k).or (some v) else rawAttr as k := by
  unfold addAttr rawAttr
  by_cases hk : k = key
  · subst hk
    rw [if_pos rfl]
    split
    · rename_i h
      obtain ⟨a, ha, he⟩ := List.any_eq_true.1 h
      have : (as.find? fun a => a.1 == k).isSome := List.find?_isSome.2 ⟨a, ha, he⟩
      obtain ⟨b, hb⟩ := Option.isSome_iff_exists.1 this
      rw [hb]; rfl
    · rename_i h
      have : as.find? (fun a => a.1 == k) = none := by
        rw [List.find?_eq_none]
        intro a ha he
        exact h (List.any_eq_true.2 ⟨a, ha, he⟩)
      rw [List.find?_append, this]
      simp
  · rw [if_neg hk]
    split
    · rfl
    · rw [List.find?_append]
      have : (key == k) = false := by
        rw [beq_eq_false_iff_ne]; exact fun h => hk h.symm
      simp [this]

theorem rawAttr_text (key v : Bytes) (as : List (Bytes × Bytes)) (k : Bytes) :
    rawAttr (textAttr key v as) k = if k = key then (if v.isEmpty then rawAttr as k else (rawAttr as k).or (some v)) else rawAttr as k := by
  unfold textAttr
  by_cases hv : v.isEmpty = true
  · simp [hv]
  · simp only [hv, Bool.false_eq_true, if_false]
    exact rawAttr_add key v as k

theorem rawAttr_creator (c : Option Nat) (as : List (Bytes × Bytes)) (k : Bytes) :
    rawAttr (creatorAttr c as) k = if k = kCi then (rawAttr as k).or (c.map decText) else rawAttr as k := by
  cases c with
  | none => simp [creatorAttr]
  | some n => simpa [creatorAttr] using rawAttr_add kCi (decText n) as k

theorem rawAttr_ro (r : Bool) (as : List (Bytes × Bytes)) (k : Bytes) :
    rawAttr (roAttr r as) k = if k = kRo then (if r then (rawAttr as k).or (some wTrue) else rawAttr as k) else rawAttr as k := by
  cases r with
  | false => simp [roAttr]
  | true => simpa [roAttr] using rawAttr_add kRo wTrue as k

/-- The attributes of a node of a property: keys of the list `ks`, each once, with texts of one line that are not empty. -/
structure TagAttrs (ks : List Bytes) (as : List (Bytes × Bytes)) : Prop where
  nodup : (as.map (·.1)).Nodup
  keys : ∀ a ∈ as, a.1 ∈ ks
  line : ∀ a ∈ as, PlainLine a.2
  nonempty : ∀ a ∈ as, a.2 ≠ []
  name : kName ∈ as.map (·.1)
  creator : ∀ a ∈ as, a.1 = kCi → ∃ n, a.2 = decText n
  ro : ∀ a ∈ as, a.1 = kRo → a.2 = wTrue

theorem TagAttrs.add {ks : List Bytes} {as : List (Bytes × Bytes)} (h : TagAttrs ks as) {key v : Bytes} (hk : key ∈ ks)
    (hl : PlainLine v) (hv : v ≠ []) (hc : key = kCi → ∃ n, v = decText n) (hr : key = kRo → v = wTrue) :
    TagAttrs ks (addAttr key v as) := by
  unfold addAttr
  split
  · exact h
  · rename_i ha
    have hn : key ∉ as.map (·.1) := by
      intro hm
      obtain ⟨a, ham, he⟩ := List.mem_map.1 hm
      exact ha (List.any_eq_true.2 ⟨a, ham, by simpa using he⟩)
    constructor
    · rw [List.map_append, List.nodup_append]
      refine ⟨h.nodup, by simp, ?_⟩
      intro a ham b hb hab
      simp only [List.map_cons, List.map_nil, List.mem_singleton] at hb
      subst hb hab
      exact hn ham
    all_goals (try (intro a ham; rw [List.mem_append, List.mem_singleton] at ham))
    · rcases ham with ham | rfl
      · exact h.keys a ham
      · exact hk
    · rcases ham with ham | rfl
      · exact h.line a ham
      · exact hl
    · rcases ham with ham | rfl
      · exact h.nonempty a ham
      · exact hv
    · rw [List.map_append]
      exact List.mem_append.2 (.inl h.name)
    · rcases ham with ham | rfl
      · exact h.creator a ham
      · exact hc
    · rcases ham with ham | rfl
      · exact h.ro a ham
      · exact hr

theorem TagAttrs.text {ks : List Bytes} {as : List (Bytes × Bytes)} (h : TagAttrs ks as) {key v : Bytes} (hk : key ∈ ks)
    (hl : PlainLine v) (hc : key ≠ kCi) (hr : key ≠ kRo) : TagAttrs ks (textAttr key v as) := by
  unfold textAttr
  split
  · exact h
  · rename_i hv
    exact h.add hk hl (fun he => hv (by simp [he])) (fun he => absurd he hc) (fun he => absurd he hr)

theorem TagAttrs.creator' {ks : List Bytes} {as : List (Bytes × Bytes)} (h : TagAttrs ks as) (c : Option Nat) (hk : kCi ∈ ks) :
    TagAttrs ks (creatorAttr c as) := by
  cases c with
  | none => exact h
  | some n => exact h.add hk (decText_line n) (decText_ne n) (fun _ => ⟨n, rfl⟩) (fun he => absurd he (by decide))

theorem TagAttrs.ro' {ks : List Bytes} {as : List (Bytes × Bytes)} (h : TagAttrs ks as) (r : Bool) (hk : kRo ∈ ks) :
    TagAttrs ks (roAttr r as) := by
  cases r with
  | false => exact h
  | true => exact h.add hk (by unfold PlainLine; decide) (by decide) (fun he => absurd he (by decide)) (fun _ => rfl)

theorem TagAttrs.raw_ne {ks : List Bytes} {as : List (Bytes × Bytes)} (h : TagAttrs ks as) {k x : Bytes} (hx : rawAttr as k = some x) :
    x ≠ [] := by
  unfold rawAttr at hx
  obtain ⟨a, ha, rfl⟩ := Option.map_eq_some_iff.1 hx
  exact h.nonempty a (List.mem_of_find?_eq_some ha)

theorem TagAttrs.raw_creator {ks : List Bytes} {as : List (Bytes × Bytes)} (h : TagAttrs ks as) {x : Bytes}
    (hx : rawAttr as kCi = some x) : ∃ n, x = decText n := by
  unfold rawAttr at hx
  obtain ⟨a, ha, rfl⟩ := Option.map_eq_some_iff.1 hx
  exact h.creator a (List.mem_of_find?_eq_some ha) (by simpa using List.find?_some ha)

theorem TagAttrs.raw_ro {ks : List Bytes} {as : List (Bytes × Bytes)} (h : TagAttrs ks as) {x : Bytes}
    (hx : rawAttr as kRo = some x) : x = wTrue := by
  unfold rawAttr at hx
  obtain ⟨a, ha, rfl⟩ := Option.map_eq_some_iff.1 hx
  exact h.ro a (List.mem_of_find?_eq_some ha) (by simpa using List.find?_some ha)

theorem TagAttrs.raw_none {ks : List Bytes} {as : List (Bytes × Bytes)} (h : TagAttrs ks as) {k : Bytes} (hk : k ∉ ks) :
    rawAttr as k = none := by
  unfold rawAttr
  rw [Option.map_eq_none_iff, List.find?_eq_none]
  intro a ha he
  have he : a.1 = k := by simpa using he
  exact hk (he ▸ h.keys a ha)

theorem sameWord_known : ∀ a ∈ knownKeys, ∀ b ∈ knownKeys, sameWord a b = (a == b) := by decide

theorem find_known {as : List (Bytes × Bytes)} (h : ∀ a ∈ as, a.1 ∈ knownKeys) {k : Bytes} (hk : k ∈ knownKeys) :
    as.find? (fun a => sameWord a.1 k) = as.find? (fun a => a.1 == k) := by
  induction as with
  | nil => rfl
  | cons a as ih =>
    rw [List.find?_cons, List.find?_cons, sameWord_known _ (h a (by simp)) _ hk, ih (fun b hb => h b (by simp [hb]))]

/-! ## Properties of nodes -/

/-- The values a node stands for. -/
def absInfo (as : List (Bytes × Bytes)) (v : Bytes) : TagInfo :=
  { name := (rawAttr as kName).getD []
    desc := (rawAttr as kDesc).getD []
    unit := (rawAttr as kUnit).getD []
    unitRef := (rawAttr as kUnitRef).getD []
    type := (rawAttr as kType).getD []
    lang := (rawAttr as kLang).getD []
    value := v
    readOnly := (rawAttr as kRo).isSome
    creator := (rawAttr as kCi).map decNumber }

mutual
/-- The property a node stands for. -/
def absTag : XmlTree → Tag
  | .mk _ as v kids => .mk (absInfo as (if kids.isEmpty then v else [])) (absTags kids)
/-- The properties the nodes of a list stand for. -/
def absTags : List XmlTree → List Tag
  | [] => []
  | t :: ts => absTag t :: absTags ts
end

mutual
/-- A node of a property. -/
def TagNode : XmlTree → Prop
  | .mk tag as v kids => PlainText v ∧ ((tag = tE ∧ kids = [] ∧ TagAttrs knownKeys as) ∨
      (tag = tTree ∧ kids ≠ [] ∧ TagAttrs [kName, kDesc, kCi] as ∧ TagNodes kids))
/-- Nodes of properties. -/
def TagNodes : List XmlTree → Prop
  | [] => True
  | t :: ts => TagNode t ∧ TagNodes ts
end

theorem absTags_map (ks : List XmlTree) : absTags ks = ks.map absTag := by
  induction ks with
  | nil => rfl
  | cons k ks ih => rw [absTags, ih]; rfl

theorem tagNodes_iff (ks : List XmlTree) : TagNodes ks ↔ ∀ k ∈ ks, TagNode k := by
  induction ks with
  | nil => simp [TagNodes]
  | cons k ks ih => simp [TagNodes, ih]

theorem text_merge {r : Option Bytes} (h : ∀ x, r = some x → x ≠ []) (v : Bytes) :
    (if v.isEmpty then r else r.or (some v)).getD [] = keepOld (r.getD []) v := by
  cases r with
  | none => cases v <;> rfl
  | some x =>
    have := h x rfl
    cases x with
    | nil => exact absurd rfl this
    | cons c x => cases v <;> rfl

/-- The attributes `InsertETag` gives a node without children. -/
def leafAttrs (i : TagInfo) (as : List (Bytes × Bytes)) : List (Bytes × Bytes) :=
  textAttr kUnitRef i.unitRef (textAttr kUnit i.unit (roAttr i.readOnly (textAttr kLang i.lang (textAttr kType i.type
    (creatorAttr i.creator (textAttr kDesc i.desc as))))))

theorem setText_mk (key v tag : Bytes) (as : List (Bytes × Bytes)) (value : Bytes) (kids : List XmlTree) :
    setText key v (.mk tag as value kids) = .mk tag (textAttr key v as) value kids := by
  unfold setText textAttr
  split <;> rfl

theorem setCreator_mk (c : Option Nat) (tag : Bytes) (as : List (Bytes × Bytes)) (value : Bytes) (kids : List XmlTree) :
    setCreator c (.mk tag as value kids) = .mk tag (creatorAttr c as) value kids := by
  cases c <;> rfl

theorem setLeaf_mk (i : TagInfo) (tag : Bytes) (as : List (Bytes × Bytes)) (value : Bytes) (kids : List XmlTree) :
    setLeaf i (.mk tag as value kids) = .mk tag (leafAttrs i as) i.value kids := by
  rw [setLeaf, setText_mk, setCreator_mk, setText_mk, setText_mk]
  have : (if i.readOnly then (·.setAttribute kRo wTrue) else id : XmlTree → XmlTree) (.mk tag (textAttr kLang i.lang (textAttr kType i.type
    (creatorAttr i.creator (textAttr kDesc i.desc as)))) value kids) = .mk tag (roAttr i.readOnly (textAttr kLang i.lang (textAttr kType i.type
    (creatorAttr i.creator (textAttr kDesc i.desc as))))) value kids := by
    unfold roAttr
    cases i.readOnly <;> rfl
  rw [this, setText_mk, setText_mk]
  rfl

theorem leafAttrs_ok {as : List (Bytes × Bytes)} (h : TagAttrs knownKeys as) {i : TagInfo} (hi : i.Plain) :
    TagAttrs knownKeys (leafAttrs i as) := by
  obtain ⟨_, _, h2, h3, h4, h5, h6, _⟩ := hi
  refine ((((((h.text ?_ h2 ?_ ?_).creator' _ ?_).text ?_ h5 ?_ ?_).text ?_ h6 ?_ ?_).ro' _ ?_).text ?_ h3 ?_ ?_).text ?_ h4 ?_ ?_
  all_goals decide

theorem absInfo_leaf {as : List (Bytes × Bytes)} (h : TagAttrs knownKeys as) (i : TagInfo) (v : Bytes) :
    absInfo (leafAttrs i as) i.value = mergeInfo (absInfo as v) i := by
  have e1 : ∀ k, rawAttr (leafAttrs i as) k = _ := fun k => by
    rw [leafAttrs, rawAttr_text, rawAttr_text, rawAttr_ro, rawAttr_text, rawAttr_text, rawAttr_creator, rawAttr_text]
  have hci : ((rawAttr as kCi).or (i.creator.map decText)).map decNumber = ((rawAttr as kCi).map decNumber).or i.creator := by
    cases rawAttr as kCi with
    | some x => rfl
    | none =>
      cases i.creator with
      | none => rfl
      | some n => simp [decNumber_decText]
  have hro : (if i.readOnly then (rawAttr as kRo).or (some wTrue) else rawAttr as kRo).isSome = ((rawAttr as kRo).isSome || i.readOnly) := by
    cases rawAttr as kRo <;> cases i.readOnly <;> rfl
  unfold absInfo mergeInfo
  simp (decide := true) only [e1, if_true, if_false]
  simp only [text_merge (fun x hx => h.raw_ne hx), hci, hro]

theorem absInfo_tree {as : List (Bytes × Bytes)} (h : TagAttrs [kName, kDesc, kCi] as) (i : TagInfo) (v : Bytes) :
    absInfo (creatorAttr i.creator (textAttr kDesc i.desc as)) [] = mergeTree (absInfo as v) i := by
  have e1 : ∀ k, rawAttr (creatorAttr i.creator (textAttr kDesc i.desc as)) k = _ := fun k => by
    rw [rawAttr_creator, rawAttr_text]
  have hci : ((rawAttr as kCi).or (i.creator.map decText)).map decNumber = ((rawAttr as kCi).map decNumber).or i.creator := by
    cases rawAttr as kCi with
    | some x => rfl
    | none =>
      cases i.creator with
      | none => rfl
      | some n => simp [decNumber_decText]
  unfold absInfo mergeTree
  simp (decide := true) only [e1, if_true, if_false]
  simp only [text_merge (fun x hx => h.raw_ne hx), hci, h.raw_none (k := kUnit) (by decide), h.raw_none (k := kUnitRef) (by decide),
    h.raw_none (k := kType) (by decide), h.raw_none (k := kLang) (by decide), h.raw_none (k := kRo) (by decide)]
  rfl

/-! ## Adding a property -/

theorem isAttribute_name {ks : List Bytes} {as : List (Bytes × Bytes)} (h : TagAttrs ks as) (hs : ∀ k ∈ ks, k ∈ knownKeys)
    (tag v name : Bytes) (kids : List XmlTree) :
    (XmlTree.mk tag as v kids).isAttribute kName name = sameWord ((rawAttr as kName).getD []) name := by
  have hk : ∀ a ∈ as, a.1 ∈ knownKeys := fun a ha => hs _ (h.keys a ha)
  have hnd := h.nodup
  have hname := h.name
  clear h
  unfold XmlTree.isAttribute rawAttr
  simp only [XmlTree.attrs]
  induction as with
  | nil => simp at hname
  | cons a as ih =>
    rw [List.any_cons, List.find?_cons, sameWord_known _ (hk a (by simp)) _ (by decide)]
    by_cases ha : a.1 = kName
    · have hno : as.any (fun b => sameWord b.1 kName && sameWord b.2 name) = false := by
        rw [List.any_eq_false]
        intro b hb he
        rw [sameWord_known _ (hk b (by simp [hb])) _ (by decide)] at he
        simp only [Bool.and_eq_true, beq_iff_eq] at he
        rw [List.map_cons, List.nodup_cons] at hnd
        exact hnd.1 (List.mem_map.2 ⟨b, hb, by rw [he.1, ha]⟩)
      rw [hno]
      simp [ha]
    · have : (a.1 == kName) = false := by simpa using ha
      rw [this]
      simp only [Bool.false_and, Bool.false_or]
      refine ih ?_ ?_ ?_
      · exact fun b hb => hk b (by simp [hb])
      · rw [List.map_cons, List.nodup_cons] at hnd
        exact hnd.2
      · rw [List.map_cons, List.mem_cons] at hname
        exact hname.resolve_left (fun e => ha e.symm)

theorem isNamed_leaf {k : XmlTree} (h : TagNode k) (name : Bytes) :
    isNamed tE name k = (!(absTag k).isTree && sameWord (absTag k).info.name name) := by
  obtain ⟨tag, as, v, kids⟩ := k
  simp only [TagNode] at h
  rcases h.2 with ⟨rfl, rfl, ha⟩ | ⟨rfl, hk, ha, _⟩
  · rw [isNamed, isAttribute_name ha (fun _ hk => hk)]
    rfl
  · rw [isNamed, isAttribute_name ha (by decide)]
    obtain ⟨k, kids, rfl⟩ := List.exists_cons_of_ne_nil hk
    rfl

theorem isNamed_tree {k : XmlTree} (h : TagNode k) (name : Bytes) :
    isNamed tTree name k = ((absTag k).isTree && sameWord (absTag k).info.name name) := by
  obtain ⟨tag, as, v, kids⟩ := k
  simp only [TagNode] at h
  rcases h.2 with ⟨rfl, rfl, ha⟩ | ⟨rfl, hk, ha, _⟩
  · rw [isNamed, isAttribute_name ha (fun _ hk => hk)]
    rfl
  · rw [isNamed, isAttribute_name ha (by decide)]
    obtain ⟨k, kids, rfl⟩ := List.exists_cons_of_ne_nil hk
    rfl

theorem changeNode_abs {p : XmlTree → Bool} {q : Tag → Bool} {new : XmlTree} {new' : Tag} {f : XmlTree → XmlTree} {g : Tag → Tag}
    {ks : List XmlTree} (hks : ∀ k ∈ ks, TagNode k) (hp : ∀ k ∈ ks, p k = q (absTag k))
    (hf : ∀ k ∈ ks, p k = true → TagNode (f k) ∧ absTag (f k) = g (absTag k)) (hnew : TagNode (f new) ∧ absTag (f new) = g new') :
    (∀ k ∈ changeNode p new f ks, TagNode k) ∧ (changeNode p new f ks).map absTag = changeFirst q new' g (ks.map absTag) := by
  induction ks with
  | nil => simp [changeNode, changeFirst, hnew.1, hnew.2]
  | cons k ks ih =>
    obtain ⟨i1, i2⟩ := ih (fun x hx => hks x (by simp [hx])) (fun x hx => hp x (by simp [hx])) (fun x hx => hf x (by simp [hx]))
    rw [changeNode, List.map_cons, changeFirst, ← hp k (by simp)]
    by_cases hk : p k = true
    · obtain ⟨f1, f2⟩ := hf k (by simp) hk
      rw [if_pos hk, if_pos hk, List.map_cons, f2]
      refine ⟨?_, rfl⟩
      intro x hx
      rcases List.mem_cons.1 hx with rfl | hx
      · exact f1
      · exact hks x (by simp [hx])
    · rw [if_neg hk, if_neg hk, List.map_cons, i2]
      refine ⟨?_, rfl⟩
      intro x hx
      rcases List.mem_cons.1 hx with rfl | hx
      · exact hks x (by simp)
      · exact i1 x hx

theorem changeNode_ne {p : XmlTree → Bool} {new : XmlTree} {f : XmlTree → XmlTree} {ks : List XmlTree} : changeNode p new f ks ≠ [] := by
  cases ks with
  | nil => simp [changeNode]
  | cons k ks => rw [changeNode]; split <;> simp

/-- `InsertETag` on the children of a node. -/
def insKids (t : Tag) (ks : List XmlTree) : List XmlTree := (insertTag t (.mk [] [] [] ks)).kids

/-- Several tags on the children of a node. -/
def insAll : List Tag → List XmlTree → List XmlTree
  | [], ks => ks
  | t :: ts, ks => insAll ts (insKids t ks)

theorem insertTag_kids (t : Tag) (root : XmlTree) : insertTag t root = root.mapKids (insKids t) := by
  obtain ⟨tag, as, v, kids⟩ := root
  obtain ⟨i, tree⟩ := t
  unfold insKids
  simp only [insertTag]
  split
  · rfl
  · split <;> rfl

theorem insertTags_kids (ts : List Tag) (root : XmlTree) : insertTags ts root = root.mapKids (insAll ts) := by
  induction ts generalizing root with
  | nil => cases root; rfl
  | cons t ts ih =>
    rw [insertTags, ih, insertTag_kids]
    cases root
    rfl

theorem namedAttrs {ks : List Bytes} (hk : kName ∈ ks) {name : Bytes} (h : PlainLine name) (hn : name ≠ []) :
    TagAttrs ks [(kName, name)] := by
  constructor
  · simp
  · simpa using hk
  · simpa using h
  · simpa using hn
  · simp
  · intro a ha he
    rw [List.mem_singleton] at ha
    subst ha
    exact absurd (show kName = kCi from he) (by decide)
  · intro a ha he
    rw [List.mem_singleton] at ha
    subst ha
    exact absurd (show kName = kRo from he) (by decide)

mutual
theorem insKids_abs : ∀ (t : Tag), t.Plain → ∀ (ks : List XmlTree), (∀ k ∈ ks, TagNode k) →
    (∀ k ∈ insKids t ks, TagNode k) ∧ (insKids t ks).map absTag = addTag t (ks.map absTag) ∧ insKids t ks ≠ []
  | .mk i tree, hp, ks, hks => by
    simp only [Tag.Plain] at hp
    obtain ⟨hi, htree⟩ := hp
    have hname : i.name.isEmpty = false := by
      cases h : i.name with
      | nil => exact absurd h hi.1
      | cons => rfl
    rw [insKids, insertTag, hname, addTag]
    simp only [Bool.false_eq_true, if_false]
    cases tree with
    | nil =>
      simp only [List.isEmpty_nil, if_true, XmlTree.mapKids, XmlTree.kids]
      have hleaf : ∀ k, TagNode k → isNamed tE i.name k = true →
          TagNode (setLeaf i k) ∧ absTag (setLeaf i k) = .mk (mergeInfo (absTag k).info i) [] := by
        intro k hk hn
        rw [isNamed_leaf hk] at hn
        obtain ⟨tag, as, v, kids⟩ := k
        simp only [TagNode] at hk
        rcases hk.2 with ⟨rfl, rfl, ha⟩ | ⟨rfl, hkn, ha, _⟩
        · rw [setLeaf_mk]
          refine ⟨?_, ?_⟩
          · simp only [TagNode]
            exact ⟨hi.2.2.2.2.2.2.2, .inl ⟨trivial, trivial, leafAttrs_ok ha hi⟩⟩
          · simp only [absTag, List.isEmpty_nil, if_true, absTags, Tag.info]
            rw [absInfo_leaf ha i v]
        · obtain ⟨k, kids, rfl⟩ := List.exists_cons_of_ne_nil hkn
          simp [Tag.isTree, absTag, Tag.tree, absTags] at hn
      have hnew : TagNode (namedNode tE i.name) := by
        show TagNode (.mk tE [(kName, i.name)] [] [])
        simp only [TagNode]
        exact ⟨by intro c hc; simp at hc, .inl ⟨trivial, trivial, namedAttrs (by decide) hi.2.1 hi.1⟩⟩
      have hnewn : isNamed tE i.name (namedNode tE i.name) = true := by
        rw [isNamed_leaf hnew]
        show (!false && sameWord i.name i.name) = true
        simp [sameWord]
      have h1 := hleaf _ hnew hnewn
      have hc := changeNode_abs (p := isNamed tE i.name) (q := fun o => sameTag o (.mk i [])) (new := namedNode tE i.name)
        (new' := .mk { name := i.name } []) (f := setLeaf i) (g := fun o => .mk (mergeInfo o.info i) []) hks
        (by
          intro k hk
          rw [isNamed_leaf (hks k hk)]
          show _ = ((absTag k).isTree == false && sameWord (absTag k).info.name i.name)
          cases (absTag k).isTree <;> rfl)
        (fun k hk hn => hleaf k (hks k hk) hn) ⟨h1.1, h1.2⟩
      exact ⟨hc.1, hc.2, changeNode_ne⟩
    | cons u us =>
      simp only [List.isEmpty_cons, Bool.false_eq_true, if_false, XmlTree.mapKids, XmlTree.kids]
      have htr : ∀ (as : List (Bytes × Bytes)) (v : Bytes) (kids : List XmlTree), PlainText v → TagAttrs [kName, kDesc, kCi] as →
          (∀ k ∈ kids, TagNode k) →
          TagNode (insertTags (u :: us) (setCreator i.creator (setText kDesc i.desc (.mk tTree as v kids)))) ∧
          absTag (insertTags (u :: us) (setCreator i.creator (setText kDesc i.desc (.mk tTree as v kids)))) =
            .mk (mergeTree (absInfo as v) i) (addTags (u :: us) (kids.map absTag)) := by
        intro as v kids hv ha hkids
        obtain ⟨r1, r2, r3⟩ := insAll_abs (u :: us) htree kids hkids
        have r3 := r3 (by simp)
        rw [setText_mk, setCreator_mk, insertTags_kids]
        simp only [XmlTree.mapKids]
        refine ⟨?_, ?_⟩
        · simp only [TagNode]
          refine ⟨hv, .inr ⟨trivial, r3, ?_, (tagNodes_iff _).2 r1⟩⟩
          exact (ha.text (by decide) hi.2.2.1 (by decide) (by decide)).creator' _ (by decide)
        · simp only [absTag]
          have : (insAll (u :: us) kids).isEmpty = false := by
            cases h : insAll (u :: us) kids with
            | nil => exact absurd h r3
            | cons => rfl
          rw [this, if_neg (by simp), absInfo_tree ha i v, absTags_map, r2]
      have hold : ∀ k, TagNode k → isNamed tTree i.name k = true →
          TagNode (insertTags (u :: us) (setCreator i.creator (setText kDesc i.desc k))) ∧
          absTag (insertTags (u :: us) (setCreator i.creator (setText kDesc i.desc k))) =
            .mk (mergeTree (absTag k).info i) (addTags (u :: us) (absTag k).tree) := by
        intro k hk hn
        rw [isNamed_tree hk] at hn
        obtain ⟨tag, as, v, kids⟩ := k
        simp only [TagNode] at hk
        obtain ⟨hv, ⟨rfl, rfl, ha⟩ | ⟨rfl, hkn, ha, hkids⟩⟩ := hk
        · simp [Tag.isTree, absTag, Tag.tree, absTags] at hn
        · have := htr as v kids hv ha ((tagNodes_iff _).1 hkids)
          refine ⟨this.1, ?_⟩
          rw [this.2]
          simp only [absTag, Tag.info, Tag.tree, absTags_map]
          rfl
      have hc := changeNode_abs (p := isNamed tTree i.name) (q := fun o => sameTag o (.mk i (u :: us))) (new := namedNode tTree i.name)
        (new' := .mk { name := i.name } [])
        (f := fun t => insertTags (u :: us) (setCreator i.creator (setText kDesc i.desc t)))
        (g := fun o => .mk (mergeTree o.info i) (addTags (u :: us) o.tree)) hks
        (by
          intro k hk
          rw [isNamed_tree (hks k hk)]
          show _ = ((absTag k).isTree == true && sameWord (absTag k).info.name i.name)
          cases (absTag k).isTree <;> rfl)
        (fun k hk hn => hold k (hks k hk) hn)
        (by
          have := htr [(kName, i.name)] [] [] (by intro c hc; simp at hc) (namedAttrs (by decide) hi.2.1 hi.1) (by simp)
          exact this)
      exact ⟨hc.1, hc.2, changeNode_ne⟩
theorem insAll_abs : ∀ (ts : List Tag), AllPlain ts → ∀ (ks : List XmlTree), (∀ k ∈ ks, TagNode k) →
    (∀ k ∈ insAll ts ks, TagNode k) ∧ (insAll ts ks).map absTag = addTags ts (ks.map absTag) ∧ (ts ≠ [] → insAll ts ks ≠ [])
  | [], _, ks, hks => ⟨hks, by rw [insAll, addTags], by simp⟩
  | t :: ts, hp, ks, hks => by
    simp only [AllPlain] at hp
    obtain ⟨i1, i2, i3⟩ := insKids_abs t hp.1 ks hks
    obtain ⟨j1, j2, j3⟩ := insAll_abs ts hp.2 (insKids t ks) i1
    rw [insAll]
    refine ⟨j1, ?_, ?_⟩
    · rw [j2, i2, addTags]
    · intro _
      cases ts with
      | nil => exact i3
      | cons u us => exact j3 (by simp)
end

end Mdf
