import Verif.Spec.Array
import Verif.Proof.Meta
import Verif.Proof.BlockOps

/-! Lemmas about channel arrays. -/

namespace Mdf

theorem flag_bit (f : BitVec 32) (k : Nat) (hk : k < 32) : (f &&& BitVec.twoPow 32 k ≠ 0#32) ↔ f.getLsbD k = true := by
  rw [BitVec.and_twoPow]
  by_cases h : f.getLsbD k = true
  · simp only [h, if_true, iff_true]
    intro hc
    have := congrArg BitVec.toNat hc
    rw [BitVec.toNat_twoPow] at this
    have h2 : 2 ^ k < 2 ^ 32 := Nat.pow_lt_pow_right (by decide) hk
    rw [Nat.mod_eq_of_lt h2] at this
    have : 0 < 2 ^ k := Nat.pow_pos (by decide)
    simp at *
  · simp [h]

theorem hasDynamicSize_iff (a : CaDef) : a.hasDynamicSize = true ↔ a.flags.getLsbD 0 = true := by
  unfold CaDef.hasDynamicSize
  rw [decide_eq_true_iff]; exact flag_bit a.flags 0 (by decide)
theorem hasInput_iff (a : CaDef) : a.hasInput = true ↔ a.flags.getLsbD 1 = true := by
  unfold CaDef.hasInput
  rw [decide_eq_true_iff]; exact flag_bit a.flags 1 (by decide)
theorem hasOutput_iff (a : CaDef) : a.hasOutput = true ↔ a.flags.getLsbD 2 = true := by
  unfold CaDef.hasOutput
  rw [decide_eq_true_iff]; exact flag_bit a.flags 2 (by decide)
theorem hasComparison_iff (a : CaDef) : a.hasComparison = true ↔ a.flags.getLsbD 3 = true := by
  unfold CaDef.hasComparison
  rw [decide_eq_true_iff]; exact flag_bit a.flags 3 (by decide)
theorem hasAxis_iff (a : CaDef) : a.hasAxis = true ↔ a.flags.getLsbD 4 = true := by
  unfold CaDef.hasAxis
  rw [decide_eq_true_iff]; exact flag_bit a.flags 4 (by decide)
theorem hasFixedAxis_iff (a : CaDef) : a.hasFixedAxis = true ↔ a.flags.getLsbD 5 = true := by
  unfold CaDef.hasFixedAxis
  rw [decide_eq_true_iff]; exact flag_bit a.flags 5 (by decide)

/-! ### Setting the links -/

theorem setLinks_eq (pre mid vs : List Nat) (h : vs.length ≤ mid.length) :
    setLinks (pre ++ mid) pre.length vs = some (pre ++ vs ++ mid.drop vs.length) := by
  induction vs generalizing pre mid with
  | nil => simp [setLinks]
  | cons v vs ih =>
    obtain _ | ⟨m, mid⟩ := mid
    · simp at h
    · simp only [setLinks]
      rw [if_pos (by simp)]
      have e : (pre ++ m :: mid).set pre.length v = (pre ++ [v]) ++ mid := by simp
      rw [e]
      have := ih (pre ++ [v]) mid (by simpa using h)
      simp only [List.length_append, List.length_cons, List.length_nil, Nat.zero_add] at this
      rw [this]
      simp

theorem setLinks_none (links vs : List Nat) (i : Nat) (hv : vs ≠ []) (h : links.length < i + vs.length) : setLinks links i vs = none := by
  induction vs generalizing links i with
  | nil => exact absurd rfl hv
  | cons v vs ih =>
    simp only [setLinks]
    split
    · rename_i hi
      obtain _ | ⟨w, ws⟩ := vs
      · simp at h; omega
      · apply ih
        · simp
        · simp only [List.length_set, List.length_cons] at *; omega
    · rfl

theorem refLinks_length (refs : List CaRef) (n : Nat) : (refLinks refs n).length = 3 * n := by
  unfold refLinks
  induction n with
  | zero => rfl
  | succ n ih =>
    rw [List.range_succ, List.flatMap_append, List.length_append, ih]
    simp [CaRef.links]; omega

/-- The links of the data blocks. -/
def CaDef.seg0 (a : CaDef) : List Nat := if a.isDgTemplate then (List.range a.product.toNat).map fun i => a.dataLinks.getD i 0 else []
def CaDef.seg1 (a : CaDef) : List Nat := if a.hasDynamicSize then refLinks a.dynamicSizes a.dimensions.toNat else []
def CaDef.seg2 (a : CaDef) : List Nat := if a.hasInput then refLinks a.inputs a.dimensions.toNat else []
def CaDef.seg3 (a : CaDef) : List Nat := if a.hasOutput then a.output.links else []
def CaDef.seg4 (a : CaDef) : List Nat := if a.hasComparison then a.comparison.links else []
def CaDef.seg5 (a : CaDef) : List Nat := if a.hasAxis then (List.range a.dimensions.toNat).map fun i => a.conversions.getD i 0 else []
def CaDef.seg6 (a : CaDef) : List Nat := if a.hasAxis ∧ ¬ a.hasFixedAxis then refLinks a.axes a.dimensions.toNat else []

theorem linkValues_eq (a : CaDef) :
    a.linkValues = a.seg0 ++ (a.seg1 ++ (a.seg2 ++ (a.seg3 ++ (a.seg4 ++ (a.seg5 ++ a.seg6))))) := by
  simp [CaDef.linkValues, CaDef.seg0, CaDef.seg1, CaDef.seg2, CaDef.seg3, CaDef.seg4, CaDef.seg5, CaDef.seg6]

theorem ite_len {α : Type} (c : Prop) [Decidable c] (l : List α) : (if c then l else []).length = if c then l.length else 0 := by
  split <;> rfl

theorem seg0_length (a : CaDef) : a.seg0.length = if a.isDgTemplate then a.product.toNat else 0 := by
  unfold CaDef.seg0; rw [ite_len]; simp
theorem seg1_length (a : CaDef) : a.seg1.length = if a.hasDynamicSize then 3 * a.dimensions.toNat else 0 := by
  unfold CaDef.seg1; rw [ite_len, refLinks_length]
theorem seg2_length (a : CaDef) : a.seg2.length = if a.hasInput then 3 * a.dimensions.toNat else 0 := by
  unfold CaDef.seg2; rw [ite_len, refLinks_length]
theorem seg3_length (a : CaDef) : a.seg3.length = if a.hasOutput then 3 else 0 := by
  unfold CaDef.seg3; rw [ite_len]; rfl
theorem seg4_length (a : CaDef) : a.seg4.length = if a.hasComparison then 3 else 0 := by
  unfold CaDef.seg4; rw [ite_len]; rfl
theorem seg5_length (a : CaDef) : a.seg5.length = if a.hasAxis then a.dimensions.toNat else 0 := by
  unfold CaDef.seg5; rw [ite_len]; simp
theorem seg6_length (a : CaDef) : a.seg6.length = if a.hasAxis ∧ ¬ a.hasFixedAxis then 3 * a.dimensions.toNat else 0 := by
  unfold CaDef.seg6; rw [ite_len, refLinks_length]

theorem nofLinks_eq (a : CaDef) : a.linkValues.length + (if a.isDgTemplate then a.dataLinks.length else 0) + 1 =
    a.nofLinks + (if a.isDgTemplate then a.product.toNat else 0) := by
  rw [linkValues_eq]
  simp only [List.length_append, seg0_length, seg1_length, seg2_length, seg3_length, seg4_length, seg5_length, seg6_length]
  unfold CaDef.nofLinks
  simp only [Nat.mul_comm _ 3]
  generalize (if a.isDgTemplate = true then a.dataLinks.length else 0) = x0
  generalize (if a.isDgTemplate = true then a.product.toNat else 0) = y0
  generalize (if a.hasDynamicSize = true then 3 * a.dimensions.toNat else 0) = x1
  generalize (if a.hasInput = true then 3 * a.dimensions.toNat else 0) = x2
  generalize (if a.hasOutput = true then 3 else 0) = x3
  generalize (if a.hasComparison = true then 3 else 0) = x4
  generalize (if a.hasAxis = true then a.dimensions.toNat else 0) = x5
  generalize (if a.hasAxis = true ∧ ¬a.hasFixedAxis = true then 3 * a.dimensions.toNat else 0) = x6
  omega

/-- What `write` gives: link 0, the links set, links that are not used. -/
theorem write_ok (a : CaDef) (h : a.isDgTemplate = true → a.product.toNat ≤ a.dataLinks.length) :
    a.write = some (0 :: (a.linkValues ++ List.replicate (a.nofLinks - 1 - a.linkValues.length) 0), a.body) := by
  have hn : a.linkValues.length + 1 ≤ a.nofLinks := by
    have e := nofLinks_eq a
    by_cases hd : a.isDgTemplate = true
    · have := h hd
      rw [if_pos hd, if_pos hd] at e; omega
    · rw [if_neg hd, if_neg hd] at e; omega
  unfold CaDef.write
  have e : List.replicate a.nofLinks 0 = [0] ++ List.replicate (a.nofLinks - 1) 0 := by
    obtain ⟨m, hm⟩ : ∃ m, a.nofLinks = m + 1 := ⟨a.nofLinks - 1, by omega⟩
    rw [hm, List.replicate_succ]; simp
  rw [e]
  have := setLinks_eq [0] (List.replicate (a.nofLinks - 1) 0) a.linkValues (by simp; omega)
  simp only [List.length_cons, List.length_nil, Nat.zero_add] at this
  rw [this]
  simp

theorem write_fails (a : CaDef) (hd : a.isDgTemplate = true) (h : a.dataLinks.length < a.product.toNat) : a.write = none := by
  have e := nofLinks_eq a
  rw [if_pos hd, if_pos hd] at e
  unfold CaDef.write
  rw [setLinks_none]
  · rfl
  · rw [linkValues_eq]
    intro hc
    have := congrArg List.length hc
    simp only [List.length_append, seg0_length, hd, if_true, List.length_nil] at this
    omega
  · rw [List.length_replicate]; omega

/-! ### Reading the links -/

/-- The list `vs` stands at `i` of the links. -/
def Seg (links : List Nat) (i : Nat) (vs : List Nat) : Prop := ∀ k, k < vs.length → links.getD (i + k) 0 = vs.getD k 0

theorem seg_append (links : List Nat) (i : Nat) (as bs : List Nat) (h : Seg links i (as ++ bs)) : Seg links i as ∧ Seg links (i + as.length) bs := by
  constructor
  · intro k hk
    rw [h k (by simp; omega)]
    simp only [List.getD_eq_getElem?_getD]
    rw [List.getElem?_append_left hk]
  · intro k hk
    have := h (as.length + k) (by simp; omega)
    rw [show i + as.length + k = i + (as.length + k) by omega, this]
    simp only [List.getD_eq_getElem?_getD]
    rw [List.getElem?_append_right (by omega)]
    congr 2; omega

theorem refAt_valid (links : List Nat) (i : Nat) (h : links.getD i 0 < 2 ^ 63) : refAt links i = links.getD i 0 := by
  unfold refAt validLink
  split
  · rfl
  · rename_i hc
    simp only [Bool.and_eq_true, decide_eq_true_eq, not_and] at hc
    omega

theorem seg_cons (links : List Nat) (i v : Nat) (vs : List Nat) (h : Seg links i (v :: vs)) : links.getD i 0 = v ∧ Seg links (i + 1) vs := by
  constructor
  · simpa using h 0 (by simp)
  · intro k hk
    have := h (k + 1) (by simpa using hk)
    rw [show i + 1 + k = i + (k + 1) by omega, this]; simp

theorem readRef_seg (links : List Nat) (i : Nat) (r : CaRef) (hv : r.Valid) (h : Seg links i r.links) : readRef links i = r := by
  obtain ⟨h1, h⟩ := seg_cons _ _ _ _ h
  obtain ⟨h2, h⟩ := seg_cons _ _ _ _ h
  obtain ⟨h3, -⟩ := seg_cons _ _ _ _ h
  obtain ⟨v1, v2, v3⟩ := hv
  unfold readRef
  rw [refAt_valid _ _ (by rw [h1]; exact v1), refAt_valid _ _ (by rw [h2]; exact v2), refAt_valid _ _ (by rw [show i + 2 = i + 1 + 1 by omega, h3]; exact v3), h1, h2,
    show i + 2 = i + 1 + 1 by omega, h3]

theorem getD_valid (refs : List CaRef) (hv : ∀ r ∈ refs, r.Valid) (i : Nat) : (refs.getD i .none).Valid := by
  rw [List.getD_eq_getElem?_getD]
  cases h : refs[i]? with
  | none => exact ⟨by decide, by decide, by decide⟩
  | some r => exact hv r (List.mem_of_getElem? h)

theorem getD_lt (l : List Nat) (hv : ∀ x ∈ l, x < 2 ^ 63) (i : Nat) : l.getD i 0 < 2 ^ 63 := by
  rw [List.getD_eq_getElem?_getD]
  cases h : l[i]? with
  | none => exact (by decide : (0 : Nat) < 2 ^ 63)
  | some r => exact hv r (List.mem_of_getElem? h)

theorem readRefs_seg (links : List Nat) (i n : Nat) (refs : List CaRef) (hv : ∀ r ∈ refs, r.Valid) (h : Seg links i (refLinks refs n)) :
    readRefs links i n = firstN refs n .none := by
  unfold readRefs firstN
  apply List.map_congr_left
  intro k hk
  rw [List.mem_range] at hk
  apply readRef_seg _ _ _ (getD_valid refs hv k)
  intro j hj
  have hj3 : j < 3 := by simpa [CaRef.links] using hj
  have e : refLinks refs n = refLinks refs k ++ ((refs.getD k .none).links ++ ((List.range n).drop (k + 1)).flatMap fun i => (refs.getD i .none).links) := by
    unfold refLinks
    have e2 : List.range n = List.range k ++ (k :: (List.range n).drop (k + 1)) := by
      have h1 : (List.range n).take k = List.range k := by rw [List.take_range, Nat.min_eq_left (by omega)]
      have h2 : (List.range n).drop k = k :: (List.range n).drop (k + 1) := by
        rw [List.drop_eq_getElem_cons (by simpa using hk)]; simp
      rw [← h2, ← h1, List.take_append_drop]
    conv => lhs; rw [e2]
    rw [List.flatMap_append, List.flatMap_cons]
  rw [e] at h
  have h2 := (seg_append _ _ _ _ h).2
  rw [refLinks_length] at h2
  have h3 := (seg_append _ _ _ _ h2).1
  exact h3 j hj

theorem map_seg (links : List Nat) (i n : Nat) (l : List Nat) (h : Seg links i ((List.range n).map fun k => l.getD k 0)) :
    ((List.range n).map fun k => links.getD (i + k) 0) = firstN l n 0 := by
  unfold firstN
  apply List.map_congr_left
  intro k hk
  rw [List.mem_range] at hk
  rw [h k (by simpa using hk)]
  simp [List.getD_eq_getElem?_getD, hk]

theorem conv_seg (links : List Nat) (i n : Nat) (l : List Nat) (hv : ∀ x ∈ l, x < 2 ^ 63) (h : Seg links i ((List.range n).map fun k => l.getD k 0)) :
    ((List.range n).map fun k => refAt links (i + k)) = firstN l n 0 := by
  rw [← map_seg links i n l h]
  apply List.map_congr_left
  intro k hk
  apply refAt_valid
  rw [List.mem_range] at hk
  rw [h k (by simpa using hk)]
  have := getD_lt l hv k
  simpa [List.getD_eq_getElem?_getD, hk] using this

/-! ### Reading the values -/

theorem padTo_self (l : List (BitVec 64)) : padTo l.length l = l := by
  unfold padTo
  apply List.ext_getElem?
  intro i
  by_cases hi : i < l.length
  · simp [hi]
  · simp [hi]

theorem getCycles_put (max : Nat) (xs : List (BitVec 64)) (bytes : Nat) (t : Bytes) (h : bytes + 8 * xs.length ≤ max) :
    getCycles max xs.length bytes (putNums (n := 8) xs ++ t) = some (xs, t) := by
  induction xs generalizing bytes with
  | nil => rfl
  | cons x xs ih =>
    simp only [List.length_cons] at h
    simp only [List.length_cons, getCycles, putNums, List.append_assoc]
    rw [if_pos (by omega), num8_bind, bind_eq, ih (bytes + 8) (by omega)]
    rfl

theorem putNums8_length (xs : List (BitVec 64)) : (putNums (n := 8) xs).length = 8 * xs.length := by
  induction xs with
  | nil => rfl
  | cons x xs ih =>
    simp only [putNums, List.length_append, ih, List.length_cons, putNum, leBytes_length]; omega

/-- The values as they are read, before the links are looked at. -/
def CaDef.values (a : CaDef) : CaDef :=
  { CaDef.new with
    type := a.type, storage := a.storage, dimensions := a.dimensions, flags := a.flags, byteBase := a.byteBase
    invalidBase := a.invalidBase, dims := a.dims
    axisValues := if a.hasFixedAxis then padTo a.sum.toNat a.axisValues else []
    cycles := if a.isDgTemplate || a.isCgTemplate then padTo a.product.toNat a.cycles else [] }

theorem body_length (a : CaDef) : a.body.length = 16 + 8 * a.dimensions.toNat + 8 * (if a.hasFixedAxis then a.sum.toNat else 0) +
    8 * (if a.isDgTemplate || a.isCgTemplate then a.product.toNat else 0) := by
  unfold CaDef.body
  simp only [List.length_append, putNum, leBytes_length, putNums8_length, padTo_length, ite_len]
  split <;> split <;> omega

theorem getValues_body (a : CaDef) (hd : a.dims.length = a.dimensions.toNat) (n : Nat) (t : Bytes) :
    CaDef.getValues (24 + 8 * n + a.body.length) n (a.body ++ t) = some (a.values, t) := by
  rw [body_length]
  unfold CaDef.getValues CaDef.body
  simp only [List.append_assoc, num1_bind, num2_bind, num4_bind]
  have hp : padTo a.dimensions.toNat a.dims = a.dims := by rw [← hd, padTo_self]
  rw [hp, nums8_bind hd]
  have f1 : CaDef.hasFixedAxis { CaDef.new with type := a.type, storage := a.storage, dimensions := a.dimensions, flags := a.flags, byteBase := a.byteBase, invalidBase := a.invalidBase, dims := a.dims } = a.hasFixedAxis := rfl
  have f2 : CaDef.sum { CaDef.new with type := a.type, storage := a.storage, dimensions := a.dimensions, flags := a.flags, byteBase := a.byteBase, invalidBase := a.invalidBase, dims := a.dims } = a.sum := rfl
  have f3 : CaDef.product { CaDef.new with type := a.type, storage := a.storage, dimensions := a.dimensions, flags := a.flags, byteBase := a.byteBase, invalidBase := a.invalidBase, dims := a.dims } = a.product := rfl
  have f4 : CaDef.isDgTemplate { CaDef.new with type := a.type, storage := a.storage, dimensions := a.dimensions, flags := a.flags, byteBase := a.byteBase, invalidBase := a.invalidBase, dims := a.dims } = a.isDgTemplate := rfl
  have f5 : CaDef.isCgTemplate { CaDef.new with type := a.type, storage := a.storage, dimensions := a.dimensions, flags := a.flags, byteBase := a.byteBase, invalidBase := a.invalidBase, dims := a.dims } = a.isCgTemplate := rfl
  simp only [f1, f2, f3, f4, f5, hd]
  unfold CaDef.values
  by_cases hf : a.hasFixedAxis = true
  · simp only [hf, if_true]
    rw [nums8_bind (padTo_length _ _)]
    by_cases hc : (a.isDgTemplate || a.isCgTemplate) = true
    · simp only [hc, if_true]
      rw [bind_eq]
      have := getCycles_put (24 + 8 * n + (16 + 8 * a.dimensions.toNat + 8 * a.sum.toNat + 8 * a.product.toNat)) (padTo a.product.toNat a.cycles)
        (24 + 8 * n + 16 + 8 * a.dimensions.toNat + 8 * a.sum.toNat) t (by rw [padTo_length]; omega)
      rw [padTo_length] at this
      rw [padTo_length, this]
      rfl
    · rw [Bool.not_eq_true] at hc
      simp only [hc, Bool.false_eq_true, if_false]
      rfl
  · rw [Bool.not_eq_true] at hf
    simp only [hf, Bool.false_eq_true, if_false]
    by_cases hc : (a.isDgTemplate || a.isCgTemplate) = true
    · simp only [hc, if_true]
      rw [bind_eq]
      have := getCycles_put (24 + 8 * n + (16 + 8 * a.dimensions.toNat + 8 * 0 + 8 * a.product.toNat)) (padTo a.product.toNat a.cycles)
        (24 + 8 * n + 16 + 8 * a.dimensions.toNat + 8 * ([] : List (BitVec 64)).length) t (by rw [padTo_length]; simp; omega)
      rw [padTo_length] at this
      show ((getCycles _ a.product.toNat _) _).bind _ = _
      simp only [List.nil_append]
      rw [this]
      rfl
    · rw [Bool.not_eq_true] at hc
      simp only [hc, Bool.false_eq_true, if_false]
      rfl

/-! ### Sizes -/

theorem sum_toNat (a : CaDef) : a.sum.toNat = shapeSum a.shape % 2 ^ 64 := by
  unfold CaDef.sum CaDef.shape
  have : ∀ (l : List (BitVec 64)) (s : BitVec 64),
      (l.foldl (fun s d => s + d) s).toNat = (s.toNat + shapeSum (l.map BitVec.toNat)) % 2 ^ 64 := by
    intro l
    induction l with
    | nil => intro s; simp only [List.foldl_nil, List.map_nil, shapeSum, Nat.add_zero]; exact (Nat.mod_eq_of_lt s.isLt).symm
    | cons d l ih =>
      intro s
      simp only [List.foldl_cons, List.map_cons, shapeSum]
      rw [ih, BitVec.toNat_add, Nat.mod_add_mod]
      congr 1; omega
  rw [this]; simp

theorem product_toNat (a : CaDef) : a.product.toNat = shapeProduct a.shape % 2 ^ 64 := by
  unfold CaDef.product CaDef.shape
  have : ∀ (l : List (BitVec 64)) (s : BitVec 64),
      (l.foldl (fun p d => p * if 0 < d then d else 1) s).toNat = (s.toNat * shapeProduct (l.map BitVec.toNat)) % 2 ^ 64 := by
    intro l
    induction l with
    | nil => intro s; simp only [List.foldl_nil, List.map_nil, shapeProduct, Nat.mul_one]; exact (Nat.mod_eq_of_lt s.isLt).symm
    | cons d l ih =>
      intro s
      simp only [List.foldl_cons, List.map_cons, shapeProduct]
      have e : (if 0 < d then d else 1).toNat = max d.toNat 1 := by
        by_cases h : 0 < d
        · have h' : 0 < d.toNat := by simpa [BitVec.lt_def] using h
          rw [if_pos h]; omega
        · have h' : ¬ 0 < d.toNat := by simpa [BitVec.lt_def] using h
          rw [if_neg h]
          have : (1 : BitVec 64).toNat = 1 := rfl
          omega
      rw [ih, BitVec.toNat_mul, e, Nat.mod_mul_mod, Nat.mul_assoc]
  rw [this]; simp

/-! ### The whole block -/

theorem findReferences_seg (a : CaDef) (hv : a.ValidRefs) (b : CaDef) (links : List Nat) (h : Seg links 1 a.linkValues)
    (e : b = a.values) :
    b.findReferences links = { a.values with
      dataLinks := if a.isDgTemplate then firstN a.dataLinks a.product.toNat 0 else []
      dynamicSizes := if a.hasDynamicSize then firstN a.dynamicSizes a.dimensions.toNat .none else []
      inputs := if a.hasInput then firstN a.inputs a.dimensions.toNat .none else []
      output := if a.hasOutput then a.output else .none
      comparison := if a.hasComparison then a.comparison else .none
      conversions := if a.hasAxis then firstN a.conversions a.dimensions.toNat 0 else []
      axes := if a.hasAxis ∧ ¬ a.hasFixedAxis then firstN a.axes a.dimensions.toNat .none else [] } := by
  subst e
  rw [linkValues_eq] at h
  obtain ⟨h0, h⟩ := seg_append _ _ _ _ h
  obtain ⟨h1, h⟩ := seg_append _ _ _ _ h
  obtain ⟨h2, h⟩ := seg_append _ _ _ _ h
  obtain ⟨h3, h⟩ := seg_append _ _ _ _ h
  obtain ⟨h4, h⟩ := seg_append _ _ _ _ h
  obtain ⟨h5, h6⟩ := seg_append _ _ _ _ h
  rw [seg0_length] at h1
  rw [seg0_length, seg1_length] at h2
  rw [seg0_length, seg1_length, seg2_length] at h3
  rw [seg0_length, seg1_length, seg2_length, seg3_length] at h4
  rw [seg0_length, seg1_length, seg2_length, seg3_length, seg4_length] at h5
  rw [seg0_length, seg1_length, seg2_length, seg3_length, seg4_length, seg5_length] at h6
  have g0 : (if a.isDgTemplate then (List.range a.product.toNat).map fun k => links.getD (1 + k) 0 else []) =
      if a.isDgTemplate then firstN a.dataLinks a.product.toNat 0 else [] := by
    split
    · rename_i hc; rw [CaDef.seg0, if_pos hc] at h0; exact map_seg _ _ _ _ h0
    · rfl
  unfold CaDef.findReferences
  have f0 : a.values.isDgTemplate = a.isDgTemplate := rfl
  have f1 : a.values.hasDynamicSize = a.hasDynamicSize := rfl
  have f2 : a.values.hasInput = a.hasInput := rfl
  have f3 : a.values.hasOutput = a.hasOutput := rfl
  have f4 : a.values.hasComparison = a.hasComparison := rfl
  have f5 : a.values.hasAxis = a.hasAxis := rfl
  have f6 : a.values.hasFixedAxis = a.hasFixedAxis := rfl
  have f7 : a.values.product = a.product := rfl
  have f8 : a.values.dimensions = a.dimensions := rfl
  simp only [f0, f1, f2, f3, f4, f5, f6, f7, f8]
  congr 1
  · split
    · rename_i hc; rw [CaDef.seg1, if_pos hc] at h1; exact readRefs_seg _ _ _ _ hv.dynamicSizes h1
    · rfl
  · split
    · rename_i hc; rw [CaDef.seg2, if_pos hc] at h2; exact readRefs_seg _ _ _ _ hv.inputs h2
    · rfl
  · split
    · rename_i hc; rw [CaDef.seg3, if_pos hc] at h3; exact readRef_seg _ _ _ hv.output h3
    · rfl
  · split
    · rename_i hc; rw [CaDef.seg4, if_pos hc] at h4; exact readRef_seg _ _ _ hv.comparison h4
    · rfl
  · split
    · rename_i hc; rw [CaDef.seg5, if_pos hc] at h5; exact conv_seg _ _ _ _ hv.conversions h5
    · rfl
  · split
    · rename_i hc; rw [CaDef.seg6, if_pos hc] at h6; exact readRefs_seg _ _ _ _ hv.axes h6
    · rfl

theorem linkValues_lt (a : CaDef) (hv : a.ValidRefs) : ∀ l ∈ a.linkValues, l < 2 ^ 63 := by
  have hr : ∀ (refs : List CaRef) n, (∀ r ∈ refs, r.Valid) → ∀ l ∈ refLinks refs n, l < 2 ^ 63 := by
    intro refs n h l hl
    simp only [refLinks, List.mem_flatMap, CaRef.links] at hl
    obtain ⟨i, -, hl⟩ := hl
    obtain ⟨v1, v2, v3⟩ := getD_valid refs h i
    simp only [List.mem_cons, List.not_mem_nil, or_false] at hl
    rcases hl with rfl | rfl | rfl
    · exact v1
    · exact v2
    · exact v3
  have hm : ∀ (ls : List Nat) n, (∀ r ∈ ls, r < 2 ^ 63) → ∀ l ∈ (List.range n).map (fun i => ls.getD i 0), l < 2 ^ 63 := by
    intro ls n h l hl
    simp only [List.mem_map] at hl
    obtain ⟨i, -, rfl⟩ := hl
    exact getD_lt ls h i
  have h1 : ∀ (r : CaRef), r.Valid → ∀ l ∈ r.links, l < 2 ^ 63 := by
    intro r ⟨v1, v2, v3⟩ l hl
    simp only [CaRef.links, List.mem_cons, List.not_mem_nil, or_false] at hl
    rcases hl with rfl | rfl | rfl
    · exact v1
    · exact v2
    · exact v3
  have hi : ∀ (c : Prop) [Decidable c] (ls : List Nat), (∀ l ∈ ls, l < 2 ^ 63) → ∀ l ∈ (if c then ls else []), l < 2 ^ 63 := by
    intro c _ ls h l hl
    split at hl
    · exact h l hl
    · simp at hl
  intro l hl
  rw [linkValues_eq] at hl
  simp only [List.mem_append] at hl
  rcases hl with h | h | h | h | h | h | h
  · exact hi _ _ (hm _ _ hv.dataLinks) l h
  · exact hi _ _ (hr _ _ hv.dynamicSizes) l h
  · exact hi _ _ (hr _ _ hv.inputs) l h
  · exact hi _ _ (h1 _ hv.output) l h
  · exact hi _ _ (h1 _ hv.comparison) l h
  · exact hi _ _ (hm _ _ hv.conversions) l h
  · exact hi _ _ (hr _ _ hv.axes) l h

theorem ca_type : TypeOk [0x23, 0x23, 0x43, 0x41] := by
  constructor <;> decide

theorem read_standing (a : CaDef) (hd : a.dims.length = a.dimensions.toNat) (hv : a.ValidRefs) (data : Bytes) (pos : Nat)
    (h : a.StandsAt data pos) :
    CaDef.read data pos = some { a.values with
      dataLinks := if a.isDgTemplate then firstN a.dataLinks a.product.toNat 0 else []
      dynamicSizes := if a.hasDynamicSize then firstN a.dynamicSizes a.dimensions.toNat .none else []
      inputs := if a.hasInput then firstN a.inputs a.dimensions.toNat .none else []
      output := if a.hasOutput then a.output else .none
      comparison := if a.hasComparison then a.comparison else .none
      conversions := if a.hasAxis then firstN a.conversions a.dimensions.toNat 0 else []
      axes := if a.hasAxis ∧ ¬ a.hasFixedAxis then firstN a.axes a.dimensions.toNat .none else [] } := by
  obtain ⟨links, body, next, hw, hn, hs, hat⟩ := h
  have hok : a.isDgTemplate = true → a.product.toNat ≤ a.dataLinks.length := by
    intro hc
    by_cases hlt : a.dataLinks.length < a.product.toNat
    · rw [write_fails a hc hlt] at hw; simp at hw
    · omega
  rw [write_ok a hok] at hw
  simp only [Option.some.injEq, Prod.mk.injEq] at hw
  obtain ⟨hl, hb⟩ := hw
  subst hb
  obtain ⟨h1, h2⟩ := hasAt_split hat
  have hset : links.set 0 next = next :: (a.linkValues ++ List.replicate (a.nofLinks - 1 - a.linkValues.length) 0) := by
    rw [← hl]; rfl
  have hlen : (links.set 0 next).length = links.length := List.length_set
  have hlt : ∀ l ∈ links.set 0 next, l < 2 ^ 64 := by
    rw [hset]
    intro l hm
    simp only [List.mem_cons, List.mem_append] at hm
    rcases hm with rfl | hm | hm
    · omega
    · have := linkValues_lt a hv l hm; omega
    · rw [List.eq_of_mem_replicate hm]; decide
  unfold CaDef.read
  rw [readHeader_append ca_type (by omega) (by omega) hlt h1]
  simp only [Option.bind_some]
  have hd2 := h2.drop
  rw [headerBytes_length] at hd2
  rw [hd2, hlen, getValues_body a hd]
  simp only [Option.map_some, Option.some.injEq]
  apply findReferences_seg a hv _ _ _ rfl
  intro k hk
  rw [hset]
  simp only [List.getD_eq_getElem?_getD]
  rw [show 1 + k = k + 1 by omega, List.getElem?_cons_succ, List.getElem?_append_left hk]

end Mdf
