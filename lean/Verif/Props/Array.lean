import Verif.Proof.Array
import Verif.Props.Block
import Verif.Spec.Channel

/-!
# Channel arrays

C68: the definition of an array is read back.  C69: the elements of an array are where the definition says.
-/

namespace Mdf

/-! ## C68 -/

/-- The full property: an array whose shape was set, with whatever values and references, can be written, and every reader of the file
gets the values set.  It is false, see `C68_data_links_missing` and `C68_too_many_dimensions`. -/
def C68_Statement : Prop :=
  ∀ (a : CaDef) (dims : List (BitVec 64)), (a.setShape dims).ValidRefs →
    shapeSum (a.setShape dims).shape < 2 ^ 64 → shapeProduct (a.setShape dims).shape < 2 ^ 64 →
    (a.setShape dims).write ≠ none ∧
    ∀ data pos, (a.setShape dims).StandsAt data pos → ∃ r, CaDef.read data pos = some r ∧ ReadAs (a.setShape dims) r

theorem readAs_of (a : CaDef) (hd : a.dims.length = a.dimensions.toNat) (hs : shapeSum a.shape < 2 ^ 64)
    (hp : shapeProduct a.shape < 2 ^ 64) :
    ReadAs a { a.values with
      dataLinks := if a.isDgTemplate then firstN a.dataLinks a.product.toNat 0 else []
      dynamicSizes := if a.hasDynamicSize then firstN a.dynamicSizes a.dimensions.toNat .none else []
      inputs := if a.hasInput then firstN a.inputs a.dimensions.toNat .none else []
      output := if a.hasOutput then a.output else .none
      comparison := if a.hasComparison then a.comparison else .none
      conversions := if a.hasAxis then firstN a.conversions a.dimensions.toNat 0 else []
      axes := if a.hasAxis ∧ ¬ a.hasFixedAxis then firstN a.axes a.dimensions.toNat .none else [] } := by
  have es : a.sum.toNat = shapeSum a.shape := by rw [sum_toNat, Nat.mod_eq_of_lt hs]
  have ep : a.product.toNat = shapeProduct a.shape := by rw [product_toNat, Nat.mod_eq_of_lt hp]
  have hcount : (a.isDgTemplate || a.isCgTemplate) = true ↔ a.counts := by
    simp only [CaDef.isDgTemplate, CaDef.isCgTemplate, CaDef.counts, Bool.or_eq_true, decide_eq_true_eq]
    exact or_comm
  have f : ∀ {b : Bool}, b = false → ¬ b = true := fun h => by rw [h]; decide
  refine ⟨rfl, rfl, rfl, rfl, rfl, rfl, rfl, ?_, ?_, ?_, ?_, ?_, ?_, ?_, ?_, ?_, ?_, ?_, ?_, ?_, ?_, ?_, ?_, ?_, ?_⟩
  · intro h; simp only [CaDef.values]; rw [if_pos ((hasFixedAxis_iff a).2 h), es]; rfl
  · intro h; simp only [CaDef.values]; rw [if_neg (fun hc => f h ((hasFixedAxis_iff a).1 hc))]
  · intro h; simp only [CaDef.values]; rw [if_pos (hcount.2 h), ep]; rfl
  · intro h; simp only [CaDef.values]; rw [if_neg (fun hc => h (hcount.1 hc))]
  · intro h; simp only []; rw [if_pos (by simp [CaDef.isDgTemplate, h]), ep]
  · intro h; simp only []; rw [if_neg (by simp [CaDef.isDgTemplate, h])]
  · intro h; simp only []; rw [if_pos ((hasDynamicSize_iff a).2 h), hd]
  · intro h; simp only []; rw [if_neg (fun hc => f h ((hasDynamicSize_iff a).1 hc))]
  · intro h; simp only []; rw [if_pos ((hasInput_iff a).2 h), hd]
  · intro h; simp only []; rw [if_neg (fun hc => f h ((hasInput_iff a).1 hc))]
  · intro h; simp only []; rw [if_pos ((hasOutput_iff a).2 h)]
  · intro h; simp only []; rw [if_neg (fun hc => f h ((hasOutput_iff a).1 hc))]
  · intro h; simp only []; rw [if_pos ((hasComparison_iff a).2 h)]
  · intro h; simp only []; rw [if_neg (fun hc => f h ((hasComparison_iff a).1 hc))]
  · intro h; simp only []; rw [if_pos ((hasAxis_iff a).2 h), hd]
  · intro h; simp only []; rw [if_neg (fun hc => f h ((hasAxis_iff a).1 hc))]
  · intro h h5; simp only []
    rw [if_pos ⟨(hasAxis_iff a).2 h, fun hc => f h5 ((hasFixedAxis_iff a).1 hc)⟩, hd]
  · intro h; simp only []
    rw [if_neg (fun hc => h ⟨(hasAxis_iff a).1 hc.1, by
      cases h5 : a.flags.getLsbD 5 with
      | false => rfl
      | true => exact absurd ((hasFixedAxis_iff a).2 h5) hc.2⟩)]

/-- C68, proved part: an array with at most 65535 dimensions that stands in a file is read back, in every file, at every place, whatever
array follows it. -/
theorem C68_array_read_back_partial (a : CaDef) (dims : List (BitVec 64)) (hn : dims.length < 2 ^ 16)
    (hv : (a.setShape dims).ValidRefs) (hs : shapeSum (a.setShape dims).shape < 2 ^ 64)
    (hp : shapeProduct (a.setShape dims).shape < 2 ^ 64) (data : Bytes) (pos : Nat) (h : (a.setShape dims).StandsAt data pos) :
    ∃ r, CaDef.read data pos = some r ∧ ReadAs (a.setShape dims) r := by
  have hd : (a.setShape dims).dims.length = (a.setShape dims).dimensions.toNat := by
    simp only [CaDef.setShape, BitVec.toNat_ofNat]
    rw [Nat.mod_eq_of_lt hn]
  exact ⟨_, read_standing _ hd hv data pos h, readAs_of _ hd hs hp⟩

/-- An array can be written exactly if its data blocks are not needed or there is a link for each of them. -/
theorem C68_can_be_written (a : CaDef) (hp : shapeProduct a.shape < 2 ^ 64) :
    a.write ≠ none ↔ (a.storage = 2#8 → shapeProduct a.shape ≤ a.dataLinks.length) := by
  have ep : a.product.toNat = shapeProduct a.shape := by rw [product_toNat, Nat.mod_eq_of_lt hp]
  have hi : a.isDgTemplate = true ↔ a.storage = 2#8 := by simp [CaDef.isDgTemplate]
  constructor
  · intro h hst
    by_cases hlt : a.dataLinks.length < a.product.toNat
    · exact absurd (write_fails a (hi.2 hst) hlt) h
    · omega
  · intro h
    rw [write_ok a (fun hc => by rw [ep]; exact h (hi.1 hc))]
    simp

theorem resizeTo_length {α : Type} (l : List α) (n : Nat) (x : α) : (resizeTo l n x).length = n := by
  simp only [resizeTo, List.length_append, List.length_take, List.length_replicate]; omega

/-- The parts of an array that `growAxis` and so on keep. -/
theorem growAxis_keeps (a : CaDef) : a.growAxis.dims = a.dims ∧ a.growAxis.isDgTemplate = a.isDgTemplate ∧ a.growAxis.product = a.product ∧
    a.growAxis.dataLinks = a.dataLinks := by
  unfold CaDef.growAxis; split <;> exact ⟨rfl, rfl, rfl, rfl⟩

theorem fitAxis_keeps (a : CaDef) : a.fitAxis.dims = a.dims ∧ a.fitAxis.isDgTemplate = a.isDgTemplate ∧ a.fitAxis.product = a.product ∧
    a.fitAxis.dataLinks = a.dataLinks := by
  unfold CaDef.fitAxis; split <;> exact ⟨rfl, rfl, rfl, rfl⟩

theorem growCycles_keeps (a : CaDef) : a.growCycles.dims = a.dims ∧ a.growCycles.isDgTemplate = a.isDgTemplate ∧ a.growCycles.product = a.product ∧
    a.growCycles.dataLinks = a.dataLinks := by
  unfold CaDef.growCycles; split <;> exact ⟨rfl, rfl, rfl, rfl⟩

theorem fitCycles_keeps (a : CaDef) : a.fitCycles.dims = a.dims ∧ a.fitCycles.isDgTemplate = a.isDgTemplate ∧ a.fitCycles.product = a.product ∧
    a.fitCycles.dataLinks = a.dataLinks := by
  unfold CaDef.fitCycles; split <;> exact ⟨rfl, rfl, rfl, rfl⟩

theorem resizeArrays_keeps (a : CaDef) : a.resizeArrays.dims = a.dims ∧ a.resizeArrays.isDgTemplate = a.isDgTemplate ∧
    a.resizeArrays.product = a.product ∧
    a.resizeArrays.dataLinks = if a.isDgTemplate then resizeTo a.dataLinks a.product.toNat 0 else a.dataLinks := by
  unfold CaDef.resizeArrays
  obtain ⟨h1, h2, h3, h4⟩ := fitCycles_keeps a.fitRefs.growAxis.fitAxis.growCycles
  obtain ⟨i1, i2, i3, i4⟩ := growCycles_keeps a.fitRefs.growAxis.fitAxis
  obtain ⟨j1, j2, j3, j4⟩ := fitAxis_keeps a.fitRefs.growAxis
  obtain ⟨k1, k2, k3, k4⟩ := growAxis_keeps a.fitRefs
  rw [h1, h2, h3, h4, i1, i2, i3, i4, j1, j2, j3, j4, k1, k2, k3, k4]
  exact ⟨rfl, rfl, rfl, rfl⟩

/-- After the data links were asked for, or after `ResizeArrays`, every array can be written. -/
theorem C68_prepared_can_be_written (a : CaDef) : a.growDataLinks.write ≠ none ∧ a.resizeArrays.write ≠ none := by
  constructor
  · have hg : a.growDataLinks.isDgTemplate = true → a.growDataLinks.product.toNat ≤ a.growDataLinks.dataLinks.length := by
      unfold CaDef.growDataLinks
      by_cases hc : a.isDgTemplate = true ∧ a.dataLinks.length < a.product.toNat
      · rw [if_pos hc]
        intro _
        show a.product.toNat ≤ _
        rw [resizeTo_length]
        exact Nat.le_refl _
      · rw [if_neg hc]
        intro h
        have := not_and.1 hc h
        omega
    rw [write_ok _ hg]; simp
  · have hg : a.resizeArrays.isDgTemplate = true → a.resizeArrays.product.toNat ≤ a.resizeArrays.dataLinks.length := by
      obtain ⟨-, e1, e2, e3⟩ := resizeArrays_keeps a
      rw [e1, e2, e3]
      intro h
      rw [if_pos h, resizeTo_length]
      exact Nat.le_refl _
    rw [write_ok _ hg]; simp

theorem resizeTo_firstN {α : Type} (l : List α) (n : Nat) (x : α) : resizeTo l n x = firstN l n x := by
  apply List.ext_getElem?
  intro i
  simp only [resizeTo, firstN, List.getElem?_map]
  by_cases hi : i < n
  · rw [List.getElem?_range hi]
    simp only [Option.map_some]
    by_cases hl : i < l.length
    · rw [List.getElem?_append_left (by rw [List.length_take]; omega), List.getElem?_take_of_lt hi, List.getD_eq_getElem?_getD,
        List.getElem?_eq_getElem hl]
      rfl
    · rw [List.getElem?_append_right (by rw [List.length_take]; omega), List.length_take, List.getElem?_replicate,
        if_pos (by omega), List.getD_eq_getElem?_getD, List.getElem?_eq_none (by omega)]
      rfl
  · rw [List.getElem?_eq_none (by rw [List.length_append, List.length_take, List.length_replicate]; omega),
      List.getElem?_eq_none (by rw [List.length_range]; omega)]
    rfl

theorem resizeTo_resizeTo {α : Type} (l : List α) (n : Nat) (x : α) : resizeTo (resizeTo l n x) n x = resizeTo l n x := by
  have h := resizeTo_length l n x
  generalize resizeTo l n x = r at h ⊢
  rw [resizeTo, h, Nat.sub_self, List.replicate_zero, List.append_nil, List.take_of_length_le (by omega)]

/-- `ResizeArrays` gives every list that the flags and the storage ask for as many entries as the shape asks for; the values set are kept, the other lists
too. -/
structure FittedAs (a r : CaDef) : Prop where
  same : r.type = a.type ∧ r.storage = a.storage ∧ r.flags = a.flags ∧ r.dims = a.dims ∧ r.dimensions = a.dimensions ∧ r.output = a.output ∧
    r.comparison = a.comparison ∧ r.conversions = a.conversions ∧ r.byteBase = a.byteBase ∧ r.invalidBase = a.invalidBase
  axis : r.axisValues = if a.flags.getLsbD 5 then firstN a.axisValues (shapeSum a.shape) 0 else a.axisValues
  cycles : (a.counts → r.cycles = firstN a.cycles (shapeProduct a.shape) 0) ∧ (¬ a.counts → r.cycles = a.cycles)
  dataLinks : r.dataLinks = if a.storage = 2#8 then firstN a.dataLinks (shapeProduct a.shape) 0 else a.dataLinks
  dynamicSizes : r.dynamicSizes = if a.flags.getLsbD 0 then firstN a.dynamicSizes a.dims.length .none else a.dynamicSizes
  inputs : r.inputs = if a.flags.getLsbD 1 then firstN a.inputs a.dims.length .none else a.inputs
  axes : r.axes = if a.flags.getLsbD 4 ∧ a.flags.getLsbD 5 = false then firstN a.axes a.dims.length .none else a.axes

theorem fitAxis_growAxis (a : CaDef) : a.growAxis.fitAxis = a.fitAxis := by
  unfold CaDef.growAxis
  split
  · rename_i h
    unfold CaDef.fitAxis
    have e1 : ({ a with axisValues := resizeTo a.axisValues a.sum.toNat 0 } : CaDef).hasFixedAxis = a.hasFixedAxis := rfl
    have e2 : ({ a with axisValues := resizeTo a.axisValues a.sum.toNat 0 } : CaDef).sum = a.sum := rfl
    rw [e1, e2, if_pos h.1, if_pos h.1]
    simp only [resizeTo_resizeTo]
  · rfl

theorem fitCycles_growCycles (a : CaDef) : a.growCycles.fitCycles = a.fitCycles := by
  unfold CaDef.growCycles
  split
  · rename_i h
    unfold CaDef.fitCycles
    have e1 : ({ a with cycles := resizeTo a.cycles a.product.toNat 0 } : CaDef).isDgTemplate = a.isDgTemplate := rfl
    have e2 : ({ a with cycles := resizeTo a.cycles a.product.toNat 0 } : CaDef).isCgTemplate = a.isCgTemplate := rfl
    have e3 : ({ a with cycles := resizeTo a.cycles a.product.toNat 0 } : CaDef).product = a.product := rfl
    rw [e1, e2, e3, if_pos h.1, if_pos h.1]
    simp only [resizeTo_resizeTo]
  · rfl

theorem C68_resized (a : CaDef) (hd : a.dims.length = a.dimensions.toNat) (hs : shapeSum a.shape < 2 ^ 64) (hp : shapeProduct a.shape < 2 ^ 64) :
    FittedAs a a.resizeArrays := by
  have es : a.sum.toNat = shapeSum a.shape := by rw [sum_toNat, Nat.mod_eq_of_lt hs]
  have ep : a.product.toNat = shapeProduct a.shape := by rw [product_toNat, Nat.mod_eq_of_lt hp]
  have e : a.resizeArrays = a.fitRefs.fitAxis.fitCycles := by
    unfold CaDef.resizeArrays
    rw [fitAxis_growAxis, fitCycles_growCycles]
  have k1 : ∀ b : CaDef, b.fitCycles = { b with cycles := if b.isDgTemplate || b.isCgTemplate then resizeTo b.cycles b.product.toNat 0 else b.cycles } := by
    intro b; unfold CaDef.fitCycles; split <;> rfl
  have k2 : ∀ b : CaDef, b.fitAxis = { b with axisValues := if b.hasFixedAxis then resizeTo b.axisValues b.sum.toNat 0 else b.axisValues } := by
    intro b; unfold CaDef.fitAxis; split <;> rfl
  rw [e, k1, k2]
  have f1 : a.fitRefs.hasFixedAxis = a.hasFixedAxis := rfl
  have f2 : a.fitRefs.sum = a.sum := rfl
  have hDg : (a.isDgTemplate = true) = (a.storage = 2#8) := by simp [CaDef.isDgTemplate]
  have hCt : (a.isDgTemplate || a.isCgTemplate) = true ↔ a.counts := by simp [CaDef.isDgTemplate, CaDef.isCgTemplate, CaDef.counts, or_comm]
  refine ⟨⟨rfl, rfl, rfl, rfl, rfl, rfl, rfl, rfl, rfl, rfl⟩, ?_, ⟨fun h => ?_, fun h => ?_⟩, ?_, ?_, ?_, ?_⟩
  · show (if a.hasFixedAxis then resizeTo a.axisValues a.sum.toNat 0 else a.axisValues) = _
    rw [resizeTo_firstN, es]
    simp only [hasFixedAxis_iff]
  · show (if a.isDgTemplate || a.isCgTemplate then resizeTo a.cycles a.product.toNat 0 else a.cycles) = _
    rw [if_pos (hCt.2 h), resizeTo_firstN, ep]
  · show (if a.isDgTemplate || a.isCgTemplate then resizeTo a.cycles a.product.toNat 0 else a.cycles) = _
    rw [if_neg (fun hc => h (hCt.1 hc))]
  · show (if a.isDgTemplate then resizeTo a.dataLinks a.product.toNat 0 else a.dataLinks) = _
    rw [resizeTo_firstN, ep]
    simp only [hDg]
  · show (if a.hasDynamicSize then resizeTo a.dynamicSizes a.dimensions.toNat .none else a.dynamicSizes) = _
    rw [resizeTo_firstN, ← hd]
    simp only [hasDynamicSize_iff]
  · show (if a.hasInput then resizeTo a.inputs a.dimensions.toNat .none else a.inputs) = _
    rw [resizeTo_firstN, ← hd]
    simp only [hasInput_iff]
  · show (if a.hasAxis ∧ ¬ a.hasFixedAxis then resizeTo a.axes a.dimensions.toNat .none else a.axes) = _
    rw [resizeTo_firstN, ← hd]
    simp only [hasAxis_iff, hasFixedAxis_iff, Bool.not_eq_true]

/-- The number of values of an array is the product of its dimensions, as long as it fits 64 bits. -/
theorem C68_number_of_values (a : CaDef) (dims : List (BitVec 64)) (h : shapeProduct (dims.map BitVec.toNat) < 2 ^ 64) :
    (a.setShape dims).product.toNat = shapeProduct (dims.map BitVec.toNat) := by
  rw [product_toNat]
  exact Nat.mod_eq_of_lt h

/-- The values per sample of a channel (`ArraySize`) are the same after reading; `f` is what is read of each array. -/
theorem C68_array_size_kept (as : List CaDef) (f : CaDef → CaDef) (h : ∀ a ∈ as, ReadAs a (f a)) : arraySizeOf (as.map f) = arraySizeOf as := by
  have : ∀ (s : BitVec 64), (as.map f).foldl (fun n a => n * a.product) s = as.foldl (fun n a => n * a.product) s := by
    induction as with
    | nil => intro s; rfl
    | cons a as ih =>
      intro s
      simp only [List.map_cons, List.foldl_cons]
      rw [ih (fun x hx => h x (List.mem_cons_of_mem _ hx))]
      congr 2
      unfold CaDef.product
      rw [(h a List.mem_cons_self).shape]
  exact this 1

/-- An array whose block object is in a file stands there: whatever else was written, and whatever array its link 0 leads to. -/
theorem C68_stands_in_file {I : Nat → Info} {S : FileSt} {file : Bytes} (h : Opened S file) (ops : List BOp) (ha : AllowedRun I S ops)
    (id : Nat) (hpos : 0 < (S.run I ops).pos id) (hty : (I id).ty = [0x23, 0x23, 0x43, 0x41]) (hupd : (I id).upd = [])
    (hsize : (S.run I ops).data.length < 2 ^ 63) (a : CaDef) (links : List Nat) (next : Nat) (hn : next < 2 ^ 63)
    (hw : a.write = some (links, ((S.run I ops).st id).body)) (hl : ((S.run I ops).st id).links = links.set 0 next) :
    a.StandsAt (S.run I ops).data ((S.run I ops).pos id) := by
  have hm := (brun_inv (I := I) S ops h.inv (by rw [h.data]; exact h.ne) ha).1.mirror id hpos
  have hlen : ((S.run I ops).st id).links.length = links.length := by rw [hl]; exact List.length_set
  have hin := hm.inside
  have hsz : (S.run I ops).size id = 24 + 8 * links.length + ((S.run I ops).st id).body.length := by
    unfold FileSt.size; rw [hlen]
  refine ⟨links, _, next, hw, hn, by omega, ?_⟩
  have hh := hm.header
  rw [hm.len, hsz, hty, hl] at hh
  intro i hi
  by_cases h1 : i < (headerBytes [0x23, 0x23, 0x43, 0x41] (24 + 8 * links.length + ((S.run I ops).st id).body.length) (links.set 0 next)).length
  · rw [List.getElem?_append_left h1]; exact hh i h1
  · rw [List.getElem?_append_right (by omega)]
    rw [headerBytes_length] at h1 ⊢
    rw [List.length_append, headerBytes_length] at hi
    have e : (links.set 0 next).length = links.length := List.length_set
    rw [e] at h1 hi ⊢
    have := hm.body (i - (24 + 8 * links.length)) (by omega) (by rintro ⟨r, hr, -⟩; rw [hupd] at hr; simp at hr)
    rw [hlen] at this
    rw [← this]
    congr 1; omega

/-- The full property is false: an array stored in data groups (`DgTemplate`) of which nobody asked for the data links cannot be written;
the exception ends the writing of the file. -/
theorem C68_data_links_missing : (({ CaDef.new with storage := 2#8 }).setShape [2, 3]).write = none := by decide +kernel

theorem C68_statement_false : ¬ C68_Statement := fun h =>
  (h { CaDef.new with storage := 2#8 } [2, 3] (by
    constructor <;> (first | (intro l hl; cases hl) | exact ⟨by decide, by decide, by decide⟩)) (by decide +kernel) (by decide +kernel)).1
    C68_data_links_missing

theorem body_no_dims (dims : List (BitVec 64)) (h : BitVec.ofNat 16 dims.length = 0) : (CaDef.new.setShape dims).body = (CaDef.new.setShape []).body := by
  have key : ∀ ds : List (BitVec 64), BitVec.ofNat 16 ds.length = 0 → (CaDef.new.setShape ds).body =
      putNum (n := 1) 0#8 ++ (putNum (n := 1) 0#8 ++ (putNum (n := 2) 0#16 ++ (putNum (n := 4) 0#32 ++ (putNum (n := 4) 0#32 ++ (putNum (n := 4) 0#32))))) := by
    intro ds hz
    have h1 : (CaDef.new.setShape ds).hasFixedAxis = false := by
      show decide (0#32 &&& 0x0020#32 ≠ 0#32) = false
      decide
    have h2 : (CaDef.new.setShape ds).isDgTemplate = false := by
      show decide (0#8 = 2#8) = false
      decide
    have h3 : (CaDef.new.setShape ds).isCgTemplate = false := by
      show decide (0#8 = 1#8) = false
      decide
    have h4 : (CaDef.new.setShape ds).dimensions = 0#16 := hz
    have h5 : padTo (0#16).toNat (CaDef.new.setShape ds).dims = [] := rfl
    unfold CaDef.body
    rw [h1, h2, h3, h4, h5]
    simp only [Bool.or_self, Bool.false_eq_true, if_false, putNums, List.append_nil]
    rfl
  rw [key dims h, key [] rfl]

theorem write_no_dims (dims : List (BitVec 64)) : (CaDef.new.setShape dims).write = some ([0], (CaDef.new.setShape dims).body) := by
  have h : (CaDef.new.setShape dims).isDgTemplate = true → (CaDef.new.setShape dims).product.toNat ≤ (CaDef.new.setShape dims).dataLinks.length := by
    intro hc
    exact absurd (show decide (0#8 = 2#8) = true from hc) (by decide)
  have f0 : ∀ m : BitVec 32, decide (0#32 &&& m ≠ 0#32) = false := fun m => by rw [BitVec.zero_and]; rfl
  have h1 : (CaDef.new.setShape dims).isDgTemplate = false := show decide (0#8 = 2#8) = false by decide
  have h2 : (CaDef.new.setShape dims).hasDynamicSize = false := f0 _
  have h3 : (CaDef.new.setShape dims).hasInput = false := f0 _
  have h4 : (CaDef.new.setShape dims).hasOutput = false := f0 _
  have h5 : (CaDef.new.setShape dims).hasComparison = false := f0 _
  have h6 : (CaDef.new.setShape dims).hasAxis = false := f0 _
  have hl : (CaDef.new.setShape dims).linkValues = [] := by
    unfold CaDef.linkValues
    rw [h1, h2, h3, h4, h5, h6]
    rfl
  have hn : (CaDef.new.setShape dims).nofLinks = 1 := by
    unfold CaDef.nofLinks
    rw [h1, h2, h3, h4, h5, h6]
    rfl
  rw [write_ok _ h, hl, hn]
  rfl

/-- The full property is false: of 65536 dimensions none is read back. -/
theorem C68_too_many_dimensions (dims : List (BitVec 64)) (hd : dims.length = 65536) (data : Bytes) (pos : Nat)
    (h : (CaDef.new.setShape dims).StandsAt data pos) : ∃ r, CaDef.read data pos = some r ∧ r.dims = [] := by
  obtain ⟨links, body, next, hw, hn, hs, hat⟩ := h
  have hbody := body_no_dims dims (by rw [hd]; decide)
  have hw2 : (CaDef.new.setShape []).write = some (links, body) := by
    rw [write_no_dims] at hw
    rw [← hw, hbody, write_no_dims]
  have hv : (CaDef.new.setShape []).ValidRefs := by
    constructor <;> (first | (intro l hl; cases hl) | exact ⟨by decide, by decide, by decide⟩)
  have := read_standing (CaDef.new.setShape []) rfl hv data pos ⟨links, body, next, hw2, hn, hs, hat⟩
  exact ⟨_, this, rfl⟩

/-- An array of 2 by 3 values, stored in channel groups, with fixed axes of which four values are set and a comparison quantity. -/
def exMatrix : CaDef :=
  { CaDef.new with
    type := 2#8, storage := 1#8, flags := 0x38#32, axisValues := [1, 2, 3, 4], cycles := [7, 8], comparison := ⟨800, 640, 512⟩,
    conversions := [400] }

theorem exMatrix_valid : (exMatrix.setShape [2, 3]).ValidRefs := by
  constructor
  · intro l hl; cases hl
  · intro l hl; cases hl
  · intro l hl; cases hl
  · exact ⟨by decide, by decide, by decide⟩
  · exact ⟨by decide, by decide, by decide⟩
  · intro l hl
    have : l = 400 := by simpa [exMatrix, CaDef.setShape] using hl
    omega
  · intro l hl; cases hl

example : (exMatrix.setShape [2, 3]).write.map (·.1) = some [0, 800, 640, 512, 400, 0] := by decide +kernel

example : FittedAs (exMatrix.setShape [2, 3]) (exMatrix.setShape [2, 3]).resizeArrays ∧
    (exMatrix.setShape [2, 3]).resizeArrays.cycles = [7, 8, 0, 0, 0, 0] :=
  ⟨C68_resized _ rfl (by decide +kernel) (by decide +kernel), by decide +kernel⟩

/-- It stands in a file. -/
theorem exMatrix_stands (pre post : Bytes) :
    (exMatrix.setShape [2, 3]).StandsAt (pre ++ (headerBytes [0x23, 0x23, 0x43, 0x41]
      (24 + 8 * 6 + (exMatrix.setShape [2, 3]).body.length) [4096, 800, 640, 512, 400, 0] ++ (exMatrix.setShape [2, 3]).body) ++ post) pre.length := by
  refine ⟨[0, 800, 640, 512, 400, 0], (exMatrix.setShape [2, 3]).body, 4096, by decide +kernel, by decide, by decide +kernel, ?_⟩
  intro i hi
  rw [List.append_assoc, List.getElem?_append_right (by omega), show pre.length + i - pre.length = i by omega]
  exact List.getElem?_append_left hi

/-- The values read back: the axes are filled up with zeros, the counters too. -/
example (pre post : Bytes) : ∃ r, CaDef.read (pre ++ (headerBytes [0x23, 0x23, 0x43, 0x41]
      (24 + 8 * 6 + (exMatrix.setShape [2, 3]).body.length) [4096, 800, 640, 512, 400, 0] ++ (exMatrix.setShape [2, 3]).body) ++ post) pre.length = some r ∧
      r.dims = [2, 3] ∧ r.axisValues = [1, 2, 3, 4, 0] ∧ r.cycles = [7, 8, 0, 0, 0, 0] ∧ r.comparison = ⟨800, 640, 512⟩ ∧ r.conversions = [400, 0] := by
  obtain ⟨r, hr, ha⟩ := C68_array_read_back_partial exMatrix [2, 3] (by decide) exMatrix_valid (by decide +kernel) (by decide +kernel) _ _ (exMatrix_stands pre post)
  exact ⟨r, hr, ha.shape, ha.axis (by decide +kernel), ha.cycles (Or.inl rfl), ha.comparison (by decide +kernel), ha.conversions (by decide +kernel)⟩

/-! ## C69 -/

/-- Where the file says element `i` is: the channel of one value that starts `i` times the byte offset base further on, with the validity
bit `i` times the base of the validity bits further on (ASAM MDF 4, CA block with CN template storage). -/
def Chan.elementAt (c : Chan) (a : CaDef) (i : Nat) : Chan :=
  { c with byteOffset := c.byteOffset + i * a.byteBase.toNat, invalidPos := c.invalidPos + i * a.invalidBase.toNat, arraySize := 1 }

/-- The positions fit the arithmetic of the program. -/
def Chan.ElementOk (c : Chan) (a : CaDef) (i : Nat) : Prop :=
  c.WellTyped ∧ 8 * (c.byteOffset + i * a.byteBase.toNat) + c.bitOffset < 2 ^ 32 ∧ c.nofDataBytes + (c.invalidPos + i * a.invalidBase.toNat) < 2 ^ 32

/-- The full property: an element is read from where the file says.  It is false for the values, see `C69_stride_is_ignored`, and for the
validity even of the arrays the program writes itself, see `C69_own_validity_base_is_wrong`. -/
def C69_Statement : Prop :=
  ∀ (c : Chan) (a : CaDef) (i : Nat) (record : Bytes), c.ElementOk a i →
    c.getUnsigned record i = (c.elementAt a i).getUnsigned record 0 ∧ c.getSigned record i = (c.elementAt a i).getSigned record 0 ∧
    c.getFloatBits record i = (c.elementAt a i).getFloatBits record 0 ∧ c.getValid record i = (c.elementAt a i).getValid record 0

theorem elementAt_bitPos (c : Chan) (a : CaDef) (i : Nat) (h : c.ElementOk a i) (hb : 8 * a.byteBase.toNat = c.bitCount) :
    c.bitPos i = (c.elementAt a i).bitPos 0 := by
  obtain ⟨hw, hp, -⟩ := h
  have e : i * c.bitCount = 8 * (i * a.byteBase.toNat) := by rw [← hb]; simp only [Nat.mul_left_comm]
  unfold Chan.bitPos Chan.elementAt
  simp only [Nat.zero_mul]
  rw [e]
  generalize i * a.byteBase.toNat = k at *
  obtain ⟨h1, h2, h3⟩ := hw
  omega

/-- C69, values, proved part: if the values follow each other without gaps, as in the arrays the program writes (`C69_own_arrays_have_no_gaps`), each is
read from where the file says. -/
theorem C69_values_partial (c : Chan) (a : CaDef) (i : Nat) (record : Bytes) (h : c.ElementOk a i) (hb : 8 * a.byteBase.toNat = c.bitCount) :
    c.getUnsigned record i = (c.elementAt a i).getUnsigned record 0 ∧ c.getSigned record i = (c.elementAt a i).getSigned record 0 ∧
    c.getFloatBits record i = (c.elementAt a i).getFloatBits record 0 := by
  have hp := elementAt_bitPos c a i h hb
  have hr : c.rangeCheck i = (c.elementAt a i).rangeCheck 0 := by
    unfold Chan.rangeCheck
    rw [hp]; rfl
  refine ⟨?_, ?_, ?_⟩
  · unfold Chan.getUnsigned; rw [hr, hp]; rfl
  · unfold Chan.getSigned; rw [hr, hp]; rfl
  · unfold Chan.getFloatBits; rw [hr, hp]; rfl

/-- The base the program writes for values of whole bytes is the size of a value. -/
theorem C69_own_arrays_have_no_gaps (a : CaDef) (bits : BitVec 32) (h : bits.toNat % 8 = 0) : 8 * (a.prepare bits).byteBase.toNat = bits.toNat := by
  unfold CaDef.prepare
  have e1 : bits % 8 = 0#32 := by
    apply BitVec.eq_of_toNat_eq
    rw [BitVec.toNat_umod]
    exact h
  simp only [e1]
  rw [if_neg (by decide), show bits / 8 + 0 = bits / 8 from BitVec.add_zero _, BitVec.toNat_udiv]
  show 8 * (bits.toNat / 8) = _
  omega

/-- C69, validity, proved part: if the file gives each element its own bit, in order. -/
theorem C69_validity_partial (c : Chan) (a : CaDef) (i : Nat) (record : Bytes) (hb : a.invalidBase = 1) :
    c.getValid record i = (c.elementAt a i).getValid record 0 := by
  unfold Chan.getValid Chan.elementAt
  have : (1 : BitVec 32).toNat = 1 := rfl
  simp only [hb, this, Nat.mul_one, Nat.add_zero]

/-- The full property is false: values of one byte at every second byte, as another program may store them. -/
theorem C69_stride_is_ignored :
    ∃ (c : Chan) (a : CaDef) (record : Bytes), c.ElementOk a 1 ∧ (c.elementAt a 1).getUnsigned record 0 = .ok 3 ∧ c.getUnsigned record 1 = .ok 2 := by
  refine ⟨⟨.fixedLength, .unsignedLe, 0, 0, 8, false, 0, 4, 2⟩, { CaDef.new with byteBase := 2 }, [1, 2, 3, 4], ?_, ?_, ?_⟩
  · exact ⟨by decide, by decide, by decide⟩
  · decide +kernel
  · decide +kernel

theorem C69_statement_false : ¬ C69_Statement := by
  intro h
  obtain ⟨c, a, record, ho, h1, h2⟩ := C69_stride_is_ignored
  have := (h c a 1 record ho).1
  rw [h1, h2] at this
  exact absurd this (by decide)

/-- The full property is false: the program writes zero as base of the validity bits, which says that all elements share one bit.
But it gives each its own: element 1 set invalid is valid for a program that follows the file. -/
theorem C69_own_validity_base_is_wrong :
    ∃ (c : Chan) (buf buf' : Bytes), c.setUnsignedLe 5 false 1 buf = some buf' ∧ c.getValid buf' 1 = false ∧
      (c.elementAt (CaDef.new.prepare 8) 1).getValid buf' 0 = true := by
  refine ⟨⟨.fixedLength, .unsignedLe, 0, 0, 8, true, 0, 2, 2⟩, [1, 2, 0], [1, 5, 2], ?_, ?_, ?_⟩ <;> decide +kernel

example : Chan.ElementOk ⟨.fixedLength, .unsignedLe, 3, 0, 16, true, 4, 9, 3⟩ (CaDef.new.prepare 16) 2 ∧ 8 * (CaDef.new.prepare 16).byteBase.toNat = 16 :=
  ⟨⟨by decide +kernel, by decide +kernel, by decide +kernel⟩, by decide +kernel⟩

end Mdf
