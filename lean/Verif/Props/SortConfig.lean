import Verif.Model.SortConfig
import Verif.Props.Array
import Verif.Props.Convert

/-! C110: what a sorted file says about its groups and channels. -/

namespace Mdf
variable {D : Type}

/-! ### Spec -/

mutual
/-- A channel and all channels below it, from top to bottom. -/
def SrcCn.flat : SrcCn D → List (SrcCn D)
  | .mk core unit comment si arrays conv atts x comps => .mk core unit comment si arrays conv atts x comps :: SrcCn.flatList comps
def SrcCn.flatList : List (SrcCn D) → List (SrcCn D)
  | [] => []
  | c :: cs => c.flat ++ SrcCn.flatList cs
end

/-- What a reader needs to decode and show a channel of a group. -/
structure ChanView where
  core : CnCore
  unit : String
  comment : Option String
  si : Option SiCore
  place : Chan
deriving DecidableEq, Repr

def SrcCn.view (dataBytes : Nat) (c : SrcCn D) : ChanView := ⟨c.core, c.unit, c.comment, c.si, c.chan dataBytes⟩

/-- All channels of a group as a reader sees them. -/
def SrcCg.views (g : SrcCg D) : List ChanView := (SrcCn.flatList g.channels).map (SrcCn.view g.dataBytes)

/-- The full claim: a sorted group has the channels of its source, and each is decoded the same. -/
def C110_Statement : Prop := ∀ (D : Type) (mdf4 : Bool) (g : SrcCg D), (g.copy mdf4).views = g.views

/-! ### Which groups -/

theorem sortCgs_spec (mdf4 skip : Bool) (comment : String) : ∀ (gs : List (SrcCg D)) (n : Nat),
    (sortCgs mdf4 skip comment n gs).1 = n + (gs.filter (SrcCg.kept skip)).length ∧
    (sortCgs mdf4 skip comment n gs).2 =
      ((gs.filter (SrcCg.kept skip)).zipIdx (n + 1)).map fun p => ⟨sortedComment comment p.2, [p.1.copy mdf4]⟩ := by
  intro gs
  induction gs with
  | nil => intro n; exact ⟨rfl, rfl⟩
  | cons g gs ih =>
    intro n
    unfold sortCgs
    by_cases hk : g.kept skip = true
    · rw [if_pos hk, List.filter_cons_of_pos hk]
      obtain ⟨h1, h2⟩ := ih (n + 1)
      refine ⟨?_, ?_⟩
      · show (sortCgs mdf4 skip comment (n + 1) gs).1 = _
        rw [h1, List.length_cons]; omega
      · show _ :: (sortCgs mdf4 skip comment (n + 1) gs).2 = _
        rw [h2, List.zipIdx_cons, List.map_cons]
    · rw [if_neg hk, List.filter_cons_of_neg hk]
      exact ih n

/-- The sorted file has one data group for each group of the source that is kept, in order, with that group alone. -/
theorem C110_groups (mdf4 skip : Bool) (dgs : List (SrcDg D)) (n : Nat) :
    (sortDgs mdf4 skip n dgs).map (·.groups) = ((dgs.flatMap (·.groups)).filter (SrcCg.kept skip)).map fun g => [g.copy mdf4] := by
  induction dgs generalizing n with
  | nil => rfl
  | cons d ds ih =>
    unfold sortDgs
    simp only [List.map_append, List.flatMap_cons, List.filter_append]
    rw [ih, (sortCgs_spec mdf4 skip d.comment d.groups n).2, List.map_map]
    congr 1
    generalize d.groups.filter (SrcCg.kept skip) = l
    generalize n + 1 = m
    induction l generalizing m with
    | nil => rfl
    | cons a l ihl => rw [List.zipIdx_cons, List.map_cons, List.map_cons, ihl]; rfl

/-- Left out are VLSD groups, and groups without samples if that was asked for, no others. -/
theorem C110_kept (skip : Bool) (g : SrcCg D) : g.kept skip = false ↔ g.flags &&& 0x0001#16 ≠ 0#16 ∨ skip = true ∧ g.nof = 0 := by
  unfold SrcCg.kept
  by_cases h1 : g.flags &&& 0x0001#16 = 0#16 <;> by_cases h2 : g.nof = 0 <;> cases skip <;> simp [h1, h2]

/-- The comment of every data group is that of the source, or its number in the sorted file if it has none. -/
theorem C110_comments (mdf4 skip : Bool) (dgs : List (SrcDg D)) : ∀ (n k : Nat) (d : SrcDg D), (sortDgs mdf4 skip n dgs)[k]? = some d →
    ∃ s ∈ dgs, (s.comment ≠ "" ∧ d.comment = s.comment) ∨ (s.comment = "" ∧ d.comment = "Measurement " ++ toString (n + k + 1)) := by
  induction dgs with
  | nil => intro n k d h; cases h
  | cons s ds ih =>
    intro n k d h
    unfold sortDgs at h
    simp only at h
    obtain ⟨h1, h2⟩ := sortCgs_spec mdf4 skip s.comment s.groups n
    have hl : (sortCgs mdf4 skip s.comment n s.groups).2.length = (s.groups.filter (SrcCg.kept skip)).length := by rw [h2]; simp
    by_cases hk : k < (sortCgs mdf4 skip s.comment n s.groups).2.length
    · rw [List.getElem?_append_left hk, h2, List.getElem?_map, List.getElem?_zipIdx] at h
      refine ⟨s, List.mem_cons_self .., ?_⟩
      cases hg : (s.groups.filter (SrcCg.kept skip))[k]? with
      | none => rw [hg] at h; cases h
      | some g =>
        rw [hg] at h
        simp only [Option.map_some, Option.some.injEq] at h
        subst h
        unfold sortedComment
        by_cases he : s.comment = ""
        · right
          rw [if_pos he]
          exact ⟨he, by simp only; congr 2; omega⟩
        · left
          rw [if_neg he]
          exact ⟨he, rfl⟩
    · rw [List.getElem?_append_right (by omega)] at h
      obtain ⟨s', hs', hr⟩ := ih _ _ _ h
      refine ⟨s', List.mem_cons_of_mem _ hs', ?_⟩
      rw [h1, hl] at hr
      have e : n + (s.groups.filter (SrcCg.kept skip)).length + (k - (s.groups.filter (SrcCg.kept skip)).length) + 1 = n + k + 1 := by omega
      rw [e] at hr
      exact hr

def exSrcCg (name : String) (flags : BitVec 16) (nof : Nat) : SrcCg Rat := ⟨flags, nof, 0, 8, 0, name, none, none, []⟩

example : (sortDgs true false 0 [⟨"", [exSrcCg "a" 0 1, exSrcCg "v" 1 1, exSrcCg "b" 0 0]⟩, ⟨"x", [exSrcCg "c" 0 1]⟩]).map
    (fun d => (d.comment, d.groups.map (·.name))) = [("Measurement 1", ["a"]), ("Measurement 2", ["b"]), ("x", ["c"])] := by decide +kernel

/-! ### Which channels -/

theorem copied_product (a : CaDef) : a.copied.product = a.product := rfl

/-- The values per sample of a copied channel: those of the arrays without references. -/
theorem arraySizeOf_copy (as : List CaDef) : arraySizeOf (copyArrays as) = arraySizeOf (as.filter fun a => !a.hasRef) := by
  unfold arraySizeOf copyArrays
  rw [List.foldl_map]
  rfl

/-- No array of the channel or of a channel below it has references to other blocks. -/
def SrcCn.NoRefs (cs : List (SrcCn D)) : Prop := ∀ c ∈ SrcCn.flatList cs, ∀ a ∈ c.arrays, a.hasRef = false

theorem copy_view (n : Nat) (c : SrcCn D) (h : ∀ a ∈ c.arrays, a.hasRef = false) : c.copy.view n = c.view n := by
  obtain ⟨core, unit, comment, si, arrays, conv, atts, x, comps⟩ := c
  have hf : arrays.filter (fun a => !a.hasRef) = arrays := List.filter_eq_self.mpr fun a ha => by rw [h a ha]; rfl
  unfold SrcCn.view SrcCn.chan
  rw [SrcCn.copy]
  simp only [SrcCn.core, SrcCn.unit, SrcCn.comment, SrcCn.si, SrcCn.arrays, arraySizeOf_copy, hf]
  rfl

mutual
theorem flat_copy : ∀ c : SrcCn D, c.copy.flat = c.flat.map SrcCn.copy
  | .mk core unit comment si arrays conv atts x comps => by
    rw [SrcCn.copy, SrcCn.flat, SrcCn.flat, List.map_cons, SrcCn.copy, flatList_copy comps]
theorem flatList_copy : ∀ cs : List (SrcCn D), SrcCn.flatList (SrcCn.copyList cs) = (SrcCn.flatList cs).map SrcCn.copy
  | [] => by rw [SrcCn.copyList, SrcCn.flatList]; rfl
  | c :: cs => by rw [SrcCn.copyList, SrcCn.flatList, SrcCn.flatList, List.map_append, flat_copy c, flatList_copy cs]
end

theorem copyList_map (cs : List (SrcCn D)) : cs.map SrcCn.copy = SrcCn.copyList cs := by
  induction cs with
  | nil => rw [SrcCn.copyList]; rfl
  | cons c cs ih => rw [SrcCn.copyList, List.map_cons, ih]

/-- For MDF 4 files without arrays that refer to other blocks, the sorted group has the same channels in the same order, and each has
the same place in the record.  Missing: MDF 3 files and other arrays. -/
theorem C110_channels_partial (g : SrcCg D) (h : SrcCn.NoRefs g.channels) :
    (g.copy true).views = g.views ∧ (g.copy true).dataBytes = g.dataBytes ∧ (g.copy true).invalidBytes = g.invalidBytes ∧
    (g.copy true).name = g.name ∧ (g.copy true).comment = g.comment ∧ (g.copy true).si = g.si ∧ (g.copy true).flags = g.flags := by
  refine ⟨?_, rfl, rfl, rfl, rfl, rfl, rfl⟩
  show (SrcCn.flatList (g.channels.map SrcCn.copy)).map (SrcCn.view g.dataBytes) = _
  rw [copyList_map, flatList_copy, List.map_map]
  exact List.map_congr_left fun c hc => copy_view _ c (h c hc)

/-- So the value of every channel is the same in every record, whatever function of the channel's place reads it. -/
theorem C110_values_partial {α : Type} (g : SrcCg D) (h : SrcCn.NoRefs g.channels) (read : Chan → Bytes → α) (record : Bytes) :
    (SrcCn.flatList (g.copy true).channels).map (fun c => read (c.chan (g.copy true).dataBytes) record) =
      (SrcCn.flatList g.channels).map (fun c => read (c.chan g.dataBytes) record) := by
  have := congrArg (List.map fun v => read v.place record) (C110_channels_partial g h).1
  unfold SrcCg.views at this
  rw [List.map_map, List.map_map] at this
  exact this

def exCore (name : String) : CnCore := { CnCore.new with bitCount := 16, name := name }

def exLeaf (name : String) (arrays : List CaDef) : SrcCn Rat := .mk (exCore name) "V" none none arrays none [] none []

example : SrcCn.NoRefs [exLeaf "a" [CaDef.new.setShape [3]]] := by
  intro c hc a ha
  simp [SrcCn.flatList, SrcCn.flat, exLeaf] at hc
  subst hc
  simp [SrcCn.arrays] at ha
  subst ha
  decide

/-- All channels are there in all MDF 4 files, with all but the arrays; the arrays that refer to other blocks are gone. -/
theorem C110_channels_all (g : SrcCg D) :
    SrcCn.flatList (g.copy true).channels = (SrcCn.flatList g.channels).map SrcCn.copy ∧
    ∀ c : SrcCn D, c.copy.core = c.core ∧ c.copy.unit = c.unit ∧ c.copy.comment = c.comment ∧ c.copy.si = c.si ∧
      c.copy.arrays = (c.arrays.filter fun a => !a.hasRef).map CaDef.copied := by
  refine ⟨?_, ?_⟩
  · show SrcCn.flatList (g.channels.map SrcCn.copy) = _
    rw [copyList_map, flatList_copy]
  · intro c
    obtain ⟨core, unit, comment, si, arrays, conv, atts, x, comps⟩ := c
    rw [SrcCn.copy]
    exact ⟨rfl, rfl, rfl, rfl, rfl⟩

/-- Every array with an axis that is read from a file counts as one with references, even if the axis is fixed and nothing is linked. -/
theorem C110_axis_refs (a : CaDef) (links : List Nat) (hx : a.hasAxis = true) (hd : 0 < a.dimensions.toNat) :
    (a.findReferences links).hasRef = true := by
  have : ((a.findReferences links).conversions).isEmpty = false := by
    unfold CaDef.findReferences
    simp only [hx, if_true]
    rw [List.isEmpty_eq_false_iff]
    intro h
    have := congrArg List.length h
    simp at this
    omega
  unfold CaDef.hasRef
  rw [this]
  simp

example : ({ CaDef.new with flags := 0x30#32 } : CaDef).setShape [4] |>.hasAxis := by decide

/-- So in the sorted file a channel with such an array has one value per sample, the first one. -/
theorem C110_array_lost (c : SrcCn D) (h : ∀ a ∈ c.arrays, a.hasRef = true) (n : Nat) : (c.copy.chan n).arraySize = 1 := by
  have he : c.copy.arrays = [] := by
    obtain ⟨core, unit, comment, si, arrays, conv, atts, x, comps⟩ := c
    rw [SrcCn.copy]
    show copyArrays arrays = []
    unfold copyArrays
    rw [List.filter_eq_nil_iff.mpr fun a ha => by rw [h a ha]; simp]
    rfl
  unfold SrcCn.chan
  simp only [he]
  rfl

def exAxis : CaDef := { CaDef.new.setShape [3] with flags := 0x30#32, conversions := [0] }

example : ((exLeaf "a" [exAxis]).chan 6).arraySize = 3 ∧ ((exLeaf "a" [exAxis]).copy.chan 6).arraySize = 1 := by
  refine ⟨by decide, C110_array_lost _ ?_ 6⟩
  intro a ha
  simp [exLeaf, SrcCn.arrays] at ha
  subst ha
  decide

/-- An MDF 3 file: the sorted file has the same number of channels, all without name and of zero bits, in records of zero bytes. -/
theorem C110_mdf3 (g : SrcCg D) : (g.copy false).channels = g.channels.map (fun _ => SrcCn.new) ∧ (g.copy false).dataBytes = 0 ∧
    ∀ c ∈ (g.copy false).channels, c.core.name = "" ∧ c.core.bitCount = 0 ∧ c.conv.isNone := by
  refine ⟨rfl, rfl, ?_⟩
  intro c hc
  obtain ⟨_, _, rfl⟩ := List.mem_map.mp (show c ∈ g.channels.map (fun _ => SrcCn.new) from hc)
  exact ⟨rfl, rfl, rfl⟩

/-- C110 is false of the code, for MDF 3 files and for arrays with an axis. -/
theorem C110_false : ¬ C110_Statement := by
  intro h
  have := congrArg (List.map fun v => v.core.name) (h Rat false ⟨0, 0, 0, 2, 0, "", none, none, [exLeaf "a" []]⟩)
  simp [SrcCg.views, SrcCg.copy, SrcCn.flatList, SrcCn.flat, SrcCn.view, SrcCn.core, exLeaf, SrcCn.new, CnCore.new, exCore] at this

theorem C110_false_mdf4 : ¬ ∀ (D : Type) (g : SrcCg D), (g.copy true).views = g.views := by
  intro h
  have := congrArg (List.map fun v => v.place.arraySize) (h Rat ⟨0, 0, 0, 2, 0, "", none, none, [exLeaf "a" [exAxis]]⟩)
  have e1 := C110_array_lost (exLeaf "a" [exAxis]) (fun a ha => by simp [exLeaf, SrcCn.arrays] at ha; subst ha; decide) 2
  have e2 : ((exLeaf "a" [exAxis]).chan 2).arraySize = 3 := by decide
  simp only [SrcCg.views, SrcCg.copy, if_true, List.map_cons, List.map_nil, SrcCn.flatList, SrcCn.flat, exLeaf, SrcCn.copy, SrcCn.copyList,
    List.append_nil, SrcCn.view, List.cons.injEq, and_true] at this
  simp only [exLeaf, SrcCn.copy, SrcCn.copyList] at e1 e2
  omega

/-- The X channel of a channel: in the sorted file it is always the master of the group. -/
theorem C110_x_lost (g : SrcCg D) (c : SrcCn D) :
    (g.copy true).xChannel c.copy = (g.channels.find? fun m => m.core.type = .master || m.core.type = .virtualMaster).map fun m => m.core.name := by
  have hx : c.copy.x = none := by
    obtain ⟨core, unit, comment, si, arrays, conv, atts, x, comps⟩ := c
    rw [SrcCn.copy]; rfl
  have hcore : ∀ m : SrcCn D, m.copy.core = m.core := fun m => ((C110_channels_all g).2 m).1
  unfold SrcCg.xChannel
  rw [hx]
  simp only [ite_self]
  show (List.find? _ (g.channels.map SrcCn.copy)).map _ = _
  rw [List.find?_map]
  simp only [Function.comp_def, hcore, Option.map_map]

/-- It is the same as before for channels that have no X channel of their own. -/
theorem C110_x_partial (g : SrcCg D) (c : SrcCn D) (h : c.x = none) : (g.copy true).xChannel c.copy = g.xChannel c := by
  rw [C110_x_lost]
  unfold SrcCg.xChannel
  rw [h]
  simp

section
variable [Zero D] [One D] [Add D] [Sub D] [Mul D] [Div D] [LinearOrder D]

/-- A conversion to numbers is there if there was one, also its inverse, and converts all values as before; one that makes texts of
numbers gives none (C32). -/
theorem C110_conversion (ofNat : Nat → D) (fmt : D → Nat → String) (c : SrcCn D) (cc : Conv D) (inv : Option (Conv D)) (h : c.conv = some (cc, inv)) :
    ∃ cc' inv', c.copy.conv = some (cc', inv') ∧ inv' = inv.map Conv.copy4 ∧
      (cc.type ≠ .valueToText ∧ cc.type ≠ .rangeToText → ∀ x, cc'.convert ofNat x = cc.convert ofNat x ∧ cc'.toText ofNat fmt x = cc.toText ofNat fmt x) ∧
      (cc.type = .valueToText ∨ cc.type = .rangeToText → ∀ x, cc'.toText ofNat fmt x = .ok none) := by
  obtain ⟨core, unit, comment, si, arrays, conv, atts, x, comps⟩ := c
  simp only [SrcCn.conv] at h
  subst h
  refine ⟨cc.copy4, inv.map Conv.copy4, by rw [SrcCn.copy]; rfl, rfl, ?_, ?_⟩
  · intro hc x; exact C32_copy_numbers_partial ofNat fmt cc hc x
  · intro hc x; exact C32_copy_to_text ofNat fmt cc hc x

example : (SrcCn.mk (exCore "a") "V" none none [] (some (Conv.mk .linear 2 [.num (1 : Rat), .num 2] 0 0 .nil, none)) [] none [] : SrcCn Rat).copy.conv.isSome := rfl

end

/-! ### What the parts of the description say -/

/-- Which arrays count as having references: those with any list or link of references that is not empty. -/
theorem C110_refs (a : CaDef) : a.hasRef = true ↔ a.dataLinks ≠ [] ∨ a.dynamicSizes ≠ [] ∨ a.inputs ≠ [] ∨ a.output ≠ .none ∨ a.comparison ≠ .none ∨
    a.conversions ≠ [] ∨ a.axes ≠ [] := by
  unfold CaDef.hasRef
  simp [or_assoc, List.isEmpty_iff]

/-- An array without references is copied as it is, all of it. -/
theorem C110_array_kept (a : CaDef) (h : a.hasRef = false) : a.copied = a := by
  have h' : ¬ (a.dataLinks ≠ [] ∨ a.dynamicSizes ≠ [] ∨ a.inputs ≠ [] ∨ a.output ≠ .none ∨ a.comparison ≠ .none ∨ a.conversions ≠ [] ∨ a.axes ≠ []) := by
    rw [← C110_refs, h]; simp
  obtain ⟨t, st, d, f, bb, ib, ds, av, cy, dl, dy, inp, out, cmp, cv, ax⟩ := a
  simp only [not_or, not_not] at h'
  obtain ⟨rfl, rfl, rfl, rfl, rfl, rfl, rfl⟩ := h'
  rfl

/-- So the arrays of a channel, if none has references, are all kept. -/
theorem C110_arrays_kept (c : SrcCn D) (h : ∀ a ∈ c.arrays, a.hasRef = false) : c.copy.arrays = c.arrays := by
  obtain ⟨core, unit, comment, si, arrays, conv, atts, x, comps⟩ := c
  rw [SrcCn.copy]
  show copyArrays arrays = arrays
  unfold copyArrays
  rw [List.filter_eq_self.mpr fun a ha => by rw [h a ha]; rfl]
  exact (List.map_congr_left fun a ha => C110_array_kept a (h a ha)).trans (List.map_id _)

example : (CaDef.new.setShape [3, 4]).copied = CaDef.new.setShape [3, 4] := C110_array_kept _ (by decide)

/-- The place of a channel in the record; the validity bit counts if bit 1 of the flags is set. -/
theorem C110_place (n : Nat) (c : SrcCn D) : (c.chan n).type = c.core.type ∧ (c.chan n).dataType = c.core.dataType ∧
    (c.chan n).byteOffset = c.core.byteOffset ∧ (c.chan n).bitOffset = c.core.bitOffset ∧ (c.chan n).bitCount = c.core.bitCount ∧
    (c.chan n).invalidFlag = c.core.flags.getLsbD 1 ∧ (c.chan n).invalidPos = c.core.invalidPos ∧ (c.chan n).nofDataBytes = n := by
  refine ⟨rfl, rfl, rfl, rfl, rfl, ?_, rfl, rfl⟩
  unfold SrcCn.chan
  simp only
  generalize c.core.flags = f
  have e : f &&& 0x0002#32 = if f.getLsbD 1 then 2#32 else 0#32 := by
    apply BitVec.eq_of_getLsbD_eq
    intro i hi
    have h2 : (2#32).getLsbD i = decide (i = 1) := by
      revert i; decide
    rw [BitVec.getLsbD_and, h2]
    by_cases hi1 : i = 1
    · subst hi1; cases f.getLsbD 1 <;> simp
    · cases f.getLsbD 1 <;> simp [hi1, h2]
  rw [e]
  cases f.getLsbD 1 <;> decide

/-- The X channel of a channel of the source that has one set. -/
theorem C110_x_source (g : SrcCg D) (c : SrcCn D) (n : String) (hf : c.core.flags.getLsbD 12 = true) (hx : c.x = some n) :
    g.xChannel c = some n := by
  unfold SrcCg.xChannel
  rw [if_pos, hx]
  intro h
  have := congrArg (fun v => v.getLsbD 12) h
  simp at this
  rw [BitVec.getLsbD_eq_getElem (by omega), this] at hf
  cases hf

/-- In the sorted file it is another one (here: none). -/
example : let c : SrcCn Rat := .mk { exCore "a" with flags := 0x1000#32 } "" none none [] none [] (some "x") []
    let g : SrcCg Rat := ⟨0, 0, 0, 2, 0, "", none, none, [c]⟩
    g.xChannel c = some "x" ∧ (g.copy true).xChannel c.copy = none := by
  refine ⟨C110_x_source _ _ _ (by decide) rfl, ?_⟩
  rw [C110_x_lost]; rfl

/-- Sample counters start at zero, and a group of an MDF 3 file gives a group without any setting. -/
theorem C110_counters (g : SrcCg D) (m : Bool) : (g.copy m).nof = 0 ∧ (g.copy true).separator = g.separator ∧
    (g.copy false).flags = 0 ∧ (g.copy false).invalidBytes = 0 ∧ (g.copy false).separator = 0 ∧ (g.copy false).name = "" ∧
    ∀ c ∈ (g.copy false).channels, c.core = ⟨.fixedLength, 0, .unsignedLe, 0, 0, 0, 0, 0, 0, [0, 0, 0, 0, 0, 0], ""⟩ ∧ c.comps.length = 0 := by
  refine ⟨by cases m <;> rfl, rfl, rfl, rfl, rfl, rfl, ?_⟩
  intro c hc
  obtain ⟨_, _, rfl⟩ := List.mem_map.mp (show c ∈ g.channels.map (fun _ => SrcCn.new) from hc)
  exact ⟨rfl, rfl⟩

end Mdf
