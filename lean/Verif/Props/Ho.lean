import Verif.Proof.HoSpec

/-!
**C93**: the computation method in the comment of a conversion is read as it was set.

**C94**: the unit specification in the comment of the header is read as it was set.
-/

namespace Mdf

/-! ## C93 -/

/-- **C93**: a computation method that is written with the comment of a conversion and read again is the same, but for blanks around its texts. -/
def C93_Statement : Prop := ∀ c : CcCom, c.Good → (({} : CcCom).fromXml c.toXml).method = c.method.trimmed

/-- **C93** (partial: its names are lost, and so are the validity of a computation, a limit without a number, and a category alone; numbers have six
digits).  The other parts of the comment are read as those of any comment. -/
theorem C93_read_partial (c : CcCom) (hg : c.Good) : ∃ r, ({} : CcCom).fromXml c.toXml = r ∧ r.com = c.com.readBack ∧
    (¬ c.method.Bare → c.method.Kept r.method) ∧ (c.method.Bare → r.method = {}) := by
  refine ⟨_, ccCom_read hg, rfl, ?_, ?_⟩
  · intro h
    rw [bare_iff] at h
    show HoMethod.Kept _ (if c.method.isActive = true then _ else _)
    rw [if_pos (by simpa using h)]
    exact method_kept _
  · intro h
    rw [bare_iff] at h
    show (if c.method.isActive = true then _ else _) = _
    rw [if_neg (by simp [h])]

/-- "km" -/
def exKm : Bytes := [0x6B#8, 0x6D#8]

theorem exKm_line : PlainLine exKm := by unfold PlainLine; decide

theorem exKm_text : PlainText exKm := by unfold PlainText; decide

/-- A text that is a name. -/
theorem exKm_name : GoodName exKm := ⟨by decide, by decide, exKm_line⟩

theorem noNames_good : ({} : HoNames).Good := ⟨plainText_nil, by simp, by simp⟩

theorem exKm_names : ({ short := exKm } : HoNames).Good := ⟨exKm_text, by simp, by simp⟩

theorem emptyCom_good : ({} : MdCom).Good := empty_com_good

/-- The short name of a method is lost. -/
theorem C93_names_lost : (({} : CcCom).fromXml ({ method := { names := { short := exKm } } } : CcCom).toXml).method.names = {} := by
  rw [ccCom_read ⟨emptyCom_good, exKm_names, plainLine_nil, by simp, by simp⟩]
  rfl

/-- A category is lost if nothing else is set. -/
theorem C93_category_lost : (({} : CcCom).fromXml ({ method := { category := .linear } } : CcCom).toXml).method.category = .identical := by
  rw [ccCom_read ⟨emptyCom_good, noNames_good, plainLine_nil, by simp, by simp⟩]
  rfl

/-- The validity of a computation is lost: what was not valid is valid. -/
theorem C93_validity_lost : ∃ r, (({} : CcCom).fromXml ({ method := { scales := [{ constr := { valid := .notValid } }] } } : CcCom).toXml).method.scales = [r] ∧
    r.constr.valid = .valid := by
  rw [ccCom_read ⟨emptyCom_good, noNames_good, plainLine_nil, by simp [HoScale.Good, plainText_nil], by simp⟩]
  exact ⟨_, rfl, rfl⟩

/-- A limit at infinity is lost. -/
theorem C93_infinite_lost :
    (({} : CcCom).fromXml ({ method := { phys := [{ lower := { type := .infinite } }], unitRef := exKm } } : CcCom).toXml).method.phys = [] := by
  rw [ccCom_read ⟨emptyCom_good, noNames_good, exKm_line, by simp, by simp⟩]
  rfl

/-- The full statement fails. -/
theorem C93_full_statement_fails : ¬ C93_Statement := by
  intro h
  have e := h { method := { names := { short := exKm } } } ⟨emptyCom_good, exKm_names, plainLine_nil, by simp, by simp⟩
  have e2 := C93_names_lost
  rw [e] at e2
  exact absurd e2 (by decide)

/-- The words of the kinds are told apart. -/
theorem C93_words : (∀ x : HoIvType, HoIvType.ofWord x.word = x) ∧ (∀ x : HoValid, HoValid.ofWord x.word = x) ∧
    (∀ x : HoCategory, HoCategory.ofWord x.word = x) ∧ ∀ x : HoGroupCategory, HoGroupCategory.ofWord x.word = x := by
  refine ⟨?_, ?_, ?_, ?_⟩ <;> (intro x; cases x <;> decide)

/-- A method with every part. -/
def exMethod : HoMethod where
  names := { short := exKm }
  category := .scaleLinear
  unitRef := exKm
  phys := [{ lower := { limit := some 1, type := .open_ }, valid := .notDefined }]
  scales := [{ num := [1, 2], den := [1], math := exKm, constr := { upper := { limit := some 2 } } }, { constText := some exKm }]
  defNum := some 0

theorem exMethod_good : ({ method := exMethod } : CcCom).Good := by
  refine ⟨emptyCom_good, exKm_names, exKm_line, ?_, by simp [exMethod]⟩
  intro s hs
  simp only [exMethod, List.mem_cons, List.not_mem_nil, or_false] at hs
  rcases hs with rfl | rfl
  · exact ⟨by simp, by simp, exKm_text⟩
  · exact ⟨by simp, by simp [exKm_text], plainText_nil⟩

/-- Its parts are read. -/
example : ∃ r, ({} : CcCom).fromXml ({ method := exMethod } : CcCom).toXml = r ∧ r.method.category = .scaleLinear ∧ r.method.unitRef = exKm ∧
    r.method.phys.length = 1 ∧ r.method.scales.length = 2 ∧ exMethod.Kept r.method := by
  obtain ⟨r, h1, _, h3, _⟩ := C93_read_partial _ exMethod_good
  have h := h3 (by rw [HoMethod.Bare]; decide)
  refine ⟨r, h1, h.2.1, h.2.2.1, ?_, ?_, h⟩
  · rw [← h1, ccCom_read exMethod_good]
    rfl
  · rw [← h1, ccCom_read exMethod_good]
    rfl

/-! ## C94 -/

/-- **C94**: a unit specification that is written with the comment of the header and read again is the same, but for blanks around its texts. -/
def C94_Statement : Prop := ∀ h : HdFull, h.hd.Good → h.units.Good → (({} : HdFull).fromXml h.toXml).units = h.units.trimmed

theorem allRel_of_map {α β : Type} {R : α → β → Prop} {f : α → β} (h : ∀ a, R a (f a)) : ∀ l : List α, AllRel R l (l.map f)
  | [] => trivial
  | a :: l => ⟨h a, allRel_of_map h l⟩

/-- **C94** (partial: the names of units and dimensions are lost, and two of the seven exponents of a dimension; numbers have six digits).  The
revisions and the unit groups are the same.  The other parts of the comment are read as if there was no unit specification. -/
theorem C94_read_partial (h : HdFull) (hg : h.hd.Good) (hu : h.units.Good) : ∃ r, ({} : HdFull).fromXml h.toXml = r ∧
    r.hd = ({} : HdCom).fromXml h.hd.toXml ∧ r.units.revisions = h.units.trimmed.revisions ∧ r.units.groups = h.units.trimmed.groups ∧
    AllRel HoUnit.Kept h.units.units r.units.units ∧ AllRel HoDim.Kept h.units.dims r.units.dims := by
  refine ⟨_, hdFull_read hg hu, ?_, rfl, rfl, allRel_of_map unit_kept _, allRel_of_map dim_kept _⟩
  rw [hd_read hg]

theorem optRel_find {α : Type} {R : α → α → Prop} {f : α → α} (h : ∀ a, R a (f a)) (p : α → Bool) (hp : ∀ a, p (f a) = p a) (l : List α) :
    OptRel R (l.find? p) ((l.map f).find? p) := by
  rw [List.find?_map]
  have e : p ∘ f = p := funext hp
  rw [e]
  cases l.find? p with
  | none => trivial
  | some a => exact h a

theorem optRel_some {α β : Type} {R : α → β → Prop} {a : α} {o : Option β} (h : OptRel R (some a) o) {P : β → Prop} (hp : ∀ b, R a b → P b) :
    ∃ b, o = some b ∧ P b := by
  cases o with
  | none => exact h.elim
  | some b => exact ⟨b, rfl, hp b h⟩

/-- Whatever calls made the specification: after it was written and read, an identity gives what was added first with this identity, and all the
revisions are there, in the order of the calls. -/
theorem C94_added_partial (ops : List HoOp) (ho : ∀ o ∈ ops, o.Good) (hd : HdCom) (hg : hd.Good) (r : HdFull)
    (hr : r = ({} : HdFull).fromXml ({ hd := hd, units := HoSpec.run ops } : HdFull).toXml) :
    (∀ k, OptRel HoUnit.Kept (ops.findSome? (HoOp.unitOf k)) (r.units.units.find? fun u => u.id == k)) ∧
    (∀ k, OptRel HoDim.Kept (ops.findSome? (HoOp.dimOf k)) (r.units.dims.find? fun d => d.id == k)) ∧
    (∀ k, (r.units.groups.find? fun g => g.names.short == k) = (ops.findSome? (HoOp.groupOf k)).map HoGroup.trimmed) ∧
    r.units.revisions = (ops.filterMap HoOp.revisionOf).map HoRev.trimmed := by
  have hs : (HoSpec.run ops).Good := run_spec_good empty_spec_good ho
  rw [hdFull_read (h := ⟨hd, HoSpec.run ops⟩) hg hs] at hr
  subst hr
  refine ⟨fun k => ?_, fun k => ?_, fun k => ?_, ?_⟩
  · have e := run_unit k (s := {}) empty_spec_good ho
    rw [show ({} : HoSpec).units = [] from rfl, List.find?_nil, Option.none_or] at e
    rw [← e]
    exact optRel_find unit_kept _ (fun _ => rfl) _
  · have e := run_dim k (s := {}) empty_spec_good ho
    rw [show ({} : HoSpec).dims = [] from rfl, List.find?_nil, Option.none_or] at e
    rw [← e]
    exact optRel_find dim_kept _ (fun _ => rfl) _
  · have e := run_group k (s := {}) empty_spec_good ho
    rw [show ({} : HoSpec).groups = [] from rfl, List.find?_nil, Option.none_or] at e
    rw [← e]
    show ((HoSpec.run ops).groups.map HoGroup.trimmed).find? _ = _
    rw [List.find?_map]
    congr 1
    have hn : ∀ g ∈ (HoSpec.run ops).groups, g.trimmed.names.short = g.names.short := fun g hg => (hs.2.2.1 g hg).2.1.2.1
    show (HoSpec.run ops).groups.find? _ = (HoSpec.run ops).groups.find? _
    revert hn
    generalize (HoSpec.run ops).groups = gs
    intro hn
    induction gs with
    | nil => rfl
    | cons g gs ih =>
      rw [List.find?_cons, List.find?_cons, ih (fun x hx => hn x (by simp [hx])), Function.comp, hn g (by simp)]
  · have e := run_revision (ops := ops) (s := {})
    show (ops.foldl HoOp.apply {}).revisions.map HoRev.trimmed = _
    rw [e]
    rfl

theorem empty_hd_good : ({} : HdCom).Good := run_hd_good (ops := []) (h := {}) (by
    refine ⟨⟨hd_std_good, plainText_nil⟩, ?_, rfl, rfl, rfl, ⟨hd_std_good, plainText_nil⟩, by simp, List.Pairwise.nil⟩
    show MdTree.empty.Good
    rw [MdTree.empty, MdTree.Good]
    exact ⟨hd_std_good, rfl, plainLine_nil, plainLine_nil, by simp, List.Pairwise.nil, trivial, List.Pairwise.nil, trivial, List.Pairwise.nil,
      by simp, List.Pairwise.nil, by simp, by simp⟩) (by simp)

/-- The short name of a unit is lost. -/
theorem C94_unit_names_lost : ∃ r, (({} : HdFull).fromXml ({ units := { units := [{ id := exKm, names := { short := exKm } }] } } : HdFull).toXml).units.units =
    [r] ∧ r.id = exKm ∧ r.names = {} := by
  rw [hdFull_read (h := { units := { units := [{ id := exKm, names := { short := exKm } }] } }) empty_hd_good ⟨by simp, by simp, by simp, by simp [HoUnit.Good, exKm_names, exKm_name, plainText_nil], List.Pairwise.nil, List.Pairwise.nil,
    List.pairwise_singleton _ _⟩]
  exact ⟨_, rfl, rfl, rfl⟩

/-- Two exponents of a dimension are lost: they are written with the names that the standard gives them, and are read with others. -/
theorem C94_exponents_lost : ∃ r, (({} : HdFull).fromXml ({ units := { dims := [{ id := exKm, length := 1, molar := 1, luminous := 1 }] } } : HdFull).toXml).units.dims =
    [r] ∧ r.molar = 0 ∧ r.luminous = 0 := by
  rw [hdFull_read (h := { units := { dims := [{ id := exKm, length := 1, molar := 1, luminous := 1 }] } }) empty_hd_good ⟨by simp, by simp [HoDim.Good, noNames_good, exKm_name], by simp, by simp, List.pairwise_singleton _ _, List.Pairwise.nil,
    List.Pairwise.nil⟩]
  exact ⟨_, rfl, rfl, rfl⟩

/-- The full statement fails. -/
theorem C94_full_statement_fails : ¬ C94_Statement := by
  intro h
  have e := h { units := { dims := [{ id := exKm, length := 1, molar := 1, luminous := 1 }] } } empty_hd_good
    ⟨by simp, by simp [HoDim.Good, noNames_good, exKm_name], by simp, by simp, List.pairwise_singleton _ _, List.Pairwise.nil, List.Pairwise.nil⟩
  obtain ⟨r, h1, h2, _⟩ := C94_exponents_lost
  rw [e] at h1
  have h3 : [HoDim.trimmed { id := exKm, length := 1, molar := 1, luminous := 1 }] = [r] := h1
  rw [List.cons.injEq] at h3
  rw [← h3.1] at h2
  exact absurd h2 (by decide +kernel)

/-- Two units, one of them twice, a dimension, a group and a revision. -/
def exHoOps : List HoOp :=
  [.unit { id := exKm, factor := 1000, display := exKm }, .unit { id := exKm, factor := 2 }, .unit { id := [0x6D#8] }, .dim { id := exKm, length := 1 },
   .group { names := { short := exKm }, category := .equivUnits, refs := [exKm] }, .revision { label := exKm, mods := [{ change := exKm }] }]

theorem exHoOps_good : ∀ o ∈ exHoOps, o.Good := by
  intro o ho
  simp only [exHoOps, List.mem_cons, List.not_mem_nil, or_false] at ho
  rcases ho with rfl | rfl | rfl | rfl | rfl | rfl
  · exact ⟨noNames_good, exKm_name, exKm_text, plainText_nil⟩
  · exact ⟨noNames_good, exKm_name, plainText_nil, plainText_nil⟩
  · exact ⟨noNames_good, ⟨by decide, by decide, by unfold PlainLine; decide⟩, plainText_nil, plainText_nil⟩
  · exact ⟨noNames_good, exKm_name⟩
  · exact ⟨exKm_names, exKm_name, List.pairwise_singleton _ _, by intro r hr; rw [List.mem_singleton] at hr; subst hr; exact ⟨by decide, exKm_line⟩⟩
  · exact ⟨plainLine_nil, exKm_text, plainText_nil, plainText_nil, by simp, by simp [exKm_text, plainText_nil]⟩

theorem exHoOps_first : exHoOps.findSome? (HoOp.unitOf exKm) = some { id := exKm, factor := 1000, display := exKm } := rfl

/-- The unit that was added first is found. -/
example (r : HdFull) (hr : r = ({} : HdFull).fromXml ({ hd := {}, units := HoSpec.run exHoOps } : HdFull).toXml) : 
    ∃ u, r.units.units.find? (fun u => u.id == exKm) = some u ∧ ReadReal 1000 u.factor ∧ u.display = exKm := by
  have h := (C94_added_partial exHoOps exHoOps_good {} empty_hd_good r hr).1 exKm
  rw [exHoOps_first] at h
  exact optRel_some h fun u h => ⟨h.2.2.2.1, h.2.2.1⟩

example : (HoSpec.run exHoOps).units.length = 2 := rfl

end Mdf
