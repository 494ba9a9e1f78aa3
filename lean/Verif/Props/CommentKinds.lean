import Verif.Proof.CommentKinds
import Verif.Props.Comment
import Verif.Props.Number

/-!
**C87**: the comments of channels, events, file history, sources and units are read as they were written.
-/

namespace Mdf

/-- **C87**: what is read of a comment that was written has the text, the alternative names, the formula and the common properties of the comment,
and its own parts. -/
def C87_Statement : Prop :=
  (∀ c : CnCom, c.Good → ∃ r, ({} : CnCom).fromXml c.toXml = r ∧ r.com = c.com.readBack ∧ r.monotony = c.monotony ∧
    ReadText c.linkerName r.linkerName ∧ ReadNum .hex c.linkerAddress r.linkerAddress ∧ ReadNum .decimal c.raster r.raster ∧
    ReadNum .hex c.address r.address) ∧
  (∀ c : EvCom, c.Good → ∃ r, ({} : EvCom).fromXml c.toXml = r ∧ r.com = c.com.readBack ∧
    ReadNum .float c.pre r.pre ∧ ReadNum .float c.post r.post ∧ ReadNum .float c.timeout r.timeout) ∧
  (∀ c : FhCom, c.Good → ∃ r, ({} : FhCom).fromXml c.toXml = r ∧ r.com = c.com.readBack ∧
    ReadText c.toolId r.toolId ∧ ReadText c.toolVendor r.toolVendor ∧ ReadText c.toolVersion r.toolVersion ∧ ReadText c.userName r.userName) ∧
  (∀ c : SiCom, c.Good → ∃ r, ({} : SiCom).fromXml c.toXml = r ∧ r.com = c.com.readBack ∧
    r.path = c.path.readBack ∧ r.bus = c.bus.readBack ∧ ReadText c.protocol r.protocol) ∧
  ∀ (c : CcUn) (block : Bytes), c.Good → block = bCC ∨ block = bCN → ∃ r, ({} : CcUn).fromXml (c.toXml block) = r ∧ r.com = c.com.readBack ∧
    r.unitRef.text = trim c.unitRef.text

/-! ## What is kept -/

theorem readText_readAs (s : MdStr) (hs : s.Good) : ReadText s s.readAs := by
  rw [ReadText, MdStr.readAs]
  split
  · rfl
  · refine ⟨?_, rfl⟩
    show s.std.readBack [] = s.std
    exact std_same hs.1

/-- **C87** (channels): everything is read; of its numbers the text and the attributes C86 names. -/
theorem C87_channel (c : CnCom) (hc : c.Good) : ∃ r, ({} : CnCom).fromXml c.toXml = r ∧ r.com = c.com.readBack ∧ r.monotony = c.monotony ∧
    ReadText c.linkerName r.linkerName ∧ (c.linkerName.text ≠ [] → r.linkerName.offset.getD 0 = c.linkerName.offset.getD 0) ∧
    ReadNum .hex c.linkerAddress r.linkerAddress ∧ ReadNum .decimal c.raster r.raster ∧ ReadNum .hex c.address r.address := by
  refine ⟨_, cn_read hc, rfl, rfl, ?_, ?_, readNum_readAs _ _, readNum_readAs _ _, readNum_readAs _ _⟩
  · rw [ReadText, MdStr.linkerBack]
    split
    · rfl
    · exact ⟨std_same hc.2.1.1, rfl⟩
  · intro hne
    show c.linkerName.linkerBack.offset.getD 0 = _
    rw [MdStr.linkerBack, if_neg hne]
    show (c.linkerName.offset.filter (· > 0)).getD 0 = _
    cases c.linkerName.offset with
    | none => rfl
    | some o => cases o <;> rfl

/-- An address given as a number of another type has the same value: as it is set, and as it is read. -/
theorem C87_address (c : CnCom) (v : Nat) (t : MdType) (hv : v < 2 ^ 64) (hc : c.Good) :
    ((c.setLinkerAddress (.ofU64 v t)).setAddress (.ofU64 v t)).Good ∧
    ∀ r, ({} : CnCom).fromXml ((c.setLinkerAddress (.ofU64 v t)).setAddress (.ofU64 v t)).toXml = r → r.linkerAddress.u64 = v ∧ r.address.u64 = v := by
  have hn : ({ MdNum.ofU64 v t with type := .hex } : MdNum).Good := ofU64_good v t _
  have hg : ((c.setLinkerAddress (.ofU64 v t)).setAddress (.ofU64 v t)).Good := ⟨hc.1, hc.2.1, hc.2.2.1, hn, hc.2.2.2.2.1, hn⟩
  refine ⟨hg, ?_⟩
  rintro r rfl
  rw [cn_read hg]
  exact ⟨readAs_u64 v t .hex hv, readAs_u64 v t .hex hv⟩

/-- **C87** (events): everything is read but the alternative names. -/
theorem C87_event_partial (c : EvCom) (hc : c.Good) : ∃ r, ({} : EvCom).fromXml c.toXml = r ∧
    r.com.text = c.com.readBack.text ∧ r.com.formula = c.com.readBack.formula ∧ r.com.common = c.com.readBack.common ∧ r.com.names = {} ∧
    ReadNum .float c.pre r.pre ∧ ReadNum .float c.post r.post ∧ ReadNum .float c.timeout r.timeout :=
  ⟨_, ev_read hc, rfl, rfl, rfl, rfl, readNum_readAs _ _, readNum_readAs _ _, readNum_readAs _ _⟩

/-- **C87** (file history): everything is read but the alternative names and the formula. -/
theorem C87_history_partial (c : FhCom) (hc : c.Good) : ∃ r, ({} : FhCom).fromXml c.toXml = r ∧
    r.com.text = c.com.readBack.text ∧ r.com.common = c.com.readBack.common ∧ r.com.names = {} ∧ r.com.formula = {} ∧
    ReadText c.toolId r.toolId ∧ ReadText c.toolVendor r.toolVendor ∧ ReadText c.toolVersion r.toolVersion ∧ ReadText c.userName r.userName :=
  ⟨_, fhCom_read hc, rfl, rfl, rfl, rfl, readText_readAs _ hc.2.1, readText_readAs _ hc.2.2.1, readText_readAs _ hc.2.2.2.1,
    readText_readAs _ hc.2.2.2.2⟩

/-- **C87** (sources): everything is read but the formula. -/
theorem C87_source_partial (c : SiCom) (hc : c.Good) : ∃ r, ({} : SiCom).fromXml c.toXml = r ∧
    r.com.text = c.com.readBack.text ∧ r.com.names = c.com.readBack.names ∧ r.com.common = c.com.readBack.common ∧ r.com.formula = {} ∧
    r.path = c.path.readBack ∧ r.bus = c.bus.readBack ∧ ReadText c.protocol r.protocol :=
  ⟨_, si_read hc, rfl, rfl, rfl, rfl, rfl, rfl, readText_readAs _ hc.2.2.2⟩

/-- **C87** (units): everything is read.  The reference is also found among the attributes it did not have. -/
theorem C87_unit (c : CcUn) (hc : c.Good) (block : Bytes) (hb : block = bCC ∨ block = bCN) : ∃ r, ({} : CcUn).fromXml (c.toXml block) = r ∧
    r.com = c.com.readBack ∧ r.unitRef.text = trim c.unitRef.text ∧
    (c.unitRef.text ≠ [] → r.unitRef.std.ci = c.unitRef.std.ci ∧ r.unitRef.std.lang = c.unitRef.std.lang ∧
      r.unitRef.std.custom = attrMap (c.unitRef.std.custom ++ [(kUnitRef, c.unitRef.text)])) := by
  refine ⟨_, un_read hc hb, rfl, ?_, ?_⟩
  · show (unitBack c.unitRef).text = _
    rw [unitBack]
    split
    · rename_i h
      rw [h]; rfl
    · rfl
  · intro hne
    show (unitBack c.unitRef).std.ci = _ ∧ (unitBack c.unitRef).std.lang = _ ∧ (unitBack c.unitRef).std.custom = _
    rw [unitBack, if_neg hne]
    refine ⟨rfl, rfl, ?_⟩
    rw [given_one, if_neg (by simpa using hne)]

/-! ## What is lost -/

/-- A comment with an alternative name. -/
def exNamed : MdCom := { names := { default := exA, names := [{ text := exB }] } }

/-- A comment with a formula. -/
def exFormula : MdCom := { formula := { syntax_ := { str := { text := exA } } } }

theorem exNamed_good : exNamed.Good := by
  obtain ⟨h1, ⟨a, b, c, d, e, f⟩, h3⟩ := empty_com_good
  refine ⟨h1, ⟨a, ?_, ?_, d, e, f⟩, h3⟩
  · unfold PlainLine; decide
  · intro s hs
    rw [show exNamed.names.names = [{ text := exB }] from rfl, List.mem_singleton] at hs
    subst hs
    exact ⟨hd_std_good, by unfold PlainText; decide⟩

theorem exFormula_good : exFormula.Good := by
  obtain ⟨h1, h2, ⟨a, ⟨b, c⟩, d⟩, h4⟩ := empty_com_good
  exact ⟨h1, h2, ⟨a, ⟨⟨hd_std_good, by unfold PlainText; decide⟩, c⟩, d⟩, h4⟩

/-- The alternative names of an event are lost. -/
theorem C87_event_names_lost : ∃ c : EvCom, c.Good ∧ c.com.names.default = exA ∧ (({} : EvCom).fromXml c.toXml).com.names.default = [] := by
  have hg : ({ com := exNamed } : EvCom).Good := ⟨exNamed_good, empty_num_good _, empty_num_good _, empty_num_good _⟩
  refine ⟨_, hg, rfl, ?_⟩
  rw [ev_read hg]

/-- The alternative names and the formula of a history entry are lost. -/
theorem C87_history_lost : ∃ c : FhCom, c.Good ∧ c.com.names.default = exA ∧ (({} : FhCom).fromXml c.toXml).com.names.default = [] := by
  have e : ({} : MdStr).Good := ⟨hd_std_good, plainText_nil⟩
  have hg : ({ com := exNamed } : FhCom).Good := ⟨exNamed_good, e, e, e, e⟩
  refine ⟨_, hg, rfl, ?_⟩
  rw [fhCom_read hg]

/-- The formula of a history entry and of a source is lost. -/
theorem C87_formula_lost : (∃ c : FhCom, c.Good ∧ c.com.formula.syntax_.str.text = exA ∧ (({} : FhCom).fromXml c.toXml).com.formula.syntax_.str.text = []) ∧
    ∃ c : SiCom, c.Good ∧ c.com.formula.syntax_.str.text = exA ∧ (({} : SiCom).fromXml c.toXml).com.formula.syntax_.str.text = [] := by
  have e : ({} : MdStr).Good := ⟨hd_std_good, plainText_nil⟩
  have hg : ({ com := exFormula } : FhCom).Good := ⟨exFormula_good, e, e, e, e⟩
  have hs : ({ com := exFormula } : SiCom).Good := ⟨exFormula_good, empty_com_good.2.1, empty_com_good.2.1, e⟩
  refine ⟨⟨_, hg, rfl, ?_⟩, _, hs, rfl, ?_⟩
  · rw [fhCom_read hg]
  · rw [si_read hs]

/-- **C87** is false of the code. -/
theorem C87_full_statement_fails : ¬ C87_Statement := by
  rintro ⟨_, h, _⟩
  have hg : ({ com := exNamed } : EvCom).Good := ⟨exNamed_good, empty_num_good _, empty_num_good _, empty_num_good _⟩
  obtain ⟨r, h0, h1, _⟩ := h _ hg
  rw [ev_read hg] at h0
  subst h0
  replace h1 := congrArg (fun c : MdCom => c.names.default) h1
  revert h1
  decide

/-! ## The theorems speak of something -/

/-- A channel comment with all parts. -/
def exCnCom : CnCom :=
  { com := exNamed, linkerName := { text := exB, offset := some 12 }, linkerAddress := { exNum with type := .hex }, monotony := some .strictIncrease,
    raster := exNum, address := { exNum with type := .hex } }

theorem exCnCom_good : exCnCom.Good := by
  refine ⟨exNamed_good, ⟨hd_std_good, by unfold PlainText; decide⟩, ?_, exNum_good, exNum_good, exNum_good⟩
  intro o ho
  cases ho
  decide

/-- The hypotheses of C87 are met by a comment with all parts, and they are found. -/
example : ∃ r, ({} : CnCom).fromXml exCnCom.toXml = r ∧ r.linkerName.text = exB ∧ r.linkerName.offset = some 12 ∧ r.axisMonotony = .strictIncrease ∧
    r.address.bitMask = some 255 ∧ r.com.names.default = exA :=
  ⟨_, cn_read exCnCom_good, rfl, rfl, rfl, rfl, rfl⟩

example : ∃ r, ({} : CcUn).fromXml (({ unitRef := { text := exA } } : CcUn).toXml bCC) = r ∧ r.unitRef.text = exA ∧
    r.unitRef.std.custom = [(kUnitRef, exA)] := by
  have hg : ({ unitRef := { text := exA } } : CcUn).Good := ⟨empty_com_good, hd_std_good, by unfold PlainLine; decide⟩
  exact ⟨_, un_read hg (Or.inl rfl), rfl, rfl⟩

end Mdf
