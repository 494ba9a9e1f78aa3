import Verif.Proof.Number

/-!
**C86**: a number in a comment has the value it was given, also after it was written and read.
-/

namespace Mdf

/-- **C86**: a number that is set from an integer or a `double` returns it, and what is read of a number that was written is the number. -/
def C86_Statement : Prop :=
  (∀ (v : Nat) (t : MdType), v < 2 ^ 64 → (MdNum.ofU64 v t).u64 = v ∧ (v < 2 ^ 32 → (MdNum.ofU64 v t).u32 = v)) ∧
  (∀ q : ℚ, IsDbl q → (MdNum.ofDouble q).dbl = q) ∧
  ∀ (n : MdNum) (tag : Bytes), n.Good → n.number ≠ [] → trim n.number = n.number → ∀ t ∈ n.nodes tag, MdNum.read {} t = some n

/-! ## The value -/

/-- **C86** (part 1 of the statement, for 64 bits): an integer is returned as it was set, whatever the type of the number. -/
theorem C86_integer_partial (v : Nat) (t : MdType) (n : MdNum) (h : v < 2 ^ 64) : (MdNum.ofU64 v t).u64 = v ∧ (n.setU64 v).u64 = v := by
  have key : ∀ b : Bool, (hexOrDec (if b then hexText v else decText v)).getD 0 = v := by
    intro b
    cases b
    · show (hexOrDec (decText v)).getD 0 = v
      rw [hexOrDec_dec h]; rfl
    · show (hexOrDec (hexText v)).getD 0 = v
      rw [hexOrDec_hex h]; rfl
  refine ⟨?_, ?_⟩
  · have := key (decide (t = .hex))
    simpa [MdNum.ofU64, MdNum.u64] using this
  · have := key (decide (n.type = .hex))
    simpa [MdNum.setU64, MdNum.u64] using this

/-- As a number of 32 bits it is returned if the type is not hexadecimal; a hexadecimal number is returned as 0. -/
theorem C86_integer32_partial (v : Nat) (t : MdType) : (t ≠ .hex → v < 2 ^ 32 → (MdNum.ofU64 v t).u32 = v) ∧ (MdNum.ofU64 v .hex).u32 = 0 := by
  refine ⟨fun ht hv => ?_, ?_⟩
  · rw [MdNum.u32, MdNum.ofU64, if_neg ht]
    show Nat.min (decNumber (lTrim (decText v))) _ = v
    rw [lTrim_decText, decNumber_decText]
    exact Nat.min_eq_left (by omega)
  · rfl

/-- **C86** (part 2): a `double` is returned as the nearest `double` to the nearest number with six digits after the point. -/
theorem C86_double_partial (q : ℚ) (n : MdNum) :
    (∃ d, NearestMicro q d ∧ Nearest d (MdNum.ofDouble q).dbl) ∧ (n.setDouble q).dbl = (MdNum.ofDouble q).dbl := by
  have h : (MdNum.ofDouble q).dbl = dblRound (microRound q) := by
    rw [MdNum.dbl, MdNum.ofDouble]
    show (stodText (fixedText q)).getD 0 = _
    rw [stodText_fixed]; rfl
  refine ⟨⟨microRound q, microRound_nearest q, ?_⟩, rfl⟩
  rw [h]
  exact dblRound_nearest _

/-- The nearest `double` to a number with six digits after the point, of at most 4·10⁹, is returned as it was set. -/
theorem C86_double_kept (d : ℚ) (hd : IsMicro d) (hs : |d| ≤ 4000000000) : (MdNum.ofDouble (dblRound d)).dbl = dblRound d := by
  rw [MdNum.dbl, MdNum.ofDouble]
  show (stodText (fixedText (dblRound d))).getD 0 = _
  rw [stodText_fixed, micro_kept hd hs]
  rfl

/-- A `double` that has no more than six digits after the point, as any whole number, is returned as it was set. -/
theorem C86_double_exact (q : ℚ) (hq : IsDbl q) (hm : IsMicro q) : (MdNum.ofDouble q).dbl = q := by
  rw [MdNum.dbl, MdNum.ofDouble]
  show (stodText (fixedText q)).getD 0 = _
  have h := (microRound_nearest q).2 q hm
  rw [sub_self, abs_zero] at h
  have h0 : microRound q = q := (sub_eq_zero.mp (abs_nonpos_iff.mp h)).symm
  rw [stodText_fixed, h0, Option.getD_some, dblRound_id hq]

/-- 2⁻³⁰ is returned as 0. -/
theorem C86_small_lost : (MdNum.ofDouble (1 / 2 ^ 30)).dbl = 0 := by decide +kernel

/-! ## Writing and reading -/

/-- **C86** (part 3): the number is read into a number of type `t` with its text, attributes, byte count, bit mask, byte order, units and
trigger flag.  The type is not stored, and of the limits and the average six significant digits. -/
theorem C86_read_partial (n : MdNum) (hn : n.Good) (tag : Bytes) (t : MdType) : (n.nodes tag = [] ↔ n.number = []) ∧
    ∀ x ∈ n.nodes tag, ∃ r, MdNum.read { type := t } x = some r ∧ ReadNum t n r := by
  rw [num_nodes hn]
  refine ⟨by split <;> simp_all, fun x hx => ⟨n.readBack t, ?_, ?_⟩⟩
  · split at hx
    · cases hx
    · rw [List.mem_singleton] at hx
      subst hx
      exact num_read hn t tag
  · split at hx
    · cases hx
    · rename_i he
      have := readNum_readAs n t
      rwa [MdNum.readAs, if_neg he] at this

/-- The integer is read as well. -/
theorem C86_read_integer (v : Nat) (n : MdNum) (h : v < 2 ^ 64) (hn : (n.setU64 v).Good) (tag : Bytes) (t : MdType) :
    (∃ x, (n.setU64 v).nodes tag = [x]) ∧ ∀ x ∈ (n.setU64 v).nodes tag, ∃ r, MdNum.read { type := t } x = some r ∧ r.u64 = v := by
  have hne : (n.setU64 v).number ≠ [] := by
    show (if n.type = .hex then hexText v else decText v) ≠ []
    split
    · exact hexText_ne v
    · exact decText_ne v
  refine ⟨⟨_, by rw [MdNum.nodes, if_neg hne]⟩, fun x hx => ?_⟩
  obtain ⟨r, h1, h2⟩ := (C86_read_partial _ hn tag t).2 x hx
  rw [ReadNum, if_neg hne] at h2
  replace h2 := h2.2.1
  refine ⟨r, h1, ?_⟩
  have ht : trim (n.setU64 v).number = (n.setU64 v).number := by
    show trim (if n.type = .hex then hexText v else decText v) = if n.type = .hex then hexText v else decText v
    split
    · exact hexText_trim v
    · exact decText_trim v
  rw [MdNum.u64, h2, ht]
  exact (C86_integer_partial v .float n h).2

/-- A limit that is the nearest `double` to a number of six significant digits. -/
def SixLimit (o : Option ℚ) : Prop := ∀ q ∈ o, ∃ d, IsSix d ∧ q = dblRound d

theorem sixLimit_same {o : Option ℚ} (h : SixLimit o) : o.map (fun q => dblRound (sixRound q)) = o := by
  cases o with
  | none => rfl
  | some q =>
    obtain ⟨d, hd, rfl⟩ := h q rfl
    rw [Option.map_some, six_kept hd]

/-- If the limits and the average are the nearest `double` to numbers of six significant digits, the number is read as it was, but for the
type and blanks around the text. -/
theorem C86_limits_kept (n : MdNum) (hn : n.Good) (tag : Bytes) (t : MdType) (h1 : SixLimit n.min) (h2 : SixLimit n.max)
    (h3 : SixLimit n.average) (h4 : n.byteCount ≠ some 8) :
    ∀ x ∈ n.nodes tag, MdNum.read { type := t } x = some { n with type := t, number := trim n.number } := by
  intro x hx
  rw [num_nodes hn] at hx
  split at hx
  · cases hx
  · rw [List.mem_singleton] at hx
    subst hx
    rw [num_read hn t tag, MdNum.readBack, sixLimit_same h1, sixLimit_same h2, sixLimit_same h3]
    have h5 : n.byteCount.filter (· ≠ 8) = n.byteCount := by
      cases hb : n.byteCount with
      | none => rfl
      | some c =>
        have : c ≠ 8 := fun h => h4 (by rw [hb, h])
        simp [Option.filter, this]
    rw [h5]

/-- A limit of 1234567 is read as 1234570. -/
theorem C86_limit_lost : stodText (generalText 1234567) = some 1234570 := by decide +kernel

/-- A number with a limit. -/
def exNum : MdNum :=
  { std := { ci := 3, custom := [(exA, exB)] }, number := ex1, type := .hex, byteCount := some 4, bitMask := some 255, bigEndian := true,
    min := some (-1 / 2), max := some 1234567, unit := exB, triggered := true }

theorem exNum_good : exNum.Good := by
  refine ⟨⟨by decide, plainLine_nil, by unfold SortedBy; decide, ?_⟩, ?_, by unfold PlainText; decide, by unfold PlainLine; decide, plainLine_nil, ?_, ?_⟩
  · intro a ha
    rw [show exNum.std.custom = [(exA, exB)] from rfl, List.mem_singleton] at ha
    subst ha
    exact ⟨⟨_, _, rfl, by decide, by decide⟩, by unfold PlainLine; decide, by decide⟩
  · intro a ha
    rw [show exNum.std.custom = [(exA, exB)] from rfl, List.mem_singleton] at ha
    subst ha
    decide
  · intro c hc
    cases hc
    decide
  · intro c hc
    cases hc
    decide

/-- The type and a limit of seven digits are not read. -/
theorem C86_parts_lost : ∃ r, (exNum.nodes exA).map (MdNum.read {}) = [some r] ∧ r.type = .float ∧ r.max = some 1234570 := by
  refine ⟨exNum.readBack .float, ?_, rfl, ?_⟩
  · rw [num_nodes exNum_good, if_neg (by decide), List.map_singleton, num_read exNum_good .float]
  · have h : stodText (generalText 1234567) = some 1234570 := C86_limit_lost
    rw [stodText_general] at h
    exact h

theorem C86_full_statement_fails : ¬ C86_Statement := by
  intro h
  have h1 := ((h.1 1 .hex (by decide)).2 (by decide)).symm
  rw [(C86_integer32_partial 1 .hex).2] at h1
  cases h1

/-- Neither does any other part of the statement hold. -/
theorem C86_parts_fail : ¬ (∀ q : ℚ, IsDbl q → (MdNum.ofDouble q).dbl = q) ∧
    ¬ ∀ (n : MdNum) (tag : Bytes), n.Good → n.number ≠ [] → trim n.number = n.number → ∀ t ∈ n.nodes tag, MdNum.read {} t = some n := by
  refine ⟨fun h => ?_, fun h => ?_⟩
  · have h1 := h (1 / 2 ^ 30) ⟨1, -30, by decide, by norm_num⟩
    rw [C86_small_lost] at h1
    norm_num at h1
  · obtain ⟨r, h1, h2, _⟩ := C86_parts_lost
    have h3 := h exNum exA exNum_good (by decide) (by decide)
    cases he : exNum.nodes exA with
    | nil => rw [he] at h1; cases h1
    | cons x xs =>
      rw [he] at h1 h3
      have h4 := h3 x (by simp)
      rw [List.map_cons, List.cons.injEq, h4] at h1
      have h5 : exNum = r := Option.some.inj h1.1
      rw [← h5] at h2
      cases h2

/-! Examples. -/

example : (MdNum.ofU64 0xDEADBEEF .hex).u64 = 0xDEADBEEF := (C86_integer_partial _ .hex {} (by decide)).1

example : (MdNum.ofDouble (dblRound (123456 / 1000000))).dbl = dblRound (123456 / 1000000) :=
  C86_double_kept _ ⟨123456, by norm_num⟩ (by rw [abs_of_pos] <;> norm_num)

example : (MdNum.ofDouble 3).dbl = 3 := C86_double_exact 3 ⟨3, 0, by decide, by norm_num⟩ ⟨3000000, by norm_num⟩

example : ∃ x, exNum.nodes exA = [x] ∧ ∃ r, MdNum.read { type := .hex } x = some r ∧ r.bitMask = some 255 := by
  refine ⟨_, num_nodes exNum_good exA, _, num_read exNum_good .hex exA, rfl⟩

example : SixLimit (some (dblRound (1 / 10))) ∧ SixLimit none :=
  ⟨fun q hq => ⟨1 / 10, ⟨1, -1, by decide, by norm_num⟩, (Option.some.inj hq).symm⟩, by simp [SixLimit]⟩

example : (({} : MdNum).setU64 7).Good :=
  ⟨hd_std_good, by decide, by unfold PlainText; decide +kernel, plainLine_nil, plainLine_nil, by simp [MdNum.setU64], by simp [MdNum.setU64]⟩

end Mdf
