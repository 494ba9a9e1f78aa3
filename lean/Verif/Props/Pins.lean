import Verif.Props.Names
import Verif.Props.Convert
import Verif.Props.ZStream
import Verif.Props.TypedObs
import Verif.Model.Array

/-!
# What remains unchanged or empty

Further theorems of C31 (conversions that do nothing), C81 (buffers after an error), C93 (words of the kinds) and C95 (virtual channels of
floats), found by changing the model.
-/

namespace Mdf

/-- C93: the words of the kinds are those of the standard. -/
theorem C93_word_texts :
    [HoIvType.open_, .closed, .infinite].map HoIvType.word = ["OPEN", "CLOSED", "INFINITE"].map ascii ∧
    [HoValid.valid, .notValid, .notAvailable, .notDefined, .error, .other].map HoValid.word =
      ["VALID", "NOT-VALID", "NOT-AVAILABLE", "NOT-DEFINED", "ERROR", "OTHER"].map ascii ∧
    [HoCategory.identical, .linear, .scaleLinear, .textTable, .tabNoInterpolation, .formula].map HoCategory.word =
      ["IDENTICAL", "LINEAR", "SCALE-LINEAR", "TEXTTABLE", "TAB-NOINTP", "FORMULA"].map ascii ∧
    [HoGroupCategory.country, .equivUnits].map HoGroupCategory.word = ["COUNTRY", "EQUIV-UNITS"].map ascii := by
  refine ⟨?_, ?_, ?_, ?_⟩ <;> decide

section
variable {D : Type} [Zero D] [One D] [Add D] [Sub D] [Mul D] [Div D] [LinearOrder D] (ofNat : Nat → D)

/-- C31: a number stays as it is, and is valid, without conversion and with one that is for texts or bit fields. -/
theorem C31_unchanged (c : Conv D) (h : c.type = .noConversion ∨ c.type = .textToValue ∨ c.type = .textToText ∨ c.type = .bitfield) (x : D) :
    c.convert ofNat x = .ok (some x) := by
  unfold Conv.convert
  rcases h with h | h | h | h <;> rw [h]

omit [One D] [Add D] [Sub D] [Mul D] [Div D] [LinearOrder D] in
/-- C31: a number asked from a text: without conversion its number (an exception without one), with any other than a table it is not valid. -/
theorem C31_text_number (stod : String → Option D) (c : Conv D) (s : String) :
    (c.type = .noConversion → ∀ d, stod s = some d → c.convertTextToNum ofNat stod s = .ok (true, d)) ∧
    (c.type = .noConversion → stod s = none → c.convertTextToNum ofNat stod s = .throw) ∧
    (c.type ≠ .noConversion → c.type ≠ .textToValue → c.convertTextToNum ofNat stod s = .ok (false, 0)) := by
  unfold Conv.convertTextToNum
  refine ⟨fun h d hd => ?_, fun h hd => ?_, fun h1 h2 => ?_⟩
  · simp [h, hd]
  · simp [h, hd]
  · split
    · contradiction
    · contradiction
    · rfl

end

example : (Conv.mk .textToText 0 [] 7 6 (mkRefs []) : Conv Rat).convert (fun n => (n : Rat)) 5 = .ok (some 5) :=
  C31_unchanged _ _ (.inr (.inr (.inl rfl))) 5

example : (Conv.mk .noConversion 0 [] 7 6 (mkRefs []) : Conv Rat).convertTextToNum (fun n => (n : Rat)) (fun _ => some 3) "3" = .ok (true, 3) :=
  (C31_text_number (fun n => (n : Rat)) (fun _ => some 3) _ "3").1 rfl 3 rfl

/-- C81: after an error the buffer keeps its size; what was not filled is zero. -/
theorem C81_error_buffer (z : ZInf) (src : Bytes) (size : Nat) (h0 : src ≠ []) (h1 : size ≠ 0) (he : (z.call z.init src size).ret = .error) :
    (z.buffer src size).2 = false ∧
    (z.buffer src size).1.take (z.call z.init src size).out.length = (z.call z.init src size).out ∧
    ∀ b ∈ (z.buffer src size).1.drop (z.call z.init src size).out.length, b = 0 := by
  unfold ZInf.buffer
  rw [if_neg (by simp [h0, h1])]
  simp only [he, if_true]
  refine ⟨trivial, by simp, ?_⟩
  intro b hb
  rw [List.drop_left] at hb
  exact (List.mem_replicate.mp hb).2

/-- C81: the same for `Deflate`; of no data it makes a hundred zeros and returns false. -/
theorem C81_deflate_error (z : ZDef) (data : Bytes) :
    (data = [] → z.buffer data = (List.replicate 100 0, false)) ∧
    (data ≠ [] → (z.call z.init data (data.length + 100) true).ret = .error →
      z.buffer data = ((z.call z.init data (data.length + 100) true).out ++
        List.replicate (data.length + 100 - (z.call z.init data (data.length + 100) true).out.length) 0, false)) := by
  unfold ZDef.buffer
  refine ⟨fun h => by simp [h], fun h he => ?_⟩
  rw [if_neg h]
  simp only [he, if_true]

/-- C81: the buffer of nothing, or of size zero. -/
theorem C81_nothing_buffer (z : ZInf) (src : Bytes) (size : Nat) (h : src = [] ∨ size = 0) :
    z.buffer src size = (List.replicate size 0, false) := by
  unfold ZInf.buffer
  rw [if_pos h]

/-- A zlib that fails after two bytes. -/
example : (⟨Unit, (), fun _ _ _ => ⟨(), 1, [1, 2], .error⟩⟩ : ZInf).buffer [9] 4 = ([1, 2, 0, 0], false) := by decide

/-- C95: a virtual channel of doubles has the number of the sample, exactly up to 2^53. -/
theorem C95_virtual_double (c : Chan) (h : 4 < c.dataBytes) (recordId nof sample : Nat) (hs : sample ≤ 2 ^ 53) :
    (c.fltObs recordId nof).virt sample = some (.fin false (sample : Rat)) := by
  have : dblRound (sample : Rat) = sample := by
    rcases Nat.lt_or_eq_of_le hs with hlt | heq
    · refine dblRound_id ⟨(sample : ℤ), 0, ?_, ?_⟩
      · rw [Nat.abs_cast]
        exact_mod_cast hlt
      · simp
    · refine dblRound_id ⟨2 ^ 52, 1, ?_, ?_⟩
      · norm_num
      · rw [heq]; norm_num
  show some (c.keepFlt _) = _
  unfold Chan.keepFlt
  rw [if_neg (by omega), this]

example : (({ exVirtual with dataType := .floatLe, bitCount := 64 } : Chan).fltObs 7 10).virt 5 = some (.fin false 5) :=
  C95_virtual_double _ (by decide) 7 10 5 (by decide)

/-- C95: the place of a value of variable length is the number in the record; without it, it is not valid. -/
theorem C95_offset (c : Chan) (record : Bytes) (j : Nat) :
    (∀ v, c.getUnsigned record j = .ok v → c.offsetIn record j = (true, v.toNat)) ∧
    ((∀ v, c.getUnsigned record j ≠ .ok v) → c.offsetIn record j = (false, 0)) := by
  unfold Chan.offsetIn
  refine ⟨fun v h => by rw [h], fun h => ?_⟩
  split
  · exact absurd ‹_› (h _)
  · rfl

/-- C68: references of an array that are missing are written as three zero links; those there are stay in their places. -/
theorem C68_missing_references (refs : List CaRef) (n : Nat) (h : refs.length ≤ n) :
    refLinks refs n = refs.flatMap CaRef.links ++ List.replicate (3 * (n - refs.length)) 0 := by
  induction n generalizing refs with
  | zero =>
    have : refs = [] := List.eq_nil_of_length_eq_zero (by omega)
    subst this
    rfl
  | succ n ih =>
    have step : ∀ (rs : List CaRef), refLinks rs (n + 1) = (rs.getD 0 .none).links ++ refLinks (rs.drop 1) n := by
      intro rs
      unfold refLinks
      rw [List.range_succ_eq_map, List.flatMap_cons, List.flatMap_map]
      congr 2
      funext i
      simp [List.getD_eq_getElem?_getD]
    rw [step]
    cases refs with
    | nil =>
      rw [List.drop_nil, ih [] (by simp)]
      show List.replicate 3 0 ++ ([] ++ _) = [] ++ _
      rw [List.nil_append, List.nil_append, List.replicate_append_replicate]
      congr 1
      simp only [List.length_nil]
      omega
    | cons r rs =>
      simp only [List.length_cons] at h
      rw [List.drop_one, List.tail_cons, ih rs (by omega), List.flatMap_cons, List.append_assoc]
      simp only [List.length_cons, Nat.add_sub_add_right]
      rfl

example : refLinks [⟨1, 2, 3⟩] 2 = [1, 2, 3, 0, 0, 0] := C68_missing_references [⟨1, 2, 3⟩] 2 (by decide)

end Mdf
