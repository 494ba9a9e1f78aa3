import Verif.Model.ReadCache

/-!
Channel conversions.

Models /repo/mdflib/src/ichannelconversion.cpp, the `Convert` templates of /repo/include/mdf/ichannelconversion.h, the text
conversions of /repo/mdflib/src/cc4block.cpp and /repo/mdflib/src/cc3block.cpp, and `IChannelObserver::GetEngValue` for text channels.

`D` stands for `double`: the model needs its operations and comparisons only, and theorems say which laws they need (a linear order,
as on the numbers without NaN, or an ordered field, for exact arithmetic).  `ofNat` is the conversion of a `uint64_t`, `fmt` is
`MdfHelper::FormatDouble`.  Logarithmic and exponential conversions are in `ExpLog`.
-/

namespace Mdf

/-- `ConversionType` (ichannelconversion.h lines 32-104), without the types that are not converted differently. -/
inductive CcType where
  | noConversion | linear | rational | algebraic | interpolation | valueToValue | rangeToValue | valueToText | rangeToText
  | textToValue | textToText | bitfield | polynomial
deriving DecidableEq, Repr

/-- An entry of `value_list_`. -/
inductive CcPar (D : Type) where
  | num (d : D)
  | uint (n : Nat)
deriving DecidableEq, Repr

mutual
/-- A conversion: type, `nof_values_`, `value_list_`, `channel_data_type_`, number of decimals to show, `ref_list_`. -/
inductive Conv (D : Type) where
  | mk (type : CcType) (nof : Nat) (values : List (CcPar D)) (dataType decimals : Nat) (refs : CcRefs D)

/-- `ref_list_`: each entry is a null pointer, a text block, a conversion or another block. -/
inductive CcRefs (D : Type) where
  | nil
  | null (rest : CcRefs D)
  | tx (text : String) (rest : CcRefs D)
  | cc (c : Conv D) (rest : CcRefs D)
end

namespace Conv
variable {D : Type}

def type : Conv D → CcType | .mk t _ _ _ _ _ => t
/-- `nof_values_`. -/
def nof : Conv D → Nat | .mk _ n _ _ _ _ => n
/-- `value_list_`. -/
def values : Conv D → List (CcPar D) | .mk _ _ v _ _ _ => v
def dataType : Conv D → Nat | .mk _ _ _ d _ _ => d
def decimals : Conv D → Nat | .mk _ _ _ _ d _ => d
def refs : Conv D → CcRefs D | .mk _ _ _ _ _ r => r

end Conv

/-- `ref_list_.size()`. -/
def CcRefs.length {D : Type} : CcRefs D → Nat
  | .nil => 0
  | .null r => r.length + 1
  | .tx _ r => r.length + 1
  | .cc _ r => r.length + 1

/-- An entry of the reference list that is read as a text. -/
inductive CcText where
  | outside | notText | text (s : String)
deriving DecidableEq, Repr

def CcRefs.textAt {D : Type} : CcRefs D → Nat → CcText
  | .nil, _ => .outside
  | .tx s _, 0 => .text s
  | .null _, 0 => .notText
  | .cc _ _, 0 => .notText
  | .null r, i + 1 => r.textAt i
  | .tx _ r, i + 1 => r.textAt i
  | .cc _ r, i + 1 => r.textAt i

namespace Conv
variable {D : Type} [Zero D] [One D] [Add D] [Sub D] [Mul D] [Div D] [LT D] [LE D] [DecidableEq D] [DecidableLT D] [DecidableLE D]
variable (ofNat : Nat → D)

/-- `Parameter` (ichannelconversion.cpp lines 324-335); the index is a `uint16_t`. -/
def param (c : Conv D) (i : Nat) : D :=
  match (c.values[i % 2 ^ 16]? : Option (CcPar D)) with
  | none => 0
  | some (.num d) => d
  | some (.uint n) => ofNat n

/-- `std::get<double>(value_list_.back())`, the list is not empty. -/
def back (c : Conv D) : Out (Option D) :=
  match c.values.getLast? with
  | some (.num d) => .ok (some d)
  | some (.uint _) => .throw
  | none => .ub

/-- `IsChannelInteger`, `IsChannelFloat` (ichannelconversion.cpp lines 40-46). -/
def isInteger (c : Conv D) : Bool := decide (c.dataType ≤ 3)
def isFloat (c : Conv D) : Bool := decide (3 < c.dataType ∧ c.dataType ≤ 5)

/-- `ConvertLinear` (lines 48-59); `none` is the return value `false`. -/
def linear (c : Conv D) (x : D) : Option D :=
  if c.values = [] then none
  else if c.values.length = 1 then some (c.param ofNat 0)
  else some (c.param ofNat 0 + c.param ofNat 1 * x)

/-- `ConvertRational` (lines 61-76). -/
def rational (c : Conv D) (x : D) : Option D :=
  if c.values.length < 6 then none
  else
    let eng := c.param ofNat 0 * (x * x) + c.param ofNat 1 * x + c.param ofNat 2
    let div := c.param ofNat 3 * (x * x) + c.param ofNat 4 * x + c.param ofNat 5
    if div = 0 then none else some (eng / div)

/-- `ConvertPolynomial` (lines 78-91). -/
def polynomial (c : Conv D) (x : D) : Option D :=
  if c.values.length < 6 then none
  else
    let temp := x - c.param ofNat 4 - c.param ofNat 5
    let eng := c.param ofNat 1 - c.param ofNat 3 * temp
    let div := c.param ofNat 2 * temp - c.param ofNat 0
    if div = 0 then none else some (eng / div)

/-- What `ConvertValueToValueInterpolate` computes between two keys (lines 203-213). -/
def between (x prevKey prevValue key value : D) : Option D :=
  if key - prevKey = 0 then none
  else some (prevValue + (x - prevKey) / (key - prevKey) * (value - prevValue))

/-- What `ConvertValueToValue` computes between two keys (lines 246-254). -/
def nearer (x prevKey prevValue key value : D) : Option D :=
  if key - prevKey = 0 then none
  else some (if (x - prevKey) / (key - prevKey) ≤ 1 / (1 + 1) then prevValue else value)

/-- The loop of the two value to value conversions (lines 187-217, 227-257), from index `n` on, with `fuel = nof_values_ - n`;
`mid` is what is computed between two keys. -/
def tableLoop (mid : D → D → D → D → D → Option D) (c : Conv D) (x : D) : (fuel n : Nat) → Out (Option D)
  | 0, _ => c.back
  | fuel + 1, n =>
    if c.values.length ≤ 2 * n + 1 then c.back
    else if x = c.param ofNat (2 * n) then .ok (some (c.param ofNat (2 * n + 1)))
    else if x < c.param ofNat (2 * n) then
      if n = 0 then .ok (some (c.param ofNat (2 * n + 1)))
      else .ok (mid x (c.param ofNat (2 * n - 2)) (c.param ofNat (2 * n + 1 - 2)) (c.param ofNat (2 * n)) (c.param ofNat (2 * n + 1)))
    else tableLoop mid c x fuel (n + 1)

/-- `ConvertValueToValueInterpolate` (lines 181-219). -/
def interpolate (c : Conv D) (x : D) : Out (Option D) :=
  if c.values.length < 2 then .ok none else tableLoop ofNat between c x c.nof 0

/-- `ConvertValueToValue` (lines 221-259). -/
def valueToValue (c : Conv D) (x : D) : Out (Option D) :=
  if c.values.length < 2 then .ok none else tableLoop ofNat nearer c x c.nof 0

/-- The test of a range (lines 278-288): up to and including the upper key for integers, below the upper key for floats. -/
def inRange (c : Conv D) (x lo hi : D) : Bool :=
  (c.isInteger && decide (lo ≤ x) && decide (x ≤ hi)) || (c.isFloat && decide (lo ≤ x) && decide (x < hi))

/-- The loop of `ConvertValueRangeToValue` (lines 267-289). -/
def rangeLoop (c : Conv D) (x : D) : (fuel n : Nat) → Out (Option D)
  | 0, _ => c.back
  | fuel + 1, n =>
    if c.values.length ≤ 3 * n + 2 then c.back
    else if c.inRange x (c.param ofNat (3 * n)) (c.param ofNat (3 * n + 1)) then .ok (some (c.param ofNat (3 * n + 2)))
    else rangeLoop c x fuel (n + 1)

/-- `ConvertValueRangeToValue` (lines 261-291). -/
def rangeToValue (c : Conv D) (x : D) : Out (Option D) := if c.values = [] then .ok none else rangeLoop ofNat c x c.nof 0

/-- `Convert` from a number to a number (ichannelconversion.h lines 341-430), the conversions from numbers to numbers; the value is not
valid for the others (for conversions to text the text is parsed, not modelled). -/
def convert (c : Conv D) (x : D) : Out (Option D) :=
  match c.type with
  | .linear => .ok (c.linear ofNat x)
  | .rational => .ok (c.rational ofNat x)
  | .polynomial => .ok (c.polynomial ofNat x)
  | .algebraic => .ok none
  | .interpolation => c.interpolate ofNat x
  | .valueToValue => c.valueToValue ofNat x
  | .rangeToValue => c.rangeToValue ofNat x
  | .valueToText => .ok none
  | .rangeToText => .ok none
  | _ => .ok (some x)

/-! ### Texts -/

/-- The loop of `Cc4Block::ConvertValueToText` (cc4block.cpp lines 355-364): the index of the first key that is equal. -/
def keyLoop (c : Conv D) (x : D) : (fuel n : Nat) → Option Nat
  | 0, _ => none
  | fuel + 1, n =>
    if c.values.length ≤ n then none
    else if x = c.param ofNat n then some n
    else keyLoop c x fuel (n + 1)

/-- The loop of `Cc4Block::ConvertValueRangeToText` (cc4block.cpp lines 399-419); the key indexes are `uint16_t`. -/
def keyRangeLoop (c : Conv D) (x : D) : (fuel n : Nat) → Option Nat
  | 0, _ => none
  | fuel + 1, n =>
    let lo := (2 * n) % 2 ^ 16
    let hi := (lo + 1) % 2 ^ 16
    if c.values.length ≤ hi then none
    else if c.inRange x (c.param ofNat lo) (c.param ofNat hi) then some n
    else keyRangeLoop c x fuel (n + 1)

/-- The reference for a number: that of the key found, else the last one. -/
def refIndex (c : Conv D) (x : D) : Nat :=
  (match c.type with
   | .valueToText => keyLoop ofNat c x c.nof 0
   | .rangeToText => keyRangeLoop ofNat c x c.nof 0
   | _ => none).getD (c.refs.length - 1)

end Conv

section
variable {D : Type} [Zero D] [One D] [Add D] [Sub D] [Mul D] [Div D] [LT D] [LE D] [DecidableEq D] [DecidableLT D] [DecidableLE D]
variable (ofNat : Nat → D) (fmt : D → Nat → String)

/-- A number converted to a number and formatted. -/
def fmtOut (dec : Nat) : Out (Option D) → Out (Option String)
  | .ok (some d) => .ok (some (fmt d dec))
  | .ok none => .ok none
  | .throw => .throw
  | .ub => .ub

mutual
/-- `Convert` from a number to a text (ichannelconversion.h lines 432-519) with `ConvertValueToText` and `ConvertValueRangeToText`
(cc4block.cpp lines 349-442); only the text of valid results is modelled. -/
def Conv.toText : Conv D → D → Out (Option String)
  | .mk type nof values dataType decimals refs, x =>
    if type = .valueToText ∨ type = .rangeToText then
      CcRefs.toTextAt refs (Conv.refIndex ofNat (.mk type nof values dataType decimals refs) x) x
    else fmtOut fmt decimals (Conv.convert ofNat (.mk type nof values dataType decimals refs) x)

/-- The text of a reference (cc4block.cpp lines 365-388, 420-441): nothing is an empty text. -/
def CcRefs.toTextAt : CcRefs D → Nat → D → Out (Option String)
  | .nil, _, _ => .ok none
  | .null _, 0, _ => .ok (some "")
  | .tx s _, 0, _ => .ok (some s)
  | .cc c _, 0, x => Conv.toText c x
  | .null r, i + 1, x => CcRefs.toTextAt r i x
  | .tx _ r, i + 1, x => CcRefs.toTextAt r i x
  | .cc _ r, i + 1, x => CcRefs.toTextAt r i x
end

end

namespace Conv
variable {D : Type} [Zero D] (ofNat : Nat → D)

/-- The loop of `ConvertTextToValue` (cc4block.cpp lines 451-470): the index found, `none` if a reference is not a text. -/
def textLoop (c : Conv D) (s : String) : (fuel n : Nat) → Option (Option Nat)
  | 0, _ => some none
  | fuel + 1, n =>
    match c.refs.textAt n with
    | .outside => some none
    | .notText => none
    | .text t => if t = s then some (some n) else textLoop c s fuel (n + 1)

/-- `ConvertTextToValue` (cc4block.cpp lines 444-476). -/
def textToValue (c : Conv D) (s : String) : Option D :=
  if c.values = [] then none
  else
    match c.textLoop s c.nof 0 with
    | none => none
    | some i =>
      let i := i.getD ((c.values.length - 1) % 2 ^ 16)
      if c.values.length ≤ i then none else some (c.param ofNat i)

/-- The loop of `ConvertTextToTranslation` (cc4block.cpp lines 484-500). -/
def translateLoop (c : Conv D) (s : String) : (fuel index : Nat) → Option (Option Nat)
  | 0, _ => some none
  | fuel + 1, i =>
    if c.refs.length ≤ i + 1 then some none
    else
      match c.refs.textAt i with
      | .text t => if t = s then some (some (i + 1)) else translateLoop c s fuel (i + 2)
      | _ => none

/-- `ConvertTextToTranslation` (cc4block.cpp lines 478-520). -/
def translate (c : Conv D) (s : String) : Option String :=
  if c.refs.length = 0 then none
  else
    match c.translateLoop s c.refs.length 0 with
    | none => none
    | some i =>
      match c.refs.textAt (i.getD (c.refs.length - 1)) with
      | .text t => some t
      | _ => none

/-- `Convert` from a text to a number (ichannelconversion.h lines 521-533): validity and value; `eng_value` is 0 before the call.
`stod` is `std::stod`, `none` if it throws. -/
def convertTextToNum (stod : String → Option D) (c : Conv D) (s : String) : Out (Bool × D) :=
  match c.type with
  | .textToValue => .ok (true, (c.textToValue ofNat s).getD 0)
  | .noConversion =>
    match stod s with
    | none => .throw
    | some d => .ok (true, d)
  | _ => .ok (false, 0)

/-- `Convert` from a text to a text (ichannelconversion.h lines 277-286): validity and text, which is empty before the call. -/
def convertText (c : Conv D) (s : String) : Bool × String :=
  match c.type with
  | .textToText => (true, (c.translate s).getD "")
  | .noConversion => (true, s)
  | _ => (false, "")

/-- `>>` from a stream with the text: blanks are skipped and the text ends at the next blank. -/
def firstWord (s : List Char) : List Char := (s.dropWhile Char.isWhitespace).takeWhile (fun ch => !ch.isWhitespace)

/-- `GetEngValue` of a text channel into a text (ichannelobserver.h lines 353-363), for the text of a sample. -/
def engText (c : Conv D) (s : String) : String := String.ofList (firstWord (c.convertText s).2.toList)

/-- `Cc4Block::CopyFrom` (cc4block.cpp lines 547-590) onto a new conversion: the references are not copied, as the test for a text
block is negated and the branch for conversions cannot be reached. -/
def copy4 : Conv D → Conv D
  | .mk t n v d p _ => .mk t n v d p .nil

/-- A conversion as configured by the application and then written (cc4block.cpp lines 286-287): `nof_values_` is counted when the
block is written. -/
def written : Conv D → Conv D
  | .mk t _ v d p r => .mk t (v.length % 2 ^ 16) v d p r

end Conv

/-! ### MDF 3 -/

/-- The text tables of an MDF 3 conversion: `text_conversion_list_`, `text_range_conversion_list_` (the first entry is the default), and
`channel_data_type_`, which is never set for MDF 3 (0). -/
structure Conv3 (D : Type) where
  texts : List (D × String)
  ranges : List (D × D × String)
  dataType : Nat
deriving DecidableEq, Repr

namespace Conv3
variable {D : Type} [LT D] [LE D] [DecidableEq D] [DecidableLT D] [DecidableLE D]

/-- `Cc3Block::ConvertValueToText` (cc3block.cpp lines 380-389). -/
def valueToText (c : Conv3 D) (x : D) : Option String := (c.texts.find? (·.1 = x)).map (·.2)

/-- `Cc3Block::ConvertValueRangeToText` (cc3block.cpp lines 391-416). -/
def rangeToText (c : Conv3 D) (x : D) : Option String :=
  match c.ranges with
  | [] => none
  | d :: rs =>
    some (((rs.find? fun r =>
      (decide (c.dataType ≤ 3) && decide (r.1 ≤ x) && decide (x ≤ r.2.1)) ||
      (decide (3 < c.dataType ∧ c.dataType ≤ 5) && decide (r.1 ≤ x) && decide (x < r.2.1))).map (·.2.2)).getD d.2.2)

end Conv3

end Mdf
