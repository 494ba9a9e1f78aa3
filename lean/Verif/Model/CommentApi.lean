import Verif.Model.Comment

/-!
# Values of properties, looking for properties, and the header comment

`MdProperty::Value`, `MdList::GetProperty`, `MdList::GetEnumerate` and the setters and getters of `HdComment`.
`/repo/mdflib/src/mdproperty.cpp`, `mdlist.cpp`, `hdcomment.cpp`.
-/

namespace Mdf

/-! ## Values -/

/-- A digit of `%X`. -/
def hexDigitU (d : Nat) : Byte := if d < 10 then BitVec.ofNat 8 (48 + d) else BitVec.ofNat 8 (55 + d)

/-- The digits of `%llX`, at most `fuel`. -/
def hexGo : (fuel : Nat) → Nat → Bytes
  | 0, _ => []
  | fuel + 1, n => if n < 16 then [hexDigitU n] else hexGo fuel (n / 16) ++ [hexDigitU (n % 16)]

/-- `snprintf` with `0x%llX`.  mdproperty.cpp lines 191-197. -/
def hexText (n : Nat) : Bytes := 0x30#8 :: 0x78#8 :: hexGo 16 n

/-- The value of a hexadecimal digit. -/
def hexVal (c : Byte) : Option Nat :=
  if 0x30#8 ≤ c ∧ c ≤ 0x39#8 then some (c.toNat - 48)
  else if 0x41#8 ≤ c ∧ c ≤ 0x46#8 then some (c.toNat - 55)
  else if 0x61#8 ≤ c ∧ c ≤ 0x66#8 then some (c.toNat - 87)
  else none

/-- The number in the hexadecimal digits at the start of a text. -/
def hexNumber (s : Bytes) : Nat := (s.takeWhile fun c => (hexVal c).isSome).foldl (fun n c => n * 16 + (hexVal c).getD 0) 0

/-- `strtoull` skips `0x` in front of hexadecimal digits. -/
def skipHex (s : Bytes) : Bytes :=
  match s with
  | a :: b :: c :: t => if a = 0x30#8 ∧ (b = 0x78#8 ∨ b = 0x58#8) ∧ (hexVal c).isSome then c :: t else s
  | _ => s

/-- `std::stoull(s, nullptr, 16)`. -/
def stoullHex (s : Bytes) : Option Nat :=
  let d := skipHex (numSign s).2
  if (d.takeWhile fun c => (hexVal c).isSome) = [] then none
  else if hexNumber d < 2 ^ 64 then some (if (numSign s).1 then (2 ^ 64 - hexNumber d) % 2 ^ 64 else hexNumber d) else none

/-- "false" -/
def wFalse : Bytes := [0x66#8, 0x61#8, 0x6C#8, 0x73#8, 0x65#8]

/-- The text for a number.  mdproperty.cpp lines 166-204. -/
def MdType.numText (t : MdType) (v : BitVec 64) : Bytes :=
  match t with
  | .date => toIsoDate v
  | .time => toIsoTime v true
  | .dateTime => toIsoDateTime v true
  | .boolean => if v.toNat > 0 then wTrue else wFalse
  | .hex => hexText v.toNat
  | _ => decText v.toNat

/-- `Value(uint64_t)`.  mdproperty.cpp lines 166-204. -/
def MdProp.setNum (p : MdProp) (v : BitVec 64) : MdProp := { p with value := p.type.numText v }

/-- The number of a text without regard to the type.  mdproperty.cpp lines 232-237. -/
def plainNum (s : Bytes) : BitVec 64 := if s = [] then 0 else BitVec.ofNat 64 ((stoullText s).getD 0)

/-- `Value<uint64_t>()`; `now` is the time of the call, `none` if the behaviour is undefined.  mdproperty.cpp lines 211-239. -/
def MdProp.getNum (p : MdProp) (now : BitVec 64) : Option (BitVec 64) :=
  match p.type with
  | .integer =>
    if p.value.length > 2 ∧ p.value.take 2 = [0x30#8, 0x78#8] then some (BitVec.ofNat 64 ((stoullHex (p.value.drop 2)).getD 0))
    else some (plainNum p.value)
  | .dateTime => fromIso now p.value
  | _ => some (plainNum p.value)

/-- `Value(bool)`.  mdproperty.cpp lines 161-164. -/
def MdProp.setBool (p : MdProp) (b : Bool) : MdProp := { p with value := if b then wTrue else wFalse }

/-- `Value<bool>()`.  mdproperty.cpp lines 241-258. -/
def MdProp.getBool (p : MdProp) : Bool :=
  match p.value with
  | [] => false
  | c :: _ => c == 0x31#8 || c == 0x74#8 || c == 0x54#8

/-! ## Looking for properties -/

/-- The text behind the first `/`, if there is one.  mdlist.cpp lines 139-140 and 160. -/
def afterSlash : Bytes → Option Bytes
  | [] => none
  | c :: t => if c = 0x2F#8 then some t else afterSlash t

mutual
/-- `MdList::GetProperty`.  mdlist.cpp lines 138-177. -/
def MdTree.getProp (name : Bytes) : MdTree → Option MdProp
  | .mk _ _ _ props trees lists _ =>
    match afterSlash name with
    | none => ((props.find? fun p => p.name == name).orElse fun _ => treesProp name trees).orElse fun _ => treesProp name lists
    | some rest => (treesProp rest trees).orElse fun _ => treesProp rest lists
/-- The loops over the trees and over the lists. -/
def treesProp (name : Bytes) : List MdTree → Option MdProp
  | [] => none
  | t :: ts => (t.getProp name).orElse fun _ => treesProp name ts
end

mutual
/-- `MdList::GetEnumerate`.  mdlist.cpp lines 180-219. -/
def MdTree.getEnum (name : Bytes) : MdTree → Option MdEnum
  | .mk _ _ _ _ trees lists enums =>
    match afterSlash name with
    | none => ((enums.find? fun e => e.prop.name == name).orElse fun _ => treesEnum name trees).orElse fun _ => treesEnum name lists
    | some rest => (treesEnum rest trees).orElse fun _ => treesEnum rest lists
/-- The loops over the trees and over the lists. -/
def treesEnum (name : Bytes) : List MdTree → Option MdEnum
  | [] => none
  | t :: ts => (t.getEnum name).orElse fun _ => treesEnum name ts
end

/-- `GetPropertyValue<std::string>`.  mdlist.h lines 70-74. -/
def MdTree.getText (t : MdTree) (name : Bytes) : Bytes := ((t.getProp name).map MdProp.value).getD []

end Mdf
