import Verif.Model.ZStream

/-!
What zlib.h says of `inflate` and `deflate`, as far as it is used: they go on until the input is used up or the room is filled.
-/

namespace Mdf

/-- `code` is a complete stream which stands for `data`.  `at s i o`: in state `s`, `i` bytes of the stream have been used and `o` bytes of
the data have been put out.  A call is given a part of the rest of the stream, or all of it and more. -/
structure ZInf.Reads (z : ZInf) (code data : Bytes) where
  at_ : z.σ → Nat → Nat → Prop
  start : at_ z.init 0 0
  /-- the bytes used belong to the stream, those put out are the next of the data -/
  step : ∀ s i o input room, at_ s i o → 0 < room → input <+: code.drop i ∨ code.drop i <+: input →
    (z.call s input room).used ≤ input.length ∧ i + (z.call s input room).used ≤ code.length ∧
    (z.call s input room).out.length ≤ room ∧ (z.call s input room).out <+: data.drop o ∧
    at_ (z.call s input room).state (i + (z.call s input room).used) (o + (z.call s input room).out.length)
  /-- there is no error in the stream -/
  noError : ∀ s i o input room, at_ s i o → 0 < room → input <+: code.drop i ∨ code.drop i <+: input →
    (z.call s input room).ret ≠ .error
  /-- the end is reported when all has been used and put out -/
  atEnd : ∀ s i o input room, at_ s i o → 0 < room → input <+: code.drop i ∨ code.drop i <+: input →
    (z.call s input room).ret = .streamEnd →
    i + (z.call s input room).used = code.length ∧ o + (z.call s input room).out.length = data.length
  /-- it goes on as long as it can -/
  goesOn : ∀ s i o input room, at_ s i o → 0 < room → input <+: code.drop i ∨ code.drop i <+: input →
    (z.call s input room).ret ≠ .streamEnd → (z.call s input room).out.length < room →
    (z.call s input room).used = input.length ∧ i + (z.call s input room).used < code.length
  /-- with the whole stream and room for all the data one call is enough -/
  whole : ∀ room, 0 < room → data.length ≤ room → (z.call z.init code room).ret = .streamEnd

/-- `codes code data`: the stream stands for the data.  `at s x y t`: in state `s`, `x` has been taken in, `y` put out; `t` is all of the input
once `Z_FINISH` has been given. -/
structure ZDef.Writes (z : ZDef) (codes : Bytes → Bytes → Prop) where
  at_ : z.σ → Bytes → Bytes → Option Bytes → Prop
  start : at_ z.init [] [] none
  step : ∀ s x y t input room finish, at_ s x y t → 0 < room → (∀ all, t = some all → finish = true ∧ x ++ input = all) →
    (z.call s input room finish).used ≤ input.length ∧ (z.call s input room finish).out.length ≤ room ∧
    (z.call s input room finish).ret ≠ .error ∧
    at_ (z.call s input room finish).state (x ++ input.take (z.call s input room finish).used) (y ++ (z.call s input room finish).out)
      (if finish then some (x ++ input) else none)
  /-- it goes on until the room is filled -/
  goesOn : ∀ s x y t input room finish, at_ s x y t → 0 < room → (∀ all, t = some all → finish = true ∧ x ++ input = all) →
    (z.call s input room finish).out.length < room →
    (z.call s input room finish).used = input.length ∧ (finish = true → (z.call s input room finish).ret = .streamEnd)
  atEnd : ∀ s x y t input room finish, at_ s x y t → 0 < room → (∀ all, t = some all → finish = true ∧ x ++ input = all) →
    (z.call s input room finish).ret = .streamEnd →
    finish = true ∧ (z.call s input room finish).used = input.length ∧ codes (y ++ (z.call s input room finish).out) (x ++ input)
  /-- it puts out a limited number of bytes (`deflateBound`) -/
  bound : Nat → Nat
  bounded : ∀ s x y t, at_ s x y t → y.length ≤ bound x.length
  mono : ∀ a b, a ≤ b → bound a ≤ bound b

/-- zlib: what was compressed can be decompressed. -/
structure ZLib where
  inf : ZInf
  deF : ZDef
  codes : Bytes → Bytes → Prop
  writes : deF.Writes codes
  reads : ∀ code data, codes code data → inf.Reads code data
  nonempty : ∀ code data, codes code data → code ≠ []

end Mdf
