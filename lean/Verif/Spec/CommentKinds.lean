import Verif.Model.CommentKinds
import Verif.Spec.Number

/-!
# What a user expects of the comments of channels, events, file history, sources and units
-/

namespace Mdf

/-! ## What XML can hold -/

/-- A channel comment that XML can hold: its texts are UTF-8 without characters XML has no way to write, its attributes have names of their own; the
offset of the linker name is a number of 64 bits. -/
def CnCom.Good (c : CnCom) : Prop :=
  c.com.Good ∧ c.linkerName.Good ∧ (∀ o ∈ c.linkerName.offset, o < 2 ^ 64) ∧ c.linkerAddress.Good ∧ c.raster.Good ∧ c.address.Good

/-- An event comment that XML can hold. -/
def EvCom.Good (c : EvCom) : Prop := c.com.Good ∧ c.pre.Good ∧ c.post.Good ∧ c.timeout.Good

/-- A file history comment that XML can hold. -/
def FhCom.Good (c : FhCom) : Prop := c.com.Good ∧ c.toolId.Good ∧ c.toolVendor.Good ∧ c.toolVersion.Good ∧ c.userName.Good

/-- A source comment that XML can hold. -/
def SiCom.Good (c : SiCom) : Prop := c.com.Good ∧ c.path.Good ∧ c.bus.Good ∧ c.protocol.Good

/-- A unit that XML can hold; its reference is stored in an attribute. -/
def CcUn.Good (c : CcUn) : Prop := c.com.Good ∧ c.unitRef.std.Good ∧ PlainLine c.unitRef.text

/-! ## What is read -/

/-- What is read of the text `s`.  An empty text is not stored. -/
def ReadText (s r : MdStr) : Prop := if s.text = [] then r = {} else r.std = s.std ∧ r.text = trim s.text

end Mdf
