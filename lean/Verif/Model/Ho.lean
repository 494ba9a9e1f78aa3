import Verif.Model.NumText

/-!
# Computation methods and unit specifications in comments

The parts of a comment that follow the ASAM harmonized objects, `/repo/mdflib/src/ho*.cpp`: a conversion's comment can hold a computation
method (`COMPU-METHOD`), the header's comment can hold a unit specification (`UNIT-SPEC`).

`ToXml` adds nodes to a node of the XML tree, `FromXml` reads the children of a node.  Numbers are written with `operator<<` and read with
`operator>>`, see `Model/NumText.lean`.

Simplified: `SetProperty` looks for a child of the name first; here the parent never has such a child, so a node is always added.
-/

namespace Mdf

/-- "SHORT-NAME" -/
def hShort : Bytes := [0x53#8, 0x48#8, 0x4F#8, 0x52#8, 0x54#8, 0x2D#8, 0x4E#8, 0x41#8, 0x4D#8, 0x45#8]
/-- "LONG-NAME" -/
def hLong : Bytes := [0x4C#8, 0x4F#8, 0x4E#8, 0x47#8, 0x2D#8, 0x4E#8, 0x41#8, 0x4D#8, 0x45#8]
/-- "DESC" -/
def hDesc : Bytes := [0x44#8, 0x45#8, 0x53#8, 0x43#8]
/-- "NAME-DETAILS" -/
def hNames : Bytes := [0x4E#8, 0x41#8, 0x4D#8, 0x45#8, 0x2D#8, 0x44#8, 0x45#8, 0x54#8, 0x41#8, 0x49#8, 0x4C#8, 0x53#8]
/-- "CATEGORY" -/
def hCategory : Bytes := [0x43#8, 0x41#8, 0x54#8, 0x45#8, 0x47#8, 0x4F#8, 0x52#8, 0x59#8]
/-- "UNIT-REF" -/
def hUnitRef : Bytes := [0x55#8, 0x4E#8, 0x49#8, 0x54#8, 0x2D#8, 0x52#8, 0x45#8, 0x46#8]
/-- "PHYS-CONSTRS" -/
def hPhys : Bytes := [0x50#8, 0x48#8, 0x59#8, 0x53#8, 0x2D#8, 0x43#8, 0x4F#8, 0x4E#8, 0x53#8, 0x54#8, 0x52#8, 0x53#8]
/-- "INTERNAL-CONSTRS" -/
def hInternal : Bytes := [0x49#8, 0x4E#8, 0x54#8, 0x45#8, 0x52#8, 0x4E#8, 0x41#8, 0x4C#8, 0x2D#8, 0x43#8, 0x4F#8, 0x4E#8, 0x53#8, 0x54#8, 0x52#8, 0x53#8]
/-- "SCALE-CONSTR" -/
def hConstr : Bytes := [0x53#8, 0x43#8, 0x41#8, 0x4C#8, 0x45#8, 0x2D#8, 0x43#8, 0x4F#8, 0x4E#8, 0x53#8, 0x54#8, 0x52#8]
/-- "LOWER-LIMIT" -/
def hLower : Bytes := [0x4C#8, 0x4F#8, 0x57#8, 0x45#8, 0x52#8, 0x2D#8, 0x4C#8, 0x49#8, 0x4D#8, 0x49#8, 0x54#8]
/-- "UPPER-LIMIT" -/
def hUpper : Bytes := [0x55#8, 0x50#8, 0x50#8, 0x45#8, 0x52#8, 0x2D#8, 0x4C#8, 0x49#8, 0x4D#8, 0x49#8, 0x54#8]
/-- "COMPU-INTERNAL-TO-PHYS" -/
def hToPhys : Bytes := [0x43#8, 0x4F#8, 0x4D#8, 0x50#8, 0x55#8, 0x2D#8, 0x49#8, 0x4E#8, 0x54#8, 0x45#8, 0x52#8, 0x4E#8, 0x41#8, 0x4C#8, 0x2D#8, 0x54#8, 0x4F#8, 0x2D#8, 0x50#8, 0x48#8, 0x59#8, 0x53#8]
/-- "COMPU-SCALES" -/
def hScales : Bytes := [0x43#8, 0x4F#8, 0x4D#8, 0x50#8, 0x55#8, 0x2D#8, 0x53#8, 0x43#8, 0x41#8, 0x4C#8, 0x45#8, 0x53#8]
/-- "COMPU-SCALE" -/
def hScale : Bytes := [0x43#8, 0x4F#8, 0x4D#8, 0x50#8, 0x55#8, 0x2D#8, 0x53#8, 0x43#8, 0x41#8, 0x4C#8, 0x45#8]
/-- "COMPU-DEFAULT-VALUE" -/
def hDefault : Bytes := [0x43#8, 0x4F#8, 0x4D#8, 0x50#8, 0x55#8, 0x2D#8, 0x44#8, 0x45#8, 0x46#8, 0x41#8, 0x55#8, 0x4C#8, 0x54#8, 0x2D#8, 0x56#8, 0x41#8, 0x4C#8, 0x55#8, 0x45#8]
/-- "V" -/
def hV : Bytes := [0x56#8]
/-- "VT" -/
def hVT : Bytes := [0x56#8, 0x54#8]
/-- "COMPU-CONST" -/
def hConst : Bytes := [0x43#8, 0x4F#8, 0x4D#8, 0x50#8, 0x55#8, 0x2D#8, 0x43#8, 0x4F#8, 0x4E#8, 0x53#8, 0x54#8]
/-- "COMPU-RATIONAL-COEFFS" -/
def hCoeffs : Bytes := [0x43#8, 0x4F#8, 0x4D#8, 0x50#8, 0x55#8, 0x2D#8, 0x52#8, 0x41#8, 0x54#8, 0x49#8, 0x4F#8, 0x4E#8, 0x41#8, 0x4C#8, 0x2D#8, 0x43#8, 0x4F#8, 0x45#8, 0x46#8, 0x46#8, 0x53#8]
/-- "COMPU-NUMERATOR" -/
def hNum : Bytes := [0x43#8, 0x4F#8, 0x4D#8, 0x50#8, 0x55#8, 0x2D#8, 0x4E#8, 0x55#8, 0x4D#8, 0x45#8, 0x52#8, 0x41#8, 0x54#8, 0x4F#8, 0x52#8]
/-- "COMPU-DENOMINATOR" -/
def hDen : Bytes := [0x43#8, 0x4F#8, 0x4D#8, 0x50#8, 0x55#8, 0x2D#8, 0x44#8, 0x45#8, 0x4E#8, 0x4F#8, 0x4D#8, 0x49#8, 0x4E#8, 0x41#8, 0x54#8, 0x4F#8, 0x52#8]
/-- "COMPU-GENERIC-MATH" -/
def hMath : Bytes := [0x43#8, 0x4F#8, 0x4D#8, 0x50#8, 0x55#8, 0x2D#8, 0x47#8, 0x45#8, 0x4E#8, 0x45#8, 0x52#8, 0x49#8, 0x43#8, 0x2D#8, 0x4D#8, 0x41#8, 0x54#8, 0x48#8]
/-- "COMPU-METHOD" -/
def hMethod : Bytes := [0x43#8, 0x4F#8, 0x4D#8, 0x50#8, 0x55#8, 0x2D#8, 0x4D#8, 0x45#8, 0x54#8, 0x48#8, 0x4F#8, 0x44#8]
/-- "UNIT-SPEC" -/
def hSpec : Bytes := [0x55#8, 0x4E#8, 0x49#8, 0x54#8, 0x2D#8, 0x53#8, 0x50#8, 0x45#8, 0x43#8]
/-- "ADMIN-DATA" -/
def hAdmin : Bytes := [0x41#8, 0x44#8, 0x4D#8, 0x49#8, 0x4E#8, 0x2D#8, 0x44#8, 0x41#8, 0x54#8, 0x41#8]
/-- "DOC-REVISIONS" -/
def hRevisions : Bytes := [0x44#8, 0x4F#8, 0x43#8, 0x2D#8, 0x52#8, 0x45#8, 0x56#8, 0x49#8, 0x53#8, 0x49#8, 0x4F#8, 0x4E#8, 0x53#8]
/-- "DOC-REVISION" -/
def hRevision : Bytes := [0x44#8, 0x4F#8, 0x43#8, 0x2D#8, 0x52#8, 0x45#8, 0x56#8, 0x49#8, 0x53#8, 0x49#8, 0x4F#8, 0x4E#8]
/-- "TEAM-MEMBER-REF" -/
def hMember : Bytes := [0x54#8, 0x45#8, 0x41#8, 0x4D#8, 0x2D#8, 0x4D#8, 0x45#8, 0x4D#8, 0x42#8, 0x45#8, 0x52#8, 0x2D#8, 0x52#8, 0x45#8, 0x46#8]
/-- "REVISION-LABEL" -/
def hLabel : Bytes := [0x52#8, 0x45#8, 0x56#8, 0x49#8, 0x53#8, 0x49#8, 0x4F#8, 0x4E#8, 0x2D#8, 0x4C#8, 0x41#8, 0x42#8, 0x45#8, 0x4C#8]
/-- "STATE" -/
def hState : Bytes := [0x53#8, 0x54#8, 0x41#8, 0x54#8, 0x45#8]
/-- "DATE" -/
def hDate : Bytes := [0x44#8, 0x41#8, 0x54#8, 0x45#8]
/-- "COMPANY-REVISION-INFOS" -/
def hCompanies : Bytes := [0x43#8, 0x4F#8, 0x4D#8, 0x50#8, 0x41#8, 0x4E#8, 0x59#8, 0x2D#8, 0x52#8, 0x45#8, 0x56#8, 0x49#8, 0x53#8, 0x49#8, 0x4F#8, 0x4E#8, 0x2D#8, 0x49#8, 0x4E#8, 0x46#8, 0x4F#8, 0x53#8]
/-- "COMPANY-REVISION-INFO" -/
def hCompany : Bytes := [0x43#8, 0x4F#8, 0x4D#8, 0x50#8, 0x41#8, 0x4E#8, 0x59#8, 0x2D#8, 0x52#8, 0x45#8, 0x56#8, 0x49#8, 0x53#8, 0x49#8, 0x4F#8, 0x4E#8, 0x2D#8, 0x49#8, 0x4E#8, 0x46#8, 0x4F#8]
/-- "COMPANY-DATA-REF" -/
def hData : Bytes := [0x43#8, 0x4F#8, 0x4D#8, 0x50#8, 0x41#8, 0x4E#8, 0x59#8, 0x2D#8, 0x44#8, 0x41#8, 0x54#8, 0x41#8, 0x2D#8, 0x52#8, 0x45#8, 0x46#8]
/-- "MODIFICATIONS" -/
def hMods : Bytes := [0x4D#8, 0x4F#8, 0x44#8, 0x49#8, 0x46#8, 0x49#8, 0x43#8, 0x41#8, 0x54#8, 0x49#8, 0x4F#8, 0x4E#8, 0x53#8]
/-- "MODIFICATION" -/
def hMod : Bytes := [0x4D#8, 0x4F#8, 0x44#8, 0x49#8, 0x46#8, 0x49#8, 0x43#8, 0x41#8, 0x54#8, 0x49#8, 0x4F#8, 0x4E#8]
/-- "CHANGE" -/
def hChange : Bytes := [0x43#8, 0x48#8, 0x41#8, 0x4E#8, 0x47#8, 0x45#8]
/-- "REASON" -/
def hReason : Bytes := [0x52#8, 0x45#8, 0x41#8, 0x53#8, 0x4F#8, 0x4E#8]
/-- "PHYSICAL-DIMENSIONS" -/
def hDims : Bytes := [0x50#8, 0x48#8, 0x59#8, 0x53#8, 0x49#8, 0x43#8, 0x41#8, 0x4C#8, 0x2D#8, 0x44#8, 0x49#8, 0x4D#8, 0x45#8, 0x4E#8, 0x53#8, 0x49#8, 0x4F#8, 0x4E#8, 0x53#8]
/-- "PHYSICAL-DIMENSION" -/
def hDim : Bytes := [0x50#8, 0x48#8, 0x59#8, 0x53#8, 0x49#8, 0x43#8, 0x41#8, 0x4C#8, 0x2D#8, 0x44#8, 0x49#8, 0x4D#8, 0x45#8, 0x4E#8, 0x53#8, 0x49#8, 0x4F#8, 0x4E#8]
/-- "LENGTH-EXP" -/
def hLengthExp : Bytes := [0x4C#8, 0x45#8, 0x4E#8, 0x47#8, 0x54#8, 0x48#8, 0x2D#8, 0x45#8, 0x58#8, 0x50#8]
/-- "MASS-EXP" -/
def hMassExp : Bytes := [0x4D#8, 0x41#8, 0x53#8, 0x53#8, 0x2D#8, 0x45#8, 0x58#8, 0x50#8]
/-- "TIME-EXP" -/
def hTimeExp : Bytes := [0x54#8, 0x49#8, 0x4D#8, 0x45#8, 0x2D#8, 0x45#8, 0x58#8, 0x50#8]
/-- "CURRENT-EXP" -/
def hCurrentExp : Bytes := [0x43#8, 0x55#8, 0x52#8, 0x52#8, 0x45#8, 0x4E#8, 0x54#8, 0x2D#8, 0x45#8, 0x58#8, 0x50#8]
/-- "TEMPERATURE-EXP" -/
def hTempExp : Bytes := [0x54#8, 0x45#8, 0x4D#8, 0x50#8, 0x45#8, 0x52#8, 0x41#8, 0x54#8, 0x55#8, 0x52#8, 0x45#8, 0x2D#8, 0x45#8, 0x58#8, 0x50#8]
/-- "MOLAR-AMOUNT-EXP" -/
def hMolarAmountExp : Bytes := [0x4D#8, 0x4F#8, 0x4C#8, 0x41#8, 0x52#8, 0x2D#8, 0x41#8, 0x4D#8, 0x4F#8, 0x55#8, 0x4E#8, 0x54#8, 0x2D#8, 0x45#8, 0x58#8, 0x50#8]
/-- "LUMINOUS-INTENSITY-EXP" -/
def hLuminousIntExp : Bytes := [0x4C#8, 0x55#8, 0x4D#8, 0x49#8, 0x4E#8, 0x4F#8, 0x55#8, 0x53#8, 0x2D#8, 0x49#8, 0x4E#8, 0x54#8, 0x45#8, 0x4E#8, 0x53#8, 0x49#8, 0x54#8, 0x59#8, 0x2D#8, 0x45#8, 0x58#8, 0x50#8]
/-- "MOLAR-EXP" -/
def hMolarExp : Bytes := [0x4D#8, 0x4F#8, 0x4C#8, 0x41#8, 0x52#8, 0x2D#8, 0x45#8, 0x58#8, 0x50#8]
/-- "LUMINOUS-EXP" -/
def hLuminousExp : Bytes := [0x4C#8, 0x55#8, 0x4D#8, 0x49#8, 0x4E#8, 0x4F#8, 0x55#8, 0x53#8, 0x2D#8, 0x45#8, 0x58#8, 0x50#8]
/-- "UNITGROUPS" -/
def hGroups : Bytes := [0x55#8, 0x4E#8, 0x49#8, 0x54#8, 0x47#8, 0x52#8, 0x4F#8, 0x55#8, 0x50#8, 0x53#8]
/-- "UNITGROUP" -/
def hGroup : Bytes := [0x55#8, 0x4E#8, 0x49#8, 0x54#8, 0x47#8, 0x52#8, 0x4F#8, 0x55#8, 0x50#8]
/-- "UNIT-REFS" -/
def hUnitRefs : Bytes := [0x55#8, 0x4E#8, 0x49#8, 0x54#8, 0x2D#8, 0x52#8, 0x45#8, 0x46#8, 0x53#8]
/-- "UNITS" -/
def hUnits : Bytes := [0x55#8, 0x4E#8, 0x49#8, 0x54#8, 0x53#8]
/-- "UNIT" -/
def hUnit : Bytes := [0x55#8, 0x4E#8, 0x49#8, 0x54#8]
/-- "DISPLAY-NAME" -/
def hDisplay : Bytes := [0x44#8, 0x49#8, 0x53#8, 0x50#8, 0x4C#8, 0x41#8, 0x59#8, 0x2D#8, 0x4E#8, 0x41#8, 0x4D#8, 0x45#8]
/-- "FACTOR-SI-TO-UNIT" -/
def hFactor : Bytes := [0x46#8, 0x41#8, 0x43#8, 0x54#8, 0x4F#8, 0x52#8, 0x2D#8, 0x53#8, 0x49#8, 0x2D#8, 0x54#8, 0x4F#8, 0x2D#8, 0x55#8, 0x4E#8, 0x49#8, 0x54#8]
/-- "OFFSET-SI-TO-UNIT" -/
def hOffset : Bytes := [0x4F#8, 0x46#8, 0x46#8, 0x53#8, 0x45#8, 0x54#8, 0x2D#8, 0x53#8, 0x49#8, 0x2D#8, 0x54#8, 0x4F#8, 0x2D#8, 0x55#8, 0x4E#8, 0x49#8, 0x54#8]
/-- "PHYSICAL-DIMENSION-REF" -/
def hDimRef : Bytes := [0x50#8, 0x48#8, 0x59#8, 0x53#8, 0x49#8, 0x43#8, 0x41#8, 0x4C#8, 0x2D#8, 0x44#8, 0x49#8, 0x4D#8, 0x45#8, 0x4E#8, 0x53#8, 0x49#8, 0x4F#8, 0x4E#8, 0x2D#8, 0x52#8, 0x45#8, 0x46#8]
/-- "ID" -/
def hId : Bytes := [0x49#8, 0x44#8]
/-- "ID-REF" -/
def hIdRef : Bytes := [0x49#8, 0x44#8, 0x2D#8, 0x52#8, 0x45#8, 0x46#8]
/-- "INTERVAL-TYPE" -/
def hIntervalType : Bytes := [0x49#8, 0x4E#8, 0x54#8, 0x45#8, 0x52#8, 0x56#8, 0x41#8, 0x4C#8, 0x2D#8, 0x54#8, 0x59#8, 0x50#8, 0x45#8]
/-- "VALIDITY" -/
def hValidity : Bytes := [0x56#8, 0x41#8, 0x4C#8, 0x49#8, 0x44#8, 0x49#8, 0x54#8, 0x59#8]
/-- "xmlns:ho" -/
def hXmlns : Bytes := [0x78#8, 0x6D#8, 0x6C#8, 0x6E#8, 0x73#8, 0x3A#8, 0x68#8, 0x6F#8]
/-- "http://www.asam.net/xml" -/
def hUri : Bytes := [0x68#8, 0x74#8, 0x74#8, 0x70#8, 0x3A#8, 0x2F#8, 0x2F#8, 0x77#8, 0x77#8, 0x77#8, 0x2E#8, 0x61#8, 0x73#8, 0x61#8, 0x6D#8, 0x2E#8, 0x6E#8, 0x65#8, 0x74#8, 0x2F#8, 0x78#8, 0x6D#8, 0x6C#8]
/-- "ho:" -/
def hoPrefix : Bytes := [0x68#8, 0x6F#8, 0x3A#8]


/-- A name in the namespace `ho`. -/
def hoTag (s : Bytes) : Bytes := hoPrefix ++ s

/-- `HoIntervalType`.  `/repo/include/mdf/hoenumerates.h` lines 35-39. -/
inductive HoIvType where
  | open_ | closed | infinite
deriving DecidableEq, Repr

/-- `HoIntervalTypeToString`.  hoenumerates.cpp lines 20-22 and 84-87. -/
def HoIvType.word : HoIvType → Bytes
  | .open_ => [0x4F#8, 0x50#8, 0x45#8, 0x4E#8]
  | .closed => [0x43#8, 0x4C#8, 0x4F#8, 0x53#8, 0x45#8, 0x44#8]
  | .infinite => [0x49#8, 0x4E#8, 0x46#8, 0x49#8, 0x4E#8, 0x49#8, 0x54#8, 0x45#8]

/-- `StringToHoIntervalType`.  hoenumerates.cpp lines 57-67 and 89-92. -/
def HoIvType.ofWord (s : Bytes) : HoIvType :=
  ([.open_, .closed, .infinite].find? fun x => x.word == s).getD .closed

/-- `HoValidity`.  `/repo/include/mdf/hoenumerates.h` lines 44-51. -/
inductive HoValid where
  | valid | notValid | notAvailable | notDefined | error | other
deriving DecidableEq, Repr

/-- `HoValidityToString`.  hoenumerates.cpp lines 24-26 and 94-97. -/
def HoValid.word : HoValid → Bytes
  | .valid => [0x56#8, 0x41#8, 0x4C#8, 0x49#8, 0x44#8]
  | .notValid => [0x4E#8, 0x4F#8, 0x54#8, 0x2D#8, 0x56#8, 0x41#8, 0x4C#8, 0x49#8, 0x44#8]
  | .notAvailable => [0x4E#8, 0x4F#8, 0x54#8, 0x2D#8, 0x41#8, 0x56#8, 0x41#8, 0x49#8, 0x4C#8, 0x41#8, 0x42#8, 0x4C#8, 0x45#8]
  | .notDefined => [0x4E#8, 0x4F#8, 0x54#8, 0x2D#8, 0x44#8, 0x45#8, 0x46#8, 0x49#8, 0x4E#8, 0x45#8, 0x44#8]
  | .error => [0x45#8, 0x52#8, 0x52#8, 0x4F#8, 0x52#8]
  | .other => [0x4F#8, 0x54#8, 0x48#8, 0x45#8, 0x52#8]

/-- `StringToHoValidity`.  hoenumerates.cpp lines 57-67 and 99-102. -/
def HoValid.ofWord (s : Bytes) : HoValid :=
  ([.valid, .notValid, .notAvailable, .notDefined, .error, .other].find? fun x => x.word == s).getD .valid

/-- `HoComputationMethodCategory`.  `/repo/include/mdf/hoenumerates.h` lines 106-113. -/
inductive HoCategory where
  | identical | linear | scaleLinear | textTable | tabNoInterpolation | formula
deriving DecidableEq, Repr

/-- `HoComputationMethodCategoryToString`.  hoenumerates.cpp lines 48-51 and 145-149. -/
def HoCategory.word : HoCategory → Bytes
  | .identical => [0x49#8, 0x44#8, 0x45#8, 0x4E#8, 0x54#8, 0x49#8, 0x43#8, 0x41#8, 0x4C#8]
  | .linear => [0x4C#8, 0x49#8, 0x4E#8, 0x45#8, 0x41#8, 0x52#8]
  | .scaleLinear => [0x53#8, 0x43#8, 0x41#8, 0x4C#8, 0x45#8, 0x2D#8, 0x4C#8, 0x49#8, 0x4E#8, 0x45#8, 0x41#8, 0x52#8]
  | .textTable => [0x54#8, 0x45#8, 0x58#8, 0x54#8, 0x54#8, 0x41#8, 0x42#8, 0x4C#8, 0x45#8]
  | .tabNoInterpolation => [0x54#8, 0x41#8, 0x42#8, 0x2D#8, 0x4E#8, 0x4F#8, 0x49#8, 0x4E#8, 0x54#8, 0x50#8]
  | .formula => [0x46#8, 0x4F#8, 0x52#8, 0x4D#8, 0x55#8, 0x4C#8, 0x41#8]

/-- `StringToHoComputationMethodCategory`.  hoenumerates.cpp lines 57-67 and 151-154. -/
def HoCategory.ofWord (s : Bytes) : HoCategory :=
  ([.identical, .linear, .scaleLinear, .textTable, .tabNoInterpolation, .formula].find? fun x => x.word == s).getD .identical

/-- `HoUnitGroupCategory`.  `/repo/include/mdf/hoenumerates.h` lines 120-123. -/
inductive HoGroupCategory where
  | country | equivUnits
deriving DecidableEq, Repr

/-- `HoUnitGroupCategoryToString`.  hoenumerates.cpp lines 53-55 and 156-160. -/
def HoGroupCategory.word : HoGroupCategory → Bytes
  | .country => [0x43#8, 0x4F#8, 0x55#8, 0x4E#8, 0x54#8, 0x52#8, 0x59#8]
  | .equivUnits => [0x45#8, 0x51#8, 0x55#8, 0x49#8, 0x56#8, 0x2D#8, 0x55#8, 0x4E#8, 0x49#8, 0x54#8, 0x53#8]

/-- `StringToHoUnitGroupCategory`.  hoenumerates.cpp lines 57-67 and 162-165. -/
def HoGroupCategory.ofWord (s : Bytes) : HoGroupCategory :=
  ([.country, .equivUnits].find? fun x => x.word == s).getD .country

/-! ## Nodes -/

/-- `SetProperty`, of a text.  ixmlnode.h lines 136-140. -/
def hoLeaf (tag v : Bytes) : XmlTree := .mk tag [] v []

/-- `SetProperty` or `Value`, of a `double`.  ixmlnode.h lines 136-140 and 208-214. -/
def hoNumLeaf (tag : Bytes) (q : Rat) : XmlTree := .mk tag [] (generalText q) []

/-- `AddNode`, then `SetAttribute("ID-REF", ..)`. -/
def hoRefLeaf (tag v : Bytes) : XmlTree := .mk tag [(hIdRef, v)] [] []

/-- A text that is written if it is not empty. -/
def hoTexts (tag v : Bytes) : List XmlTree := if v = [] then [] else [hoLeaf tag v]

/-- A number that is written if it is set. -/
def hoOptNum (tag : Bytes) : Option Rat → List XmlTree
  | some q => [hoNumLeaf tag q]
  | none => []

/-- A text that is written if it is set. -/
def hoOptText (tag : Bytes) : Option Bytes → List XmlTree
  | some v => [hoLeaf tag v]
  | none => []

/-- A node for a list, if the list is not empty. -/
def hoList (tag : Bytes) (ks : List XmlTree) (empty : Bool) : List XmlTree := if empty then [] else [.mk tag [] [] ks]

/-- `Value<double>()`: 0 if the text is no number.  ixmlnode.h lines 277-285. -/
def hoDouble (t : XmlTree) : Rat := (stodText (trim t.value)).getD 0

/-- The attribute `ID-REF`, or the text of the node.  For example hocompumethod.cpp lines 156-160. -/
def hoRef (t : XmlTree) : Bytes := if attrText t.attrs hIdRef = [] then trim t.value else attrText t.attrs hIdRef

/-! ## Names -/

/-- `HoNameDetails`.  `/repo/include/mdf/honamedetails.h` lines 34-36. -/
structure HoNames where
  short : Bytes := []
  long : List MdStr := []
  desc : List MdStr := []
deriving DecidableEq, Repr

/-- `IsActive`.  honamedetails.cpp lines 13-16. -/
def HoNames.isActive (n : HoNames) : Bool := !n.short.isEmpty || !n.long.isEmpty || !n.desc.isEmpty

/-- `HoNameDetails::ToXml`: the nodes are added to the node of the object, not to a node of their own.  honamedetails.cpp lines 50-63. -/
def HoNames.nodes (n : HoNames) : List XmlTree :=
  hoTexts (hoTag hShort) n.short ++ (n.long.flatMap (·.nodes (hoTag hLong)) ++ n.desc.flatMap (·.nodes (hoTag hDesc)))

/-- One child in `HoNameDetails::FromXml`.  honamedetails.cpp lines 68-84. -/
def HoNames.readKid (n : HoNames) (t : XmlTree) : HoNames :=
  if t.isTagName hShort then { n with short := trim t.value }
  else if t.isTagName hLong then { n with long := n.long ++ [MdStr.read {} t] }
  else if t.isTagName hDesc then { n with desc := n.desc ++ [MdStr.read {} t] }
  else n

/-- `HoNameDetails::FromXml`.  honamedetails.cpp lines 65-85. -/
def HoNames.read (n : HoNames) (t : XmlTree) : HoNames := t.kids.foldl HoNames.readKid n

/-! ## Limits -/

/-- `HoInterval`.  `/repo/include/mdf/hointerval.h` lines 28-29. -/
structure HoLimit where
  limit : Option Rat := none
  type : HoIvType := .closed
deriving DecidableEq, Repr

/-- `HoInterval::ToXml`: nothing without a limit.  hointerval.cpp lines 41-53. -/
def HoLimit.nodes (i : HoLimit) (tag : Bytes) : List XmlTree :=
  match i.limit with
  | some q => [.mk tag (if i.type = .closed then [] else [(hIntervalType, i.type.word)]) (generalText q) []]
  | none => []

/-- `HoInterval::FromXml`.  hointerval.cpp lines 55-62. -/
def HoLimit.read (i : HoLimit) (t : XmlTree) : HoLimit :=
  { limit := some (hoDouble t), type := if attrText t.attrs hIntervalType = [] then i.type else .ofWord (attrText t.attrs hIntervalType) }

/-- `HoScaleConstraint`.  `/repo/include/mdf/hoscaleconstraint.h` lines 37-39. -/
structure HoConstr where
  lower : HoLimit := {}
  upper : HoLimit := {}
  valid : HoValid := .valid
deriving DecidableEq, Repr

/-- `HoScaleConstraint::IsActive`.  hoscaleconstraint.cpp lines 25-27. -/
def HoConstr.isActive (c : HoConstr) : Bool := c.lower.limit.isSome || c.upper.limit.isSome

/-- `HoScaleConstraint::ToXml`: nothing without a limit.  hoscaleconstraint.cpp lines 53-69. -/
def HoConstr.nodes (c : HoConstr) : List XmlTree :=
  if c.isActive then
    [.mk (hoTag hConstr) (if c.valid = .valid then [] else [(hValidity, c.valid.word)]) []
      (c.lower.nodes (hoTag hLower) ++ c.upper.nodes (hoTag hUpper))]
  else []

/-- One child.  hoscaleconstraint.cpp lines 80-88. -/
def HoConstr.readKid (c : HoConstr) (t : XmlTree) : HoConstr :=
  if t.isTagName hLower then { c with lower := c.lower.read t }
  else if t.isTagName hUpper then { c with upper := c.upper.read t }
  else c

/-- `HoScaleConstraint::FromXml`.  hoscaleconstraint.cpp lines 71-90. -/
def HoConstr.read (c : HoConstr) (t : XmlTree) : HoConstr :=
  t.kids.foldl HoConstr.readKid
    { c with valid := if attrText t.attrs hValidity = [] then c.valid else .ofWord (attrText t.attrs hValidity) }

/-! ## Computation methods -/

/-- `HoCompuScale`, a constraint with a computation.  `/repo/include/mdf/hocompuscale.h` lines 48-55. -/
structure HoScale where
  constr : HoConstr := {}
  desc : List MdStr := []
  constNum : Option Rat := none
  constText : Option Bytes := none
  num : List Rat := []
  den : List Rat := []
  math : Bytes := []
deriving DecidableEq, Repr

/-- The constant, a number or a text, in a node.  hocompuscale.cpp lines 85-93, hocompumethod.cpp lines 128-136. -/
def hoConst (tag : Bytes) (q : Option Rat) (s : Option Bytes) : List XmlTree :=
  hoList tag (hoOptNum (hoTag hV) q ++ hoOptText (hoTag hVT) s) (q.isNone && s.isNone)

/-- The coefficients.  hocompuscale.cpp lines 94-108. -/
def HoScale.coeffs (s : HoScale) : List XmlTree :=
  hoList (hoTag hCoeffs) [.mk (hoTag hNum) [] [] (s.num.map (hoNumLeaf (hoTag hV))), .mk (hoTag hDen) [] [] (s.den.map (hoNumLeaf (hoTag hV)))]
    (s.num.isEmpty && s.den.isEmpty)

/-- `HoCompuScale::ToXml`.  The validity is not written.  hocompuscale.cpp lines 74-112. -/
def HoScale.node (s : HoScale) : XmlTree :=
  .mk (hoTag hScale) [] []
    (s.desc.flatMap (·.nodes (hoTag hDesc)) ++ (s.constr.lower.nodes (hoTag hLower) ++ (s.constr.upper.nodes (hoTag hUpper) ++
      (hoConst (hoTag hConst) s.constNum s.constText ++ (s.coeffs ++ hoTexts (hoTag hMath) s.math)))))

/-- A constant that is read.  hocompuscale.cpp lines 134-141. -/
def HoScale.readConst (s : HoScale) (t : XmlTree) : HoScale :=
  if t.isTagName hV then { s with constNum := some (hoDouble t) }
  else if t.isTagName hVT then { s with constText := some (trim t.value) }
  else s

/-- The values of the nodes `V`.  hocompuscale.cpp lines 149-155. -/
def hoValues (t : XmlTree) : List Rat := (t.kids.filter (·.isTagName hV)).map hoDouble

/-- The coefficients that are read.  hocompuscale.cpp lines 145-164. -/
def HoScale.readCoeff (s : HoScale) (t : XmlTree) : HoScale :=
  if t.isTagName hNum then { s with num := s.num ++ hoValues t }
  else if t.isTagName hDen then { s with den := s.den ++ hoValues t }
  else s

/-- One child.  hocompuscale.cpp lines 118-171. -/
def HoScale.readKid (s : HoScale) (t : XmlTree) : HoScale :=
  if t.isTagName hDesc then { s with desc := s.desc ++ [MdStr.read {} t] }
  else if t.isTagName hLower then { s with constr := { s.constr with lower := s.constr.lower.read t } }
  else if t.isTagName hUpper then { s with constr := { s.constr with upper := s.constr.upper.read t } }
  else if t.isTagName hConst then t.kids.foldl HoScale.readConst s
  else if t.isTagName hCoeffs then t.kids.foldl HoScale.readCoeff s
  else if t.isTagName hMath then { s with math := trim t.value }
  else s

/-- `HoCompuScale::FromXml`: the attribute `VALIDITY` is not read.  hocompuscale.cpp lines 114-172. -/
def HoScale.read (s : HoScale) (t : XmlTree) : HoScale := t.kids.foldl HoScale.readKid s

/-- `HoCompuMethod`.  `/repo/include/mdf/hocompumethod.h` lines 50-57. -/
structure HoMethod where
  names : HoNames := {}
  category : HoCategory := .identical
  unitRef : Bytes := []
  phys : List HoConstr := []
  internal : List HoConstr := []
  scales : List HoScale := []
  defNum : Option Rat := none
  defText : Option Bytes := none
deriving DecidableEq, Repr

/-- `HoCompuMethod::IsActive`: the category does not count.  hocompumethod.cpp lines 15-23. -/
def HoMethod.isActive (m : HoMethod) : Bool :=
  m.names.isActive || !m.unitRef.isEmpty || !m.phys.isEmpty || !m.internal.isEmpty || !m.scales.isEmpty || m.defNum.isSome || m.defText.isSome

/-- The computation.  hocompumethod.cpp lines 119-137. -/
def HoMethod.toPhys (m : HoMethod) : List XmlTree :=
  hoList (hoTag hToPhys) (hoList (hoTag hScales) (m.scales.map HoScale.node) m.scales.isEmpty ++ hoConst (hoTag hDefault) m.defNum m.defText)
    (m.scales.isEmpty && m.defNum.isNone && m.defText.isNone)

/-- The reference to the unit.  hocompumethod.cpp lines 102-105. -/
def HoMethod.refNodes (m : HoMethod) : List XmlTree := if m.unitRef = [] then [] else [hoRefLeaf (hoTag hUnitRef) m.unitRef]

/-- `HoCompuMethod::ToXml`, of an active method.  hocompumethod.cpp lines 93-140. -/
def HoMethod.node (m : HoMethod) : XmlTree :=
  .mk (hoTag hMethod) [] []
    (m.names.nodes ++ (hoLeaf (hoTag hCategory) m.category.word :: (m.refNodes ++
      (hoList (hoTag hPhys) (m.phys.flatMap HoConstr.nodes) m.phys.isEmpty ++
      (hoList (hoTag hInternal) (m.internal.flatMap HoConstr.nodes) m.internal.isEmpty ++ m.toPhys)))))

/-- The constraints that are read.  hocompumethod.cpp lines 162-169. -/
def hoConstrs (t : XmlTree) : List HoConstr := (t.kids.filter (·.isTagName hConstr)).map (HoConstr.read {})

/-- The default value that is read.  hocompumethod.cpp lines 200-209. -/
def HoMethod.readDefault (m : HoMethod) (t : XmlTree) : HoMethod :=
  if t.isTagName hV then { m with defNum := some (hoDouble t) }
  else if t.isTagName hVT then { m with defText := some (trim t.value) }
  else m

/-- The computation that is read.  hocompumethod.cpp lines 181-211. -/
def HoMethod.readPhys (m : HoMethod) (t : XmlTree) : HoMethod :=
  if t.isTagName hScales then { m with scales := m.scales ++ (t.kids.filter (·.isTagName hScale)).map (HoScale.read {}) }
  else if t.isTagName hDefault then t.kids.foldl HoMethod.readDefault m
  else m

/-- One child: the names are looked for in a node `NAME-DETAILS`.  hocompumethod.cpp lines 145-214. -/
def HoMethod.readKid (m : HoMethod) (t : XmlTree) : HoMethod :=
  if t.isTagName hNames then { m with names := m.names.read t }
  else if t.isTagName hCategory then (if trim t.value = [] then m else { m with category := .ofWord (trim t.value) })
  else if t.isTagName hUnitRef then { m with unitRef := hoRef t }
  else if t.isTagName hPhys then { m with phys := m.phys ++ hoConstrs t }
  else if t.isTagName hInternal then { m with internal := m.internal ++ hoConstrs t }
  else if t.isTagName hToPhys then t.kids.foldl HoMethod.readPhys m
  else m

/-- `HoCompuMethod::FromXml`.  hocompumethod.cpp lines 142-215. -/
def HoMethod.read (m : HoMethod) (t : XmlTree) : HoMethod := t.kids.foldl HoMethod.readKid m

/-! ## Units -/

/-- `HoUnit`.  `/repo/include/mdf/hounit.h` lines 40-45. -/
structure HoUnit where
  names : HoNames := {}
  id : Bytes := []
  display : Bytes := []
  factor : Rat := 1
  offset : Rat := 0
  dimRef : Bytes := []
deriving DecidableEq, Repr

/-- `Identity(..)`: it is the short name too, if there is none.  hounit.cpp lines 13-18. -/
def HoUnit.setId (u : HoUnit) (s : Bytes) : HoUnit := { u with id := s, names := if u.names.short = [] then { u.names with short := s } else u.names }

/-- The factor and the offset, if one of them is not the default.  hounit.cpp lines 66-69. -/
def HoUnit.numNodes (u : HoUnit) : List XmlTree :=
  if u.factor ≠ 1 ∨ u.offset ≠ 0 then [hoNumLeaf (hoTag hFactor) u.factor, hoNumLeaf (hoTag hOffset) u.offset] else []

/-- `HoUnit::ToXml`.  hounit.cpp lines 55-74. -/
def HoUnit.node (u : HoUnit) : XmlTree :=
  .mk (hoTag hUnit) [(hId, u.id)] []
    (u.names.nodes ++ (hoTexts (hoTag hDisplay) u.display ++ (u.numNodes ++ hoTexts (hoTag hDimRef) u.dimRef)))

/-- One child.  hounit.cpp lines 80-98. -/
def HoUnit.readKid (u : HoUnit) (t : XmlTree) : HoUnit :=
  if t.isTagName hNames then { u with names := u.names.read t }
  else if t.isTagName hDisplay then { u with display := trim t.value }
  else if t.isTagName hFactor then { u with factor := hoDouble t }
  else if t.isTagName hOffset then { u with offset := hoDouble t }
  else if t.isTagName hDimRef then { u with dimRef := hoRef t }
  else u

/-- `HoUnit::FromXml`: the short name is not set.  hounit.cpp lines 75-100. -/
def HoUnit.read (u : HoUnit) (t : XmlTree) : HoUnit := t.kids.foldl HoUnit.readKid { u with id := attrText t.attrs hId }

/-! ## Dimensions -/

/-- The base quantities. -/
inductive HoBase where
  | length | mass | time | current | temperature | molar | luminous
deriving DecidableEq, Repr

/-- The names of the exponents that are written, without namespace.  hophysicaldimension.cpp lines 83-103. -/
def HoBase.written : HoBase → Bytes
  | .length => hLengthExp
  | .mass => hMassExp
  | .time => hTimeExp
  | .current => hCurrentExp
  | .temperature => hTempExp
  | .molar => hMolarAmountExp
  | .luminous => hLuminousIntExp

/-- `HoPhysicalDimension`.  `/repo/include/mdf/hophysicaldimension.h` lines 49-56. -/
structure HoDim where
  names : HoNames := {}
  id : Bytes := []
  length : Rat := 0
  mass : Rat := 0
  time : Rat := 0
  current : Rat := 0
  temperature : Rat := 0
  molar : Rat := 0
  luminous : Rat := 0
deriving DecidableEq, Repr

/-- `LengthExponent()` and so on.  hophysicaldimension.cpp lines 20-74. -/
def HoDim.exp (d : HoDim) : HoBase → Rat
  | .length => d.length
  | .mass => d.mass
  | .time => d.time
  | .current => d.current
  | .temperature => d.temperature
  | .molar => d.molar
  | .luminous => d.luminous

/-- One exponent, if it is not 0.  hophysicaldimension.cpp lines 83-103. -/
def hoExp (b : HoBase) (q : Rat) : List XmlTree := if q = 0 then [] else [hoNumLeaf b.written q]

/-- `HoPhysicalDimension::ToXml`.  hophysicaldimension.cpp lines 76-104. -/
def HoDim.node (d : HoDim) : XmlTree :=
  .mk (hoTag hDim) [(hId, d.id)] []
    (d.names.nodes ++ (hoExp .length d.length ++ (hoExp .mass d.mass ++ (hoExp .time d.time ++ (hoExp .current d.current ++
      (hoExp .temperature d.temperature ++ (hoExp .molar d.molar ++ hoExp .luminous d.luminous)))))))

/-- One child.  hophysicaldimension.cpp lines 110-131. -/
def HoDim.readKid (d : HoDim) (t : XmlTree) : HoDim :=
  if t.isTagName hNames then { d with names := d.names.read t }
  else if t.isTagName hLengthExp then { d with length := hoDouble t }
  else if t.isTagName hMassExp then { d with mass := hoDouble t }
  else if t.isTagName hTimeExp then { d with time := hoDouble t }
  else if t.isTagName hCurrentExp then { d with current := hoDouble t }
  else if t.isTagName hTempExp then { d with temperature := hoDouble t }
  else if t.isTagName hMolarExp then { d with molar := hoDouble t }
  else if t.isTagName hLuminousExp then { d with luminous := hoDouble t }
  else d

/-- `HoPhysicalDimension::FromXml`.  hophysicaldimension.cpp lines 106-132. -/
def HoDim.read (d : HoDim) (t : XmlTree) : HoDim := t.kids.foldl HoDim.readKid { d with id := attrText t.attrs hId }

/-! ## Unit groups -/

/-- `HoUnitGroup`; the references are a `std::set`.  `/repo/include/mdf/hounitgroup.h` lines 35-36. -/
structure HoGroup where
  names : HoNames := {}
  category : HoGroupCategory := .country
  refs : List Bytes := []
deriving DecidableEq, Repr

/-- `AddUnitReference`.  hounitgroup.cpp lines 21-23. -/
def HoGroup.addRef (g : HoGroup) (r : Bytes) : HoGroup := { g with refs := mapInsert id r g.refs }

/-- `HoUnitGroup::ToXml`.  hounitgroup.cpp lines 33-49. -/
def HoGroup.node (g : HoGroup) : XmlTree :=
  .mk (hoTag hGroup) [] []
    (g.names.nodes ++ (hoLeaf (hoTag hCategory) g.category.word ::
      hoList (hoTag hUnitRefs) (g.refs.map (hoRefLeaf (hoTag hUnitRef))) g.refs.isEmpty))

/-- One reference that is read.  hounitgroup.cpp lines 66-73. -/
def HoGroup.readRef (g : HoGroup) (t : XmlTree) : HoGroup := if t.isTagName hUnitRef then g.addRef (hoRef t) else g

/-- One child.  hounitgroup.cpp lines 55-76. -/
def HoGroup.readKid (g : HoGroup) (t : XmlTree) : HoGroup :=
  if t.isTagName hCategory then { g with category := .ofWord (trim t.value) }
  else if t.isTagName hUnitRefs then t.kids.foldl HoGroup.readRef g
  else g

/-- `HoUnitGroup::FromXml`: here the names are read of the node itself.  hounitgroup.cpp lines 51-78. -/
def HoGroup.read (g : HoGroup) (t : XmlTree) : HoGroup := t.kids.foldl HoGroup.readKid { g with names := g.names.read t }

/-! ## Revisions -/

/-- `HoCompanyRevision`.  `/repo/include/mdf/horevision.h` lines 17-21. -/
structure HoCompany where
  ref : Bytes := []
  label : Bytes := []
  state : Bytes := []
deriving DecidableEq, Repr

/-- `HoModification`.  `/repo/include/mdf/horevision.h` lines 24-27. -/
structure HoMod where
  change : Bytes := []
  reason : Bytes := []
deriving DecidableEq, Repr

/-- `HoRevision`.  `/repo/include/mdf/horevision.h` lines 61-67. -/
structure HoRev where
  member : Bytes := []
  label : Bytes := []
  state : Bytes := []
  date : Bytes := []
  companies : List HoCompany := []
  mods : List HoMod := []
deriving DecidableEq, Repr

/-- The node for a company.  horevision.cpp lines 98-109. -/
def HoCompany.node (c : HoCompany) : XmlTree :=
  .mk (hoTag hCompany) [] [] (hoTexts (hoTag hData) c.ref ++ (hoTexts (hoTag hLabel) c.label ++ hoTexts (hoTag hState) c.state))

/-- The node for a modification.  horevision.cpp lines 116-121. -/
def HoMod.node (m : HoMod) : XmlTree := .mk (hoTag hMod) [] [] (hoLeaf (hoTag hChange) m.change :: hoTexts (hoTag hReason) m.reason)

/-- The reference to a member.  horevision.cpp lines 82-85. -/
def HoRev.refNodes (r : HoRev) : List XmlTree := if r.member = [] then [] else [hoRefLeaf (hoTag hMember) r.member]

/-- `HoRevision::ToXml`.  horevision.cpp lines 80-124. -/
def HoRev.node (r : HoRev) : XmlTree :=
  .mk (hoTag hRevision) [] []
    (r.refNodes ++ (hoTexts (hoTag hLabel) r.label ++ (hoTexts (hoTag hState) r.state ++ (hoTexts (hoTag hDate) r.date ++
      (hoList (hoTag hCompanies) (r.companies.map HoCompany.node) r.companies.isEmpty ++
       hoList (hoTag hMods) (r.mods.map HoMod.node) r.mods.isEmpty)))))

/-- The reference of a company.  horevision.cpp lines 154-159. -/
def hoDataRef (t : XmlTree) : Bytes := ((t.kids.find? (·.isTagName hData)).map hoRef).getD []

/-- A company that is read.  horevision.cpp lines 151-167. -/
def HoCompany.read (t : XmlTree) : HoCompany := { ref := hoDataRef t, label := t.property hLabel, state := t.property hState }

/-- A modification that is read.  horevision.cpp lines 173-180. -/
def HoMod.read (t : XmlTree) : HoMod := { change := t.property hChange, reason := t.property hReason }

/-- One child.  horevision.cpp lines 129-182. -/
def HoRev.readKid (r : HoRev) (t : XmlTree) : HoRev :=
  if t.isTagName hMember then { r with member := hoRef t }
  else if t.isTagName hLabel then { r with label := trim t.value }
  else if t.isTagName hState then { r with state := trim t.value }
  else if t.isTagName hDate then { r with date := trim t.value }
  else if t.isTagName hCompanies then { r with companies := r.companies ++ (t.kids.filter (·.isTagName hCompany)).map HoCompany.read }
  else if t.isTagName hMods then { r with mods := r.mods ++ (t.kids.filter (·.isTagName hMod)).map HoMod.read }
  else r

/-- `HoRevision::FromXml`.  horevision.cpp lines 126-184. -/
def HoRev.read (r : HoRev) (t : XmlTree) : HoRev := t.kids.foldl HoRev.readKid r

/-! ## The unit specification -/

/-- `HoUnitSpecification`; the dimensions, groups and units are maps by identity or short name.
`/repo/include/mdf/hounitspecification.h` lines 41-44, `/repo/include/mdf/hoadmindata.h`. -/
structure HoSpec where
  revisions : List HoRev := []
  dims : List HoDim := []
  groups : List HoGroup := []
  units : List HoUnit := []
deriving DecidableEq, Repr

/-- `AddRevision`.  hoadmindata.cpp lines 17-19. -/
def HoSpec.addRevision (s : HoSpec) (r : HoRev) : HoSpec := { s with revisions := s.revisions ++ [r] }

/-- `AddPhysicalDimension`.  hounitspecification.cpp lines 27-41. -/
def HoSpec.addDim (s : HoSpec) (d : HoDim) : HoSpec := if d.id = [] then s else { s with dims := mapInsert HoDim.id d s.dims }

/-- `AddUnitGroup`.  hounitspecification.cpp lines 50-63. -/
def HoSpec.addGroup (s : HoSpec) (g : HoGroup) : HoSpec :=
  if g.names.short = [] then s else { s with groups := mapInsert (fun x : HoGroup => x.names.short) g s.groups }

/-- `AddUnit`.  hounitspecification.cpp lines 73-86. -/
def HoSpec.addUnit (s : HoSpec) (u : HoUnit) : HoSpec := if u.id = [] then s else { s with units := mapInsert HoUnit.id u s.units }

/-- `HoUnitSpecification::IsActive`.  hounitspecification.cpp lines 14-17. -/
def HoSpec.isActive (s : HoSpec) : Bool := !s.revisions.isEmpty || !s.dims.isEmpty || !s.groups.isEmpty || !s.units.isEmpty

/-- The revisions.  hoadmindata.cpp lines 28-37. -/
def HoSpec.adminNodes (s : HoSpec) : List XmlTree :=
  hoList (hoTag hAdmin) [.mk (hoTag hRevisions) [] [] (s.revisions.map HoRev.node)] s.revisions.isEmpty

/-- `HoUnitSpecification::ToXml`.  hounitspecification.cpp lines 96-128. -/
def HoSpec.nodes (s : HoSpec) : List XmlTree :=
  if s.isActive then
    [.mk (hoTag hSpec) [] []
      (s.adminNodes ++ (hoList (hoTag hDims) (s.dims.map HoDim.node) s.dims.isEmpty ++
        (hoList (hoTag hGroups) (s.groups.map HoGroup.node) s.groups.isEmpty ++
         hoList (hoTag hUnits) (s.units.map HoUnit.node) s.units.isEmpty)))]
  else []

/-- The revisions that are read.  hoadmindata.cpp lines 39-55. -/
def HoSpec.readAdmin (s : HoSpec) (t : XmlTree) : HoSpec :=
  if t.isTagName hRevisions then { s with revisions := s.revisions ++ (t.kids.filter (·.isTagName hRevision)).map (HoRev.read {}) } else s

/-- A dimension that is read.  hounitspecification.cpp lines 143-149. -/
def HoSpec.readDim (s : HoSpec) (t : XmlTree) : HoSpec := if t.isTagName hDim then s.addDim (HoDim.read {} t) else s

/-- A group that is read.  hounitspecification.cpp lines 153-159. -/
def HoSpec.readGroup (s : HoSpec) (t : XmlTree) : HoSpec := if t.isTagName hGroup then s.addGroup (HoGroup.read {} t) else s

/-- A unit that is read.  hounitspecification.cpp lines 163-169. -/
def HoSpec.readUnit (s : HoSpec) (t : XmlTree) : HoSpec := if t.isTagName hUnit then s.addUnit (HoUnit.read {} t) else s

/-- One child.  hounitspecification.cpp lines 134-171. -/
def HoSpec.readKid (s : HoSpec) (t : XmlTree) : HoSpec :=
  if t.isTagName hAdmin then t.kids.foldl HoSpec.readAdmin s
  else if t.isTagName hDims then t.kids.foldl HoSpec.readDim s
  else if t.isTagName hGroups then t.kids.foldl HoSpec.readGroup s
  else if t.isTagName hUnits then t.kids.foldl HoSpec.readUnit s
  else s

/-- `HoUnitSpecification::FromXml`.  hounitspecification.cpp lines 130-172. -/
def HoSpec.read (s : HoSpec) (t : XmlTree) : HoSpec := t.kids.foldl HoSpec.readKid s

end Mdf
