import Verif.Model.Comment
import Verif.Model.CommentApi
import Verif.Model.CommentKinds
import Verif.Model.Csv
import Verif.Model.CsvFiles
import Verif.Model.HdComment
import Verif.Model.Ho
import Verif.Model.Id
import Verif.Model.NumText
import Verif.Model.Number
import Verif.Model.SourceInfo
import Verif.Model.Xml

/-!
# The names and words of the model are those of the source

The model has texts as lists of bytes.  Here they are compared with the string literals of the source; every literal stands in /repo, except
"Sample" and "ho:", which are parts of literals.
-/

namespace Mdf

/-- The bytes of a text of ASCII characters. -/
def ascii (s : String) : Bytes := s.toList.map (fun c => BitVec.ofNat 8 c.toNat)

/-- All texts of the model. -/
def textConstants : List (Bytes × String) :=
  [(tList, "list"), (tLi, "li"), (tElist, "elist"), (tEli, "eli"), (tNames, "names"), (tDisplay, "display"), (tVendor, "vendor"),
   (tDescription, "description"), (tFormula, "formula"), (tSyntax, "syntax"), (tCustomSyntax, "custom_syntax"),
   (tVariables, "variables"), (tVar, "var"), (kOffset, "offset"), (kVersion, "version"), (kSource, "source"), (aCn, "cn"),
   (aCs, "cs"), (aCp, "cp"), (aGn, "gn"), (aGs, "gs"), (aGp, "gp"), (kIdxPattern, "idx_list_pattern"), (kRaw, "raw"),
   (wDecimal, "decimal"), (wFloat, "float"), (wBoolean, "boolean"), (wDate, "date"), (wTime, "time"), (wDateTime, "dateTime"),
   (tComment, "comment"), (wVersion10, "1.0"), (wFalse, "false"), (tLinkerName, "linker_name"), (tLinkerAddress, "linker_address"),
   (tMonotony, "axis_monotony"), (tRaster, "raster"), (tAddress, "address"), (tPre, "pre_trigger_interval"),
   (tPost, "post_trigger_interval"), (tTimeout, "timeout"), (tToolId, "tool_id"), (tToolVendor, "tool_vendor"),
   (tToolVersion, "tool_version"), (tUserName, "user_name"), (tPath, "path"), (tBus, "bus"), (tProtocol, "protocol"),
   (tHoUnit, "ho_unit"), (wUnitRoot, "unit"), (bCN, "CN"), (bCC, "CC"), (bEV, "EV"), (bFH, "FH"), (bSI, "SI"), (wSample, "Sample"),
   (wDG, "_DG_"), (wCG, "_CG_"), (hcAuthor, "author"), (hcDepartment, "department"), (hcProject, "project"), (hcSubject, "subject"),
   (hcMeasurement, "Measurement.UUID"), (hcRecorder, "Recorder.UUID"), (hcFileIndex, "Recorder.FileIndex"), (hcHD, "HD"),
   (tTimeSource, "time_source"), (tConstants, "constants"), (tConst, "const"), (hShort, "SHORT-NAME"), (hLong, "LONG-NAME"),
   (hDesc, "DESC"), (hNames, "NAME-DETAILS"), (hCategory, "CATEGORY"), (hUnitRef, "UNIT-REF"), (hPhys, "PHYS-CONSTRS"),
   (hInternal, "INTERNAL-CONSTRS"), (hConstr, "SCALE-CONSTR"), (hLower, "LOWER-LIMIT"), (hUpper, "UPPER-LIMIT"),
   (hToPhys, "COMPU-INTERNAL-TO-PHYS"), (hScales, "COMPU-SCALES"), (hScale, "COMPU-SCALE"), (hDefault, "COMPU-DEFAULT-VALUE"),
   (hV, "V"), (hVT, "VT"), (hConst, "COMPU-CONST"), (hCoeffs, "COMPU-RATIONAL-COEFFS"), (hNum, "COMPU-NUMERATOR"),
   (hDen, "COMPU-DENOMINATOR"), (hMath, "COMPU-GENERIC-MATH"), (hMethod, "COMPU-METHOD"), (hSpec, "UNIT-SPEC"),
   (hAdmin, "ADMIN-DATA"), (hRevisions, "DOC-REVISIONS"), (hRevision, "DOC-REVISION"), (hMember, "TEAM-MEMBER-REF"),
   (hLabel, "REVISION-LABEL"), (hState, "STATE"), (hDate, "DATE"), (hCompanies, "COMPANY-REVISION-INFOS"),
   (hCompany, "COMPANY-REVISION-INFO"), (hData, "COMPANY-DATA-REF"), (hMods, "MODIFICATIONS"), (hMod, "MODIFICATION"),
   (hChange, "CHANGE"), (hReason, "REASON"), (hDims, "PHYSICAL-DIMENSIONS"), (hDim, "PHYSICAL-DIMENSION"), (hLengthExp, "LENGTH-EXP"),
   (hMassExp, "MASS-EXP"), (hTimeExp, "TIME-EXP"), (hCurrentExp, "CURRENT-EXP"), (hTempExp, "TEMPERATURE-EXP"),
   (hMolarAmountExp, "MOLAR-AMOUNT-EXP"), (hLuminousIntExp, "LUMINOUS-INTENSITY-EXP"), (hMolarExp, "MOLAR-EXP"),
   (hLuminousExp, "LUMINOUS-EXP"), (hGroups, "UNITGROUPS"), (hGroup, "UNITGROUP"), (hUnitRefs, "UNIT-REFS"), (hUnits, "UNITS"),
   (hUnit, "UNIT"), (hDisplay, "DISPLAY-NAME"), (hFactor, "FACTOR-SI-TO-UNIT"), (hOffset, "OFFSET-SI-TO-UNIT"),
   (hDimRef, "PHYSICAL-DIMENSION-REF"), (hId, "ID"), (hIdRef, "ID-REF"), (hIntervalType, "INTERVAL-TYPE"), (hValidity, "VALIDITY"),
   (hXmlns, "xmlns:ho"), (hUri, "http://www.asam.net/xml"), (hoPrefix, "ho:"), (idMdf, "MDF     "), (idUnFin, "UnFinMF "),
   (idProgram, "MdfWrite"), (hexPrefix, "0x"), (kByteCount, "byte_count"), (kBitMask, "bit_mask"), (kByteOrder, "byte_order"),
   (kMin, "min"), (kMax, "max"), (kAverage, "average"), (kTriggered, "triggered"), (wBE, "BE"), (kChannelNo, "ChannelNo"),
   (kMessageId, "MessageID"), (kMessageLength, "MessageLength"), (kMessage, "Message"), (wBusConfig, "Configurations for the bus"),
   (tTX, "TX"), (tE, "e"), (tTree, "tree"), (tCommon, "common_properties"), (kName, "name"), (kDesc, "desc"), (kCi, "ci"),
   (kType, "type"), (kLang, "xml:lang"), (kRo, "ro"), (kUnit, "unit"), (kUnitRef, "unit_ref"), (tHdComment, "HDcomment"),
   (wTrue, "true"), (wInteger, "integer"), (wString, "string")]

/-- C64: the elements, attributes, words and property names of comments are those the code writes and looks for. -/
theorem C64_names : ∀ p ∈ textConstants, p.1 = ascii p.2 := by decide +kernel

end Mdf
