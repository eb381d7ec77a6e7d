import Verif.A2l.PNames
import Verif.Go.Lit

/-!
Which parse function reads which A2L block (generated by tools/go2lean.py from the
tokens at the call sites: `parseX` is called after the token "/begin K").
-/

namespace Verif.A2l.Spec
open Verif.Go Verif.A2l

/-- The keyword of the block a parse function reads, if it reads a `/begin ... /end` block. -/
def blockKeyword : PName → Option Str
  | .parseA2ML => some (str! "A2ML")
  | .parseAnnotation => some (str! "ANNOTATION")
  | .parseAnnotationText => some (str! "ANNOTATION_TEXT")
  | .parseArComponent => some (str! "AR_COMPONENT")
  | .parseAxisDescr => some (str! "AXIS_DESCR")
  | .parseAxisPts => some (str! "AXIS_PTS")
  | .parseBitOperation => some (str! "BIT_OPERATION")
  | .parseBlob => some (str! "BLOB")
  | .parseCalibrationHandle => some (str! "CALIBRATION_HANDLE")
  | .parseCalibrationMethod => some (str! "CALIBRATION_METHOD")
  | .parseCharacteristic => some (str! "CHARACTERISTIC")
  | .parseCompuMethod => some (str! "COMPU_METHOD")
  | .parseCompuTab => some (str! "COMPU_TAB")
  | .parseCompuVtab => some (str! "COMPU_VTAB")
  | .parseCompuVtabRange => some (str! "COMPU_VTAB_RANGE")
  | .parseDefCharacteristic => some (str! "DEF_CHARACTERISTIC")
  | .parseDependentCharacteristic => some (str! "DEPENDENT_CHARACTERISTIC")
  | .parseFixAxisParList => some (str! "FIX_AXIS_PAR_LIST")
  | .parseFormula => some (str! "FORMULA")
  | .parseFrame => some (str! "FRAME")
  | .parseFunction => some (str! "FUNCTION")
  | .parseFunctionList => some (str! "FUNCTION_LIST")
  | .parseGroup => some (str! "GROUP")
  | .parseHeader => some (str! "HEADER")
  | .parseIfData => some (str! "IF_DATA")
  | .parseInMeasurement => some (str! "IN_MEASUREMENT")
  | .parseInstance => some (str! "INSTANCE")
  | .parseLocMeasurement => some (str! "LOC_MEASUREMENT")
  | .parseMapList => some (str! "MAP_LIST")
  | .parseMeasurement => some (str! "MEASUREMENT")
  | .parseMemoryLayout => some (str! "MEMORY_LAYOUT")
  | .parseMemorySegment => some (str! "MEMORY_SEGMENT")
  | .parseModCommon => some (str! "MOD_COMMON")
  | .parseModPar => some (str! "MOD_PAR")
  | .parseModule => some (str! "MODULE")
  | .parseOutMeasurement => some (str! "OUT_MEASUREMENT")
  | .parseOverwrite => some (str! "OVERWRITE")
  | .parseProject => some (str! "PROJECT")
  | .parseRecordLayout => some (str! "RECORD_LAYOUT")
  | .parseRefCharacteristic => some (str! "REF_CHARACTERISTIC")
  | .parseRefGroup => some (str! "REF_GROUP")
  | .parseRefMeasurement => some (str! "REF_MEASUREMENT")
  | .parseStructureComponent => some (str! "STRUCTURE_COMPONENT")
  | .parseSubFunction => some (str! "SUB_FUNCTION")
  | .parseSubGroup => some (str! "SUB_GROUP")
  | .parseTransformer => some (str! "TRANSFORMER")
  | .parseTransformerInObject => some (str! "TRANSFORMER_IN_OBJECTS")
  | .parseTransformerOutObject => some (str! "TRANSFORMER_OUT_OBJECTS")
  | .parseTypeDefAxis => some (str! "TYPEDEF_AXIS")
  | .parseTypeDefBlob => some (str! "TYPEDEF_BLOB")
  | .parseTypeDefCharacteristic => some (str! "TYPEDEF_CHARACTERISTIC")
  | .parseTypeDefMeasurement => some (str! "TYPEDEF_MEASUREMENT")
  | .parseTypeDefStructure => some (str! "TYPEDEF_STRUCTURE")
  | .parseUnit => some (str! "UNIT")
  | .parseUserRights => some (str! "USER_RIGHTS")
  | .parseVarAddress => some (str! "VAR_ADDRESS")
  | .parseVarCharacteristic => some (str! "VAR_CHARACTERISTIC")
  | .parseVarCriterion => some (str! "VAR_CRITERION")
  | .parseVarForbiddenComb => some (str! "VAR_FORBIDDEN_COMB")
  | .parseVariantCoding => some (str! "VARIANT_CODING")
  | .parseVirtual => some (str! "VIRTUAL")
  | .parseVirtualCharacteristic => some (str! "VIRTUAL_CHARACTERISTIC")
  | .parseModuleMultithreaded => some (str! "MODULE")
  | _ => none

/-- The token that closes the block. -/
def endToken (p : PName) : Option Str :=
  (blockKeyword p).map fun k => "/end ".toList ++ k

end Verif.A2l.Spec
