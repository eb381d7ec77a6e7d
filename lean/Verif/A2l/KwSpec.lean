import Verif.A2l.PNames
import Verif.A2l.Lang

/-!
Keywords of the A2L objects and constants of the enumerations (generated by tools/keywords.py).
-/

namespace Verif.A2l.KwSpec
open Verif.Go

/-- The token that introduces an object: the name of the parse function in capitals, as a block if
`keywordMap` (a2l/tokens.go:361-619) has it as one. -/
def keyword : PName → Option Str
  | .parseA2l => none
  | .parseA2ML => some (str! "/begin A2ML")
  | .parseA2MLVersion => some (str! "A2ML_VERSION")
  | .parseAddrEpk => some (str! "ADDR_EPK")
  | .parseAlignmentByte => some (str! "ALIGNMENT_BYTE")
  | .parseAlignmentFloat16Ieee => some (str! "ALIGNMENT_FLOAT16_IEEE")
  | .parseAlignmentFloat32Ieee => some (str! "ALIGNMENT_FLOAT32_IEEE")
  | .parseAlignmentFloat64Ieee => some (str! "ALIGNMENT_FLOAT64_IEEE")
  | .parseAlignmentInt64 => some (str! "ALIGNMENT_INT64")
  | .parseAlignmentLong => some (str! "ALIGNMENT_LONG")
  | .parseAlignmentWord => some (str! "ALIGNMENT_WORD")
  | .parseAnnotation => some (str! "/begin ANNOTATION")
  | .parseAnnotationLabel => some (str! "ANNOTATION_LABEL")
  | .parseAnnotationOrigin => some (str! "ANNOTATION_ORIGIN")
  | .parseAnnotationText => some (str! "/begin ANNOTATION_TEXT")
  | .parseArComponent => some (str! "/begin AR_COMPONENT")
  | .parseArPrototypeOf => some (str! "AR_PROTOTYPE_OF")
  | .parseArraySize => some (str! "ARRAY_SIZE")
  | .parseASAP2Version => some (str! "ASAP2_VERSION")
  | .parseAxisDescr => some (str! "/begin AXIS_DESCR")
  | .parseAxisPts => some (str! "/begin AXIS_PTS")
  | .parseAxisPts4 => some (str! "AXIS_PTS_4")
  | .parseAxisPts5 => some (str! "AXIS_PTS_5")
  | .parseAxisPtsRef => some (str! "AXIS_PTS_REF")
  | .parseAxisPtsX => some (str! "AXIS_PTS_X")
  | .parseAxisPtsY => some (str! "AXIS_PTS_Y")
  | .parseAxisPtsZ => some (str! "AXIS_PTS_Z")
  | .parseAxisRescaleX => some (str! "AXIS_RESCALE_X")
  | .parseBitMask => some (str! "BIT_MASK")
  | .parseBitOperation => some (str! "/begin BIT_OPERATION")
  | .parseBlob => some (str! "/begin BLOB")
  | .parseByteOrder => some (str! "BYTE_ORDER")
  | .parseCalibrationHandle => some (str! "/begin CALIBRATION_HANDLE")
  | .parseCalibrationHandleText => some (str! "CALIBRATION_HANDLE_TEXT")
  | .parseCalibrationMethod => some (str! "/begin CALIBRATION_METHOD")
  | .parseCharacteristic => some (str! "/begin CHARACTERISTIC")
  | .parseCoeffs => some (str! "COEFFS")
  | .parseCoeffsLinear => some (str! "COEFFS_LINEAR")
  | .parseComparisonQuantity => some (str! "COMPARISON_QUANTITY")
  | .parseCompuMethod => some (str! "/begin COMPU_METHOD")
  | .parseCompuTab => some (str! "/begin COMPU_TAB")
  | .parseCompuTabRef => some (str! "COMPU_TAB_REF")
  | .parseCompuVtab => some (str! "/begin COMPU_VTAB")
  | .parseCompuVtabRange => some (str! "/begin COMPU_VTAB_RANGE")
  | .parseConsistentExchangeKeyword => some (str! "CONSISTENT_EXCHANGE")
  | .parseCpuType => some (str! "CPU_TYPE")
  | .parseCurveAxisRef => some (str! "CURVE_AXIS_REF")
  | .parseCustomer => some (str! "CUSTOMER")
  | .parseCustomerNo => some (str! "CUSTOMER_NO")
  | .parseDataSize => some (str! "DATA_SIZE")
  | .parseDefCharacteristic => some (str! "/begin DEF_CHARACTERISTIC")
  | .parseDefaultValue => some (str! "DEFAULT_VALUE")
  | .parseDefaultValueNumeric => some (str! "DEFAULT_VALUE_NUMERIC")
  | .parseDependentCharacteristic => some (str! "/begin DEPENDENT_CHARACTERISTIC")
  | .parseDeposit => some (str! "DEPOSIT")
  | .parseDiscrete => some (str! "DISCRETE")
  | .parseDisplayIdentifier => some (str! "DISPLAY_IDENTIFIER")
  | .parseDistOp4 => some (str! "DIST_OP_4")
  | .parseDistOp5 => some (str! "DIST_OP_5")
  | .parseDistOpX => some (str! "DIST_OP_X")
  | .parseDistOpY => some (str! "DIST_OP_Y")
  | .parseDistOpZ => some (str! "DIST_OP_Z")
  | .parseEcu => some (str! "ECU")
  | .parseEcuAddress => some (str! "ECU_ADDRESS")
  | .parseECUAddressExtension => some (str! "ECU_ADDRESS_EXTENSION")
  | .parseEcuCalibrationOffset => some (str! "ECU_CALIBRATION_OFFSET")
  | .parseEpk => some (str! "EPK")
  | .parseErrorMask => some (str! "ERROR_MASK")
  | .parseExtendedLimits => some (str! "EXTENDED_LIMITS")
  | .parseFixAxisPar => some (str! "FIX_AXIS_PAR")
  | .parseFixAxisParDist => some (str! "FIX_AXIS_PAR_DIST")
  | .parseFixAxisParList => some (str! "/begin FIX_AXIS_PAR_LIST")
  | .parseFixNoAxisPts4 => some (str! "FIX_NO_AXIS_PTS_4")
  | .parseFixNoAxisPts5 => some (str! "FIX_NO_AXIS_PTS_5")
  | .parseFixNoAxisPtsX => some (str! "FIX_NO_AXIS_PTS_X")
  | .parseFixNoAxisPtsY => some (str! "FIX_NO_AXIS_PTS_Y")
  | .parseFixNoAxisPtsZ => some (str! "FIX_NO_AXIS_PTS_Z")
  | .parseFncValues => some (str! "FNC_VALUES")
  | .parseFormat => some (str! "FORMAT")
  | .parseFormula => some (str! "/begin FORMULA")
  | .parseFormulaInv => some (str! "FORMULA_INV")
  | .parseFrame => some (str! "/begin FRAME")
  | .parseFrameMeasurement => some (str! "FRAME_MEASUREMENT")
  | .parseFunction => some (str! "/begin FUNCTION")
  | .parseFunctionList => some (str! "/begin FUNCTION_LIST")
  | .parseFunctionVersion => some (str! "FUNCTION_VERSION")
  | .parseGroup => some (str! "/begin GROUP")
  | .parseGuardRails => some (str! "GUARD_RAILS")
  | .parseHeader => some (str! "/begin HEADER")
  | .parseIdentification => some (str! "IDENTIFICATION")
  | .parseIfData => some (str! "/begin IF_DATA")
  | .parseInMeasurement => some (str! "/begin IN_MEASUREMENT")
  | .parseInstance => some (str! "/begin INSTANCE")
  | .parseLayout => some (str! "LAYOUT")
  | .parseLeftShift => some (str! "LEFT_SHIFT")
  | .parseLimits => some (str! "LIMITS")
  | .parseLocMeasurement => some (str! "/begin LOC_MEASUREMENT")
  | .parseMapList => some (str! "/begin MAP_LIST")
  | .parseMatrixDim => some (str! "MATRIX_DIM")
  | .parseMaxGrad => some (str! "MAX_GRAD")
  | .parseMaxRefresh => some (str! "MAX_REFRESH")
  | .parseMeasurement => some (str! "/begin MEASUREMENT")
  | .parseMemoryLayout => some (str! "/begin MEMORY_LAYOUT")
  | .parseMemorySegment => some (str! "/begin MEMORY_SEGMENT")
  | .parseModCommon => some (str! "/begin MOD_COMMON")
  | .parseModPar => some (str! "/begin MOD_PAR")
  | .parseModelLink => some (str! "MODEL_LINK")
  | .parseModule => some (str! "/begin MODULE")
  | .parseMonotony => some (str! "MONOTONY")
  | .parseNoAxisPts4 => some (str! "NO_AXIS_PTS_4")
  | .parseNoAxisPts5 => some (str! "NO_AXIS_PTS_5")
  | .parseNoAxisPtsX => some (str! "NO_AXIS_PTS_X")
  | .parseNoAxisPtsY => some (str! "NO_AXIS_PTS_Y")
  | .parseNoAxisPtsZ => some (str! "NO_AXIS_PTS_Z")
  | .parseNoOfInterfaces => some (str! "NO_OF_INTERFACES")
  | .parseNoRescaleX => some (str! "NO_RESCALE_X")
  | .parseNumber => some (str! "NUMBER")
  | .parseOffset4 => some (str! "OFFSET_4")
  | .parseOffset5 => some (str! "OFFSET_5")
  | .parseOffsetX => some (str! "OFFSET_X")
  | .parseOffsetY => some (str! "OFFSET_Y")
  | .parseOffsetZ => some (str! "OFFSET_Z")
  | .parseOutMeasurement => some (str! "/begin OUT_MEASUREMENT")
  | .parseOverwrite => some (str! "/begin OVERWRITE")
  | .parsePhoneNo => some (str! "PHONE_NO")
  | .parsePhysUnit => some (str! "PHYS_UNIT")
  | .parseProject => some (str! "/begin PROJECT")
  | .parseProjectNo => some (str! "PROJECT_NO")
  | .parseReadOnly => some (str! "READ_ONLY")
  | .parseReadWrite => some (str! "READ_WRITE")
  | .parseRecordLayout => some (str! "/begin RECORD_LAYOUT")
  | .parseRefCharacteristic => some (str! "/begin REF_CHARACTERISTIC")
  | .parseRefGroup => some (str! "/begin REF_GROUP")
  | .parseRefMeasurement => some (str! "/begin REF_MEASUREMENT")
  | .parseRefMemorySegment => some (str! "REF_MEMORY_SEGMENT")
  | .parseRefUnit => some (str! "REF_UNIT")
  | .parseReserved => some (str! "RESERVED")
  | .parseRightShift => some (str! "RIGHT_SHIFT")
  | .parseRipAddr4 => some (str! "RIP_ADDR_4")
  | .parseRipAddr5 => some (str! "RIP_ADDR_5")
  | .parseRipAddrW => some (str! "RIP_ADDR_W")
  | .parseRipAddrX => some (str! "RIP_ADDR_X")
  | .parseRipAddrY => some (str! "RIP_ADDR_Y")
  | .parseRipAddrZ => some (str! "RIP_ADDR_Z")
  | .parseRoot => some (str! "ROOT")
  | .parseShiftOp4 => some (str! "SHIFT_OP_4")
  | .parseShiftOp5 => some (str! "SHIFT_OP_5")
  | .parseShiftOpX => some (str! "SHIFT_OP_X")
  | .parseShiftOpY => some (str! "SHIFT_OP_Y")
  | .parseShiftOpZ => some (str! "SHIFT_OP_Z")
  | .parseSiExponents => some (str! "SI_EXPONENTS")
  | .parseSignExtend => some (str! "SIGN_EXTEND")
  | .parseSrcAddr4 => some (str! "SRC_ADDR_4")
  | .parseSrcAddr5 => some (str! "SRC_ADDR_5")
  | .parseSrcAddrX => some (str! "SRC_ADDR_X")
  | .parseSrcAddrY => some (str! "SRC_ADDR_Y")
  | .parseSrcAddrZ => some (str! "SRC_ADDR_Z")
  | .parseStaticAddressOffsets => some (str! "STATIC_ADDRESS_OFFSETS")
  | .parseStaticRecordLayout => some (str! "STATIC_RECORD_LAYOUT")
  | .parseStatusStringRef => some (str! "STATUS_STRING_REF")
  | .parseStepSize => some (str! "STEP_SIZE")
  | .parseStructureComponent => some (str! "/begin STRUCTURE_COMPONENT")
  | .parseSubFunction => some (str! "/begin SUB_FUNCTION")
  | .parseSubGroup => some (str! "/begin SUB_GROUP")
  | .parseSupplier => some (str! "SUPPLIER")
  | .parseSymbolLink => some (str! "SYMBOL_LINK")
  | .parseSymbolTypeLink => some (str! "SYMBOL_TYPE_LINK")
  | .parseSystemConstant => some (str! "SYSTEM_CONSTANT")
  | .parseTransformer => some (str! "/begin TRANSFORMER")
  | .parseTransformerInObject => some (str! "/begin TRANSFORMER_IN_OBJECTS")
  | .parseTransformerOutObject => some (str! "/begin TRANSFORMER_OUT_OBJECTS")
  | .parseTypeDefAxis => some (str! "/begin TYPEDEF_AXIS")
  | .parseTypeDefBlob => some (str! "/begin TYPEDEF_BLOB")
  | .parseTypeDefCharacteristic => some (str! "/begin TYPEDEF_CHARACTERISTIC")
  | .parseTypeDefMeasurement => some (str! "/begin TYPEDEF_MEASUREMENT")
  | .parseTypeDefStructure => some (str! "/begin TYPEDEF_STRUCTURE")
  | .parseUnit => some (str! "/begin UNIT")
  | .parseUnitConversion => some (str! "UNIT_CONVERSION")
  | .parseUser => some (str! "USER")
  | .parseUserRights => some (str! "/begin USER_RIGHTS")
  | .parseVarAddress => some (str! "/begin VAR_ADDRESS")
  | .parseVarCharacteristic => some (str! "/begin VAR_CHARACTERISTIC")
  | .parseVarCriterion => some (str! "/begin VAR_CRITERION")
  | .parseVarForbiddenComb => some (str! "/begin VAR_FORBIDDEN_COMB")
  | .parseVarMeasurement => some (str! "VAR_MEASUREMENT")
  | .parseVarNaming => some (str! "VAR_NAMING")
  | .parseVarSelectionCharacteristic => some (str! "VAR_SELECTION_CHARACTERISTIC")
  | .parseVarSeparator => some (str! "VAR_SEPARATOR")
  | .parseVariantCoding => some (str! "/begin VARIANT_CODING")
  | .parseVersion => some (str! "VERSION")
  | .parseVirtual => some (str! "/begin VIRTUAL")
  | .parseVirtualCharacteristic => some (str! "/begin VIRTUAL_CHARACTERISTIC")
  | .parseModuleMultithreaded => some (str! "/begin MODULE")

/-- The enumeration types of a2l/enums.go. -/
inductive EnumType where
  | encoding
  | dataType
  | dataSize
  | addrType
  | byteOrder
  | indexOrder
  | attribute
  | calibrationAccess
  | objType
  | conversionType
  | indexMode
  | mode
  | prgType
  | memoryType
  | monotonyType
  | tag
  | trigger
deriving DecidableEq

/-- All of them. -/
def EnumType.all : List EnumType := [.encoding, .dataType, .dataSize, .addrType, .byteOrder, .indexOrder, .attribute, .calibrationAccess, .objType, .conversionType, .indexMode, .mode, .prgType, .memoryType, .monotonyType, .tag, .trigger]

/-- The declared constants of the enumeration types, without the empty one for "undefined". -/
def EnumType.constants : EnumType → List Str
  /- a2l/enums.go:13-18 -/
  | .encoding => [(str! "UTF8"), (str! "UTF16"), (str! "UTF32")]
  /- a2l/enums.go:38-62 -/
  | .dataType => [(str! "UBYTE"), (str! "SBYTE"), (str! "UWORD"), (str! "SWORD"), (str! "ULONG"), (str! "SLONG"), (str! "A_UINT64"), (str! "A_INT64"), (str! "FLOAT16_IEEE"), (str! "FLOAT32_IEEE"), (str! "FLOAT64_IEEE")]
  /- a2l/enums.go:202-207 -/
  | .dataSize => [(str! "BYTE"), (str! "WORD"), (str! "LONG")]
  /- a2l/enums.go:242-253 -/
  | .addrType => [(str! "PBYTE"), (str! "PWORD"), (str! "PLONG"), (str! "PLONGLONG"), (str! "DIRECT")]
  /- a2l/enums.go:275-283 -/
  | .byteOrder => [(str! "LITTLE_ENDIAN"), (str! "BIG_ENDIAN"), (str! "MSB_LAST"), (str! "MSB_FIRST"), (str! "MSB_FIRST_MSW_LAST"), (str! "MSB_LAST_MSW_FIRST")]
  /- a2l/enums.go:328-332 -/
  | .indexOrder => [(str! "INDEX_INCR"), (str! "INDEX_DECR")]
  /- a2l/enums.go:350-376 -/
  | .attribute => [(str! "CURVE_AXIS"), (str! "COM_AXIS"), (str! "FIX_AXIS"), (str! "RES_AXIS"), (str! "STD_AXIS"), (str! "INTERN"), (str! "EXTERN")]
  /- a2l/enums.go:404-410 -/
  | .calibrationAccess => [(str! "CALIBRATION"), (str! "NO_CALIBRATION"), (str! "NOT_IN_MCD_SYSTEM"), (str! "OFFLINE_CALIBRATION")]
  /- a2l/enums.go:433-453 -/
  | .objType => [(str! "ASCII"), (str! "CURVE"), (str! "MAP"), (str! "CUBOID"), (str! "CUBE_4"), (str! "CUBE_5"), (str! "VAL_BLK"), (str! "VALUE"), (str! "DERIVED"), (str! "EXTENDED_SI")]
  /- a2l/enums.go:487-517 -/
  | .conversionType => [(str! "IDENTICAL"), (str! "FORM"), (str! "LINEAR"), (str! "RAT_FUNC"), (str! "TAB_INTP"), (str! "TAB_NOINTP"), (str! "TAB_VERB")]
  /- a2l/enums.go:545-592 -/
  | .indexMode => [(str! "ALTERNATE_CURVES"), (str! "ALTERNATE_WITH_X"), (str! "ALTERNATE_WITH_Y"), (str! "COLUMN_DIR"), (str! "ROW_DIR")]
  /- a2l/enums.go:616-620 -/
  | .mode => [(str! "ABSOLUTE"), (str! "DIFFERENCE")]
  /- a2l/enums.go:638-651 -/
  | .prgType => [(str! "PRG_CODE"), (str! "PRG_DATA"), (str! "PRG_RESERVED"), (str! "CALIBRATION_VARIABLES"), (str! "CODE"), (str! "DATA"), (str! "EXCLUDE_FROM_FLASH"), (str! "OFFLINE_DATA"), (str! "RESERVED"), (str! "SERAM"), (str! "VARIABLES")]
  /- a2l/enums.go:687-696 -/
  | .memoryType => [(str! "EEPROM"), (str! "EPROM"), (str! "FLASH"), (str! "RAM"), (str! "ROM"), (str! "REGISTER"), (str! "NOT_IN_ECU")]
  /- a2l/enums.go:724-733 -/
  | .monotonyType => [(str! "MON_DECREASE"), (str! "MON_INCREASE"), (str! "STRICT_DECREASE"), (str! "STRICT_INCREASE"), (str! "MONOTONOUS"), (str! "STRICT_MON"), (str! "NOT_MON")]
  /- a2l/enums.go:761-764 -/
  | .tag => [(str! "NUMERIC")]
  /- a2l/enums.go:780-784 -/
  | .trigger => [(str! "ON_CHANGE"), (str! "ON_USER_REQUEST")]

end Verif.A2l.KwSpec
