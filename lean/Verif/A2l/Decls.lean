import Verif.A2l.Decl

/-!
The declared shape of the A2L objects, read off the struct declarations of a2l/*.go by
tools/decls.py (not off the parse functions; only which keyword starts which optional
object comes from the call sites).
-/

namespace Verif.A2l.Decl
open Verif.Go Verif.A2l

/-- The declared shape of the object a parse function reads. `.other`: the declaration is
not of one of the four forms. -/
def shape : PName → Shape
  /- struct A2L, a2l/a2l.go:30-34 -/
  | .parseA2l => .other
  /- struct a2ml, a2l/a2ml.go:9-13 -/
  | .parseA2ML => .block true
    []
    (.text "formatSpecification" "formatSpecificationSet")
    []
    []
  /- struct a2mlVersion, a2l/a2ml_version.go:23-30 -/
  | .parseA2MLVersion => .seq [⟨"VersionNo", "versionNoSet", (.uint 16)⟩, ⟨"UpgradeNo", "upgradeNoSet", (.uint 16)⟩]
  /- struct addrEpk, a2l/addr_epk.go:9-13 -/
  | .parseAddrEpk => .one ⟨"address", "addressSet", .str⟩
  /- struct alignmentByte, a2l/alignment_byte.go:12-17 -/
  | .parseAlignmentByte => .one ⟨"AlignmentBorder", "AlignmentBorderSet", (.uint 16)⟩
  /- struct alignmentFloat16Ieee, a2l/alignment_float16_ieee.go:12-17 -/
  | .parseAlignmentFloat16Ieee => .one ⟨"AlignmentBorder", "AlignmentBorderSet", (.uint 16)⟩
  /- struct alignmentFloat32Ieee, a2l/alignment_float32_ieee.go:12-17 -/
  | .parseAlignmentFloat32Ieee => .one ⟨"AlignmentBorder", "AlignmentBorderSet", (.uint 16)⟩
  /- struct alignmentFloat64Ieee, a2l/alignment_float64_ieee.go:12-17 -/
  | .parseAlignmentFloat64Ieee => .one ⟨"AlignmentBorder", "AlignmentBorderSet", (.uint 16)⟩
  /- struct alignmentInt64, a2l/alignment_int64.go:12-17 -/
  | .parseAlignmentInt64 => .one ⟨"AlignmentBorder", "AlignmentBorderSet", (.uint 16)⟩
  /- struct alignmentLong, a2l/alignment_long.go:12-17 -/
  | .parseAlignmentLong => .one ⟨"AlignmentBorder", "AlignmentBorderSet", (.uint 16)⟩
  /- struct alignmentWord, a2l/alignment_word.go:12-17 -/
  | .parseAlignmentWord => .one ⟨"AlignmentBorder", "AlignmentBorderSet", (.uint 16)⟩
  /- struct annotation, a2l/annotation.go:11-15 -/
  | .parseAnnotation => .block false
    []
    .none
    [((str! "ANNOTATION_LABEL"), .obj .parseAnnotationLabel "annotationLabel" .field),
     ((str! "ANNOTATION_ORIGIN"), .obj .parseAnnotationOrigin "annotationOrigin" .field),
     ((str! "/begin ANNOTATION_TEXT"), .obj .parseAnnotationText "annotationText" .append)]
    []
  /- struct annotationLabel, a2l/annotation_label.go:10-13 -/
  | .parseAnnotationLabel => .one ⟨"label", "labelSet", .str⟩
  /- struct annotationOrigin, a2l/annotation_origin.go:10-13 -/
  | .parseAnnotationOrigin => .one ⟨"origin", "originSet", .str⟩
  /- struct annotationText, a2l/annotation_text.go:11-14 -/
  | .parseAnnotationText => .block false
    []
    (.text "annotationText" "annotationTextSet")
    []
    []
  /- struct arComponent, a2l/ar_component.go:18-30 -/
  | .parseArComponent => .block false
    [⟨"componentType", "componentTypeSet", .str⟩]
    .none
    [((str! "AR_PROTOTYPE_OF"), .obj .parseArPrototypeOf "arPrototypeOf" .field)]
    []
  /- struct arPrototypeOf, a2l/ar_prototype_of.go:11-15 -/
  | .parseArPrototypeOf => .one ⟨"name", "nameSet", .str⟩
  /- struct arraySize, a2l/array_size.go:13-17 -/
  | .parseArraySize => .one ⟨"number", "numberSet", (.uint 16)⟩
  /- struct asap2Version, a2l/asap2_version.go:14-19 -/
  | .parseASAP2Version => .seq [⟨"versionNo", "versionNoSet", (.uint 16)⟩, ⟨"upgradeNo", "upgradeNoSet", (.uint 16)⟩]
  /- struct axisDescr, a2l/axis_descr.go:45-84 -/
  | .parseAxisDescr => .block false
    [⟨"attribute", "attributeSet", (.enum parseAttributeEnum)⟩,
     ⟨"inputQuantity", "inputQuantitySet", .str⟩,
     ⟨"conversion", "conversionSet", .str⟩,
     ⟨"maxAxisPoints", "maxAxisPointsSet", (.uint 16)⟩,
     ⟨"lowerLimit", "lowerLimitSet", .float⟩,
     ⟨"upperLimit", "upperLimitSet", .float⟩]
    .none
    [((str! "/begin ANNOTATION"), .obj .parseAnnotation "annotation" .append),
     ((str! "AXIS_PTS_REF"), .obj .parseAxisPtsRef "axisPtsRef" .field),
     ((str! "BYTE_ORDER"), .obj .parseByteOrder "byteOrder" .field),
     ((str! "CURVE_AXIS_REF"), .obj .parseCurveAxisRef "curveAxisRef" .field),
     ((str! "DEPOSIT"), .obj .parseDeposit "deposit" .field),
     ((str! "EXTENDED_LIMITS"), .obj .parseExtendedLimits "extendedLimits" .field),
     ((str! "FIX_AXIS_PAR"), .obj .parseFixAxisPar "fixAxisPar" .field),
     ((str! "FIX_AXIS_PAR_DIST"), .obj .parseFixAxisParDist "fixAxisParDist" .field),
     ((str! "/begin FIX_AXIS_PAR_LIST"), .obj .parseFixAxisParList "fixAxisParList" .append),
     ((str! "FORMAT"), .obj .parseFormat "format" .field),
     ((str! "MAX_GRAD"), .obj .parseMaxGrad "maxGrad" .field),
     ((str! "MONOTONY"), .obj .parseMonotony "monotony" .field),
     ((str! "PHYS_UNIT"), .obj .parsePhysUnit "physUnit" .field),
     ((str! "READ_ONLY"), .obj .parseReadOnly "readOnly" .field),
     ((str! "STEP_SIZE"), .obj .parseStepSize "stepSize" .field)]
    []
  /- struct axisPts, a2l/axis_pts.go:14-73 -/
  | .parseAxisPts => .block false
    [⟨"name", "nameSet", .str⟩,
     ⟨"longIdentifier", "longIdentifierSet", .str⟩,
     ⟨"address", "addressSet", .str⟩,
     ⟨"inputQuantity", "inputQuantitySet", .str⟩,
     ⟨"depositIdent", "depositIdentSet", .str⟩,
     ⟨"maxDiff", "maxDiffSet", .float⟩,
     ⟨"conversion", "conversionSet", .str⟩,
     ⟨"maxAxisPoints", "maxAxisPointsSet", (.uint 16)⟩,
     ⟨"lowerLimit", "lowerLimitSet", .float⟩,
     ⟨"upperLimit", "upperLimitSet", .float⟩]
    .none
    [((str! "/begin ANNOTATION"), .obj .parseAnnotation "annotation" .append),
     ((str! "BYTE_ORDER"), .obj .parseByteOrder "byteOrder" .field),
     ((str! "CALIBRATION_ACCESS"), .enum parseCalibrationAccessEnum "calibrationAccess"),
     ((str! "DEPOSIT"), .obj .parseDeposit "deposit" .field),
     ((str! "DISPLAY_IDENTIFIER"), .obj .parseDisplayIdentifier "displayIdentifier" .field),
     ((str! "ECU_ADDRESS_EXTENSION"), .obj .parseECUAddressExtension "ecuAddressExtension" .field),
     ((str! "EXTENDED_LIMITS"), .obj .parseExtendedLimits "extendedLimits" .field),
     ((str! "FORMAT"), .obj .parseFormat "format" .field),
     ((str! "/begin FUNCTION_LIST"), .obj .parseFunctionList "functionList" .append),
     ((str! "GUARD_RAILS"), .obj .parseGuardRails "guardRails" .field),
     ((str! "/begin IF_DATA"), .obj .parseIfData "ifData" .append),
     ((str! "MODEL_LINK"), .obj .parseModelLink "modelLink" .field),
     ((str! "MONOTONY"), .obj .parseMonotony "monotony" .field),
     ((str! "PHYS_UNIT"), .obj .parsePhysUnit "physUnit" .field),
     ((str! "READ_ONLY"), .obj .parseReadOnly "readOnly" .field),
     ((str! "REF_MEMORY_SEGMENT"), .obj .parseRefMemorySegment "refMemorySegment" .field),
     ((str! "STEP_SIZE"), .obj .parseStepSize "stepSize" .field),
     ((str! "SYMBOL_LINK"), .obj .parseSymbolLink "symbolLink" .field)]
    []
  /- struct AxisPts4, a2l/axis_pts_4.go:10-23 -/
  | .parseAxisPts4 => .seq [⟨"Position", "PositionSet", (.uint 16)⟩, ⟨"Datatype", "DatatypeSet", (.enum parseDataTypeEnum)⟩, ⟨"IndexIncr", "IndexIncrSet", (.enum parseIndexOrderEnum)⟩, ⟨"Addressing", "AddressingSet", (.enum parseAddrTypeEnum)⟩]
  /- struct AxisPts5, a2l/axis_pts_5.go:10-23 -/
  | .parseAxisPts5 => .seq [⟨"Position", "PositionSet", (.uint 16)⟩, ⟨"Datatype", "DatatypeSet", (.enum parseDataTypeEnum)⟩, ⟨"IndexIncr", "IndexIncrSet", (.enum parseIndexOrderEnum)⟩, ⟨"Addressing", "AddressingSet", (.enum parseAddrTypeEnum)⟩]
  /- struct axisPtsRef, a2l/axis_pts_ref.go:12-22 -/
  | .parseAxisPtsRef => .one ⟨"axisPoints", "axisPointsSet", .str⟩
  /- struct AxisPtsX, a2l/axis_pts_x.go:10-23 -/
  | .parseAxisPtsX => .seq [⟨"Position", "PositionSet", (.uint 16)⟩, ⟨"Datatype", "DatatypeSet", (.enum parseDataTypeEnum)⟩, ⟨"IndexIncr", "IndexIncrSet", (.enum parseIndexOrderEnum)⟩, ⟨"Addressing", "AddressingSet", (.enum parseAddrTypeEnum)⟩]
  /- struct AxisPtsY, a2l/axis_pts_y.go:10-23 -/
  | .parseAxisPtsY => .seq [⟨"Position", "PositionSet", (.uint 16)⟩, ⟨"Datatype", "DatatypeSet", (.enum parseDataTypeEnum)⟩, ⟨"IndexIncr", "IndexIncrSet", (.enum parseIndexOrderEnum)⟩, ⟨"Addressing", "AddressingSet", (.enum parseAddrTypeEnum)⟩]
  /- struct AxisPtsZ, a2l/axis_pts_z.go:10-23 -/
  | .parseAxisPtsZ => .seq [⟨"Position", "PositionSet", (.uint 16)⟩, ⟨"Datatype", "DatatypeSet", (.enum parseDataTypeEnum)⟩, ⟨"IndexIncr", "IndexIncrSet", (.enum parseIndexOrderEnum)⟩, ⟨"Addressing", "AddressingSet", (.enum parseAddrTypeEnum)⟩]
  /- struct AxisRescaleX, a2l/axis_rescale_x.go:56-68 -/
  | .parseAxisRescaleX => .seq [⟨"Position", "PositionSet", (.uint 16)⟩, ⟨"Datatype", "DatatypeSet", (.enum parseDataTypeEnum)⟩, ⟨"MaxNumberOfRescalePairs", "MaxNumberOfRescalePairsSet", (.uint 16)⟩, ⟨"IndexIncr", "IndexIncrSet", (.enum parseIndexOrderEnum)⟩, ⟨"Adressing", "AdressingSet", (.enum parseAddrTypeEnum)⟩]
  /- struct bitMask, a2l/bit_mask.go:29-32 -/
  | .parseBitMask => .one ⟨"mask", "maskSet", .str⟩
  /- struct bitOperation, a2l/bit_operation.go:13-20 -/
  | .parseBitOperation => .block false
    []
    .none
    [((str! "LEFT_SHIFT"), .obj .parseLeftShift "leftShift" .field),
     ((str! "RIGHT_SHIFT"), .obj .parseRightShift "rightShift" .field),
     ((str! "SIGN_EXTEND"), .obj .parseSignExtend "signExtend" .field)]
    []
  /- struct blob, a2l/blob.go:12-31 -/
  | .parseBlob => .other
  /- struct ByteOrder, a2l/byte_order.go:9-12 -/
  | .parseByteOrder => .one ⟨"ByteOrder", "ByteOrderSet", (.enum parseByteOrderEnum)⟩
  /- struct calibrationHandle, a2l/calibration_handle.go:9-13 -/
  | .parseCalibrationHandle => .block false
    []
    (.list "handle" "handleSet" .str)
    [((str! "CALIBRATION_HANDLE_TEXT"), .obj .parseCalibrationHandleText "calibrationHandleText" .field)]
    []
  /- struct calibrationHandleText, a2l/calibration_handle_text.go:9-12 -/
  | .parseCalibrationHandleText => .one ⟨"text", "textSet", .str⟩
  /- struct calibrationMethod, a2l/calibration_method.go:10-16 -/
  | .parseCalibrationMethod => .block false
    [⟨"method", "methodSet", .str⟩,
     ⟨"version", "versionSet", (.uint 32)⟩]
    .none
    [((str! "/begin CALIBRATION_HANDLE"), .obj .parseCalibrationHandle "calibrationHandle" .append)]
    []
  /- struct Characteristic, a2l/characteristic.go:10-59 -/
  | .parseCharacteristic => .block false
    [⟨"Name", "nameSet", .str⟩,
     ⟨"LongIdentifier", "longIdentifierSet", .str⟩,
     ⟨"Type", "TypeSet", (.enum parseTypeEnum)⟩,
     ⟨"Address", "addressSet", .str⟩,
     ⟨"Deposit", "DepositSet", .str⟩,
     ⟨"maxDiff", "maxDiffSet", .float⟩,
     ⟨"conversion", "conversionSet", .str⟩,
     ⟨"lowerLimit", "lowerLimitSet", .float⟩,
     ⟨"upperLimit", "upperLimitSet", .float⟩]
    .none
    [((str! "/begin ANNOTATION"), .obj .parseAnnotation "annotation" .append),
     ((str! "/begin AXIS_DESCR"), .obj .parseAxisDescr "axisDescr" .append),
     ((str! "BIT_MASK"), .obj .parseBitMask "bitMask" .field),
     ((str! "BYTE_ORDER"), .obj .parseByteOrder "byteOrder" .field),
     ((str! "CALIBRATION_ACCESS"), .enum parseCalibrationAccessEnum "calibrationAccess"),
     ((str! "COMPARISON_QUANTITY"), .obj .parseComparisonQuantity "comparisonQuantity" .field),
     ((str! "/begin DEPENDENT_CHARACTERISTIC"), .obj .parseDependentCharacteristic "dependentCharacteristic" .append),
     ((str! "DISCRETE"), .obj .parseDiscrete "discrete" .field),
     ((str! "DISPLAY_IDENTIFIER"), .obj .parseDisplayIdentifier "displayIdentifier" .field),
     ((str! "ENCODING"), .enum parseEncodingEnum "encoding"),
     ((str! "ECU_ADDRESS_EXTENSION"), .obj .parseECUAddressExtension "ecuAddressExtension" .field),
     ((str! "EXTENDED_LIMITS"), .obj .parseExtendedLimits "extendedLimits" .field),
     ((str! "FORMAT"), .obj .parseFormat "format" .field),
     ((str! "/begin FUNCTION_LIST"), .obj .parseFunctionList "functionList" .append),
     ((str! "GUARD_RAILS"), .obj .parseGuardRails "guardRails" .field),
     ((str! "/begin IF_DATA"), .obj .parseIfData "ifData" .append),
     ((str! "/begin MAP_LIST"), .obj .parseMapList "mapList" .append),
     ((str! "MATRIX_DIM"), .obj .parseMatrixDim "MatrixDim" .field),
     ((str! "MAX_REFRESH"), .obj .parseMaxRefresh "maxRefresh" .field),
     ((str! "MODEL_LINK"), .obj .parseModelLink "modelLink" .field),
     ((str! "NUMBER"), .obj .parseNumber "number" .field),
     ((str! "PHYS_UNIT"), .obj .parsePhysUnit "physUnit" .field),
     ((str! "READ_ONLY"), .obj .parseReadOnly "readOnly" .field),
     ((str! "REF_MEMORY_SEGMENT"), .obj .parseRefMemorySegment "refMemorySegment" .field),
     ((str! "STEP_SIZE"), .obj .parseStepSize "stepSize" .field),
     ((str! "SYMBOL_LINK"), .obj .parseSymbolLink "symbolLink" .field),
     ((str! "/begin VIRTUAL_CHARACTERISTIC"), .obj .parseVirtualCharacteristic "virtualCharacteristic" .append)]
    []
  /- struct Coeffs, a2l/coeffs.go:10-23 -/
  | .parseCoeffs => .seq [⟨"A", "ASet", .float⟩, ⟨"B", "BSet", .float⟩, ⟨"C", "CSet", .float⟩, ⟨"D", "DSet", .float⟩, ⟨"E", "ESet", .float⟩, ⟨"F", "FSet", .float⟩]
  /- struct CoeffsLinear, a2l/coeffs_linear.go:10-15 -/
  | .parseCoeffsLinear => .seq [⟨"A", "ASet", .float⟩, ⟨"B", "BSet", .float⟩]
  /- struct comparisonQuantity, a2l/comparison_quantity.go:9-12 -/
  | .parseComparisonQuantity => .one ⟨"name", "nameSet", .str⟩
  /- struct CompuMethod, a2l/compu_method.go:9-26 -/
  | .parseCompuMethod => .block false
    [⟨"Name", "NameSet", .str⟩,
     ⟨"LongIdentifier", "LongIdentifierSet", .str⟩,
     ⟨"ConversionType", "ConversionTypeSet", (.enum parseConversionTypeEnum)⟩,
     ⟨"Format", "FormatSet", .str⟩,
     ⟨"Unit", "UnitSet", .str⟩]
    .none
    [((str! "COEFFS"), .obj .parseCoeffs "Coeffs" .field),
     ((str! "COEFFS_LINEAR"), .obj .parseCoeffsLinear "CoeffsLinear" .field),
     ((str! "COMPU_TAB_REF"), .obj .parseCompuTabRef "CompuTabRef" .field),
     ((str! "/begin FORMULA"), .obj .parseFormula "Formula" .append),
     ((str! "REF_UNIT"), .obj .parseRefUnit "RefUnit" .field),
     ((str! "STATUS_STRING_REF"), .obj .parseStatusStringRef "StatusStringRef" .field)]
    []
  /- struct CompuTab, a2l/compu_tab.go:10-25 -/
  | .parseCompuTab => .other
  /- struct CompuTabRef, a2l/compu_tab_ref.go:9-12 -/
  | .parseCompuTabRef => .one ⟨"ConversionTable", "ConversionTableSet", .str⟩
  /- struct CompuVTab, a2l/compu_vtab.go:10-24 -/
  | .parseCompuVtab => .other
  /- struct CompuVTabRange, a2l/compu_vtab_range.go:10-24 -/
  | .parseCompuVtabRange => .other
  /- struct consistentExchangeKeyword, a2l/consistent_exchange.go:5-8 -/
  | .parseConsistentExchangeKeyword => .keyword "value" "valueSet"
  /- struct cpuType, a2l/cpu_type.go:9-12 -/
  | .parseCpuType => .one ⟨"cpu", "cpuSet", .str⟩
  /- struct curveAxisRef, a2l/curve_axis_ref.go:9-12 -/
  | .parseCurveAxisRef => .one ⟨"curveAxis", "curveAxisSet", .str⟩
  /- struct customer, a2l/customer.go:9-12 -/
  | .parseCustomer => .one ⟨"customer", "customerSet", .str⟩
  /- struct customerNo, a2l/customer_no.go:9-12 -/
  | .parseCustomerNo => .one ⟨"number", "numberSet", .str⟩
  /- struct dataSize, a2l/data_size.go:10-13 -/
  | .parseDataSize => .one ⟨"size", "sizeSet", (.uint 16)⟩
  /- struct defCharacteristic, a2l/def_characteristic.go:9-12 -/
  | .parseDefCharacteristic => .block false
    []
    (.list "identifier" "identifierSet" .str)
    []
    []
  /- struct DefaultValue, a2l/default_value.go:9-12 -/
  | .parseDefaultValue => .one ⟨"DisplayString", "DisplayStringSet", .str⟩
  /- struct DefaultValueNumeric, a2l/default_value_numeric.go:10-13 -/
  | .parseDefaultValueNumeric => .one ⟨"DisplayValue", "DisplayValueSet", .float⟩
  /- struct DependentCharacteristic, a2l/dependent_characteristic.go:9-14 -/
  | .parseDependentCharacteristic => .block false
    [⟨"formula", "formulaSet", .str⟩]
    (.list "characteristic" "characteristicSet" .str)
    []
    []
  /- struct deposit, a2l/deposit.go:9-12 -/
  | .parseDeposit => .one ⟨"mode", "modeSet", (.enum parseModeEnum)⟩
  /- struct discreteKeyword, a2l/discrete.go:5-8 -/
  | .parseDiscrete => .keyword "value" "valueSet"
  /- struct DisplayIdentifier, a2l/display_identifier.go:9-12 -/
  | .parseDisplayIdentifier => .one ⟨"displayName", "displayNameSet", .str⟩
  /- struct DistOp4, a2l/dist_op_4.go:29-34 -/
  | .parseDistOp4 => .seq [⟨"Position", "PositionSet", (.uint 16)⟩, ⟨"Datatype", "DatatypeSet", (.enum parseDataTypeEnum)⟩]
  /- struct DistOp5, a2l/dist_op_5.go:29-34 -/
  | .parseDistOp5 => .seq [⟨"Position", "PositionSet", (.uint 16)⟩, ⟨"Datatype", "DatatypeSet", (.enum parseDataTypeEnum)⟩]
  /- struct DistOpX, a2l/dist_op_x.go:29-34 -/
  | .parseDistOpX => .seq [⟨"Position", "PositionSet", (.uint 16)⟩, ⟨"Datatype", "DatatypeSet", (.enum parseDataTypeEnum)⟩]
  /- struct DistOpY, a2l/dist_op_y.go:29-34 -/
  | .parseDistOpY => .seq [⟨"Position", "PositionSet", (.uint 16)⟩, ⟨"Datatype", "DatatypeSet", (.enum parseDataTypeEnum)⟩]
  /- struct DistOpZ, a2l/dist_op_z.go:29-34 -/
  | .parseDistOpZ => .seq [⟨"Position", "PositionSet", (.uint 16)⟩, ⟨"Datatype", "DatatypeSet", (.enum parseDataTypeEnum)⟩]
  /- struct ecu, a2l/ecu.go:9-12 -/
  | .parseEcu => .one ⟨"controlUnit", "controlUnitSet", .str⟩
  /- struct ecuAddress, a2l/ecu_address.go:9-12 -/
  | .parseEcuAddress => .one ⟨"address", "addressSet", .str⟩
  /- struct ecuAddressExtension, a2l/ecu_address_extension.go:20-23 -/
  | .parseECUAddressExtension => .one ⟨"extension", "extensionSet", (.int 16)⟩
  /- struct ecuCalibrationOffset, a2l/ecu_calibration_offset.go:19-22 -/
  | .parseEcuCalibrationOffset => .one ⟨"offset", "offsetSet", .str⟩
  /- struct epk, a2l/epk.go:9-12 -/
  | .parseEpk => .one ⟨"identifier", "identifierSet", .str⟩
  /- struct errorMask, a2l/error_mask.go:9-12 -/
  | .parseErrorMask => .one ⟨"mask", "maskSet", .str⟩
  /- struct extendedLimits, a2l/extended_limits.go:10-15 -/
  | .parseExtendedLimits => .seq [⟨"lowerLimit", "lowerLimitSet", .float⟩, ⟨"upperLimit", "upperLimitSet", .float⟩]
  /- struct fixAxisPar, a2l/fix_axis_par.go:10-17 -/
  | .parseFixAxisPar => .seq [⟨"offset", "offsetSet", (.int 16)⟩, ⟨"shift", "shiftSet", (.int 16)⟩, ⟨"numberapo", "numberapoSet", (.uint 16)⟩]
  /- struct fixAxisParDist, a2l/fix_axis_par_dist.go:10-17 -/
  | .parseFixAxisParDist => .seq [⟨"offset", "offsetSet", (.int 16)⟩, ⟨"distance", "distanceSet", (.int 16)⟩, ⟨"numberapo", "numberapoSet", (.uint 16)⟩]
  /- struct fixAxisParList, a2l/fix_axis_par_list.go:10-13 -/
  | .parseFixAxisParList => .block false
    []
    (.list "axisPtsValue" "axisPtsValueSet" .float)
    []
    []
  /- struct FixNoAxisPts4, a2l/fix_no_axis_pts_4.go:10-13 -/
  | .parseFixNoAxisPts4 => .one ⟨"NumberOfAxisPoints", "NumberOfAxisPointsSet", (.uint 16)⟩
  /- struct FixNoAxisPts5, a2l/fix_no_axis_pts_5.go:10-13 -/
  | .parseFixNoAxisPts5 => .one ⟨"NumberOfAxisPoints", "NumberOfAxisPointsSet", (.uint 16)⟩
  /- struct FixNoAxisPtsX, a2l/fix_no_axis_pts_x.go:10-13 -/
  | .parseFixNoAxisPtsX => .one ⟨"NumberOfAxisPoints", "NumberOfAxisPointsSet", (.uint 16)⟩
  /- struct FixNoAxisPtsY, a2l/fix_no_axis_pts_y.go:10-13 -/
  | .parseFixNoAxisPtsY => .one ⟨"NumberOfAxisPoints", "NumberOfAxisPointsSet", (.uint 16)⟩
  /- struct FixNoAxisPtsZ, a2l/fix_no_axis_pts_z.go:10-13 -/
  | .parseFixNoAxisPtsZ => .one ⟨"NumberOfAxisPoints", "NumberOfAxisPointsSet", (.uint 16)⟩
  /- struct FncValues, a2l/fnc_values.go:11-38 -/
  | .parseFncValues => .seq [⟨"Position", "PositionSet", (.uint 16)⟩, ⟨"Datatype", "DatatypeSet", (.enum parseDataTypeEnum)⟩, ⟨"IndexMode", "IndexModeSet", (.enum parseIndexModeEnum)⟩, ⟨"Addresstype", "AddresstypeSet", (.enum parseAddrTypeEnum)⟩]
  /- struct format, a2l/format.go:9-12 -/
  | .parseFormat => .one ⟨"formatString", "formatStringSet", .str⟩
  /- struct Formula, a2l/formula.go:9-13 -/
  | .parseFormula => .block false
    []
    (.list "fx" "fxSet" .str)
    [((str! "FORMULA_INV"), .obj .parseFormulaInv "formulaInv" .field)]
    []
  /- struct formulaInv, a2l/formula_inv.go:9-12 -/
  | .parseFormulaInv => .one ⟨"gx", "gxSet", .str⟩
  /- struct frame, a2l/frame.go:10-21 -/
  | .parseFrame => .block false
    [⟨"name", "nameSet", .str⟩,
     ⟨"longIdentifier", "longIdentifierSet", .str⟩,
     ⟨"scalingUnit", "scalingUnitSet", (.uint 16)⟩,
     ⟨"rate", "rateSet", (.uint 32)⟩]
    .none
    [((str! "FRAME_MEASUREMENT"), .obj .parseFrameMeasurement "frameMeasurement" .field),
     ((str! "/begin IF_DATA"), .obj .parseIfData "ifData" .append)]
    []
  /- struct frameMeasurement, a2l/frame_measurement.go:9-12 -/
  | .parseFrameMeasurement => .other
  /- struct function, a2l/function.go:9-24 -/
  | .parseFunction => .block false
    [⟨"name", "nameSet", .str⟩,
     ⟨"longIdentifier", "longIdentifierSet", .str⟩]
    .none
    [((str! "/begin ANNOTATION"), .obj .parseAnnotation "annotation" .append),
     ((str! "/begin AR_COMPONENT"), .obj .parseArComponent "arComponent" .field),
     ((str! "/begin DEF_CHARACTERISTIC"), .obj .parseDefCharacteristic "defCharacteristic" .field),
     ((str! "FUNCTION_VERSION"), .obj .parseFunctionVersion "functionVersion" .field),
     ((str! "/begin IF_DATA"), .obj .parseIfData "ifData" .append),
     ((str! "/begin IN_MEASUREMENT"), .obj .parseInMeasurement "inMeasurement" .field),
     ((str! "/begin LOC_MEASUREMENT"), .obj .parseLocMeasurement "locMeasurement" .field),
     ((str! "/begin OUT_MEASUREMENT"), .obj .parseOutMeasurement "outMeasurement" .field),
     ((str! "/begin REF_CHARACTERISTIC"), .obj .parseRefCharacteristic "refCharacteristic" .field),
     ((str! "/begin SUB_FUNCTION"), .obj .parseSubFunction "subFunction" .field)]
    []
  /- struct FunctionList, a2l/function_list.go:9-12 -/
  | .parseFunctionList => .block false
    []
    (.list "name" "nameSet" .str)
    []
    []
  /- struct functionVersion, a2l/function_version.go:9-12 -/
  | .parseFunctionVersion => .one ⟨"versionIdentifier", "versionIdentifierSet", .str⟩
  /- struct group, a2l/group.go:9-21 -/
  | .parseGroup => .block false
    [⟨"groupName", "groupNameSet", .str⟩,
     ⟨"groupLongIdentifier", "groupLongIdentifierSet", .str⟩]
    .none
    [((str! "/begin ANNOTATION"), .obj .parseAnnotation "annotation" .append),
     ((str! "/begin FUNCTION_LIST"), .obj .parseFunctionList "functionList" .field),
     ((str! "/begin IF_DATA"), .obj .parseIfData "ifData" .append),
     ((str! "/begin REF_CHARACTERISTIC"), .obj .parseRefCharacteristic "refCharacteristic" .field),
     ((str! "/begin REF_MEASUREMENT"), .obj .parseRefMeasurement "refMeasurement" .field),
     ((str! "ROOT"), .obj .parseRoot "root" .field),
     ((str! "/begin SUB_GROUP"), .obj .parseSubGroup "subGroup" .field)]
    []
  /- struct guardRailsKeyword, a2l/guard_rails.go:9-12 -/
  | .parseGuardRails => .keyword "value" "valueSet"
  /- struct header, a2l/header.go:9-14 -/
  | .parseHeader => .block false
    [⟨"comment", "commentSet", .str⟩]
    .none
    [((str! "PROJECT_NO"), .obj .parseProjectNo "projectNo" .field),
     ((str! "VERSION"), .obj .parseVersion "version" .field)]
    []
  /- struct Identification, a2l/identification.go:11-16 -/
  | .parseIdentification => .seq [⟨"Position", "PositionSet", (.uint 16)⟩, ⟨"Datatype", "DatatypeSet", (.enum parseDataTypeEnum)⟩]
  /- struct IfData, a2l/if_data.go:9-14 -/
  | .parseIfData => .block true
    [⟨"name", "nameSet", .str⟩]
    (.list "data" "dataSet" .str)
    []
    []
  /- struct inMeasurement, a2l/in_measurement.go:9-12 -/
  | .parseInMeasurement => .block false
    []
    (.list "identifier" "identifierSet" .str)
    []
    []
  /- struct instance, a2l/instance.go:9-30 -/
  | .parseInstance => .block false
    [⟨"name", "nameSet", .str⟩,
     ⟨"LongIdentifier", "longIdentifierSet", .str⟩,
     ⟨"typeDefName", "typeDefNameSet", .str⟩,
     ⟨"address", "addressSet", .str⟩]
    .none
    [((str! "/begin ANNOTATION"), .obj .parseAnnotation "annotation" .append),
     ((str! "ADDRESS_TYPE"), .enum parseAddrTypeEnum "addressType"),
     ((str! "CALIBRATION_ACCESS"), .enum parseCalibrationAccessEnum "calibrationAccess"),
     ((str! "DISPLAY_IDENTIFIER"), .obj .parseDisplayIdentifier "displayIdentifier" .field),
     ((str! "ECU_ADDRESS_EXTENSION"), .obj .parseECUAddressExtension "ecuAddressExtension" .field),
     ((str! "/begin IF_DATA"), .obj .parseIfData "ifData" .append),
     ((str! "MATRIX_DIM"), .obj .parseMatrixDim "matrixDim" .field),
     ((str! "MAX_REFRESH"), .obj .parseMaxRefresh "maxRefresh" .field),
     ((str! "MODEL_LINK"), .obj .parseModelLink "modelLink" .field),
     ((str! "/begin OVERWRITE"), .obj .parseOverwrite "overwrite" .field),
     ((str! "READ_WRITE"), .obj .parseReadWrite "readWrite" .field),
     ((str! "SYMBOL_LINK"), .obj .parseSymbolLink "symbolLink" .field)]
    []
  /- struct layout, a2l/layout.go:9-12 -/
  | .parseLayout => .one ⟨"indexMode", "indexModeSet", (.enum parseIndexModeEnum)⟩
  /- struct LeftShift, a2l/left_shift.go:10-13 -/
  | .parseLeftShift => .one ⟨"bitcount", "bitcountSet", (.uint 32)⟩
  /- struct limits, a2l/limits.go:10-15 -/
  | .parseLimits => .seq [⟨"lowerLimit", "lowerLimitSet", .float⟩, ⟨"upperLimit", "upperLimitSet", .float⟩]
  /- struct locMeasurement, a2l/loc_measurement.go:9-12 -/
  | .parseLocMeasurement => .block false
    []
    (.list "identifier" "identifierSet" .str)
    []
    []
  /- struct MapList, a2l/map_list.go:9-12 -/
  | .parseMapList => .block false
    []
    (.list "name" "nameSet" .str)
    []
    []
  /- struct MatrixDim, a2l/matrix_dim.go:10-21 -/
  | .parseMatrixDim => .seq [⟨"DimX", "DimXSet", (.uint 16)⟩, ⟨"DimY", "DimYSet", (.uint 16)⟩, ⟨"DimZ", "DimZSet", (.uint 16)⟩, ⟨"Dim4", "Dim4Set", (.uint 16)⟩, ⟨"Dim5", "Dim5Set", (.uint 16)⟩]
  /- struct MaxGrad, a2l/max_grad.go:10-13 -/
  | .parseMaxGrad => .one ⟨"maxGradient", "maxGradientSet", .float⟩
  /- struct MaxRefresh, a2l/max_refresh.go:10-15 -/
  | .parseMaxRefresh => .seq [⟨"scalingUnit", "scalingUnitSet", (.uint 16)⟩, ⟨"rate", "rateSet", (.uint 32)⟩]
  /- struct measurement, a2l/measurement.go:10-49 -/
  | .parseMeasurement => .block false
    [⟨"name", "nameSet", .str⟩,
     ⟨"longIdentifier", "longIdentifierSet", .str⟩,
     ⟨"datatype", "datatypeSet", (.enum parseDataTypeEnum)⟩,
     ⟨"conversion", "conversionSet", .str⟩,
     ⟨"resolution", "resolutionSet", (.uint 16)⟩,
     ⟨"accuracy", "accuracySet", .float⟩,
     ⟨"lowerLimit", "lowerLimitSet", .float⟩,
     ⟨"upperLimit", "upperLimitSet", .float⟩]
    .none
    [((str! "/begin ANNOTATION"), .obj .parseAnnotation "annotation" .append),
     ((str! "ARRAY_SIZE"), .obj .parseArraySize "arraySize" .field),
     ((str! "BIT_MASK"), .obj .parseBitMask "bitMask" .field),
     ((str! "/begin BIT_OPERATION"), .obj .parseBitOperation "bitOperation" .field),
     ((str! "BYTE_ORDER"), .obj .parseByteOrder "byteOrder" .field),
     ((str! "DISCRETE"), .obj .parseDiscrete "discrete" .field),
     ((str! "DISPLAY_IDENTIFIER"), .obj .parseDisplayIdentifier "displayIdentifier" .field),
     ((str! "ECU_ADDRESS"), .obj .parseEcuAddress "ecuAddress" .field),
     ((str! "ECU_ADDRESS_EXTENSION"), .obj .parseECUAddressExtension "ecuAddressExtension" .field),
     ((str! "ERROR_MASK"), .obj .parseErrorMask "errorMask" .field),
     ((str! "FORMAT"), .obj .parseFormat "format" .field),
     ((str! "/begin FUNCTION_LIST"), .obj .parseFunctionList "functionList" .field),
     ((str! "/begin IF_DATA"), .obj .parseIfData "ifData" .append),
     ((str! "LAYOUT"), .obj .parseLayout "layout" .field),
     ((str! "MATRIX_DIM"), .obj .parseMatrixDim "matrixDim" .field),
     ((str! "MAX_REFRESH"), .obj .parseMaxRefresh "maxRefresh" .field),
     ((str! "MODEL_LINK"), .obj .parseModelLink "modelLink" .field),
     ((str! "PHYS_UNIT"), .obj .parsePhysUnit "physUnit" .field),
     ((str! "READ_WRITE"), .obj .parseReadWrite "readWrite" .field),
     ((str! "REF_MEMORY_SEGMENT"), .obj .parseRefMemorySegment "refMemorySegment" .field),
     ((str! "SYMBOL_LINK"), .obj .parseSymbolLink "symbolLink" .field),
     ((str! "/begin VIRTUAL"), .obj .parseVirtual "virtual" .field)]
    []
  /- struct memoryLayout, a2l/memory_layout.go:10-20 -/
  | .parseMemoryLayout => .block false
    [⟨"prgType", "prgTypeSet", (.enum parsePrgTypeEnum)⟩,
     ⟨"address", "addressSet", .str⟩,
     ⟨"size", "sizeSet", .str⟩]
    (.list "offset" "offsetSet" (.int 32))
    [((str! "/begin IF_DATA"), .obj .parseIfData "ifData" .append)]
    []
  /- struct memorySegment, a2l/memory_segment.go:9-27 -/
  | .parseMemorySegment => .other
  /- struct modCommon, a2l/mod_common.go:9-22 -/
  | .parseModCommon => .block false
    [⟨"comment", "commentSet", .str⟩]
    .none
    [((str! "ALIGNMENT_BYTE"), .obj .parseAlignmentByte "AlignmentByte" .field),
     ((str! "ALIGNMENT_FLOAT16_IEEE"), .obj .parseAlignmentFloat16Ieee "AlignmentFloat16Ieee" .field),
     ((str! "ALIGNMENT_FLOAT32_IEEE"), .obj .parseAlignmentFloat32Ieee "AlignmentFloat32Ieee" .field),
     ((str! "ALIGNMENT_FLOAT64_IEEE"), .obj .parseAlignmentFloat64Ieee "AlignmentFloat64Ieee" .field),
     ((str! "ALIGNMENT_INT64"), .obj .parseAlignmentInt64 "AlignmentInt64" .field),
     ((str! "ALIGNMENT_LONG"), .obj .parseAlignmentLong "AlignmentLong" .field),
     ((str! "ALIGNMENT_WORD"), .obj .parseAlignmentWord "AlignmentWord" .field),
     ((str! "BYTE_ORDER"), .obj .parseByteOrder "ByteOrder" .field),
     ((str! "DATA_SIZE"), .obj .parseDataSize "dataSize" .field),
     ((str! "DEPOSIT"), .obj .parseDeposit "deposit" .field)]
    []
  /- struct modPar, a2l/mod_par.go:9-28 -/
  | .parseModPar => .block false
    [⟨"comment", "commentSet", .str⟩]
    .none
    [((str! "ADDR_EPK"), .obj .parseAddrEpk "addrEpk" .append),
     ((str! "/begin CALIBRATION_METHOD"), .obj .parseCalibrationMethod "calibrationMethod" .append),
     ((str! "CPU_TYPE"), .obj .parseCpuType "cpuType" .field),
     ((str! "CUSTOMER"), .obj .parseCustomer "customer" .field),
     ((str! "CUSTOMER_NO"), .obj .parseCustomerNo "customerNo" .field),
     ((str! "ECU"), .obj .parseEcu "ecu" .field),
     ((str! "ECU_CALIBRATION_OFFSET"), .obj .parseEcuCalibrationOffset "ecuCalibrationOffset" .field),
     ((str! "EPK"), .obj .parseEpk "epk" .field),
     ((str! "/begin MEMORY_LAYOUT"), .obj .parseMemoryLayout "memoryLayout" .append),
     ((str! "/begin MEMORY_SEGMENT"), .obj .parseMemorySegment "memorySegment" .append),
     ((str! "NO_OF_INTERFACES"), .obj .parseNoOfInterfaces "noOfInterfaces" .field),
     ((str! "PHONE_NO"), .obj .parsePhoneNo "phoneNo" .field),
     ((str! "SUPPLIER"), .obj .parseSupplier "supplier" .field),
     ((str! "SYSTEM_CONSTANT"), .obj .parseSystemConstant "SystemConstants" (.byName "Name")),
     ((str! "USER"), .obj .parseUser "user" .field),
     ((str! "VERSION"), .obj .parseVersion "version" .field)]
    ["SystemConstants"]
  /- struct modelLink, a2l/model_link.go:22-26 -/
  | .parseModelLink => .one ⟨"modelName", "modelNameSet", .str⟩
  /- struct Module, a2l/module.go:11-43 -/
  | .parseModule => .block false
    [⟨"Name", "nameSet", .str⟩,
     ⟨"longIdentifier", "longIdentifierSet", .str⟩]
    .none
    [((str! "/begin A2ML"), .obj .parseA2ML "a2ml" .field),
     ((str! "/begin AXIS_PTS"), .obj .parseAxisPts "AxisPts" (.byName "name")),
     ((str! "/begin BLOB"), .obj .parseBlob "blobs" (.byName "name")),
     ((str! "/begin CHARACTERISTIC"), .obj .parseCharacteristic "Characteristics" (.byName "Name")),
     ((str! "/begin COMPU_METHOD"), .obj .parseCompuMethod "CompuMethods" (.byName "Name")),
     ((str! "/begin COMPU_TAB"), .obj .parseCompuTab "CompuTabs" (.byName "Name")),
     ((str! "/begin COMPU_VTAB"), .obj .parseCompuVtab "CompuVTabs" (.byName "Name")),
     ((str! "/begin COMPU_VTAB_RANGE"), .obj .parseCompuVtabRange "CompuVTabRanges" (.byName "Name")),
     ((str! "/begin FRAME"), .obj .parseFrame "frame" .field),
     ((str! "/begin FUNCTION"), .obj .parseFunction "Functions" (.byName "name")),
     ((str! "/begin GROUP"), .obj .parseGroup "Groups" (.byName "groupName")),
     ((str! "/begin IF_DATA"), .obj .parseIfData "ifData" (.byName "name")),
     ((str! "/begin INSTANCE"), .obj .parseInstance "instances" (.byName "name")),
     ((str! "/begin MEASUREMENT"), .obj .parseMeasurement "Measurements" (.byName "name")),
     ((str! "/begin MOD_COMMON"), .obj .parseModCommon "ModCommon" .field),
     ((str! "/begin MOD_PAR"), .obj .parseModPar "ModPar" .field),
     ((str! "/begin RECORD_LAYOUT"), .obj .parseRecordLayout "RecordLayouts" (.byName "Name")),
     ((str! "/begin TRANSFORMER"), .obj .parseTransformer "transformers" (.byName "name")),
     ((str! "/begin TYPEDEF_AXIS"), .obj .parseTypeDefAxis "typeDefAxis" (.byName "name")),
     ((str! "/begin TYPEDEF_BLOB"), .obj .parseTypeDefBlob "typeDefBlobs" (.byName "name")),
     ((str! "/begin TYPEDEF_CHARACTERISTIC"), .obj .parseTypeDefCharacteristic "typeDefCharacteristics" (.byName "name")),
     ((str! "/begin TYPEDEF_MEASUREMENT"), .obj .parseTypeDefMeasurement "typeDefMeasurements" (.byName "name")),
     ((str! "/begin TYPEDEF_STRUCTURE"), .obj .parseTypeDefStructure "typeDefStructures" (.byName "name")),
     ((str! "/begin UNIT"), .obj .parseUnit "Units" (.byName "name")),
     ((str! "/begin USER_RIGHTS"), .obj .parseUserRights "userRights" (.byName "userLevelId")),
     ((str! "/begin VARIANT_CODING"), .obj .parseVariantCoding "variantCoding" .field)]
    ["AxisPts", "blobs", "Characteristics", "CompuMethods", "CompuTabs", "CompuVTabs", "CompuVTabRanges", "Functions", "Groups", "ifData", "instances", "Measurements", "RecordLayouts", "transformers", "typeDefAxis", "typeDefBlobs", "typeDefCharacteristics", "typeDefMeasurements", "typeDefStructures", "Units", "userRights"]
  /- struct Monotony, a2l/monotony.go:9-12 -/
  | .parseMonotony => .one ⟨"monotony", "monotonySet", (.enum parseMonotonyTypeEnum)⟩
  /- struct NoAxisPts4, a2l/no_axis_pts_4.go:10-15 -/
  | .parseNoAxisPts4 => .seq [⟨"Position", "PositionSet", (.uint 16)⟩, ⟨"Datatype", "DatatypeSet", (.enum parseDataTypeEnum)⟩]
  /- struct NoAxisPts5, a2l/no_axis_pts_5.go:10-15 -/
  | .parseNoAxisPts5 => .seq [⟨"Position", "PositionSet", (.uint 16)⟩, ⟨"Datatype", "DatatypeSet", (.enum parseDataTypeEnum)⟩]
  /- struct NoAxisPtsX, a2l/no_axis_pts_x.go:10-15 -/
  | .parseNoAxisPtsX => .seq [⟨"Position", "PositionSet", (.uint 16)⟩, ⟨"Datatype", "DatatypeSet", (.enum parseDataTypeEnum)⟩]
  /- struct NoAxisPtsY, a2l/no_axis_pts_y.go:10-15 -/
  | .parseNoAxisPtsY => .seq [⟨"Position", "PositionSet", (.uint 16)⟩, ⟨"Datatype", "DatatypeSet", (.enum parseDataTypeEnum)⟩]
  /- struct NoAxisPtsZ, a2l/no_axis_pts_z.go:10-15 -/
  | .parseNoAxisPtsZ => .seq [⟨"Position", "PositionSet", (.uint 16)⟩, ⟨"Datatype", "DatatypeSet", (.enum parseDataTypeEnum)⟩]
  /- struct noOfInterfaces, a2l/no_of_interfaces.go:10-13 -/
  | .parseNoOfInterfaces => .one ⟨"num", "numSet", (.uint 16)⟩
  /- struct NoRescaleX, a2l/no_rescale_x.go:11-16 -/
  | .parseNoRescaleX => .seq [⟨"Position", "PositionSet", (.uint 16)⟩, ⟨"Datatype", "DatatypeSet", (.enum parseDataTypeEnum)⟩]
  /- struct Number, a2l/number.go:10-13 -/
  | .parseNumber => .one ⟨"number", "numberSet", (.uint 16)⟩
  /- struct Offset4, a2l/offset_4.go:17-22 -/
  | .parseOffset4 => .seq [⟨"Position", "PositionSet", (.uint 16)⟩, ⟨"Datatype", "DatatypeSet", (.enum parseDataTypeEnum)⟩]
  /- struct Offset5, a2l/offset_5.go:17-22 -/
  | .parseOffset5 => .seq [⟨"Position", "PositionSet", (.uint 16)⟩, ⟨"Datatype", "DatatypeSet", (.enum parseDataTypeEnum)⟩]
  /- struct OffsetX, a2l/offset_x.go:17-22 -/
  | .parseOffsetX => .seq [⟨"Position", "PositionSet", (.uint 16)⟩, ⟨"Datatype", "DatatypeSet", (.enum parseDataTypeEnum)⟩]
  /- struct offsetY, a2l/offset_y.go:17-22 -/
  | .parseOffsetY => .seq [⟨"Position", "PositionSet", (.uint 16)⟩, ⟨"Datatype", "DatatypeSet", (.enum parseDataTypeEnum)⟩]
  /- struct OffsetZ, a2l/offset_z.go:17-22 -/
  | .parseOffsetZ => .seq [⟨"Position", "PositionSet", (.uint 16)⟩, ⟨"Datatype", "DatatypeSet", (.enum parseDataTypeEnum)⟩]
  /- struct outMeasurement, a2l/out_measurement.go:9-12 -/
  | .parseOutMeasurement => .block false
    []
    (.list "identifier" "identifierSet" .str)
    []
    []
  /- struct overwrite, a2l/overwrite.go:10-22 -/
  | .parseOverwrite => .other
  /- struct phoneNo, a2l/phone_no.go:9-12 -/
  | .parsePhoneNo => .one ⟨"telnum", "telnumSet", .str⟩
  /- struct physUnit, a2l/phys_unit.go:9-12 -/
  | .parsePhysUnit => .one ⟨"unit", "unitSet", .str⟩
  /- struct Project, a2l/project.go:9-16 -/
  | .parseProject => .other
  /- struct projectNo, a2l/project_no.go:9-12 -/
  | .parseProjectNo => .one ⟨"projectNumber", "projectNumberSet", .str⟩
  /- struct readOnlyKeyword, a2l/read_only.go:5-8 -/
  | .parseReadOnly => .keyword "value" "valueSet"
  /- struct readWriteKeyword, a2l/read_write.go:5-8 -/
  | .parseReadWrite => .keyword "value" "valueSet"
  /- struct RecordLayout, a2l/record_layout.go:9-68 -/
  | .parseRecordLayout => .block false
    [⟨"Name", "NameSet", .str⟩]
    .none
    [((str! "ALIGNMENT_BYTE"), .obj .parseAlignmentByte "AlignmentByte" .field),
     ((str! "ALIGNMENT_FLOAT16_IEEE"), .obj .parseAlignmentFloat16Ieee "AlignmentFloat16Ieee" .field),
     ((str! "ALIGNMENT_FLOAT32_IEEE"), .obj .parseAlignmentFloat32Ieee "AlignmentFloat32Ieee" .field),
     ((str! "ALIGNMENT_FLOAT64_IEEE"), .obj .parseAlignmentFloat64Ieee "AlignmentFloat64Ieee" .field),
     ((str! "ALIGNMENT_INT64"), .obj .parseAlignmentInt64 "AlignmentInt64" .field),
     ((str! "ALIGNMENT_LONG"), .obj .parseAlignmentLong "AlignmentLong" .field),
     ((str! "ALIGNMENT_WORD"), .obj .parseAlignmentWord "AlignmentWord" .field),
     ((str! "AXIS_PTS_X"), .obj .parseAxisPtsX "AxisPtsX" .field),
     ((str! "AXIS_PTS_Y"), .obj .parseAxisPtsY "AxisPtsY" .field),
     ((str! "AXIS_PTS_Z"), .obj .parseAxisPtsZ "AxisPtsZ" .field),
     ((str! "AXIS_PTS_4"), .obj .parseAxisPts4 "AxisPts4" .field),
     ((str! "AXIS_PTS_5"), .obj .parseAxisPts5 "AxisPts5" .field),
     ((str! "AXIS_RESCALE_X"), .obj .parseAxisRescaleX "AxisRescaleX" .field),
     ((str! "DIST_OP_X"), .obj .parseDistOpX "DistOpX" .field),
     ((str! "DIST_OP_Y"), .obj .parseDistOpY "DistOpY" .field),
     ((str! "DIST_OP_Z"), .obj .parseDistOpZ "DistOpZ" .field),
     ((str! "DIST_OP_4"), .obj .parseDistOp4 "DistOp4" .field),
     ((str! "DIST_OP_5"), .obj .parseDistOp5 "DistOp5" .field),
     ((str! "FIX_NO_AXIS_PTS_X"), .obj .parseFixNoAxisPtsX "FixNoAxisPtsX" .field),
     ((str! "FIX_NO_AXIS_PTS_Y"), .obj .parseFixNoAxisPtsY "FixNoAxisPtsY" .field),
     ((str! "FIX_NO_AXIS_PTS_Z"), .obj .parseFixNoAxisPtsZ "FixNoAxisPtsZ" .field),
     ((str! "FIX_NO_AXIS_PTS_4"), .obj .parseFixNoAxisPts4 "FixNoAxisPts4" .field),
     ((str! "FIX_NO_AXIS_PTS_5"), .obj .parseFixNoAxisPts5 "FixNoAxisPts5" .field),
     ((str! "FNC_VALUES"), .obj .parseFncValues "FncValues" .field),
     ((str! "IDENTIFICATION"), .obj .parseIdentification "Identification" .field),
     ((str! "NO_AXIS_PTS_X"), .obj .parseNoAxisPtsX "NoAxisPtsX" .field),
     ((str! "NO_AXIS_PTS_Y"), .obj .parseNoAxisPtsY "NoAxisPtsY" .field),
     ((str! "NO_AXIS_PTS_Z"), .obj .parseNoAxisPtsZ "NoAxisPtsZ" .field),
     ((str! "NO_AXIS_PTS_4"), .obj .parseNoAxisPts4 "NoAxisPts4" .field),
     ((str! "NO_AXIS_PTS_5"), .obj .parseNoAxisPts5 "NoAxisPts5" .field),
     ((str! "NO_RESCALE_X"), .obj .parseNoRescaleX "NoRescaleX" .field),
     ((str! "OFFSET_X"), .obj .parseOffsetX "OffsetX" .field),
     ((str! "OFFSET_Y"), .obj .parseOffsetY "OffsetY" .field),
     ((str! "OFFSET_Z"), .obj .parseOffsetZ "OffsetZ" .field),
     ((str! "OFFSET_4"), .obj .parseOffset4 "Offset4" .field),
     ((str! "OFFSET_5"), .obj .parseOffset5 "Offset5" .field),
     ((str! "RESERVED"), .obj .parseReserved "Reserved" .field),
     ((str! "RIP_ADDR_W"), .obj .parseRipAddrW "RipAddrW" .field),
     ((str! "RIP_ADDR_X"), .obj .parseRipAddrX "RipAddrX" .field),
     ((str! "RIP_ADDR_Y"), .obj .parseRipAddrY "RipAddrY" .field),
     ((str! "RIP_ADDR_Z"), .obj .parseRipAddrZ "RipAddrZ" .field),
     ((str! "RIP_ADDR_4"), .obj .parseRipAddr4 "RipAddr4" .field),
     ((str! "RIP_ADDR_5"), .obj .parseRipAddr5 "RipAddr5" .field),
     ((str! "SRC_ADDR_X"), .obj .parseSrcAddrX "SrcAddrX" .field),
     ((str! "SRC_ADDR_Y"), .obj .parseSrcAddrY "SrcAddrY" .field),
     ((str! "SRC_ADDR_Z"), .obj .parseSrcAddrZ "SrcAddrZ" .field),
     ((str! "SRC_ADDR_4"), .obj .parseSrcAddr4 "SrcAddr4" .field),
     ((str! "SRC_ADDR_5"), .obj .parseSrcAddr5 "SrcAddr5" .field),
     ((str! "SHIFT_OP_X"), .obj .parseShiftOpX "ShiftOpX" .field),
     ((str! "SHIFT_OP_Y"), .obj .parseShiftOpY "ShiftOpY" .field),
     ((str! "SHIFT_OP_Z"), .obj .parseShiftOpZ "ShiftOpZ" .field),
     ((str! "SHIFT_OP_4"), .obj .parseShiftOp4 "ShiftOp4" .field),
     ((str! "SHIFT_OP_5"), .obj .parseShiftOp5 "ShiftOp5" .field),
     ((str! "STATIC_RECORD_LAYOUT"), .obj .parseStaticRecordLayout "StaticRecordLayout" .field),
     ((str! "STATIC_ADDRESS_OFFSETS"), .obj .parseStaticAddressOffsets "StaticAddressOffsets" .field)]
    []
  /- struct refCharacteristic, a2l/ref_characteristic.go:9-12 -/
  | .parseRefCharacteristic => .block false
    []
    (.list "identifier" "identifierSet" .str)
    []
    []
  /- struct refGroup, a2l/ref_group.go:9-12 -/
  | .parseRefGroup => .block false
    []
    (.list "identifier" "identifierSet" .str)
    []
    []
  /- struct refMeasurement, a2l/ref_measurement.go:9-12 -/
  | .parseRefMeasurement => .block false
    []
    (.list "identifier" "identifierSet" .str)
    []
    []
  /- struct refMemorySegment, a2l/ref_memory_segment.go:9-12 -/
  | .parseRefMemorySegment => .one ⟨"name", "nameSet", .str⟩
  /- struct refUnit, a2l/ref_unit.go:9-12 -/
  | .parseRefUnit => .one ⟨"unit", "unitSet", .str⟩
  /- struct Reserved, a2l/reserved.go:15-20 -/
  | .parseReserved => .seq [⟨"Position", "PositionSet", (.uint 16)⟩, ⟨"DataSize", "DataSizeSet", (.enum parseDataSizeEnum)⟩]
  /- struct RightShift, a2l/right_shift.go:10-13 -/
  | .parseRightShift => .one ⟨"bitcount", "bitcountSet", (.uint 32)⟩
  /- struct RipAddr4, a2l/rip_addr_4.go:42-47 -/
  | .parseRipAddr4 => .seq [⟨"Position", "PositionSet", (.uint 16)⟩, ⟨"Datatype", "DatatypeSet", (.enum parseDataTypeEnum)⟩]
  /- struct RipAddr5, a2l/rip_addr_5.go:42-47 -/
  | .parseRipAddr5 => .seq [⟨"Position", "PositionSet", (.uint 16)⟩, ⟨"Datatype", "DatatypeSet", (.enum parseDataTypeEnum)⟩]
  /- struct RipAddrW, a2l/rip_addr_w.go:42-47 -/
  | .parseRipAddrW => .seq [⟨"Position", "PositionSet", (.uint 16)⟩, ⟨"Datatype", "DatatypeSet", (.enum parseDataTypeEnum)⟩]
  /- struct ripAddrX, a2l/rip_addr_x.go:42-47 -/
  | .parseRipAddrX => .seq [⟨"position", "positionSet", (.uint 16)⟩, ⟨"datatype", "datatypeSet", (.enum parseDataTypeEnum)⟩]
  /- struct RipAddrY, a2l/rip_addr_y.go:42-47 -/
  | .parseRipAddrY => .seq [⟨"Position", "PositionSet", (.uint 16)⟩, ⟨"Datatype", "DatatypeSet", (.enum parseDataTypeEnum)⟩]
  /- struct RipAddrZ, a2l/rip_addr_z.go:42-47 -/
  | .parseRipAddrZ => .seq [⟨"Position", "PositionSet", (.uint 16)⟩, ⟨"Datatype", "DatatypeSet", (.enum parseDataTypeEnum)⟩]
  /- struct rootKeyword, a2l/root.go:5-8 -/
  | .parseRoot => .keyword "value" "valueSet"
  /- struct ShiftOp4, a2l/shift_op_4.go:20-25 -/
  | .parseShiftOp4 => .seq [⟨"Position", "PositionSet", (.uint 16)⟩, ⟨"Datatype", "DatatypeSet", (.enum parseDataTypeEnum)⟩]
  /- struct ShiftOp5, a2l/shift_op_5.go:20-25 -/
  | .parseShiftOp5 => .seq [⟨"Position", "PositionSet", (.uint 16)⟩, ⟨"Datatype", "DatatypeSet", (.enum parseDataTypeEnum)⟩]
  /- struct ShiftOpX, a2l/shift_op_x.go:20-25 -/
  | .parseShiftOpX => .seq [⟨"Position", "PositionSet", (.uint 16)⟩, ⟨"Datatype", "DatatypeSet", (.enum parseDataTypeEnum)⟩]
  /- struct ShiftOpY, a2l/shift_op_y.go:20-25 -/
  | .parseShiftOpY => .seq [⟨"Position", "PositionSet", (.uint 16)⟩, ⟨"Datatype", "DatatypeSet", (.enum parseDataTypeEnum)⟩]
  /- struct ShiftOpZ, a2l/shift_op_z.go:20-25 -/
  | .parseShiftOpZ => .seq [⟨"Position", "PositionSet", (.uint 16)⟩, ⟨"Datatype", "DatatypeSet", (.enum parseDataTypeEnum)⟩]
  /- struct siExponents, a2l/si_exponents.go:10-25 -/
  | .parseSiExponents => .seq [⟨"length", "lengthSet", (.int 16)⟩, ⟨"mass", "massSet", (.int 16)⟩, ⟨"time", "timeSet", (.int 16)⟩, ⟨"electricCurrent", "electricCurrentSet", (.int 16)⟩, ⟨"temperature", "temperatureSet", (.int 16)⟩, ⟨"amountOfSubstance", "amountOfSubstanceSet", (.int 16)⟩, ⟨"luminousIntensity", "luminousIntensitySet", (.int 16)⟩]
  /- struct SignExtendKeyword, a2l/sign_extend.go:5-8 -/
  | .parseSignExtend => .keyword "value" "valueSet"
  /- struct srcAddr4, a2l/src_addr_4.go:11-16 -/
  | .parseSrcAddr4 => .seq [⟨"position", "positionSet", (.uint 16)⟩, ⟨"datatype", "datatypeSet", (.enum parseDataTypeEnum)⟩]
  /- struct srcAddr5, a2l/src_addr_5.go:11-16 -/
  | .parseSrcAddr5 => .seq [⟨"position", "positionSet", (.uint 16)⟩, ⟨"datatype", "datatypeSet", (.enum parseDataTypeEnum)⟩]
  /- struct srcAddrX, a2l/src_addr_x.go:10-15 -/
  | .parseSrcAddrX => .seq [⟨"position", "positionSet", (.uint 16)⟩, ⟨"datatype", "datatypeSet", (.enum parseDataTypeEnum)⟩]
  /- struct srcAddrY, a2l/src_addr_y.go:11-16 -/
  | .parseSrcAddrY => .seq [⟨"position", "positionSet", (.uint 16)⟩, ⟨"datatype", "datatypeSet", (.enum parseDataTypeEnum)⟩]
  /- struct srcAddrZ, a2l/src_addr_z.go:11-16 -/
  | .parseSrcAddrZ => .seq [⟨"position", "positionSet", (.uint 16)⟩, ⟨"datatype", "datatypeSet", (.enum parseDataTypeEnum)⟩]
  /- struct staticAddressOffsetsKeyword, a2l/static_address_offsets.go:5-8 -/
  | .parseStaticAddressOffsets => .keyword "value" "valueSet"
  /- struct staticRecordLayoutKeyword, a2l/static_record_layout.go:16-19 -/
  | .parseStaticRecordLayout => .keyword "value" "valueSet"
  /- struct StatusStringRef, a2l/status_string_ref.go:26-30 -/
  | .parseStatusStringRef => .one ⟨"ConversionTable", "ConversionTableSet", .str⟩
  /- struct StepSize, a2l/step_size.go:10-13 -/
  | .parseStepSize => .one ⟨"stepSize", "stepSizeSet", .float⟩
  /- struct structureComponent, a2l/structure_component.go:9-20 -/
  | .parseStructureComponent => .block false
    [⟨"name", "nameSet", .str⟩,
     ⟨"typeDefName", "typeDefNameSet", .str⟩,
     ⟨"addressOffset", "addressOffsetSet", .str⟩]
    .none
    [((str! "ADDRESS_TYPE"), .enum parseAddrTypeEnum "addressType"),
     ((str! "LAYOUT"), .obj .parseLayout "layout" .field),
     ((str! "MATRIX_DIM"), .obj .parseMatrixDim "matrixDim" .field),
     ((str! "SYMBOL_TYPE_LINK"), .obj .parseSymbolTypeLink "symbolTypeLink" .field)]
    []
  /- struct subFunction, a2l/sub_function.go:9-12 -/
  | .parseSubFunction => .block false
    []
    (.list "identifier" "identifierSet" .str)
    []
    []
  /- struct subGroup, a2l/sub_group.go:9-12 -/
  | .parseSubGroup => .block false
    []
    (.list "identifier" "identifierSet" .str)
    []
    []
  /- struct supplier, a2l/supplier.go:9-12 -/
  | .parseSupplier => .one ⟨"manufacturer", "manufacturerSet", .str⟩
  /- struct symbolLink, a2l/symbol_link.go:10-15 -/
  | .parseSymbolLink => .seq [⟨"symbolName", "symbolNameSet", .str⟩, ⟨"offset", "offsetSet", (.int 32)⟩]
  /- struct symbolTypeLink, a2l/symbol_type_link.go:9-11 -/
  | .parseSymbolTypeLink => .other
  /- struct SystemConstant, a2l/system_constant.go:9-14 -/
  | .parseSystemConstant => .seq [⟨"Name", "NameSet", .str⟩, ⟨"Value", "ValueSet", .str⟩]
  /- struct transformer, a2l/transformer.go:12-29 -/
  | .parseTransformer => .block false
    [⟨"name", "nameSet", .str⟩,
     ⟨"version", "versionSet", .str⟩,
     ⟨"executable32", "executable32Set", .str⟩,
     ⟨"executable64", "executable64Set", .str⟩,
     ⟨"timeOut", "timeOutSet", (.uint 32)⟩,
     ⟨"trigger", "triggerSet", (.enum parseTriggerEnum)⟩,
     ⟨"inverseTransformer", "inverseTransformerSet", .str⟩]
    .none
    [((str! "/begin TRANSFORMER_IN_OBJECTS"), .obj .parseTransformerInObject "transformerInObjects" .field),
     ((str! "/begin TRANSFORMER_OUT_OBJECTS"), .obj .parseTransformerOutObject "transformerOutObjects" .field)]
    []
  /- struct transformerInObject, a2l/transformer_in_object.go:9-12 -/
  | .parseTransformerInObject => .block false
    []
    (.list "identifier" "identifierSet" .str)
    []
    []
  /- struct transformerOutObject, a2l/transformer_out_object.go:9-12 -/
  | .parseTransformerOutObject => .block false
    []
    (.list "identifier" "identifierSet" .str)
    []
    []
  /- struct typeDefAxis, a2l/type_def_axis.go:10-36 -/
  | .parseTypeDefAxis => .block false
    [⟨"name", "nameSet", .str⟩,
     ⟨"LongIdentifier", "longIdentifierSet", .str⟩,
     ⟨"inputQuantity", "inputQuantitySet", .str⟩,
     ⟨"recordLayout", "recordLayoutSet", .str⟩,
     ⟨"maxDiff", "maxDiffSet", .float⟩,
     ⟨"conversion", "conversionSet", .str⟩,
     ⟨"maxAxisPoints", "maxAxisPointsSet", (.uint 16)⟩,
     ⟨"lowerLimit", "lowerLimitSet", .float⟩,
     ⟨"upperLimit", "upperLimitSet", .float⟩]
    .none
    [((str! "BYTE_ORDER"), .obj .parseByteOrder "byteOrder" .field),
     ((str! "DEPOSIT"), .obj .parseDeposit "deposit" .field),
     ((str! "EXTENDED_LIMITS"), .obj .parseExtendedLimits "extendedLimits" .field),
     ((str! "FORMAT"), .obj .parseFormat "format" .field),
     ((str! "MONOTONY"), .obj .parseMonotony "monotony" .field),
     ((str! "PHYS_UNIT"), .obj .parsePhysUnit "physUnit" .field),
     ((str! "STEP_SIZE"), .obj .parseStepSize "stepSize" .field)]
    []
  /- struct typeDefBlob, a2l/type_def_blob.go:10-18 -/
  | .parseTypeDefBlob => .block false
    [⟨"name", "nameSet", .str⟩,
     ⟨"longIdentifier", "longIdentifierSet", .str⟩,
     ⟨"size", "sizeSet", (.uint 32)⟩]
    .none
    [((str! "ADDRESS_TYPE"), .enum parseAddrTypeEnum "addressType")]
    []
  /- struct typeDefCharacteristic, a2l/type_def_characteristic.go:10-38 -/
  | .parseTypeDefCharacteristic => .block false
    [⟨"name", "nameSet", .str⟩,
     ⟨"LongIdentifier", "longIdentifierSet", .str⟩,
     ⟨"Type", "TypeSet", (.enum parseTypeEnum)⟩,
     ⟨"recordLayout", "recordLayoutSet", .str⟩,
     ⟨"maxDiff", "maxDiffSet", .float⟩,
     ⟨"conversion", "conversionSet", .str⟩,
     ⟨"lowerLimit", "lowerLimitSet", .float⟩,
     ⟨"upperLimit", "upperLimitSet", .float⟩]
    .none
    [((str! "/begin AXIS_DESCR"), .obj .parseAxisDescr "axisDescr" .append),
     ((str! "BIT_MASK"), .obj .parseBitMask "bitMask" .field),
     ((str! "BYTE_ORDER"), .obj .parseByteOrder "byteOrder" .field),
     ((str! "DISCRETE"), .obj .parseDiscrete "discrete" .field),
     ((str! "DISPLAY_IDENTIFIER"), .enum parseEncodingEnum "encoding"),
     ((str! "EXTENDED_LIMITS"), .obj .parseExtendedLimits "extendedLimits" .field),
     ((str! "FORMAT"), .obj .parseFormat "format" .field),
     ((str! "MATRIX_DIM"), .obj .parseMatrixDim "matrixDim" .field),
     ((str! "NUMBER"), .obj .parseNumber "number" .field),
     ((str! "PHYS_UNIT"), .obj .parsePhysUnit "physUnit" .field),
     ((str! "STEP_SIZE"), .obj .parseStepSize "stepSize" .field)]
    []
  /- struct typeDefMeasurement, a2l/type_def_measurement.go:10-36 -/
  | .parseTypeDefMeasurement => .block false
    [⟨"name", "nameSet", .str⟩,
     ⟨"longIdentifier", "longIdentifierSet", .str⟩,
     ⟨"datatype", "datatypeSet", (.enum parseDataTypeEnum)⟩,
     ⟨"conversion", "conversionSet", .str⟩,
     ⟨"resolution", "resolutionSet", (.uint 16)⟩,
     ⟨"accuracy", "accuracySet", .float⟩,
     ⟨"lowerLimit", "lowerLimitSet", .float⟩,
     ⟨"upperLimit", "upperLimitSet", .float⟩]
    .none
    [((str! "BIT_MASK"), .obj .parseBitMask "bitMask" .field),
     ((str! "/begin BIT_OPERATION"), .obj .parseBitOperation "bitOperation" .field),
     ((str! "BYTE_ORDER"), .obj .parseByteOrder "byteOrder" .field),
     ((str! "DISCRETE"), .obj .parseDiscrete "discrete" .field),
     ((str! "ERROR_MASK"), .obj .parseErrorMask "errorMask" .field),
     ((str! "FORMAT"), .obj .parseFormat "format" .field),
     ((str! "LAYOUT"), .obj .parseLayout "layout" .field),
     ((str! "MATRIX_DIM"), .obj .parseMatrixDim "matrixDim" .field),
     ((str! "PHYS_UNIT"), .obj .parsePhysUnit "physUnit" .field)]
    []
  /- struct typeDefStructure, a2l/type_def_structure.go:10-21 -/
  | .parseTypeDefStructure => .block false
    [⟨"name", "nameSet", .str⟩,
     ⟨"longIdentifier", "longIdentifierSet", .str⟩,
     ⟨"size", "sizeSet", (.uint 32)⟩]
    .none
    [((str! "ADDRESS_TYPE"), .enum parseAddrTypeEnum "addressType"),
     ((str! "CONSISTENT_EXCHANGE"), .obj .parseConsistentExchangeKeyword "consistentExchange" .field),
     ((str! "/begin STRUCTURE_COMPONENT"), .obj .parseStructureComponent "structureComponent" .append),
     ((str! "SYMBOL_TYPE_LINK"), .obj .parseSymbolTypeLink "symbolTypeLink" .field)]
    []
  /- struct unit, a2l/unit.go:9-21 -/
  | .parseUnit => .block false
    [⟨"name", "nameSet", .str⟩,
     ⟨"longIdentifier", "longIdentifierSet", .str⟩,
     ⟨"display", "displaySet", .str⟩,
     ⟨"Type", "TypeSet", (.enum parseTypeEnum)⟩]
    .none
    [((str! "REF_UNIT"), .obj .parseRefUnit "refUnit" .field),
     ((str! "SI_EXPONENTS"), .obj .parseSiExponents "siExponents" .field),
     ((str! "UNIT_CONVERSION"), .obj .parseUnitConversion "unitConversion" .field)]
    []
  /- struct unitConversion, a2l/unit_conversion.go:10-15 -/
  | .parseUnitConversion => .seq [⟨"gradient", "gradientSet", .float⟩, ⟨"offset", "offsetSet", .float⟩]
  /- struct user, a2l/user.go:9-12 -/
  | .parseUser => .one ⟨"userName", "userNameSet", .str⟩
  /- struct userRights, a2l/user_rights.go:9-14 -/
  | .parseUserRights => .block false
    [⟨"userLevelId", "userLevelIdSet", .str⟩]
    .none
    [((str! "READ_ONLY"), .obj .parseReadOnly "readOnly" .field),
     ((str! "/begin REF_GROUP"), .obj .parseRefGroup "refGroup" .append)]
    []
  /- struct varAddress, a2l/var_address.go:9-12 -/
  | .parseVarAddress => .block false
    []
    (.list "address" "addressSet" .str)
    []
    []
  /- struct varCharacteristic, a2l/var_characteristic.go:9-15 -/
  | .parseVarCharacteristic => .block false
    [⟨"name", "nameSet", .str⟩]
    (.list "identCriterionName" "identCriterionNameSet" .str)
    [((str! "/begin VAR_ADDRESS"), .obj .parseVarAddress "varAddress" .append)]
    []
  /- struct varCriterion, a2l/var_criterion.go:9-18 -/
  | .parseVarCriterion => .block false
    [⟨"name", "nameSet", .str⟩,
     ⟨"longIdentifier", "longIdentifierSet", .str⟩]
    (.list "value" "valueSet" .str)
    [((str! "VAR_MEASUREMENT"), .obj .parseVarMeasurement "varMeasurement" .field),
     ((str! "VAR_SELECTION_CHARACTERISTIC"), .obj .parseVarSelectionCharacteristic "varSelectionCharacteristic" .field)]
    []
  /- struct varForbiddenComb, a2l/var_forbidden_comb.go:9-14 -/
  | .parseVarForbiddenComb => .other
  /- struct varMeasurement, a2l/var_measurement.go:9-12 -/
  | .parseVarMeasurement => .one ⟨"name", "nameSet", .str⟩
  /- struct varNaming, a2l/var_naming.go:9-12 -/
  | .parseVarNaming => .one ⟨"tag", "tagSet", (.enum parseTagEnum)⟩
  /- struct varSelectionCharacteristic, a2l/var_selection_characteristic.go:9-12 -/
  | .parseVarSelectionCharacteristic => .one ⟨"name", "nameSet", .str⟩
  /- struct varSeparator, a2l/var_separator.go:9-12 -/
  | .parseVarSeparator => .one ⟨"separator", "separatorSet", .str⟩
  /- struct variantCoding, a2l/variant_coding.go:9-16 -/
  | .parseVariantCoding => .other
  /- struct version, a2l/version.go:9-12 -/
  | .parseVersion => .one ⟨"versionIdentifier", "versionIdentifierSet", .str⟩
  /- struct virtual, a2l/virtual.go:9-12 -/
  | .parseVirtual => .block false
    []
    (.list "measuringChannel" "measuringChannelSet" .str)
    []
    []
  /- struct VirtualCharacteristic, a2l/virtual_characteristic.go:9-14 -/
  | .parseVirtualCharacteristic => .block false
    [⟨"formula", "formulaSet", .str⟩]
    (.list "characteristic" "characteristicSet" .str)
    []
    []
  | .parseModuleMultithreaded => .other

end Verif.A2l.Decl
