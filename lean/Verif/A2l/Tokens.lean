import Verif.Go.Lit

/-!
The token constants and the keyword table of a2l/tokens.go (generated by tools/go2lean.py).
-/

namespace Verif.A2l
open Verif.Go

/-- a2l/tokens.go:3 -/
def a2mlVersionToken : Str := (str! "A2ML_VERSION")
/-- a2l/tokens.go:4 -/
def aInt64Token : Str := (str! "A_INT64")
/-- a2l/tokens.go:5 -/
def aUint64Token : Str := (str! "A_UINT64")
/-- a2l/tokens.go:6 -/
def absoluteToken : Str := (str! "ABSOLUTE")
/-- a2l/tokens.go:7 -/
def addrEpkToken : Str := (str! "ADDR_EPK")
/-- a2l/tokens.go:8 -/
def addressTypeToken : Str := (str! "ADDRESS_TYPE")
/-- a2l/tokens.go:9 -/
def alignmentByteToken : Str := (str! "ALIGNMENT_BYTE")
/-- a2l/tokens.go:10 -/
def alignmentFloat16IeeeToken : Str := (str! "ALIGNMENT_FLOAT16_IEEE")
/-- a2l/tokens.go:11 -/
def alignmentFloat32IeeeToken : Str := (str! "ALIGNMENT_FLOAT32_IEEE")
/-- a2l/tokens.go:12 -/
def alignmentFloat64IeeeToken : Str := (str! "ALIGNMENT_FLOAT64_IEEE")
/-- a2l/tokens.go:13 -/
def alignmentInt64Token : Str := (str! "ALIGNMENT_INT64")
/-- a2l/tokens.go:14 -/
def alignmentLongToken : Str := (str! "ALIGNMENT_LONG")
/-- a2l/tokens.go:15 -/
def alignmentWordToken : Str := (str! "ALIGNMENT_WORD")
/-- a2l/tokens.go:16 -/
def alternateCurvesToken : Str := (str! "ALTERNATE_CURVES")
/-- a2l/tokens.go:17 -/
def alternateWithXToken : Str := (str! "ALTERNATE_WITH_X")
/-- a2l/tokens.go:18 -/
def alternateWithYToken : Str := (str! "ALTERNATE_WITH_Y")
/-- a2l/tokens.go:19 -/
def annotationLabelToken : Str := (str! "ANNOTATION_LABEL")
/-- a2l/tokens.go:20 -/
def annotationOriginToken : Str := (str! "ANNOTATION_ORIGIN")
/-- a2l/tokens.go:21 -/
def arPrototypeOfToken : Str := (str! "AR_PROTOTYPE_OF")
/-- a2l/tokens.go:22 -/
def arraySizeToken : Str := (str! "ARRAY_SIZE")
/-- a2l/tokens.go:23 -/
def asap2VersionToken : Str := (str! "ASAP2_VERSION")
/-- a2l/tokens.go:24 -/
def asciiToken : Str := (str! "ASCII")
/-- a2l/tokens.go:25 -/
def axisPts4Token : Str := (str! "AXIS_PTS_4")
/-- a2l/tokens.go:26 -/
def axisPts5Token : Str := (str! "AXIS_PTS_5")
/-- a2l/tokens.go:27 -/
def axisPtsRefToken : Str := (str! "AXIS_PTS_REF")
/-- a2l/tokens.go:28 -/
def axisPtsXToken : Str := (str! "AXIS_PTS_X")
/-- a2l/tokens.go:29 -/
def axisPtsYToken : Str := (str! "AXIS_PTS_Y")
/-- a2l/tokens.go:30 -/
def axisPtsZToken : Str := (str! "AXIS_PTS_Z")
/-- a2l/tokens.go:31 -/
def axisRescaleXToken : Str := (str! "AXIS_RESCALE_X")
/-- a2l/tokens.go:32 -/
def beginA2mlToken : Str := (str! "/begin A2ML")
/-- a2l/tokens.go:33 -/
def beginAnnotationTextToken : Str := (str! "/begin ANNOTATION_TEXT")
/-- a2l/tokens.go:34 -/
def beginAnnotationToken : Str := (str! "/begin ANNOTATION")
/-- a2l/tokens.go:35 -/
def beginArComponentToken : Str := (str! "/begin AR_COMPONENT")
/-- a2l/tokens.go:36 -/
def beginAxisDescrToken : Str := (str! "/begin AXIS_DESCR")
/-- a2l/tokens.go:37 -/
def beginAxisPtsToken : Str := (str! "/begin AXIS_PTS")
/-- a2l/tokens.go:38 -/
def beginBitOperationToken : Str := (str! "/begin BIT_OPERATION")
/-- a2l/tokens.go:39 -/
def beginBlobToken : Str := (str! "/begin BLOB")
/-- a2l/tokens.go:40 -/
def beginCalibrationHandleToken : Str := (str! "/begin CALIBRATION_HANDLE")
/-- a2l/tokens.go:41 -/
def beginCalibrationMethodToken : Str := (str! "/begin CALIBRATION_METHOD")
/-- a2l/tokens.go:42 -/
def beginCharacteristicToken : Str := (str! "/begin CHARACTERISTIC")
/-- a2l/tokens.go:43 -/
def beginCompuMethodToken : Str := (str! "/begin COMPU_METHOD")
/-- a2l/tokens.go:44 -/
def beginCompuTabToken : Str := (str! "/begin COMPU_TAB")
/-- a2l/tokens.go:45 -/
def beginCompuVtabRangeToken : Str := (str! "/begin COMPU_VTAB_RANGE")
/-- a2l/tokens.go:46 -/
def beginCompuVtabToken : Str := (str! "/begin COMPU_VTAB")
/-- a2l/tokens.go:47 -/
def beginDefCharacteristicToken : Str := (str! "/begin DEF_CHARACTERISTIC")
/-- a2l/tokens.go:48 -/
def beginDependentCharacteristicToken : Str := (str! "/begin DEPENDENT_CHARACTERISTIC")
/-- a2l/tokens.go:49 -/
def beginFixAxisParListToken : Str := (str! "/begin FIX_AXIS_PAR_LIST")
/-- a2l/tokens.go:50 -/
def beginFormulaToken : Str := (str! "/begin FORMULA")
/-- a2l/tokens.go:51 -/
def beginFrameToken : Str := (str! "/begin FRAME")
/-- a2l/tokens.go:52 -/
def beginFunctionListToken : Str := (str! "/begin FUNCTION_LIST")
/-- a2l/tokens.go:53 -/
def beginFunctionToken : Str := (str! "/begin FUNCTION")
/-- a2l/tokens.go:54 -/
def beginGroupToken : Str := (str! "/begin GROUP")
/-- a2l/tokens.go:55 -/
def beginHeaderToken : Str := (str! "/begin HEADER")
/-- a2l/tokens.go:56 -/
def beginIfDataToken : Str := (str! "/begin IF_DATA")
/-- a2l/tokens.go:57 -/
def beginInMeasurementToken : Str := (str! "/begin IN_MEASUREMENT")
/-- a2l/tokens.go:58 -/
def beginInstanceToken : Str := (str! "/begin INSTANCE")
/-- a2l/tokens.go:59 -/
def beginLineCommentToken : Str := (str! "//")
/-- a2l/tokens.go:60 -/
def beginLocMeasurementToken : Str := (str! "/begin LOC_MEASUREMENT")
/-- a2l/tokens.go:61 -/
def beginMapListToken : Str := (str! "/begin MAP_LIST")
/-- a2l/tokens.go:62 -/
def beginMeasurementToken : Str := (str! "/begin MEASUREMENT")
/-- a2l/tokens.go:63 -/
def beginMemoryLayoutToken : Str := (str! "/begin MEMORY_LAYOUT")
/-- a2l/tokens.go:64 -/
def beginMemorySegmentToken : Str := (str! "/begin MEMORY_SEGMENT")
/-- a2l/tokens.go:65 -/
def beginModCommonToken : Str := (str! "/begin MOD_COMMON")
/-- a2l/tokens.go:66 -/
def beginModParToken : Str := (str! "/begin MOD_PAR")
/-- a2l/tokens.go:67 -/
def beginModuleToken : Str := (str! "/begin MODULE")
/-- a2l/tokens.go:68 -/
def beginMultilineCommentToken : Str := (str! "/*")
/-- a2l/tokens.go:69 -/
def beginOutMeasurementToken : Str := (str! "/begin OUT_MEASUREMENT")
/-- a2l/tokens.go:70 -/
def beginOverwriteToken : Str := (str! "/begin OVERWRITE")
/-- a2l/tokens.go:71 -/
def beginProjectToken : Str := (str! "/begin PROJECT")
/-- a2l/tokens.go:72 -/
def beginRecordLayoutToken : Str := (str! "/begin RECORD_LAYOUT")
/-- a2l/tokens.go:73 -/
def beginRefCharacteristicToken : Str := (str! "/begin REF_CHARACTERISTIC")
/-- a2l/tokens.go:74 -/
def beginRefGroupToken : Str := (str! "/begin REF_GROUP")
/-- a2l/tokens.go:75 -/
def beginRefMeasurementToken : Str := (str! "/begin REF_MEASUREMENT")
/-- a2l/tokens.go:76 -/
def beginStructureComponentToken : Str := (str! "/begin STRUCTURE_COMPONENT")
/-- a2l/tokens.go:77 -/
def beginSubFunctionToken : Str := (str! "/begin SUB_FUNCTION")
/-- a2l/tokens.go:78 -/
def beginSubGroupToken : Str := (str! "/begin SUB_GROUP")
/-- a2l/tokens.go:79 -/
def beginTransformerInObjectsToken : Str := (str! "/begin TRANSFORMER_IN_OBJECTS")
/-- a2l/tokens.go:80 -/
def beginTransformerOutObjectsToken : Str := (str! "/begin TRANSFORMER_OUT_OBJECTS")
/-- a2l/tokens.go:81 -/
def beginTransformerToken : Str := (str! "/begin TRANSFORMER")
/-- a2l/tokens.go:82 -/
def beginTypeDefAxisToken : Str := (str! "/begin TYPEDEF_AXIS")
/-- a2l/tokens.go:83 -/
def beginTypeDefBlobToken : Str := (str! "/begin TYPEDEF_BLOB")
/-- a2l/tokens.go:84 -/
def beginTypeDefCharacteristicToken : Str := (str! "/begin TYPEDEF_CHARACTERISTIC")
/-- a2l/tokens.go:85 -/
def beginTypeDefMeasurementToken : Str := (str! "/begin TYPEDEF_MEASUREMENT")
/-- a2l/tokens.go:86 -/
def beginTypeDefStructureToken : Str := (str! "/begin TYPEDEF_STRUCTURE")
/-- a2l/tokens.go:87 -/
def beginUnitToken : Str := (str! "/begin UNIT")
/-- a2l/tokens.go:88 -/
def beginUserRightsToken : Str := (str! "/begin USER_RIGHTS")
/-- a2l/tokens.go:89 -/
def beginVarAddressToken : Str := (str! "/begin VAR_ADDRESS")
/-- a2l/tokens.go:90 -/
def beginVarCharacteristicToken : Str := (str! "/begin VAR_CHARACTERISTIC")
/-- a2l/tokens.go:91 -/
def beginVarCriterionToken : Str := (str! "/begin VAR_CRITERION")
/-- a2l/tokens.go:92 -/
def beginVarForbiddenCombToken : Str := (str! "/begin VAR_FORBIDDEN_COMB")
/-- a2l/tokens.go:93 -/
def beginVariantCodingToken : Str := (str! "/begin VARIANT_CODING")
/-- a2l/tokens.go:94 -/
def beginVirtualCharacteristicToken : Str := (str! "/begin VIRTUAL_CHARACTERISTIC")
/-- a2l/tokens.go:95 -/
def beginVirtualToken : Str := (str! "/begin VIRTUAL")
/-- a2l/tokens.go:96 -/
def bigEndianToken : Str := (str! "BIG_ENDIAN")
/-- a2l/tokens.go:97 -/
def bitMaskToken : Str := (str! "BIT_MASK")
/-- a2l/tokens.go:98 -/
def byteOrderToken : Str := (str! "BYTE_ORDER")
/-- a2l/tokens.go:99 -/
def byteToken : Str := (str! "BYTE")
/-- a2l/tokens.go:100 -/
def calibrationAccessToken : Str := (str! "CALIBRATION_ACCESS")
/-- a2l/tokens.go:101 -/
def calibrationHandleTextToken : Str := (str! "CALIBRATION_HANDLE_TEXT")
/-- a2l/tokens.go:102 -/
def calibrationToken : Str := (str! "CALIBRATION")
/-- a2l/tokens.go:103 -/
def calibrationVariablesToken : Str := (str! "CALIBRATION_VARIABLES")
/-- a2l/tokens.go:104 -/
def codeToken : Str := (str! "CODE")
/-- a2l/tokens.go:105 -/
def coeffsLinearToken : Str := (str! "COEFFS_LINEAR")
/-- a2l/tokens.go:106 -/
def coeffsToken : Str := (str! "COEFFS")
/-- a2l/tokens.go:107 -/
def columnDirToken : Str := (str! "COLUMN_DIR")
/-- a2l/tokens.go:108 -/
def comAxisToken : Str := (str! "COM_AXIS")
/-- a2l/tokens.go:109 -/
def comparisonQuantityToken : Str := (str! "COMPARISON_QUANTITY")
/-- a2l/tokens.go:110 -/
def compuTabRefToken : Str := (str! "COMPU_TAB_REF")
/-- a2l/tokens.go:111 -/
def consistentExchangeToken : Str := (str! "CONSISTENT_EXCHANGE")
/-- a2l/tokens.go:112 -/
def conversionToken : Str := (str! "CONVERSION")
/-- a2l/tokens.go:113 -/
def cpuTypeToken : Str := (str! "CPU_TYPE")
/-- a2l/tokens.go:114 -/
def cube4Token : Str := (str! "CUBE_4")
/-- a2l/tokens.go:115 -/
def cube5Token : Str := (str! "CUBE_5")
/-- a2l/tokens.go:116 -/
def cuboidToken : Str := (str! "CUBOID")
/-- a2l/tokens.go:117 -/
def curveAxisRefToken : Str := (str! "CURVE_AXIS_REF")
/-- a2l/tokens.go:118 -/
def curveAxisToken : Str := (str! "CURVE_AXIS")
/-- a2l/tokens.go:119 -/
def curveToken : Str := (str! "CURVE")
/-- a2l/tokens.go:120 -/
def customerNoToken : Str := (str! "CUSTOMER_NO")
/-- a2l/tokens.go:121 -/
def customerToken : Str := (str! "CUSTOMER")
/-- a2l/tokens.go:122 -/
def dataSizeToken : Str := (str! "DATA_SIZE")
/-- a2l/tokens.go:123 -/
def dataToken : Str := (str! "DATA")
/-- a2l/tokens.go:124 -/
def defaultValueNumericToken : Str := (str! "DEFAULT_VALUE_NUMERIC")
/-- a2l/tokens.go:125 -/
def defaultValueToken : Str := (str! "DEFAULT_VALUE")
/-- a2l/tokens.go:126 -/
def depositToken : Str := (str! "DEPOSIT")
/-- a2l/tokens.go:127 -/
def derivedToken : Str := (str! "DERIVED")
/-- a2l/tokens.go:128 -/
def differenceToken : Str := (str! "DIFFERENCE")
/-- a2l/tokens.go:129 -/
def directToken : Str := (str! "DIRECT")
/-- a2l/tokens.go:130 -/
def discreteToken : Str := (str! "DISCRETE")
/-- a2l/tokens.go:131 -/
def displayIdentifierToken : Str := (str! "DISPLAY_IDENTIFIER")
/-- a2l/tokens.go:132 -/
def distOp4Token : Str := (str! "DIST_OP_4")
/-- a2l/tokens.go:133 -/
def distOp5Token : Str := (str! "DIST_OP_5")
/-- a2l/tokens.go:134 -/
def distOpXToken : Str := (str! "DIST_OP_X")
/-- a2l/tokens.go:135 -/
def distOpYToken : Str := (str! "DIST_OP_Y")
/-- a2l/tokens.go:136 -/
def distOpZToken : Str := (str! "DIST_OP_Z")
/-- a2l/tokens.go:137 -/
def ecuAddressExtensionToken : Str := (str! "ECU_ADDRESS_EXTENSION")
/-- a2l/tokens.go:138 -/
def ecuAddressToken : Str := (str! "ECU_ADDRESS")
/-- a2l/tokens.go:139 -/
def ecuCalibrationOffsetToken : Str := (str! "ECU_CALIBRATION_OFFSET")
/-- a2l/tokens.go:140 -/
def ecuToken : Str := (str! "ECU")
/-- a2l/tokens.go:141 -/
def eepromToken : Str := (str! "EEPROM")
/-- a2l/tokens.go:142 -/
def emptyToken : Str := (str! "")
/-- a2l/tokens.go:143 -/
def encodingToken : Str := (str! "ENCODING")
/-- a2l/tokens.go:144 -/
def endA2mlToken : Str := (str! "/end A2ML")
/-- a2l/tokens.go:145 -/
def endAnnotationTextToken : Str := (str! "/end ANNOTATION_TEXT")
/-- a2l/tokens.go:146 -/
def endAnnotationToken : Str := (str! "/end ANNOTATION")
/-- a2l/tokens.go:147 -/
def endArComponentToken : Str := (str! "/end AR_COMPONENT")
/-- a2l/tokens.go:148 -/
def endAxisDescrToken : Str := (str! "/end AXIS_DESCR")
/-- a2l/tokens.go:149 -/
def endAxisPtsToken : Str := (str! "/end AXIS_PTS")
/-- a2l/tokens.go:150 -/
def endBitOperationToken : Str := (str! "/end BIT_OPERATION")
/-- a2l/tokens.go:151 -/
def endBlobToken : Str := (str! "/end BLOB")
/-- a2l/tokens.go:152 -/
def endCalibrationHandleToken : Str := (str! "/end CALIBRATION_HANDLE")
/-- a2l/tokens.go:153 -/
def endCalibrationMethodToken : Str := (str! "/end CALIBRATION_METHOD")
/-- a2l/tokens.go:154 -/
def endCharacteristicToken : Str := (str! "/end CHARACTERISTIC")
/-- a2l/tokens.go:155 -/
def endCompuMethodToken : Str := (str! "/end COMPU_METHOD")
/-- a2l/tokens.go:156 -/
def endCompuTabToken : Str := (str! "/end COMPU_TAB")
/-- a2l/tokens.go:157 -/
def endCompuVtabRangeToken : Str := (str! "/end COMPU_VTAB_RANGE")
/-- a2l/tokens.go:158 -/
def endCompuVtabToken : Str := (str! "/end COMPU_VTAB")
/-- a2l/tokens.go:159 -/
def endDefCharacteristicToken : Str := (str! "/end DEF_CHARACTERISTIC")
/-- a2l/tokens.go:160 -/
def endDependentCharacteristicToken : Str := (str! "/end DEPENDENT_CHARACTERISTIC")
/-- a2l/tokens.go:161 -/
def endFixAxisParListToken : Str := (str! "/end FIX_AXIS_PAR_LIST")
/-- a2l/tokens.go:162 -/
def endFormulaToken : Str := (str! "/end FORMULA")
/-- a2l/tokens.go:163 -/
def endFrameToken : Str := (str! "/end FRAME")
/-- a2l/tokens.go:164 -/
def endFunctionListToken : Str := (str! "/end FUNCTION_LIST")
/-- a2l/tokens.go:165 -/
def endFunctionToken : Str := (str! "/end FUNCTION")
/-- a2l/tokens.go:166 -/
def endGroupToken : Str := (str! "/end GROUP")
/-- a2l/tokens.go:167 -/
def endHeaderToken : Str := (str! "/end HEADER")
/-- a2l/tokens.go:168 -/
def endIfDataToken : Str := (str! "/end IF_DATA")
/-- a2l/tokens.go:169 -/
def endInMeasurementToken : Str := (str! "/end IN_MEASUREMENT")
/-- a2l/tokens.go:170 -/
def endInstanceToken : Str := (str! "/end INSTANCE")
/-- a2l/tokens.go:171 -/
def endLocMeasurementToken : Str := (str! "/end LOC_MEASUREMENT")
/-- a2l/tokens.go:172 -/
def endMapListToken : Str := (str! "/end MAP_LIST")
/-- a2l/tokens.go:173 -/
def endMeasurementToken : Str := (str! "/end MEASUREMENT")
/-- a2l/tokens.go:174 -/
def endMemoryLayoutToken : Str := (str! "/end MEMORY_LAYOUT")
/-- a2l/tokens.go:175 -/
def endMemorySegmentToken : Str := (str! "/end MEMORY_SEGMENT")
/-- a2l/tokens.go:176 -/
def endModCommonToken : Str := (str! "/end MOD_COMMON")
/-- a2l/tokens.go:177 -/
def endModParToken : Str := (str! "/end MOD_PAR")
/-- a2l/tokens.go:178 -/
def endModuleToken : Str := (str! "/end MODULE")
/-- a2l/tokens.go:179 -/
def endMultilineCommentToken : Str := (str! "*/")
/-- a2l/tokens.go:180 -/
def endOutMeasurementToken : Str := (str! "/end OUT_MEASUREMENT")
/-- a2l/tokens.go:181 -/
def endOverwriteToken : Str := (str! "/end OVERWRITE")
/-- a2l/tokens.go:182 -/
def endProjectToken : Str := (str! "/end PROJECT")
/-- a2l/tokens.go:183 -/
def endRecordLayoutToken : Str := (str! "/end RECORD_LAYOUT")
/-- a2l/tokens.go:184 -/
def endRefCharacteristicToken : Str := (str! "/end REF_CHARACTERISTIC")
/-- a2l/tokens.go:185 -/
def endRefGroupToken : Str := (str! "/end REF_GROUP")
/-- a2l/tokens.go:186 -/
def endRefMeasurementToken : Str := (str! "/end REF_MEASUREMENT")
/-- a2l/tokens.go:187 -/
def endStructureComponentToken : Str := (str! "/end STRUCTURE_COMPONENT")
/-- a2l/tokens.go:188 -/
def endSubFunctionToken : Str := (str! "/end SUB_FUNCTION")
/-- a2l/tokens.go:189 -/
def endSubGroupToken : Str := (str! "/end SUB_GROUP")
/-- a2l/tokens.go:190 -/
def endTransformerInObjectsToken : Str := (str! "/end TRANSFORMER_IN_OBJECTS")
/-- a2l/tokens.go:191 -/
def endTransformerOutObjectsToken : Str := (str! "/end TRANSFORMER_OUT_OBJECTS")
/-- a2l/tokens.go:192 -/
def endTransformerToken : Str := (str! "/end TRANSFORMER")
/-- a2l/tokens.go:193 -/
def endTypeDefAxisToken : Str := (str! "/end TYPEDEF_AXIS")
/-- a2l/tokens.go:194 -/
def endTypeDefBlobToken : Str := (str! "/end TYPEDEF_BLOB")
/-- a2l/tokens.go:195 -/
def endTypeDefCharacteristicToken : Str := (str! "/end TYPEDEF_CHARACTERISTIC")
/-- a2l/tokens.go:196 -/
def endTypeDefMeasurementToken : Str := (str! "/end TYPEDEF_MEASUREMENT")
/-- a2l/tokens.go:197 -/
def endTypeDefStructureToken : Str := (str! "/end TYPEDEF_STRUCTURE")
/-- a2l/tokens.go:198 -/
def endUnitToken : Str := (str! "/end UNIT")
/-- a2l/tokens.go:199 -/
def endUserRightsToken : Str := (str! "/end USER_RIGHTS")
/-- a2l/tokens.go:200 -/
def endVarAddressToken : Str := (str! "/end VAR_ADDRESS")
/-- a2l/tokens.go:201 -/
def endVarCharacteristicToken : Str := (str! "/end VAR_CHARACTERISTIC")
/-- a2l/tokens.go:202 -/
def endVarCriterionToken : Str := (str! "/end VAR_CRITERION")
/-- a2l/tokens.go:203 -/
def endVarForbiddenCombToken : Str := (str! "/end VAR_FORBIDDEN_COMB")
/-- a2l/tokens.go:204 -/
def endVariantCodingToken : Str := (str! "/end VARIANT_CODING")
/-- a2l/tokens.go:205 -/
def endVirtualCharacteristicToken : Str := (str! "/end VIRTUAL_CHARACTERISTIC")
/-- a2l/tokens.go:206 -/
def endVirtualToken : Str := (str! "/end VIRTUAL")
/-- a2l/tokens.go:207 -/
def epkToken : Str := (str! "EPK")
/-- a2l/tokens.go:208 -/
def epromToken : Str := (str! "EPROM")
/-- a2l/tokens.go:209 -/
def errorMaskToken : Str := (str! "ERROR_MASK")
/-- a2l/tokens.go:210 -/
def excludeFromFlashToken : Str := (str! "EXCLUDE_FROM_FLASH")
/-- a2l/tokens.go:211 -/
def extendedLimitsToken : Str := (str! "EXTENDED_LIMITS")
/-- a2l/tokens.go:212 -/
def extendedSiToken : Str := (str! "EXTENDED_SI")
/-- a2l/tokens.go:213 -/
def externToken : Str := (str! "EXTERN")
/-- a2l/tokens.go:214 -/
def fixAxisParDistToken : Str := (str! "FIX_AXIS_PAR_DIST")
/-- a2l/tokens.go:215 -/
def fixAxisParToken : Str := (str! "FIX_AXIS_PAR")
/-- a2l/tokens.go:216 -/
def fixAxisToken : Str := (str! "FIX_AXIS")
/-- a2l/tokens.go:217 -/
def fixNoAxisPts4Token : Str := (str! "FIX_NO_AXIS_PTS_4")
/-- a2l/tokens.go:218 -/
def fixNoAxisPts5Token : Str := (str! "FIX_NO_AXIS_PTS_5")
/-- a2l/tokens.go:219 -/
def fixNoAxisPtsXToken : Str := (str! "FIX_NO_AXIS_PTS_X")
/-- a2l/tokens.go:220 -/
def fixNoAxisPtsYToken : Str := (str! "FIX_NO_AXIS_PTS_Y")
/-- a2l/tokens.go:221 -/
def fixNoAxisPtsZToken : Str := (str! "FIX_NO_AXIS_PTS_Z")
/-- a2l/tokens.go:222 -/
def flashToken : Str := (str! "FLASH")
/-- a2l/tokens.go:223 -/
def float16IeeeToken : Str := (str! "FLOAT16_IEEE")
/-- a2l/tokens.go:224 -/
def float32IeeeToken : Str := (str! "FLOAT32_IEEE")
/-- a2l/tokens.go:225 -/
def float64IeeeToken : Str := (str! "FLOAT64_IEEE")
/-- a2l/tokens.go:226 -/
def fncValuesToken : Str := (str! "FNC_VALUES")
/-- a2l/tokens.go:227 -/
def formToken : Str := (str! "FORM")
/-- a2l/tokens.go:228 -/
def formatToken : Str := (str! "FORMAT")
/-- a2l/tokens.go:229 -/
def formulaInvToken : Str := (str! "FORMULA_INV")
/-- a2l/tokens.go:230 -/
def frameMeasurementToken : Str := (str! "FRAME_MEASUREMENT")
/-- a2l/tokens.go:231 -/
def functionVersionToken : Str := (str! "FUNCTION_VERSION")
/-- a2l/tokens.go:232 -/
def guardRailsToken : Str := (str! "GUARD_RAILS")
/-- a2l/tokens.go:233 -/
def identicalToken : Str := (str! "IDENTICAL")
/-- a2l/tokens.go:234 -/
def identificationToken : Str := (str! "IDENTIFICATION")
/-- a2l/tokens.go:235 -/
def indexDecrToken : Str := (str! "INDEX_DECR")
/-- a2l/tokens.go:236 -/
def indexIncrToken : Str := (str! "INDEX_INCR")
/-- a2l/tokens.go:237 -/
def inputQuantityToken : Str := (str! "INPUT_QUANTITY")
/-- a2l/tokens.go:238 -/
def internToken : Str := (str! "INTERN")
/-- a2l/tokens.go:239 -/
def layoutToken : Str := (str! "LAYOUT")
/-- a2l/tokens.go:240 -/
def leftShiftToken : Str := (str! "LEFT_SHIFT")
/-- a2l/tokens.go:241 -/
def limitsToken : Str := (str! "LIMITS")
/-- a2l/tokens.go:242 -/
def linearToken : Str := (str! "LINEAR")
/-- a2l/tokens.go:243 -/
def littleEndianToken : Str := (str! "LITTLE_ENDIAN")
/-- a2l/tokens.go:244 -/
def longToken : Str := (str! "LONG")
/-- a2l/tokens.go:245 -/
def mapToken : Str := (str! "MAP")
/-- a2l/tokens.go:246 -/
def matrixDimToken : Str := (str! "MATRIX_DIM")
/-- a2l/tokens.go:247 -/
def maxGradToken : Str := (str! "MAX_GRAD")
/-- a2l/tokens.go:248 -/
def maxRefreshToken : Str := (str! "MAX_REFRESH")
/-- a2l/tokens.go:249 -/
def modelLinkToken : Str := (str! "MODEL_LINK")
/-- a2l/tokens.go:250 -/
def monDecreaseToken : Str := (str! "MON_DECREASE")
/-- a2l/tokens.go:251 -/
def monIncreaseToken : Str := (str! "MON_INCREASE")
/-- a2l/tokens.go:252 -/
def monotonousToken : Str := (str! "MONOTONOUS")
/-- a2l/tokens.go:253 -/
def monotonyToken : Str := (str! "MONOTONY")
/-- a2l/tokens.go:254 -/
def msbFirstToken : Str := (str! "MSB_FIRST")
/-- a2l/tokens.go:255 -/
def msbFirstMswLastToken : Str := (str! "MSB_FIRST_MSW_LAST")
/-- a2l/tokens.go:256 -/
def msbLastToken : Str := (str! "MSB_LAST")
/-- a2l/tokens.go:257 -/
def msbLastMswFirstToken : Str := (str! "MSB_LAST_MSW_FIRST")
/-- a2l/tokens.go:258 -/
def noAxisPts4Token : Str := (str! "NO_AXIS_PTS_4")
/-- a2l/tokens.go:259 -/
def noAxisPts5Token : Str := (str! "NO_AXIS_PTS_5")
/-- a2l/tokens.go:260 -/
def noAxisPtsXToken : Str := (str! "NO_AXIS_PTS_X")
/-- a2l/tokens.go:261 -/
def noAxisPtsYToken : Str := (str! "NO_AXIS_PTS_Y")
/-- a2l/tokens.go:262 -/
def noAxisPtsZToken : Str := (str! "NO_AXIS_PTS_Z")
/-- a2l/tokens.go:263 -/
def noCalibrationToken : Str := (str! "NO_CALIBRATION")
/-- a2l/tokens.go:264 -/
def noOfInterfacesToken : Str := (str! "NO_OF_INTERFACES")
/-- a2l/tokens.go:265 -/
def noRescaleXToken : Str := (str! "NO_RESCALE_X")
/-- a2l/tokens.go:266 -/
def notInEcuToken : Str := (str! "NOT_IN_ECU")
/-- a2l/tokens.go:267 -/
def notInMcdSystemToken : Str := (str! "NOT_IN_MCD_SYSTEM")
/-- a2l/tokens.go:268 -/
def notMonToken : Str := (str! "NOT_MON")
/-- a2l/tokens.go:269 -/
def numberToken : Str := (str! "NUMBER")
/-- a2l/tokens.go:270 -/
def numericToken : Str := (str! "NUMERIC")
/-- a2l/tokens.go:271 -/
def offlineCalibrationToken : Str := (str! "OFFLINE_CALIBRATION")
/-- a2l/tokens.go:272 -/
def offlineDataToken : Str := (str! "OFFLINE_DATA")
/-- a2l/tokens.go:273 -/
def offset4Token : Str := (str! "OFFSET_4")
/-- a2l/tokens.go:274 -/
def offset5Token : Str := (str! "OFFSET_5")
/-- a2l/tokens.go:275 -/
def offsetXToken : Str := (str! "OFFSET_X")
/-- a2l/tokens.go:276 -/
def offsetYToken : Str := (str! "OFFSET_Y")
/-- a2l/tokens.go:277 -/
def offsetZToken : Str := (str! "OFFSET_Z")
/-- a2l/tokens.go:278 -/
def onChangeToken : Str := (str! "ON_CHANGE")
/-- a2l/tokens.go:279 -/
def onUserRequestToken : Str := (str! "ON_USER_REQUEST")
/-- a2l/tokens.go:280 -/
def pbyteToken : Str := (str! "PBYTE")
/-- a2l/tokens.go:281 -/
def phoneNoToken : Str := (str! "PHONE_NO")
/-- a2l/tokens.go:282 -/
def physUnitToken : Str := (str! "PHYS_UNIT")
/-- a2l/tokens.go:283 -/
def plongToken : Str := (str! "PLONG")
/-- a2l/tokens.go:284 -/
def plonLongToken : Str := (str! "PLONGLONG")
/-- a2l/tokens.go:285 -/
def prgCodeToken : Str := (str! "PRG_CODE")
/-- a2l/tokens.go:286 -/
def prgDataToken : Str := (str! "PRG_DATA")
/-- a2l/tokens.go:287 -/
def prgReservedToken : Str := (str! "PRG_RESERVED")
/-- a2l/tokens.go:288 -/
def projectNoToken : Str := (str! "PROJECT_NO")
/-- a2l/tokens.go:289 -/
def pwordToken : Str := (str! "PWORD")
/-- a2l/tokens.go:290 -/
def quotationMarkToken : Str := (str! "\\\"")
/-- a2l/tokens.go:291 -/
def ramToken : Str := (str! "RAM")
/-- a2l/tokens.go:292 -/
def ratFuncToken : Str := (str! "RAT_FUNC")
/-- a2l/tokens.go:293 -/
def readOnlyToken : Str := (str! "READ_ONLY")
/-- a2l/tokens.go:294 -/
def readWriteToken : Str := (str! "READ_WRITE")
/-- a2l/tokens.go:295 -/
def refMemorySegmentToken : Str := (str! "REF_MEMORY_SEGMENT")
/-- a2l/tokens.go:296 -/
def refUnitToken : Str := (str! "REF_UNIT")
/-- a2l/tokens.go:297 -/
def registerToken : Str := (str! "REGISTER")
/-- a2l/tokens.go:298 -/
def resAxisToken : Str := (str! "RES_AXIS")
/-- a2l/tokens.go:299 -/
def reservedToken : Str := (str! "RESERVED")
/-- a2l/tokens.go:300 -/
def rightShiftToken : Str := (str! "RIGHT_SHIFT")
/-- a2l/tokens.go:301 -/
def ripAddr4Token : Str := (str! "RIP_ADDR_4")
/-- a2l/tokens.go:302 -/
def ripAddr5Token : Str := (str! "RIP_ADDR_5")
/-- a2l/tokens.go:303 -/
def ripAddrWToken : Str := (str! "RIP_ADDR_W")
/-- a2l/tokens.go:304 -/
def ripAddrXToken : Str := (str! "RIP_ADDR_X")
/-- a2l/tokens.go:305 -/
def ripAddrYToken : Str := (str! "RIP_ADDR_Y")
/-- a2l/tokens.go:306 -/
def ripAddrZToken : Str := (str! "RIP_ADDR_Z")
/-- a2l/tokens.go:307 -/
def romToken : Str := (str! "ROM")
/-- a2l/tokens.go:308 -/
def rootToken : Str := (str! "ROOT")
/-- a2l/tokens.go:309 -/
def rowDirToken : Str := (str! "ROW_DIR")
/-- a2l/tokens.go:310 -/
def sbyteToken : Str := (str! "SBYTE")
/-- a2l/tokens.go:311 -/
def seramToken : Str := (str! "SERAM")
/-- a2l/tokens.go:312 -/
def shiftOp4Token : Str := (str! "SHIFT_OP_4")
/-- a2l/tokens.go:313 -/
def shiftOp5Token : Str := (str! "SHIFT_OP_5")
/-- a2l/tokens.go:314 -/
def shiftOpXToken : Str := (str! "SHIFT_OP_X")
/-- a2l/tokens.go:315 -/
def shiftOpYToken : Str := (str! "SHIFT_OP_Y")
/-- a2l/tokens.go:316 -/
def shiftOpZToken : Str := (str! "SHIFT_OP_Z")
/-- a2l/tokens.go:317 -/
def siExponentsToken : Str := (str! "SI_EXPONENTS")
/-- a2l/tokens.go:318 -/
def signExtendToken : Str := (str! "SIGN_EXTEND")
/-- a2l/tokens.go:319 -/
def slashToken : Str := (str! "/")
/-- a2l/tokens.go:320 -/
def slongToken : Str := (str! "SLONG")
/-- a2l/tokens.go:321 -/
def spaceToken : Str := (str! " ")
/-- a2l/tokens.go:322 -/
def srcAddr4Token : Str := (str! "SRC_ADDR_4")
/-- a2l/tokens.go:323 -/
def srcAddr5Token : Str := (str! "SRC_ADDR_5")
/-- a2l/tokens.go:324 -/
def srcAddrXToken : Str := (str! "SRC_ADDR_X")
/-- a2l/tokens.go:325 -/
def srcAddrYToken : Str := (str! "SRC_ADDR_Y")
/-- a2l/tokens.go:326 -/
def srcAddrZToken : Str := (str! "SRC_ADDR_Z")
/-- a2l/tokens.go:327 -/
def staticAddressOffsetsToken : Str := (str! "STATIC_ADDRESS_OFFSETS")
/-- a2l/tokens.go:328 -/
def staticRecordLayoutToken : Str := (str! "STATIC_RECORD_LAYOUT")
/-- a2l/tokens.go:329 -/
def statusStringRefToken : Str := (str! "STATUS_STRING_REF")
/-- a2l/tokens.go:330 -/
def stdAxisToken : Str := (str! "STD_AXIS")
/-- a2l/tokens.go:331 -/
def stepSizeToken : Str := (str! "STEP_SIZE")
/-- a2l/tokens.go:332 -/
def strictDecreaseToken : Str := (str! "STRICT_DECREASE")
/-- a2l/tokens.go:333 -/
def strictIncreaseToken : Str := (str! "STRICT_INCREASE")
/-- a2l/tokens.go:334 -/
def strictMonToken : Str := (str! "STRICT_MON")
/-- a2l/tokens.go:335 -/
def supplierToken : Str := (str! "SUPPLIER")
/-- a2l/tokens.go:336 -/
def swordToken : Str := (str! "SWORD")
/-- a2l/tokens.go:337 -/
def symbolLinkToken : Str := (str! "SYMBOL_LINK")
/-- a2l/tokens.go:338 -/
def symbolTypeLinkToken : Str := (str! "SYMBOL_TYPE_LINK")
/-- a2l/tokens.go:339 -/
def systemConstantToken : Str := (str! "SYSTEM_CONSTANT")
/-- a2l/tokens.go:340 -/
def tabIntpToken : Str := (str! "TAB_INTP")
/-- a2l/tokens.go:341 -/
def tabNointpToken : Str := (str! "TAB_NOINTP")
/-- a2l/tokens.go:342 -/
def tabVerbToken : Str := (str! "TAB_VERB")
/-- a2l/tokens.go:343 -/
def ubyteToken : Str := (str! "UBYTE")
/-- a2l/tokens.go:344 -/
def ulongToken : Str := (str! "ULONG")
/-- a2l/tokens.go:345 -/
def unitConversionToken : Str := (str! "UNIT_CONVERSION")
/-- a2l/tokens.go:346 -/
def userToken : Str := (str! "USER")
/-- a2l/tokens.go:347 -/
def uwordToken : Str := (str! "UWORD")
/-- a2l/tokens.go:348 -/
def valBlkToken : Str := (str! "VAL_BLK")
/-- a2l/tokens.go:349 -/
def valueToken : Str := (str! "VALUE")
/-- a2l/tokens.go:350 -/
def varMeasurementToken : Str := (str! "VAR_MEASUREMENT")
/-- a2l/tokens.go:351 -/
def varNamingToken : Str := (str! "VAR_NAMING")
/-- a2l/tokens.go:352 -/
def varSelectionCharacteristicToken : Str := (str! "VAR_SELECTION_CHARACTERISTIC")
/-- a2l/tokens.go:353 -/
def variablesToken : Str := (str! "VARIABLES")
/-- a2l/tokens.go:354 -/
def versionToken : Str := (str! "VERSION")
/-- a2l/tokens.go:355 -/
def wordToken : Str := (str! "WORD")

/-- The keys of `keywordMap`, a2l/tokens.go:361-619. -/
def keywords : List Str := [
  (str! "A2ML_VERSION"),
  (str! "ADDR_EPK"),
  (str! "ADDRESS_TYPE"),
  (str! "ALIGNMENT_BYTE"),
  (str! "ALIGNMENT_FLOAT16_IEEE"),
  (str! "ALIGNMENT_FLOAT32_IEEE"),
  (str! "ALIGNMENT_FLOAT64_IEEE"),
  (str! "ALIGNMENT_INT64"),
  (str! "ALIGNMENT_LONG"),
  (str! "ALIGNMENT_WORD"),
  (str! "ALTERNATE_CURVES"),
  (str! "ALTERNATE_WITH_X"),
  (str! "ALTERNATE_WITH_Y"),
  (str! "ANNOTATION_LABEL"),
  (str! "ANNOTATION_ORIGIN"),
  (str! "AR_PROTOTYPE_OF"),
  (str! "ARRAY_SIZE"),
  (str! "ASAP2_VERSION"),
  (str! "AXIS_PTS_4"),
  (str! "AXIS_PTS_5"),
  (str! "AXIS_PTS_REF"),
  (str! "AXIS_PTS_X"),
  (str! "AXIS_PTS_Y"),
  (str! "AXIS_PTS_Z"),
  (str! "AXIS_RESCALE_X"),
  (str! "/begin A2ML"),
  (str! "/begin ANNOTATION_TEXT"),
  (str! "/begin ANNOTATION"),
  (str! "/begin AR_COMPONENT"),
  (str! "/begin AXIS_DESCR"),
  (str! "/begin AXIS_PTS"),
  (str! "/begin BIT_OPERATION"),
  (str! "/begin BLOB"),
  (str! "/begin CALIBRATION_HANDLE"),
  (str! "/begin CALIBRATION_METHOD"),
  (str! "/begin CHARACTERISTIC"),
  (str! "/begin COMPU_METHOD"),
  (str! "/begin COMPU_TAB"),
  (str! "/begin COMPU_VTAB_RANGE"),
  (str! "/begin COMPU_VTAB"),
  (str! "/begin DEF_CHARACTERISTIC"),
  (str! "/begin DEPENDENT_CHARACTERISTIC"),
  (str! "/begin FIX_AXIS_PAR_LIST"),
  (str! "/begin FIX_AXIS_PAR"),
  (str! "/begin FORMULA"),
  (str! "/begin FRAME"),
  (str! "/begin FUNCTION_LIST"),
  (str! "/begin FUNCTION"),
  (str! "/begin GROUP"),
  (str! "/begin HEADER"),
  (str! "/begin IF_DATA"),
  (str! "/begin IN_MEASUREMENT"),
  (str! "/begin INSTANCE"),
  (str! "/begin LOC_MEASUREMENT"),
  (str! "/begin MAP_LIST"),
  (str! "/begin MEASUREMENT"),
  (str! "/begin MEMORY_LAYOUT"),
  (str! "/begin MEMORY_SEGMENT"),
  (str! "/begin MOD_COMMON"),
  (str! "/begin MOD_PAR"),
  (str! "/begin MODULE"),
  (str! "/begin OUT_MEASUREMENT"),
  (str! "/begin OVERWRITE"),
  (str! "/begin PROJECT"),
  (str! "/begin RECORD_LAYOUT"),
  (str! "/begin REF_CHARACTERISTIC"),
  (str! "/begin REF_GROUP"),
  (str! "/begin REF_MEASUREMENT"),
  (str! "/begin STRUCTURE_COMPONENT"),
  (str! "/begin SUB_FUNCTION"),
  (str! "/begin SUB_GROUP"),
  (str! "/begin TRANSFORMER_IN_OBJECTS"),
  (str! "/begin TRANSFORMER_OUT_OBJECTS"),
  (str! "/begin TRANSFORMER"),
  (str! "/begin TYPEDEF_AXIS"),
  (str! "/begin TYPEDEF_BLOB"),
  (str! "/begin TYPEDEF_CHARACTERISTIC"),
  (str! "/begin TYPEDEF_MEASUREMENT"),
  (str! "/begin TYPEDEF_STRUCTURE"),
  (str! "/begin UNIT"),
  (str! "/begin USER_RIGHTS"),
  (str! "/begin VAR_ADDRESS"),
  (str! "/begin VAR_CHARACTERISTIC"),
  (str! "/begin VAR_CRITERION"),
  (str! "/begin VAR_FORBIDDEN_COMB"),
  (str! "/begin VARIANT_CODING"),
  (str! "/begin VIRTUAL_CHARACTERISTIC"),
  (str! "/begin VIRTUAL"),
  (str! "BIT_MASK"),
  (str! "BYTE_ORDER"),
  (str! "CALIBRATION_ACCESS"),
  (str! "CALIBRATION_HANDLE_TEXT"),
  (str! "COEFFS_LINEAR"),
  (str! "COEFFS"),
  (str! "COMPARISON_QUANTITY"),
  (str! "COMPU_TAB_REF"),
  (str! "CONSISTENT_EXCHANGE"),
  (str! "CONVERSION"),
  (str! "CPU_TYPE"),
  (str! "CURVE_AXIS_REF"),
  (str! "CUSTOMER_NO"),
  (str! "CUSTOMER"),
  (str! "DATA_SIZE"),
  (str! "DEFAULT_VALUE_NUMERIC"),
  (str! "DEFAULT_VALUE"),
  (str! "DEPOSIT"),
  (str! "DISCRETE"),
  (str! "DISPLAY_IDENTIFIER"),
  (str! "DIST_OP_4"),
  (str! "DIST_OP_5"),
  (str! "DIST_OP_X"),
  (str! "DIST_OP_Y"),
  (str! "DIST_OP_Z"),
  (str! "ECU_ADDRESS_EXTENSION"),
  (str! "ECU_ADDRESS"),
  (str! "ECU_CALIBRATION_OFFSET"),
  (str! "ECU"),
  (str! "/end A2ML"),
  (str! "/end ANNOTATION_TEXT"),
  (str! "/end ANNOTATION"),
  (str! "/end AR_COMPONENT"),
  (str! "/end AXIS_DESCR"),
  (str! "/end AXIS_PTS"),
  (str! "/end BIT_OPERATION"),
  (str! "/end BLOB"),
  (str! "/end CALIBRATION_HANDLE"),
  (str! "/end CALIBRATION_METHOD"),
  (str! "/end CHARACTERISTIC"),
  (str! "/end COMPU_METHOD"),
  (str! "/end COMPU_TAB"),
  (str! "/end COMPU_VTAB_RANGE"),
  (str! "/end COMPU_VTAB"),
  (str! "/end DEF_CHARACTERISTIC"),
  (str! "/end DEPENDENT_CHARACTERISTIC"),
  (str! "/end FIX_AXIS_PAR_LIST"),
  (str! "/end FIX_AXIS_PAR"),
  (str! "/end FORMULA"),
  (str! "/end FRAME"),
  (str! "/end FUNCTION_LIST"),
  (str! "/end FUNCTION"),
  (str! "/end GROUP"),
  (str! "/end HEADER"),
  (str! "/end IF_DATA"),
  (str! "/end IN_MEASUREMENT"),
  (str! "/end INSTANCE"),
  (str! "/end LOC_MEASUREMENT"),
  (str! "/end MAP_LIST"),
  (str! "/end MEASUREMENT"),
  (str! "/end MEMORY_LAYOUT"),
  (str! "/end MEMORY_SEGMENT"),
  (str! "/end MOD_COMMON"),
  (str! "/end MOD_PAR"),
  (str! "/end MODULE"),
  (str! "/end OUT_MEASUREMENT"),
  (str! "/end OVERWRITE"),
  (str! "/end PROJECT"),
  (str! "/end RECORD_LAYOUT"),
  (str! "/end REF_CHARACTERISTIC"),
  (str! "/end REF_GROUP"),
  (str! "/end REF_MEASUREMENT"),
  (str! "/end STRUCTURE_COMPONENT"),
  (str! "/end SUB_FUNCTION"),
  (str! "/end SUB_GROUP"),
  (str! "/end TRANSFORMER_IN_OBJECTS"),
  (str! "/end TRANSFORMER_OUT_OBJECTS"),
  (str! "/end TRANSFORMER"),
  (str! "/end TYPEDEF_AXIS"),
  (str! "/end TYPEDEF_BLOB"),
  (str! "/end TYPEDEF_CHARACTERISTIC"),
  (str! "/end TYPEDEF_MEASUREMENT"),
  (str! "/end TYPEDEF_STRUCTURE"),
  (str! "/end UNIT"),
  (str! "/end USER_RIGHTS"),
  (str! "/end USER"),
  (str! "/end VAR_ADDRESS"),
  (str! "/end VAR_CHARACTERISTIC"),
  (str! "/end VAR_CRITERION"),
  (str! "/end VAR_FORBIDDEN_COMB"),
  (str! "/end VARIANT_CODING"),
  (str! "/end VIRTUAL_CHARACTERISTIC"),
  (str! "/end VIRTUAL"),
  (str! "ENCODING"),
  (str! "EPK"),
  (str! "ERROR_MASK"),
  (str! "EXTENDED_LIMITS"),
  (str! "FIX_AXIS_PAR_DIST"),
  (str! "FIX_NO_AXIS_PTS_4"),
  (str! "FIX_NO_AXIS_PTS_5"),
  (str! "FIX_NO_AXIS_PTS_X"),
  (str! "FIX_NO_AXIS_PTS_Y"),
  (str! "FIX_NO_AXIS_PTS_Z"),
  (str! "FNC_VALUES"),
  (str! "FORMAT"),
  (str! "FORMULA_INV"),
  (str! "FRAME_MEASUREMENT"),
  (str! "FUNCTION_VERSION"),
  (str! "GUARD_RAILS"),
  (str! "IDENTIFICATION"),
  (str! "INPUT_QUANTITY"),
  (str! "LAYOUT"),
  (str! "LEFT_SHIFT"),
  (str! "LIMITS"),
  (str! "MATRIX_DIM"),
  (str! "MAX_GRAD"),
  (str! "MAX_REFRESH"),
  (str! "MODEL_LINK"),
  (str! "MONOTONY"),
  (str! "NO_AXIS_PTS_4"),
  (str! "NO_AXIS_PTS_5"),
  (str! "NO_AXIS_PTS_X"),
  (str! "NO_AXIS_PTS_Y"),
  (str! "NO_AXIS_PTS_Z"),
  (str! "NO_OF_INTERFACES"),
  (str! "NO_RESCALE_X"),
  (str! "NUMBER"),
  (str! "OFFSET_4"),
  (str! "OFFSET_5"),
  (str! "OFFSET_X"),
  (str! "OFFSET_Y"),
  (str! "OFFSET_Z"),
  (str! "PHONE_NO"),
  (str! "PHYS_UNIT"),
  (str! "PROJECT_NO"),
  (str! "REF_MEMORY_SEGMENT"),
  (str! "REF_UNIT"),
  (str! "RIGHT_SHIFT"),
  (str! "RIP_ADDR_4"),
  (str! "RIP_ADDR_5"),
  (str! "RIP_ADDR_W"),
  (str! "RIP_ADDR_X"),
  (str! "RIP_ADDR_Y"),
  (str! "RIP_ADDR_Z"),
  (str! "ROOT"),
  (str! "SHIFT_OP_4"),
  (str! "SHIFT_OP_5"),
  (str! "SHIFT_OP_X"),
  (str! "SHIFT_OP_Y"),
  (str! "SHIFT_OP_Z"),
  (str! "SI_EXPONENTS"),
  (str! "SIGN_EXTEND"),
  (str! "SRC_ADDR_4"),
  (str! "SRC_ADDR_5"),
  (str! "SRC_ADDR_X"),
  (str! "SRC_ADDR_Y"),
  (str! "SRC_ADDR_Z"),
  (str! "STATIC_ADDRESS_OFFSETS"),
  (str! "STATIC_RECORD_LAYOUT"),
  (str! "STATUS_STRING_REF"),
  (str! "STEP_SIZE"),
  (str! "SUPPLIER"),
  (str! "SYMBOL_LINK"),
  (str! "SYMBOL_TYPE_LINK"),
  (str! "SYSTEM_CONSTANT"),
  (str! "UNIT_CONVERSION"),
  (str! "USER"),
  (str! "VAR_MEASUREMENT"),
  (str! "VAR_NAMING"),
  (str! "VAR_SELECTION_CHARACTERISTIC"),
  (str! "VERSION")]

/-- `isKeyword`, a2l/token_generator.go:325-330. -/
def isKeyword (t : Str) : Bool := keywords.contains t

end Verif.A2l
