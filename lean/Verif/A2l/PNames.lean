/-!
The names of the parse functions of package a2l (generated by tools/go2lean.py).
-/

namespace Verif.A2l

/-- One name per function `parseX(tok *tokenGenerator)` of a2l/*.go. -/
inductive PName where
  | parseA2l
  | parseA2ML
  | parseA2MLVersion
  | parseAddrEpk
  | parseAlignmentByte
  | parseAlignmentFloat16Ieee
  | parseAlignmentFloat32Ieee
  | parseAlignmentFloat64Ieee
  | parseAlignmentInt64
  | parseAlignmentLong
  | parseAlignmentWord
  | parseAnnotation
  | parseAnnotationLabel
  | parseAnnotationOrigin
  | parseAnnotationText
  | parseArComponent
  | parseArPrototypeOf
  | parseArraySize
  | parseASAP2Version
  | parseAxisDescr
  | parseAxisPts
  | parseAxisPts4
  | parseAxisPts5
  | parseAxisPtsRef
  | parseAxisPtsX
  | parseAxisPtsY
  | parseAxisPtsZ
  | parseAxisRescaleX
  | parseBitMask
  | parseBitOperation
  | parseBlob
  | parseByteOrder
  | parseCalibrationHandle
  | parseCalibrationHandleText
  | parseCalibrationMethod
  | parseCharacteristic
  | parseCoeffs
  | parseCoeffsLinear
  | parseComparisonQuantity
  | parseCompuMethod
  | parseCompuTab
  | parseCompuTabRef
  | parseCompuVtab
  | parseCompuVtabRange
  | parseConsistentExchangeKeyword
  | parseCpuType
  | parseCurveAxisRef
  | parseCustomer
  | parseCustomerNo
  | parseDataSize
  | parseDefCharacteristic
  | parseDefaultValue
  | parseDefaultValueNumeric
  | parseDependentCharacteristic
  | parseDeposit
  | parseDiscrete
  | parseDisplayIdentifier
  | parseDistOp4
  | parseDistOp5
  | parseDistOpX
  | parseDistOpY
  | parseDistOpZ
  | parseEcu
  | parseEcuAddress
  | parseECUAddressExtension
  | parseEcuCalibrationOffset
  | parseEpk
  | parseErrorMask
  | parseExtendedLimits
  | parseFixAxisPar
  | parseFixAxisParDist
  | parseFixAxisParList
  | parseFixNoAxisPts4
  | parseFixNoAxisPts5
  | parseFixNoAxisPtsX
  | parseFixNoAxisPtsY
  | parseFixNoAxisPtsZ
  | parseFncValues
  | parseFormat
  | parseFormula
  | parseFormulaInv
  | parseFrame
  | parseFrameMeasurement
  | parseFunction
  | parseFunctionList
  | parseFunctionVersion
  | parseGroup
  | parseGuardRails
  | parseHeader
  | parseIdentification
  | parseIfData
  | parseInMeasurement
  | parseInstance
  | parseLayout
  | parseLeftShift
  | parseLimits
  | parseLocMeasurement
  | parseMapList
  | parseMatrixDim
  | parseMaxGrad
  | parseMaxRefresh
  | parseMeasurement
  | parseMemoryLayout
  | parseMemorySegment
  | parseModCommon
  | parseModPar
  | parseModelLink
  | parseModule
  | parseMonotony
  | parseNoAxisPts4
  | parseNoAxisPts5
  | parseNoAxisPtsX
  | parseNoAxisPtsY
  | parseNoAxisPtsZ
  | parseNoOfInterfaces
  | parseNoRescaleX
  | parseNumber
  | parseOffset4
  | parseOffset5
  | parseOffsetX
  | parseOffsetY
  | parseOffsetZ
  | parseOutMeasurement
  | parseOverwrite
  | parsePhoneNo
  | parsePhysUnit
  | parseProject
  | parseProjectNo
  | parseReadOnly
  | parseReadWrite
  | parseRecordLayout
  | parseRefCharacteristic
  | parseRefGroup
  | parseRefMeasurement
  | parseRefMemorySegment
  | parseRefUnit
  | parseReserved
  | parseRightShift
  | parseRipAddr4
  | parseRipAddr5
  | parseRipAddrW
  | parseRipAddrX
  | parseRipAddrY
  | parseRipAddrZ
  | parseRoot
  | parseShiftOp4
  | parseShiftOp5
  | parseShiftOpX
  | parseShiftOpY
  | parseShiftOpZ
  | parseSiExponents
  | parseSignExtend
  | parseSrcAddr4
  | parseSrcAddr5
  | parseSrcAddrX
  | parseSrcAddrY
  | parseSrcAddrZ
  | parseStaticAddressOffsets
  | parseStaticRecordLayout
  | parseStatusStringRef
  | parseStepSize
  | parseStructureComponent
  | parseSubFunction
  | parseSubGroup
  | parseSupplier
  | parseSymbolLink
  | parseSymbolTypeLink
  | parseSystemConstant
  | parseTransformer
  | parseTransformerInObject
  | parseTransformerOutObject
  | parseTypeDefAxis
  | parseTypeDefBlob
  | parseTypeDefCharacteristic
  | parseTypeDefMeasurement
  | parseTypeDefStructure
  | parseUnit
  | parseUnitConversion
  | parseUser
  | parseUserRights
  | parseVarAddress
  | parseVarCharacteristic
  | parseVarCriterion
  | parseVarForbiddenComb
  | parseVarMeasurement
  | parseVarNaming
  | parseVarSelectionCharacteristic
  | parseVarSeparator
  | parseVariantCoding
  | parseVersion
  | parseVirtual
  | parseVirtualCharacteristic
  | parseModuleMultithreaded
deriving DecidableEq, Repr

/-- All names. -/
def PName.all : List PName := [
  .parseA2l,
  .parseA2ML,
  .parseA2MLVersion,
  .parseAddrEpk,
  .parseAlignmentByte,
  .parseAlignmentFloat16Ieee,
  .parseAlignmentFloat32Ieee,
  .parseAlignmentFloat64Ieee,
  .parseAlignmentInt64,
  .parseAlignmentLong,
  .parseAlignmentWord,
  .parseAnnotation,
  .parseAnnotationLabel,
  .parseAnnotationOrigin,
  .parseAnnotationText,
  .parseArComponent,
  .parseArPrototypeOf,
  .parseArraySize,
  .parseASAP2Version,
  .parseAxisDescr,
  .parseAxisPts,
  .parseAxisPts4,
  .parseAxisPts5,
  .parseAxisPtsRef,
  .parseAxisPtsX,
  .parseAxisPtsY,
  .parseAxisPtsZ,
  .parseAxisRescaleX,
  .parseBitMask,
  .parseBitOperation,
  .parseBlob,
  .parseByteOrder,
  .parseCalibrationHandle,
  .parseCalibrationHandleText,
  .parseCalibrationMethod,
  .parseCharacteristic,
  .parseCoeffs,
  .parseCoeffsLinear,
  .parseComparisonQuantity,
  .parseCompuMethod,
  .parseCompuTab,
  .parseCompuTabRef,
  .parseCompuVtab,
  .parseCompuVtabRange,
  .parseConsistentExchangeKeyword,
  .parseCpuType,
  .parseCurveAxisRef,
  .parseCustomer,
  .parseCustomerNo,
  .parseDataSize,
  .parseDefCharacteristic,
  .parseDefaultValue,
  .parseDefaultValueNumeric,
  .parseDependentCharacteristic,
  .parseDeposit,
  .parseDiscrete,
  .parseDisplayIdentifier,
  .parseDistOp4,
  .parseDistOp5,
  .parseDistOpX,
  .parseDistOpY,
  .parseDistOpZ,
  .parseEcu,
  .parseEcuAddress,
  .parseECUAddressExtension,
  .parseEcuCalibrationOffset,
  .parseEpk,
  .parseErrorMask,
  .parseExtendedLimits,
  .parseFixAxisPar,
  .parseFixAxisParDist,
  .parseFixAxisParList,
  .parseFixNoAxisPts4,
  .parseFixNoAxisPts5,
  .parseFixNoAxisPtsX,
  .parseFixNoAxisPtsY,
  .parseFixNoAxisPtsZ,
  .parseFncValues,
  .parseFormat,
  .parseFormula,
  .parseFormulaInv,
  .parseFrame,
  .parseFrameMeasurement,
  .parseFunction,
  .parseFunctionList,
  .parseFunctionVersion,
  .parseGroup,
  .parseGuardRails,
  .parseHeader,
  .parseIdentification,
  .parseIfData,
  .parseInMeasurement,
  .parseInstance,
  .parseLayout,
  .parseLeftShift,
  .parseLimits,
  .parseLocMeasurement,
  .parseMapList,
  .parseMatrixDim,
  .parseMaxGrad,
  .parseMaxRefresh,
  .parseMeasurement,
  .parseMemoryLayout,
  .parseMemorySegment,
  .parseModCommon,
  .parseModPar,
  .parseModelLink,
  .parseModule,
  .parseMonotony,
  .parseNoAxisPts4,
  .parseNoAxisPts5,
  .parseNoAxisPtsX,
  .parseNoAxisPtsY,
  .parseNoAxisPtsZ,
  .parseNoOfInterfaces,
  .parseNoRescaleX,
  .parseNumber,
  .parseOffset4,
  .parseOffset5,
  .parseOffsetX,
  .parseOffsetY,
  .parseOffsetZ,
  .parseOutMeasurement,
  .parseOverwrite,
  .parsePhoneNo,
  .parsePhysUnit,
  .parseProject,
  .parseProjectNo,
  .parseReadOnly,
  .parseReadWrite,
  .parseRecordLayout,
  .parseRefCharacteristic,
  .parseRefGroup,
  .parseRefMeasurement,
  .parseRefMemorySegment,
  .parseRefUnit,
  .parseReserved,
  .parseRightShift,
  .parseRipAddr4,
  .parseRipAddr5,
  .parseRipAddrW,
  .parseRipAddrX,
  .parseRipAddrY,
  .parseRipAddrZ,
  .parseRoot,
  .parseShiftOp4,
  .parseShiftOp5,
  .parseShiftOpX,
  .parseShiftOpY,
  .parseShiftOpZ,
  .parseSiExponents,
  .parseSignExtend,
  .parseSrcAddr4,
  .parseSrcAddr5,
  .parseSrcAddrX,
  .parseSrcAddrY,
  .parseSrcAddrZ,
  .parseStaticAddressOffsets,
  .parseStaticRecordLayout,
  .parseStatusStringRef,
  .parseStepSize,
  .parseStructureComponent,
  .parseSubFunction,
  .parseSubGroup,
  .parseSupplier,
  .parseSymbolLink,
  .parseSymbolTypeLink,
  .parseSystemConstant,
  .parseTransformer,
  .parseTransformerInObject,
  .parseTransformerOutObject,
  .parseTypeDefAxis,
  .parseTypeDefBlob,
  .parseTypeDefCharacteristic,
  .parseTypeDefMeasurement,
  .parseTypeDefStructure,
  .parseUnit,
  .parseUnitConversion,
  .parseUser,
  .parseUserRights,
  .parseVarAddress,
  .parseVarCharacteristic,
  .parseVarCriterion,
  .parseVarForbiddenComb,
  .parseVarMeasurement,
  .parseVarNaming,
  .parseVarSelectionCharacteristic,
  .parseVarSeparator,
  .parseVariantCoding,
  .parseVersion,
  .parseVirtual,
  .parseVirtualCharacteristic,
  .parseModuleMultithreaded]

end Verif.A2l
