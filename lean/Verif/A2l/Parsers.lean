import Verif.A2l.Lang

/-!
The parse functions of package a2l, translated line by line from the Go source by
tools/go2lean.py. `log` calls and local variable declarations are left out.
-/

namespace Verif.A2l
open Verif.Go Lang

/-- Constant `DIRECT` of a2l/enums.go. -/
def Const.DIRECT : Str := (str! "DIRECT")
/-- `parseEncodingEnum`, a2l/enums.go:20-34. -/
def parseEncodingEnum : EnumDef := ⟨false, [
  ((str! "UTF8"), (str! "UTF8")),
  ((str! "UTF16"), (str! "UTF16")),
  ((str! "UTF32"), (str! "UTF32"))]⟩
/-- `parseDataTypeEnum`, a2l/enums.go:168-198. -/
def parseDataTypeEnum : EnumDef := ⟨false, [
  (ubyteToken, (str! "UBYTE")),
  (sbyteToken, (str! "SBYTE")),
  (uwordToken, (str! "UWORD")),
  (swordToken, (str! "SWORD")),
  (ulongToken, (str! "ULONG")),
  (slongToken, (str! "SLONG")),
  (aUint64Token, (str! "A_UINT64")),
  (aInt64Token, (str! "A_INT64")),
  (float16IeeeToken, (str! "FLOAT16_IEEE")),
  (float32IeeeToken, (str! "FLOAT32_IEEE")),
  (float64IeeeToken, (str! "FLOAT64_IEEE"))]⟩
/-- `parseDataSizeEnum`, a2l/enums.go:223-237. -/
def parseDataSizeEnum : EnumDef := ⟨false, [
  (byteToken, (str! "BYTE")),
  (wordToken, (str! "WORD")),
  (longToken, (str! "LONG"))]⟩
/-- `parseAddrTypeEnum`, a2l/enums.go:255-271. -/
def parseAddrTypeEnum : EnumDef := ⟨false, [
  (pbyteToken, (str! "PBYTE")),
  (pwordToken, (str! "PWORD")),
  (plongToken, (str! "PLONG")),
  (directToken, (str! "DIRECT"))]⟩
/-- `parseByteOrderEnum`, a2l/enums.go:285-305. -/
def parseByteOrderEnum : EnumDef := ⟨false, [
  (littleEndianToken, (str! "LITTLE_ENDIAN")),
  (bigEndianToken, (str! "BIG_ENDIAN")),
  (msbLastToken, (str! "MSB_LAST")),
  (msbFirstToken, (str! "MSB_FIRST")),
  (msbFirstMswLastToken, (str! "MSB_FIRST_MSW_LAST")),
  (msbLastMswFirstToken, (str! "MSB_LAST_MSW_FIRST"))]⟩
/-- `parseIndexOrderEnum`, a2l/enums.go:334-346. -/
def parseIndexOrderEnum : EnumDef := ⟨false, [
  (indexIncrToken, (str! "INDEX_INCR")),
  (indexDecrToken, (str! "INDEX_DECR"))]⟩
/-- `parseAttributeEnum`, a2l/enums.go:378-400. -/
def parseAttributeEnum : EnumDef := ⟨false, [
  (curveAxisToken, (str! "CURVE_AXIS")),
  (comAxisToken, (str! "COM_AXIS")),
  (fixAxisToken, (str! "FIX_AXIS")),
  (resAxisToken, (str! "RES_AXIS")),
  (stdAxisToken, (str! "STD_AXIS")),
  (internToken, (str! "INTERN")),
  (externToken, (str! "EXTERN"))]⟩
/-- `parseCalibrationAccessEnum`, a2l/enums.go:412-428. -/
def parseCalibrationAccessEnum : EnumDef := ⟨true, [
  (calibrationToken, (str! "CALIBRATION")),
  (noCalibrationToken, (str! "NO_CALIBRATION")),
  (notInMcdSystemToken, (str! "NOT_IN_MCD_SYSTEM")),
  (offlineCalibrationToken, (str! "OFFLINE_CALIBRATION"))]⟩
/-- `parseTypeEnum`, a2l/enums.go:455-483. -/
def parseTypeEnum : EnumDef := ⟨false, [
  (asciiToken, (str! "ASCII")),
  (curveToken, (str! "CURVE")),
  (mapToken, (str! "MAP")),
  (cuboidToken, (str! "CUBOID")),
  (cube4Token, (str! "CUBE_4")),
  (cube5Token, (str! "CUBE_5")),
  (valBlkToken, (str! "VAL_BLK")),
  (valueToken, (str! "VALUE")),
  (derivedToken, (str! "DERIVED")),
  (extendedSiToken, (str! "EXTENDED_SI"))]⟩
/-- `parseConversionTypeEnum`, a2l/enums.go:519-541. -/
def parseConversionTypeEnum : EnumDef := ⟨false, [
  (identicalToken, (str! "IDENTICAL")),
  (formToken, (str! "FORM")),
  (linearToken, (str! "LINEAR")),
  (ratFuncToken, (str! "RAT_FUNC")),
  (tabIntpToken, (str! "TAB_INTP")),
  (tabNointpToken, (str! "TAB_NOINTP")),
  (tabVerbToken, (str! "TAB_VERB"))]⟩
/-- `parseIndexModeEnum`, a2l/enums.go:594-612. -/
def parseIndexModeEnum : EnumDef := ⟨false, [
  (alternateCurvesToken, (str! "ALTERNATE_CURVES")),
  (alternateWithXToken, (str! "ALTERNATE_WITH_X")),
  (alternateWithYToken, (str! "ALTERNATE_WITH_Y")),
  (columnDirToken, (str! "COLUMN_DIR")),
  (rowDirToken, (str! "ROW_DIR"))]⟩
/-- `parseModeEnum`, a2l/enums.go:622-634. -/
def parseModeEnum : EnumDef := ⟨false, [
  (absoluteToken, (str! "ABSOLUTE")),
  (differenceToken, (str! "DIFFERENCE"))]⟩
/-- `parsePrgTypeEnum`, a2l/enums.go:653-683. -/
def parsePrgTypeEnum : EnumDef := ⟨false, [
  (prgCodeToken, (str! "PRG_CODE")),
  (prgDataToken, (str! "PRG_DATA")),
  (prgReservedToken, (str! "PRG_RESERVED")),
  (calibrationVariablesToken, (str! "CALIBRATION_VARIABLES")),
  (codeToken, (str! "CODE")),
  (dataToken, (str! "DATA")),
  (excludeFromFlashToken, (str! "EXCLUDE_FROM_FLASH")),
  (offlineDataToken, (str! "OFFLINE_DATA")),
  (reservedToken, (str! "RESERVED")),
  (seramToken, (str! "SERAM")),
  (variablesToken, (str! "VARIABLES"))]⟩
/-- `parseMemoryTypeEnum`, a2l/enums.go:698-720. -/
def parseMemoryTypeEnum : EnumDef := ⟨false, [
  (eepromToken, (str! "EEPROM")),
  (epromToken, (str! "EPROM")),
  (flashToken, (str! "FLASH")),
  (ramToken, (str! "RAM")),
  (romToken, (str! "ROM")),
  (registerToken, (str! "REGISTER")),
  (notInEcuToken, (str! "NOT_IN_ECU"))]⟩
/-- `parseMonotonyTypeEnum`, a2l/enums.go:735-757. -/
def parseMonotonyTypeEnum : EnumDef := ⟨false, [
  (monDecreaseToken, (str! "MON_DECREASE")),
  (monIncreaseToken, (str! "MON_INCREASE")),
  (strictDecreaseToken, (str! "STRICT_DECREASE")),
  (strictIncreaseToken, (str! "STRICT_INCREASE")),
  (monotonousToken, (str! "MONOTONOUS")),
  (strictMonToken, (str! "STRICT_MON")),
  (notMonToken, (str! "NOT_MON"))]⟩
/-- `parseTagEnum`, a2l/enums.go:766-776. -/
def parseTagEnum : EnumDef := ⟨false, [
  (numericToken, (str! "NUMERIC"))]⟩
/-- `parseTriggerEnum`, a2l/enums.go:786-798. -/
def parseTriggerEnum : EnumDef := ⟨false, [
  (onChangeToken, (str! "ON_CHANGE")),
  (onUserRequestToken, (str! "ON_USER_REQUEST"))]⟩
/-- `parseA2l`, a2l/a2l.go:90-131. -/
def parseA2l : Stmt :=
  blk [
    .loop (blk [
      switchCur [
          (asap2VersionToken, blk [.callField "Asap2Version" .parseASAP2Version, .ite .errNe (blk [.brk]) (blk [])]),
          (a2mlVersionToken, blk [.callField "A2mlVersion" .parseA2MLVersion, .ite .errNe (blk [.brk]) (blk [])]),
          (beginProjectToken, blk [.callField "Project" .parseProject, .ite .errNe (blk [.brk]) (blk [])])]
        (blk [
          .ite (.curIs emptyToken)
            (blk [.brk])
            (blk [.ite .curKw (blk [.setErr, .brk]) (blk [])])]),
      .next])]

/-- `parseA2ML`, a2l/a2ml.go:15-33. -/
def parseA2ML : Stmt :=
  blk [
    .loop (blk [
      .next,
      .ite (.curIs emptyToken)
        (blk [.setErr, .brk])
        (blk [
          .ite (.curIs endA2mlToken)
            (blk [.setTrue "formatSpecificationSet", .brk])
            (blk [
              .ite (.unset "formatSpecificationSet")
                (blk [.concatCur "formatSpecification"])
                (blk [])])])])]

/-- `parseA2MLVersion`, a2l/a2ml_version.go:32-70. -/
def parseA2MLVersion : Stmt :=
  blk [
    .loop (blk [
      .next,
      .ite (.curIs emptyToken)
        (blk [.setErr, .brk])
        (blk [
          .ite .curKw
            (blk [.setErr, .brk])
            (blk [
              .ite (.unset "versionNoSet")
                (blk [
                  .conv (.uint 16),
                  .ite .errNe (blk [.brk]) (blk []),
                  .store "VersionNo" (.uint 16),
                  .setTrue "versionNoSet"])
                (blk [
                  .ite (.unset "upgradeNoSet")
                    (blk [
                      .conv (.uint 16),
                      .ite .errNe (blk [.brk]) (blk []),
                      .store "UpgradeNo" (.uint 16),
                      .setTrue "upgradeNoSet",
                      .brk])
                    (blk [])])])])])]

/-- `parseAddrEpk`, a2l/addr_epk.go:15-31. -/
def parseAddrEpk : Stmt :=
  blk [
    .next,
    .ite (.curIs emptyToken)
      (blk [.setErr])
      (blk [
        .ite .curKw
          (blk [.setErr])
          (blk [
            .ite (.unset "addressSet")
              (blk [.storeCur "address", .setTrue "addressSet"])
              (blk [])])])]

/-- `parseAlignmentByte`, a2l/alignment_byte.go:19-40. -/
def parseAlignmentByte : Stmt :=
  blk [
    .next,
    .ite (.curIs emptyToken)
      (blk [.setErr])
      (blk [
        .ite .curKw
          (blk [.setErr])
          (blk [
            .ite (.unset "AlignmentBorderSet")
              (blk [
                .conv (.uint 16),
                .ite .errNe (blk []) (blk []),
                .store "AlignmentBorder" (.uint 16),
                .setTrue "AlignmentBorderSet"])
              (blk [])])])]

/-- `parseAlignmentFloat16Ieee`, a2l/alignment_float16_ieee.go:19-40. -/
def parseAlignmentFloat16Ieee : Stmt :=
  blk [
    .next,
    .ite (.curIs emptyToken)
      (blk [.setErr])
      (blk [
        .ite .curKw
          (blk [.setErr])
          (blk [
            .ite (.unset "AlignmentBorderSet")
              (blk [
                .conv (.uint 16),
                .ite .errNe (blk []) (blk []),
                .store "AlignmentBorder" (.uint 16),
                .setTrue "AlignmentBorderSet"])
              (blk [])])])]

/-- `parseAlignmentFloat32Ieee`, a2l/alignment_float32_ieee.go:19-40. -/
def parseAlignmentFloat32Ieee : Stmt :=
  blk [
    .next,
    .ite (.curIs emptyToken)
      (blk [.setErr])
      (blk [
        .ite .curKw
          (blk [.setErr])
          (blk [
            .ite (.unset "AlignmentBorderSet")
              (blk [
                .conv (.uint 16),
                .ite .errNe (blk []) (blk []),
                .store "AlignmentBorder" (.uint 16),
                .setTrue "AlignmentBorderSet"])
              (blk [])])])]

/-- `parseAlignmentFloat64Ieee`, a2l/alignment_float64_ieee.go:19-40. -/
def parseAlignmentFloat64Ieee : Stmt :=
  blk [
    .next,
    .ite (.curIs emptyToken)
      (blk [.setErr])
      (blk [
        .ite .curKw
          (blk [.setErr])
          (blk [
            .ite (.unset "AlignmentBorderSet")
              (blk [
                .conv (.uint 16),
                .ite .errNe (blk []) (blk []),
                .store "AlignmentBorder" (.uint 16),
                .setTrue "AlignmentBorderSet"])
              (blk [])])])]

/-- `parseAlignmentInt64`, a2l/alignment_int64.go:19-40. -/
def parseAlignmentInt64 : Stmt :=
  blk [
    .next,
    .ite (.curIs emptyToken)
      (blk [.setErr])
      (blk [
        .ite .curKw
          (blk [.setErr])
          (blk [
            .ite (.unset "AlignmentBorderSet")
              (blk [
                .conv (.uint 16),
                .ite .errNe (blk []) (blk []),
                .store "AlignmentBorder" (.uint 16),
                .setTrue "AlignmentBorderSet"])
              (blk [])])])]

/-- `parseAlignmentLong`, a2l/alignment_long.go:19-40. -/
def parseAlignmentLong : Stmt :=
  blk [
    .next,
    .ite (.curIs emptyToken)
      (blk [.setErr])
      (blk [
        .ite .curKw
          (blk [.setErr])
          (blk [
            .ite (.unset "AlignmentBorderSet")
              (blk [
                .conv (.uint 16),
                .ite .errNe (blk []) (blk []),
                .store "AlignmentBorder" (.uint 16),
                .setTrue "AlignmentBorderSet"])
              (blk [])])])]

/-- `parseAlignmentWord`, a2l/alignment_word.go:19-40. -/
def parseAlignmentWord : Stmt :=
  blk [
    .next,
    .ite (.curIs emptyToken)
      (blk [.setErr])
      (blk [
        .ite .curKw
          (blk [.setErr])
          (blk [
            .ite (.unset "AlignmentBorderSet")
              (blk [
                .conv (.uint 16),
                .ite .errNe (blk []) (blk []),
                .store "AlignmentBorder" (.uint 16),
                .setTrue "AlignmentBorderSet"])
              (blk [])])])]

/-- `parseAnnotation`, a2l/annotation.go:17-61. -/
def parseAnnotation : Stmt :=
  blk [
    .loop (blk [
      .next,
      switchRet [
          (annotationLabelToken, blk [
            .callField "annotationLabel" .parseAnnotationLabel,
            .ite .errNe (blk [.brk]) (blk [])]),
          (annotationOriginToken, blk [
            .callField "annotationOrigin" .parseAnnotationOrigin,
            .ite .errNe (blk [.brk]) (blk [])]),
          (beginAnnotationTextToken, blk [
            .callBuf .parseAnnotationText,
            .ite .errNe (blk [.brk]) (blk []),
            .append "annotationText" .same])]
        (blk [
          .ite (.curIs emptyToken)
            (blk [.setErr, .brk])
            (blk [
              .ite (.curIs endAnnotationToken)
                (blk [.brk])
                (blk [.ite .curKw (blk [.setErr, .brk]) (blk [])])])])])]

/-- `parseAnnotationLabel`, a2l/annotation_label.go:15-31. -/
def parseAnnotationLabel : Stmt :=
  blk [
    .next,
    .ite (.curIs emptyToken)
      (blk [.setErr])
      (blk [
        .ite .curKw
          (blk [.setErr])
          (blk [
            .ite (.unset "labelSet") (blk [.storeCur "label", .setTrue "labelSet"]) (blk [])])])]

/-- `parseAnnotationOrigin`, a2l/annotation_origin.go:15-31. -/
def parseAnnotationOrigin : Stmt :=
  blk [
    .next,
    .ite (.curIs emptyToken)
      (blk [.setErr])
      (blk [
        .ite .curKw
          (blk [.setErr])
          (blk [
            .ite (.unset "originSet") (blk [.storeCur "origin", .setTrue "originSet"]) (blk [])])])]

/-- `parseAnnotationText`, a2l/annotation_text.go:16-38. -/
def parseAnnotationText : Stmt :=
  blk [
    .loop (blk [
      .next,
      .ite (.curIs emptyToken)
        (blk [.setErr, .brk])
        (blk [
          .ite (.curIs endAnnotationTextToken)
            (blk [.setTrue "annotationTextSet", .brk])
            (blk [
              .ite .curKw
                (blk [.setErr, .brk])
                (blk [
                  .ite (.unset "annotationTextSet")
                    (blk [.concatCur "annotationText"])
                    (blk [])])])])])]

/-- `parseArComponent`, a2l/ar_component.go:32-64. -/
def parseArComponent : Stmt :=
  blk [
    .loop (blk [
      .next,
      switchRet [
          (arPrototypeOfToken, blk [
            .callField "arPrototypeOf" .parseArPrototypeOf,
            .ite .errNe (blk [.brk]) (blk [])])]
        (blk [
          .ite (.curIs emptyToken)
            (blk [.setErr, .brk])
            (blk [
              .ite (.curIs endArComponentToken)
                (blk [.brk])
                (blk [
                  .ite .curKw
                    (blk [.setErr, .brk])
                    (blk [
                      .ite (.unset "componentTypeSet")
                        (blk [.storeCur "componentType", .setTrue "componentTypeSet"])
                        (blk [])])])])])])]

/-- `parseArPrototypeOf`, a2l/ar_prototype_of.go:17-33. -/
def parseArPrototypeOf : Stmt :=
  blk [
    .next,
    .ite (.curIs emptyToken)
      (blk [.setErr])
      (blk [
        .ite .curKw
          (blk [.setErr])
          (blk [.ite (.unset "nameSet") (blk [.storeCur "name", .setTrue "nameSet"]) (blk [])])])]

/-- `parseArraySize`, a2l/array_size.go:19-40. -/
def parseArraySize : Stmt :=
  blk [
    .next,
    .ite (.curIs emptyToken)
      (blk [.setErr])
      (blk [
        .ite .curKw
          (blk [.setErr])
          (blk [
            .ite (.unset "numberSet")
              (blk [
                .conv (.uint 16),
                .ite .errNe (blk []) (blk []),
                .store "number" (.uint 16),
                .setTrue "numberSet"])
              (blk [])])])]

/-- `parseASAP2Version`, a2l/asap2_version.go:21-59. -/
def parseASAP2Version : Stmt :=
  blk [
    .loop (blk [
      .next,
      .ite (.curIs emptyToken)
        (blk [.setErr, .brk])
        (blk [
          .ite .curKw
            (blk [.setErr, .brk])
            (blk [
              .ite (.unset "versionNoSet")
                (blk [
                  .conv (.uint 16),
                  .ite .errNe (blk [.brk]) (blk []),
                  .store "versionNo" (.uint 16),
                  .setTrue "versionNoSet"])
                (blk [
                  .ite (.unset "upgradeNoSet")
                    (blk [
                      .conv (.uint 16),
                      .ite .errNe (blk [.brk]) (blk []),
                      .store "upgradeNo" (.uint 16),
                      .setTrue "upgradeNoSet",
                      .brk])
                    (blk [])])])])])]

/-- `parseAxisDescr`, a2l/axis_descr.go:86-262. -/
def parseAxisDescr : Stmt :=
  blk [
    .loop (blk [
      .next,
      switchRet [
          (beginAnnotationToken, blk [
            .callBuf .parseAnnotation,
            .ite .errNe (blk [.brk]) (blk []),
            .append "annotation" .same]),
          (axisPtsRefToken, blk [.callField "axisPtsRef" .parseAxisPtsRef, .ite .errNe (blk [.brk]) (blk [])]),
          (byteOrderToken, blk [.callField "byteOrder" .parseByteOrder, .ite .errNe (blk [.brk]) (blk [])]),
          (curveAxisRefToken, blk [.callField "curveAxisRef" .parseCurveAxisRef, .ite .errNe (blk [.brk]) (blk [])]),
          (depositToken, blk [.callField "deposit" .parseDeposit, .ite .errNe (blk [.brk]) (blk [])]),
          (extendedLimitsToken, blk [
            .callField "extendedLimits" .parseExtendedLimits,
            .ite .errNe (blk [.brk]) (blk [])]),
          (fixAxisParToken, blk [.callField "fixAxisPar" .parseFixAxisPar, .ite .errNe (blk [.brk]) (blk [])]),
          (fixAxisParDistToken, blk [
            .callField "fixAxisParDist" .parseFixAxisParDist,
            .ite .errNe (blk [.brk]) (blk [])]),
          (beginFixAxisParListToken, blk [
            .callBuf .parseFixAxisParList,
            .ite .errNe (blk [.brk]) (blk []),
            .append "fixAxisParList" .same]),
          (formatToken, blk [.callField "format" .parseFormat, .ite .errNe (blk [.brk]) (blk [])]),
          (maxGradToken, blk [.callField "maxGrad" .parseMaxGrad, .ite .errNe (blk [.brk]) (blk [])]),
          (monotonyToken, blk [.callField "monotony" .parseMonotony, .ite .errNe (blk [.brk]) (blk [])]),
          (physUnitToken, blk [.callField "physUnit" .parsePhysUnit, .ite .errNe (blk [.brk]) (blk [])]),
          (readOnlyToken, blk [.callField "readOnly" .parseReadOnly, .ite .errNe (blk [.brk]) (blk [])]),
          (stepSizeToken, blk [.callField "stepSize" .parseStepSize, .ite .errNe (blk [.brk]) (blk [])])]
        (blk [
          .ite (.curIs emptyToken)
            (blk [.setErr, .brk])
            (blk [
              .ite (.curIs endAxisDescrToken)
                (blk [.brk])
                (blk [
                  .ite .curKw
                    (blk [.setErr, .brk])
                    (blk [
                      .ite (.unset "attributeSet")
                        (blk [
                          .enumField "attribute" parseAttributeEnum,
                          .ite .errNe (blk [.brk]) (blk []),
                          .setTrue "attributeSet"])
                        (blk [
                          .ite (.unset "inputQuantitySet")
                            (blk [.storeCur "inputQuantity", .setTrue "inputQuantitySet"])
                            (blk [
                              .ite (.unset "conversionSet")
                                (blk [.storeCur "conversion", .setTrue "conversionSet"])
                                (blk [
                                  .ite (.unset "maxAxisPointsSet")
                                    (blk [
                                      .conv (.uint 16),
                                      .ite .errNe (blk [.brk]) (blk []),
                                      .store "maxAxisPoints" (.uint 16),
                                      .setTrue "maxAxisPointsSet"])
                                    (blk [
                                      .ite (.unset "lowerLimitSet")
                                        (blk [
                                          .conv .float,
                                          .ite .errNe (blk [.brk]) (blk []),
                                          .store "lowerLimit" .same,
                                          .setTrue "lowerLimitSet"])
                                        (blk [
                                          .ite (.unset "upperLimitSet")
                                            (blk [
                                              .conv .float,
                                              .ite .errNe (blk [.brk]) (blk []),
                                              .store "upperLimit" .same,
                                              .setTrue "upperLimitSet"])
                                            (blk [])])])])])])])])])])])]

/-- `parseAxisPts`, a2l/axis_pts.go:75-292. -/
def parseAxisPts : Stmt :=
  blk [
    .loop (blk [
      .next,
      switchRet [
          (beginAnnotationToken, blk [
            .callBuf .parseAnnotation,
            .ite .errNe (blk [.brk]) (blk []),
            .append "annotation" .same]),
          (byteOrderToken, blk [.callField "byteOrder" .parseByteOrder, .ite .errNe (blk [.brk]) (blk [])]),
          (calibrationAccessToken, blk [
            .enumField "calibrationAccess" parseCalibrationAccessEnum,
            .ite .errNe (blk [.brk]) (blk [])]),
          (depositToken, blk [.callField "deposit" .parseDeposit, .ite .errNe (blk [.brk]) (blk [])]),
          (displayIdentifierToken, blk [
            .callField "displayIdentifier" .parseDisplayIdentifier,
            .ite .errNe (blk [.brk]) (blk [])]),
          (ecuAddressExtensionToken, blk [
            .callField "ecuAddressExtension" .parseECUAddressExtension,
            .ite .errNe (blk [.brk]) (blk [])]),
          (extendedLimitsToken, blk [
            .callField "extendedLimits" .parseExtendedLimits,
            .ite .errNe (blk [.brk]) (blk [])]),
          (formatToken, blk [.callField "format" .parseFormat, .ite .errNe (blk [.brk]) (blk [])]),
          (beginFunctionListToken, blk [
            .callBuf .parseFunctionList,
            .ite .errNe (blk [.brk]) (blk []),
            .append "functionList" .same]),
          (guardRailsToken, blk [.callField "guardRails" .parseGuardRails, .ite .errNe (blk [.brk]) (blk [])]),
          (beginIfDataToken, blk [
            .callBuf .parseIfData,
            .ite .errNe (blk [.brk]) (blk []),
            .append "ifData" .same]),
          (modelLinkToken, blk [.callField "modelLink" .parseModelLink, .ite .errNe (blk [.brk]) (blk [])]),
          (monotonyToken, blk [.callField "monotony" .parseMonotony, .ite .errNe (blk [.brk]) (blk [])]),
          (physUnitToken, blk [.callField "physUnit" .parsePhysUnit, .ite .errNe (blk [.brk]) (blk [])]),
          (readOnlyToken, blk [.callField "readOnly" .parseReadOnly, .ite .errNe (blk [.brk]) (blk [])]),
          (refMemorySegmentToken, blk [
            .callField "refMemorySegment" .parseRefMemorySegment,
            .ite .errNe (blk [.brk]) (blk [])]),
          (stepSizeToken, blk [.callField "stepSize" .parseStepSize, .ite .errNe (blk [.brk]) (blk [])]),
          (symbolLinkToken, blk [.callField "symbolLink" .parseSymbolLink, .ite .errNe (blk [.brk]) (blk [])])]
        (blk [
          .ite (.curIs emptyToken)
            (blk [.setErr, .brk])
            (blk [
              .ite (.curIs endAxisPtsToken)
                (blk [.brk])
                (blk [
                  .ite .curKw
                    (blk [.setErr, .brk])
                    (blk [
                      .ite (.unset "nameSet")
                        (blk [.storeCur "name", .setTrue "nameSet"])
                        (blk [
                          .ite (.unset "longIdentifierSet")
                            (blk [.storeCur "longIdentifier", .setTrue "longIdentifierSet"])
                            (blk [
                              .ite (.unset "addressSet")
                                (blk [.storeCur "address", .setTrue "addressSet"])
                                (blk [
                                  .ite (.unset "inputQuantitySet")
                                    (blk [
                                      .storeCur "inputQuantity",
                                      .setTrue "inputQuantitySet"])
                                    (blk [
                                      .ite (.unset "depositIdentSet")
                                        (blk [
                                          .storeCur "depositIdent",
                                          .setTrue "depositIdentSet"])
                                        (blk [
                                          .ite (.unset "maxDiffSet")
                                            (blk [
                                              .conv .float,
                                              .ite .errNe (blk [.brk]) (blk []),
                                              .store "maxDiff" .same,
                                              .setTrue "maxDiffSet"])
                                            (blk [
                                              .ite (.unset "conversionSet")
                                                (blk [
                                                  .storeCur "conversion",
                                                  .setTrue "conversionSet"])
                                                (blk [
                                                  .ite (.unset "maxAxisPointsSet")
                                                    (blk [
                                                      .conv (.uint 16),
                                                      .ite .errNe (blk [.brk]) (blk []),
                                                      .store "maxAxisPoints" (.uint 16),
                                                      .setTrue "maxAxisPointsSet"])
                                                    (blk [
                                                      .ite (.unset "lowerLimitSet")
                                                        (blk [
                                                          .conv .float,
                                                          .ite .errNe (blk [.brk]) (blk []),
                                                          .store "lowerLimit" .same,
                                                          .setTrue "lowerLimitSet"])
                                                        (blk [
                                                          .ite (.unset "upperLimitSet")
                                                            (blk [
                                                              .conv .float,
                                                              .ite .errNe (blk [.brk]) (blk []),
                                                              .store "upperLimit" .same,
                                                              .setTrue "upperLimitSet"])
                                                            (blk [])])])])])])])])])])])])])])])]

/-- `parseAxisPts4`, a2l/axis_pts_4.go:25-77. -/
def parseAxisPts4 : Stmt :=
  blk [
    .loop (blk [
      .next,
      .ite (.curIs emptyToken)
        (blk [.setErr, .brk])
        (blk [
          .ite .curKw
            (blk [.setErr, .brk])
            (blk [
              .ite (.unset "PositionSet")
                (blk [
                  .conv (.uint 16),
                  .ite .errNe (blk [.brk]) (blk []),
                  .store "Position" (.uint 16),
                  .setTrue "PositionSet"])
                (blk [
                  .ite (.unset "DatatypeSet")
                    (blk [
                      .enumField "Datatype" parseDataTypeEnum,
                      .ite .errNe (blk [.brk]) (blk []),
                      .setTrue "DatatypeSet"])
                    (blk [
                      .ite (.unset "IndexIncrSet")
                        (blk [
                          .enumField "IndexIncr" parseIndexOrderEnum,
                          .ite .errNe (blk [.brk]) (blk []),
                          .setTrue "IndexIncrSet"])
                        (blk [
                          .ite (.unset "AddressingSet")
                            (blk [
                              .enumField "Addressing" parseAddrTypeEnum,
                              .ite .errNe (blk [.brk]) (blk []),
                              .setTrue "AddressingSet",
                              .brk])
                            (blk [])])])])])])])]

/-- `parseAxisPts5`, a2l/axis_pts_5.go:25-77. -/
def parseAxisPts5 : Stmt :=
  blk [
    .loop (blk [
      .next,
      .ite (.curIs emptyToken)
        (blk [.setErr, .brk])
        (blk [
          .ite .curKw
            (blk [.setErr, .brk])
            (blk [
              .ite (.unset "PositionSet")
                (blk [
                  .conv (.uint 16),
                  .ite .errNe (blk [.brk]) (blk []),
                  .store "Position" (.uint 16),
                  .setTrue "PositionSet"])
                (blk [
                  .ite (.unset "DatatypeSet")
                    (blk [
                      .enumField "Datatype" parseDataTypeEnum,
                      .ite .errNe (blk [.brk]) (blk []),
                      .setTrue "DatatypeSet"])
                    (blk [
                      .ite (.unset "IndexIncrSet")
                        (blk [
                          .enumField "IndexIncr" parseIndexOrderEnum,
                          .ite .errNe (blk [.brk]) (blk []),
                          .setTrue "IndexIncrSet"])
                        (blk [
                          .ite (.unset "AddressingSet")
                            (blk [
                              .enumField "Addressing" parseAddrTypeEnum,
                              .ite .errNe (blk [.brk]) (blk []),
                              .setTrue "AddressingSet",
                              .brk])
                            (blk [])])])])])])])]

/-- `parseAxisPtsRef`, a2l/axis_pts_ref.go:24-40. -/
def parseAxisPtsRef : Stmt :=
  blk [
    .next,
    .ite (.curIs emptyToken)
      (blk [.setErr])
      (blk [
        .ite .curKw
          (blk [.setErr])
          (blk [
            .ite (.unset "axisPointsSet")
              (blk [.storeCur "axisPoints", .setTrue "axisPointsSet"])
              (blk [])])])]

/-- `parseAxisPtsX`, a2l/axis_pts_x.go:25-77. -/
def parseAxisPtsX : Stmt :=
  blk [
    .loop (blk [
      .next,
      .ite (.curIs emptyToken)
        (blk [.setErr, .brk])
        (blk [
          .ite .curKw
            (blk [.setErr, .brk])
            (blk [
              .ite (.unset "PositionSet")
                (blk [
                  .conv (.uint 16),
                  .ite .errNe (blk [.brk]) (blk []),
                  .store "Position" (.uint 16),
                  .setTrue "PositionSet"])
                (blk [
                  .ite (.unset "DatatypeSet")
                    (blk [
                      .enumField "Datatype" parseDataTypeEnum,
                      .ite .errNe (blk [.brk]) (blk []),
                      .setTrue "DatatypeSet"])
                    (blk [
                      .ite (.unset "IndexIncrSet")
                        (blk [
                          .enumField "IndexIncr" parseIndexOrderEnum,
                          .ite .errNe (blk [.brk]) (blk []),
                          .setTrue "IndexIncrSet"])
                        (blk [
                          .ite (.unset "AddressingSet")
                            (blk [
                              .enumField "Addressing" parseAddrTypeEnum,
                              .ite .errNe (blk [.brk]) (blk []),
                              .setTrue "AddressingSet",
                              .brk])
                            (blk [])])])])])])])]

/-- `parseAxisPtsY`, a2l/axis_pts_y.go:25-77. -/
def parseAxisPtsY : Stmt :=
  blk [
    .loop (blk [
      .next,
      .ite (.curIs emptyToken)
        (blk [.setErr, .brk])
        (blk [
          .ite .curKw
            (blk [.setErr, .brk])
            (blk [
              .ite (.unset "PositionSet")
                (blk [
                  .conv (.uint 16),
                  .ite .errNe (blk [.brk]) (blk []),
                  .store "Position" (.uint 16),
                  .setTrue "PositionSet"])
                (blk [
                  .ite (.unset "DatatypeSet")
                    (blk [
                      .enumField "Datatype" parseDataTypeEnum,
                      .ite .errNe (blk [.brk]) (blk []),
                      .setTrue "DatatypeSet"])
                    (blk [
                      .ite (.unset "IndexIncrSet")
                        (blk [
                          .enumField "IndexIncr" parseIndexOrderEnum,
                          .ite .errNe (blk [.brk]) (blk []),
                          .setTrue "IndexIncrSet"])
                        (blk [
                          .ite (.unset "AddressingSet")
                            (blk [
                              .enumField "Addressing" parseAddrTypeEnum,
                              .ite .errNe (blk [.brk]) (blk []),
                              .setTrue "AddressingSet",
                              .brk])
                            (blk [])])])])])])])]

/-- `parseAxisPtsZ`, a2l/axis_pts_z.go:25-77. -/
def parseAxisPtsZ : Stmt :=
  blk [
    .loop (blk [
      .next,
      .ite (.curIs emptyToken)
        (blk [.setErr, .brk])
        (blk [
          .ite .curKw
            (blk [.setErr, .brk])
            (blk [
              .ite (.unset "PositionSet")
                (blk [
                  .conv (.uint 16),
                  .ite .errNe (blk [.brk]) (blk []),
                  .store "Position" (.uint 16),
                  .setTrue "PositionSet"])
                (blk [
                  .ite (.unset "DatatypeSet")
                    (blk [
                      .enumField "Datatype" parseDataTypeEnum,
                      .ite .errNe (blk [.brk]) (blk []),
                      .setTrue "DatatypeSet"])
                    (blk [
                      .ite (.unset "IndexIncrSet")
                        (blk [
                          .enumField "IndexIncr" parseIndexOrderEnum,
                          .ite .errNe (blk [.brk]) (blk []),
                          .setTrue "IndexIncrSet"])
                        (blk [
                          .ite (.unset "AddressingSet")
                            (blk [
                              .enumField "Addressing" parseAddrTypeEnum,
                              .ite .errNe (blk [.brk]) (blk []),
                              .setTrue "AddressingSet",
                              .brk])
                            (blk [])])])])])])])]

/-- `parseAxisRescaleX`, a2l/axis_rescale_x.go:70-132. -/
def parseAxisRescaleX : Stmt :=
  blk [
    .loop (blk [
      .next,
      .ite (.curIs emptyToken)
        (blk [.setErr, .brk])
        (blk [
          .ite .curKw
            (blk [.setErr, .brk])
            (blk [
              .ite (.unset "PositionSet")
                (blk [
                  .conv (.uint 16),
                  .ite .errNe (blk [.brk]) (blk []),
                  .store "Position" (.uint 16),
                  .setTrue "PositionSet"])
                (blk [
                  .ite (.unset "DatatypeSet")
                    (blk [
                      .enumField "Datatype" parseDataTypeEnum,
                      .ite .errNe (blk [.brk]) (blk []),
                      .setTrue "DatatypeSet"])
                    (blk [
                      .ite (.unset "MaxNumberOfRescalePairsSet")
                        (blk [
                          .conv (.uint 16),
                          .ite .errNe (blk [.brk]) (blk []),
                          .store "MaxNumberOfRescalePairs" (.uint 16),
                          .setTrue "MaxNumberOfRescalePairsSet"])
                        (blk [
                          .ite (.unset "IndexIncrSet")
                            (blk [
                              .enumField "IndexIncr" parseIndexOrderEnum,
                              .ite .errNe (blk [.brk]) (blk []),
                              .setTrue "IndexIncrSet"])
                            (blk [
                              .ite (.unset "AdressingSet")
                                (blk [
                                  .enumField "Adressing" parseAddrTypeEnum,
                                  .ite .errNe (blk [.brk]) (blk []),
                                  .setTrue "AdressingSet",
                                  .brk])
                                (blk [])])])])])])])])]

/-- `parseBitMask`, a2l/bit_mask.go:34-50. -/
def parseBitMask : Stmt :=
  blk [
    .next,
    .ite (.curIs emptyToken)
      (blk [.setErr])
      (blk [
        .ite .curKw
          (blk [.setErr])
          (blk [.ite (.unset "maskSet") (blk [.storeCur "mask", .setTrue "maskSet"]) (blk [])])])]

/-- `parseBitOperation`, a2l/bit_operation.go:22-63. -/
def parseBitOperation : Stmt :=
  blk [
    .loop (blk [
      .next,
      switchRet [
          (leftShiftToken, blk [.callField "leftShift" .parseLeftShift, .ite .errNe (blk [.brk]) (blk [])]),
          (rightShiftToken, blk [.callField "rightShift" .parseRightShift, .ite .errNe (blk [.brk]) (blk [])]),
          (signExtendToken, blk [.callField "signExtend" .parseSignExtend, .ite .errNe (blk [.brk]) (blk [])])]
        (blk [
          .ite (.curIs emptyToken)
            (blk [.setErr, .brk])
            (blk [
              .ite (.curIs endBitOperationToken)
                (blk [.brk])
                (blk [.ite .curKw (blk [.setErr]) (blk [])])])])])]

/-- `parseBlob`, a2l/blob.go:33-144. -/
def parseBlob : Stmt :=
  blk [
    .loop (blk [
      .next,
      switchRet [
          (beginAnnotationToken, blk [
            .callBuf .parseAnnotation,
            .ite .errNe (blk [.brk]) (blk []),
            .append "annotation" .same]),
          (addressTypeToken, blk [
            .enumField "addressType" parseAddrTypeEnum,
            .ite .errNe (blk [.brk]) (blk []),
            .setTrue "addressTypeSet"]),
          (calibrationAccessToken, blk [
            .enumField "calibrationAccess" parseCalibrationAccessEnum,
            .ite .errNe (blk [.brk]) (blk [])]),
          (displayIdentifierToken, blk [
            .callField "displayIdentifier" .parseDisplayIdentifier,
            .ite .errNe (blk [.brk]) (blk [])]),
          (ecuAddressExtensionToken, blk [
            .callField "ecuAddressExtension" .parseECUAddressExtension,
            .ite .errNe (blk [.brk]) (blk [])]),
          (beginIfDataToken, blk [
            .callBuf .parseIfData,
            .ite .errNe (blk [.brk]) (blk []),
            .append "IfData" .same]),
          (maxRefreshToken, blk [.callField "maxRefresh" .parseMaxRefresh, .ite .errNe (blk [.brk]) (blk [])]),
          (modelLinkToken, blk [.callField "modelLink" .parseModelLink, .ite .errNe (blk [.brk]) (blk [])]),
          (symbolLinkToken, blk [.callField "symbolLink" .parseSymbolLink, .ite .errNe (blk [.brk]) (blk [])])]
        (blk [
          .ite (.curIs emptyToken)
            (blk [.setErr, .brk])
            (blk [
              .ite (.curIs endBlobToken)
                (blk [
                  .ite (.unset "addressTypeSet")
                    (blk [.storeConst "addressType" Const.DIRECT])
                    (blk []),
                  .brk])
                (blk [
                  .ite .curKw
                    (blk [.setErr, .brk])
                    (blk [
                      .ite (.unset "nameSet")
                        (blk [.storeCur "name", .setTrue "nameSet"])
                        (blk [
                          .ite (.unset "longIdentifierSet")
                            (blk [.storeCur "longIdentifier", .setTrue "longIdentifierSet"])
                            (blk [
                              .ite (.unset "addressSet")
                                (blk [.storeCur "address", .setTrue "addressSet"])
                                (blk [
                                  .ite (.unset "sizeSet")
                                    (blk [
                                      .conv (.uint 32),
                                      .ite .errNe (blk [.brk]) (blk []),
                                      .store "size" (.uint 32),
                                      .setTrue "sizeSet"])
                                    (blk [])])])])])])])])])]

/-- `parseByteOrder`, a2l/byte_order.go:14-33. -/
def parseByteOrder : Stmt :=
  blk [
    .next,
    .ite (.curIs emptyToken)
      (blk [.setErr])
      (blk [
        .ite .curKw
          (blk [.setErr])
          (blk [
            .ite (.unset "ByteOrderSet")
              (blk [
                .enumField "ByteOrder" parseByteOrderEnum,
                .ite .errNe (blk []) (blk []),
                .setTrue "ByteOrderSet"])
              (blk [])])])]

/-- `parseCalibrationHandle`, a2l/calibration_handle.go:15-47. -/
def parseCalibrationHandle : Stmt :=
  blk [
    .loop (blk [
      .next,
      switchRet [
          (calibrationHandleTextToken, blk [
            .callField "calibrationHandleText" .parseCalibrationHandleText,
            .ite .errNe (blk [.brk]) (blk [])])]
        (blk [
          .ite (.curIs emptyToken)
            (blk [.setErr, .brk])
            (blk [
              .ite (.curIs endCalibrationHandleToken)
                (blk [.setTrue "handleSet", .brk])
                (blk [
                  .ite .curKw
                    (blk [.setErr, .brk])
                    (blk [.ite (.unset "handleSet") (blk [.appendCur "handle"]) (blk [])])])])])])]

/-- `parseCalibrationHandleText`, a2l/calibration_handle_text.go:14-30. -/
def parseCalibrationHandleText : Stmt :=
  blk [
    .next,
    .ite (.curIs emptyToken)
      (blk [.setErr])
      (blk [
        .ite .curKw
          (blk [.setErr])
          (blk [.ite (.unset "textSet") (blk [.storeCur "text", .setTrue "textSet"]) (blk [])])])]

/-- `parseCalibrationMethod`, a2l/calibration_method.go:18-62. -/
def parseCalibrationMethod : Stmt :=
  blk [
    .loop (blk [
      .next,
      switchRet [
          (beginCalibrationHandleToken, blk [
            .callBuf .parseCalibrationHandle,
            .ite .errNe (blk [.brk]) (blk []),
            .append "calibrationHandle" .same])]
        (blk [
          .ite (.curIs emptyToken)
            (blk [.setErr, .brk])
            (blk [
              .ite (.curIs endCalibrationMethodToken)
                (blk [.brk])
                (blk [
                  .ite .curKw
                    (blk [.setErr, .brk])
                    (blk [
                      .ite (.unset "methodSet")
                        (blk [.storeCur "method", .setTrue "methodSet"])
                        (blk [
                          .ite (.unset "versionSet")
                            (blk [
                              .conv (.uint 32),
                              .ite .errNe (blk [.brk]) (blk []),
                              .store "version" (.uint 32),
                              .setTrue "versionSet"])
                            (blk [])])])])])])])]

/-- `parseCharacteristic`, a2l/characteristic.go:61-343. -/
def parseCharacteristic : Stmt :=
  blk [
    .loop (blk [
      .next,
      switchRet [
          (beginAnnotationToken, blk [
            .callBuf .parseAnnotation,
            .ite .errNe (blk [.brk]) (blk []),
            .append "annotation" .same]),
          (beginAxisDescrToken, blk [
            .callBuf .parseAxisDescr,
            .ite .errNe (blk [.brk]) (blk []),
            .append "axisDescr" .same]),
          (bitMaskToken, blk [.callField "bitMask" .parseBitMask, .ite .errNe (blk [.brk]) (blk [])]),
          (byteOrderToken, blk [.callField "byteOrder" .parseByteOrder, .ite .errNe (blk [.brk]) (blk [])]),
          (calibrationAccessToken, blk [
            .enumField "calibrationAccess" parseCalibrationAccessEnum,
            .ite .errNe (blk [.brk]) (blk [])]),
          (comparisonQuantityToken, blk [
            .callField "comparisonQuantity" .parseComparisonQuantity,
            .ite .errNe (blk [.brk]) (blk [])]),
          (beginDependentCharacteristicToken, blk [
            .callBuf .parseDependentCharacteristic,
            .ite .errNe (blk [.brk]) (blk []),
            .append "dependentCharacteristic" .same]),
          (discreteToken, blk [.callField "discrete" .parseDiscrete, .ite .errNe (blk [.brk]) (blk [])]),
          (displayIdentifierToken, blk [
            .callField "displayIdentifier" .parseDisplayIdentifier,
            .ite .errNe (blk [.brk]) (blk [])]),
          (encodingToken, blk [.enumField "encoding" parseEncodingEnum, .ite .errNe (blk [.brk]) (blk [])]),
          (ecuAddressExtensionToken, blk [
            .callField "ecuAddressExtension" .parseECUAddressExtension,
            .ite .errNe (blk [.brk]) (blk [])]),
          (extendedLimitsToken, blk [
            .callField "extendedLimits" .parseExtendedLimits,
            .ite .errNe (blk [.brk]) (blk [])]),
          (formatToken, blk [.callField "format" .parseFormat, .ite .errNe (blk [.brk]) (blk [])]),
          (beginFunctionListToken, blk [
            .callBuf .parseFunctionList,
            .ite .errNe (blk [.brk]) (blk []),
            .append "functionList" .same]),
          (guardRailsToken, blk [.callField "guardRails" .parseGuardRails, .ite .errNe (blk [.brk]) (blk [])]),
          (beginIfDataToken, blk [
            .callBuf .parseIfData,
            .ite .errNe (blk [.brk]) (blk []),
            .append "ifData" .same]),
          (beginMapListToken, blk [
            .callBuf .parseMapList,
            .ite .errNe (blk [.brk]) (blk []),
            .append "mapList" .same]),
          (matrixDimToken, blk [.callField "MatrixDim" .parseMatrixDim, .ite .errNe (blk [.brk]) (blk [])]),
          (maxRefreshToken, blk [.callField "maxRefresh" .parseMaxRefresh, .ite .errNe (blk [.brk]) (blk [])]),
          (modelLinkToken, blk [.callField "modelLink" .parseModelLink, .ite .errNe (blk [.brk]) (blk [])]),
          (numberToken, blk [.callField "number" .parseNumber, .ite .errNe (blk [.brk]) (blk [])]),
          (physUnitToken, blk [.callField "physUnit" .parsePhysUnit, .ite .errNe (blk [.brk]) (blk [])]),
          (readOnlyToken, blk [.callField "readOnly" .parseReadOnly, .ite .errNe (blk [.brk]) (blk [])]),
          (refMemorySegmentToken, blk [
            .callField "refMemorySegment" .parseRefMemorySegment,
            .ite .errNe (blk [.brk]) (blk [])]),
          (stepSizeToken, blk [.callField "stepSize" .parseStepSize, .ite .errNe (blk [.brk]) (blk [])]),
          (symbolLinkToken, blk [.callField "symbolLink" .parseSymbolLink, .ite .errNe (blk [.brk]) (blk [])]),
          (beginVirtualCharacteristicToken, blk [
            .callBuf .parseVirtualCharacteristic,
            .ite .errNe (blk [.brk]) (blk []),
            .append "virtualCharacteristic" .same])]
        (blk [
          .ite (.curIs emptyToken)
            (blk [.setErr, .brk])
            (blk [
              .ite (.curIs endCharacteristicToken)
                (blk [.brk])
                (blk [
                  .ite .curKw
                    (blk [.setErr, .brk])
                    (blk [
                      .ite (.unset "nameSet")
                        (blk [.storeCur "Name", .setTrue "nameSet"])
                        (blk [
                          .ite (.unset "longIdentifierSet")
                            (blk [.storeCur "LongIdentifier", .setTrue "longIdentifierSet"])
                            (blk [
                              .ite (.unset "TypeSet")
                                (blk [
                                  .enumField "Type" parseTypeEnum,
                                  .ite .errNe (blk [.brk]) (blk []),
                                  .setTrue "TypeSet"])
                                (blk [
                                  .ite (.unset "addressSet")
                                    (blk [.storeCur "Address", .setTrue "addressSet"])
                                    (blk [
                                      .ite (.unset "DepositSet")
                                        (blk [.storeCur "Deposit", .setTrue "DepositSet"])
                                        (blk [
                                          .ite (.unset "maxDiffSet")
                                            (blk [
                                              .conv .float,
                                              .ite .errNe (blk [.brk]) (blk []),
                                              .store "maxDiff" .same,
                                              .setTrue "maxDiffSet"])
                                            (blk [
                                              .ite (.unset "conversionSet")
                                                (blk [
                                                  .storeCur "conversion",
                                                  .setTrue "conversionSet"])
                                                (blk [
                                                  .ite (.unset "lowerLimitSet")
                                                    (blk [
                                                      .conv .float,
                                                      .ite .errNe (blk [.brk]) (blk []),
                                                      .store "lowerLimit" .same,
                                                      .setTrue "lowerLimitSet"])
                                                    (blk [
                                                      .ite (.unset "upperLimitSet")
                                                        (blk [
                                                          .conv .float,
                                                          .ite .errNe (blk [.brk]) (blk []),
                                                          .store "upperLimit" .same,
                                                          .setTrue "upperLimitSet"])
                                                        (blk [])])])])])])])])])])])])])])]

/-- `parseCoeffs`, a2l/coeffs.go:25-103. -/
def parseCoeffs : Stmt :=
  blk [
    .loop (blk [
      .next,
      .ite (.curIs emptyToken)
        (blk [.setErr, .brk])
        (blk [
          .ite .curKw
            (blk [.setErr, .brk])
            (blk [
              .ite (.unset "ASet")
                (blk [
                  .conv .float,
                  .ite .errNe (blk [.brk]) (blk []),
                  .store "A" .same,
                  .setTrue "ASet"])
                (blk [
                  .ite (.unset "BSet")
                    (blk [
                      .conv .float,
                      .ite .errNe (blk [.brk]) (blk []),
                      .store "B" .same,
                      .setTrue "BSet"])
                    (blk [
                      .ite (.unset "CSet")
                        (blk [
                          .conv .float,
                          .ite .errNe (blk [.brk]) (blk []),
                          .store "C" .same,
                          .setTrue "CSet"])
                        (blk [
                          .ite (.unset "DSet")
                            (blk [
                              .conv .float,
                              .ite .errNe (blk [.brk]) (blk []),
                              .store "D" .same,
                              .setTrue "DSet"])
                            (blk [
                              .ite (.unset "ESet")
                                (blk [
                                  .conv .float,
                                  .ite .errNe (blk [.brk]) (blk []),
                                  .store "E" .same,
                                  .setTrue "ESet"])
                                (blk [
                                  .ite (.unset "FSet")
                                    (blk [
                                      .conv .float,
                                      .ite .errNe (blk [.brk]) (blk []),
                                      .store "F" .same,
                                      .setTrue "FSet",
                                      .brk])
                                    (blk [])])])])])])])])])]

/-- `parseCoeffsLinear`, a2l/coeffs_linear.go:17-55. -/
def parseCoeffsLinear : Stmt :=
  blk [
    .loop (blk [
      .next,
      .ite (.curIs emptyToken)
        (blk [.setErr, .brk])
        (blk [
          .ite .curKw
            (blk [.setErr, .brk])
            (blk [
              .ite (.unset "ASet")
                (blk [
                  .conv .float,
                  .ite .errNe (blk [.brk]) (blk []),
                  .store "A" .same,
                  .setTrue "ASet"])
                (blk [
                  .ite (.unset "BSet")
                    (blk [
                      .conv .float,
                      .ite .errNe (blk [.brk]) (blk []),
                      .store "B" .same,
                      .setTrue "BSet",
                      .brk])
                    (blk [])])])])])]

/-- `parseComparisonQuantity`, a2l/comparison_quantity.go:14-30. -/
def parseComparisonQuantity : Stmt :=
  blk [
    .next,
    .ite (.curIs emptyToken)
      (blk [.setErr])
      (blk [
        .ite .curKw
          (blk [.setErr])
          (blk [.ite (.unset "nameSet") (blk [.storeCur "name", .setTrue "nameSet"]) (blk [])])])]

/-- `parseCompuMethod`, a2l/compu_method.go:28-117. -/
def parseCompuMethod : Stmt :=
  blk [
    .loop (blk [
      .next,
      switchRet [
          (coeffsToken, blk [.callField "Coeffs" .parseCoeffs, .ite .errNe (blk [.brk]) (blk [])]),
          (coeffsLinearToken, blk [.callField "CoeffsLinear" .parseCoeffsLinear, .ite .errNe (blk [.brk]) (blk [])]),
          (compuTabRefToken, blk [.callField "CompuTabRef" .parseCompuTabRef, .ite .errNe (blk [.brk]) (blk [])]),
          (beginFormulaToken, blk [
            .callBuf .parseFormula,
            .ite .errNe (blk [.brk]) (blk []),
            .append "Formula" .same]),
          (refUnitToken, blk [.callField "RefUnit" .parseRefUnit, .ite .errNe (blk [.brk]) (blk [])]),
          (statusStringRefToken, blk [
            .callField "StatusStringRef" .parseStatusStringRef,
            .ite .errNe (blk [.brk]) (blk [])])]
        (blk [
          .ite (.curIs emptyToken)
            (blk [.setErr, .brk])
            (blk [
              .ite (.curIs endCompuMethodToken)
                (blk [.brk])
                (blk [
                  .ite .curKw
                    (blk [.setErr, .brk])
                    (blk [
                      .ite (.unset "NameSet")
                        (blk [.storeCur "Name", .setTrue "NameSet"])
                        (blk [
                          .ite (.unset "LongIdentifierSet")
                            (blk [.storeCur "LongIdentifier", .setTrue "LongIdentifierSet"])
                            (blk [
                              .ite (.unset "ConversionTypeSet")
                                (blk [
                                  .enumField "ConversionType" parseConversionTypeEnum,
                                  .ite .errNe (blk [.brk]) (blk []),
                                  .setTrue "ConversionTypeSet"])
                                (blk [
                                  .ite (.unset "FormatSet")
                                    (blk [.storeCur "Format", .setTrue "FormatSet"])
                                    (blk [
                                      .ite (.unset "UnitSet")
                                        (blk [.storeCur "Unit", .setTrue "UnitSet"])
                                        (blk [])])])])])])])])])])]

/-- `parseCompuTab`, a2l/compu_tab.go:27-111. -/
def parseCompuTab : Stmt :=
  blk [
    .loop (blk [
      .next,
      switchRet [
          (defaultValueToken, blk [.callField "DefaultValue" .parseDefaultValue, .ite .errNe (blk [.brk]) (blk [])]),
          (defaultValueNumericToken, blk [
            .callField "DefaultValueNumeric" .parseDefaultValueNumeric,
            .ite .errNe (blk [.brk]) (blk [])])]
        (blk [
          .ite (.curIs emptyToken)
            (blk [.setErr, .brk])
            (blk [
              .ite (.curIs endCompuTabToken)
                (blk [.brk])
                (blk [
                  .ite .curKw
                    (blk [.setErr, .brk])
                    (blk [
                      .ite (.unset "NameSet")
                        (blk [.storeCur "Name", .setTrue "NameSet"])
                        (blk [
                          .ite (.unset "longIdentifierSet")
                            (blk [.storeCur "longIdentifier", .setTrue "longIdentifierSet"])
                            (blk [
                              .ite (.unset "ConversionTypeSet")
                                (blk [
                                  .enumField "ConversionType" parseConversionTypeEnum,
                                  .ite .errNe (blk [.brk]) (blk []),
                                  .setTrue "ConversionTypeSet"])
                                (blk [
                                  .ite (.unset "NumberValuePairsSet")
                                    (blk [
                                      .conv (.uint 16),
                                      .ite .errNe (blk [.brk]) (blk []),
                                      .store "NumberValuePairs" (.uint 16),
                                      .setTrue "NumberValuePairsSet"])
                                    (blk [
                                      .ite (.or (.unset "InValSet") (.unset "OutValSet"))
                                        (blk [
                                          .conv .float,
                                          .ite .errNe (blk [.brk]) (blk []),
                                          .append "InVal" .same,
                                          .ite (.len16Is "InVal" "NumberValuePairs")
                                            (blk [.setTrue "InValSet"])
                                            (blk []),
                                          .next,
                                          .convRet .float,
                                          .ite .errNe (blk [.brk]) (blk []),
                                          .append "OutVal" .same,
                                          .ite (.len16Is "OutVal" "NumberValuePairs")
                                            (blk [.setTrue "OutValSet"])
                                            (blk [])])
                                        (blk [])])])])])])])])])])]

/-- `parseCompuTabRef`, a2l/compu_tab_ref.go:14-29. -/
def parseCompuTabRef : Stmt :=
  blk [
    .next,
    .ite (.curIs emptyToken)
      (blk [.setErr])
      (blk [
        .ite .curKw
          (blk [.setErr])
          (blk [
            .ite (.unset "ConversionTableSet")
              (blk [.storeCur "ConversionTable", .setTrue "ConversionTableSet"])
              (blk [])])])]

/-- `parseCompuVtab`, a2l/compu_vtab.go:26-98. -/
def parseCompuVtab : Stmt :=
  blk [
    .loop (blk [
      .next,
      switchRet [
          (defaultValueToken, blk [.callField "DefaultValue" .parseDefaultValue, .ite .errNe (blk [.brk]) (blk [])])]
        (blk [
          .ite (.curIs emptyToken)
            (blk [.setErr, .brk])
            (blk [
              .ite (.curIs endCompuVtabToken)
                (blk [.brk])
                (blk [
                  .ite .curKw
                    (blk [.setErr, .brk])
                    (blk [
                      .ite (.unset "NameSet")
                        (blk [.storeCur "Name", .setTrue "NameSet"])
                        (blk [
                          .ite (.unset "LongIdentifierSet")
                            (blk [.storeCur "LongIdentifier", .setTrue "LongIdentifierSet"])
                            (blk [
                              .ite (.unset "ConversionTypeSet")
                                (blk [
                                  .enumField "ConversionType" parseConversionTypeEnum,
                                  .ite .errNe (blk [.brk]) (blk []),
                                  .setTrue "ConversionTypeSet"])
                                (blk [
                                  .ite (.unset "NumberValuePairsSet")
                                    (blk [
                                      .conv (.uint 16),
                                      .ite .errNe (blk [.brk]) (blk []),
                                      .store "NumberValuePairs" (.uint 16),
                                      .setTrue "NumberValuePairsSet"])
                                    (blk [
                                      .ite (.or (.unset "InValSet") (.unset "OutValSet"))
                                        (blk [
                                          .conv .float,
                                          .ite .errNe (blk [.brk]) (blk []),
                                          .append "InVal" .same,
                                          .ite (.len16Is "InVal" "NumberValuePairs")
                                            (blk [.setTrue "InValSet"])
                                            (blk []),
                                          .next,
                                          .appendCur "OutVal",
                                          .ite (.len16Is "OutVal" "NumberValuePairs")
                                            (blk [.setTrue "OutValSet"])
                                            (blk [])])
                                        (blk [])])])])])])])])])])]

/-- `parseCompuVtabRange`, a2l/compu_vtab_range.go:26-103. -/
def parseCompuVtabRange : Stmt :=
  blk [
    .loop (blk [
      .next,
      switchRet [
          (defaultValueToken, blk [.callField "DefaultValue" .parseDefaultValue, .ite .errNe (blk [.brk]) (blk [])])]
        (blk [
          .ite (.curIs emptyToken)
            (blk [.setErr, .brk])
            (blk [
              .ite (.curIs endCompuVtabRangeToken)
                (blk [.brk])
                (blk [
                  .ite .curKw
                    (blk [.setErr, .brk])
                    (blk [
                      .ite (.unset "NameSet")
                        (blk [.storeCur "Name", .setTrue "NameSet"])
                        (blk [
                          .ite (.unset "LongIdentifierSet")
                            (blk [.storeCur "LongIdentifier", .setTrue "LongIdentifierSet"])
                            (blk [
                              .ite (.unset "NumberValueTriplesSet")
                                (blk [
                                  .conv (.uint 16),
                                  .ite .errNe (blk [.brk]) (blk []),
                                  .store "NumberValueTriples" (.uint 16),
                                  .setTrue "NumberValueTriplesSet"])
                                (blk [
                                  .ite (.or (.unset "InValMinSet") (.or (.unset "InValMaxSet") (.unset "OutValSet")))
                                    (blk [
                                      .conv .float,
                                      .ite .errNe (blk [.brk]) (blk []),
                                      .append "InValMin" .same,
                                      .ite (.len16Is "InValMin" "NumberValueTriples")
                                        (blk [.setTrue "InValMinSet"])
                                        (blk []),
                                      .next,
                                      .conv .float,
                                      .ite .errNe (blk [.brk]) (blk []),
                                      .append "InValMax" .same,
                                      .ite (.len16Is "InValMax" "NumberValueTriples")
                                        (blk [.setTrue "InValMaxSet"])
                                        (blk []),
                                      .next,
                                      .appendCur "OutVal",
                                      .ite (.len16Is "OutVal" "NumberValueTriples")
                                        (blk [.setTrue "OutValSet"])
                                        (blk [])])
                                    (blk [])])])])])])])])])]

/-- `parseConsistentExchangeKeyword`, a2l/consistent_exchange.go:10-19. -/
def parseConsistentExchangeKeyword : Stmt :=
  blk [.ite (.unset "valueSet") (blk [.setTrue "value", .setTrue "valueSet"]) (blk [])]

/-- `parseCpuType`, a2l/cpu_type.go:14-30. -/
def parseCpuType : Stmt :=
  blk [
    .next,
    .ite (.curIs emptyToken)
      (blk [.setErr])
      (blk [
        .ite .curKw
          (blk [.setErr])
          (blk [.ite (.unset "cpuSet") (blk [.storeCur "cpu", .setTrue "cpuSet"]) (blk [])])])]

/-- `parseCurveAxisRef`, a2l/curve_axis_ref.go:14-30. -/
def parseCurveAxisRef : Stmt :=
  blk [
    .next,
    .ite (.curIs emptyToken)
      (blk [.setErr])
      (blk [
        .ite .curKw
          (blk [.setErr])
          (blk [
            .ite (.unset "curveAxisSet")
              (blk [.storeCur "curveAxis", .setTrue "curveAxisSet"])
              (blk [])])])]

/-- `parseCustomer`, a2l/customer.go:14-30. -/
def parseCustomer : Stmt :=
  blk [
    .next,
    .ite (.curIs emptyToken)
      (blk [.setErr])
      (blk [
        .ite .curKw
          (blk [.setErr])
          (blk [
            .ite (.unset "customerSet")
              (blk [.storeCur "customer", .setTrue "customerSet"])
              (blk [])])])]

/-- `parseCustomerNo`, a2l/customer_no.go:14-30. -/
def parseCustomerNo : Stmt :=
  blk [
    .next,
    .ite (.curIs emptyToken)
      (blk [.setErr])
      (blk [
        .ite .curKw
          (blk [.setErr])
          (blk [
            .ite (.unset "numberSet") (blk [.storeCur "number", .setTrue "numberSet"]) (blk [])])])]

/-- `parseDataSize`, a2l/data_size.go:15-36. -/
def parseDataSize : Stmt :=
  blk [
    .next,
    .ite (.curIs emptyToken)
      (blk [.setErr])
      (blk [
        .ite .curKw
          (blk [.setErr])
          (blk [
            .ite (.unset "sizeSet")
              (blk [
                .conv (.uint 16),
                .ite .errNe (blk []) (blk []),
                .store "size" (.uint 16),
                .setTrue "sizeSet"])
              (blk [])])])]

/-- `parseDefCharacteristic`, a2l/def_characteristic.go:14-37. -/
def parseDefCharacteristic : Stmt :=
  blk [
    .loop (blk [
      .next,
      .ite (.curIs emptyToken)
        (blk [.setErr, .brk])
        (blk [
          .ite (.curIs endDefCharacteristicToken)
            (blk [.setTrue "identifierSet", .brk])
            (blk [
              .ite .curKw
                (blk [.setErr, .brk])
                (blk [.ite (.unset "identifierSet") (blk [.appendCur "identifier"]) (blk [])])])])])]

/-- `parseDefaultValue`, a2l/default_value.go:14-30. -/
def parseDefaultValue : Stmt :=
  blk [
    .next,
    .ite (.curIs emptyToken)
      (blk [.setErr])
      (blk [
        .ite .curKw
          (blk [.setErr])
          (blk [
            .ite (.unset "DisplayStringSet")
              (blk [.storeCur "DisplayString", .setTrue "DisplayStringSet"])
              (blk [])])])]

/-- `parseDefaultValueNumeric`, a2l/default_value_numeric.go:15-36. -/
def parseDefaultValueNumeric : Stmt :=
  blk [
    .next,
    .ite (.curIs emptyToken)
      (blk [.setErr])
      (blk [
        .ite .curKw
          (blk [.setErr])
          (blk [
            .ite (.unset "DisplayValueSet")
              (blk [
                .conv .float,
                .ite .errNe (blk []) (blk []),
                .store "DisplayValue" .same,
                .setTrue "DisplayValueSet"])
              (blk [])])])]

/-- `parseDependentCharacteristic`, a2l/dependent_characteristic.go:16-44. -/
def parseDependentCharacteristic : Stmt :=
  blk [
    .loop (blk [
      .next,
      .ite (.curIs emptyToken)
        (blk [.setErr, .brk])
        (blk [
          .ite (.curIs endDependentCharacteristicToken)
            (blk [.setTrue "characteristicSet", .brk])
            (blk [
              .ite .curKw
                (blk [.setErr, .brk])
                (blk [
                  .ite (.unset "formulaSet")
                    (blk [.storeCur "formula", .setTrue "formulaSet"])
                    (blk [
                      .ite (.unset "characteristicSet")
                        (blk [.appendCur "characteristic"])
                        (blk [])])])])])])]

/-- `parseDeposit`, a2l/deposit.go:14-33. -/
def parseDeposit : Stmt :=
  blk [
    .next,
    .ite (.curIs emptyToken)
      (blk [.setErr])
      (blk [
        .ite .curKw
          (blk [.setErr])
          (blk [
            .ite (.unset "modeSet")
              (blk [
                .enumField "mode" parseModeEnum,
                .ite .errNe (blk []) (blk []),
                .setTrue "modeSet"])
              (blk [])])])]

/-- `parseDiscrete`, a2l/discrete.go:10-19. -/
def parseDiscrete : Stmt :=
  blk [.ite (.unset "valueSet") (blk [.setTrue "value", .setTrue "valueSet"]) (blk [])]

/-- `parseDisplayIdentifier`, a2l/display_identifier.go:14-30. -/
def parseDisplayIdentifier : Stmt :=
  blk [
    .next,
    .ite (.curIs emptyToken)
      (blk [.setErr])
      (blk [
        .ite .curKw
          (blk [.setErr])
          (blk [
            .ite (.unset "displayNameSet")
              (blk [.storeCur "displayName", .setTrue "displayNameSet"])
              (blk [])])])]

/-- `parseDistOp4`, a2l/dist_op_4.go:36-72. -/
def parseDistOp4 : Stmt :=
  blk [
    .loop (blk [
      .next,
      .ite (.curIs emptyToken)
        (blk [.setErr, .brk])
        (blk [
          .ite .curKw
            (blk [.setErr, .brk])
            (blk [
              .ite (.unset "PositionSet")
                (blk [
                  .conv (.uint 16),
                  .ite .errNe (blk [.brk]) (blk []),
                  .store "Position" (.uint 16),
                  .setTrue "PositionSet"])
                (blk [
                  .ite (.unset "DatatypeSet")
                    (blk [
                      .enumField "Datatype" parseDataTypeEnum,
                      .ite .errNe (blk [.brk]) (blk []),
                      .setTrue "DatatypeSet",
                      .brk])
                    (blk [])])])])])]

/-- `parseDistOp5`, a2l/dist_op_5.go:36-72. -/
def parseDistOp5 : Stmt :=
  blk [
    .loop (blk [
      .next,
      .ite (.curIs emptyToken)
        (blk [.setErr, .brk])
        (blk [
          .ite .curKw
            (blk [.setErr, .brk])
            (blk [
              .ite (.unset "PositionSet")
                (blk [
                  .conv (.uint 16),
                  .ite .errNe (blk [.brk]) (blk []),
                  .store "Position" (.uint 16),
                  .setTrue "PositionSet"])
                (blk [
                  .ite (.unset "DatatypeSet")
                    (blk [
                      .enumField "Datatype" parseDataTypeEnum,
                      .ite .errNe (blk [.brk]) (blk []),
                      .setTrue "DatatypeSet",
                      .brk])
                    (blk [])])])])])]

/-- `parseDistOpX`, a2l/dist_op_x.go:36-72. -/
def parseDistOpX : Stmt :=
  blk [
    .loop (blk [
      .next,
      .ite (.curIs emptyToken)
        (blk [.setErr, .brk])
        (blk [
          .ite .curKw
            (blk [.setErr, .brk])
            (blk [
              .ite (.unset "PositionSet")
                (blk [
                  .conv (.uint 16),
                  .ite .errNe (blk [.brk]) (blk []),
                  .store "Position" (.uint 16),
                  .setTrue "PositionSet"])
                (blk [
                  .ite (.unset "DatatypeSet")
                    (blk [
                      .enumField "Datatype" parseDataTypeEnum,
                      .ite .errNe (blk [.brk]) (blk []),
                      .setTrue "DatatypeSet",
                      .brk])
                    (blk [])])])])])]

/-- `parseDistOpY`, a2l/dist_op_y.go:36-72. -/
def parseDistOpY : Stmt :=
  blk [
    .loop (blk [
      .next,
      .ite (.curIs emptyToken)
        (blk [.setErr, .brk])
        (blk [
          .ite .curKw
            (blk [.setErr, .brk])
            (blk [
              .ite (.unset "PositionSet")
                (blk [
                  .conv (.uint 16),
                  .ite .errNe (blk [.brk]) (blk []),
                  .store "Position" (.uint 16),
                  .setTrue "PositionSet"])
                (blk [
                  .ite (.unset "DatatypeSet")
                    (blk [
                      .enumField "Datatype" parseDataTypeEnum,
                      .ite .errNe (blk [.brk]) (blk []),
                      .setTrue "DatatypeSet",
                      .brk])
                    (blk [])])])])])]

/-- `parseDistOpZ`, a2l/dist_op_z.go:36-72. -/
def parseDistOpZ : Stmt :=
  blk [
    .loop (blk [
      .next,
      .ite (.curIs emptyToken)
        (blk [.setErr, .brk])
        (blk [
          .ite .curKw
            (blk [.setErr, .brk])
            (blk [
              .ite (.unset "PositionSet")
                (blk [
                  .conv (.uint 16),
                  .ite .errNe (blk [.brk]) (blk []),
                  .store "Position" (.uint 16),
                  .setTrue "PositionSet"])
                (blk [
                  .ite (.unset "DatatypeSet")
                    (blk [
                      .enumField "Datatype" parseDataTypeEnum,
                      .ite .errNe (blk [.brk]) (blk []),
                      .setTrue "DatatypeSet",
                      .brk])
                    (blk [])])])])])]

/-- `parseEcu`, a2l/ecu.go:14-30. -/
def parseEcu : Stmt :=
  blk [
    .next,
    .ite (.curIs emptyToken)
      (blk [.setErr])
      (blk [
        .ite .curKw
          (blk [.setErr])
          (blk [
            .ite (.unset "controlUnitSet")
              (blk [.storeCur "controlUnit", .setTrue "controlUnitSet"])
              (blk [])])])]

/-- `parseEcuAddress`, a2l/ecu_address.go:14-30. -/
def parseEcuAddress : Stmt :=
  blk [
    .next,
    .ite (.curIs emptyToken)
      (blk [.setErr])
      (blk [
        .ite .curKw
          (blk [.setErr])
          (blk [
            .ite (.unset "addressSet")
              (blk [.storeCur "address", .setTrue "addressSet"])
              (blk [])])])]

/-- `parseECUAddressExtension`, a2l/ecu_address_extension.go:25-46. -/
def parseECUAddressExtension : Stmt :=
  blk [
    .next,
    .ite (.curIs emptyToken)
      (blk [.setErr])
      (blk [
        .ite .curKw
          (blk [.setErr])
          (blk [
            .ite (.unset "extensionSet")
              (blk [
                .conv (.int 16),
                .ite .errNe (blk []) (blk []),
                .store "extension" (.int 16),
                .setTrue "extensionSet"])
              (blk [])])])]

/-- `parseEcuCalibrationOffset`, a2l/ecu_calibration_offset.go:24-40. -/
def parseEcuCalibrationOffset : Stmt :=
  blk [
    .next,
    .ite (.curIs emptyToken)
      (blk [.setErr])
      (blk [
        .ite .curKw
          (blk [.setErr])
          (blk [
            .ite (.unset "offsetSet") (blk [.storeCur "offset", .setTrue "offsetSet"]) (blk [])])])]

/-- `parseEpk`, a2l/epk.go:14-30. -/
def parseEpk : Stmt :=
  blk [
    .next,
    .ite (.curIs emptyToken)
      (blk [.setErr])
      (blk [
        .ite .curKw
          (blk [.setErr])
          (blk [
            .ite (.unset "identifierSet")
              (blk [.storeCur "identifier", .setTrue "identifierSet"])
              (blk [])])])]

/-- `parseErrorMask`, a2l/error_mask.go:14-30. -/
def parseErrorMask : Stmt :=
  blk [
    .next,
    .ite (.curIs emptyToken)
      (blk [.setErr])
      (blk [
        .ite .curKw
          (blk [.setErr])
          (blk [.ite (.unset "maskSet") (blk [.storeCur "mask", .setTrue "maskSet"]) (blk [])])])]

/-- `parseExtendedLimits`, a2l/extended_limits.go:17-55. -/
def parseExtendedLimits : Stmt :=
  blk [
    .loop (blk [
      .next,
      .ite (.curIs emptyToken)
        (blk [.setErr, .brk])
        (blk [
          .ite .curKw
            (blk [.setErr, .brk])
            (blk [
              .ite (.unset "lowerLimitSet")
                (blk [
                  .conv .float,
                  .ite .errNe (blk [.brk]) (blk []),
                  .store "lowerLimit" .same,
                  .setTrue "lowerLimitSet"])
                (blk [
                  .ite (.unset "upperLimitSet")
                    (blk [
                      .conv .float,
                      .ite .errNe (blk [.brk]) (blk []),
                      .store "upperLimit" .same,
                      .setTrue "upperLimitSet",
                      .brk])
                    (blk [])])])])])]

/-- `parseFixAxisPar`, a2l/fix_axis_par.go:19-67. -/
def parseFixAxisPar : Stmt :=
  blk [
    .loop (blk [
      .next,
      .ite (.curIs emptyToken)
        (blk [.setErr, .brk])
        (blk [
          .ite .curKw
            (blk [.setErr, .brk])
            (blk [
              .ite (.unset "offsetSet")
                (blk [
                  .conv (.int 16),
                  .ite .errNe (blk [.brk]) (blk []),
                  .store "offset" (.int 16),
                  .setTrue "offsetSet"])
                (blk [
                  .ite (.unset "shiftSet")
                    (blk [
                      .conv (.int 16),
                      .ite .errNe (blk [.brk]) (blk []),
                      .store "shift" (.int 16),
                      .setTrue "shiftSet"])
                    (blk [
                      .ite (.unset "numberapoSet")
                        (blk [
                          .conv (.uint 16),
                          .ite .errNe (blk [.brk]) (blk []),
                          .store "numberapo" (.uint 16),
                          .setTrue "numberapoSet",
                          .brk])
                        (blk [])])])])])])]

/-- `parseFixAxisParDist`, a2l/fix_axis_par_dist.go:19-67. -/
def parseFixAxisParDist : Stmt :=
  blk [
    .loop (blk [
      .next,
      .ite (.curIs emptyToken)
        (blk [.setErr, .brk])
        (blk [
          .ite .curKw
            (blk [.setErr, .brk])
            (blk [
              .ite (.unset "offsetSet")
                (blk [
                  .conv (.int 16),
                  .ite .errNe (blk [.brk]) (blk []),
                  .store "offset" (.int 16),
                  .setTrue "offsetSet"])
                (blk [
                  .ite (.unset "distanceSet")
                    (blk [
                      .conv (.int 16),
                      .ite .errNe (blk [.brk]) (blk []),
                      .store "distance" (.int 16),
                      .setTrue "distanceSet"])
                    (blk [
                      .ite (.unset "numberapoSet")
                        (blk [
                          .conv (.uint 16),
                          .ite .errNe (blk [.brk]) (blk []),
                          .store "numberapo" (.uint 16),
                          .setTrue "numberapoSet",
                          .brk])
                        (blk [])])])])])])]

/-- `parseFixAxisParList`, a2l/fix_axis_par_list.go:15-44. -/
def parseFixAxisParList : Stmt :=
  blk [
    .loop (blk [
      .next,
      .ite (.curIs emptyToken)
        (blk [.setErr, .brk])
        (blk [
          .ite (.curIs endFixAxisParListToken)
            (blk [.setTrue "axisPtsValueSet", .brk])
            (blk [
              .ite .curKw
                (blk [.setErr, .brk])
                (blk [
                  .ite (.unset "axisPtsValueSet")
                    (blk [
                      .conv .float,
                      .ite .errNe (blk [.brk]) (blk []),
                      .append "axisPtsValue" .same])
                    (blk [])])])])])]

/-- `parseFixNoAxisPts4`, a2l/fix_no_axis_pts_4.go:15-36. -/
def parseFixNoAxisPts4 : Stmt :=
  blk [
    .next,
    .ite (.curIs emptyToken)
      (blk [.setErr])
      (blk [
        .ite .curKw
          (blk [.setErr])
          (blk [
            .ite (.unset "NumberOfAxisPointsSet")
              (blk [
                .conv (.uint 16),
                .ite .errNe (blk []) (blk []),
                .store "NumberOfAxisPoints" (.uint 16),
                .setTrue "NumberOfAxisPointsSet"])
              (blk [])])])]

/-- `parseFixNoAxisPts5`, a2l/fix_no_axis_pts_5.go:15-36. -/
def parseFixNoAxisPts5 : Stmt :=
  blk [
    .next,
    .ite (.curIs emptyToken)
      (blk [.setErr])
      (blk [
        .ite .curKw
          (blk [.setErr])
          (blk [
            .ite (.unset "NumberOfAxisPointsSet")
              (blk [
                .conv (.uint 16),
                .ite .errNe (blk []) (blk []),
                .store "NumberOfAxisPoints" (.uint 16),
                .setTrue "NumberOfAxisPointsSet"])
              (blk [])])])]

/-- `parseFixNoAxisPtsX`, a2l/fix_no_axis_pts_x.go:15-36. -/
def parseFixNoAxisPtsX : Stmt :=
  blk [
    .next,
    .ite (.curIs emptyToken)
      (blk [.setErr])
      (blk [
        .ite .curKw
          (blk [.setErr])
          (blk [
            .ite (.unset "NumberOfAxisPointsSet")
              (blk [
                .conv (.uint 16),
                .ite .errNe (blk []) (blk []),
                .store "NumberOfAxisPoints" (.uint 16),
                .setTrue "NumberOfAxisPointsSet"])
              (blk [])])])]

/-- `parseFixNoAxisPtsY`, a2l/fix_no_axis_pts_y.go:15-36. -/
def parseFixNoAxisPtsY : Stmt :=
  blk [
    .next,
    .ite (.curIs emptyToken)
      (blk [.setErr])
      (blk [
        .ite .curKw
          (blk [.setErr])
          (blk [
            .ite (.unset "NumberOfAxisPointsSet")
              (blk [
                .conv (.uint 16),
                .ite .errNe (blk []) (blk []),
                .store "NumberOfAxisPoints" (.uint 16),
                .setTrue "NumberOfAxisPointsSet"])
              (blk [])])])]

/-- `parseFixNoAxisPtsZ`, a2l/fix_no_axis_pts_z.go:15-36. -/
def parseFixNoAxisPtsZ : Stmt :=
  blk [
    .next,
    .ite (.curIs emptyToken)
      (blk [.setErr])
      (blk [
        .ite .curKw
          (blk [.setErr])
          (blk [
            .ite (.unset "NumberOfAxisPointsSet")
              (blk [
                .conv (.uint 16),
                .ite .errNe (blk []) (blk []),
                .store "NumberOfAxisPoints" (.uint 16),
                .setTrue "NumberOfAxisPointsSet"])
              (blk [])])])]

/-- `parseFncValues`, a2l/fnc_values.go:40-92. -/
def parseFncValues : Stmt :=
  blk [
    .loop (blk [
      .next,
      .ite (.curIs emptyToken)
        (blk [.setErr, .brk])
        (blk [
          .ite .curKw
            (blk [.setErr, .brk])
            (blk [
              .ite (.unset "PositionSet")
                (blk [
                  .conv (.uint 16),
                  .ite .errNe (blk [.brk]) (blk []),
                  .store "Position" (.uint 16),
                  .setTrue "PositionSet"])
                (blk [
                  .ite (.unset "DatatypeSet")
                    (blk [
                      .enumField "Datatype" parseDataTypeEnum,
                      .ite .errNe (blk [.brk]) (blk []),
                      .setTrue "DatatypeSet"])
                    (blk [
                      .ite (.unset "IndexModeSet")
                        (blk [
                          .enumField "IndexMode" parseIndexModeEnum,
                          .ite .errNe (blk [.brk]) (blk []),
                          .setTrue "IndexModeSet"])
                        (blk [
                          .ite (.unset "AddresstypeSet")
                            (blk [
                              .enumField "Addresstype" parseAddrTypeEnum,
                              .ite .errNe (blk [.brk]) (blk []),
                              .setTrue "AddresstypeSet",
                              .brk])
                            (blk [])])])])])])])]

/-- `parseFormat`, a2l/format.go:14-30. -/
def parseFormat : Stmt :=
  blk [
    .next,
    .ite (.curIs emptyToken)
      (blk [.setErr])
      (blk [
        .ite .curKw
          (blk [.setErr])
          (blk [
            .ite (.unset "formatStringSet")
              (blk [.storeCur "formatString", .setTrue "formatStringSet"])
              (blk [])])])]

/-- `parseFormula`, a2l/formula.go:15-47. -/
def parseFormula : Stmt :=
  blk [
    .loop (blk [
      .next,
      switchRet [
          (formulaInvToken, blk [.callField "formulaInv" .parseFormulaInv, .ite .errNe (blk [.brk]) (blk [])])]
        (blk [
          .ite (.curIs emptyToken)
            (blk [.setErr, .brk])
            (blk [
              .ite (.curIs endFormulaToken)
                (blk [.setTrue "fxSet", .brk])
                (blk [
                  .ite .curKw
                    (blk [.setErr, .brk])
                    (blk [.ite (.unset "fxSet") (blk [.appendCur "fx"]) (blk [])])])])])])]

/-- `parseFormulaInv`, a2l/formula_inv.go:14-30. -/
def parseFormulaInv : Stmt :=
  blk [
    .next,
    .ite (.curIs emptyToken)
      (blk [.setErr])
      (blk [
        .ite .curKw
          (blk [.setErr])
          (blk [.ite (.unset "gxSet") (blk [.storeCur "gx", .setTrue "gxSet"]) (blk [])])])]

/-- `parseFrame`, a2l/frame.go:23-76. -/
def parseFrame : Stmt :=
  blk [
    .loop (blk [
      .next,
      switchRet [
          (frameMeasurementToken, blk [
            .callField "frameMeasurement" .parseFrameMeasurement,
            .ite .errNe (blk [.brk]) (blk [])]),
          (beginIfDataToken, blk [
            .callBuf .parseIfData,
            .ite .errNe (blk [.brk]) (blk []),
            .append "ifData" .same])]
        (blk [
          .ite (.curIs emptyToken)
            (blk [.brk])
            (blk [
              .ite (.curIs endFrameToken)
                (blk [.brk])
                (blk [
                  .ite .curKw
                    (blk [.setErr, .brk])
                    (blk [
                      .ite (.unset "nameSet")
                        (blk [.storeCur "name"])
                        (blk [
                          .ite (.unset "longIdentifierSet")
                            (blk [.storeCur "longIdentifier"])
                            (blk [
                              .ite (.unset "scalingUnitSet")
                                (blk [
                                  .conv (.uint 16),
                                  .ite .errNe (blk [.brk]) (blk []),
                                  .store "scalingUnit" (.uint 16)])
                                (blk [
                                  .ite (.unset "rateSet")
                                    (blk [
                                      .conv (.uint 32),
                                      .ite .errNe (blk [.brk]) (blk []),
                                      .store "rate" (.uint 32)])
                                    (blk [])])])])])])])])])]

/-- `parseFrameMeasurement`, a2l/frame_measurement.go:14-41. -/
def parseFrameMeasurement : Stmt :=
  blk [
    .loop (blk [
      .next,
      .ite (.curIs emptyToken)
        (blk [.setErr, .brk])
        (blk [
          .ite (.or (.curIs endFrameToken) (.curIs beginIfDataToken))
            (blk [.setTrue "identifierSet", .prev, .brk])
            (blk [
              .ite .curKw
                (blk [.setErr, .brk])
                (blk [.ite (.unset "identifierSet") (blk [.appendCur "identifier"]) (blk [])])])])])]

/-- `parseFunction`, a2l/function.go:26-128. -/
def parseFunction : Stmt :=
  blk [
    .loop (blk [
      .next,
      switchRet [
          (beginAnnotationToken, blk [
            .callBuf .parseAnnotation,
            .ite .errNe (blk [.brk]) (blk []),
            .append "annotation" .same]),
          (beginArComponentToken, blk [.callField "arComponent" .parseArComponent, .ite .errNe (blk [.brk]) (blk [])]),
          (beginDefCharacteristicToken, blk [
            .callField "defCharacteristic" .parseDefCharacteristic,
            .ite .errNe (blk [.brk]) (blk [])]),
          (functionVersionToken, blk [
            .callField "functionVersion" .parseFunctionVersion,
            .ite .errNe (blk [.brk]) (blk [])]),
          (beginIfDataToken, blk [
            .callBuf .parseIfData,
            .ite .errNe (blk [.brk]) (blk []),
            .append "ifData" .same]),
          (beginInMeasurementToken, blk [
            .callField "inMeasurement" .parseInMeasurement,
            .ite .errNe (blk [.brk]) (blk [])]),
          (beginLocMeasurementToken, blk [
            .callField "locMeasurement" .parseLocMeasurement,
            .ite .errNe (blk [.brk]) (blk [])]),
          (beginOutMeasurementToken, blk [
            .callField "outMeasurement" .parseOutMeasurement,
            .ite .errNe (blk [.brk]) (blk [])]),
          (beginRefCharacteristicToken, blk [
            .callField "refCharacteristic" .parseRefCharacteristic,
            .ite .errNe (blk [.brk]) (blk [])]),
          (beginSubFunctionToken, blk [.callField "subFunction" .parseSubFunction, .ite .errNe (blk [.brk]) (blk [])])]
        (blk [
          .ite (.curIs emptyToken)
            (blk [.setErr, .brk])
            (blk [
              .ite (.curIs endFunctionToken)
                (blk [.brk])
                (blk [
                  .ite .curKw
                    (blk [.setErr, .brk])
                    (blk [
                      .ite (.unset "nameSet")
                        (blk [.storeCur "name", .setTrue "nameSet"])
                        (blk [
                          .ite (.unset "longIdentifierSet")
                            (blk [.storeCur "longIdentifier", .setTrue "longIdentifierSet"])
                            (blk [])])])])])])])]

/-- `parseFunctionList`, a2l/function_list.go:14-37. -/
def parseFunctionList : Stmt :=
  blk [
    .loop (blk [
      .next,
      .ite (.curIs emptyToken)
        (blk [.setErr, .brk])
        (blk [
          .ite (.curIs endFunctionListToken)
            (blk [.setTrue "nameSet", .brk])
            (blk [
              .ite .curKw
                (blk [.setErr, .brk])
                (blk [.ite (.unset "nameSet") (blk [.appendCur "name"]) (blk [])])])])])]

/-- `parseFunctionVersion`, a2l/function_version.go:14-30. -/
def parseFunctionVersion : Stmt :=
  blk [
    .next,
    .ite (.curIs emptyToken)
      (blk [.setErr])
      (blk [
        .ite .curKw
          (blk [.setErr])
          (blk [
            .ite (.unset "versionIdentifierSet")
              (blk [.storeCur "versionIdentifier", .setTrue "versionIdentifierSet"])
              (blk [])])])]

/-- `parseGroup`, a2l/group.go:23-105. -/
def parseGroup : Stmt :=
  blk [
    .loop (blk [
      .next,
      switchRet [
          (beginAnnotationToken, blk [
            .callBuf .parseAnnotation,
            .ite .errNe (blk [.brk]) (blk []),
            .append "annotation" .same]),
          (beginFunctionListToken, blk [.callField "functionList" .parseFunctionList, .ite .errNe (blk [.brk]) (blk [])]),
          (beginIfDataToken, blk [
            .callBuf .parseIfData,
            .ite .errNe (blk [.brk]) (blk []),
            .append "ifData" .same]),
          (beginRefCharacteristicToken, blk [
            .callField "refCharacteristic" .parseRefCharacteristic,
            .ite .errNe (blk [.brk]) (blk [])]),
          (beginRefMeasurementToken, blk [
            .callField "refMeasurement" .parseRefMeasurement,
            .ite .errNe (blk [.brk]) (blk [])]),
          (rootToken, blk [.callField "root" .parseRoot, .ite .errNe (blk [.brk]) (blk [])]),
          (beginSubGroupToken, blk [.callField "subGroup" .parseSubGroup, .ite .errNe (blk [.brk]) (blk [])])]
        (blk [
          .ite (.curIs emptyToken)
            (blk [.setErr, .brk])
            (blk [
              .ite (.curIs endGroupToken)
                (blk [.brk])
                (blk [
                  .ite .curKw
                    (blk [.setErr, .brk])
                    (blk [
                      .ite (.unset "groupNameSet")
                        (blk [.storeCur "groupName", .setTrue "groupNameSet"])
                        (blk [
                          .ite (.unset "groupLongIdentifierSet")
                            (blk [
                              .storeCur "groupLongIdentifier",
                              .setTrue "groupLongIdentifierSet"])
                            (blk [])])])])])])])]

/-- `parseGuardRails`, a2l/guard_rails.go:14-26. -/
def parseGuardRails : Stmt :=
  blk [
    .ite (.curIs emptyToken)
      (blk [.setErr])
      (blk [.ite (.unset "valueSet") (blk [.setTrue "value", .setTrue "valueSet"]) (blk [])])]

/-- `parseHeader`, a2l/header.go:16-55. -/
def parseHeader : Stmt :=
  blk [
    .loop (blk [
      .next,
      switchRet [
          (projectNoToken, blk [.callField "projectNo" .parseProjectNo, .ite .errNe (blk [.brk]) (blk [])]),
          (versionToken, blk [.callField "version" .parseVersion, .ite .errNe (blk [.brk]) (blk [])])]
        (blk [
          .ite (.curIs emptyToken)
            (blk [.setErr, .brk])
            (blk [
              .ite (.curIs endHeaderToken)
                (blk [.brk])
                (blk [
                  .ite .curKw
                    (blk [.setErr, .brk])
                    (blk [
                      .ite (.unset "commentSet")
                        (blk [.storeCur "comment", .setTrue "commentSet"])
                        (blk [])])])])])])]

/-- `parseIdentification`, a2l/identification.go:18-54. -/
def parseIdentification : Stmt :=
  blk [
    .loop (blk [
      .next,
      .ite (.curIs emptyToken)
        (blk [.setErr, .brk])
        (blk [
          .ite .curKw
            (blk [.setErr, .brk])
            (blk [
              .ite (.unset "PositionSet")
                (blk [
                  .conv (.uint 16),
                  .ite .errNe (blk [.brk]) (blk []),
                  .store "Position" (.uint 16),
                  .setTrue "PositionSet"])
                (blk [
                  .ite (.unset "DatatypeSet")
                    (blk [
                      .enumField "Datatype" parseDataTypeEnum,
                      .ite .errNe (blk [.brk]) (blk []),
                      .setTrue "DatatypeSet",
                      .brk])
                    (blk [])])])])])]

/-- `parseIfData`, a2l/if_data.go:16-39. -/
def parseIfData : Stmt :=
  blk [
    .loop (blk [
      .next,
      .ite (.curIs emptyToken)
        (blk [.setErr, .brk])
        (blk [
          .ite (.curIs endIfDataToken)
            (blk [.setTrue "dataSet", .brk])
            (blk [
              .ite (.unset "nameSet")
                (blk [.storeCur "name", .setTrue "nameSet"])
                (blk [.ite (.unset "dataSet") (blk [.appendCur "data"]) (blk [])])])])])]

/-- `parseInMeasurement`, a2l/in_measurement.go:14-37. -/
def parseInMeasurement : Stmt :=
  blk [
    .loop (blk [
      .next,
      .ite (.curIs emptyToken)
        (blk [.setErr, .brk])
        (blk [
          .ite (.curIs endInMeasurementToken)
            (blk [.setTrue "identifierSet", .brk])
            (blk [
              .ite .curKw
                (blk [.setErr, .brk])
                (blk [.ite (.unset "identifierSet") (blk [.appendCur "identifier"]) (blk [])])])])])]

/-- `parseInstance`, a2l/instance.go:32-157. -/
def parseInstance : Stmt :=
  blk [
    .loop (blk [
      .next,
      switchRet [
          (beginAnnotationToken, blk [
            .callBuf .parseAnnotation,
            .ite .errNe (blk [.brk]) (blk []),
            .append "annotation" .same]),
          (addressTypeToken, blk [.enumField "addressType" parseAddrTypeEnum, .ite .errNe (blk [.brk]) (blk [])]),
          (calibrationAccessToken, blk [
            .enumField "calibrationAccess" parseCalibrationAccessEnum,
            .ite .errNe (blk [.brk]) (blk [])]),
          (displayIdentifierToken, blk [
            .callField "displayIdentifier" .parseDisplayIdentifier,
            .ite .errNe (blk [.brk]) (blk [])]),
          (ecuAddressExtensionToken, blk [
            .callField "ecuAddressExtension" .parseECUAddressExtension,
            .ite .errNe (blk [.brk]) (blk [])]),
          (beginIfDataToken, blk [
            .callBuf .parseIfData,
            .ite .errNe (blk [.brk]) (blk []),
            .append "ifData" .same]),
          (matrixDimToken, blk [.callField "matrixDim" .parseMatrixDim, .ite .errNe (blk [.brk]) (blk [])]),
          (maxRefreshToken, blk [.callField "maxRefresh" .parseMaxRefresh, .ite .errNe (blk [.brk]) (blk [])]),
          (modelLinkToken, blk [.callField "modelLink" .parseModelLink, .ite .errNe (blk [.brk]) (blk [])]),
          (beginOverwriteToken, blk [.callField "overwrite" .parseOverwrite, .ite .errNe (blk [.brk]) (blk [])]),
          (readWriteToken, blk [.callField "readWrite" .parseReadWrite, .ite .errNe (blk [.brk]) (blk [])]),
          (symbolLinkToken, blk [.callField "symbolLink" .parseSymbolLink, .ite .errNe (blk [.brk]) (blk [])])]
        (blk [
          .ite (.curIs emptyToken)
            (blk [.setErr, .brk])
            (blk [
              .ite (.curIs endInstanceToken)
                (blk [.brk])
                (blk [
                  .ite .curKw
                    (blk [.setErr, .brk])
                    (blk [
                      .ite (.unset "nameSet")
                        (blk [.storeCur "name", .setTrue "nameSet"])
                        (blk [
                          .ite (.unset "longIdentifierSet")
                            (blk [.storeCur "LongIdentifier", .setTrue "longIdentifierSet"])
                            (blk [
                              .ite (.unset "typeDefNameSet")
                                (blk [.storeCur "typeDefName", .setTrue "typeDefNameSet"])
                                (blk [
                                  .ite (.unset "addressSet")
                                    (blk [.storeCur "address", .setTrue "addressSet"])
                                    (blk [])])])])])])])])])]

/-- `parseLayout`, a2l/layout.go:14-33. -/
def parseLayout : Stmt :=
  blk [
    .next,
    .ite (.curIs emptyToken)
      (blk [.setErr])
      (blk [
        .ite .curKw
          (blk [.setErr])
          (blk [
            .ite (.unset "indexModeSet")
              (blk [
                .enumField "indexMode" parseIndexModeEnum,
                .ite .errNe (blk []) (blk []),
                .setTrue "indexModeSet"])
              (blk [])])])]

/-- `parseLeftShift`, a2l/left_shift.go:15-36. -/
def parseLeftShift : Stmt :=
  blk [
    .next,
    .ite (.curIs emptyToken)
      (blk [.setErr])
      (blk [
        .ite .curKw
          (blk [.setErr])
          (blk [
            .ite (.unset "bitcountSet")
              (blk [
                .conv (.uint 32),
                .ite .errNe (blk []) (blk []),
                .store "bitcount" (.uint 32),
                .setTrue "bitcountSet"])
              (blk [])])])]

/-- `parseLimits`, a2l/limits.go:17-55. -/
def parseLimits : Stmt :=
  blk [
    .loop (blk [
      .next,
      .ite (.curIs emptyToken)
        (blk [.setErr, .brk])
        (blk [
          .ite .curKw
            (blk [.setErr, .brk])
            (blk [
              .ite (.unset "lowerLimitSet")
                (blk [
                  .conv .float,
                  .ite .errNe (blk [.brk]) (blk []),
                  .store "lowerLimit" .same,
                  .setTrue "lowerLimitSet"])
                (blk [
                  .ite (.unset "upperLimitSet")
                    (blk [
                      .conv .float,
                      .ite .errNe (blk [.brk]) (blk []),
                      .store "upperLimit" .same,
                      .setTrue "upperLimitSet",
                      .brk])
                    (blk [])])])])])]

/-- `parseLocMeasurement`, a2l/loc_measurement.go:14-37. -/
def parseLocMeasurement : Stmt :=
  blk [
    .loop (blk [
      .next,
      .ite (.curIs emptyToken)
        (blk [.setErr, .brk])
        (blk [
          .ite (.curIs endLocMeasurementToken)
            (blk [.setTrue "identifierSet", .brk])
            (blk [
              .ite .curKw
                (blk [.setErr, .brk])
                (blk [.ite (.unset "identifierSet") (blk [.appendCur "identifier"]) (blk [])])])])])]

/-- `parseMapList`, a2l/map_list.go:14-37. -/
def parseMapList : Stmt :=
  blk [
    .loop (blk [
      .next,
      .ite (.curIs emptyToken)
        (blk [.setErr, .brk])
        (blk [
          .ite (.curIs endMapListToken)
            (blk [.setTrue "nameSet", .brk])
            (blk [
              .ite .curKw
                (blk [.setErr, .brk])
                (blk [.ite (.unset "nameSet") (blk [.appendCur "name"]) (blk [])])])])])]

/-- `parseMatrixDim`, a2l/matrix_dim.go:30-96. -/
def parseMatrixDim : Stmt :=
  blk [
    .loop (blk [
      .next,
      .ite (.curIs emptyToken)
        (blk [.setErr, .brk])
        (blk [
          .ite .curKw
            (blk [.prev, .brk])
            (blk [
              .ite (.unset "DimXSet")
                (blk [
                  .conv (.uint 16),
                  .ite .errNe (blk [.brk]) (blk []),
                  .store "DimX" (.uint 16),
                  .setTrue "DimXSet"])
                (blk [
                  .ite (.unset "DimYSet")
                    (blk [
                      .conv (.uint 16),
                      .ite .errNe (blk [.brk]) (blk []),
                      .store "DimY" (.uint 16)])
                    (blk [
                      .ite (.unset "DimZSet")
                        (blk [
                          .conv (.uint 16),
                          .ite .errNe (blk [.brk]) (blk []),
                          .store "DimZ" (.uint 16)])
                        (blk [
                          .ite (.unset "Dim4Set")
                            (blk [
                              .conv (.uint 16),
                              .ite .errNe (blk [.brk]) (blk []),
                              .store "Dim4" (.uint 16)])
                            (blk [
                              .ite (.unset "Dim5Set")
                                (blk [
                                  .conv (.uint 16),
                                  .ite .errNe (blk [.brk]) (blk []),
                                  .store "Dim5" (.uint 16),
                                  .brk])
                                (blk [])])])])])])])])]

/-- `parseMaxGrad`, a2l/max_grad.go:15-36. -/
def parseMaxGrad : Stmt :=
  blk [
    .next,
    .ite (.curIs emptyToken)
      (blk [.setErr])
      (blk [
        .ite .curKw
          (blk [.setErr])
          (blk [
            .ite (.unset "maxGradientSet")
              (blk [
                .conv .float,
                .ite .errNe (blk []) (blk []),
                .store "maxGradient" .same,
                .setTrue "maxGradientSet"])
              (blk [])])])]

/-- `parseMaxRefresh`, a2l/max_refresh.go:17-55. -/
def parseMaxRefresh : Stmt :=
  blk [
    .loop (blk [
      .next,
      .ite (.curIs emptyToken)
        (blk [.setErr, .brk])
        (blk [
          .ite .curKw
            (blk [.setErr, .brk])
            (blk [
              .ite (.unset "scalingUnitSet")
                (blk [
                  .conv (.uint 16),
                  .ite .errNe (blk [.brk]) (blk []),
                  .store "scalingUnit" (.uint 16),
                  .setTrue "scalingUnitSet"])
                (blk [
                  .ite (.unset "rateSet")
                    (blk [
                      .conv (.uint 32),
                      .ite .errNe (blk [.brk]) (blk []),
                      .store "rate" (.uint 32),
                      .setTrue "rateSet",
                      .brk])
                    (blk [])])])])])]

/-- `parseMeasurement`, a2l/measurement.go:51-290. -/
def parseMeasurement : Stmt :=
  blk [
    .loop (blk [
      .next,
      switchRet [
          (beginAnnotationToken, blk [
            .callBuf .parseAnnotation,
            .ite .errNe (blk [.brk]) (blk []),
            .append "annotation" .same]),
          (arraySizeToken, blk [.callField "arraySize" .parseArraySize, .ite .errNe (blk [.brk]) (blk [])]),
          (bitMaskToken, blk [.callField "bitMask" .parseBitMask, .ite .errNe (blk [.brk]) (blk [])]),
          (beginBitOperationToken, blk [.callField "bitOperation" .parseBitOperation, .ite .errNe (blk [.brk]) (blk [])]),
          (byteOrderToken, blk [.callField "byteOrder" .parseByteOrder, .ite .errNe (blk [.brk]) (blk [])]),
          (discreteToken, blk [.callField "discrete" .parseDiscrete, .ite .errNe (blk [.brk]) (blk [])]),
          (displayIdentifierToken, blk [
            .callField "displayIdentifier" .parseDisplayIdentifier,
            .ite .errNe (blk [.brk]) (blk [])]),
          (ecuAddressToken, blk [.callField "ecuAddress" .parseEcuAddress, .ite .errNe (blk [.brk]) (blk [])]),
          (ecuAddressExtensionToken, blk [
            .callField "ecuAddressExtension" .parseECUAddressExtension,
            .ite .errNe (blk [.brk]) (blk [])]),
          (errorMaskToken, blk [.callField "errorMask" .parseErrorMask, .ite .errNe (blk [.brk]) (blk [])]),
          (formatToken, blk [.callField "format" .parseFormat, .ite .errNe (blk [.brk]) (blk [])]),
          (beginFunctionListToken, blk [.callField "functionList" .parseFunctionList, .ite .errNe (blk [.brk]) (blk [])]),
          (beginIfDataToken, blk [
            .callBuf .parseIfData,
            .ite .errNe (blk [.brk]) (blk []),
            .append "ifData" .same]),
          (layoutToken, blk [.callField "layout" .parseLayout, .ite .errNe (blk [.brk]) (blk [])]),
          (matrixDimToken, blk [.callField "matrixDim" .parseMatrixDim, .ite .errNe (blk [.brk]) (blk [])]),
          (maxRefreshToken, blk [.callField "maxRefresh" .parseMaxRefresh, .ite .errNe (blk [.brk]) (blk [])]),
          (modelLinkToken, blk [.callField "modelLink" .parseModelLink, .ite .errNe (blk [.brk]) (blk [])]),
          (physUnitToken, blk [.callField "physUnit" .parsePhysUnit, .ite .errNe (blk [.brk]) (blk [])]),
          (readWriteToken, blk [.callField "readWrite" .parseReadWrite, .ite .errNe (blk [.brk]) (blk [])]),
          (refMemorySegmentToken, blk [
            .callField "refMemorySegment" .parseRefMemorySegment,
            .ite .errNe (blk [.brk]) (blk [])]),
          (symbolLinkToken, blk [.callField "symbolLink" .parseSymbolLink, .ite .errNe (blk [.brk]) (blk [])]),
          (beginVirtualToken, blk [.callField "virtual" .parseVirtual, .ite .errNe (blk [.brk]) (blk [])])]
        (blk [
          .ite (.curIs emptyToken)
            (blk [.setErr, .brk])
            (blk [
              .ite (.curIs endMeasurementToken)
                (blk [.brk])
                (blk [
                  .ite .curKw
                    (blk [.setErr, .brk])
                    (blk [
                      .ite (.unset "nameSet")
                        (blk [.storeCur "name", .setTrue "nameSet"])
                        (blk [
                          .ite (.unset "longIdentifierSet")
                            (blk [.storeCur "longIdentifier", .setTrue "longIdentifierSet"])
                            (blk [
                              .ite (.unset "datatypeSet")
                                (blk [
                                  .enumField "datatype" parseDataTypeEnum,
                                  .ite .errNe (blk [.brk]) (blk []),
                                  .setTrue "datatypeSet"])
                                (blk [
                                  .ite (.unset "conversionSet")
                                    (blk [.storeCur "conversion"])
                                    (blk [
                                      .ite (.unset "resolutionSet")
                                        (blk [
                                          .conv (.uint 16),
                                          .ite .errNe (blk [.brk]) (blk []),
                                          .store "resolution" (.uint 16),
                                          .setTrue "resolutionSet"])
                                        (blk [
                                          .ite (.unset "accuracySet")
                                            (blk [
                                              .conv .float,
                                              .ite .errNe (blk [.brk]) (blk []),
                                              .store "accuracy" .same,
                                              .setTrue "accuracySet"])
                                            (blk [
                                              .ite (.unset "lowerLimitSet")
                                                (blk [
                                                  .conv .float,
                                                  .ite .errNe (blk [.brk]) (blk []),
                                                  .store "lowerLimit" .same,
                                                  .setTrue "lowerLimitSet"])
                                                (blk [
                                                  .ite (.unset "upperLimitSet")
                                                    (blk [
                                                      .conv .float,
                                                      .ite .errNe (blk [.brk]) (blk []),
                                                      .store "upperLimit" .same,
                                                      .setTrue "upperLimitSet"])
                                                    (blk [])])])])])])])])])])])])])]

/-- `parseMemoryLayout`, a2l/memory_layout.go:22-78. -/
def parseMemoryLayout : Stmt :=
  blk [
    .loop (blk [
      .next,
      switchRet [
          (beginIfDataToken, blk [
            .callBuf .parseIfData,
            .ite .errNe (blk [.brk]) (blk []),
            .append "ifData" .same])]
        (blk [
          .ite (.curIs emptyToken)
            (blk [.setErr, .brk])
            (blk [
              .ite (.curIs endMemoryLayoutToken)
                (blk [.brk])
                (blk [
                  .ite .curKw
                    (blk [.setErr, .brk])
                    (blk [
                      .ite (.unset "prgTypeSet")
                        (blk [
                          .enumField "prgType" parsePrgTypeEnum,
                          .ite .errNe (blk [.brk]) (blk []),
                          .setTrue "prgTypeSet"])
                        (blk [
                          .ite (.unset "addressSet")
                            (blk [.storeCur "address", .setTrue "addressSet"])
                            (blk [
                              .ite (.unset "sizeSet")
                                (blk [.storeCur "size", .setTrue "sizeSet"])
                                (blk [
                                  .ite (.unset "offsetSet")
                                    (blk [
                                      .conv (.int 32),
                                      .ite .errNe (blk [.brk]) (blk []),
                                      .append "offset" (.int 32),
                                      .ite (.lenIs "offset" 5)
                                        (blk [.setTrue "offsetSet"])
                                        (blk [])])
                                    (blk [])])])])])])])])])]

/-- `parseMemorySegment`, a2l/memory_segment.go:29-102. -/
def parseMemorySegment : Stmt :=
  blk [
    .loop (blk [
      .next,
      switchRet [
          (beginIfDataToken, blk [
            .callBuf .parseIfData,
            .ite .errNe (blk [.brk]) (blk []),
            .append "ifData" .same])]
        (blk [
          .ite (.curIs emptyToken)
            (blk [.setErr, .brk])
            (blk [
              .ite (.curIs endMemorySegmentToken)
                (blk [.brk])
                (blk [
                  .ite .curKw
                    (blk [.setErr, .brk])
                    (blk [
                      .ite (.unset "nameSet")
                        (blk [.storeCur "name", .setTrue "nameSet"])
                        (blk [
                          .ite (.unset "longIdentifierSet")
                            (blk [.storeCur "longIdentifier", .setTrue "longIdentifierSet"])
                            (blk [
                              .ite (.unset "prgTypeSet")
                                (blk [
                                  .enumField "prgType" parsePrgTypeEnum,
                                  .ite .errNe (blk [.brk]) (blk []),
                                  .setTrue "prgTypeSet"])
                                (blk [
                                  .ite (.unset "memoryTypeSet")
                                    (blk [
                                      .enumField "memoryType" parseMemoryTypeEnum,
                                      .ite .errNe (blk [.brk]) (blk []),
                                      .setTrue "memoryTypeSet"])
                                    (blk [
                                      .ite (.unset "attributeSet")
                                        (blk [
                                          .enumField "attribute" parseAttributeEnum,
                                          .ite .errNe (blk [.brk]) (blk []),
                                          .setTrue "attributeSet"])
                                        (blk [
                                          .ite (.unset "addressSet")
                                            (blk [.storeCur "address", .setTrue "addressSet"])
                                            (blk [
                                              .ite (.unset "sizeSet")
                                                (blk [.storeCur "size", .setTrue "sizeSet"])
                                                (blk [
                                                  .ite (.unset "offsetSet")
                                                    (blk [
                                                      .storeArr "offset" 5,
                                                      .setTrue "offsetSet"])
                                                    (blk [])])])])])])])])])])])])])]

/-- `parseModCommon`, a2l/mod_common.go:24-119. -/
def parseModCommon : Stmt :=
  blk [
    .loop (blk [
      .next,
      switchRet [
          (alignmentByteToken, blk [
            .callField "AlignmentByte" .parseAlignmentByte,
            .ite .errNe (blk [.brk]) (blk [])]),
          (alignmentFloat16IeeeToken, blk [
            .callField "AlignmentFloat16Ieee" .parseAlignmentFloat16Ieee,
            .ite .errNe (blk [.brk]) (blk [])]),
          (alignmentFloat32IeeeToken, blk [
            .callField "AlignmentFloat32Ieee" .parseAlignmentFloat32Ieee,
            .ite .errNe (blk [.brk]) (blk [])]),
          (alignmentFloat64IeeeToken, blk [
            .callField "AlignmentFloat64Ieee" .parseAlignmentFloat64Ieee,
            .ite .errNe (blk [.brk]) (blk [])]),
          (alignmentInt64Token, blk [
            .callField "AlignmentInt64" .parseAlignmentInt64,
            .ite .errNe (blk [.brk]) (blk [])]),
          (alignmentLongToken, blk [
            .callField "AlignmentLong" .parseAlignmentLong,
            .ite .errNe (blk [.brk]) (blk [])]),
          (alignmentWordToken, blk [
            .callField "AlignmentWord" .parseAlignmentWord,
            .ite .errNe (blk [.brk]) (blk [])]),
          (byteOrderToken, blk [.callField "ByteOrder" .parseByteOrder, .ite .errNe (blk [.brk]) (blk [])]),
          (dataSizeToken, blk [.callField "dataSize" .parseDataSize, .ite .errNe (blk [.brk]) (blk [])]),
          (depositToken, blk [.callField "deposit" .parseDeposit, .ite .errNe (blk [.brk]) (blk [])])]
        (blk [
          .ite (.curIs emptyToken)
            (blk [.setErr, .brk])
            (blk [
              .ite (.curIs endModCommonToken)
                (blk [.brk])
                (blk [
                  .ite .curKw
                    (blk [.setErr, .brk])
                    (blk [
                      .ite (.unset "commentSet")
                        (blk [.storeCur "comment", .setTrue "commentSet"])
                        (blk [])])])])])])]

/-- `parseModPar`, a2l/mod_par.go:30-178. -/
def parseModPar : Stmt :=
  blk [
    .mapInit "SystemConstants",
    .loop (blk [
      .next,
      switchRet [
          (addrEpkToken, blk [
            .callBuf .parseAddrEpk,
            .ite .errNe (blk [.brk]) (blk []),
            .append "addrEpk" .same]),
          (beginCalibrationMethodToken, blk [
            .callBuf .parseCalibrationMethod,
            .ite .errNe (blk [.brk]) (blk []),
            .append "calibrationMethod" .same]),
          (cpuTypeToken, blk [.callField "cpuType" .parseCpuType, .ite .errNe (blk [.brk]) (blk [])]),
          (customerToken, blk [.callField "customer" .parseCustomer, .ite .errNe (blk [.brk]) (blk [])]),
          (customerNoToken, blk [.callField "customerNo" .parseCustomerNo, .ite .errNe (blk [.brk]) (blk [])]),
          (ecuToken, blk [.callField "ecu" .parseEcu, .ite .errNe (blk [.brk]) (blk [])]),
          (ecuCalibrationOffsetToken, blk [
            .callField "ecuCalibrationOffset" .parseEcuCalibrationOffset,
            .ite .errNe (blk [.brk]) (blk [])]),
          (epkToken, blk [.callField "epk" .parseEpk, .ite .errNe (blk [.brk]) (blk [])]),
          (beginMemoryLayoutToken, blk [
            .callBuf .parseMemoryLayout,
            .ite .errNe (blk [.brk]) (blk []),
            .append "memoryLayout" .same]),
          (beginMemorySegmentToken, blk [
            .callBuf .parseMemorySegment,
            .ite .errNe (blk [.brk]) (blk []),
            .append "memorySegment" .same]),
          (noOfInterfacesToken, blk [
            .callField "noOfInterfaces" .parseNoOfInterfaces,
            .ite .errNe (blk [.brk]) (blk [])]),
          (phoneNoToken, blk [.callField "phoneNo" .parsePhoneNo, .ite .errNe (blk [.brk]) (blk [])]),
          (supplierToken, blk [.callField "supplier" .parseSupplier, .ite .errNe (blk [.brk]) (blk [])]),
          (systemConstantToken, blk [
            .callBuf .parseSystemConstant,
            .ite .errNe (blk [.brk]) (blk []),
            .mapInsert "SystemConstants" "Name"]),
          (userToken, blk [.callField "user" .parseUser, .ite .errNe (blk [.brk]) (blk [])]),
          (versionToken, blk [.callField "version" .parseVersion, .ite .errNe (blk [.brk]) (blk [])])]
        (blk [
          .ite (.curIs emptyToken)
            (blk [.setErr, .brk])
            (blk [
              .ite (.curIs endModParToken)
                (blk [.brk])
                (blk [
                  .ite .curKw
                    (blk [.setErr, .brk])
                    (blk [
                      .ite (.unset "commentSet")
                        (blk [.storeCur "comment", .setTrue "commentSet"])
                        (blk [])])])])])])]

/-- `parseModelLink`, a2l/model_link.go:28-44. -/
def parseModelLink : Stmt :=
  blk [
    .next,
    .ite (.curIs emptyToken)
      (blk [.setErr])
      (blk [
        .ite .curKw
          (blk [.setErr])
          (blk [
            .ite (.unset "modelNameSet")
              (blk [.storeCur "modelName", .setTrue "modelNameSet"])
              (blk [])])])]

/-- `parseModule`, a2l/module.go:45-321. -/
def parseModule : Stmt :=
  blk [
    .mapInit "AxisPts",
    .mapInit "blobs",
    .mapInit "Characteristics",
    .mapInit "CompuMethods",
    .mapInit "CompuTabs",
    .mapInit "CompuVTabs",
    .mapInit "CompuVTabRanges",
    .mapInit "Functions",
    .mapInit "Groups",
    .mapInit "ifData",
    .mapInit "instances",
    .mapInit "Measurements",
    .mapInit "RecordLayouts",
    .mapInit "transformers",
    .mapInit "typeDefAxis",
    .mapInit "typeDefBlobs",
    .mapInit "typeDefCharacteristics",
    .mapInit "typeDefMeasurements",
    .mapInit "typeDefStructures",
    .mapInit "Units",
    .mapInit "userRights",
    .loop (blk [
      .next,
      switchRet [
          (beginA2mlToken, blk [.callField "a2ml" .parseA2ML, .ite .errNe (blk [.brk]) (blk [])]),
          (beginAxisPtsToken, blk [
            .callBuf .parseAxisPts,
            .ite .errNe (blk [.brk]) (blk []),
            .mapInsert "AxisPts" "name"]),
          (beginBlobToken, blk [
            .callBuf .parseBlob,
            .ite .errNe (blk [.brk]) (blk []),
            .mapInsert "blobs" "name"]),
          (beginCharacteristicToken, blk [
            .callBuf .parseCharacteristic,
            .ite .errNe (blk [.brk]) (blk []),
            .mapInsert "Characteristics" "Name"]),
          (beginCompuMethodToken, blk [
            .callBuf .parseCompuMethod,
            .ite .errNe (blk [.brk]) (blk []),
            .mapInsert "CompuMethods" "Name"]),
          (beginCompuTabToken, blk [
            .callBuf .parseCompuTab,
            .ite .errNe (blk [.brk]) (blk []),
            .mapInsert "CompuTabs" "Name"]),
          (beginCompuVtabToken, blk [
            .callBuf .parseCompuVtab,
            .ite .errNe (blk [.brk]) (blk []),
            .mapInsert "CompuVTabs" "Name"]),
          (beginCompuVtabRangeToken, blk [
            .callBuf .parseCompuVtabRange,
            .ite .errNe (blk [.brk]) (blk []),
            .mapInsert "CompuVTabRanges" "Name"]),
          (beginFrameToken, blk [.callField "frame" .parseFrame, .ite .errNe (blk [.brk]) (blk [])]),
          (beginFunctionToken, blk [
            .callBuf .parseFunction,
            .ite .errNe (blk [.brk]) (blk []),
            .mapInsert "Functions" "name"]),
          (beginGroupToken, blk [
            .callBuf .parseGroup,
            .ite .errNe (blk [.brk]) (blk []),
            .mapInsert "Groups" "groupName"]),
          (beginIfDataToken, blk [
            .callBuf .parseIfData,
            .ite .errNe (blk [.brk]) (blk []),
            .mapInsert "ifData" "name"]),
          (beginInstanceToken, blk [
            .callBuf .parseInstance,
            .ite .errNe (blk [.brk]) (blk []),
            .mapInsert "instances" "name"]),
          (beginMeasurementToken, blk [
            .callBuf .parseMeasurement,
            .ite .errNe (blk [.brk]) (blk []),
            .mapInsert "Measurements" "name"]),
          (beginModCommonToken, blk [.callField "ModCommon" .parseModCommon, .ite .errNe (blk [.brk]) (blk [])]),
          (beginModParToken, blk [.callField "ModPar" .parseModPar, .ite .errNe (blk [.brk]) (blk [])]),
          (beginRecordLayoutToken, blk [
            .callBuf .parseRecordLayout,
            .ite .errNe (blk [.brk]) (blk []),
            .mapInsert "RecordLayouts" "Name"]),
          (beginTransformerToken, blk [
            .callBuf .parseTransformer,
            .ite .errNe (blk [.brk]) (blk []),
            .mapInsert "transformers" "name"]),
          (beginTypeDefAxisToken, blk [
            .callBuf .parseTypeDefAxis,
            .ite .errNe (blk [.brk]) (blk []),
            .mapInsert "typeDefAxis" "name"]),
          (beginTypeDefBlobToken, blk [
            .callBuf .parseTypeDefBlob,
            .ite .errNe (blk [.brk]) (blk []),
            .mapInsert "typeDefBlobs" "name"]),
          (beginTypeDefCharacteristicToken, blk [
            .callBuf .parseTypeDefCharacteristic,
            .ite .errNe (blk [.brk]) (blk []),
            .mapInsert "typeDefCharacteristics" "name"]),
          (beginTypeDefMeasurementToken, blk [
            .callBuf .parseTypeDefMeasurement,
            .ite .errNe (blk [.brk]) (blk []),
            .mapInsert "typeDefMeasurements" "name"]),
          (beginTypeDefStructureToken, blk [
            .callBuf .parseTypeDefStructure,
            .ite .errNe (blk [.brk]) (blk []),
            .mapInsert "typeDefStructures" "name"]),
          (beginUnitToken, blk [
            .callBuf .parseUnit,
            .ite .errNe (blk [.brk]) (blk []),
            .mapInsert "Units" "name"]),
          (beginUserRightsToken, blk [
            .callBuf .parseUserRights,
            .ite .errNe (blk [.brk]) (blk []),
            .mapInsert "userRights" "userLevelId"]),
          (beginVariantCodingToken, blk [
            .callField "variantCoding" .parseVariantCoding,
            .ite .errNe (blk [.brk]) (blk [])])]
        (blk [
          .ite (.curIs emptyToken)
            (blk [.setErr, .brk])
            (blk [
              .ite (.curIs endModuleToken)
                (blk [.brk])
                (blk [
                  .ite .curKw
                    (blk [.setErr, .brk])
                    (blk [
                      .ite (.unset "nameSet")
                        (blk [.storeCur "Name", .setTrue "nameSet"])
                        (blk [
                          .ite (.unset "longIdentifierSet")
                            (blk [.storeCur "longIdentifier", .setTrue "longIdentifierSet"])
                            (blk [])])])])])])])]

/-- `parseMonotony`, a2l/monotony.go:14-33. -/
def parseMonotony : Stmt :=
  blk [
    .next,
    .ite (.curIs emptyToken)
      (blk [.setErr])
      (blk [
        .ite .curKw
          (blk [.setErr])
          (blk [
            .ite (.unset "monotonySet")
              (blk [
                .enumField "monotony" parseMonotonyTypeEnum,
                .ite .errNe (blk []) (blk []),
                .setTrue "monotonySet"])
              (blk [])])])]

/-- `parseNoAxisPts4`, a2l/no_axis_pts_4.go:17-53. -/
def parseNoAxisPts4 : Stmt :=
  blk [
    .loop (blk [
      .next,
      .ite (.curIs emptyToken)
        (blk [.setErr, .brk])
        (blk [
          .ite .curKw
            (blk [.setErr, .brk])
            (blk [
              .ite (.unset "PositionSet")
                (blk [
                  .conv (.uint 16),
                  .ite .errNe (blk [.brk]) (blk []),
                  .store "Position" (.uint 16),
                  .setTrue "PositionSet"])
                (blk [
                  .ite (.unset "DatatypeSet")
                    (blk [
                      .enumField "Datatype" parseDataTypeEnum,
                      .ite .errNe (blk [.brk]) (blk []),
                      .setTrue "DatatypeSet",
                      .brk])
                    (blk [])])])])])]

/-- `parseNoAxisPts5`, a2l/no_axis_pts_5.go:17-53. -/
def parseNoAxisPts5 : Stmt :=
  blk [
    .loop (blk [
      .next,
      .ite (.curIs emptyToken)
        (blk [.setErr, .brk])
        (blk [
          .ite .curKw
            (blk [.setErr, .brk])
            (blk [
              .ite (.unset "PositionSet")
                (blk [
                  .conv (.uint 16),
                  .ite .errNe (blk [.brk]) (blk []),
                  .store "Position" (.uint 16),
                  .setTrue "PositionSet"])
                (blk [
                  .ite (.unset "DatatypeSet")
                    (blk [
                      .enumField "Datatype" parseDataTypeEnum,
                      .ite .errNe (blk [.brk]) (blk []),
                      .setTrue "DatatypeSet",
                      .brk])
                    (blk [])])])])])]

/-- `parseNoAxisPtsX`, a2l/no_axis_pts_x.go:17-53. -/
def parseNoAxisPtsX : Stmt :=
  blk [
    .loop (blk [
      .next,
      .ite (.curIs emptyToken)
        (blk [.setErr, .brk])
        (blk [
          .ite .curKw
            (blk [.setErr, .brk])
            (blk [
              .ite (.unset "PositionSet")
                (blk [
                  .conv (.uint 16),
                  .ite .errNe (blk [.brk]) (blk []),
                  .store "Position" (.uint 16),
                  .setTrue "PositionSet"])
                (blk [
                  .ite (.unset "DatatypeSet")
                    (blk [
                      .enumField "Datatype" parseDataTypeEnum,
                      .ite .errNe (blk [.brk]) (blk []),
                      .setTrue "DatatypeSet",
                      .brk])
                    (blk [])])])])])]

/-- `parseNoAxisPtsY`, a2l/no_axis_pts_y.go:17-53. -/
def parseNoAxisPtsY : Stmt :=
  blk [
    .loop (blk [
      .next,
      .ite (.curIs emptyToken)
        (blk [.setErr, .brk])
        (blk [
          .ite .curKw
            (blk [.setErr, .brk])
            (blk [
              .ite (.unset "PositionSet")
                (blk [
                  .conv (.uint 16),
                  .ite .errNe (blk [.brk]) (blk []),
                  .store "Position" (.uint 16),
                  .setTrue "PositionSet"])
                (blk [
                  .ite (.unset "DatatypeSet")
                    (blk [
                      .enumField "Datatype" parseDataTypeEnum,
                      .ite .errNe (blk [.brk]) (blk []),
                      .setTrue "DatatypeSet",
                      .brk])
                    (blk [])])])])])]

/-- `parseNoAxisPtsZ`, a2l/no_axis_pts_z.go:17-53. -/
def parseNoAxisPtsZ : Stmt :=
  blk [
    .loop (blk [
      .next,
      .ite (.curIs emptyToken)
        (blk [.setErr, .brk])
        (blk [
          .ite .curKw
            (blk [.setErr, .brk])
            (blk [
              .ite (.unset "PositionSet")
                (blk [
                  .conv (.uint 16),
                  .ite .errNe (blk [.brk]) (blk []),
                  .store "Position" (.uint 16),
                  .setTrue "PositionSet"])
                (blk [
                  .ite (.unset "DatatypeSet")
                    (blk [
                      .enumField "Datatype" parseDataTypeEnum,
                      .ite .errNe (blk [.brk]) (blk []),
                      .setTrue "DatatypeSet",
                      .brk])
                    (blk [])])])])])]

/-- `parseNoOfInterfaces`, a2l/no_of_interfaces.go:15-36. -/
def parseNoOfInterfaces : Stmt :=
  blk [
    .next,
    .ite (.curIs emptyToken)
      (blk [.setErr])
      (blk [
        .ite .curKw
          (blk [.setErr])
          (blk [
            .ite (.unset "numSet")
              (blk [
                .conv (.uint 16),
                .ite .errNe (blk []) (blk []),
                .store "num" (.uint 16),
                .setTrue "numSet"])
              (blk [])])])]

/-- `parseNoRescaleX`, a2l/no_rescale_x.go:18-54. -/
def parseNoRescaleX : Stmt :=
  blk [
    .loop (blk [
      .next,
      .ite (.curIs emptyToken)
        (blk [.setErr, .brk])
        (blk [
          .ite .curKw
            (blk [.setErr, .brk])
            (blk [
              .ite (.unset "PositionSet")
                (blk [
                  .conv (.uint 16),
                  .ite .errNe (blk [.brk]) (blk []),
                  .store "Position" (.uint 16),
                  .setTrue "PositionSet",
                  .brk])
                (blk [
                  .ite (.unset "DatatypeSet")
                    (blk [
                      .enumField "Datatype" parseDataTypeEnum,
                      .ite .errNe (blk [.brk]) (blk []),
                      .setTrue "DatatypeSet"])
                    (blk [])])])])])]

/-- `parseNumber`, a2l/number.go:15-36. -/
def parseNumber : Stmt :=
  blk [
    .next,
    .ite (.curIs emptyToken)
      (blk [.setErr])
      (blk [
        .ite .curKw
          (blk [.setErr])
          (blk [
            .ite (.unset "numberSet")
              (blk [
                .conv (.uint 16),
                .ite .errNe (blk []) (blk []),
                .store "number" (.uint 16),
                .setTrue "numberSet"])
              (blk [])])])]

/-- `parseOffset4`, a2l/offset_4.go:24-60. -/
def parseOffset4 : Stmt :=
  blk [
    .loop (blk [
      .next,
      .ite (.curIs emptyToken)
        (blk [.setErr, .brk])
        (blk [
          .ite .curKw
            (blk [.setErr, .brk])
            (blk [
              .ite (.unset "PositionSet")
                (blk [
                  .conv (.uint 16),
                  .ite .errNe (blk [.brk]) (blk []),
                  .store "Position" (.uint 16),
                  .setTrue "PositionSet"])
                (blk [
                  .ite (.unset "DatatypeSet")
                    (blk [
                      .enumField "Datatype" parseDataTypeEnum,
                      .ite .errNe (blk [.brk]) (blk []),
                      .setTrue "DatatypeSet",
                      .brk])
                    (blk [])])])])])]

/-- `parseOffset5`, a2l/offset_5.go:24-60. -/
def parseOffset5 : Stmt :=
  blk [
    .loop (blk [
      .next,
      .ite (.curIs emptyToken)
        (blk [.setErr, .brk])
        (blk [
          .ite .curKw
            (blk [.setErr, .brk])
            (blk [
              .ite (.unset "PositionSet")
                (blk [
                  .conv (.uint 16),
                  .ite .errNe (blk [.brk]) (blk []),
                  .store "Position" (.uint 16),
                  .setTrue "PositionSet"])
                (blk [
                  .ite (.unset "DatatypeSet")
                    (blk [
                      .enumField "Datatype" parseDataTypeEnum,
                      .ite .errNe (blk [.brk]) (blk []),
                      .setTrue "DatatypeSet",
                      .brk])
                    (blk [])])])])])]

/-- `parseOffsetX`, a2l/offset_x.go:24-60. -/
def parseOffsetX : Stmt :=
  blk [
    .loop (blk [
      .next,
      .ite (.curIs emptyToken)
        (blk [.setErr, .brk])
        (blk [
          .ite .curKw
            (blk [.setErr, .brk])
            (blk [
              .ite (.unset "PositionSet")
                (blk [
                  .conv (.uint 16),
                  .ite .errNe (blk [.brk]) (blk []),
                  .store "Position" (.uint 16),
                  .setTrue "PositionSet"])
                (blk [
                  .ite (.unset "DatatypeSet")
                    (blk [
                      .enumField "Datatype" parseDataTypeEnum,
                      .ite .errNe (blk [.brk]) (blk []),
                      .setTrue "DatatypeSet",
                      .brk])
                    (blk [])])])])])]

/-- `parseOffsetY`, a2l/offset_y.go:24-60. -/
def parseOffsetY : Stmt :=
  blk [
    .loop (blk [
      .next,
      .ite (.curIs emptyToken)
        (blk [.setErr, .brk])
        (blk [
          .ite .curKw
            (blk [.setErr, .brk])
            (blk [
              .ite (.unset "PositionSet")
                (blk [
                  .conv (.uint 16),
                  .ite .errNe (blk [.brk]) (blk []),
                  .store "Position" (.uint 16),
                  .setTrue "PositionSet"])
                (blk [
                  .ite (.unset "DatatypeSet")
                    (blk [
                      .enumField "Datatype" parseDataTypeEnum,
                      .ite .errNe (blk [.brk]) (blk []),
                      .setTrue "DatatypeSet",
                      .brk])
                    (blk [])])])])])]

/-- `parseOffsetZ`, a2l/offset_z.go:24-60. -/
def parseOffsetZ : Stmt :=
  blk [
    .loop (blk [
      .next,
      .ite (.curIs emptyToken)
        (blk [.setErr, .brk])
        (blk [
          .ite .curKw
            (blk [.setErr, .brk])
            (blk [
              .ite (.unset "PositionSet")
                (blk [
                  .conv (.uint 16),
                  .ite .errNe (blk [.brk]) (blk []),
                  .store "Position" (.uint 16),
                  .setTrue "PositionSet"])
                (blk [
                  .ite (.unset "DatatypeSet")
                    (blk [
                      .enumField "Datatype" parseDataTypeEnum,
                      .ite .errNe (blk [.brk]) (blk []),
                      .setTrue "DatatypeSet",
                      .brk])
                    (blk [])])])])])]

/-- `parseOutMeasurement`, a2l/out_measurement.go:14-37. -/
def parseOutMeasurement : Stmt :=
  blk [
    .loop (blk [
      .next,
      .ite (.curIs emptyToken)
        (blk [.setErr, .brk])
        (blk [
          .ite (.curIs endOutMeasurementToken)
            (blk [.setTrue "identifierSet", .brk])
            (blk [
              .ite .curKw
                (blk [.setErr, .brk])
                (blk [.ite (.unset "identifierSet") (blk [.appendCur "identifier"]) (blk [])])])])])]

/-- `parseOverwrite`, a2l/overwrite.go:24-100. -/
def parseOverwrite : Stmt :=
  blk [
    .loop (blk [
      .next,
      switchRet [
          (conversionToken, blk [.storeCur "conversion"]),
          (extendedLimitsToken, blk [
            .callField "extendedLimits" .parseExtendedLimits,
            .ite .errNe (blk [.brk]) (blk [])]),
          (formatToken, blk [.callField "format" .parseFormat, .ite .errNe (blk [.brk]) (blk [])]),
          (inputQuantityToken, blk [.storeCur "inputQuantity"]),
          (limitsToken, blk [.callField "limits" .parseLimits, .ite .errNe (blk [.brk]) (blk [])]),
          (monotonyToken, blk [.callField "monotony" .parseMonotony, .ite .errNe (blk [.brk]) (blk [])]),
          (physUnitToken, blk [.callField "physUnit" .parsePhysUnit, .ite .errNe (blk [.brk]) (blk [])])]
        (blk [
          .ite (.curIs emptyToken)
            (blk [.setErr, .brk])
            (blk [
              .ite (.curIs endOverwriteToken)
                (blk [.brk])
                (blk [
                  .ite .curKw
                    (blk [.setErr, .brk])
                    (blk [
                      .ite (.unset "nameSet")
                        (blk [.storeCur "name", .setTrue "nameSet"])
                        (blk [
                          .ite (.unset "axisNumberSet")
                            (blk [
                              .conv (.uint 16),
                              .ite .errNe (blk [.brk]) (blk []),
                              .store "axisNumer" (.uint 16),
                              .setTrue "axisNumberSet"])
                            (blk [])])])])])])])]

/-- `parsePhoneNo`, a2l/phone_no.go:14-30. -/
def parsePhoneNo : Stmt :=
  blk [
    .next,
    .ite (.curIs emptyToken)
      (blk [.setErr])
      (blk [
        .ite .curKw
          (blk [.setErr])
          (blk [
            .ite (.unset "telnumSet") (blk [.storeCur "telnum", .setTrue "telnumSet"]) (blk [])])])]

/-- `parsePhysUnit`, a2l/phys_unit.go:14-30. -/
def parsePhysUnit : Stmt :=
  blk [
    .next,
    .ite (.curIs emptyToken)
      (blk [.setErr])
      (blk [
        .ite .curKw
          (blk [.setErr])
          (blk [.ite (.unset "unitSet") (blk [.storeCur "unit", .setTrue "unitSet"]) (blk [])])])]

/-- `parseProject`, a2l/project.go:18-68. -/
def parseProject : Stmt :=
  blk [
    .loop (blk [
      .next,
      switchRet [
          (beginHeaderToken, blk [.callField "header" .parseHeader, .ite .errNe (blk [.brk]) (blk [])]),
          (beginModuleToken, blk [
            .ite .multi
              (blk [.callBuf .parseModuleMultithreaded])
              (blk [.callBuf .parseModule]),
            .ite .errNe (blk [.brk]) (blk []),
            .append "Modules" .same])]
        (blk [
          .ite (.curIs emptyToken)
            (blk [.setErr, .brk])
            (blk [
              .ite (.curIs endProjectToken)
                (blk [.brk])
                (blk [
                  .ite .curKw
                    (blk [.setErr, .brk])
                    (blk [
                      .ite (.unset "nameSet")
                        (blk [.storeCur "Name", .setTrue "nameSet"])
                        (blk [
                          .ite (.unset "longIdentifierSet")
                            (blk [.storeCur "longIdentifier", .setTrue "longIdentifierSet"])
                            (blk [])])])])])])])]

/-- `parseProjectNo`, a2l/project_no.go:14-30. -/
def parseProjectNo : Stmt :=
  blk [
    .next,
    .ite (.curIs emptyToken)
      (blk [.setErr])
      (blk [
        .ite .curKw
          (blk [.setErr])
          (blk [
            .ite (.unset "projectNumberSet")
              (blk [.storeCur "projectNumber", .setTrue "projectNumberSet"])
              (blk [])])])]

/-- `parseReadOnly`, a2l/read_only.go:10-19. -/
def parseReadOnly : Stmt :=
  blk [.ite (.unset "valueSet") (blk [.setTrue "value", .setTrue "valueSet"]) (blk [])]

/-- `parseReadWrite`, a2l/read_write.go:10-19. -/
def parseReadWrite : Stmt :=
  blk [.ite (.unset "valueSet") (blk [.setTrue "value", .setTrue "valueSet"]) (blk [])]

/-- `parseRecordLayout`, a2l/record_layout.go:70-480. -/
def parseRecordLayout : Stmt :=
  blk [
    .loop (blk [
      .next,
      switchRet [
          (alignmentByteToken, blk [
            .callField "AlignmentByte" .parseAlignmentByte,
            .ite .errNe (blk [.brk]) (blk [])]),
          (alignmentFloat16IeeeToken, blk [
            .callField "AlignmentFloat16Ieee" .parseAlignmentFloat16Ieee,
            .ite .errNe (blk [.brk]) (blk [])]),
          (alignmentFloat32IeeeToken, blk [
            .callField "AlignmentFloat32Ieee" .parseAlignmentFloat32Ieee,
            .ite .errNe (blk [.brk]) (blk [])]),
          (alignmentFloat64IeeeToken, blk [
            .callField "AlignmentFloat64Ieee" .parseAlignmentFloat64Ieee,
            .ite .errNe (blk [.brk]) (blk [])]),
          (alignmentInt64Token, blk [
            .callField "AlignmentInt64" .parseAlignmentInt64,
            .ite .errNe (blk [.brk]) (blk [])]),
          (alignmentLongToken, blk [
            .callField "AlignmentLong" .parseAlignmentLong,
            .ite .errNe (blk [.brk]) (blk [])]),
          (alignmentWordToken, blk [
            .callField "AlignmentWord" .parseAlignmentWord,
            .ite .errNe (blk [.brk]) (blk [])]),
          (axisPtsXToken, blk [.callField "AxisPtsX" .parseAxisPtsX, .ite .errNe (blk [.brk]) (blk [])]),
          (axisPtsYToken, blk [.callField "AxisPtsY" .parseAxisPtsY, .ite .errNe (blk [.brk]) (blk [])]),
          (axisPtsZToken, blk [.callField "AxisPtsZ" .parseAxisPtsZ, .ite .errNe (blk [.brk]) (blk [])]),
          (axisPts4Token, blk [.callField "AxisPts4" .parseAxisPts4, .ite .errNe (blk [.brk]) (blk [])]),
          (axisPts5Token, blk [.callField "AxisPts5" .parseAxisPts5, .ite .errNe (blk [.brk]) (blk [])]),
          (axisRescaleXToken, blk [.callField "AxisRescaleX" .parseAxisRescaleX, .ite .errNe (blk [.brk]) (blk [])]),
          (distOpXToken, blk [.callField "DistOpX" .parseDistOpX, .ite .errNe (blk [.brk]) (blk [])]),
          (distOpYToken, blk [.callField "DistOpY" .parseDistOpY, .ite .errNe (blk [.brk]) (blk [])]),
          (distOpZToken, blk [.callField "DistOpZ" .parseDistOpZ, .ite .errNe (blk [.brk]) (blk [])]),
          (distOp4Token, blk [.callField "DistOp4" .parseDistOp4, .ite .errNe (blk [.brk]) (blk [])]),
          (distOp5Token, blk [.callField "DistOp5" .parseDistOp5, .ite .errNe (blk [.brk]) (blk [])]),
          (fixNoAxisPtsXToken, blk [
            .callField "FixNoAxisPtsX" .parseFixNoAxisPtsX,
            .ite .errNe (blk [.brk]) (blk [])]),
          (fixNoAxisPtsYToken, blk [
            .callField "FixNoAxisPtsY" .parseFixNoAxisPtsY,
            .ite .errNe (blk [.brk]) (blk [])]),
          (fixNoAxisPtsZToken, blk [
            .callField "FixNoAxisPtsZ" .parseFixNoAxisPtsZ,
            .ite .errNe (blk [.brk]) (blk [])]),
          (fixNoAxisPts4Token, blk [
            .callField "FixNoAxisPts4" .parseFixNoAxisPts4,
            .ite .errNe (blk [.brk]) (blk [])]),
          (fixNoAxisPts5Token, blk [
            .callField "FixNoAxisPts5" .parseFixNoAxisPts5,
            .ite .errNe (blk [.brk]) (blk [])]),
          (fncValuesToken, blk [.callField "FncValues" .parseFncValues, .ite .errNe (blk [.brk]) (blk [])]),
          (identificationToken, blk [
            .callField "Identification" .parseIdentification,
            .ite .errNe (blk [.brk]) (blk [])]),
          (noAxisPtsXToken, blk [.callField "NoAxisPtsX" .parseNoAxisPtsX, .ite .errNe (blk [.brk]) (blk [])]),
          (noAxisPtsYToken, blk [.callField "NoAxisPtsY" .parseNoAxisPtsY, .ite .errNe (blk [.brk]) (blk [])]),
          (noAxisPtsZToken, blk [.callField "NoAxisPtsZ" .parseNoAxisPtsZ, .ite .errNe (blk [.brk]) (blk [])]),
          (noAxisPts4Token, blk [.callField "NoAxisPts4" .parseNoAxisPts4, .ite .errNe (blk [.brk]) (blk [])]),
          (noAxisPts5Token, blk [.callField "NoAxisPts5" .parseNoAxisPts5, .ite .errNe (blk [.brk]) (blk [])]),
          (noRescaleXToken, blk [.callField "NoRescaleX" .parseNoRescaleX, .ite .errNe (blk [.brk]) (blk [])]),
          (offsetXToken, blk [.callField "OffsetX" .parseOffsetX, .ite .errNe (blk [.brk]) (blk [])]),
          (offsetYToken, blk [.callField "OffsetY" .parseOffsetY, .ite .errNe (blk [.brk]) (blk [])]),
          (offsetZToken, blk [.callField "OffsetZ" .parseOffsetZ, .ite .errNe (blk [.brk]) (blk [])]),
          (offset4Token, blk [.callField "Offset4" .parseOffset4, .ite .errNe (blk [.brk]) (blk [])]),
          (offset5Token, blk [.callField "Offset5" .parseOffset5, .ite .errNe (blk [.brk]) (blk [])]),
          (reservedToken, blk [.callField "Reserved" .parseReserved, .ite .errNe (blk [.brk]) (blk [])]),
          (ripAddrWToken, blk [.callField "RipAddrW" .parseRipAddrW, .ite .errNe (blk [.brk]) (blk [])]),
          (ripAddrXToken, blk [.callField "RipAddrX" .parseRipAddrX, .ite .errNe (blk [.brk]) (blk [])]),
          (ripAddrYToken, blk [.callField "RipAddrY" .parseRipAddrY, .ite .errNe (blk [.brk]) (blk [])]),
          (ripAddrZToken, blk [.callField "RipAddrZ" .parseRipAddrZ, .ite .errNe (blk [.brk]) (blk [])]),
          (ripAddr4Token, blk [.callField "RipAddr4" .parseRipAddr4, .ite .errNe (blk [.brk]) (blk [])]),
          (ripAddr5Token, blk [.callField "RipAddr5" .parseRipAddr5, .ite .errNe (blk [.brk]) (blk [])]),
          (srcAddrXToken, blk [.callField "SrcAddrX" .parseSrcAddrX, .ite .errNe (blk [.brk]) (blk [])]),
          (srcAddrYToken, blk [.callField "SrcAddrY" .parseSrcAddrY, .ite .errNe (blk [.brk]) (blk [])]),
          (srcAddrZToken, blk [.callField "SrcAddrZ" .parseSrcAddrZ, .ite .errNe (blk [.brk]) (blk [])]),
          (srcAddr4Token, blk [.callField "SrcAddr4" .parseSrcAddr4, .ite .errNe (blk [.brk]) (blk [])]),
          (srcAddr5Token, blk [.callField "SrcAddr5" .parseSrcAddr5, .ite .errNe (blk [.brk]) (blk [])]),
          (shiftOpXToken, blk [.callField "ShiftOpX" .parseShiftOpX, .ite .errNe (blk [.brk]) (blk [])]),
          (shiftOpYToken, blk [.callField "ShiftOpY" .parseShiftOpY, .ite .errNe (blk [.brk]) (blk [])]),
          (shiftOpZToken, blk [.callField "ShiftOpZ" .parseShiftOpZ, .ite .errNe (blk [.brk]) (blk [])]),
          (shiftOp4Token, blk [.callField "ShiftOp4" .parseShiftOp4, .ite .errNe (blk [.brk]) (blk [])]),
          (shiftOp5Token, blk [.callField "ShiftOp5" .parseShiftOp5, .ite .errNe (blk [.brk]) (blk [])]),
          (staticRecordLayoutToken, blk [
            .callField "StaticRecordLayout" .parseStaticRecordLayout,
            .ite .errNe (blk [.brk]) (blk [])]),
          (staticAddressOffsetsToken, blk [
            .callField "StaticAddressOffsets" .parseStaticAddressOffsets,
            .ite .errNe (blk [.brk]) (blk [])])]
        (blk [
          .ite (.curIs emptyToken)
            (blk [.setErr, .brk])
            (blk [
              .ite (.curIs endRecordLayoutToken)
                (blk [.brk])
                (blk [
                  .ite .curKw
                    (blk [.setErr, .brk])
                    (blk [
                      .ite (.unset "NameSet")
                        (blk [.storeCur "Name", .setTrue "NameSet"])
                        (blk [])])])])])])]

/-- `parseRefCharacteristic`, a2l/ref_characteristic.go:14-37. -/
def parseRefCharacteristic : Stmt :=
  blk [
    .loop (blk [
      .next,
      .ite (.curIs emptyToken)
        (blk [.setErr, .brk])
        (blk [
          .ite (.curIs endRefCharacteristicToken)
            (blk [.setTrue "identifierSet", .brk])
            (blk [
              .ite .curKw
                (blk [.setErr, .brk])
                (blk [.ite (.unset "identifierSet") (blk [.appendCur "identifier"]) (blk [])])])])])]

/-- `parseRefGroup`, a2l/ref_group.go:14-37. -/
def parseRefGroup : Stmt :=
  blk [
    .loop (blk [
      .next,
      .ite (.curIs emptyToken)
        (blk [.setErr, .brk])
        (blk [
          .ite (.curIs endRefGroupToken)
            (blk [.setTrue "identifierSet", .brk])
            (blk [
              .ite .curKw
                (blk [.setErr, .brk])
                (blk [.ite (.unset "identifierSet") (blk [.appendCur "identifier"]) (blk [])])])])])]

/-- `parseRefMeasurement`, a2l/ref_measurement.go:14-37. -/
def parseRefMeasurement : Stmt :=
  blk [
    .loop (blk [
      .next,
      .ite (.curIs emptyToken)
        (blk [.setErr, .brk])
        (blk [
          .ite (.curIs endRefMeasurementToken)
            (blk [.setTrue "identifierSet", .brk])
            (blk [
              .ite .curKw
                (blk [.setErr, .brk])
                (blk [.ite (.unset "identifierSet") (blk [.appendCur "identifier"]) (blk [])])])])])]

/-- `parseRefMemorySegment`, a2l/ref_memory_segment.go:14-30. -/
def parseRefMemorySegment : Stmt :=
  blk [
    .next,
    .ite (.curIs emptyToken)
      (blk [.setErr])
      (blk [
        .ite .curKw
          (blk [.setErr])
          (blk [.ite (.unset "nameSet") (blk [.storeCur "name", .setTrue "nameSet"]) (blk [])])])]

/-- `parseRefUnit`, a2l/ref_unit.go:14-30. -/
def parseRefUnit : Stmt :=
  blk [
    .next,
    .ite (.curIs emptyToken)
      (blk [.setErr])
      (blk [
        .ite .curKw
          (blk [.setErr])
          (blk [.ite (.unset "unitSet") (blk [.storeCur "unit", .setTrue "unitSet"]) (blk [])])])]

/-- `parseReserved`, a2l/reserved.go:22-58. -/
def parseReserved : Stmt :=
  blk [
    .loop (blk [
      .next,
      .ite (.curIs emptyToken)
        (blk [.setErr, .brk])
        (blk [
          .ite .curKw
            (blk [.setErr, .brk])
            (blk [
              .ite (.unset "PositionSet")
                (blk [
                  .conv (.uint 16),
                  .ite .errNe (blk [.brk]) (blk []),
                  .store "Position" (.uint 16),
                  .setTrue "PositionSet"])
                (blk [
                  .ite (.unset "DataSizeSet")
                    (blk [
                      .enumField "DataSize" parseDataSizeEnum,
                      .ite .errNe (blk [.brk]) (blk []),
                      .setTrue "DataSizeSet",
                      .brk])
                    (blk [])])])])])]

/-- `parseRightShift`, a2l/right_shift.go:15-36. -/
def parseRightShift : Stmt :=
  blk [
    .next,
    .ite (.curIs emptyToken)
      (blk [.setErr])
      (blk [
        .ite .curKw
          (blk [.setErr])
          (blk [
            .ite (.unset "bitcountSet")
              (blk [
                .conv (.uint 32),
                .ite .errNe (blk []) (blk []),
                .store "bitcount" (.uint 32),
                .setTrue "bitcountSet"])
              (blk [])])])]

/-- `parseRipAddr4`, a2l/rip_addr_4.go:49-85. -/
def parseRipAddr4 : Stmt :=
  blk [
    .loop (blk [
      .next,
      .ite (.curIs emptyToken)
        (blk [.setErr, .brk])
        (blk [
          .ite .curKw
            (blk [.setErr, .brk])
            (blk [
              .ite (.unset "PositionSet")
                (blk [
                  .conv (.uint 16),
                  .ite .errNe (blk [.brk]) (blk []),
                  .store "Position" (.uint 16),
                  .setTrue "PositionSet"])
                (blk [
                  .ite (.unset "DatatypeSet")
                    (blk [
                      .enumField "Datatype" parseDataTypeEnum,
                      .ite .errNe (blk [.brk]) (blk []),
                      .setTrue "DatatypeSet",
                      .brk])
                    (blk [])])])])])]

/-- `parseRipAddr5`, a2l/rip_addr_5.go:49-85. -/
def parseRipAddr5 : Stmt :=
  blk [
    .loop (blk [
      .next,
      .ite (.curIs emptyToken)
        (blk [.setErr, .brk])
        (blk [
          .ite .curKw
            (blk [.setErr, .brk])
            (blk [
              .ite (.unset "PositionSet")
                (blk [
                  .conv (.uint 16),
                  .ite .errNe (blk [.brk]) (blk []),
                  .store "Position" (.uint 16),
                  .setTrue "PositionSet"])
                (blk [
                  .ite (.unset "DatatypeSet")
                    (blk [
                      .enumField "Datatype" parseDataTypeEnum,
                      .ite .errNe (blk [.brk]) (blk []),
                      .setTrue "DatatypeSet",
                      .brk])
                    (blk [])])])])])]

/-- `parseRipAddrW`, a2l/rip_addr_w.go:49-85. -/
def parseRipAddrW : Stmt :=
  blk [
    .loop (blk [
      .next,
      .ite (.curIs emptyToken)
        (blk [.setErr, .brk])
        (blk [
          .ite .curKw
            (blk [.setErr, .brk])
            (blk [
              .ite (.unset "PositionSet")
                (blk [
                  .conv (.uint 16),
                  .ite .errNe (blk [.brk]) (blk []),
                  .store "Position" (.uint 16),
                  .setTrue "PositionSet"])
                (blk [
                  .ite (.unset "DatatypeSet")
                    (blk [
                      .enumField "Datatype" parseDataTypeEnum,
                      .ite .errNe (blk [.brk]) (blk []),
                      .setTrue "DatatypeSet",
                      .brk])
                    (blk [])])])])])]

/-- `parseRipAddrX`, a2l/rip_addr_x.go:49-85. -/
def parseRipAddrX : Stmt :=
  blk [
    .loop (blk [
      .next,
      .ite (.curIs emptyToken)
        (blk [.setErr, .brk])
        (blk [
          .ite .curKw
            (blk [.setErr, .brk])
            (blk [
              .ite (.unset "positionSet")
                (blk [
                  .conv (.uint 16),
                  .ite .errNe (blk [.brk]) (blk []),
                  .store "position" (.uint 16),
                  .setTrue "positionSet"])
                (blk [
                  .ite (.unset "datatypeSet")
                    (blk [
                      .enumField "datatype" parseDataTypeEnum,
                      .ite .errNe (blk [.brk]) (blk []),
                      .setTrue "datatypeSet",
                      .brk])
                    (blk [])])])])])]

/-- `parseRipAddrY`, a2l/rip_addr_y.go:49-85. -/
def parseRipAddrY : Stmt :=
  blk [
    .loop (blk [
      .next,
      .ite (.curIs emptyToken)
        (blk [.setErr, .brk])
        (blk [
          .ite .curKw
            (blk [.setErr, .brk])
            (blk [
              .ite (.unset "PositionSet")
                (blk [
                  .conv (.uint 16),
                  .ite .errNe (blk [.brk]) (blk []),
                  .store "Position" (.uint 16),
                  .setTrue "PositionSet"])
                (blk [
                  .ite (.unset "DatatypeSet")
                    (blk [
                      .enumField "Datatype" parseDataTypeEnum,
                      .ite .errNe (blk [.brk]) (blk []),
                      .setTrue "DatatypeSet",
                      .brk])
                    (blk [])])])])])]

/-- `parseRipAddrZ`, a2l/rip_addr_z.go:49-85. -/
def parseRipAddrZ : Stmt :=
  blk [
    .loop (blk [
      .next,
      .ite (.curIs emptyToken)
        (blk [.setErr, .brk])
        (blk [
          .ite .curKw
            (blk [.setErr, .brk])
            (blk [
              .ite (.unset "PositionSet")
                (blk [
                  .conv (.uint 16),
                  .ite .errNe (blk [.brk]) (blk []),
                  .store "Position" (.uint 16),
                  .setTrue "PositionSet"])
                (blk [
                  .ite (.unset "DatatypeSet")
                    (blk [
                      .enumField "Datatype" parseDataTypeEnum,
                      .ite .errNe (blk [.brk]) (blk []),
                      .setTrue "DatatypeSet",
                      .brk])
                    (blk [])])])])])]

/-- `parseRoot`, a2l/root.go:10-19. -/
def parseRoot : Stmt :=
  blk [.ite (.unset "valueSet") (blk [.setTrue "value", .setTrue "valueSet"]) (blk [])]

/-- `parseShiftOp4`, a2l/shift_op_4.go:27-63. -/
def parseShiftOp4 : Stmt :=
  blk [
    .loop (blk [
      .next,
      .ite (.curIs emptyToken)
        (blk [.setErr, .brk])
        (blk [
          .ite .curKw
            (blk [.setErr, .brk])
            (blk [
              .ite (.unset "PositionSet")
                (blk [
                  .conv (.uint 16),
                  .ite .errNe (blk [.brk]) (blk []),
                  .store "Position" (.uint 16),
                  .setTrue "PositionSet"])
                (blk [
                  .ite (.unset "DatatypeSet")
                    (blk [
                      .enumField "Datatype" parseDataTypeEnum,
                      .ite .errNe (blk [.brk]) (blk []),
                      .setTrue "DatatypeSet",
                      .brk])
                    (blk [])])])])])]

/-- `parseShiftOp5`, a2l/shift_op_5.go:27-63. -/
def parseShiftOp5 : Stmt :=
  blk [
    .loop (blk [
      .next,
      .ite (.curIs emptyToken)
        (blk [.setErr, .brk])
        (blk [
          .ite .curKw
            (blk [.setErr, .brk])
            (blk [
              .ite (.unset "PositionSet")
                (blk [
                  .conv (.uint 16),
                  .ite .errNe (blk [.brk]) (blk []),
                  .store "Position" (.uint 16),
                  .setTrue "PositionSet"])
                (blk [
                  .ite (.unset "DatatypeSet")
                    (blk [
                      .enumField "Datatype" parseDataTypeEnum,
                      .ite .errNe (blk [.brk]) (blk []),
                      .setTrue "DatatypeSet",
                      .brk])
                    (blk [])])])])])]

/-- `parseShiftOpX`, a2l/shift_op_x.go:27-63. -/
def parseShiftOpX : Stmt :=
  blk [
    .loop (blk [
      .next,
      .ite (.curIs emptyToken)
        (blk [.setErr, .brk])
        (blk [
          .ite .curKw
            (blk [.setErr, .brk])
            (blk [
              .ite (.unset "PositionSet")
                (blk [
                  .conv (.uint 16),
                  .ite .errNe (blk [.brk]) (blk []),
                  .store "Position" (.uint 16),
                  .setTrue "PositionSet"])
                (blk [
                  .ite (.unset "DatatypeSet")
                    (blk [
                      .enumField "Datatype" parseDataTypeEnum,
                      .ite .errNe (blk [.brk]) (blk []),
                      .setTrue "DatatypeSet",
                      .brk])
                    (blk [])])])])])]

/-- `parseShiftOpY`, a2l/shift_op_y.go:27-63. -/
def parseShiftOpY : Stmt :=
  blk [
    .loop (blk [
      .next,
      .ite (.curIs emptyToken)
        (blk [.setErr, .brk])
        (blk [
          .ite .curKw
            (blk [.setErr, .brk])
            (blk [
              .ite (.unset "PositionSet")
                (blk [
                  .conv (.uint 16),
                  .ite .errNe (blk [.brk]) (blk []),
                  .store "Position" (.uint 16),
                  .setTrue "PositionSet"])
                (blk [
                  .ite (.unset "DatatypeSet")
                    (blk [
                      .enumField "Datatype" parseDataTypeEnum,
                      .ite .errNe (blk [.brk]) (blk []),
                      .setTrue "DatatypeSet",
                      .brk])
                    (blk [])])])])])]

/-- `parseShiftOpZ`, a2l/shift_op_z.go:27-63. -/
def parseShiftOpZ : Stmt :=
  blk [
    .loop (blk [
      .next,
      .ite (.curIs emptyToken)
        (blk [.setErr, .brk])
        (blk [
          .ite .curKw
            (blk [.setErr, .brk])
            (blk [
              .ite (.unset "PositionSet")
                (blk [
                  .conv (.uint 16),
                  .ite .errNe (blk [.brk]) (blk []),
                  .store "Position" (.uint 16),
                  .setTrue "PositionSet"])
                (blk [
                  .ite (.unset "DatatypeSet")
                    (blk [
                      .enumField "Datatype" parseDataTypeEnum,
                      .ite .errNe (blk [.brk]) (blk []),
                      .setTrue "DatatypeSet",
                      .brk])
                    (blk [])])])])])]

/-- `parseSiExponents`, a2l/si_exponents.go:27-115. -/
def parseSiExponents : Stmt :=
  blk [
    .loop (blk [
      .next,
      .ite (.curIs emptyToken)
        (blk [.setErr, .brk])
        (blk [
          .ite .curKw
            (blk [.setErr, .brk])
            (blk [
              .ite (.unset "lengthSet")
                (blk [
                  .conv (.int 16),
                  .ite .errNe (blk [.brk]) (blk []),
                  .store "length" (.int 16),
                  .setTrue "lengthSet"])
                (blk [
                  .ite (.unset "massSet")
                    (blk [
                      .conv (.int 16),
                      .ite .errNe (blk [.brk]) (blk []),
                      .store "mass" (.int 16),
                      .setTrue "massSet"])
                    (blk [
                      .ite (.unset "timeSet")
                        (blk [
                          .conv (.int 16),
                          .ite .errNe (blk [.brk]) (blk []),
                          .store "time" (.int 16),
                          .setTrue "timeSet"])
                        (blk [
                          .ite (.unset "electricCurrentSet")
                            (blk [
                              .conv (.int 16),
                              .ite .errNe (blk [.brk]) (blk []),
                              .store "electricCurrent" (.int 16),
                              .setTrue "electricCurrentSet"])
                            (blk [
                              .ite (.unset "temperatureSet")
                                (blk [
                                  .conv (.int 16),
                                  .ite .errNe (blk [.brk]) (blk []),
                                  .store "temperature" (.int 16),
                                  .setTrue "temperatureSet"])
                                (blk [
                                  .ite (.unset "amountOfSubstanceSet")
                                    (blk [
                                      .conv (.int 16),
                                      .ite .errNe (blk [.brk]) (blk []),
                                      .store "amountOfSubstance" (.int 16),
                                      .setTrue "amountOfSubstanceSet"])
                                    (blk [
                                      .ite (.unset "luminousIntensitySet")
                                        (blk [
                                          .conv (.int 16),
                                          .ite .errNe (blk [.brk]) (blk []),
                                          .store "luminousIntensity" (.int 16),
                                          .setTrue "luminousIntensitySet",
                                          .brk])
                                        (blk [])])])])])])])])])])]

/-- `parseSignExtend`, a2l/sign_extend.go:10-19. -/
def parseSignExtend : Stmt :=
  blk [.ite (.unset "valueSet") (blk [.setTrue "value", .setTrue "valueSet"]) (blk [])]

/-- `parseSrcAddr4`, a2l/src_addr_4.go:18-54. -/
def parseSrcAddr4 : Stmt :=
  blk [
    .loop (blk [
      .next,
      .ite (.curIs emptyToken)
        (blk [.setErr, .brk])
        (blk [
          .ite .curKw
            (blk [.setErr, .brk])
            (blk [
              .ite (.unset "positionSet")
                (blk [
                  .conv (.uint 16),
                  .ite .errNe (blk [.brk]) (blk []),
                  .store "position" (.uint 16),
                  .setTrue "positionSet"])
                (blk [
                  .ite (.unset "datatypeSet")
                    (blk [
                      .enumField "datatype" parseDataTypeEnum,
                      .ite .errNe (blk [.brk]) (blk []),
                      .setTrue "datatypeSet",
                      .brk])
                    (blk [])])])])])]

/-- `parseSrcAddr5`, a2l/src_addr_5.go:18-54. -/
def parseSrcAddr5 : Stmt :=
  blk [
    .loop (blk [
      .next,
      .ite (.curIs emptyToken)
        (blk [.setErr, .brk])
        (blk [
          .ite .curKw
            (blk [.setErr, .brk])
            (blk [
              .ite (.unset "positionSet")
                (blk [
                  .conv (.uint 16),
                  .ite .errNe (blk [.brk]) (blk []),
                  .store "position" (.uint 16),
                  .setTrue "positionSet"])
                (blk [
                  .ite (.unset "datatypeSet")
                    (blk [
                      .enumField "datatype" parseDataTypeEnum,
                      .ite .errNe (blk [.brk]) (blk []),
                      .setTrue "datatypeSet",
                      .brk])
                    (blk [])])])])])]

/-- `parseSrcAddrX`, a2l/src_addr_x.go:18-54. -/
def parseSrcAddrX : Stmt :=
  blk [
    .loop (blk [
      .next,
      .ite (.curIs emptyToken)
        (blk [.setErr, .brk])
        (blk [
          .ite .curKw
            (blk [.setErr, .brk])
            (blk [
              .ite (.unset "positionSet")
                (blk [
                  .conv (.uint 16),
                  .ite .errNe (blk [.brk]) (blk []),
                  .store "position" (.uint 16),
                  .setTrue "positionSet"])
                (blk [
                  .ite (.unset "datatypeSet")
                    (blk [
                      .enumField "datatype" parseDataTypeEnum,
                      .ite .errNe (blk [.brk]) (blk []),
                      .setTrue "datatypeSet",
                      .brk])
                    (blk [])])])])])]

/-- `parseSrcAddrY`, a2l/src_addr_y.go:18-54. -/
def parseSrcAddrY : Stmt :=
  blk [
    .loop (blk [
      .next,
      .ite (.curIs emptyToken)
        (blk [.setErr, .brk])
        (blk [
          .ite .curKw
            (blk [.setErr, .brk])
            (blk [
              .ite (.unset "positionSet")
                (blk [
                  .conv (.uint 16),
                  .ite .errNe (blk [.brk]) (blk []),
                  .store "position" (.uint 16),
                  .setTrue "positionSet"])
                (blk [
                  .ite (.unset "datatypeSet")
                    (blk [
                      .enumField "datatype" parseDataTypeEnum,
                      .ite .errNe (blk [.brk]) (blk []),
                      .setTrue "datatypeSet",
                      .brk])
                    (blk [])])])])])]

/-- `parseSrcAddrZ`, a2l/src_addr_z.go:18-54. -/
def parseSrcAddrZ : Stmt :=
  blk [
    .loop (blk [
      .next,
      .ite (.curIs emptyToken)
        (blk [.setErr, .brk])
        (blk [
          .ite .curKw
            (blk [.setErr, .brk])
            (blk [
              .ite (.unset "positionSet")
                (blk [
                  .conv (.uint 16),
                  .ite .errNe (blk [.brk]) (blk []),
                  .store "position" (.uint 16),
                  .setTrue "positionSet"])
                (blk [
                  .ite (.unset "datatypeSet")
                    (blk [
                      .enumField "datatype" parseDataTypeEnum,
                      .ite .errNe (blk [.brk]) (blk []),
                      .setTrue "datatypeSet",
                      .brk])
                    (blk [])])])])])]

/-- `parseStaticAddressOffsets`, a2l/static_address_offsets.go:10-19. -/
def parseStaticAddressOffsets : Stmt :=
  blk [.ite (.unset "valueSet") (blk [.setTrue "value", .setTrue "valueSet"]) (blk [])]

/-- `parseStaticRecordLayout`, a2l/static_record_layout.go:21-30. -/
def parseStaticRecordLayout : Stmt :=
  blk [.ite (.unset "valueSet") (blk [.setTrue "value", .setTrue "valueSet"]) (blk [])]

/-- `parseStatusStringRef`, a2l/status_string_ref.go:32-48. -/
def parseStatusStringRef : Stmt :=
  blk [
    .next,
    .ite (.curIs emptyToken)
      (blk [.setErr])
      (blk [
        .ite .curKw
          (blk [.setErr])
          (blk [
            .ite (.unset "ConversionTableSet")
              (blk [.storeCur "ConversionTable", .setTrue "ConversionTableSet"])
              (blk [])])])]

/-- `parseStepSize`, a2l/step_size.go:15-36. -/
def parseStepSize : Stmt :=
  blk [
    .next,
    .ite (.curIs emptyToken)
      (blk [.setErr])
      (blk [
        .ite .curKw
          (blk [.setErr])
          (blk [
            .ite (.unset "stepSizeSet")
              (blk [
                .conv .float,
                .ite .errNe (blk []) (blk []),
                .store "stepSize" .same,
                .setTrue "stepSizeSet"])
              (blk [])])])]

/-- `parseStructureComponent`, a2l/structure_component.go:22-83. -/
def parseStructureComponent : Stmt :=
  blk [
    .loop (blk [
      .next,
      switchRet [
          (addressTypeToken, blk [.enumField "addressType" parseAddrTypeEnum, .ite .errNe (blk [.brk]) (blk [])]),
          (layoutToken, blk [.callField "layout" .parseLayout, .ite .errNe (blk [.brk]) (blk [])]),
          (matrixDimToken, blk [.callField "matrixDim" .parseMatrixDim, .ite .errNe (blk [.brk]) (blk [])]),
          (symbolTypeLinkToken, blk [
            .callField "symbolTypeLink" .parseSymbolTypeLink,
            .ite .errNe (blk [.brk]) (blk [])])]
        (blk [
          .ite (.curIs emptyToken)
            (blk [.setErr, .brk])
            (blk [
              .ite (.curIs endStructureComponentToken)
                (blk [.brk])
                (blk [
                  .ite .curKw
                    (blk [.setErr, .brk])
                    (blk [
                      .ite (.unset "nameSet")
                        (blk [.storeCur "name", .setTrue "nameSet"])
                        (blk [
                          .ite (.unset "typeDefNameSet")
                            (blk [.storeCur "typeDefName", .setTrue "typeDefNameSet"])
                            (blk [
                              .ite (.unset "addressOffsetSet")
                                (blk [.storeCur "addressOffset", .setTrue "addressOffsetSet"])
                                (blk [])])])])])])])])]

/-- `parseSubFunction`, a2l/sub_function.go:14-37. -/
def parseSubFunction : Stmt :=
  blk [
    .loop (blk [
      .next,
      .ite (.curIs emptyToken)
        (blk [.setErr, .brk])
        (blk [
          .ite (.curIs endSubFunctionToken)
            (blk [.setTrue "identifierSet", .brk])
            (blk [
              .ite .curKw
                (blk [.setErr, .brk])
                (blk [.ite (.unset "identifierSet") (blk [.appendCur "identifier"]) (blk [])])])])])]

/-- `parseSubGroup`, a2l/sub_group.go:14-37. -/
def parseSubGroup : Stmt :=
  blk [
    .loop (blk [
      .next,
      .ite (.curIs emptyToken)
        (blk [.setErr, .brk])
        (blk [
          .ite (.curIs endSubGroupToken)
            (blk [.setTrue "identifierSet", .brk])
            (blk [
              .ite .curKw
                (blk [.setErr, .brk])
                (blk [.ite (.unset "identifierSet") (blk [.appendCur "identifier"]) (blk [])])])])])]

/-- `parseSupplier`, a2l/supplier.go:14-30. -/
def parseSupplier : Stmt :=
  blk [
    .next,
    .ite (.curIs emptyToken)
      (blk [.setErr])
      (blk [
        .ite .curKw
          (blk [.setErr])
          (blk [
            .ite (.unset "manufacturerSet")
              (blk [.storeCur "manufacturer", .setTrue "manufacturerSet"])
              (blk [])])])]

/-- `parseSymbolLink`, a2l/symbol_link.go:17-50. -/
def parseSymbolLink : Stmt :=
  blk [
    .loop (blk [
      .next,
      .ite (.curIs emptyToken)
        (blk [.setErr, .brk])
        (blk [
          .ite .curKw
            (blk [.setErr, .brk])
            (blk [
              .ite (.unset "symbolNameSet")
                (blk [.storeCur "symbolName", .setTrue "symbolNameSet"])
                (blk [
                  .ite (.unset "offsetSet")
                    (blk [
                      .conv (.int 32),
                      .ite .errNe (blk [.brk]) (blk []),
                      .store "offset" (.int 32),
                      .setTrue "offsetSet",
                      .brk])
                    (blk [])])])])])]

/-- `parseSymbolTypeLink`, a2l/symbol_type_link.go:13-28. -/
def parseSymbolTypeLink : Stmt :=
  blk [
    .next,
    .ite (.curIs emptyToken)
      (blk [.setErr])
      (blk [.ite .curKw (blk [.setErr]) (blk [.storeCur "symbolName"])])]

/-- `parseSystemConstant`, a2l/system_constant.go:16-42. -/
def parseSystemConstant : Stmt :=
  blk [
    .loop (blk [
      .next,
      .ite (.curIs emptyToken)
        (blk [.setErr, .brk])
        (blk [
          .ite .curKw
            (blk [.setErr, .brk])
            (blk [
              .ite (.unset "NameSet")
                (blk [.storeCur "Name", .setTrue "NameSet"])
                (blk [
                  .ite (.unset "ValueSet")
                    (blk [.storeCur "Value", .setTrue "ValueSet", .brk])
                    (blk [])])])])])]

/-- `parseTransformer`, a2l/transformer.go:31-104. -/
def parseTransformer : Stmt :=
  blk [
    .loop (blk [
      .next,
      switchRet [
          (beginTransformerInObjectsToken, blk [
            .callField "transformerInObjects" .parseTransformerInObject,
            .ite .errNe (blk [.brk]) (blk [])]),
          (beginTransformerOutObjectsToken, blk [
            .callField "transformerOutObjects" .parseTransformerOutObject,
            .ite .errNe (blk [.brk]) (blk [])])]
        (blk [
          .ite (.curIs emptyToken)
            (blk [.setErr, .brk])
            (blk [
              .ite (.curIs endTransformerToken)
                (blk [.brk])
                (blk [
                  .ite .curKw
                    (blk [.setErr, .brk])
                    (blk [
                      .ite (.unset "nameSet")
                        (blk [.storeCur "name", .setTrue "nameSet"])
                        (blk [
                          .ite (.unset "versionSet")
                            (blk [.storeCur "version", .setTrue "versionSet"])
                            (blk [
                              .ite (.unset "executable32Set")
                                (blk [.storeCur "executable32", .setTrue "executable32Set"])
                                (blk [
                                  .ite (.unset "executable64Set")
                                    (blk [.storeCur "executable64", .setTrue "executable64Set"])
                                    (blk [
                                      .ite (.unset "timeOutSet")
                                        (blk [
                                          .conv (.uint 32),
                                          .ite .errNe (blk [.brk]) (blk []),
                                          .store "timeOut" (.uint 32),
                                          .setTrue "timeOutSet"])
                                        (blk [
                                          .ite (.unset "triggerSet")
                                            (blk [
                                              .enumField "trigger" parseTriggerEnum,
                                              .ite .errNe (blk [.brk]) (blk []),
                                              .setTrue "triggerSet"])
                                            (blk [
                                              .ite (.unset "inverseTransformerSet")
                                                (blk [
                                                  .storeCur "inverseTransformer",
                                                  .setTrue "inverseTransformerSet"])
                                                (blk [])])])])])])])])])])])])]

/-- `parseTransformerInObject`, a2l/transformer_in_object.go:14-37. -/
def parseTransformerInObject : Stmt :=
  blk [
    .loop (blk [
      .next,
      .ite (.curIs emptyToken)
        (blk [.setErr, .brk])
        (blk [
          .ite (.curIs endTransformerInObjectsToken)
            (blk [.setTrue "identifierSet", .brk])
            (blk [
              .ite .curKw
                (blk [.setErr, .brk])
                (blk [.ite (.unset "identifierSet") (blk [.appendCur "identifier"]) (blk [])])])])])]

/-- `parseTransformerOutObject`, a2l/transformer_out_object.go:14-37. -/
def parseTransformerOutObject : Stmt :=
  blk [
    .loop (blk [
      .next,
      .ite (.curIs emptyToken)
        (blk [.setErr, .brk])
        (blk [
          .ite (.curIs endTransformerOutObjectsToken)
            (blk [.setTrue "identifierSet", .brk])
            (blk [
              .ite .curKw
                (blk [.setErr, .brk])
                (blk [.ite (.unset "identifierSet") (blk [.appendCur "identifier"]) (blk [])])])])])]

/-- `parseTypeDefAxis`, a2l/type_def_axis.go:38-168. -/
def parseTypeDefAxis : Stmt :=
  blk [
    .loop (blk [
      .next,
      switchRet [
          (byteOrderToken, blk [.callField "byteOrder" .parseByteOrder, .ite .errNe (blk [.brk]) (blk [])]),
          (depositToken, blk [.callField "deposit" .parseDeposit, .ite .errNe (blk [.brk]) (blk [])]),
          (extendedLimitsToken, blk [
            .callField "extendedLimits" .parseExtendedLimits,
            .ite .errNe (blk [.brk]) (blk [])]),
          (formatToken, blk [.callField "format" .parseFormat, .ite .errNe (blk [.brk]) (blk [])]),
          (monotonyToken, blk [.callField "monotony" .parseMonotony, .ite .errNe (blk [.brk]) (blk [])]),
          (physUnitToken, blk [.callField "physUnit" .parsePhysUnit, .ite .errNe (blk [.brk]) (blk [])]),
          (stepSizeToken, blk [.callField "stepSize" .parseStepSize, .ite .errNe (blk [.brk]) (blk [])])]
        (blk [
          .ite (.curIs emptyToken)
            (blk [.setErr, .brk])
            (blk [
              .ite (.curIs endTypeDefAxisToken)
                (blk [.brk])
                (blk [
                  .ite .curKw
                    (blk [.setErr, .brk])
                    (blk [
                      .ite (.unset "nameSet")
                        (blk [.storeCur "name", .setTrue "nameSet"])
                        (blk [
                          .ite (.unset "longIdentifierSet")
                            (blk [.storeCur "LongIdentifier", .setTrue "longIdentifierSet"])
                            (blk [
                              .ite (.unset "inputQuantitySet")
                                (blk [.storeCur "inputQuantity", .setTrue "inputQuantitySet"])
                                (blk [
                                  .ite (.unset "recordLayoutSet")
                                    (blk [.storeCur "recordLayout", .setTrue "recordLayoutSet"])
                                    (blk [
                                      .ite (.unset "maxDiffSet")
                                        (blk [
                                          .conv .float,
                                          .ite .errNe (blk [.brk]) (blk []),
                                          .store "maxDiff" .same,
                                          .setTrue "maxDiffSet"])
                                        (blk [
                                          .ite (.unset "conversionSet")
                                            (blk [
                                              .storeCur "conversion",
                                              .setTrue "conversionSet"])
                                            (blk [
                                              .ite (.unset "maxAxisPointsSet")
                                                (blk [
                                                  .conv (.uint 16),
                                                  .ite .errNe (blk [.brk]) (blk []),
                                                  .store "maxAxisPoints" (.uint 16),
                                                  .setTrue "maxAxisPointsSet"])
                                                (blk [
                                                  .ite (.unset "lowerLimitSet")
                                                    (blk [
                                                      .conv .float,
                                                      .ite .errNe (blk [.brk]) (blk []),
                                                      .store "lowerLimit" .same,
                                                      .setTrue "lowerLimitSet"])
                                                    (blk [
                                                      .ite (.unset "upperLimitSet")
                                                        (blk [
                                                          .conv .float,
                                                          .ite .errNe (blk [.brk]) (blk []),
                                                          .store "upperLimit" .same,
                                                          .setTrue "upperLimitSet"])
                                                        (blk [])])])])])])])])])])])])])])]

/-- `parseTypeDefBlob`, a2l/type_def_blob.go:20-66. -/
def parseTypeDefBlob : Stmt :=
  blk [
    .loop (blk [
      .next,
      switchRet [
          (addressTypeToken, blk [.enumField "addressType" parseAddrTypeEnum, .ite .errNe (blk [.brk]) (blk [])])]
        (blk [
          .ite (.curIs emptyToken)
            (blk [.setErr, .brk])
            (blk [
              .ite (.curIs endTypeDefBlobToken)
                (blk [.brk])
                (blk [
                  .ite .curKw
                    (blk [.setErr, .brk])
                    (blk [
                      .ite (.unset "nameSet")
                        (blk [.storeCur "name", .setTrue "nameSet"])
                        (blk [
                          .ite (.unset "longIdentifierSet")
                            (blk [.storeCur "longIdentifier", .setTrue "longIdentifierSet"])
                            (blk [
                              .ite (.unset "sizeSet")
                                (blk [
                                  .conv (.uint 32),
                                  .ite .errNe (blk [.brk]) (blk []),
                                  .store "size" (.uint 32),
                                  .setTrue "sizeSet"])
                                (blk [])])])])])])])])]

/-- `parseTypeDefCharacteristic`, a2l/type_def_characteristic.go:40-194. -/
def parseTypeDefCharacteristic : Stmt :=
  blk [
    .loop (blk [
      .next,
      switchRet [
          (beginAxisDescrToken, blk [
            .callBuf .parseAxisDescr,
            .ite .errNe (blk [.brk]) (blk []),
            .append "axisDescr" .same]),
          (bitMaskToken, blk [.callField "bitMask" .parseBitMask, .ite .errNe (blk [.brk]) (blk [])]),
          (byteOrderToken, blk [.callField "byteOrder" .parseByteOrder, .ite .errNe (blk [.brk]) (blk [])]),
          (discreteToken, blk [.callField "discrete" .parseDiscrete, .ite .errNe (blk [.brk]) (blk [])]),
          (displayIdentifierToken, blk [.enumField "encoding" parseEncodingEnum, .ite .errNe (blk [.brk]) (blk [])]),
          (extendedLimitsToken, blk [
            .callField "extendedLimits" .parseExtendedLimits,
            .ite .errNe (blk [.brk]) (blk [])]),
          (formatToken, blk [.callField "format" .parseFormat, .ite .errNe (blk [.brk]) (blk [])]),
          (matrixDimToken, blk [.callField "matrixDim" .parseMatrixDim, .ite .errNe (blk [.brk]) (blk [])]),
          (numberToken, blk [.callField "number" .parseNumber, .ite .errNe (blk [.brk]) (blk [])]),
          (physUnitToken, blk [.callField "physUnit" .parsePhysUnit, .ite .errNe (blk [.brk]) (blk [])]),
          (stepSizeToken, blk [.callField "stepSize" .parseStepSize, .ite .errNe (blk [.brk]) (blk [])])]
        (blk [
          .ite (.curIs emptyToken)
            (blk [.setErr, .brk])
            (blk [
              .ite (.curIs endTypeDefCharacteristicToken)
                (blk [.brk])
                (blk [
                  .ite .curKw
                    (blk [.setErr, .brk])
                    (blk [
                      .ite (.unset "nameSet")
                        (blk [.storeCur "name", .setTrue "nameSet"])
                        (blk [
                          .ite (.unset "longIdentifierSet")
                            (blk [.storeCur "LongIdentifier", .setTrue "longIdentifierSet"])
                            (blk [
                              .ite (.unset "TypeSet")
                                (blk [
                                  .enumField "Type" parseTypeEnum,
                                  .ite .errNe (blk [.brk]) (blk []),
                                  .setTrue "TypeSet"])
                                (blk [
                                  .ite (.unset "recordLayoutSet")
                                    (blk [.storeCur "recordLayout", .setTrue "recordLayoutSet"])
                                    (blk [
                                      .ite (.unset "maxDiffSet")
                                        (blk [
                                          .conv .float,
                                          .ite .errNe (blk [.brk]) (blk []),
                                          .store "maxDiff" .same,
                                          .setTrue "maxDiffSet"])
                                        (blk [
                                          .ite (.unset "conversionSet")
                                            (blk [
                                              .storeCur "conversion",
                                              .setTrue "conversionSet"])
                                            (blk [
                                              .ite (.unset "lowerLimitSet")
                                                (blk [
                                                  .conv .float,
                                                  .ite .errNe (blk [.brk]) (blk []),
                                                  .store "lowerLimit" .same,
                                                  .setTrue "lowerLimitSet"])
                                                (blk [
                                                  .ite (.unset "upperLimitSet")
                                                    (blk [
                                                      .conv .float,
                                                      .ite .errNe (blk [.brk]) (blk []),
                                                      .store "upperLimit" .same,
                                                      .setTrue "upperLimitSet"])
                                                    (blk [])])])])])])])])])])])])])]

/-- `parseTypeDefMeasurement`, a2l/type_def_measurement.go:38-182. -/
def parseTypeDefMeasurement : Stmt :=
  blk [
    .loop (blk [
      .next,
      switchRet [
          (bitMaskToken, blk [.callField "bitMask" .parseBitMask, .ite .errNe (blk [.brk]) (blk [])]),
          (beginBitOperationToken, blk [.callField "bitOperation" .parseBitOperation, .ite .errNe (blk [.brk]) (blk [])]),
          (byteOrderToken, blk [.callField "byteOrder" .parseByteOrder, .ite .errNe (blk [.brk]) (blk [])]),
          (discreteToken, blk [.callField "discrete" .parseDiscrete, .ite .errNe (blk [.brk]) (blk [])]),
          (errorMaskToken, blk [.callField "errorMask" .parseErrorMask, .ite .errNe (blk [.brk]) (blk [])]),
          (formatToken, blk [.callField "format" .parseFormat, .ite .errNe (blk [.brk]) (blk [])]),
          (layoutToken, blk [.callField "layout" .parseLayout, .ite .errNe (blk [.brk]) (blk [])]),
          (matrixDimToken, blk [.callField "matrixDim" .parseMatrixDim, .ite .errNe (blk [.brk]) (blk [])]),
          (physUnitToken, blk [.callField "physUnit" .parsePhysUnit, .ite .errNe (blk [.brk]) (blk [])])]
        (blk [
          .ite (.curIs emptyToken)
            (blk [.setErr, .brk])
            (blk [
              .ite (.curIs endTypeDefMeasurementToken)
                (blk [.brk])
                (blk [
                  .ite .curKw
                    (blk [.setErr, .brk])
                    (blk [
                      .ite (.unset "nameSet")
                        (blk [.storeCur "name", .setTrue "nameSet"])
                        (blk [
                          .ite (.unset "longIdentifierSet")
                            (blk [.storeCur "longIdentifier", .setTrue "longIdentifierSet"])
                            (blk [
                              .ite (.unset "datatypeSet")
                                (blk [
                                  .enumField "datatype" parseDataTypeEnum,
                                  .ite .errNe (blk [.brk]) (blk []),
                                  .setTrue "datatypeSet"])
                                (blk [
                                  .ite (.unset "conversionSet")
                                    (blk [.storeCur "conversion"])
                                    (blk [
                                      .ite (.unset "resolutionSet")
                                        (blk [
                                          .conv (.uint 16),
                                          .ite .errNe (blk [.brk]) (blk []),
                                          .store "resolution" (.uint 16),
                                          .setTrue "resolutionSet"])
                                        (blk [
                                          .ite (.unset "accuracySet")
                                            (blk [
                                              .conv .float,
                                              .ite .errNe (blk [.brk]) (blk []),
                                              .store "accuracy" .same,
                                              .setTrue "accuracySet"])
                                            (blk [
                                              .ite (.unset "lowerLimitSet")
                                                (blk [
                                                  .conv .float,
                                                  .ite .errNe (blk [.brk]) (blk []),
                                                  .store "lowerLimit" .same,
                                                  .setTrue "lowerLimitSet"])
                                                (blk [
                                                  .ite (.unset "upperLimitSet")
                                                    (blk [
                                                      .conv .float,
                                                      .ite .errNe (blk [.brk]) (blk []),
                                                      .store "upperLimit" .same,
                                                      .setTrue "upperLimitSet"])
                                                    (blk [])])])])])])])])])])])])])]

/-- `parseTypeDefStructure`, a2l/type_def_structure.go:23-92. -/
def parseTypeDefStructure : Stmt :=
  blk [
    .loop (blk [
      .next,
      switchRet [
          (addressTypeToken, blk [.enumField "addressType" parseAddrTypeEnum, .ite .errNe (blk [.brk]) (blk [])]),
          (consistentExchangeToken, blk [
            .callField "consistentExchange" .parseConsistentExchangeKeyword,
            .ite .errNe (blk [.brk]) (blk [])]),
          (beginStructureComponentToken, blk [
            .callBuf .parseStructureComponent,
            .ite .errNe (blk [.brk]) (blk []),
            .append "structureComponent" .same]),
          (symbolTypeLinkToken, blk [
            .callField "symbolTypeLink" .parseSymbolTypeLink,
            .ite .errNe (blk [.brk]) (blk [])])]
        (blk [
          .ite (.curIs emptyToken)
            (blk [.setErr, .brk])
            (blk [
              .ite (.curIs endTypeDefStructureToken)
                (blk [.brk])
                (blk [
                  .ite .curKw
                    (blk [.setErr, .brk])
                    (blk [
                      .ite (.unset "nameSet")
                        (blk [.storeCur "name", .setTrue "nameSet"])
                        (blk [
                          .ite (.unset "longIdentifierSet")
                            (blk [.storeCur "longIdentifier", .setTrue "longIdentifierSet"])
                            (blk [
                              .ite (.unset "sizeSet")
                                (blk [
                                  .conv (.uint 32),
                                  .ite .errNe (blk [.brk]) (blk []),
                                  .store "size" (.uint 32),
                                  .setTrue "sizeSet"])
                                (blk [])])])])])])])])]

/-- `parseUnit`, a2l/unit.go:23-85. -/
def parseUnit : Stmt :=
  blk [
    .loop (blk [
      .next,
      switchRet [
          (refUnitToken, blk [.callField "refUnit" .parseRefUnit, .ite .errNe (blk [.brk]) (blk [])]),
          (siExponentsToken, blk [.callField "siExponents" .parseSiExponents, .ite .errNe (blk [.brk]) (blk [])]),
          (unitConversionToken, blk [
            .callField "unitConversion" .parseUnitConversion,
            .ite .errNe (blk [.brk]) (blk [])])]
        (blk [
          .ite (.curIs emptyToken)
            (blk [.setErr, .brk])
            (blk [
              .ite (.curIs endUnitToken)
                (blk [.brk])
                (blk [
                  .ite .curKw
                    (blk [.setErr, .brk])
                    (blk [
                      .ite (.unset "nameSet")
                        (blk [.storeCur "name", .setTrue "nameSet"])
                        (blk [
                          .ite (.unset "longIdentifierSet")
                            (blk [.storeCur "longIdentifier", .setTrue "nameSet"])
                            (blk [
                              .ite (.unset "displaySet")
                                (blk [.storeCur "display", .setTrue "displaySet"])
                                (blk [
                                  .ite (.unset "TypeSet")
                                    (blk [
                                      .enumField "Type" parseTypeEnum,
                                      .ite .errNe (blk [.brk]) (blk []),
                                      .setTrue "TypeSet"])
                                    (blk [])])])])])])])])])]

/-- `parseUnitConversion`, a2l/unit_conversion.go:17-55. -/
def parseUnitConversion : Stmt :=
  blk [
    .loop (blk [
      .next,
      .ite (.curIs emptyToken)
        (blk [.setErr, .brk])
        (blk [
          .ite .curKw
            (blk [.setErr, .brk])
            (blk [
              .ite (.unset "gradientSet")
                (blk [
                  .conv .float,
                  .ite .errNe (blk [.brk]) (blk []),
                  .store "gradient" .same,
                  .setTrue "gradientSet"])
                (blk [
                  .ite (.unset "offsetSet")
                    (blk [
                      .conv .float,
                      .ite .errNe (blk [.brk]) (blk []),
                      .store "offset" .same,
                      .setTrue "offsetSet",
                      .brk])
                    (blk [])])])])])]

/-- `parseUser`, a2l/user.go:14-31. -/
def parseUser : Stmt :=
  blk [
    .next,
    .ite (.curIs emptyToken)
      (blk [.setErr])
      (blk [
        .ite .curKw
          (blk [.setErr])
          (blk [
            .ite (.unset "userNameSet")
              (blk [.storeCur "userName", .setTrue "userNameSet"])
              (blk [])])])]

/-- `parseUserRights`, a2l/user_rights.go:16-57. -/
def parseUserRights : Stmt :=
  blk [
    .loop (blk [
      .next,
      switchRet [
          (readOnlyToken, blk [.callField "readOnly" .parseReadOnly, .ite .errNe (blk [.brk]) (blk [])]),
          (beginRefGroupToken, blk [
            .callBuf .parseRefGroup,
            .ite .errNe (blk [.brk]) (blk []),
            .append "refGroup" .same])]
        (blk [
          .ite (.curIs emptyToken)
            (blk [.setErr, .brk])
            (blk [
              .ite (.curIs endUserRightsToken)
                (blk [.brk])
                (blk [
                  .ite .curKw
                    (blk [.setErr, .brk])
                    (blk [
                      .ite (.unset "userLevelIdSet")
                        (blk [.storeCur "userLevelId", .setTrue "userLevelIdSet"])
                        (blk [])])])])])])]

/-- `parseVarAddress`, a2l/var_address.go:14-37. -/
def parseVarAddress : Stmt :=
  blk [
    .loop (blk [
      .next,
      .ite (.curIs emptyToken)
        (blk [.setErr, .brk])
        (blk [
          .ite (.curIs endVarAddressToken)
            (blk [.setTrue "addressSet", .brk])
            (blk [
              .ite .curKw
                (blk [.setErr, .brk])
                (blk [.ite (.unset "addressSet") (blk [.appendCur "address"]) (blk [])])])])])]

/-- `parseVarCharacteristic`, a2l/var_characteristic.go:17-55. -/
def parseVarCharacteristic : Stmt :=
  blk [
    .loop (blk [
      .next,
      switchRet [
          (beginVarAddressToken, blk [
            .callBuf .parseVarAddress,
            .ite .errNe (blk [.brk]) (blk []),
            .append "varAddress" .same])]
        (blk [
          .ite (.curIs emptyToken)
            (blk [.setErr, .brk])
            (blk [
              .ite (.curIs endVarCharacteristicToken)
                (blk [.setTrue "identCriterionNameSet", .brk])
                (blk [
                  .ite .curKw
                    (blk [.setErr, .brk])
                    (blk [
                      .ite (.unset "nameSet")
                        (blk [.storeCur "name", .setTrue "nameSet"])
                        (blk [
                          .ite (.unset "identCriterionNameSet")
                            (blk [.appendCur "identCriterionName"])
                            (blk [])])])])])])])]

/-- `parseVarCriterion`, a2l/var_criterion.go:20-67. -/
def parseVarCriterion : Stmt :=
  blk [
    .loop (blk [
      .next,
      switchRet [
          (varMeasurementToken, blk [
            .callField "varMeasurement" .parseVarMeasurement,
            .ite .errNe (blk [.brk]) (blk [])]),
          (varSelectionCharacteristicToken, blk [
            .callField "varSelectionCharacteristic" .parseVarSelectionCharacteristic,
            .ite .errNe (blk [.brk]) (blk [])])]
        (blk [
          .ite (.curIs emptyToken)
            (blk [.setErr, .brk])
            (blk [
              .ite (.curIs endVarCriterionToken)
                (blk [.setTrue "valueSet", .brk])
                (blk [
                  .ite .curKw
                    (blk [.setErr, .brk])
                    (blk [
                      .ite (.unset "nameSet")
                        (blk [.storeCur "name", .setTrue "nameSet"])
                        (blk [
                          .ite (.unset "longIdentifierSet")
                            (blk [.storeCur "longIdentifier", .setTrue "longIdentifierSet"])
                            (blk [.ite (.unset "valueSet") (blk [.appendCur "value"]) (blk [])])])])])])])])]

/-- `parseVarForbiddenComb`, a2l/var_forbidden_comb.go:16-48. -/
def parseVarForbiddenComb : Stmt :=
  blk [
    .loop (blk [
      .next,
      .ite (.curIs emptyToken)
        (blk [.setErr, .brk])
        (blk [
          .ite (.curIs endVarForbiddenCombToken)
            (blk [.setTrue "criterionNameSet", .setTrue "criterionValueSet", .brk])
            (blk [
              .ite .curKw
                (blk [.setErr, .brk])
                (blk [
                  .ite (.or (.unset "criterionNameSet") (.unset "criterionValueSet"))
                    (blk [
                      .appendCur "criterionName",
                      .next,
                      .ite (.retIs emptyToken)
                        (blk [.setErr, .brk])
                        (blk [.appendCur "criterionValue"])])
                    (blk [])])])])])]

/-- `parseVarMeasurement`, a2l/var_measurement.go:14-30. -/
def parseVarMeasurement : Stmt :=
  blk [
    .next,
    .ite (.curIs emptyToken)
      (blk [.setErr])
      (blk [
        .ite .curKw
          (blk [.setErr])
          (blk [.ite (.unset "nameSet") (blk [.storeCur "name", .setTrue "nameSet"]) (blk [])])])]

/-- `parseVarNaming`, a2l/var_naming.go:14-33. -/
def parseVarNaming : Stmt :=
  blk [
    .next,
    .ite (.curIs emptyToken)
      (blk [.setErr])
      (blk [
        .ite .curKw
          (blk [.setErr])
          (blk [
            .ite (.unset "tagSet")
              (blk [
                .enumField "tag" parseTagEnum,
                .ite .errNe (blk []) (blk []),
                .setTrue "tagSet"])
              (blk [])])])]

/-- `parseVarSelectionCharacteristic`, a2l/var_selection_characteristic.go:14-30. -/
def parseVarSelectionCharacteristic : Stmt :=
  blk [
    .next,
    .ite (.curIs emptyToken)
      (blk [.setErr])
      (blk [
        .ite .curKw
          (blk [.setErr])
          (blk [.ite (.unset "nameSet") (blk [.storeCur "name", .setTrue "nameSet"]) (blk [])])])]

/-- `parseVarSeparator`, a2l/var_separator.go:14-30. -/
def parseVarSeparator : Stmt :=
  blk [
    .next,
    .ite (.curIs emptyToken)
      (blk [.setErr])
      (blk [
        .ite .curKw
          (blk [.setErr])
          (blk [
            .ite (.unset "separatorSet")
              (blk [.storeCur "separator", .setTrue "separatorSet"])
              (blk [])])])]

/-- `parseVariantCoding`, a2l/variant_coding.go:18-81. -/
def parseVariantCoding : Stmt :=
  blk [
    .loop (blk [
      .next,
      switchRet [
          (beginVarCharacteristicToken, blk [
            .callBuf .parseVarCharacteristic,
            .ite .errNe (blk [.brk]) (blk []),
            .append "varCharacteristic" .same]),
          (beginVarCriterionToken, blk [
            .callBuf .parseVarCriterion,
            .ite .errNe (blk [.brk]) (blk []),
            .append "varCriterion" .same]),
          (beginVarForbiddenCombToken, blk [
            .callBuf .parseVarForbiddenComb,
            .ite .errNe (blk [.brk]) (blk []),
            .append "varForbiddenComb" .same]),
          (varNamingToken, blk [.callField "varNaming" .parseVarNaming, .ite .errNe (blk [.brk]) (blk [])])]
        (blk [
          .ite (.curIs emptyToken)
            (blk [.setErr, .brk])
            (blk [
              .ite (.curIs endVariantCodingToken)
                (blk [.brk])
                (blk [
                  .ite .curKw
                    (blk [.setErr, .brk])
                    (blk [
                      .ite (.unset "varSeparatorSet")
                        (blk [
                          .callField "varSeparator" .parseVarSeparator,
                          .ite .errNe (blk [.brk]) (blk []),
                          .setTrue "varSeparatorSet"])
                        (blk [])])])])])])]

/-- `parseVersion`, a2l/version.go:14-30. -/
def parseVersion : Stmt :=
  blk [
    .next,
    .ite (.curIs emptyToken)
      (blk [.setErr])
      (blk [
        .ite .curKw
          (blk [.setErr])
          (blk [
            .ite (.unset "versionIdentifierSet")
              (blk [.storeCur "versionIdentifier", .setTrue "versionIdentifierSet"])
              (blk [])])])]

/-- `parseVirtual`, a2l/virtual.go:14-37. -/
def parseVirtual : Stmt :=
  blk [
    .loop (blk [
      .next,
      .ite (.curIs emptyToken)
        (blk [.setErr, .brk])
        (blk [
          .ite (.curIs endVirtualToken)
            (blk [.setTrue "measuringChannelSet", .brk])
            (blk [
              .ite .curKw
                (blk [.setErr, .brk])
                (blk [
                  .ite (.unset "measuringChannelSet")
                    (blk [.appendCur "measuringChannel"])
                    (blk [])])])])])]

/-- `parseVirtualCharacteristic`, a2l/virtual_characteristic.go:16-43. -/
def parseVirtualCharacteristic : Stmt :=
  blk [
    .loop (blk [
      .next,
      .ite (.curIs emptyToken)
        (blk [.setErr, .brk])
        (blk [
          .ite (.curIs endVirtualCharacteristicToken)
            (blk [.setTrue "characteristicSet", .brk])
            (blk [
              .ite .curKw
                (blk [.setErr, .brk])
                (blk [
                  .ite (.unset "formulaSet")
                    (blk [.storeCur "formula", .setTrue "formulaSet"])
                    (blk [
                      .ite (.unset "characteristicSet")
                        (blk [.appendCur "characteristic"])
                        (blk [])])])])])])]

/-- The statement list of each parse function. `parseModuleMultithreaded` is not a
sequential program; calls to it are answered by the environment (see `Lang.run`). -/
def body : PName → Stmt
  | .parseA2l => parseA2l
  | .parseA2ML => parseA2ML
  | .parseA2MLVersion => parseA2MLVersion
  | .parseAddrEpk => parseAddrEpk
  | .parseAlignmentByte => parseAlignmentByte
  | .parseAlignmentFloat16Ieee => parseAlignmentFloat16Ieee
  | .parseAlignmentFloat32Ieee => parseAlignmentFloat32Ieee
  | .parseAlignmentFloat64Ieee => parseAlignmentFloat64Ieee
  | .parseAlignmentInt64 => parseAlignmentInt64
  | .parseAlignmentLong => parseAlignmentLong
  | .parseAlignmentWord => parseAlignmentWord
  | .parseAnnotation => parseAnnotation
  | .parseAnnotationLabel => parseAnnotationLabel
  | .parseAnnotationOrigin => parseAnnotationOrigin
  | .parseAnnotationText => parseAnnotationText
  | .parseArComponent => parseArComponent
  | .parseArPrototypeOf => parseArPrototypeOf
  | .parseArraySize => parseArraySize
  | .parseASAP2Version => parseASAP2Version
  | .parseAxisDescr => parseAxisDescr
  | .parseAxisPts => parseAxisPts
  | .parseAxisPts4 => parseAxisPts4
  | .parseAxisPts5 => parseAxisPts5
  | .parseAxisPtsRef => parseAxisPtsRef
  | .parseAxisPtsX => parseAxisPtsX
  | .parseAxisPtsY => parseAxisPtsY
  | .parseAxisPtsZ => parseAxisPtsZ
  | .parseAxisRescaleX => parseAxisRescaleX
  | .parseBitMask => parseBitMask
  | .parseBitOperation => parseBitOperation
  | .parseBlob => parseBlob
  | .parseByteOrder => parseByteOrder
  | .parseCalibrationHandle => parseCalibrationHandle
  | .parseCalibrationHandleText => parseCalibrationHandleText
  | .parseCalibrationMethod => parseCalibrationMethod
  | .parseCharacteristic => parseCharacteristic
  | .parseCoeffs => parseCoeffs
  | .parseCoeffsLinear => parseCoeffsLinear
  | .parseComparisonQuantity => parseComparisonQuantity
  | .parseCompuMethod => parseCompuMethod
  | .parseCompuTab => parseCompuTab
  | .parseCompuTabRef => parseCompuTabRef
  | .parseCompuVtab => parseCompuVtab
  | .parseCompuVtabRange => parseCompuVtabRange
  | .parseConsistentExchangeKeyword => parseConsistentExchangeKeyword
  | .parseCpuType => parseCpuType
  | .parseCurveAxisRef => parseCurveAxisRef
  | .parseCustomer => parseCustomer
  | .parseCustomerNo => parseCustomerNo
  | .parseDataSize => parseDataSize
  | .parseDefCharacteristic => parseDefCharacteristic
  | .parseDefaultValue => parseDefaultValue
  | .parseDefaultValueNumeric => parseDefaultValueNumeric
  | .parseDependentCharacteristic => parseDependentCharacteristic
  | .parseDeposit => parseDeposit
  | .parseDiscrete => parseDiscrete
  | .parseDisplayIdentifier => parseDisplayIdentifier
  | .parseDistOp4 => parseDistOp4
  | .parseDistOp5 => parseDistOp5
  | .parseDistOpX => parseDistOpX
  | .parseDistOpY => parseDistOpY
  | .parseDistOpZ => parseDistOpZ
  | .parseEcu => parseEcu
  | .parseEcuAddress => parseEcuAddress
  | .parseECUAddressExtension => parseECUAddressExtension
  | .parseEcuCalibrationOffset => parseEcuCalibrationOffset
  | .parseEpk => parseEpk
  | .parseErrorMask => parseErrorMask
  | .parseExtendedLimits => parseExtendedLimits
  | .parseFixAxisPar => parseFixAxisPar
  | .parseFixAxisParDist => parseFixAxisParDist
  | .parseFixAxisParList => parseFixAxisParList
  | .parseFixNoAxisPts4 => parseFixNoAxisPts4
  | .parseFixNoAxisPts5 => parseFixNoAxisPts5
  | .parseFixNoAxisPtsX => parseFixNoAxisPtsX
  | .parseFixNoAxisPtsY => parseFixNoAxisPtsY
  | .parseFixNoAxisPtsZ => parseFixNoAxisPtsZ
  | .parseFncValues => parseFncValues
  | .parseFormat => parseFormat
  | .parseFormula => parseFormula
  | .parseFormulaInv => parseFormulaInv
  | .parseFrame => parseFrame
  | .parseFrameMeasurement => parseFrameMeasurement
  | .parseFunction => parseFunction
  | .parseFunctionList => parseFunctionList
  | .parseFunctionVersion => parseFunctionVersion
  | .parseGroup => parseGroup
  | .parseGuardRails => parseGuardRails
  | .parseHeader => parseHeader
  | .parseIdentification => parseIdentification
  | .parseIfData => parseIfData
  | .parseInMeasurement => parseInMeasurement
  | .parseInstance => parseInstance
  | .parseLayout => parseLayout
  | .parseLeftShift => parseLeftShift
  | .parseLimits => parseLimits
  | .parseLocMeasurement => parseLocMeasurement
  | .parseMapList => parseMapList
  | .parseMatrixDim => parseMatrixDim
  | .parseMaxGrad => parseMaxGrad
  | .parseMaxRefresh => parseMaxRefresh
  | .parseMeasurement => parseMeasurement
  | .parseMemoryLayout => parseMemoryLayout
  | .parseMemorySegment => parseMemorySegment
  | .parseModCommon => parseModCommon
  | .parseModPar => parseModPar
  | .parseModelLink => parseModelLink
  | .parseModule => parseModule
  | .parseMonotony => parseMonotony
  | .parseNoAxisPts4 => parseNoAxisPts4
  | .parseNoAxisPts5 => parseNoAxisPts5
  | .parseNoAxisPtsX => parseNoAxisPtsX
  | .parseNoAxisPtsY => parseNoAxisPtsY
  | .parseNoAxisPtsZ => parseNoAxisPtsZ
  | .parseNoOfInterfaces => parseNoOfInterfaces
  | .parseNoRescaleX => parseNoRescaleX
  | .parseNumber => parseNumber
  | .parseOffset4 => parseOffset4
  | .parseOffset5 => parseOffset5
  | .parseOffsetX => parseOffsetX
  | .parseOffsetY => parseOffsetY
  | .parseOffsetZ => parseOffsetZ
  | .parseOutMeasurement => parseOutMeasurement
  | .parseOverwrite => parseOverwrite
  | .parsePhoneNo => parsePhoneNo
  | .parsePhysUnit => parsePhysUnit
  | .parseProject => parseProject
  | .parseProjectNo => parseProjectNo
  | .parseReadOnly => parseReadOnly
  | .parseReadWrite => parseReadWrite
  | .parseRecordLayout => parseRecordLayout
  | .parseRefCharacteristic => parseRefCharacteristic
  | .parseRefGroup => parseRefGroup
  | .parseRefMeasurement => parseRefMeasurement
  | .parseRefMemorySegment => parseRefMemorySegment
  | .parseRefUnit => parseRefUnit
  | .parseReserved => parseReserved
  | .parseRightShift => parseRightShift
  | .parseRipAddr4 => parseRipAddr4
  | .parseRipAddr5 => parseRipAddr5
  | .parseRipAddrW => parseRipAddrW
  | .parseRipAddrX => parseRipAddrX
  | .parseRipAddrY => parseRipAddrY
  | .parseRipAddrZ => parseRipAddrZ
  | .parseRoot => parseRoot
  | .parseShiftOp4 => parseShiftOp4
  | .parseShiftOp5 => parseShiftOp5
  | .parseShiftOpX => parseShiftOpX
  | .parseShiftOpY => parseShiftOpY
  | .parseShiftOpZ => parseShiftOpZ
  | .parseSiExponents => parseSiExponents
  | .parseSignExtend => parseSignExtend
  | .parseSrcAddr4 => parseSrcAddr4
  | .parseSrcAddr5 => parseSrcAddr5
  | .parseSrcAddrX => parseSrcAddrX
  | .parseSrcAddrY => parseSrcAddrY
  | .parseSrcAddrZ => parseSrcAddrZ
  | .parseStaticAddressOffsets => parseStaticAddressOffsets
  | .parseStaticRecordLayout => parseStaticRecordLayout
  | .parseStatusStringRef => parseStatusStringRef
  | .parseStepSize => parseStepSize
  | .parseStructureComponent => parseStructureComponent
  | .parseSubFunction => parseSubFunction
  | .parseSubGroup => parseSubGroup
  | .parseSupplier => parseSupplier
  | .parseSymbolLink => parseSymbolLink
  | .parseSymbolTypeLink => parseSymbolTypeLink
  | .parseSystemConstant => parseSystemConstant
  | .parseTransformer => parseTransformer
  | .parseTransformerInObject => parseTransformerInObject
  | .parseTransformerOutObject => parseTransformerOutObject
  | .parseTypeDefAxis => parseTypeDefAxis
  | .parseTypeDefBlob => parseTypeDefBlob
  | .parseTypeDefCharacteristic => parseTypeDefCharacteristic
  | .parseTypeDefMeasurement => parseTypeDefMeasurement
  | .parseTypeDefStructure => parseTypeDefStructure
  | .parseUnit => parseUnit
  | .parseUnitConversion => parseUnitConversion
  | .parseUser => parseUser
  | .parseUserRights => parseUserRights
  | .parseVarAddress => parseVarAddress
  | .parseVarCharacteristic => parseVarCharacteristic
  | .parseVarCriterion => parseVarCriterion
  | .parseVarForbiddenComb => parseVarForbiddenComb
  | .parseVarMeasurement => parseVarMeasurement
  | .parseVarNaming => parseVarNaming
  | .parseVarSelectionCharacteristic => parseVarSelectionCharacteristic
  | .parseVarSeparator => parseVarSeparator
  | .parseVariantCoding => parseVariantCoding
  | .parseVersion => parseVersion
  | .parseVirtual => parseVirtual
  | .parseVirtualCharacteristic => parseVirtualCharacteristic
  | .parseModuleMultithreaded => .skip

/-- Height of the call graph below a parse function: every function only calls functions
of smaller height (checked in `Analysis.lean`). -/
def rank : PName → Nat
  | .parseA2l => 7
  | .parseA2ML => 1
  | .parseA2MLVersion => 1
  | .parseAddrEpk => 1
  | .parseAlignmentByte => 1
  | .parseAlignmentFloat16Ieee => 1
  | .parseAlignmentFloat32Ieee => 1
  | .parseAlignmentFloat64Ieee => 1
  | .parseAlignmentInt64 => 1
  | .parseAlignmentLong => 1
  | .parseAlignmentWord => 1
  | .parseAnnotation => 2
  | .parseAnnotationLabel => 1
  | .parseAnnotationOrigin => 1
  | .parseAnnotationText => 1
  | .parseArComponent => 2
  | .parseArPrototypeOf => 1
  | .parseArraySize => 1
  | .parseASAP2Version => 1
  | .parseAxisDescr => 3
  | .parseAxisPts => 3
  | .parseAxisPts4 => 1
  | .parseAxisPts5 => 1
  | .parseAxisPtsRef => 1
  | .parseAxisPtsX => 1
  | .parseAxisPtsY => 1
  | .parseAxisPtsZ => 1
  | .parseAxisRescaleX => 1
  | .parseBitMask => 1
  | .parseBitOperation => 2
  | .parseBlob => 3
  | .parseByteOrder => 1
  | .parseCalibrationHandle => 2
  | .parseCalibrationHandleText => 1
  | .parseCalibrationMethod => 3
  | .parseCharacteristic => 4
  | .parseCoeffs => 1
  | .parseCoeffsLinear => 1
  | .parseComparisonQuantity => 1
  | .parseCompuMethod => 3
  | .parseCompuTab => 2
  | .parseCompuTabRef => 1
  | .parseCompuVtab => 2
  | .parseCompuVtabRange => 2
  | .parseConsistentExchangeKeyword => 1
  | .parseCpuType => 1
  | .parseCurveAxisRef => 1
  | .parseCustomer => 1
  | .parseCustomerNo => 1
  | .parseDataSize => 1
  | .parseDefCharacteristic => 1
  | .parseDefaultValue => 1
  | .parseDefaultValueNumeric => 1
  | .parseDependentCharacteristic => 1
  | .parseDeposit => 1
  | .parseDiscrete => 1
  | .parseDisplayIdentifier => 1
  | .parseDistOp4 => 1
  | .parseDistOp5 => 1
  | .parseDistOpX => 1
  | .parseDistOpY => 1
  | .parseDistOpZ => 1
  | .parseEcu => 1
  | .parseEcuAddress => 1
  | .parseECUAddressExtension => 1
  | .parseEcuCalibrationOffset => 1
  | .parseEpk => 1
  | .parseErrorMask => 1
  | .parseExtendedLimits => 1
  | .parseFixAxisPar => 1
  | .parseFixAxisParDist => 1
  | .parseFixAxisParList => 1
  | .parseFixNoAxisPts4 => 1
  | .parseFixNoAxisPts5 => 1
  | .parseFixNoAxisPtsX => 1
  | .parseFixNoAxisPtsY => 1
  | .parseFixNoAxisPtsZ => 1
  | .parseFncValues => 1
  | .parseFormat => 1
  | .parseFormula => 2
  | .parseFormulaInv => 1
  | .parseFrame => 2
  | .parseFrameMeasurement => 1
  | .parseFunction => 3
  | .parseFunctionList => 1
  | .parseFunctionVersion => 1
  | .parseGroup => 3
  | .parseGuardRails => 1
  | .parseHeader => 2
  | .parseIdentification => 1
  | .parseIfData => 1
  | .parseInMeasurement => 1
  | .parseInstance => 3
  | .parseLayout => 1
  | .parseLeftShift => 1
  | .parseLimits => 1
  | .parseLocMeasurement => 1
  | .parseMapList => 1
  | .parseMatrixDim => 1
  | .parseMaxGrad => 1
  | .parseMaxRefresh => 1
  | .parseMeasurement => 3
  | .parseMemoryLayout => 2
  | .parseMemorySegment => 2
  | .parseModCommon => 2
  | .parseModPar => 4
  | .parseModelLink => 1
  | .parseModule => 5
  | .parseMonotony => 1
  | .parseNoAxisPts4 => 1
  | .parseNoAxisPts5 => 1
  | .parseNoAxisPtsX => 1
  | .parseNoAxisPtsY => 1
  | .parseNoAxisPtsZ => 1
  | .parseNoOfInterfaces => 1
  | .parseNoRescaleX => 1
  | .parseNumber => 1
  | .parseOffset4 => 1
  | .parseOffset5 => 1
  | .parseOffsetX => 1
  | .parseOffsetY => 1
  | .parseOffsetZ => 1
  | .parseOutMeasurement => 1
  | .parseOverwrite => 2
  | .parsePhoneNo => 1
  | .parsePhysUnit => 1
  | .parseProject => 6
  | .parseProjectNo => 1
  | .parseReadOnly => 1
  | .parseReadWrite => 1
  | .parseRecordLayout => 2
  | .parseRefCharacteristic => 1
  | .parseRefGroup => 1
  | .parseRefMeasurement => 1
  | .parseRefMemorySegment => 1
  | .parseRefUnit => 1
  | .parseReserved => 1
  | .parseRightShift => 1
  | .parseRipAddr4 => 1
  | .parseRipAddr5 => 1
  | .parseRipAddrW => 1
  | .parseRipAddrX => 1
  | .parseRipAddrY => 1
  | .parseRipAddrZ => 1
  | .parseRoot => 1
  | .parseShiftOp4 => 1
  | .parseShiftOp5 => 1
  | .parseShiftOpX => 1
  | .parseShiftOpY => 1
  | .parseShiftOpZ => 1
  | .parseSiExponents => 1
  | .parseSignExtend => 1
  | .parseSrcAddr4 => 1
  | .parseSrcAddr5 => 1
  | .parseSrcAddrX => 1
  | .parseSrcAddrY => 1
  | .parseSrcAddrZ => 1
  | .parseStaticAddressOffsets => 1
  | .parseStaticRecordLayout => 1
  | .parseStatusStringRef => 1
  | .parseStepSize => 1
  | .parseStructureComponent => 2
  | .parseSubFunction => 1
  | .parseSubGroup => 1
  | .parseSupplier => 1
  | .parseSymbolLink => 1
  | .parseSymbolTypeLink => 1
  | .parseSystemConstant => 1
  | .parseTransformer => 2
  | .parseTransformerInObject => 1
  | .parseTransformerOutObject => 1
  | .parseTypeDefAxis => 2
  | .parseTypeDefBlob => 1
  | .parseTypeDefCharacteristic => 4
  | .parseTypeDefMeasurement => 3
  | .parseTypeDefStructure => 3
  | .parseUnit => 2
  | .parseUnitConversion => 1
  | .parseUser => 1
  | .parseUserRights => 2
  | .parseVarAddress => 1
  | .parseVarCharacteristic => 2
  | .parseVarCriterion => 2
  | .parseVarForbiddenComb => 1
  | .parseVarMeasurement => 1
  | .parseVarNaming => 1
  | .parseVarSelectionCharacteristic => 1
  | .parseVarSeparator => 1
  | .parseVariantCoding => 3
  | .parseVersion => 1
  | .parseVirtual => 1
  | .parseVirtualCharacteristic => 1
  | .parseModuleMultithreaded => 0

end Verif.A2l
