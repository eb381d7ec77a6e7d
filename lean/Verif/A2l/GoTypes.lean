import Verif.A2l.GoType

/-!
The struct types of package a2l with all their fields, exported or not, in the order of their declarations
(generated by tools/gotypes.py from the struct declarations).
-/

namespace Verif.A2l
open GoType

/-- a2l/asap2_version.go:14-19 (`type asap2Version struct`) -/
def T_asap2Version : GoType := .struct [("versionNo", (.uint 16)), ("versionNoSet", .bool), ("upgradeNo", (.uint 16)), ("upgradeNoSet", .bool)]

/-- a2l/a2ml_version.go:23-30 (`type a2mlVersion struct`) -/
def T_a2mlVersion : GoType := .struct [("VersionNo", (.uint 16)), ("versionNoSet", .bool), ("UpgradeNo", (.uint 16)), ("upgradeNoSet", .bool)]

/-- a2l/project_no.go:9-12 (`type projectNo struct`) -/
def T_projectNo : GoType := .struct [("projectNumber", .str), ("projectNumberSet", .bool)]

/-- a2l/version.go:9-12 (`type version struct`) -/
def T_version : GoType := .struct [("versionIdentifier", .str), ("versionIdentifierSet", .bool)]

/-- a2l/header.go:9-14 (`type header struct`) -/
def T_header : GoType := .struct [("comment", .str), ("commentSet", .bool), ("projectNo", T_projectNo), ("version", T_version)]

/-- a2l/a2ml.go:9-13 (`type a2ml struct`) -/
def T_a2ml : GoType := .struct [("formatSpecification", .str), ("formatSpecificationSet", .bool)]

/-- a2l/annotation_label.go:10-13 (`type annotationLabel struct`) -/
def T_annotationLabel : GoType := .struct [("label", .str), ("labelSet", .bool)]

/-- a2l/annotation_origin.go:10-13 (`type annotationOrigin struct`) -/
def T_annotationOrigin : GoType := .struct [("origin", .str), ("originSet", .bool)]

/-- a2l/annotation_text.go:11-14 (`type annotationText struct`) -/
def T_annotationText : GoType := .struct [("annotationText", .str), ("annotationTextSet", .bool)]

/-- a2l/annotation.go:11-15 (`type annotation struct`) -/
def T_annotation : GoType := .struct [("annotationLabel", T_annotationLabel), ("annotationOrigin", T_annotationOrigin), ("annotationText", (.slice T_annotationText))]

/-- a2l/byte_order.go:9-12 (`type ByteOrder struct`) -/
def T_ByteOrder : GoType := .struct [("ByteOrder", .str), ("ByteOrderSet", .bool)]

/-- a2l/deposit.go:9-12 (`type deposit struct`) -/
def T_deposit : GoType := .struct [("mode", .str), ("modeSet", .bool)]

/-- a2l/display_identifier.go:9-12 (`type DisplayIdentifier struct`) -/
def T_DisplayIdentifier : GoType := .struct [("displayName", .str), ("displayNameSet", .bool)]

/-- a2l/ecu_address_extension.go:20-23 (`type ecuAddressExtension struct`) -/
def T_ecuAddressExtension : GoType := .struct [("extension", (.int 16)), ("extensionSet", .bool)]

/-- a2l/extended_limits.go:10-15 (`type extendedLimits struct`) -/
def T_extendedLimits : GoType := .struct [("lowerLimit", .float), ("lowerLimitSet", .bool), ("upperLimit", .float), ("upperLimitSet", .bool)]

/-- a2l/format.go:9-12 (`type format struct`) -/
def T_format : GoType := .struct [("formatString", .str), ("formatStringSet", .bool)]

/-- a2l/function_list.go:9-12 (`type FunctionList struct`) -/
def T_FunctionList : GoType := .struct [("name", (.slice .str)), ("nameSet", .bool)]

/-- a2l/guard_rails.go:9-12 (`type guardRailsKeyword struct`) -/
def T_guardRailsKeyword : GoType := .struct [("value", .bool), ("valueSet", .bool)]

/-- a2l/if_data.go:9-14 (`type IfData struct`) -/
def T_IfData : GoType := .struct [("name", .str), ("nameSet", .bool), ("data", (.slice .str)), ("dataSet", .bool)]

/-- a2l/monotony.go:9-12 (`type Monotony struct`) -/
def T_Monotony : GoType := .struct [("monotony", .str), ("monotonySet", .bool)]

/-- a2l/model_link.go:22-26 (`type modelLink struct`) -/
def T_modelLink : GoType := .struct [("modelName", .str), ("modelNameSet", .bool)]

/-- a2l/phys_unit.go:9-12 (`type physUnit struct`) -/
def T_physUnit : GoType := .struct [("unit", .str), ("unitSet", .bool)]

/-- a2l/read_only.go:5-8 (`type readOnlyKeyword struct`) -/
def T_readOnlyKeyword : GoType := .struct [("value", .bool), ("valueSet", .bool)]

/-- a2l/ref_memory_segment.go:9-12 (`type refMemorySegment struct`) -/
def T_refMemorySegment : GoType := .struct [("name", .str), ("nameSet", .bool)]

/-- a2l/step_size.go:10-13 (`type StepSize struct`) -/
def T_StepSize : GoType := .struct [("stepSize", .float), ("stepSizeSet", .bool)]

/-- a2l/symbol_link.go:10-15 (`type symbolLink struct`) -/
def T_symbolLink : GoType := .struct [("symbolName", .str), ("symbolNameSet", .bool), ("offset", (.int 32)), ("offsetSet", .bool)]

/-- a2l/axis_pts.go:14-73 (`type axisPts struct`) -/
def T_axisPts : GoType := .struct [("name", .str), ("nameSet", .bool), ("longIdentifier", .str), ("longIdentifierSet", .bool), ("address", .str),
  ("addressSet", .bool), ("inputQuantity", .str), ("inputQuantitySet", .bool), ("depositIdent", .str), ("depositIdentSet", .bool),
  ("maxDiff", .float), ("maxDiffSet", .bool), ("conversion", .str), ("conversionSet", .bool), ("maxAxisPoints", (.uint 16)),
  ("maxAxisPointsSet", .bool), ("lowerLimit", .float), ("lowerLimitSet", .bool), ("upperLimit", .float), ("upperLimitSet", .bool),
  ("annotation", (.slice T_annotation)), ("byteOrder", T_ByteOrder), ("calibrationAccess", .str), ("deposit", T_deposit),
  ("displayIdentifier", T_DisplayIdentifier), ("ecuAddressExtension", T_ecuAddressExtension), ("extendedLimits", T_extendedLimits),
  ("format", T_format), ("functionList", (.slice T_FunctionList)), ("guardRails", T_guardRailsKeyword),
  ("ifData", (.slice T_IfData)), ("monotony", T_Monotony), ("modelLink", T_modelLink), ("physUnit", T_physUnit),
  ("readOnly", T_readOnlyKeyword), ("refMemorySegment", T_refMemorySegment), ("stepSize", T_StepSize), ("symbolLink", T_symbolLink)]

/-- a2l/max_refresh.go:10-15 (`type MaxRefresh struct`) -/
def T_MaxRefresh : GoType := .struct [("scalingUnit", (.uint 16)), ("scalingUnitSet", .bool), ("rate", (.uint 32)), ("rateSet", .bool)]

/-- a2l/blob.go:12-31 (`type blob struct`) -/
def T_blob : GoType := .struct [("name", .str), ("nameSet", .bool), ("longIdentifier", .str), ("longIdentifierSet", .bool), ("address", .str),
  ("addressSet", .bool), ("size", (.uint 32)), ("sizeSet", .bool), ("addressType", .str), ("addressTypeSet", .bool),
  ("annotation", (.slice T_annotation)), ("calibrationAccess", .str), ("displayIdentifier", T_DisplayIdentifier),
  ("ecuAddressExtension", T_ecuAddressExtension), ("IfData", (.slice T_IfData)), ("maxRefresh", T_MaxRefresh),
  ("modelLink", T_modelLink), ("symbolLink", T_symbolLink)]

/-- a2l/axis_pts_ref.go:12-22 (`type axisPtsRef struct`) -/
def T_axisPtsRef : GoType := .struct [("axisPoints", .str), ("axisPointsSet", .bool)]

/-- a2l/curve_axis_ref.go:9-12 (`type curveAxisRef struct`) -/
def T_curveAxisRef : GoType := .struct [("curveAxis", .str), ("curveAxisSet", .bool)]

/-- a2l/fix_axis_par.go:10-17 (`type fixAxisPar struct`) -/
def T_fixAxisPar : GoType := .struct [("offset", (.int 16)), ("offsetSet", .bool), ("shift", (.int 16)), ("shiftSet", .bool), ("numberapo", (.uint 16)),
  ("numberapoSet", .bool)]

/-- a2l/fix_axis_par_dist.go:10-17 (`type fixAxisParDist struct`) -/
def T_fixAxisParDist : GoType := .struct [("offset", (.int 16)), ("offsetSet", .bool), ("distance", (.int 16)), ("distanceSet", .bool), ("numberapo", (.uint 16)),
  ("numberapoSet", .bool)]

/-- a2l/fix_axis_par_list.go:10-13 (`type fixAxisParList struct`) -/
def T_fixAxisParList : GoType := .struct [("axisPtsValue", (.slice .float)), ("axisPtsValueSet", .bool)]

/-- a2l/max_grad.go:10-13 (`type MaxGrad struct`) -/
def T_MaxGrad : GoType := .struct [("maxGradient", .float), ("maxGradientSet", .bool)]

/-- a2l/axis_descr.go:45-84 (`type axisDescr struct`) -/
def T_axisDescr : GoType := .struct [("attribute", .str), ("attributeSet", .bool), ("inputQuantity", .str), ("inputQuantitySet", .bool), ("conversion", .str),
  ("conversionSet", .bool), ("maxAxisPoints", (.uint 16)), ("maxAxisPointsSet", .bool), ("lowerLimit", .float),
  ("lowerLimitSet", .bool), ("upperLimit", .float), ("upperLimitSet", .bool), ("annotation", (.slice T_annotation)),
  ("axisPtsRef", T_axisPtsRef), ("byteOrder", T_ByteOrder), ("curveAxisRef", T_curveAxisRef), ("deposit", T_deposit),
  ("extendedLimits", T_extendedLimits), ("fixAxisPar", T_fixAxisPar), ("fixAxisParDist", T_fixAxisParDist),
  ("fixAxisParList", (.slice T_fixAxisParList)), ("format", T_format), ("maxGrad", T_MaxGrad), ("monotony", T_Monotony),
  ("physUnit", T_physUnit), ("readOnly", T_readOnlyKeyword), ("stepSize", T_StepSize)]

/-- a2l/bit_mask.go:29-32 (`type bitMask struct`) -/
def T_bitMask : GoType := .struct [("mask", .str), ("maskSet", .bool)]

/-- a2l/comparison_quantity.go:9-12 (`type comparisonQuantity struct`) -/
def T_comparisonQuantity : GoType := .struct [("name", .str), ("nameSet", .bool)]

/-- a2l/dependent_characteristic.go:9-14 (`type DependentCharacteristic struct`) -/
def T_DependentCharacteristic : GoType := .struct [("formula", .str), ("formulaSet", .bool), ("characteristic", (.slice .str)), ("characteristicSet", .bool)]

/-- a2l/discrete.go:5-8 (`type discreteKeyword struct`) -/
def T_discreteKeyword : GoType := .struct [("value", .bool), ("valueSet", .bool)]

/-- a2l/map_list.go:9-12 (`type MapList struct`) -/
def T_MapList : GoType := .struct [("name", (.slice .str)), ("nameSet", .bool)]

/-- a2l/matrix_dim.go:10-21 (`type MatrixDim struct`) -/
def T_MatrixDim : GoType := .struct [("DimX", (.uint 16)), ("DimXSet", .bool), ("DimY", (.uint 16)), ("DimYSet", .bool), ("DimZ", (.uint 16)), ("DimZSet", .bool),
  ("Dim4", (.uint 16)), ("Dim4Set", .bool), ("Dim5", (.uint 16)), ("Dim5Set", .bool)]

/-- a2l/number.go:10-13 (`type Number struct`) -/
def T_Number : GoType := .struct [("number", (.uint 16)), ("numberSet", .bool)]

/-- a2l/virtual_characteristic.go:9-14 (`type VirtualCharacteristic struct`) -/
def T_VirtualCharacteristic : GoType := .struct [("formula", .str), ("formulaSet", .bool), ("characteristic", (.slice .str)), ("characteristicSet", .bool)]

/-- a2l/characteristic.go:10-59 (`type Characteristic struct`) -/
def T_Characteristic : GoType := .struct [("Name", .str), ("nameSet", .bool), ("LongIdentifier", .str), ("longIdentifierSet", .bool), ("Type", .str), ("TypeSet", .bool),
  ("Address", .str), ("AddressUint32", (.uint 32)), ("addressSet", .bool), ("Deposit", .str), ("DepositSet", .bool),
  ("encoding", .str), ("maxDiff", .float), ("maxDiffSet", .bool), ("conversion", .str), ("conversionSet", .bool),
  ("lowerLimit", .float), ("lowerLimitSet", .bool), ("upperLimit", .float), ("upperLimitSet", .bool),
  ("annotation", (.slice T_annotation)), ("axisDescr", (.slice T_axisDescr)), ("bitMask", T_bitMask), ("byteOrder", T_ByteOrder),
  ("calibrationAccess", .str), ("comparisonQuantity", T_comparisonQuantity),
  ("dependentCharacteristic", (.slice T_DependentCharacteristic)), ("discrete", T_discreteKeyword),
  ("displayIdentifier", T_DisplayIdentifier), ("ecuAddressExtension", T_ecuAddressExtension), ("extendedLimits", T_extendedLimits),
  ("format", T_format), ("functionList", (.slice T_FunctionList)), ("guardRails", T_guardRailsKeyword),
  ("ifData", (.slice T_IfData)), ("mapList", (.slice T_MapList)), ("MatrixDim", T_MatrixDim), ("maxRefresh", T_MaxRefresh),
  ("modelLink", T_modelLink), ("number", T_Number), ("physUnit", T_physUnit), ("readOnly", T_readOnlyKeyword),
  ("refMemorySegment", T_refMemorySegment), ("stepSize", T_StepSize), ("symbolLink", T_symbolLink),
  ("virtualCharacteristic", (.slice T_VirtualCharacteristic))]

/-- a2l/coeffs.go:10-23 (`type Coeffs struct`) -/
def T_Coeffs : GoType := .struct [("A", .float), ("ASet", .bool), ("B", .float), ("BSet", .bool), ("C", .float), ("CSet", .bool), ("D", .float), ("DSet", .bool),
  ("E", .float), ("ESet", .bool), ("F", .float), ("FSet", .bool)]

/-- a2l/coeffs_linear.go:10-15 (`type CoeffsLinear struct`) -/
def T_CoeffsLinear : GoType := .struct [("A", .float), ("ASet", .bool), ("B", .float), ("BSet", .bool)]

/-- a2l/compu_tab_ref.go:9-12 (`type CompuTabRef struct`) -/
def T_CompuTabRef : GoType := .struct [("ConversionTable", .str), ("ConversionTableSet", .bool)]

/-- a2l/formula_inv.go:9-12 (`type formulaInv struct`) -/
def T_formulaInv : GoType := .struct [("gx", .str), ("gxSet", .bool)]

/-- a2l/formula.go:9-13 (`type Formula struct`) -/
def T_Formula : GoType := .struct [("fx", (.slice .str)), ("fxSet", .bool), ("formulaInv", T_formulaInv)]

/-- a2l/ref_unit.go:9-12 (`type refUnit struct`) -/
def T_refUnit : GoType := .struct [("unit", .str), ("unitSet", .bool)]

/-- a2l/status_string_ref.go:26-30 (`type StatusStringRef struct`) -/
def T_StatusStringRef : GoType := .struct [("ConversionTable", .str), ("ConversionTableSet", .bool)]

/-- a2l/compu_method.go:9-26 (`type CompuMethod struct`) -/
def T_CompuMethod : GoType := .struct [("Name", .str), ("NameSet", .bool), ("LongIdentifier", .str), ("LongIdentifierSet", .bool), ("ConversionType", .str),
  ("ConversionTypeSet", .bool), ("Format", .str), ("FormatSet", .bool), ("Unit", .str), ("UnitSet", .bool), ("Coeffs", T_Coeffs),
  ("CoeffsLinear", T_CoeffsLinear), ("CompuTabRef", T_CompuTabRef), ("Formula", (.slice T_Formula)), ("RefUnit", T_refUnit),
  ("StatusStringRef", T_StatusStringRef)]

/-- a2l/default_value.go:9-12 (`type DefaultValue struct`) -/
def T_DefaultValue : GoType := .struct [("DisplayString", .str), ("DisplayStringSet", .bool)]

/-- a2l/default_value_numeric.go:10-13 (`type DefaultValueNumeric struct`) -/
def T_DefaultValueNumeric : GoType := .struct [("DisplayValue", .float), ("DisplayValueSet", .bool)]

/-- a2l/compu_tab.go:10-25 (`type CompuTab struct`) -/
def T_CompuTab : GoType := .struct [("Name", .str), ("NameSet", .bool), ("longIdentifier", .str), ("longIdentifierSet", .bool), ("ConversionType", .str),
  ("ConversionTypeSet", .bool), ("NumberValuePairs", (.uint 16)), ("NumberValuePairsSet", .bool), ("InVal", (.slice .float)),
  ("InValSet", .bool), ("OutVal", (.slice .float)), ("OutValSet", .bool), ("DefaultValue", T_DefaultValue),
  ("DefaultValueNumeric", T_DefaultValueNumeric)]

/-- a2l/compu_vtab.go:10-24 (`type CompuVTab struct`) -/
def T_CompuVTab : GoType := .struct [("Name", .str), ("NameSet", .bool), ("LongIdentifier", .str), ("LongIdentifierSet", .bool), ("ConversionType", .str),
  ("ConversionTypeSet", .bool), ("NumberValuePairs", (.uint 16)), ("NumberValuePairsSet", .bool), ("InVal", (.slice .float)),
  ("InValSet", .bool), ("OutVal", (.slice .str)), ("OutValSet", .bool), ("DefaultValue", T_DefaultValue)]

/-- a2l/compu_vtab_range.go:10-24 (`type CompuVTabRange struct`) -/
def T_CompuVTabRange : GoType := .struct [("Name", .str), ("NameSet", .bool), ("LongIdentifier", .str), ("LongIdentifierSet", .bool), ("NumberValueTriples", (.uint 16)),
  ("NumberValueTriplesSet", .bool), ("InValMin", (.slice .float)), ("InValMinSet", .bool), ("InValMax", (.slice .float)),
  ("InValMaxSet", .bool), ("OutVal", (.slice .str)), ("OutValSet", .bool), ("DefaultValue", T_DefaultValue)]

/-- a2l/frame_measurement.go:9-12 (`type frameMeasurement struct`) -/
def T_frameMeasurement : GoType := .struct [("identifier", (.slice .str)), ("identifierSet", .bool)]

/-- a2l/frame.go:10-21 (`type frame struct`) -/
def T_frame : GoType := .struct [("name", .str), ("nameSet", .bool), ("longIdentifier", .str), ("longIdentifierSet", .bool), ("scalingUnit", (.uint 16)),
  ("scalingUnitSet", .bool), ("rate", (.uint 32)), ("rateSet", .bool), ("frameMeasurement", T_frameMeasurement),
  ("ifData", (.slice T_IfData))]

/-- a2l/ar_prototype_of.go:11-15 (`type arPrototypeOf struct`) -/
def T_arPrototypeOf : GoType := .struct [("name", .str), ("nameSet", .bool)]

/-- a2l/ar_component.go:18-30 (`type arComponent struct`) -/
def T_arComponent : GoType := .struct [("componentType", .str), ("componentTypeSet", .bool), ("arPrototypeOf", T_arPrototypeOf)]

/-- a2l/def_characteristic.go:9-12 (`type defCharacteristic struct`) -/
def T_defCharacteristic : GoType := .struct [("identifier", (.slice .str)), ("identifierSet", .bool)]

/-- a2l/function_version.go:9-12 (`type functionVersion struct`) -/
def T_functionVersion : GoType := .struct [("versionIdentifier", .str), ("versionIdentifierSet", .bool)]

/-- a2l/in_measurement.go:9-12 (`type inMeasurement struct`) -/
def T_inMeasurement : GoType := .struct [("identifier", (.slice .str)), ("identifierSet", .bool)]

/-- a2l/loc_measurement.go:9-12 (`type locMeasurement struct`) -/
def T_locMeasurement : GoType := .struct [("identifier", (.slice .str)), ("identifierSet", .bool)]

/-- a2l/out_measurement.go:9-12 (`type outMeasurement struct`) -/
def T_outMeasurement : GoType := .struct [("identifier", (.slice .str)), ("identifierSet", .bool)]

/-- a2l/ref_characteristic.go:9-12 (`type refCharacteristic struct`) -/
def T_refCharacteristic : GoType := .struct [("identifier", (.slice .str)), ("identifierSet", .bool)]

/-- a2l/sub_function.go:9-12 (`type subFunction struct`) -/
def T_subFunction : GoType := .struct [("identifier", (.slice .str)), ("identifierSet", .bool)]

/-- a2l/function.go:9-24 (`type function struct`) -/
def T_function : GoType := .struct [("name", .str), ("nameSet", .bool), ("longIdentifier", .str), ("longIdentifierSet", .bool), ("annotation", (.slice T_annotation)),
  ("arComponent", T_arComponent), ("defCharacteristic", T_defCharacteristic), ("functionVersion", T_functionVersion),
  ("ifData", (.slice T_IfData)), ("inMeasurement", T_inMeasurement), ("locMeasurement", T_locMeasurement),
  ("outMeasurement", T_outMeasurement), ("refCharacteristic", T_refCharacteristic), ("subFunction", T_subFunction)]

/-- a2l/ref_measurement.go:9-12 (`type refMeasurement struct`) -/
def T_refMeasurement : GoType := .struct [("identifier", (.slice .str)), ("identifierSet", .bool)]

/-- a2l/root.go:5-8 (`type rootKeyword struct`) -/
def T_rootKeyword : GoType := .struct [("value", .bool), ("valueSet", .bool)]

/-- a2l/sub_group.go:9-12 (`type subGroup struct`) -/
def T_subGroup : GoType := .struct [("identifier", (.slice .str)), ("identifierSet", .bool)]

/-- a2l/group.go:9-21 (`type group struct`) -/
def T_group : GoType := .struct [("groupName", .str), ("groupNameSet", .bool), ("groupLongIdentifier", .str), ("groupLongIdentifierSet", .bool),
  ("annotation", (.slice T_annotation)), ("functionList", T_FunctionList), ("ifData", (.slice T_IfData)),
  ("refCharacteristic", T_refCharacteristic), ("refMeasurement", T_refMeasurement), ("root", T_rootKeyword),
  ("subGroup", T_subGroup)]

/-- a2l/limits.go:10-15 (`type limits struct`) -/
def T_limits : GoType := .struct [("lowerLimit", .float), ("lowerLimitSet", .bool), ("upperLimit", .float), ("upperLimitSet", .bool)]

/-- a2l/overwrite.go:10-22 (`type overwrite struct`) -/
def T_overwrite : GoType := .struct [("name", .str), ("nameSet", .bool), ("axisNumer", (.uint 16)), ("axisNumberSet", .bool), ("conversion", .str),
  ("extendedLimits", T_extendedLimits), ("inputQuantity", .str), ("format", T_format), ("limits", T_limits),
  ("monotony", T_Monotony), ("physUnit", T_physUnit)]

/-- a2l/read_write.go:5-8 (`type readWriteKeyword struct`) -/
def T_readWriteKeyword : GoType := .struct [("value", .bool), ("valueSet", .bool)]

/-- a2l/instance.go:9-30 (`type instance struct`) -/
def T_instance : GoType := .struct [("name", .str), ("nameSet", .bool), ("LongIdentifier", .str), ("longIdentifierSet", .bool), ("typeDefName", .str),
  ("typeDefNameSet", .bool), ("address", .str), ("addressSet", .bool), ("addressType", .str), ("annotation", (.slice T_annotation)),
  ("calibrationAccess", .str), ("displayIdentifier", T_DisplayIdentifier), ("ecuAddressExtension", T_ecuAddressExtension),
  ("ifData", (.slice T_IfData)), ("matrixDim", T_MatrixDim), ("maxRefresh", T_MaxRefresh), ("modelLink", T_modelLink),
  ("overwrite", T_overwrite), ("readWrite", T_readWriteKeyword), ("symbolLink", T_symbolLink)]

/-- a2l/array_size.go:13-17 (`type arraySize struct`) -/
def T_arraySize : GoType := .struct [("number", (.uint 16)), ("numberSet", .bool)]

/-- a2l/left_shift.go:10-13 (`type LeftShift struct`) -/
def T_LeftShift : GoType := .struct [("bitcount", (.uint 32)), ("bitcountSet", .bool)]

/-- a2l/right_shift.go:10-13 (`type RightShift struct`) -/
def T_RightShift : GoType := .struct [("bitcount", (.uint 32)), ("bitcountSet", .bool)]

/-- a2l/sign_extend.go:5-8 (`type SignExtendKeyword struct`) -/
def T_SignExtendKeyword : GoType := .struct [("value", .bool), ("valueSet", .bool)]

/-- a2l/bit_operation.go:13-20 (`type bitOperation struct`) -/
def T_bitOperation : GoType := .struct [("leftShift", T_LeftShift), ("rightShift", T_RightShift), ("signExtend", T_SignExtendKeyword)]

/-- a2l/ecu_address.go:9-12 (`type ecuAddress struct`) -/
def T_ecuAddress : GoType := .struct [("address", .str), ("addressSet", .bool)]

/-- a2l/error_mask.go:9-12 (`type errorMask struct`) -/
def T_errorMask : GoType := .struct [("mask", .str), ("maskSet", .bool)]

/-- a2l/layout.go:9-12 (`type layout struct`) -/
def T_layout : GoType := .struct [("indexMode", .str), ("indexModeSet", .bool)]

/-- a2l/virtual.go:9-12 (`type virtual struct`) -/
def T_virtual : GoType := .struct [("measuringChannel", (.slice .str)), ("measuringChannelSet", .bool)]

/-- a2l/measurement.go:10-49 (`type measurement struct`) -/
def T_measurement : GoType := .struct [("name", .str), ("nameSet", .bool), ("longIdentifier", .str), ("longIdentifierSet", .bool), ("datatype", .str),
  ("datatypeSet", .bool), ("conversion", .str), ("conversionSet", .bool), ("resolution", (.uint 16)), ("resolutionSet", .bool),
  ("accuracy", .float), ("accuracySet", .bool), ("lowerLimit", .float), ("lowerLimitSet", .bool), ("upperLimit", .float),
  ("upperLimitSet", .bool), ("annotation", (.slice T_annotation)), ("arraySize", T_arraySize), ("bitMask", T_bitMask),
  ("bitOperation", T_bitOperation), ("byteOrder", T_ByteOrder), ("discrete", T_discreteKeyword),
  ("displayIdentifier", T_DisplayIdentifier), ("ecuAddress", T_ecuAddress), ("ecuAddressExtension", T_ecuAddressExtension),
  ("errorMask", T_errorMask), ("format", T_format), ("functionList", T_FunctionList), ("ifData", (.slice T_IfData)),
  ("layout", T_layout), ("matrixDim", T_MatrixDim), ("maxRefresh", T_MaxRefresh), ("modelLink", T_modelLink),
  ("physUnit", T_physUnit), ("readWrite", T_readWriteKeyword), ("refMemorySegment", T_refMemorySegment),
  ("symbolLink", T_symbolLink), ("virtual", T_virtual)]

/-- a2l/alignment_byte.go:12-17 (`type alignmentByte struct`) -/
def T_alignmentByte : GoType := .struct [("AlignmentBorder", (.uint 16)), ("AlignmentBorderSet", .bool)]

/-- a2l/alignment_float16_ieee.go:12-17 (`type alignmentFloat16Ieee struct`) -/
def T_alignmentFloat16Ieee : GoType := .struct [("AlignmentBorder", (.uint 16)), ("AlignmentBorderSet", .bool)]

/-- a2l/alignment_float32_ieee.go:12-17 (`type alignmentFloat32Ieee struct`) -/
def T_alignmentFloat32Ieee : GoType := .struct [("AlignmentBorder", (.uint 16)), ("AlignmentBorderSet", .bool)]

/-- a2l/alignment_float64_ieee.go:12-17 (`type alignmentFloat64Ieee struct`) -/
def T_alignmentFloat64Ieee : GoType := .struct [("AlignmentBorder", (.uint 16)), ("AlignmentBorderSet", .bool)]

/-- a2l/alignment_int64.go:12-17 (`type alignmentInt64 struct`) -/
def T_alignmentInt64 : GoType := .struct [("AlignmentBorder", (.uint 16)), ("AlignmentBorderSet", .bool)]

/-- a2l/alignment_long.go:12-17 (`type alignmentLong struct`) -/
def T_alignmentLong : GoType := .struct [("AlignmentBorder", (.uint 16)), ("AlignmentBorderSet", .bool)]

/-- a2l/alignment_word.go:12-17 (`type alignmentWord struct`) -/
def T_alignmentWord : GoType := .struct [("AlignmentBorder", (.uint 16)), ("AlignmentBorderSet", .bool)]

/-- a2l/data_size.go:10-13 (`type dataSize struct`) -/
def T_dataSize : GoType := .struct [("size", (.uint 16)), ("sizeSet", .bool)]

/-- a2l/mod_common.go:9-22 (`type modCommon struct`) -/
def T_modCommon : GoType := .struct [("comment", .str), ("commentSet", .bool), ("AlignmentByte", T_alignmentByte), ("AlignmentFloat16Ieee", T_alignmentFloat16Ieee),
  ("AlignmentFloat32Ieee", T_alignmentFloat32Ieee), ("AlignmentFloat64Ieee", T_alignmentFloat64Ieee),
  ("AlignmentInt64", T_alignmentInt64), ("AlignmentLong", T_alignmentLong), ("AlignmentWord", T_alignmentWord),
  ("ByteOrder", T_ByteOrder), ("dataSize", T_dataSize), ("deposit", T_deposit)]

/-- a2l/addr_epk.go:9-13 (`type addrEpk struct`) -/
def T_addrEpk : GoType := .struct [("address", .str), ("addressSet", .bool)]

/-- a2l/calibration_handle_text.go:9-12 (`type calibrationHandleText struct`) -/
def T_calibrationHandleText : GoType := .struct [("text", .str), ("textSet", .bool)]

/-- a2l/calibration_handle.go:9-13 (`type calibrationHandle struct`) -/
def T_calibrationHandle : GoType := .struct [("handle", (.slice .str)), ("handleSet", .bool), ("calibrationHandleText", T_calibrationHandleText)]

/-- a2l/calibration_method.go:10-16 (`type calibrationMethod struct`) -/
def T_calibrationMethod : GoType := .struct [("method", .str), ("methodSet", .bool), ("version", (.uint 32)), ("versionSet", .bool),
  ("calibrationHandle", (.slice T_calibrationHandle))]

/-- a2l/cpu_type.go:9-12 (`type cpuType struct`) -/
def T_cpuType : GoType := .struct [("cpu", .str), ("cpuSet", .bool)]

/-- a2l/customer.go:9-12 (`type customer struct`) -/
def T_customer : GoType := .struct [("customer", .str), ("customerSet", .bool)]

/-- a2l/customer_no.go:9-12 (`type customerNo struct`) -/
def T_customerNo : GoType := .struct [("number", .str), ("numberSet", .bool)]

/-- a2l/ecu.go:9-12 (`type ecu struct`) -/
def T_ecu : GoType := .struct [("controlUnit", .str), ("controlUnitSet", .bool)]

/-- a2l/ecu_calibration_offset.go:19-22 (`type ecuCalibrationOffset struct`) -/
def T_ecuCalibrationOffset : GoType := .struct [("offset", .str), ("offsetSet", .bool)]

/-- a2l/epk.go:9-12 (`type epk struct`) -/
def T_epk : GoType := .struct [("identifier", .str), ("identifierSet", .bool)]

/-- a2l/memory_layout.go:10-20 (`type memoryLayout struct`) -/
def T_memoryLayout : GoType := .struct [("prgType", .str), ("prgTypeSet", .bool), ("address", .str), ("addressSet", .bool), ("size", .str), ("sizeSet", .bool),
  ("offset", (.slice (.int 32))), ("offsetSet", .bool), ("ifData", (.slice T_IfData))]

/-- a2l/memory_segment.go:9-27 (`type memorySegment struct`) -/
def T_memorySegment : GoType := .struct [("name", .str), ("nameSet", .bool), ("longIdentifier", .str), ("longIdentifierSet", .bool), ("prgType", .str),
  ("prgTypeSet", .bool), ("memoryType", .str), ("memoryTypeSet", .bool), ("attribute", .str), ("attributeSet", .bool),
  ("address", .str), ("addressSet", .bool), ("size", .str), ("sizeSet", .bool), ("offset", (.array 5 .str)), ("offsetSet", .bool),
  ("ifData", (.slice T_IfData))]

/-- a2l/no_of_interfaces.go:10-13 (`type noOfInterfaces struct`) -/
def T_noOfInterfaces : GoType := .struct [("num", (.uint 16)), ("numSet", .bool)]

/-- a2l/phone_no.go:9-12 (`type phoneNo struct`) -/
def T_phoneNo : GoType := .struct [("telnum", .str), ("telnumSet", .bool)]

/-- a2l/supplier.go:9-12 (`type supplier struct`) -/
def T_supplier : GoType := .struct [("manufacturer", .str), ("manufacturerSet", .bool)]

/-- a2l/system_constant.go:9-14 (`type SystemConstant struct`) -/
def T_SystemConstant : GoType := .struct [("Name", .str), ("NameSet", .bool), ("Value", .str), ("ValueSet", .bool)]

/-- a2l/user.go:9-12 (`type user struct`) -/
def T_user : GoType := .struct [("userName", .str), ("userNameSet", .bool)]

/-- a2l/mod_par.go:9-28 (`type modPar struct`) -/
def T_modPar : GoType := .struct [("comment", .str), ("commentSet", .bool), ("addrEpk", (.slice T_addrEpk)), ("calibrationMethod", (.slice T_calibrationMethod)),
  ("cpuType", T_cpuType), ("customer", T_customer), ("customerNo", T_customerNo), ("ecu", T_ecu),
  ("ecuCalibrationOffset", T_ecuCalibrationOffset), ("epk", T_epk), ("memoryLayout", (.slice T_memoryLayout)),
  ("memorySegment", (.slice T_memorySegment)), ("noOfInterfaces", T_noOfInterfaces), ("phoneNo", T_phoneNo),
  ("supplier", T_supplier), ("SystemConstants", (.dict T_SystemConstant)), ("user", T_user), ("version", T_version)]

/-- a2l/axis_pts_x.go:10-23 (`type AxisPtsX struct`) -/
def T_AxisPtsX : GoType := .struct [("Position", (.uint 16)), ("PositionSet", .bool), ("Datatype", .str), ("DatatypeSet", .bool), ("IndexIncr", .str),
  ("IndexIncrSet", .bool), ("Addressing", .str), ("AddressingSet", .bool), ("Values", .other), ("ValuesSet", .bool)]

/-- a2l/axis_pts_y.go:10-23 (`type AxisPtsY struct`) -/
def T_AxisPtsY : GoType := .struct [("Position", (.uint 16)), ("PositionSet", .bool), ("Datatype", .str), ("DatatypeSet", .bool), ("IndexIncr", .str),
  ("IndexIncrSet", .bool), ("Addressing", .str), ("AddressingSet", .bool), ("Values", .other), ("ValuesSet", .bool)]

/-- a2l/axis_pts_z.go:10-23 (`type AxisPtsZ struct`) -/
def T_AxisPtsZ : GoType := .struct [("Position", (.uint 16)), ("PositionSet", .bool), ("Datatype", .str), ("DatatypeSet", .bool), ("IndexIncr", .str),
  ("IndexIncrSet", .bool), ("Addressing", .str), ("AddressingSet", .bool), ("Values", .other), ("ValuesSet", .bool)]

/-- a2l/axis_pts_4.go:10-23 (`type AxisPts4 struct`) -/
def T_AxisPts4 : GoType := .struct [("Position", (.uint 16)), ("PositionSet", .bool), ("Datatype", .str), ("DatatypeSet", .bool), ("IndexIncr", .str),
  ("IndexIncrSet", .bool), ("Addressing", .str), ("AddressingSet", .bool), ("Values", .other), ("ValuesSet", .bool)]

/-- a2l/axis_pts_5.go:10-23 (`type AxisPts5 struct`) -/
def T_AxisPts5 : GoType := .struct [("Position", (.uint 16)), ("PositionSet", .bool), ("Datatype", .str), ("DatatypeSet", .bool), ("IndexIncr", .str),
  ("IndexIncrSet", .bool), ("Addressing", .str), ("AddressingSet", .bool), ("Values", .other), ("ValuesSet", .bool)]

/-- a2l/axis_rescale_x.go:56-68 (`type AxisRescaleX struct`) -/
def T_AxisRescaleX : GoType := .struct [("Position", (.uint 16)), ("PositionSet", .bool), ("Datatype", .str), ("DatatypeSet", .bool),
  ("MaxNumberOfRescalePairs", (.uint 16)), ("MaxNumberOfRescalePairsSet", .bool), ("IndexIncr", .str), ("IndexIncrSet", .bool),
  ("Adressing", .str), ("AdressingSet", .bool)]

/-- a2l/dist_op_x.go:29-34 (`type DistOpX struct`) -/
def T_DistOpX : GoType := .struct [("Position", (.uint 16)), ("PositionSet", .bool), ("Datatype", .str), ("DatatypeSet", .bool)]

/-- a2l/dist_op_y.go:29-34 (`type DistOpY struct`) -/
def T_DistOpY : GoType := .struct [("Position", (.uint 16)), ("PositionSet", .bool), ("Datatype", .str), ("DatatypeSet", .bool)]

/-- a2l/dist_op_z.go:29-34 (`type DistOpZ struct`) -/
def T_DistOpZ : GoType := .struct [("Position", (.uint 16)), ("PositionSet", .bool), ("Datatype", .str), ("DatatypeSet", .bool)]

/-- a2l/dist_op_4.go:29-34 (`type DistOp4 struct`) -/
def T_DistOp4 : GoType := .struct [("Position", (.uint 16)), ("PositionSet", .bool), ("Datatype", .str), ("DatatypeSet", .bool)]

/-- a2l/dist_op_5.go:29-34 (`type DistOp5 struct`) -/
def T_DistOp5 : GoType := .struct [("Position", (.uint 16)), ("PositionSet", .bool), ("Datatype", .str), ("DatatypeSet", .bool)]

/-- a2l/fix_no_axis_pts_x.go:10-13 (`type FixNoAxisPtsX struct`) -/
def T_FixNoAxisPtsX : GoType := .struct [("NumberOfAxisPoints", (.uint 16)), ("NumberOfAxisPointsSet", .bool)]

/-- a2l/fix_no_axis_pts_y.go:10-13 (`type FixNoAxisPtsY struct`) -/
def T_FixNoAxisPtsY : GoType := .struct [("NumberOfAxisPoints", (.uint 16)), ("NumberOfAxisPointsSet", .bool)]

/-- a2l/fix_no_axis_pts_z.go:10-13 (`type FixNoAxisPtsZ struct`) -/
def T_FixNoAxisPtsZ : GoType := .struct [("NumberOfAxisPoints", (.uint 16)), ("NumberOfAxisPointsSet", .bool)]

/-- a2l/fix_no_axis_pts_4.go:10-13 (`type FixNoAxisPts4 struct`) -/
def T_FixNoAxisPts4 : GoType := .struct [("NumberOfAxisPoints", (.uint 16)), ("NumberOfAxisPointsSet", .bool)]

/-- a2l/fix_no_axis_pts_5.go:10-13 (`type FixNoAxisPts5 struct`) -/
def T_FixNoAxisPts5 : GoType := .struct [("NumberOfAxisPoints", (.uint 16)), ("NumberOfAxisPointsSet", .bool)]

/-- a2l/fnc_values.go:11-38 (`type FncValues struct`) -/
def T_FncValues : GoType := .struct [("Position", (.uint 16)), ("PositionSet", .bool), ("Datatype", .str), ("DatatypeSet", .bool), ("IndexMode", .str),
  ("IndexModeSet", .bool), ("Addresstype", .str), ("AddresstypeSet", .bool)]

/-- a2l/identification.go:11-16 (`type Identification struct`) -/
def T_Identification : GoType := .struct [("Position", (.uint 16)), ("PositionSet", .bool), ("Datatype", .str), ("DatatypeSet", .bool)]

/-- a2l/no_axis_pts_x.go:10-15 (`type NoAxisPtsX struct`) -/
def T_NoAxisPtsX : GoType := .struct [("Position", (.uint 16)), ("PositionSet", .bool), ("Datatype", .str), ("DatatypeSet", .bool)]

/-- a2l/no_axis_pts_y.go:10-15 (`type NoAxisPtsY struct`) -/
def T_NoAxisPtsY : GoType := .struct [("Position", (.uint 16)), ("PositionSet", .bool), ("Datatype", .str), ("DatatypeSet", .bool)]

/-- a2l/no_axis_pts_z.go:10-15 (`type NoAxisPtsZ struct`) -/
def T_NoAxisPtsZ : GoType := .struct [("Position", (.uint 16)), ("PositionSet", .bool), ("Datatype", .str), ("DatatypeSet", .bool)]

/-- a2l/no_axis_pts_4.go:10-15 (`type NoAxisPts4 struct`) -/
def T_NoAxisPts4 : GoType := .struct [("Position", (.uint 16)), ("PositionSet", .bool), ("Datatype", .str), ("DatatypeSet", .bool)]

/-- a2l/no_axis_pts_5.go:10-15 (`type NoAxisPts5 struct`) -/
def T_NoAxisPts5 : GoType := .struct [("Position", (.uint 16)), ("PositionSet", .bool), ("Datatype", .str), ("DatatypeSet", .bool)]

/-- a2l/no_rescale_x.go:11-16 (`type NoRescaleX struct`) -/
def T_NoRescaleX : GoType := .struct [("Position", (.uint 16)), ("PositionSet", .bool), ("Datatype", .str), ("DatatypeSet", .bool)]

/-- a2l/offset_x.go:17-22 (`type OffsetX struct`) -/
def T_OffsetX : GoType := .struct [("Position", (.uint 16)), ("PositionSet", .bool), ("Datatype", .str), ("DatatypeSet", .bool)]

/-- a2l/offset_y.go:17-22 (`type offsetY struct`) -/
def T_offsetY : GoType := .struct [("Position", (.uint 16)), ("PositionSet", .bool), ("Datatype", .str), ("DatatypeSet", .bool)]

/-- a2l/offset_z.go:17-22 (`type OffsetZ struct`) -/
def T_OffsetZ : GoType := .struct [("Position", (.uint 16)), ("PositionSet", .bool), ("Datatype", .str), ("DatatypeSet", .bool)]

/-- a2l/offset_4.go:17-22 (`type Offset4 struct`) -/
def T_Offset4 : GoType := .struct [("Position", (.uint 16)), ("PositionSet", .bool), ("Datatype", .str), ("DatatypeSet", .bool)]

/-- a2l/offset_5.go:17-22 (`type Offset5 struct`) -/
def T_Offset5 : GoType := .struct [("Position", (.uint 16)), ("PositionSet", .bool), ("Datatype", .str), ("DatatypeSet", .bool)]

/-- a2l/reserved.go:15-20 (`type Reserved struct`) -/
def T_Reserved : GoType := .struct [("Position", (.uint 16)), ("PositionSet", .bool), ("DataSize", .str), ("DataSizeSet", .bool)]

/-- a2l/rip_addr_w.go:42-47 (`type RipAddrW struct`) -/
def T_RipAddrW : GoType := .struct [("Position", (.uint 16)), ("PositionSet", .bool), ("Datatype", .str), ("DatatypeSet", .bool)]

/-- a2l/rip_addr_x.go:42-47 (`type ripAddrX struct`) -/
def T_ripAddrX : GoType := .struct [("position", (.uint 16)), ("positionSet", .bool), ("datatype", .str), ("datatypeSet", .bool)]

/-- a2l/rip_addr_y.go:42-47 (`type RipAddrY struct`) -/
def T_RipAddrY : GoType := .struct [("Position", (.uint 16)), ("PositionSet", .bool), ("Datatype", .str), ("DatatypeSet", .bool)]

/-- a2l/rip_addr_z.go:42-47 (`type RipAddrZ struct`) -/
def T_RipAddrZ : GoType := .struct [("Position", (.uint 16)), ("PositionSet", .bool), ("Datatype", .str), ("DatatypeSet", .bool)]

/-- a2l/rip_addr_4.go:42-47 (`type RipAddr4 struct`) -/
def T_RipAddr4 : GoType := .struct [("Position", (.uint 16)), ("PositionSet", .bool), ("Datatype", .str), ("DatatypeSet", .bool)]

/-- a2l/rip_addr_5.go:42-47 (`type RipAddr5 struct`) -/
def T_RipAddr5 : GoType := .struct [("Position", (.uint 16)), ("PositionSet", .bool), ("Datatype", .str), ("DatatypeSet", .bool)]

/-- a2l/src_addr_x.go:10-15 (`type srcAddrX struct`) -/
def T_srcAddrX : GoType := .struct [("position", (.uint 16)), ("positionSet", .bool), ("datatype", .str), ("datatypeSet", .bool)]

/-- a2l/src_addr_y.go:11-16 (`type srcAddrY struct`) -/
def T_srcAddrY : GoType := .struct [("position", (.uint 16)), ("positionSet", .bool), ("datatype", .str), ("datatypeSet", .bool)]

/-- a2l/src_addr_z.go:11-16 (`type srcAddrZ struct`) -/
def T_srcAddrZ : GoType := .struct [("position", (.uint 16)), ("positionSet", .bool), ("datatype", .str), ("datatypeSet", .bool)]

/-- a2l/src_addr_4.go:11-16 (`type srcAddr4 struct`) -/
def T_srcAddr4 : GoType := .struct [("position", (.uint 16)), ("positionSet", .bool), ("datatype", .str), ("datatypeSet", .bool)]

/-- a2l/src_addr_5.go:11-16 (`type srcAddr5 struct`) -/
def T_srcAddr5 : GoType := .struct [("position", (.uint 16)), ("positionSet", .bool), ("datatype", .str), ("datatypeSet", .bool)]

/-- a2l/shift_op_x.go:20-25 (`type ShiftOpX struct`) -/
def T_ShiftOpX : GoType := .struct [("Position", (.uint 16)), ("PositionSet", .bool), ("Datatype", .str), ("DatatypeSet", .bool)]

/-- a2l/shift_op_y.go:20-25 (`type ShiftOpY struct`) -/
def T_ShiftOpY : GoType := .struct [("Position", (.uint 16)), ("PositionSet", .bool), ("Datatype", .str), ("DatatypeSet", .bool)]

/-- a2l/shift_op_z.go:20-25 (`type ShiftOpZ struct`) -/
def T_ShiftOpZ : GoType := .struct [("Position", (.uint 16)), ("PositionSet", .bool), ("Datatype", .str), ("DatatypeSet", .bool)]

/-- a2l/shift_op_4.go:20-25 (`type ShiftOp4 struct`) -/
def T_ShiftOp4 : GoType := .struct [("Position", (.uint 16)), ("PositionSet", .bool), ("Datatype", .str), ("DatatypeSet", .bool)]

/-- a2l/shift_op_5.go:20-25 (`type ShiftOp5 struct`) -/
def T_ShiftOp5 : GoType := .struct [("Position", (.uint 16)), ("PositionSet", .bool), ("Datatype", .str), ("DatatypeSet", .bool)]

/-- a2l/static_record_layout.go:16-19 (`type staticRecordLayoutKeyword struct`) -/
def T_staticRecordLayoutKeyword : GoType := .struct [("value", .bool), ("valueSet", .bool)]

/-- a2l/static_address_offsets.go:5-8 (`type staticAddressOffsetsKeyword struct`) -/
def T_staticAddressOffsetsKeyword : GoType := .struct [("value", .bool), ("valueSet", .bool)]

/-- a2l/record_layout.go:9-68 (`type RecordLayout struct`) -/
def T_RecordLayout : GoType := .struct [("Name", .str), ("NameSet", .bool), ("AlignmentByte", T_alignmentByte), ("AlignmentFloat16Ieee", T_alignmentFloat16Ieee),
  ("AlignmentFloat32Ieee", T_alignmentFloat32Ieee), ("AlignmentFloat64Ieee", T_alignmentFloat64Ieee),
  ("AlignmentInt64", T_alignmentInt64), ("AlignmentLong", T_alignmentLong), ("AlignmentWord", T_alignmentWord),
  ("AxisPtsX", T_AxisPtsX), ("AxisPtsY", T_AxisPtsY), ("AxisPtsZ", T_AxisPtsZ), ("AxisPts4", T_AxisPts4), ("AxisPts5", T_AxisPts5),
  ("AxisRescaleX", T_AxisRescaleX), ("DistOpX", T_DistOpX), ("DistOpY", T_DistOpY), ("DistOpZ", T_DistOpZ), ("DistOp4", T_DistOp4),
  ("DistOp5", T_DistOp5), ("FixNoAxisPtsX", T_FixNoAxisPtsX), ("FixNoAxisPtsY", T_FixNoAxisPtsY), ("FixNoAxisPtsZ", T_FixNoAxisPtsZ),
  ("FixNoAxisPts4", T_FixNoAxisPts4), ("FixNoAxisPts5", T_FixNoAxisPts5), ("FncValues", T_FncValues),
  ("Identification", T_Identification), ("NoAxisPtsX", T_NoAxisPtsX), ("NoAxisPtsY", T_NoAxisPtsY), ("NoAxisPtsZ", T_NoAxisPtsZ),
  ("NoAxisPts4", T_NoAxisPts4), ("NoAxisPts5", T_NoAxisPts5), ("NoRescaleX", T_NoRescaleX), ("OffsetX", T_OffsetX),
  ("OffsetY", T_offsetY), ("OffsetZ", T_OffsetZ), ("Offset4", T_Offset4), ("Offset5", T_Offset5), ("Reserved", T_Reserved),
  ("RipAddrW", T_RipAddrW), ("RipAddrX", T_ripAddrX), ("RipAddrY", T_RipAddrY), ("RipAddrZ", T_RipAddrZ), ("RipAddr4", T_RipAddr4),
  ("RipAddr5", T_RipAddr5), ("SrcAddrX", T_srcAddrX), ("SrcAddrY", T_srcAddrY), ("SrcAddrZ", T_srcAddrZ), ("SrcAddr4", T_srcAddr4),
  ("SrcAddr5", T_srcAddr5), ("ShiftOpX", T_ShiftOpX), ("ShiftOpY", T_ShiftOpY), ("ShiftOpZ", T_ShiftOpZ), ("ShiftOp4", T_ShiftOp4),
  ("ShiftOp5", T_ShiftOp5), ("StaticRecordLayout", T_staticRecordLayoutKeyword),
  ("StaticAddressOffsets", T_staticAddressOffsetsKeyword), ("RelativePositions", .other)]

/-- a2l/transformer_in_object.go:9-12 (`type transformerInObject struct`) -/
def T_transformerInObject : GoType := .struct [("identifier", (.slice .str)), ("identifierSet", .bool)]

/-- a2l/transformer_out_object.go:9-12 (`type transformerOutObject struct`) -/
def T_transformerOutObject : GoType := .struct [("identifier", (.slice .str)), ("identifierSet", .bool)]

/-- a2l/transformer.go:12-29 (`type transformer struct`) -/
def T_transformer : GoType := .struct [("name", .str), ("nameSet", .bool), ("version", .str), ("versionSet", .bool), ("executable32", .str), ("executable32Set", .bool),
  ("executable64", .str), ("executable64Set", .bool), ("timeOut", (.uint 32)), ("timeOutSet", .bool), ("trigger", .str),
  ("triggerSet", .bool), ("inverseTransformer", .str), ("inverseTransformerSet", .bool),
  ("transformerInObjects", T_transformerInObject), ("transformerOutObjects", T_transformerOutObject)]

/-- a2l/type_def_axis.go:10-36 (`type typeDefAxis struct`) -/
def T_typeDefAxis : GoType := .struct [("name", .str), ("nameSet", .bool), ("LongIdentifier", .str), ("longIdentifierSet", .bool), ("inputQuantity", .str),
  ("inputQuantitySet", .bool), ("recordLayout", .str), ("recordLayoutSet", .bool), ("maxDiff", .float), ("maxDiffSet", .bool),
  ("conversion", .str), ("conversionSet", .bool), ("maxAxisPoints", (.uint 16)), ("maxAxisPointsSet", .bool), ("lowerLimit", .float),
  ("lowerLimitSet", .bool), ("upperLimit", .float), ("upperLimitSet", .bool), ("byteOrder", T_ByteOrder), ("deposit", T_deposit),
  ("extendedLimits", T_extendedLimits), ("format", T_format), ("monotony", T_Monotony), ("physUnit", T_physUnit),
  ("stepSize", T_StepSize)]

/-- a2l/type_def_blob.go:10-18 (`type typeDefBlob struct`) -/
def T_typeDefBlob : GoType := .struct [("name", .str), ("nameSet", .bool), ("longIdentifier", .str), ("longIdentifierSet", .bool), ("size", (.uint 32)),
  ("sizeSet", .bool), ("addressType", .str)]

/-- a2l/type_def_characteristic.go:10-38 (`type typeDefCharacteristic struct`) -/
def T_typeDefCharacteristic : GoType := .struct [("name", .str), ("nameSet", .bool), ("LongIdentifier", .str), ("longIdentifierSet", .bool), ("Type", .str), ("TypeSet", .bool),
  ("recordLayout", .str), ("recordLayoutSet", .bool), ("maxDiff", .float), ("maxDiffSet", .bool), ("conversion", .str),
  ("conversionSet", .bool), ("lowerLimit", .float), ("lowerLimitSet", .bool), ("upperLimit", .float), ("upperLimitSet", .bool),
  ("axisDescr", (.slice T_axisDescr)), ("bitMask", T_bitMask), ("byteOrder", T_ByteOrder), ("discrete", T_discreteKeyword),
  ("encoding", .str), ("extendedLimits", T_extendedLimits), ("format", T_format), ("matrixDim", T_MatrixDim), ("number", T_Number),
  ("physUnit", T_physUnit), ("stepSize", T_StepSize)]

/-- a2l/type_def_measurement.go:10-36 (`type typeDefMeasurement struct`) -/
def T_typeDefMeasurement : GoType := .struct [("name", .str), ("nameSet", .bool), ("longIdentifier", .str), ("longIdentifierSet", .bool), ("datatype", .str),
  ("datatypeSet", .bool), ("conversion", .str), ("conversionSet", .bool), ("resolution", (.uint 16)), ("resolutionSet", .bool),
  ("accuracy", .float), ("accuracySet", .bool), ("lowerLimit", .float), ("lowerLimitSet", .bool), ("upperLimit", .float),
  ("upperLimitSet", .bool), ("bitMask", T_bitMask), ("bitOperation", T_bitOperation), ("byteOrder", T_ByteOrder),
  ("discrete", T_discreteKeyword), ("errorMask", T_errorMask), ("format", T_format), ("layout", T_layout),
  ("matrixDim", T_MatrixDim), ("physUnit", T_physUnit)]

/-- a2l/consistent_exchange.go:5-8 (`type consistentExchangeKeyword struct`) -/
def T_consistentExchangeKeyword : GoType := .struct [("value", .bool), ("valueSet", .bool)]

/-- a2l/symbol_type_link.go:9-11 (`type symbolTypeLink struct`) -/
def T_symbolTypeLink : GoType := .struct [("symbolName", .str)]

/-- a2l/structure_component.go:9-20 (`type structureComponent struct`) -/
def T_structureComponent : GoType := .struct [("name", .str), ("nameSet", .bool), ("typeDefName", .str), ("typeDefNameSet", .bool), ("addressOffset", .str),
  ("addressOffsetSet", .bool), ("addressType", .str), ("layout", T_layout), ("matrixDim", T_MatrixDim),
  ("symbolTypeLink", T_symbolTypeLink)]

/-- a2l/type_def_structure.go:10-21 (`type typeDefStructure struct`) -/
def T_typeDefStructure : GoType := .struct [("name", .str), ("nameSet", .bool), ("longIdentifier", .str), ("longIdentifierSet", .bool), ("size", (.uint 32)),
  ("sizeSet", .bool), ("addressType", .str), ("consistentExchange", T_consistentExchangeKeyword),
  ("structureComponent", (.slice T_structureComponent)), ("symbolTypeLink", T_symbolTypeLink)]

/-- a2l/si_exponents.go:10-25 (`type siExponents struct`) -/
def T_siExponents : GoType := .struct [("length", (.int 16)), ("lengthSet", .bool), ("mass", (.int 16)), ("massSet", .bool), ("time", (.int 16)), ("timeSet", .bool),
  ("electricCurrent", (.int 16)), ("electricCurrentSet", .bool), ("temperature", (.int 16)), ("temperatureSet", .bool),
  ("amountOfSubstance", (.int 16)), ("amountOfSubstanceSet", .bool), ("luminousIntensity", (.int 16)),
  ("luminousIntensitySet", .bool)]

/-- a2l/unit_conversion.go:10-15 (`type unitConversion struct`) -/
def T_unitConversion : GoType := .struct [("gradient", .float), ("gradientSet", .bool), ("offset", .float), ("offsetSet", .bool)]

/-- a2l/unit.go:9-21 (`type unit struct`) -/
def T_unit : GoType := .struct [("name", .str), ("nameSet", .bool), ("longIdentifier", .str), ("longIdentifierSet", .bool), ("display", .str),
  ("displaySet", .bool), ("Type", .str), ("TypeSet", .bool), ("refUnit", T_refUnit), ("siExponents", T_siExponents),
  ("unitConversion", T_unitConversion)]

/-- a2l/ref_group.go:9-12 (`type refGroup struct`) -/
def T_refGroup : GoType := .struct [("identifier", (.slice .str)), ("identifierSet", .bool)]

/-- a2l/user_rights.go:9-14 (`type userRights struct`) -/
def T_userRights : GoType := .struct [("userLevelId", .str), ("userLevelIdSet", .bool), ("readOnly", T_readOnlyKeyword), ("refGroup", (.slice T_refGroup))]

/-- a2l/var_address.go:9-12 (`type varAddress struct`) -/
def T_varAddress : GoType := .struct [("address", (.slice .str)), ("addressSet", .bool)]

/-- a2l/var_characteristic.go:9-15 (`type varCharacteristic struct`) -/
def T_varCharacteristic : GoType := .struct [("name", .str), ("nameSet", .bool), ("identCriterionName", (.slice .str)), ("identCriterionNameSet", .bool),
  ("varAddress", (.slice T_varAddress))]

/-- a2l/var_measurement.go:9-12 (`type varMeasurement struct`) -/
def T_varMeasurement : GoType := .struct [("name", .str), ("nameSet", .bool)]

/-- a2l/var_selection_characteristic.go:9-12 (`type varSelectionCharacteristic struct`) -/
def T_varSelectionCharacteristic : GoType := .struct [("name", .str), ("nameSet", .bool)]

/-- a2l/var_criterion.go:9-18 (`type varCriterion struct`) -/
def T_varCriterion : GoType := .struct [("name", .str), ("nameSet", .bool), ("longIdentifier", .str), ("longIdentifierSet", .bool), ("value", (.slice .str)),
  ("valueSet", .bool), ("varMeasurement", T_varMeasurement), ("varSelectionCharacteristic", T_varSelectionCharacteristic)]

/-- a2l/var_forbidden_comb.go:9-14 (`type varForbiddenComb struct`) -/
def T_varForbiddenComb : GoType := .struct [("criterionName", (.slice .str)), ("criterionNameSet", .bool), ("criterionValue", (.slice .str)), ("criterionValueSet", .bool)]

/-- a2l/var_naming.go:9-12 (`type varNaming struct`) -/
def T_varNaming : GoType := .struct [("tag", .str), ("tagSet", .bool)]

/-- a2l/var_separator.go:9-12 (`type varSeparator struct`) -/
def T_varSeparator : GoType := .struct [("separator", .str), ("separatorSet", .bool)]

/-- a2l/variant_coding.go:9-16 (`type variantCoding struct`) -/
def T_variantCoding : GoType := .struct [("varCharacteristic", (.slice T_varCharacteristic)), ("varCriterion", (.slice T_varCriterion)),
  ("varForbiddenComb", (.slice T_varForbiddenComb)), ("varNaming", T_varNaming), ("varSeparator", T_varSeparator),
  ("varSeparatorSet", .bool)]

/-- a2l/module.go:11-43 (`type Module struct`) -/
def T_Module : GoType := .struct [("Name", .str), ("nameSet", .bool), ("longIdentifier", .str), ("longIdentifierSet", .bool), ("a2ml", T_a2ml),
  ("errors", (.slice .other)), ("AxisPts", (.dict T_axisPts)), ("blobs", (.dict T_blob)),
  ("Characteristics", (.dict T_Characteristic)), ("CompuMethods", (.dict T_CompuMethod)), ("CompuTabs", (.dict T_CompuTab)),
  ("CompuVTabs", (.dict T_CompuVTab)), ("CompuVTabRanges", (.dict T_CompuVTabRange)), ("frame", T_frame),
  ("Functions", (.dict T_function)), ("Groups", (.dict T_group)), ("ifData", (.dict T_IfData)), ("instances", (.dict T_instance)),
  ("Measurements", (.dict T_measurement)), ("ModCommon", T_modCommon), ("ModPar", T_modPar),
  ("RecordLayouts", (.dict T_RecordLayout)), ("transformers", (.dict T_transformer)), ("typeDefAxis", (.dict T_typeDefAxis)),
  ("typeDefBlobs", (.dict T_typeDefBlob)), ("typeDefCharacteristics", (.dict T_typeDefCharacteristic)),
  ("typeDefMeasurements", (.dict T_typeDefMeasurement)), ("typeDefStructures", (.dict T_typeDefStructure)),
  ("Units", (.dict T_unit)), ("userRights", (.dict T_userRights)), ("variantCoding", T_variantCoding)]

/-- a2l/project.go:9-16 (`type Project struct`) -/
def T_Project : GoType := .struct [("Name", .str), ("nameSet", .bool), ("longIdentifier", .str), ("longIdentifierSet", .bool), ("header", T_header),
  ("Modules", (.slice T_Module))]

/-- a2l/a2l.go:30-34 (`type A2L struct`) -/
def T_A2L : GoType := .struct [("Asap2Version", T_asap2Version), ("A2mlVersion", T_a2mlVersion), ("Project", T_Project)]

/-- The type of the struct that a parse function returns. -/
def typeOf : PName → GoType
  | .parseA2l => T_A2L
  | .parseA2ML => T_a2ml
  | .parseA2MLVersion => T_a2mlVersion
  | .parseAddrEpk => T_addrEpk
  | .parseAlignmentByte => T_alignmentByte
  | .parseAlignmentFloat16Ieee => T_alignmentFloat16Ieee
  | .parseAlignmentFloat32Ieee => T_alignmentFloat32Ieee
  | .parseAlignmentFloat64Ieee => T_alignmentFloat64Ieee
  | .parseAlignmentInt64 => T_alignmentInt64
  | .parseAlignmentLong => T_alignmentLong
  | .parseAlignmentWord => T_alignmentWord
  | .parseAnnotation => T_annotation
  | .parseAnnotationLabel => T_annotationLabel
  | .parseAnnotationOrigin => T_annotationOrigin
  | .parseAnnotationText => T_annotationText
  | .parseArComponent => T_arComponent
  | .parseArPrototypeOf => T_arPrototypeOf
  | .parseArraySize => T_arraySize
  | .parseASAP2Version => T_asap2Version
  | .parseAxisDescr => T_axisDescr
  | .parseAxisPts => T_axisPts
  | .parseAxisPts4 => T_AxisPts4
  | .parseAxisPts5 => T_AxisPts5
  | .parseAxisPtsRef => T_axisPtsRef
  | .parseAxisPtsX => T_AxisPtsX
  | .parseAxisPtsY => T_AxisPtsY
  | .parseAxisPtsZ => T_AxisPtsZ
  | .parseAxisRescaleX => T_AxisRescaleX
  | .parseBitMask => T_bitMask
  | .parseBitOperation => T_bitOperation
  | .parseBlob => T_blob
  | .parseByteOrder => T_ByteOrder
  | .parseCalibrationHandle => T_calibrationHandle
  | .parseCalibrationHandleText => T_calibrationHandleText
  | .parseCalibrationMethod => T_calibrationMethod
  | .parseCharacteristic => T_Characteristic
  | .parseCoeffs => T_Coeffs
  | .parseCoeffsLinear => T_CoeffsLinear
  | .parseComparisonQuantity => T_comparisonQuantity
  | .parseCompuMethod => T_CompuMethod
  | .parseCompuTab => T_CompuTab
  | .parseCompuTabRef => T_CompuTabRef
  | .parseCompuVtab => T_CompuVTab
  | .parseCompuVtabRange => T_CompuVTabRange
  | .parseConsistentExchangeKeyword => T_consistentExchangeKeyword
  | .parseCpuType => T_cpuType
  | .parseCurveAxisRef => T_curveAxisRef
  | .parseCustomer => T_customer
  | .parseCustomerNo => T_customerNo
  | .parseDataSize => T_dataSize
  | .parseDefCharacteristic => T_defCharacteristic
  | .parseDefaultValue => T_DefaultValue
  | .parseDefaultValueNumeric => T_DefaultValueNumeric
  | .parseDependentCharacteristic => T_DependentCharacteristic
  | .parseDeposit => T_deposit
  | .parseDiscrete => T_discreteKeyword
  | .parseDisplayIdentifier => T_DisplayIdentifier
  | .parseDistOp4 => T_DistOp4
  | .parseDistOp5 => T_DistOp5
  | .parseDistOpX => T_DistOpX
  | .parseDistOpY => T_DistOpY
  | .parseDistOpZ => T_DistOpZ
  | .parseEcu => T_ecu
  | .parseEcuAddress => T_ecuAddress
  | .parseECUAddressExtension => T_ecuAddressExtension
  | .parseEcuCalibrationOffset => T_ecuCalibrationOffset
  | .parseEpk => T_epk
  | .parseErrorMask => T_errorMask
  | .parseExtendedLimits => T_extendedLimits
  | .parseFixAxisPar => T_fixAxisPar
  | .parseFixAxisParDist => T_fixAxisParDist
  | .parseFixAxisParList => T_fixAxisParList
  | .parseFixNoAxisPts4 => T_FixNoAxisPts4
  | .parseFixNoAxisPts5 => T_FixNoAxisPts5
  | .parseFixNoAxisPtsX => T_FixNoAxisPtsX
  | .parseFixNoAxisPtsY => T_FixNoAxisPtsY
  | .parseFixNoAxisPtsZ => T_FixNoAxisPtsZ
  | .parseFncValues => T_FncValues
  | .parseFormat => T_format
  | .parseFormula => T_Formula
  | .parseFormulaInv => T_formulaInv
  | .parseFrame => T_frame
  | .parseFrameMeasurement => T_frameMeasurement
  | .parseFunction => T_function
  | .parseFunctionList => T_FunctionList
  | .parseFunctionVersion => T_functionVersion
  | .parseGroup => T_group
  | .parseGuardRails => T_guardRailsKeyword
  | .parseHeader => T_header
  | .parseIdentification => T_Identification
  | .parseIfData => T_IfData
  | .parseInMeasurement => T_inMeasurement
  | .parseInstance => T_instance
  | .parseLayout => T_layout
  | .parseLeftShift => T_LeftShift
  | .parseLimits => T_limits
  | .parseLocMeasurement => T_locMeasurement
  | .parseMapList => T_MapList
  | .parseMatrixDim => T_MatrixDim
  | .parseMaxGrad => T_MaxGrad
  | .parseMaxRefresh => T_MaxRefresh
  | .parseMeasurement => T_measurement
  | .parseMemoryLayout => T_memoryLayout
  | .parseMemorySegment => T_memorySegment
  | .parseModCommon => T_modCommon
  | .parseModPar => T_modPar
  | .parseModelLink => T_modelLink
  | .parseModule => T_Module
  | .parseMonotony => T_Monotony
  | .parseNoAxisPts4 => T_NoAxisPts4
  | .parseNoAxisPts5 => T_NoAxisPts5
  | .parseNoAxisPtsX => T_NoAxisPtsX
  | .parseNoAxisPtsY => T_NoAxisPtsY
  | .parseNoAxisPtsZ => T_NoAxisPtsZ
  | .parseNoOfInterfaces => T_noOfInterfaces
  | .parseNoRescaleX => T_NoRescaleX
  | .parseNumber => T_Number
  | .parseOffset4 => T_Offset4
  | .parseOffset5 => T_Offset5
  | .parseOffsetX => T_OffsetX
  | .parseOffsetY => T_offsetY
  | .parseOffsetZ => T_OffsetZ
  | .parseOutMeasurement => T_outMeasurement
  | .parseOverwrite => T_overwrite
  | .parsePhoneNo => T_phoneNo
  | .parsePhysUnit => T_physUnit
  | .parseProject => T_Project
  | .parseProjectNo => T_projectNo
  | .parseReadOnly => T_readOnlyKeyword
  | .parseReadWrite => T_readWriteKeyword
  | .parseRecordLayout => T_RecordLayout
  | .parseRefCharacteristic => T_refCharacteristic
  | .parseRefGroup => T_refGroup
  | .parseRefMeasurement => T_refMeasurement
  | .parseRefMemorySegment => T_refMemorySegment
  | .parseRefUnit => T_refUnit
  | .parseReserved => T_Reserved
  | .parseRightShift => T_RightShift
  | .parseRipAddr4 => T_RipAddr4
  | .parseRipAddr5 => T_RipAddr5
  | .parseRipAddrW => T_RipAddrW
  | .parseRipAddrX => T_ripAddrX
  | .parseRipAddrY => T_RipAddrY
  | .parseRipAddrZ => T_RipAddrZ
  | .parseRoot => T_rootKeyword
  | .parseShiftOp4 => T_ShiftOp4
  | .parseShiftOp5 => T_ShiftOp5
  | .parseShiftOpX => T_ShiftOpX
  | .parseShiftOpY => T_ShiftOpY
  | .parseShiftOpZ => T_ShiftOpZ
  | .parseSiExponents => T_siExponents
  | .parseSignExtend => T_SignExtendKeyword
  | .parseSrcAddr4 => T_srcAddr4
  | .parseSrcAddr5 => T_srcAddr5
  | .parseSrcAddrX => T_srcAddrX
  | .parseSrcAddrY => T_srcAddrY
  | .parseSrcAddrZ => T_srcAddrZ
  | .parseStaticAddressOffsets => T_staticAddressOffsetsKeyword
  | .parseStaticRecordLayout => T_staticRecordLayoutKeyword
  | .parseStatusStringRef => T_StatusStringRef
  | .parseStepSize => T_StepSize
  | .parseStructureComponent => T_structureComponent
  | .parseSubFunction => T_subFunction
  | .parseSubGroup => T_subGroup
  | .parseSupplier => T_supplier
  | .parseSymbolLink => T_symbolLink
  | .parseSymbolTypeLink => T_symbolTypeLink
  | .parseSystemConstant => T_SystemConstant
  | .parseTransformer => T_transformer
  | .parseTransformerInObject => T_transformerInObject
  | .parseTransformerOutObject => T_transformerOutObject
  | .parseTypeDefAxis => T_typeDefAxis
  | .parseTypeDefBlob => T_typeDefBlob
  | .parseTypeDefCharacteristic => T_typeDefCharacteristic
  | .parseTypeDefMeasurement => T_typeDefMeasurement
  | .parseTypeDefStructure => T_typeDefStructure
  | .parseUnit => T_unit
  | .parseUnitConversion => T_unitConversion
  | .parseUser => T_user
  | .parseUserRights => T_userRights
  | .parseVarAddress => T_varAddress
  | .parseVarCharacteristic => T_varCharacteristic
  | .parseVarCriterion => T_varCriterion
  | .parseVarForbiddenComb => T_varForbiddenComb
  | .parseVarMeasurement => T_varMeasurement
  | .parseVarNaming => T_varNaming
  | .parseVarSelectionCharacteristic => T_varSelectionCharacteristic
  | .parseVarSeparator => T_varSeparator
  | .parseVariantCoding => T_variantCoding
  | .parseVersion => T_version
  | .parseVirtual => T_virtual
  | .parseVirtualCharacteristic => T_VirtualCharacteristic
  | .parseModuleMultithreaded => T_Module

end Verif.A2l
