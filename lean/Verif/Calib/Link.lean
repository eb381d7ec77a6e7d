import Verif.A2l.Parts
import Verif.A2l.FileProps
import Verif.Calib.Model

/-!
The structs the A2L parser fills, as the evaluation functions of the root package see them: the
parser model keeps a Go struct as a function from field names to values (`A2l.Lang.Obj`), the
model of the evaluation functions has records of the fields these functions use
(`Calib.Module` and so on). Here the second is read off the first, field by field; the
functions of the root package access exactly these fields.

`fv` is the number a floating-point token denotes (`strconv.ParseFloat`, exact).
-/

namespace Verif.Link
open Verif.Go Verif.A2l Lang

/-- The struct in field `f`, the zero struct if it was never assigned. -/
def inner (o : Obj) (f : String) : Obj :=
  match o f with
  | .obj x => x
  | _ => Obj.empty

/-- The struct in a value. -/
def objOf : Lang.Val → Obj
  | .obj x => x
  | _ => Obj.empty

/-- The number in a value. -/
def number (fv : Str → Rat) : Lang.Val → Rat
  | .flt t => fv t
  | _ => 0

/-- The string in a value. -/
def text : Lang.Val → Str
  | .str s => s
  | _ => []

/-- A numeric field guarded by its marker. -/
def optNat (o : Obj) (f fl : String) : Option Nat := if o.flag fl then some (o.int f).toNat else none

/-- A floating-point field guarded by its marker. -/
def optNum (fv : Str → Rat) (o : Obj) (f fl : String) : Option Rat :=
  if o.flag fl then some (number fv (o f)) else none

/-- A string field guarded by its marker. -/
def optStr (o : Obj) (f fl : String) : Option Str := if o.flag fl then some (o.str f) else none

/-- The Go constant a token was turned into by an enumeration function (the parser model keeps
the token; the table of the function says which constant was stored). -/
def constant {α : Type} (e : EnumDef) (names : List (Str × α)) (dflt : α) (t : Str) : α :=
  match e.table.lookup t with
  | none => dflt
  | some c => (names.lookup c).getD dflt

/-- a2l/enums.go:273-283, 285-305. -/
def byteOrder : Str → Calib.ByteOrder := constant parseByteOrderEnum
  [((str! "LITTLE_ENDIAN"), .littleEndian), ((str! "BIG_ENDIAN"), .bigEndian), ((str! "MSB_LAST"), .msbLast),
   ((str! "MSB_FIRST"), .msbFirst), ((str! "MSB_FIRST_MSW_LAST"), .msbFirstMswLast),
   ((str! "MSB_LAST_MSW_FIRST"), .msbLastMswFirst)] .undefined

/-- a2l/enums.go:36-62, 168-198. -/
def dataType : Str → Calib.DataType := constant parseDataTypeEnum
  [((str! "UBYTE"), .ubyte), ((str! "SBYTE"), .sbyte), ((str! "UWORD"), .uword), ((str! "SWORD"), .sword),
   ((str! "ULONG"), .ulong), ((str! "SLONG"), .slong), ((str! "A_UINT64"), .aUint64), ((str! "A_INT64"), .aInt64),
   ((str! "FLOAT16_IEEE"), .float16), ((str! "FLOAT32_IEEE"), .float32), ((str! "FLOAT64_IEEE"), .float64)] .undefined

/-- a2l/enums.go:200-207, 223-237. -/
def dataSize : Str → Calib.DataSize := constant parseDataSizeEnum
  [((str! "BYTE"), .byte), ((str! "WORD"), .word), ((str! "LONG"), .long)] .undefined

/-- a2l/enums.go:240-252, 255-271. -/
def addrType : Str → Calib.AddrType := constant parseAddrTypeEnum
  [((str! "PBYTE"), .pbyte), ((str! "PWORD"), .pword), ((str! "PLONG"), .plong), ((str! "DIRECT"), .direct)] .undefined

/-- a2l/enums.go:485-505 and `parseConversionTypeEnum`. -/
def conversionType : Str → Calib.ConversionType := constant parseConversionTypeEnum
  [((str! "IDENTICAL"), .identical), ((str! "FORM"), .form), ((str! "LINEAR"), .linear), ((str! "RAT_FUNC"), .ratFunc),
   ((str! "TAB_INTP"), .tabIntp), ((str! "TAB_NOINTP"), .tabNointp), ((str! "TAB_VERB"), .tabVerb)] .undefined

/-- `x.AlignmentByte.AlignmentBorder` if `x.AlignmentByte.AlignmentBorderSet`. -/
def border (o : Obj) (f : String) : Option Nat := optNat (inner o f) "AlignmentBorder" "AlignmentBorderSet"

/-- The alignment entries of a2l/mod_common.go:9-22 and a2l/record_layout.go:9-68. -/
def align (o : Obj) : Calib.Align where
  byte := border o "AlignmentByte"
  word := border o "AlignmentWord"
  long := border o "AlignmentLong"
  int64 := border o "AlignmentInt64"
  float16 := border o "AlignmentFloat16Ieee"
  float32 := border o "AlignmentFloat32Ieee"
  float64 := border o "AlignmentFloat64Ieee"

/-- a2l/mod_common.go:9-22, a2l/byte_order.go:9-12. -/
def modCommon (o : Obj) : Calib.ModCommon where
  align := align o
  byteOrder := byteOrder ((inner o "ByteOrder").str "ByteOrder")
  byteOrderSet := (inner o "ByteOrder").flag "ByteOrderSet"

/-- The names of the struct fields of a2l/record_layout.go:9-68. -/
def fieldName : Calib.Field → String
  | .axisPts4 => "AxisPts4"
  | .axisPts5 => "AxisPts5"
  | .axisPtsX => "AxisPtsX"
  | .axisPtsY => "AxisPtsY"
  | .axisPtsZ => "AxisPtsZ"
  | .axisRescaleX => "AxisRescaleX"
  | .distOp4 => "DistOp4"
  | .distOp5 => "DistOp5"
  | .distOpX => "DistOpX"
  | .distOpY => "DistOpY"
  | .distOpZ => "DistOpZ"
  | .fncValues => "FncValues"
  | .identification => "Identification"
  | .noAxisPts4 => "NoAxisPts4"
  | .noAxisPts5 => "NoAxisPts5"
  | .noAxisPtsX => "NoAxisPtsX"
  | .noAxisPtsY => "NoAxisPtsY"
  | .noAxisPtsZ => "NoAxisPtsZ"
  | .noRescaleX => "NoRescaleX"
  | .offset4 => "Offset4"
  | .offset5 => "Offset5"
  | .offsetX => "OffsetX"
  | .offsetY => "OffsetY"
  | .offsetZ => "OffsetZ"
  | .reserved => "Reserved"
  | .ripAddr4 => "RipAddr4"
  | .ripAddr5 => "RipAddr5"
  | .ripAddrX => "RipAddrX"
  | .ripAddrY => "RipAddrY"
  | .ripAddrZ => "RipAddrZ"
  | .ripAddrW => "RipAddrW"
  | .shiftOp4 => "ShiftOp4"
  | .shiftOp5 => "ShiftOp5"
  | .shiftOpX => "ShiftOpX"
  | .shiftOpY => "ShiftOpY"
  | .shiftOpZ => "ShiftOpZ"
  | .srcAddr4 => "SrcAddr4"
  | .srcAddr5 => "SrcAddr5"
  | .srcAddrX => "SrcAddrX"
  | .srcAddrY => "SrcAddrY"
  | .srcAddrZ => "SrcAddrZ"

/-- The structs of RIP_ADDR_X and SRC_ADDR_… have unexported fields (a2l/rip_addr_x.go:42-47,
a2l/src_addr_x.go:10-15 and the like). -/
def lower : Calib.Field → Bool
  | .ripAddrX | .srcAddrX | .srcAddrY | .srcAddrZ | .srcAddr4 | .srcAddr5 => true
  | _ => false

/-- Position and data type of a field of a record layout. -/
def fieldDecl (o : Obj) (f : Calib.Field) : Calib.FieldDecl :=
  let x := inner o (fieldName f)
  if lower f then
    { position := optNat x "position" "positionSet"
      datatype := (optStr x "datatype" "datatypeSet").map dataType }
  else
    { position := optNat x "Position" "PositionSet"
      datatype := (optStr x "Datatype" "DatatypeSet").map dataType }

/-- The struct fields of the FIX_NO_AXIS_PTS entries. -/
def fixName : Calib.Axis → String
  | .x => "FixNoAxisPtsX" | .y => "FixNoAxisPtsY" | .z => "FixNoAxisPtsZ" | .a4 => "FixNoAxisPts4" | .a5 => "FixNoAxisPts5"

/-- a2l/record_layout.go:9-68. The map `RelativePositions` is a field like the others. -/
def recordLayout (o : Obj) : Calib.RecordLayout where
  align := align o
  field := fieldDecl o
  reservedSize := (optStr (inner o "Reserved") "DataSize" "DataSizeSet").map dataSize
  addressType := (optStr (inner o "FncValues") "Addresstype" "AddresstypeSet").map addrType
  fixNoAxisPts := fun a => optNat (inner o (fixName a)) "NumberOfAxisPoints" "NumberOfAxisPointsSet"
  relativePositions := fun k =>
    match o "RelativePositions" with
    | .map m => (m (toString k).toList).map text
    | _ => none

/-- a2l/system_constant.go:9-14. -/
def systemConstant (o : Obj) : Calib.SystemConstant where
  name := o.str "Name"
  value := optStr o "Value" "ValueSet"

/-- a2l/compu_tab.go:10-25. -/
def compuTab (fv : Str → Rat) (o : Obj) : Calib.CompuTab where
  inVal := (o.list "InVal").map (number fv)
  inValSet := o.flag "InValSet"
  outVal := (o.list "OutVal").map (number fv)
  outValSet := o.flag "OutValSet"
  defaultValue := optNum fv (inner o "DefaultValueNumeric") "DisplayValue" "DisplayValueSet"

/-- a2l/compu_vtab.go:10-24. -/
def compuVTab (fv : Str → Rat) (o : Obj) : Calib.CompuVTab where
  inVal := (o.list "InVal").map (number fv)
  inValSet := o.flag "InValSet"
  outVal := (o.list "OutVal").map text
  outValSet := o.flag "OutValSet"
  defaultValue := optStr (inner o "DefaultValue") "DisplayString" "DisplayStringSet"

/-- a2l/compu_vtab_range.go:10-24. -/
def compuVTabRange (fv : Str → Rat) (o : Obj) : Calib.CompuVTabRange where
  numberValueTriples := optNat o "NumberValueTriples" "NumberValueTriplesSet"
  inValMin := (o.list "InValMin").map (number fv)
  inValMax := (o.list "InValMax").map (number fv)
  outVal := (o.list "OutVal").map text
  defaultValue := optStr (inner o "DefaultValue") "DisplayString" "DisplayStringSet"

/-- a2l/coeffs.go:10-23. -/
def coeffs (fv : Str → Rat) (o : Obj) : Calib.Coeffs where
  a := optNum fv o "A" "ASet"
  b := optNum fv o "B" "BSet"
  c := optNum fv o "C" "CSet"
  d := optNum fv o "D" "DSet"
  e := optNum fv o "E" "ESet"
  f := optNum fv o "F" "FSet"

/-- a2l/compu_method.go:9-26. -/
def compuMethod (fv : Str → Rat) (o : Obj) : Calib.CompuMethod where
  conversionType := conversionType (o.str "ConversionType")
  linA := optNum fv (inner o "CoeffsLinear") "A" "ASet"
  linB := optNum fv (inner o "CoeffsLinear") "B" "BSet"
  coeffs := coeffs fv (inner o "Coeffs")
  compuTabRef := (inner o "CompuTabRef").str "ConversionTable"

/-- a2l/module.go:11-43. -/
def module (fv : Str → Rat) (o : Obj) : Calib.Module Lang.Val where
  modCommon := modCommon (inner o "ModCommon")
  axisPts := o.map "AxisPts"
  characteristics := o.map "Characteristics"
  compuMethods := fun k => (o.map "CompuMethods" k).map fun v => compuMethod fv (objOf v)
  compuTabs := fun k => (o.map "CompuTabs" k).map fun v => compuTab fv (objOf v)
  compuVTabs := fun k => (o.map "CompuVTabs" k).map fun v => compuVTab fv (objOf v)
  compuVTabRanges := fun k => (o.map "CompuVTabRanges" k).map fun v => compuVTabRange fv (objOf v)
  functions := o.map "Functions"
  groups := o.map "Groups"
  measurements := o.map "Measurements"
  recordLayouts := fun k => (o.map "RecordLayouts" k).map fun v => recordLayout (objOf v)
  systemConstants := fun k => ((inner o "ModPar").map "SystemConstants" k).map fun v => systemConstant (objOf v)
  units := o.map "Units"

/-- calib_data.go:31-41: `o` is the struct `A2L` (a2l/a2l.go:30-34), whose `Project.Modules` are the
modules (a2l/project.go:9-16). -/
def calData (fv : Str → Rat) (o : Obj) (moduleIndex : Nat) (hex : Nat → Option Nat) : Calib.CalData Lang.Val where
  modules := ((inner o "Project").list "Modules").map fun v => module fv (objOf v)
  moduleIndex := moduleIndex
  hex := hex

end Verif.Link
