import Verif.Go.Basic
import Verif.Go.Strings

/-!
Model of the root package's evaluation helpers: object lookup, address and value
decoding, alignment, byte extraction, conversion methods, record layout positions.

Simplifications, valid for the whole file:
* numbers of type `float64` that take part in comparisons and arithmetic are exact
  rationals (`Rat`); `NaN` is modelled where the code can produce it (`calcRatFunc`),
  infinities and rounding are not, except for the conversion of integers to `float64`
  in `convertByteSliceToDatatype`, which is modelled exactly (`toF64`);
* unsigned machine integers are `Nat` with the reduction written out;
* Go maps are functions to `Option`;
* a run-time panic is the outcome `Res.panic`, a returned `error` is `Res.err`; error
  texts and logging are left out.
-/

namespace Verif.Calib

open Verif.Go

/-- Outcome of a Go function returning `(value, error)`: a value, an error or a
run-time panic. -/
inductive Res (α : Type _) where
  | ok (a : α)
  | err
  | panic
  deriving DecidableEq, Repr

def Res.bind {α β : Type _} : Res α → (α → Res β) → Res β
  | .ok a, f => f a
  | .err, _ => .err
  | .panic, _ => .panic

/-! ### Data types and byte orders -/

/-- a2l/enums.go:36-62 (`DataTypeEnum`). -/
inductive DataType where
  | undefined | ubyte | sbyte | uword | sword | ulong | slong
  | aUint64 | aInt64 | float16 | float32 | float64
  deriving DecidableEq, Repr

/-- a2l/enums.go:64-94 (`DataTypeEnum.String`) with the token texts of
a2l/tokens.go. -/
def DataType.toStr : DataType → Str
  | .undefined => []
  | .ubyte => "UBYTE".toList
  | .sbyte => "SBYTE".toList
  | .uword => "UWORD".toList
  | .sword => "SWORD".toList
  | .ulong => "ULONG".toList
  | .slong => "SLONG".toList
  | .aUint64 => "A_UINT64".toList
  | .aInt64 => "A_INT64".toList
  | .float16 => "FLOAT16_IEEE".toList
  | .float32 => "FLOAT32_IEEE".toList
  | .float64 => "FLOAT64_IEEE".toList

/-- a2l/enums.go:138-166 (`GetDatatypeLength`), in bits. -/
def DataType.length : DataType → Nat
  | .ubyte => 8
  | .sbyte => 8
  | .uword => 32
  | .sword => 32
  | .ulong => 32
  | .slong => 32
  | .aUint64 => 64
  | .aInt64 => 64
  | .float16 => 16
  | .float32 => 32
  | .float64 => 64
  | .undefined => 0

/-- a2l/enums.go:168-198 (`parseDataTypeEnum`) on the current token. -/
def parseDataType (t : Str) : Option DataType :=
  if t = "UBYTE".toList then some .ubyte
  else if t = "SBYTE".toList then some .sbyte
  else if t = "UWORD".toList then some .uword
  else if t = "SWORD".toList then some .sword
  else if t = "ULONG".toList then some .ulong
  else if t = "SLONG".toList then some .slong
  else if t = "A_UINT64".toList then some .aUint64
  else if t = "A_INT64".toList then some .aInt64
  else if t = "FLOAT16_IEEE".toList then some .float16
  else if t = "FLOAT32_IEEE".toList then some .float32
  else if t = "FLOAT64_IEEE".toList then some .float64
  else none

/-- a2l/enums.go:200-207 (`DataSizeEnum`). -/
inductive DataSize where
  | undefined | byte | word | long
  deriving DecidableEq, Repr

/-- a2l/enums.go:209-221 (`GetDataSizeLength`). -/
def DataSize.length : DataSize → Nat
  | .byte => 8
  | .word => 32
  | .long => 64
  | .undefined => 0

/-- a2l/enums.go:273-283 (`ByteOrderEnum`). -/
inductive ByteOrder where
  | undefined | littleEndian | bigEndian | msbLast | msbFirst | msbFirstMswLast | msbLastMswFirst
  deriving DecidableEq, Repr

/-! ### The parsed database -/

/-- The seven alignment entries of MOD_COMMON (a2l/mod_common.go:9-21) and of
RECORD_LAYOUT (a2l/record_layout.go:9-68): the border if `AlignmentBorderSet`. -/
structure Align where
  byte : Option Nat := none
  word : Option Nat := none
  long : Option Nat := none
  int64 : Option Nat := none
  float16 : Option Nat := none
  float32 : Option Nat := none
  float64 : Option Nat := none

/-- The part of a2l/mod_common.go:9-21 the root package uses. -/
structure ModCommon where
  align : Align := {}
  byteOrder : ByteOrder := .undefined
  byteOrderSet : Bool := false

/-- The positioned fields of a record layout (a2l/record_layout.go:9-68). -/
inductive Field where
  | axisPts4 | axisPts5 | axisPtsX | axisPtsY | axisPtsZ | axisRescaleX
  | distOp4 | distOp5 | distOpX | distOpY | distOpZ
  | fncValues | identification
  | noAxisPts4 | noAxisPts5 | noAxisPtsX | noAxisPtsY | noAxisPtsZ | noRescaleX
  | offset4 | offset5 | offsetX | offsetY | offsetZ
  | reserved
  | ripAddr4 | ripAddr5 | ripAddrX | ripAddrY | ripAddrZ | ripAddrW
  | shiftOp4 | shiftOp5 | shiftOpX | shiftOpY | shiftOpZ
  | srcAddr4 | srcAddr5 | srcAddrX | srcAddrY | srcAddrZ
  deriving DecidableEq, Repr

/-- The field names as string literals (a2l/record_layout.go:512-918, 927-1206). -/
def Field.name : Field → Str
  | .axisPts4 => "AxisPts4".toList | .axisPts5 => "AxisPts5".toList
  | .axisPtsX => "AxisPtsX".toList | .axisPtsY => "AxisPtsY".toList
  | .axisPtsZ => "AxisPtsZ".toList | .axisRescaleX => "AxisRescaleX".toList
  | .distOp4 => "DistOp4".toList | .distOp5 => "DistOp5".toList
  | .distOpX => "DistOpX".toList | .distOpY => "DistOpY".toList
  | .distOpZ => "DistOpZ".toList
  | .fncValues => "FncValues".toList | .identification => "Identification".toList
  | .noAxisPts4 => "NoAxisPts4".toList | .noAxisPts5 => "NoAxisPts5".toList
  | .noAxisPtsX => "NoAxisPtsX".toList | .noAxisPtsY => "NoAxisPtsY".toList
  | .noAxisPtsZ => "NoAxisPtsZ".toList | .noRescaleX => "NoRescaleX".toList
  | .offset4 => "Offset4".toList | .offset5 => "Offset5".toList
  | .offsetX => "OffsetX".toList | .offsetY => "OffsetY".toList
  | .offsetZ => "OffsetZ".toList
  | .reserved => "Reserved".toList
  | .ripAddr4 => "RipAddr4".toList | .ripAddr5 => "RipAddr5".toList
  | .ripAddrX => "RipAddrX".toList | .ripAddrY => "RipAddrY".toList
  | .ripAddrZ => "RipAddrZ".toList | .ripAddrW => "RipAddrW".toList
  | .shiftOp4 => "ShiftOp4".toList | .shiftOp5 => "ShiftOp5".toList
  | .shiftOpX => "ShiftOpX".toList | .shiftOpY => "ShiftOpY".toList
  | .shiftOpZ => "ShiftOpZ".toList
  | .srcAddr4 => "SrcAddr4".toList | .srcAddr5 => "SrcAddr5".toList
  | .srcAddrX => "SrcAddrX".toList | .srcAddrY => "SrcAddrY".toList
  | .srcAddrZ => "SrcAddrZ".toList

/-- A field of a record layout: its `Position` if `PositionSet`, its `Datatype` if
`DatatypeSet`. -/
structure FieldDecl where
  position : Option Nat := none
  datatype : Option DataType := none

/-- a2l/enums.go:240-252 (`AddrTypeEnum`). -/
inductive AddrType where
  | undefined | pbyte | pword | plong | plonglong | direct
  deriving DecidableEq, Repr

/-- The axes of an axis description. -/
inductive Axis where
  | x | y | z | a4 | a5
  deriving DecidableEq, Repr

/-- a2l/record_layout.go:9-68 (`RecordLayout`): alignments, positioned fields, the size
of the RESERVED entry, the address type of FNC_VALUES, the FIX_NO_AXIS_PTS entries and
the map `RelativePositions`, which the A2L parser never fills. -/
structure RecordLayout where
  align : Align := {}
  field : Field → FieldDecl := fun _ => {}
  reservedSize : Option DataSize := none
  addressType : Option AddrType := none
  fixNoAxisPts : Axis → Option Nat := fun _ => none
  relativePositions : Nat → Option Str := fun _ => none

/-- a2l/system_constant.go:9-14. -/
structure SystemConstant where
  name : Str := []
  value : Option Str := none
  deriving DecidableEq

/-- a2l/compu_tab.go (`CompuTab`): the columns, whether they are set, and
DEFAULT_VALUE_NUMERIC. -/
structure CompuTab where
  inVal : List Rat := []
  inValSet : Bool := false
  outVal : List Rat := []
  outValSet : Bool := false
  defaultValue : Option Rat := none

/-- a2l/compu_vtab.go (`CompuVTab`) with DEFAULT_VALUE. -/
structure CompuVTab where
  inVal : List Rat := []
  inValSet : Bool := false
  outVal : List Str := []
  outValSet : Bool := false
  defaultValue : Option Str := none

/-- a2l/compu_vtab_range.go (`CompuVTabRange`) with DEFAULT_VALUE. -/
structure CompuVTabRange where
  numberValueTriples : Option Nat := none
  inValMin : List Rat := []
  inValMax : List Rat := []
  outVal : List Str := []
  defaultValue : Option Str := none

/-- a2l/enums.go:485-505 (`conversionTypeEnum`). -/
inductive ConversionType where
  | undefined | identical | form | linear | ratFunc | tabIntp | tabNointp | tabVerb
  deriving DecidableEq, Repr

/-- a2l/coeffs.go: six numbers, each with its `Set` flag. -/
structure Coeffs where
  a : Option Rat := none
  b : Option Rat := none
  c : Option Rat := none
  d : Option Rat := none
  e : Option Rat := none
  f : Option Rat := none

/-- The part of a2l/compu_method.go (`CompuMethod`) used by the conversion. -/
structure CompuMethod where
  conversionType : ConversionType := .undefined
  linA : Option Rat := none
  linB : Option Rat := none
  coeffs : Coeffs := {}
  compuTabRef : Str := []

/-- a2l/module.go:11-43 (`Module`): the maps that are searched by name. The payload of
the maps whose contents no evaluation function looks at is the type parameter `P`. -/
structure Module (P : Type) where
  modCommon : ModCommon := {}
  axisPts : Str → Option P := fun _ => none
  characteristics : Str → Option P := fun _ => none
  compuMethods : Str → Option CompuMethod := fun _ => none
  compuTabs : Str → Option CompuTab := fun _ => none
  compuVTabs : Str → Option CompuVTab := fun _ => none
  compuVTabRanges : Str → Option CompuVTabRange := fun _ => none
  functions : Str → Option P := fun _ => none
  groups : Str → Option P := fun _ => none
  measurements : Str → Option P := fun _ => none
  recordLayouts : Str → Option RecordLayout := fun _ => none
  systemConstants : Str → Option SystemConstant := fun _ => none
  units : Str → Option P := fun _ => none

/-- calib_data.go:31-41 (`CalibrationData`): the modules of the project, the index of
the module in use and the hex data. -/
structure CalData (P : Type) where
  modules : List (Module P) := []
  moduleIndex : Nat := 0
  hex : Nat → Option Nat := fun _ => none

/-- `cd.A2l.Project.Modules[cd.ModuleIndex]`, panicking when there is no such module. -/
def CalData.module? {P : Type} (cd : CalData P) : Option (Module P) :=
  index? cd.modules cd.moduleIndex

/-! ### Objects by name -/

/-- record_manager.go:17-26 (`getSystemConstant`). -/
def getSystemConstant {P : Type} (cd : CalData P) (ident : Str) : Res SystemConstant :=
  match cd.module? with
  | none => .panic
  | some m =>
    match m.systemConstants ident with
    | none => .err
    | some s => .ok s

/-- record_manager.go:28-41 (`getSystemConstantValue`): the variable `val` that is
returned is declared and never assigned. -/
def getSystemConstantValue {P : Type} (cd : CalData P) (ident : Str) : Res Str :=
  (getSystemConstant cd ident).bind fun sc =>
    let val : Str := []
    match sc.value with
    | none => .err
    | some _ => .ok val

/-- An object put into the result slice: an `interface{}` knows its dynamic type. -/
inductive Obj (P : Type) where
  | axisPts (p : P) | characteristic (p : P) | compuMethod (c : CompuMethod)
  | compuTab (t : CompuTab) | compuVTab (t : CompuVTab) | compuVTabRange (t : CompuVTabRange)
  | function (p : P) | group (p : P) | measurement (p : P)
  | recordLayout (r : RecordLayout) | systemConstant (s : SystemConstant) | unit (p : P)

/-- record_manager.go:45-101 (`GetObjectByIdent`): twelve lookups, each appending to the
result slice. -/
def getObjectByIdent {P : Type} (cd : CalData P) (ident : Str) : Res (List (Obj P)) :=
  match cd.module? with
  | none => .panic
  | some m =>
    .ok (((m.axisPts ident).map Obj.axisPts).toList
      ++ ((m.characteristics ident).map Obj.characteristic).toList
      ++ ((m.compuMethods ident).map Obj.compuMethod).toList
      ++ ((m.compuTabs ident).map Obj.compuTab).toList
      ++ ((m.compuVTabs ident).map Obj.compuVTab).toList
      ++ ((m.compuVTabRanges ident).map Obj.compuVTabRange).toList
      ++ ((m.functions ident).map Obj.function).toList
      ++ ((m.groups ident).map Obj.group).toList
      ++ ((m.measurements ident).map Obj.measurement).toList
      ++ ((m.recordLayouts ident).map Obj.recordLayout).toList
      ++ ((m.systemConstants ident).map Obj.systemConstant).toList
      ++ ((m.units ident).map Obj.unit).toList)

/-! ### Addresses and raw values -/

/-- `strings.ReplaceAll(str, "0x", "")`. -/
def removeAll0x : Str → Str
  | '0' :: 'x' :: r => removeAll0x r
  | c :: r => c :: removeAll0x r
  | [] => []

/-- The digit table of `encoding/hex` (`fromHexChar` of the Go standard library). -/
def fromHexChar (c : Char) : Option Nat :=
  if '0' ≤ c ∧ c ≤ '9' then some (c.toNat - '0'.toNat)
  else if 'a' ≤ c ∧ c ≤ 'f' then some (c.toNat - 'a'.toNat + 10)
  else if 'A' ≤ c ∧ c ≤ 'F' then some (c.toNat - 'A'.toNat + 10)
  else none

/-- record_manager.go:104-110 (`hexToByteSlice`), i.e. `hex.DecodeString`: pairs of
digits; an invalid digit or an odd number of digits is an error (`none`). -/
def hexToByteSlice : Str → Option (List Nat)
  | [] => some []
  | [_] => none
  | a :: b :: r =>
    match fromHexChar a, fromHexChar b with
    | some x, some y => (hexToByteSlice r).map (fun bs => (16 * x + y) :: bs)
    | _, _ => none

/-- `binary.BigEndian.Uint16`; panics if there are fewer than two bytes. The shifts and
ors of the library are sums because bytes are below 256. -/
def be16 : List Nat → Option Nat
  | a :: b :: _ => some (a * 256 + b)
  | _ => none

/-- `binary.LittleEndian.Uint16`. -/
def le16 : List Nat → Option Nat
  | a :: b :: _ => some (a + b * 256)
  | _ => none

/-- `binary.BigEndian.Uint32`; panics if there are fewer than four bytes. -/
def be32 : List Nat → Option Nat
  | a :: b :: c :: d :: _ => some (a * 256 ^ 3 + b * 256 ^ 2 + c * 256 + d)
  | _ => none

/-- `binary.LittleEndian.Uint32`. -/
def le32 : List Nat → Option Nat
  | a :: b :: c :: d :: _ => some (a + b * 256 + c * 256 ^ 2 + d * 256 ^ 3)
  | _ => none

/-- `binary.BigEndian.Uint64`; panics if there are fewer than eight bytes. -/
def be64 : List Nat → Option Nat
  | a :: b :: c :: d :: e :: f :: g :: h :: _ =>
    some (a * 256 ^ 7 + b * 256 ^ 6 + c * 256 ^ 5 + d * 256 ^ 4
      + e * 256 ^ 3 + f * 256 ^ 2 + g * 256 + h)
  | _ => none

/-- `binary.LittleEndian.Uint64`. -/
def le64 : List Nat → Option Nat
  | a :: b :: c :: d :: e :: f :: g :: h :: _ =>
    some (a + b * 256 + c * 256 ^ 2 + d * 256 ^ 3
      + e * 256 ^ 4 + f * 256 ^ 5 + g * 256 ^ 6 + h * 256 ^ 7)
  | _ => none

/-- `none` of a library call is its run-time panic. -/
def orPanic {α β : Type _} (o : Option α) (f : α → β) : Res β :=
  match o with
  | some a => .ok (f a)
  | none => .panic

/-- record_manager.go:113-132 (`convertStringToUint32Address`). -/
def convertStringToUint32Address {P : Type} (cd : CalData P) (str : Str) : Res Nat :=
  match hexToByteSlice (removeAll0x str) with
  | none => .err
  | some byteSlice =>
    match cd.module? with
    | none => .panic
    | some m =>
      if m.modCommon.byteOrder = .msbFirstMswLast ∨ m.modCommon.byteOrder = .msbLastMswFirst then
        .err
      else if m.modCommon.byteOrderSet = false ∨ m.modCommon.byteOrder = .bigEndian
          ∨ m.modCommon.byteOrder = .msbFirst then
        orPanic (be32 byteSlice) id
      else
        orPanic (le32 byteSlice) id

/-- The conversion `float64(n)` of a non-negative integer: exact below `2^53`, above it
rounded to 53 significant bits, half to even. -/
def natToF64 (n : Nat) : Nat :=
  if n < 2 ^ 53 then n
  else
    let e := Nat.log2 n - 52
    let q := n / 2 ^ e
    let r := n % 2 ^ e
    let up := decide (2 ^ e < 2 * r) || (decide (2 * r = 2 ^ e) && decide (q % 2 = 1))
    (if up then q + 1 else q) * 2 ^ e

/-- `float64(i)` of a signed integer. -/
def toF64 (i : Int) : Int :=
  if i < 0 then -(natToF64 i.natAbs : Int) else (natToF64 i.natAbs : Int)

/-- `int8(x)`, `int32(x)`, `int64(x)` of an unsigned number of `bits` bits. -/
def toSigned (bits n : Nat) : Int :=
  if n < 2 ^ (bits - 1) then (n : Int) else (n : Int) - 2 ^ bits

/-- A `float64` result: an integral number, or the number that the IEEE bit pattern
denotes. -/
inductive Val where
  | num (i : Int)
  | f32 (bits : Nat)
  | f64 (bits : Nat)
  deriving DecidableEq, Repr

/-- The switch over data types of `convertByteSliceToDatatype` for one byte order
(record_manager.go:154-190 big endian, 192-228 little endian). `float64(val)` of a
`float16.Float16`, which is declared as `type Float16 uint16`
(vendor/github.com/x448/float16/float16.go:14), converts the bit pattern as an integer. -/
def decodeWith (u16 u32 u64 : List Nat → Option Nat) (bs : List Nat) : DataType → Res Val
  | .ubyte => orPanic (index? bs 0) fun b => .num (toF64 b)
  | .sbyte => orPanic (index? bs 0) fun b => .num (toF64 (toSigned 8 b))
  | .uword => orPanic (u32 bs) fun v => .num (toF64 v)
  | .sword => orPanic (u32 bs) fun v => .num (toF64 (toSigned 32 v))
  | .ulong => orPanic (u64 bs) fun v => .num (toF64 v)
  | .slong => orPanic (u64 bs) fun v => .num (toF64 (toSigned 64 v))
  | .aUint64 => orPanic (u64 bs) fun v => .num (toF64 v)
  | .aInt64 => orPanic (u64 bs) fun v => .num (toF64 (toSigned 64 v))
  | .float16 => orPanic (u16 bs) fun v => .num (toF64 v)
  | .float32 => orPanic (u32 bs) fun v => .f32 v
  | .float64 => orPanic (u64 bs) fun v => .f64 v
  | .undefined => .err

/-- record_manager.go:138-234 (`convertByteSliceToDatatype`). -/
def convertByteSliceToDatatype {P : Type} (cd : CalData P) (bs : List Nat) (dte : DataType) :
    Res Val :=
  if bs.length = 0 ∨ bs.length * 8 < dte.length then .err
  else
    match cd.module? with
    | none => .panic
    | some m =>
      if m.modCommon.byteOrder = .msbFirstMswLast ∨ m.modCommon.byteOrder = .msbLastMswFirst then
        .err
      else if m.modCommon.byteOrderSet = false ∨ m.modCommon.byteOrder = .bigEndian
          ∨ m.modCommon.byteOrder = .msbFirst then
        decodeWith be16 be32 be64 bs dte
      else if m.modCommon.byteOrder = .littleEndian ∨ m.modCommon.byteOrder = .msbLast then
        decodeWith le16 le32 le64 bs dte
      else .err

/-! ### Alignment and byte extraction -/

/-- The repeated lines `modulo := address % uint32(border); if modulo != 0 { return
address + modulo } else { return address }` (e.g. calib_data.go:202-207); a zero border
is the run-time panic "integer divide by zero". -/
def addModulo (address border : Nat) : Res Nat :=
  if border = 0 then .panic
  else if address % border ≠ 0 then .ok ((address + address % border) % 2 ^ 32)
  else .ok address

/-- One `case` of the switch in calib_data.go:199-477: the border of the record layout,
else of MOD_COMMON of the current module, else the default. -/
def alignCase {P : Type} (cd : CalData P) (rl : RecordLayout) (address : Nat)
    (get : Align → Option Nat) (dflt : Nat) : Res Nat :=
  match get rl.align with
  | some b => addModulo address b
  | none =>
    match cd.module? with
    | none => .panic
    | some m =>
      match get m.modCommon.align with
      | some b => addModulo address b
      | none => addModulo address dflt

/-- calib_data.go:198-478 (`getNextAlignedAddress`). -/
def getNextAlignedAddress {P : Type} (cd : CalData P) (address : Nat) (dte : DataType)
    (rl : RecordLayout) : Res Nat :=
  match dte with
  | .ubyte => alignCase cd rl address Align.byte 1
  | .sbyte => alignCase cd rl address Align.byte 1
  | .uword => alignCase cd rl address Align.word 2
  | .sword => alignCase cd rl address Align.word 2
  | .ulong => alignCase cd rl address Align.long 4
  | .slong => alignCase cd rl address Align.long 4
  | .aUint64 => alignCase cd rl address Align.int64 8
  | .aInt64 => alignCase cd rl address Align.int64 8
  | .float16 => alignCase cd rl address Align.float16 2
  | .float32 => alignCase cd rl address Align.float32 4
  | .float64 => alignCase cd rl address Align.float64 8
  | .undefined => .ok address

/-- The loop of `getBytes` (calib_data.go:490-498): `n` bytes from `address`, appended to
`acc`. -/
def getBytesLoop (hex : Nat → Option Nat) (address : Nat) : Nat → Nat → List Nat → Res (List Nat)
  | 0, _, acc => .ok acc
  | n + 1, i, acc =>
    match hex ((address + i) % 2 ^ 32) with
    | none => .err
    | some b => getBytesLoop hex address n (i + 1) (acc ++ [b])

/-- calib_data.go:482-500 (`getBytes`). `make([]byte, nBytes, 0)` asks for a slice of
length `nBytes` and capacity 0: the run-time panics ("makeslice: cap out of range") unless
`nBytes` is 0. -/
def getBytes {P : Type} (cd : CalData P) (address length : Nat) : Res (List Nat) :=
  let nBytes := length / 8
  if nBytes > 0 then .panic
  else if length % 8 ≠ 0 then .err
  else getBytesLoop cd.hex address nBytes 0 (List.replicate nBytes 0)

/-- calib_data.go:709-716 (`getValue`). -/
def getValue {P : Type} (cd : CalData P) (curPos : Nat) (dte : DataType) (rl : RecordLayout) :
    Res (List Nat) :=
  (getNextAlignedAddress cd curPos dte rl).bind fun a => getBytes cd a dte.length

/-! ### Record layouts -/

/-- The order in which `GetRecordLayoutRelativePositions` looks at the fields
(a2l/record_layout.go:503-917). -/
def positionOrder : List Field :=
  [.axisPts4, .axisPts5, .axisPtsX, .axisPtsY, .axisPtsZ, .axisRescaleX,
   .distOp4, .distOp5, .distOpX, .distOpY, .distOpZ, .fncValues, .identification,
   .noAxisPts4, .noAxisPts5, .noAxisPtsX, .noAxisPtsY, .noAxisPtsZ, .noRescaleX,
   .offset4, .offset5, .offsetX, .offsetY, .offsetZ, .reserved,
   .ripAddr4, .ripAddr5, .ripAddrX, .ripAddrY, .ripAddrZ, .ripAddrW,
   .shiftOp4, .shiftOp5, .shiftOpX, .shiftOpY, .shiftOpZ,
   .srcAddr4, .srcAddr5, .srcAddrX, .srcAddrY, .srcAddrZ]

/-- The sequence of `if rl.F.PositionSet { if exists { return order, err }; order[…] =
"F" }` statements (a2l/record_layout.go:503-917): the map built so far and whether the
duplicate error was returned. -/
def positionsFrom (rl : RecordLayout) :
    List Field → (Nat → Option Str) → (Nat → Option Str) × Bool
  | [], order => (order, false)
  | f :: fs, order =>
    match (rl.field f).position with
    | none => positionsFrom rl fs order
    | some p =>
      match order p with
      | some _ => (order, true)
      | none => positionsFrom rl fs (fun q => if q = p then some f.name else order q)

/-- a2l/record_layout.go:502-919 (`GetRecordLayoutRelativePositions`): the map and
whether an error accompanies it. -/
def getRelativePositions (rl : RecordLayout) : (Nat → Option Str) × Bool :=
  positionsFrom rl positionOrder (fun _ => none)

/-- The cases of `GetDatatypeByFieldName` in source order (a2l/record_layout.go:927-1206);
there is none for "Reserved". -/
def datatypeOrder : List Field :=
  [.axisPtsX, .axisPtsY, .axisPtsZ, .axisPts4, .axisPts5, .axisRescaleX,
   .distOpX, .distOpY, .distOpZ, .distOp4, .distOp5, .fncValues, .identification,
   .noAxisPtsX, .noAxisPtsY, .noAxisPtsZ, .noAxisPts4, .noAxisPts5, .noRescaleX,
   .offsetX, .offsetY, .offsetZ, .offset4, .offset5,
   .ripAddrW, .ripAddrX, .ripAddrY, .ripAddrZ, .ripAddr4, .ripAddr5,
   .srcAddrX, .srcAddrY, .srcAddrZ, .srcAddr4, .srcAddr5,
   .shiftOpX, .shiftOpY, .shiftOpZ, .shiftOp4, .shiftOp5]

/-- a2l/record_layout.go:923-1210 (`GetDatatypeByFieldName`): the first case with this
name; unset data type or unknown name is an error. -/
def getDatatypeByFieldName (rl : RecordLayout) (name : Str) : Res DataType :=
  match datatypeOrder.find? (fun f => f.name == name) with
  | none => .err
  | some f =>
    match (rl.field f).datatype with
    | none => .err
    | some d => .ok d

/-! ### Reading the fields of a characteristic -/

/-- The type of `getValue`: position, data type, record layout. The functions below call `getValue`; it is an argument of
their models (with `getValue` itself as the default), since what they do apart from it can then be stated although
`getValue` crashes for every data type (C40). -/
abbrev Reader := Nat → DataType → RecordLayout → Res (List Nat)

/-- characteristic_values.go:9-40 (`CharacteristicValues`): the characteristic's name,
deposit and address, its record layout and the values read so far. All scalar values
are kept in one map by field name; `none` is the zero value. -/
structure CharValues where
  deposit : Option Str := none
  address : Str := []
  recordLayout : RecordLayout := {}
  scalar : Field → Option Int := fun _ => none
  axis : Axis → Option (List Val) := fun _ => none

/-- The common shape of `getDistOpX` … `getShiftOp5`, `getNoAxisPtsX` … `getNoRescaleX`
(distOp.go, offsetOp.go, shiftOp.go, no_axis_pts.go, no_rescale_x.go; e.g.
no_axis_pts.go:11-29): the data type must be set; the value is read, decoded and
truncated to an integer, and the position is advanced by `GetDatatypeLength`. `trunc` is
Go's conversion `int64(val)`, which is the identity on integral values. -/
def readScalar {P : Type} (trunc : Val → Int) (cd : CalData P) (rl : RecordLayout) (f : Field)
    (curPos : Nat) (get : Reader := getValue cd) : Res (Int × Nat) :=
  match (rl.field f).datatype with
  | none => .err
  | some d =>
    (get curPos d rl).bind fun bytes =>
      (convertByteSliceToDatatype cd bytes d).bind fun v =>
        .ok (trunc v, (curPos + d.length) % 2 ^ 32)

/-- identification.go:12-25 (`getIdentification`): like the scalars, but the bytes are
not decoded. -/
def getIdentification {P : Type} (cd : CalData P) (rl : RecordLayout) (curPos : Nat)
    (get : Reader := getValue cd) : Res (List Nat × Nat) :=
  match (rl.field .identification).datatype with
  | none => .err
  | some d =>
    (get curPos d rl).bind fun bytes => .ok (bytes, (curPos + d.length) % 2 ^ 32)

/-- reserved.go:12-21 (`getReserved`). -/
def getReserved (rl : RecordLayout) (curPos : Nat) : Res Nat :=
  match rl.reservedSize with
  | none => .err
  | some s => .ok ((curPos + s.length) % 2 ^ 32)

/-- The loop of `getAxisPointsX` (axis_pts.go:36-49). -/
def axisLoop {P : Type} (cd : CalData P) (rl : RecordLayout) (d : DataType)
    (n curPos : Nat) (acc : List Val) (get : Reader := getValue cd) : Res (List Val × Nat) :=
  match n with
  | 0 => .ok (acc, curPos)
  | n + 1 =>
    (get curPos d rl).bind fun bytes =>
      (convertByteSliceToDatatype cd bytes d).bind fun v =>
        axisLoop cd rl d n ((curPos + d.length) % 2 ^ 32) (acc ++ [v]) get

/-- The position when that loop ends, which is kept also if it ends with an error (`curPos` is a pointer). -/
def axisEnd {P : Type} (cd : CalData P) (rl : RecordLayout) (d : DataType) (get : Reader) : Nat → Nat → Nat
  | 0, curPos => curPos
  | n + 1, curPos =>
    match (get curPos d rl).bind fun bytes => convertByteSliceToDatatype cd bytes d with
    | .ok _ => axisEnd cd rl d get n ((curPos + d.length) % 2 ^ 32)
    | _ => curPos

/-- The field holding the points of an axis. -/
def Axis.ptsField : Axis → Field
  | .x => .axisPtsX | .y => .axisPtsY | .z => .axisPtsZ | .a4 => .axisPts4 | .a5 => .axisPts5

/-- The field holding the number of points of an axis. -/
def Axis.noField : Axis → Field
  | .x => .noAxisPtsX | .y => .noAxisPtsY | .z => .noAxisPtsZ | .a4 => .noAxisPts4
  | .a5 => .noAxisPts5

/-- axis_pts.go:20-35: the number of points is fixed by the layout or was read before. -/
def axisCount (cv : CharValues) (rl : RecordLayout) (ax : Axis) : Option Nat :=
  match rl.fixNoAxisPts ax with
  | some n => some n
  | none =>
    match cv.scalar ax.noField with
    | none => none
    | some n => if n ≤ 0 then none else some n.toNat

/-- axis_pts.go:15-51 (`getAxisPointsX`), 54-90 (Y), 93-129 (Z), 132-168 (4), 171-207 (5); an unset data type is
the undefined one. -/
def getAxisPoints {P : Type} (cd : CalData P) (cv : CharValues) (rl : RecordLayout) (ax : Axis)
    (curPos : Nat) (get : Reader := getValue cd) : Res (List Val × Nat) :=
  let d := ((rl.field ax.ptsField).datatype).getD .undefined
  match axisCount cv rl ax with
  | none => .err
  | some n => axisLoop cd rl d n curPos [] get

/-- The position after `getAxisPointsX` has returned an error. -/
def axisErrPos {P : Type} (cd : CalData P) (cv : CharValues) (rl : RecordLayout) (ax : Axis)
    (curPos : Nat) (get : Reader) : Nat :=
  match axisCount cv rl ax with
  | none => curPos
  | some n => axisEnd cd rl (((rl.field ax.ptsField).datatype).getD .undefined) get n curPos

/-- calib_data.go:718-769 (`getFncValues`): reads one UBYTE for DIRECT and PBYTE and
discards it; the result is always `nil`. -/
def getFncValues {P : Type} (cd : CalData P) (rl : RecordLayout) (curPos : Nat)
    (get : Reader := getValue cd) : Res Unit :=
  let readByte : Res Unit :=
    (get curPos .ubyte rl).bind fun bytes =>
      (convertByteSliceToDatatype cd bytes .ubyte).bind fun _ => .ok ()
  match rl.addressType.getD .direct with
  | .direct => readByte
  | .pbyte => readByte
  | .pword => .ok ()
  | .plong => .ok ()
  | .plonglong => .ok ()
  | .undefined => .err

/-- calib_data.go:178-192 (`getRecordLayout`). -/
def getRecordLayout {P : Type} (cd : CalData P) (deposit : Option Str) : Res RecordLayout :=
  match deposit with
  | none => .err
  | some d =>
    match cd.module? with
    | none => .panic
    | some m =>
      match m.recordLayouts d with
      | none => .err
      | some rl => .ok rl

/-- The kind of action the switch of `getValuesFromHex` (calib_data.go:526-705) takes for
a field name. -/
inductive Action where
  | axis (a : Axis) | scalar | fnc | ident | reserved | skip
  deriving DecidableEq

/-- calib_data.go:526-705, the switch: AxisRescaleX, the RIP_ADDR and the SRC_ADDR fields
are only logged. -/
def Field.action : Field → Action
  | .axisPtsX => .axis .x | .axisPtsY => .axis .y | .axisPtsZ => .axis .z
  | .axisPts4 => .axis .a4 | .axisPts5 => .axis .a5
  | .axisRescaleX => .skip
  | .fncValues => .fnc
  | .identification => .ident
  | .reserved => .reserved
  | .ripAddr4 | .ripAddr5 | .ripAddrX | .ripAddrY | .ripAddrZ | .ripAddrW => .skip
  | .srcAddr4 | .srcAddr5 | .srcAddrX | .srcAddrY | .srcAddrZ => .skip
  | _ => .scalar

/-- One round of the loop over the fields (calib_data.go:525-706): errors are logged and
the loop goes on with the zero value in the variable that was to be filled; a panic ends
everything (`none`). After an error the position is unchanged, since the functions
advance it only after a successful read; `getAxisPointsX` may have advanced it in
earlier rounds of its loop. -/
def fieldStep {P : Type} (trunc : Val → Int) (cd : CalData P) (rl : RecordLayout)
    (st : CharValues × Nat) (name : Str) (get : Reader := getValue cd) : Option (CharValues × Nat) :=
  match positionOrder.find? (fun f => f.name == name) with
  | none => some st
  | some f =>
    match f.action with
    | .axis a =>
      match getAxisPoints cd st.1 rl a st.2 get with
      | .ok (vs, p) =>
        some ({ st.1 with axis := fun b => if b = a then some vs else st.1.axis b }, p)
      | .err => some ({ st.1 with axis := fun b => if b = a then none else st.1.axis b }, axisErrPos cd st.1 rl a st.2 get)
      | .panic => none
    | .scalar =>
      match readScalar trunc cd rl f st.2 get with
      | .ok (v, p) =>
        some ({ st.1 with scalar := fun g => if g = f then some v else st.1.scalar g }, p)
      | .err => some ({ st.1 with scalar := fun g => if g = f then none else st.1.scalar g }, st.2)
      | .panic => none
    | .fnc =>
      match getFncValues cd rl st.2 get with
      | .ok _ => some st
      | .err => some st
      | .panic => none
    | .ident =>
      match getIdentification cd rl st.2 get with
      | .ok (_, p) => some (st.1, p)
      | .err => some st
      | .panic => none
    | .reserved =>
      match getReserved rl st.2 with
      | .ok p => some (st.1, p)
      | .err => some st
      | .panic => none
    | .skip => some st

/-- The loop over the fields in the order in which Go happens to range over the map. -/
def fieldLoop {P : Type} (trunc : Val → Int) (cd : CalData P) (rl : RecordLayout) (names : List Str)
    (st : CharValues × Nat) (get : Reader := getValue cd) : Option (CharValues × Nat) :=
  match names with
  | [] => some st
  | n :: ns =>
    match fieldStep trunc cd rl st n get with
    | none => none
    | some st' => fieldLoop trunc cd rl ns st' get

/-- calib_data.go:503-707 (`getValuesFromHex`), `none` is a panic. `order` lists the values
of the map `cv.recordLayout.RelativePositions` in the order Go ranges over them
(unspecified by the language). Note that the positions computed in line 510 are stored
in `rl`, a copy of the database's record layout (line 514), while line 525 ranges over
the map of `cv.recordLayout`. A missing record layout is only logged and the nil pointer
is dereferenced in line 510; after a failed address conversion the position is 0. -/
def getValuesFromHex {P : Type} (trunc : Val → Int) (cd : CalData P) (cv : CharValues)
    (order : List Str) (get : Reader := getValue cd) : Option CharValues :=
  match getRecordLayout cd cv.deposit with
  | .panic => none
  | .err => none
  | .ok rl0 =>
    let rl := { rl0 with relativePositions := (getRelativePositions rl0).1 }
    match convertStringToUint32Address cd cv.address with
    | .panic => none
    | .err => (fieldLoop trunc cd rl order (cv, 0) get).map (·.1)
    | .ok a => (fieldLoop trunc cd rl order (cv, a) get).map (·.1)

/-! ### Conversion methods -/

/-- compu_methods.go:124-162 (`calcRatFunc`) in exact arithmetic. `sqrt` is `math.Sqrt`:
`none` is `NaN`. The result `ok none` is the value `NaN` returned without an error. A
comparison of `NaN` or of a quotient with divisor zero (`NaN` or an infinity) with a
finite number is false, with `!=` true. -/
def calcRatFunc (sqrt : Rat → Option Rat) (a b c d e f : Rat) (dec : Rat) : Res (Option Rat) :=
  let firstDivisor := 2 * (a - d * dec)
  if firstDivisor = 0 then .err
  else
    match sqrt ((e * dec - b) * (e * dec - b) - 4 * (d * dec - a) * (f * dec - c)) with
    | none => .ok none
    | some s =>
      let secondPos := 2 * (a - d * dec) + s / firstDivisor
      let secondNeg := 2 * (a - d * dec) - s / firstDivisor
      if secondPos ≠ 0 ∧ secondNeg ≠ 0 then
        let plusVal := (e * dec - b) / secondPos
        let minusVal := (e * dec - b) / secondNeg
        let den := d * plusVal * plusVal + e * plusVal + f
        if den ≠ 0 ∧ (a * plusVal * plusVal + b * plusVal + c) / den = dec then .ok (some plusVal)
        else .ok (some minusVal)
      else if secondPos ≠ 0 then .ok (some ((e * dec - b) / secondPos))
      else if secondNeg ≠ 0 then .ok (some ((e * dec - b) / secondNeg))
      else .err

/-- The loop of compu_methods.go:98-102 and 175-179: the entry beside the first equal
key; an entry missing in the second column is an index panic. -/
def lookupLoop {α : Type} (dec : Rat) (outVal : List α) : List Rat → Nat → Option (Res α)
  | [], _ => none
  | k :: ks, i =>
    if dec = k then some (orPanic (index? outVal i) id) else lookupLoop dec outVal ks (i + 1)

/-- compu_methods.go:164-193 (`calcTabNoIntp`); the error for a missing table is never
returned because of the inner test `if err != nil`, the empty table is used instead. -/
def calcTabNoIntp {P : Type} (dec : Rat) (cm : CompuMethod) (cd : CalData P) : Res Rat :=
  match cd.module? with
  | none => .panic
  | some m =>
    let tab := (m.compuTabs cm.compuTabRef).getD {}
    if tab.inValSet && tab.outValSet then
      match lookupLoop dec tab.outVal tab.inVal 0 with
      | some r => r
      | none =>
        match tab.defaultValue with
        | none => .err
        | some d => .ok d
    else
      match tab.defaultValue with
      | some d => .ok d
      | none => .err

/-- compu_methods.go:11-58 (`convDecToPhy`). -/
def convDecToPhy {P : Type} (sqrt : Rat → Option Rat) (dec : Rat) (cm : CompuMethod)
    (cd : CalData P) : Res (Option Rat) :=
  match cm.conversionType with
  | .identical => .ok (some dec)
  | .form => .err
  | .linear =>
    match cm.linA, cm.linB with
    | some a, some b => .ok (some (a * dec + b))
    | _, _ => .err
  | .ratFunc =>
    match cm.coeffs.a, cm.coeffs.b, cm.coeffs.c, cm.coeffs.d, cm.coeffs.e, cm.coeffs.f with
    | some a, some b, some c, some d, some e, some f => calcRatFunc sqrt a b c d e f dec
    | _, _, _, _, _, _ => .err
  | .tabIntp => .ok (some 0)
  | .tabNointp => (calcTabNoIntp dec cm cd).bind fun v => .ok (some v)
  | .tabVerb => .err
  | .undefined => .err

/-- compu_methods.go:89-114 (`calcTabVerb`) for the table named `name`. -/
def calcTabVerb {P : Type} (dec : Rat) (name : Str) (cd : CalData P) : Res Str :=
  match cd.module? with
  | none => .panic
  | some m =>
    match m.compuVTabs name with
    | none => .err
    | some tab =>
      if tab.inValSet && tab.outValSet then
        match lookupLoop dec tab.outVal tab.inVal 0 with
        | some r => r
        | none =>
          match tab.defaultValue with
          | none => .err
          | some d => .ok d
      else .err

/-- The loop of compu_methods.go:69-74, `n` rounds from row `i`. Both bounds are read from
`InValMin`. -/
def rangeLoop (dec : Rat) (tab : CompuVTabRange) : Nat → Nat → Option (Res Str)
  | 0, _ => none
  | n + 1, i =>
    match index? tab.inValMin i with
    | none => some .panic
    | some lo =>
      if lo ≤ dec ∧ dec < lo then some (orPanic (index? tab.outVal i) id)
      else rangeLoop dec tab n (i + 1)

/-- compu_methods.go:60-87 (`calcTabVerbRange`) for the table named `name`. -/
def calcTabVerbRange {P : Type} (dec : Rat) (name : Str) (cd : CalData P) : Res Str :=
  match cd.module? with
  | none => .panic
  | some m =>
    match m.compuVTabRanges name with
    | none => .err
    | some tab =>
      match tab.numberValueTriples with
      | none => .err
      | some n =>
        match rangeLoop dec tab n 0 with
        | some r => r
        | none =>
          match tab.defaultValue with
          | none => .err
          | some d => .ok d

end Verif.Calib
