import Verif.A2l.Stable

/-!
Specification of the content of a MODULE block, for the properties C34 to C36. It says what a
reader of the file would call the objects of the module, and uses of the parser model only
the result of parsing a single object (`Returns`).
-/

namespace Verif.A2l.ModSpec
open Verif.Go Lang

/-- A kind of object a module can contain: opening token, parse function, field of the Go
struct `Module` (a2l/module.go:12-40), and, if the module can have many objects of the kind,
the field of the object that is its name. -/
structure Kind where
  tok : Str
  parser : PName
  field : String
  key : Option String

def kinds : List Kind := [
  ⟨(str! "/begin A2ML"), .parseA2ML, "a2ml", none⟩,
  ⟨(str! "/begin AXIS_PTS"), .parseAxisPts, "AxisPts", some "name"⟩,
  ⟨(str! "/begin BLOB"), .parseBlob, "blobs", some "name"⟩,
  ⟨(str! "/begin CHARACTERISTIC"), .parseCharacteristic, "Characteristics", some "Name"⟩,
  ⟨(str! "/begin COMPU_METHOD"), .parseCompuMethod, "CompuMethods", some "Name"⟩,
  ⟨(str! "/begin COMPU_TAB"), .parseCompuTab, "CompuTabs", some "Name"⟩,
  ⟨(str! "/begin COMPU_VTAB"), .parseCompuVtab, "CompuVTabs", some "Name"⟩,
  ⟨(str! "/begin COMPU_VTAB_RANGE"), .parseCompuVtabRange, "CompuVTabRanges", some "Name"⟩,
  ⟨(str! "/begin FRAME"), .parseFrame, "frame", none⟩,
  ⟨(str! "/begin FUNCTION"), .parseFunction, "Functions", some "name"⟩,
  ⟨(str! "/begin GROUP"), .parseGroup, "Groups", some "groupName"⟩,
  ⟨(str! "/begin IF_DATA"), .parseIfData, "ifData", some "name"⟩,
  ⟨(str! "/begin INSTANCE"), .parseInstance, "instances", some "name"⟩,
  ⟨(str! "/begin MEASUREMENT"), .parseMeasurement, "Measurements", some "name"⟩,
  ⟨(str! "/begin MOD_COMMON"), .parseModCommon, "ModCommon", none⟩,
  ⟨(str! "/begin MOD_PAR"), .parseModPar, "ModPar", none⟩,
  ⟨(str! "/begin RECORD_LAYOUT"), .parseRecordLayout, "RecordLayouts", some "Name"⟩,
  ⟨(str! "/begin TRANSFORMER"), .parseTransformer, "transformers", some "name"⟩,
  ⟨(str! "/begin TYPEDEF_AXIS"), .parseTypeDefAxis, "typeDefAxis", some "name"⟩,
  ⟨(str! "/begin TYPEDEF_BLOB"), .parseTypeDefBlob, "typeDefBlobs", some "name"⟩,
  ⟨(str! "/begin TYPEDEF_CHARACTERISTIC"), .parseTypeDefCharacteristic, "typeDefCharacteristics", some "name"⟩,
  ⟨(str! "/begin TYPEDEF_MEASUREMENT"), .parseTypeDefMeasurement, "typeDefMeasurements", some "name"⟩,
  ⟨(str! "/begin TYPEDEF_STRUCTURE"), .parseTypeDefStructure, "typeDefStructures", some "name"⟩,
  ⟨(str! "/begin UNIT"), .parseUnit, "Units", some "name"⟩,
  ⟨(str! "/begin USER_RIGHTS"), .parseUserRights, "userRights", some "userLevelId"⟩,
  ⟨(str! "/begin VARIANT_CODING"), .parseVariantCoding, "variantCoding", none⟩]

/-- The token opens an object. -/
def Opens (t : Str) : Prop := ∃ K ∈ kinds, K.tok = t

/-- An object found in the file: positions of its opening and closing token, its kind (number
in `kinds`), its value. -/
structure Found where
  pos : Nat
  stop : Nat
  kind : Nat
  val : Val

/-- The name under which an object is stored. -/
def Found.name (f : Found) : Str :=
  match kinds[f.kind]? with
  | some K => match K.key with
    | some key => f.val.strField key
    | none => []
  | none => []

/-- `Scan E s os j`: after the token at position `s`, the module consists of the objects `os`,
possibly with other tokens in between, and ends with `/end MODULE` at position `j`. -/
inductive Scan (E : Env) : Nat → List Found → Nat → Prop
  | stop {s : Nat} : E.toks[s + 1]? = some (str! "/end MODULE") → Scan E s [] (s + 1)
  | skip {s j : Nat} {os : List Found} {t : Str} : E.toks[s + 1]? = some t → t ≠ [] →
      t ≠ (str! "/end MODULE") → ¬ Opens t → Scan E (s + 1) os j → Scan E s os j
  | obj {s e j n : Nat} {os : List Found} {K : Kind} {v : Val} : E.toks[s + 1]? = some K.tok →
      kinds[n]? = some K → Returns E K.parser (s + 1) (.ok e v false) → Scan E e os j →
      Scan E s (⟨s + 1, e, n, v⟩ :: os) j

/-- Objects with the same kind and name are the same. -/
def Consistent (os : List Found) : Prop :=
  ∀ f ∈ os, ∀ g ∈ os, f.kind = g.kind → f.name = g.name → f.val = g.val

/-- Where the parallel parser cuts the tokens from `start` to `stop` into `np` pieces. -/
def cut (start stop np k : Nat) : Nat := start + (stop - start) / np * k

/-- No cut falls on the opening token of an object, and if a cut falls inside an object, the
rest of the object contains no token that opens an object of a module. -/
def SafeCuts (E : Env) (start stop np : Nat) (os : List Found) : Prop :=
  ∀ k, 0 < k → k < np → ∀ f ∈ os, f.pos ≠ cut start stop np k ∧
    (f.pos < cut start stop np k → ∀ x, cut start stop np k < x → x ≤ f.stop →
      ∀ t, E.toks[x]? = some t → ¬ Opens t)

/-- The value of an optional single object: the last one of its kind. -/
def lastOf (os : List Found) (n : Nat) : Option Val :=
  ((os.filter (fun f => f.kind = n)).getLast?).map (·.val)

/-- The object of kind `n` found under a name: the last one. -/
def lastNamed (os : List Found) (n : Nat) (name : Str) : Option Val :=
  ((os.filter (fun f => f.kind = n ∧ f.name = name)).getLast?).map (·.val)

end Verif.A2l.ModSpec
