import Verif.A2l.TypedMt
import Verif.Calib.LinkFloat
import Verif.Calib.Float64More

/-!
C92: `toHashMap` (a2l/a2l.go:36-52), which turns the parsed file into a `map[string]interface{}` by way of JSON.

Trusted, from the documentation of encoding/json: `json.Marshal` writes the exported fields of a struct under their names, `nil` slices and
maps as `null`, and fails on floating-point numbers that are not finite; `json.Unmarshal` into an `interface{}` gives numbers as `float64`, and what
it reads is what was written (texts are lists of characters here, so that no text is invalid UTF-8).
-/

namespace Verif.A2l
open Verif.Go Lang

/-- What `json.Unmarshal` puts into an `interface{}`. -/
inductive Json where
  | null
  | bool (b : Bool)
  | num (x : Calib.F64)
  | str (s : Str)
  | arr (l : List Json)
  | obj (m : Str → Option Json)

/-- Exported names begin with a capital letter. -/
def exported (f : String) : Bool :=
  match f.toList with
  | c :: _ => c.isUpper
  | [] => false

/-- The object with one more entry. -/
def Json.insert (j : Json) (k : Str) (w : Json) : Json :=
  match j with
  | .obj m => .obj fun k' => if k' = k then some w else m k'
  | j => j

/-- The text in a variable. -/
def textOf : Val → Str
  | .str s => s
  | _ => []

/-- The boolean in a variable. -/
def flagOf : Val → Bool
  | .bool b => b
  | _ => false

/-- The integer in a variable, as a `float64`. -/
def intOf : Val → Calib.F64
  | .int z => Calib.F64.ofInt z
  | _ => .fin false 0

/-- a2l/a2l.go:38 and 43 (`json.Marshal` and `json.Unmarshal`), for a variable of type `t`. -/
def toJson : GoType → Val → Json
  | .str, v => .str (textOf v)
  | .bool, v => .bool (flagOf v)
  | .uint _, v => .num (intOf v)
  | .int _, v => .num (intOf v)
  | .float, v => .num (Link.number64 v)
  | .other, _ => .null
  | .slice t, v => match v with
    | .list l => .arr (l.map (toJson t))
    | _ => .null
  | .array n t, v => match v with
    | .list l => .arr (l.map (toJson t))
    | _ => .arr (List.replicate n (toJson t .zero))
  | .dict t, v => match v with
    | .map m => .obj fun k => (m k).map (toJson t)
    | _ => .null
  | .nil, _ => .obj fun _ => none
  | .field f t r, v => if exported f then (toJson r v).insert f.toList (toJson t (v.fieldVal f)) else toJson r v

/-- `json.Marshal` reports an `UnsupportedValueError`. -/
def Unsupported : GoType → Val → Prop
  | .float, v => ∀ s n, Link.number64 v ≠ .fin s n
  | .slice t, v => ∃ l, v = .list l ∧ ∃ w ∈ l, Unsupported t w
  | .array _ t, v => ∃ l, v = .list l ∧ ∃ w ∈ l, Unsupported t w
  | .dict t, v => ∃ m k w, v = .map m ∧ m k = some w ∧ Unsupported t w
  | .field f t r, v => exported f = true ∧ Unsupported t (v.fieldVal f) ∨ Unsupported r v
  | _, _ => False

open Classical in
/-- a2l/a2l.go:36-52 (`toHashMap`): `none` is an error. -/
noncomputable def toHashMap (a : Val) : Option Json := if Unsupported T_A2L a then none else some (toJson T_A2L a)

namespace Spec

/-- One step into a value. -/
inductive Step where
  | field (f : String)
  | elem (n : Nat)
  | key (k : Str)

/-- At the end of the path `p` into the value `v` of type `t` there is the value `w` of type `u`. -/
inductive At : GoType → Val → List Step → GoType → Val → Prop
  | here {t v} : At t v [] t v
  | field {T v f t p u w} : T.fieldType f = some t → At t (v.fieldVal f) p u w → At T v (.field f :: p) u w
  | elem {t l n v p u w} : l[n]? = some v → At t v p u w → At (.slice t) (.list l) (.elem n :: p) u w
  | item {k t l n v p u w} : l[n]? = some v → At t v p u w → At (.array k t) (.list l) (.elem n :: p) u w
  | blank {k t n p u w} : n < k → At t .zero p u w → At (.array k t) .zero (.elem n :: p) u w
  | key {t m k v p u w} : m k = some v → At t v p u w → At (.dict t) (.map m) (.key k :: p) u w

/-- One step into a map of the result, whose keys are the names of fields and the keys of maps. -/
inductive Spot where
  | name (k : Str)
  | elem (n : Nat)

def Step.spot : Step → Spot
  | .field f => .name f.toList
  | .elem n => .elem n
  | .key k => .name k

/-- What is found in the result at the end of a path. -/
def find : Json → List Spot → Option Json
  | j, [] => some j
  | .obj m, .name k :: p => (m k).bind (find · p)
  | .arr l, .elem n :: p => (l[n]?).bind (find · p)
  | _, _ => none

/-- The name begins with a capital letter. -/
def Capital (f : String) : Prop := ∃ c r, f.toList = c :: r ∧ 65 ≤ c.toNat ∧ c.toNat ≤ 90

/-- All fields on the path are exported. -/
def Shown (p : List Step) : Prop := ∀ f, .field f ∈ p → Capital f

/-- The values of basic types. -/
inductive Same : GoType → Val → Json → Prop
  | str {s} : Same .str (.str s) (.str s)
  | noStr : Same .str .zero (.str [])
  | bool {b} : Same .bool (.bool b) (.bool b)
  | noBool : Same .bool .zero (.bool false)
  | uint {n} {z : Int} {x} : Calib.Spec.number x = some (z : Rat) → Same (.uint n) (.int z) (.num x)
  | int {n} {z : Int} {x} : Calib.Spec.number x = some (z : Rat) → Same (.int n) (.int z) (.num x)
  | noUint {n x} : Calib.Spec.number x = some 0 → Same (.uint n) .zero (.num x)
  | noInt {n x} : Calib.Spec.number x = some 0 → Same (.int n) .zero (.num x)
  | float {t x} : Calib.parseFloat t = .ok x → Same .float (.flt t) (.num x)
  | noFloat {x} : Calib.Spec.number x = some 0 → Same .float .zero (.num x)

/-- The basic types. -/
def Basic : GoType → Prop
  | .str | .bool | .uint _ | .int _ | .float => True
  | _ => False

/-- How structs, slices and maps look. -/
inductive Looks : GoType → Val → Json → Prop
  | noSlice {t} : Looks (.slice t) .zero .null
  | slice {t l js} : js.length = l.length → Looks (.slice t) (.list l) (.arr js)
  | noDict {t} : Looks (.dict t) .zero .null
  | dict {t m o} : (∀ k, (o k).isSome = (m k).isSome) → Looks (.dict t) (.map m) (.obj o)
  | other {v} : Looks .other v .null
  | noFields {v o} : (∀ k, o k = none) → Looks .nil v (.obj o)
  | struct {f t r v o} : (∀ k, (o k).isSome = true ↔ ∃ g ∈ GoType.names (.field f t r), Capital g ∧ k = g.toList) →
      Looks (.field f t r) v (.obj o)
  | array {n t v js} : js.length = n → Looks (.array n t) v (.arr js)

end Spec

end Verif.A2l
