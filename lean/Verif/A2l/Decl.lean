import Verif.A2l.Stable
import Verif.A2l.BlockSpec

/-!
Specification of A2L objects: what a declaration of an object is (its positional parameters,
its list parameter, its optional sub-objects), and which text an object with given values is
written as. Nothing here mentions the statements of the parse functions; of a sub-object only
the result of reading it is used.
-/

namespace Verif.A2l.Decl
open Verif.Go Verif.A2l Lang

/-- Kind of a parameter. -/
inductive Kind where
  | str
  | uint (bits : Nat)
  | int (bits : Nat)
  | float
  | enum (e : EnumDef)
deriving DecidableEq

/-- A positional parameter: the field it belongs to, the marker "is set" and its kind. -/
structure Param where
  field : String
  flag : String
  kind : Kind
deriving DecidableEq

/-- What follows the positional parameters: nothing, a list of parameters, free text. -/
inductive Rest where
  | none
  | list (field flag : String) (k : Kind)
  | text (field flag : String)
deriving DecidableEq

/-- How a sub-object is kept: the last one, all of them in order, by its name. -/
inductive Mode where
  | field
  | append
  | byName (key : String)
deriving DecidableEq

/-- An optional part of an object: a sub-object read by `q`, or an enumeration value. -/
inductive Sub where
  | obj (q : PName) (field : String) (m : Mode)
  | enum (e : EnumDef) (field : String)
deriving DecidableEq

/-- Declaration of an object: a bare keyword, a keyword with one parameter, a keyword with
several parameters, a `/begin ... /end` block (`raw`: its content is of another language and
may contain A2L keywords; `subs`: optional parts by their first token; `maps`: fields that
keep sub-objects by name). -/
inductive Shape where
  | keyword (field flag : String)
  | one (p : Param)
  | seq (ps : List Param)
  | block (raw : Bool) (ps : List Param) (rest : Rest) (subs : List (Str × Sub)) (maps : List String)
  | other
deriving DecidableEq

/-- `c` is a decimal digit. -/
def IsDigit (c : Char) : Prop := '0' ≤ c ∧ c ≤ '9'

/-- The number a digit string stands for. -/
def decVal (s : Str) : Nat := s.foldl (fun a c => 10 * a + (c.toNat - 48)) 0

/-- `s` is the decimal notation of `n` (leading zeros allowed). -/
def IsNat (s : Str) (n : Nat) : Prop := s ≠ [] ∧ (∀ c ∈ s, IsDigit c) ∧ decVal s = n

/-- `s` is the decimal notation of `z`, with an optional sign. -/
def IsInt (s : Str) (z : Int) : Prop :=
  (∃ n : Nat, IsNat s n ∧ z = n) ∨ (∃ n : Nat, ∃ t, s = '+' :: t ∧ IsNat t n ∧ z = n) ∨
    (∃ n : Nat, ∃ t, s = '-' :: t ∧ IsNat t n ∧ z = -n)

/-- The token `t` is a legal parameter of kind `k` with value `v`. -/
def Denotes (E : Env) (k : Kind) (t : Str) (v : Val) : Prop :=
  match k with
  | .str => v = .str t
  | .uint b => ∃ n : Nat, IsNat t n ∧ n < 2 ^ b ∧ v = .int n
  | .int b => ∃ z : Int, IsInt t z ∧ -(2 ^ (b - 1) : Nat) ≤ z ∧ z < (2 ^ (b - 1) : Nat) ∧ v = .int z
  | .float => E.floatOk t = true ∧ v = .flt t
  | .enum e => (∃ c, (t, c) ∈ e.table) ∧ v = .str t

/-- The token after position `i`. -/
def TokAfter (E : Env) (i : Nat) (t : Str) : Prop := E.toks[i + 1]? = some t

/-- A token that can only be a parameter of the object: not the end of the file, not the end
of the block, not the first token of an optional part, not a keyword. -/
def Plain (raw : Bool) (fin : Str) (subs : List (Str × Sub)) (t : Str) : Prop :=
  t ≠ [] ∧ t ≠ fin ∧ t ∉ subs.map (·.1) ∧ (raw = true ∨ t ∉ keywords)

/-- Keeping a sub-object. -/
def Keeps (o : Obj) (f : String) (m : Mode) (v : Val) (o' : Obj) : Prop :=
  match m with
  | .field => o' = o.set f v
  | .append => o' = o.set f (.list (o.list f ++ [v]))
  | .byName key => ∃ mp, o f = .map mp ∧
      o' = o.set f (.map fun k => if k = v.strField key then some v else mp k)

/-- How far an object has been read: number of positional parameters, the values so far, the
position of the last token. -/
structure Pos where
  m : Nat
  o : Obj
  i : Nat

/-- One item of a block: the next positional parameter, a member of the list, a word of the
text, a surplus parameter (ignored), an optional part. `R q i j v`: reading a `q` from
position `i` succeeds at position `j` with value `v`. -/
inductive Item (E : Env) (R : PName → Nat → Nat → Val → Prop) (raw : Bool) (fin : Str)
    (ps : List Param) (rest : Rest) (subs : List (Str × Sub)) : Pos → Pos → Prop
  | param {m o i t v} {p : Param} (hp : ps[m]? = some p) (ht : TokAfter E i t)
      (hpl : Plain raw fin subs t) (hv : Denotes E p.kind t v) :
      Item E R raw fin ps rest subs ⟨m, o, i⟩ ⟨m + 1, o.set p.field v, i + 1⟩
  | member {m o i t v f fl k} (hm : m = ps.length) (hr : rest = .list f fl k) (ht : TokAfter E i t)
      (hpl : Plain raw fin subs t) (hv : Denotes E k t v) :
      Item E R raw fin ps rest subs ⟨m, o, i⟩ ⟨m, o.set f (.list (o.list f ++ [v])), i + 1⟩
  | word {m o i t f fl} (hm : m = ps.length) (hr : rest = .text f fl) (ht : TokAfter E i t)
      (hpl : Plain raw fin subs t) :
      Item E R raw fin ps rest subs ⟨m, o, i⟩ ⟨m, o.set f (.str (o.str f ++ [' '] ++ t)), i + 1⟩
  | surplus {m o i t} (hm : m = ps.length) (hr : rest = .none) (ht : TokAfter E i t)
      (hpl : Plain raw fin subs t) :
      Item E R raw fin ps rest subs ⟨m, o, i⟩ ⟨m, o, i + 1⟩
  | sub {m o o' i j k q f md v} (hs : (k, Sub.obj q f md) ∈ subs) (ht : TokAfter E i k)
      (hR : R q (i + 1) j v) (hk : Keeps o f md v o') :
      Item E R raw fin ps rest subs ⟨m, o, i⟩ ⟨m, o', j⟩
  | enum {m o i k e f t c} (hs : (k, Sub.enum e f) ∈ subs) (ht : TokAfter E i k)
      (ht' : if e.usesNext then TokAfter E (i + 1) t else t = k) (hc : (t, c) ∈ e.table) :
      Item E R raw fin ps rest subs ⟨m, o, i⟩
        ⟨m, o.set f (.str t), if e.usesNext then i + 2 else i + 1⟩

/-- A sequence of `n` items. -/
inductive Items (E : Env) (R : PName → Nat → Nat → Val → Prop) (raw : Bool) (fin : Str)
    (ps : List Param) (rest : Rest) (subs : List (Str × Sub)) : Nat → Pos → Pos → Prop
  | nil {x} : Items E R raw fin ps rest subs 0 x x
  | cons {n x y z} (h : Item E R raw fin ps rest subs x y)
      (hs : Items E R raw fin ps rest subs n y z) : Items E R raw fin ps rest subs (n + 1) x z

/-- The object before anything is read. -/
def start (maps : List String) : Obj :=
  fun f => if f ∈ maps then .map fun _ => none else .zero

/-- Reading the sub-object `q` succeeds. -/
def Succeeds (E : Env) (q : PName) (i j : Nat) (v : Val) : Prop := Returns E q i (.ok j v false)

/-- The tokens after position `i` up to position `i'` are a block with the given declaration,
closed by `fin`, whose values are `o`. -/
def Block (E : Env) (raw : Bool) (fin : Str) (ps : List Param) (rest : Rest)
    (subs : List (Str × Sub)) (maps : List String) (i i' : Nat) (o : Obj) : Prop :=
  ∃ n m j, Items E (Succeeds E) raw fin ps rest subs n ⟨0, start maps, i⟩ ⟨m, o, j⟩ ∧
    TokAfter E j fin ∧ i' = j + 1

/-- The tokens after position `i` are the parameters `ps` in order; `o` before, `o'` after. -/
inductive Params (E : Env) : Nat → List Param → Obj → Obj → Prop
  | nil {i o} : Params E i [] o o
  | cons {i o o' t v p ps} (ht : TokAfter E i t) (hne : t ≠ []) (hkw : t ∉ keywords)
      (hv : Denotes E p.kind t v) (h : Params E (i + 1) ps (o.set p.field v) o') :
      Params E i (p :: ps) o o'

/-- The tokens after position `i` up to position `i'` are an object of the given shape with
values `o`; `fin` is the closing token of blocks. -/
def Text (E : Env) (fin : Str) (sh : Shape) (i i' : Nat) (o : Obj) : Prop :=
  match sh with
  | .keyword f _ => i' = i ∧ o = Obj.empty.set f (.bool true)
  | .one p => Params E i [p] Obj.empty o ∧ i' = i + 1
  | .seq ps => Params E i ps Obj.empty o ∧ i' = i + ps.length
  | .block raw ps rest subs maps => Block E raw fin ps rest subs maps i i' o
  | .other => False

/-- The fields that only say whether a parameter was read. -/
def Rest.flags : Rest → List String
  | .none => []
  | .list _ fl _ => [fl]
  | .text _ fl => [fl]

def flags (ps : List Param) (rest : Rest) : List String := ps.map (·.flag) ++ rest.flags

/-- The markers of a shape. -/
def Shape.flags : Shape → List String
  | .keyword _ fl => [fl]
  | .one p => [p.flag]
  | .seq ps => Decl.flags ps .none
  | .block _ ps rest _ _ => Decl.flags ps rest
  | .other => []

/-- The two structs have the same values apart from the markers `fl`. -/
def SameValues (fl : List String) (o o' : Obj) : Prop := ∀ f, f ∉ fl → o f = o' f

end Verif.A2l.Decl
