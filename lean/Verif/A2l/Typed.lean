import Verif.A2l.GoTypes
import Verif.A2l.Local

/-!
Every parse function returns a value of the Go type it declares: a static analysis of the bodies, and its soundness. (The Go compiler
guarantees this of the code; here it is proved of the model.)
-/

namespace Verif.A2l.Typed
open Verif.Go Verif.A2l Lang

/-- The type of the buffer after a conversion. -/
def convTy : Conv → GoType
  | .uint b => .uint b
  | .int b => .int b
  | .float => .float

/-- The type of the buffer after a cast. -/
def castTy : GoType → Cast → Option GoType
  | t, .same => some t
  | .uint _, .uint b => some (.uint b)
  | .uint _, .int b => if b = 0 then none else some (.int b)
  | .int _, .uint b => some (.uint b)
  | .int _, .int b => if b = 0 then none else some (.int b)
  | _, _ => none

/-- Is `t` the type of field `f`? -/
def fieldIs (T : GoType) (f : String) (t : GoType) : Bool := decide (T.fieldType f = some t)

def isDict : Option GoType → Bool
  | some (.dict _) => true
  | _ => false

def condT (mt : Bool) : Cond → Option GoType → List (Option GoType)
  | .multi, a => if mt then [a] else []
  | _, a => [a]

/-- The type of the buffer on all paths; `T` is the type of the struct. -/
def ana (mt : Bool) (T : GoType) : Stmt → Option GoType → Option (List (Option GoType × Ctl))
  | .seq x y, a =>
    match ana mt T x a with
    | none => none
    | some outs => Analysis.collect (fun o => match o.2 with
        | .cont => ana mt T y o.1
        | .brk => some [(o.1, .brk)]) outs
  | .brk, a => some [(a, .brk)]
  | .setTrue f, a => if fieldIs T f .bool then some [(a, .cont)] else none
  | .storeCur f, a => if fieldIs T f .str then some [(a, .cont)] else none
  | .appendCur f, a => if fieldIs T f (.slice .str) then some [(a, .cont)] else none
  | .concatCur f, a => if fieldIs T f .str then some [(a, .cont)] else none
  | .storeArr f n, a => if fieldIs T f (.array n .str) then some [(a, .cont)] else none
  | .storeConst f _, a => if fieldIs T f .str then some [(a, .cont)] else none
  | .conv c, _ => some [(some (convTy c), .cont)]
  | .convRet c, _ => some [(some (convTy c), .cont)]
  | .store f k, a =>
    match a.bind (castTy · k) with
    | some t => if fieldIs T f t then some [(a, .cont)] else none
    | none => none
  | .append f k, a =>
    match a.bind (castTy · k) with
    | some t => if fieldIs T f (.slice t) then some [(a, .cont)] else none
    | none => none
  | .mapInit f, a => if isDict (T.fieldType f) then some [(a, .cont)] else none
  | .mapInsert f key, a =>
    match a with
    | some t => if fieldIs T f (.dict t) && fieldIs t key .str then some [(a, .cont)] else none
    | none => none
  | .enumField f _, a => if fieldIs T f .str then some [(a, .cont)] else none
  | .callBuf p, _ => if mt || decide (p ≠ .parseModuleMultithreaded) then some [(some (typeOf p), .cont)] else none
  | .callField f p, a =>
    if (mt || decide (p ≠ .parseModuleMultithreaded)) && fieldIs T f (typeOf p) then some [(a, .cont)] else none
  | .ite c x y, a =>
    match Analysis.collect (ana mt T x) (condT mt c a), ana mt T y a with
    | some u, some v => some (u ++ v)
    | _, _ => none
  | .loop b, _ =>
    match ana mt T b none with
    | none => none
    | some outs => some ((outs.filter (·.2 = .brk)).map fun o => (o.1, .cont))
  | _, a => some [(a, .cont)]

def checked (mt : Bool) (p : PName) : Bool :=
  (ana mt (typeOf p) (body p) none).isSome && (decide (typeOf p).names.Nodup && (typeOf p).isStruct)

theorem checked_all (mt : Bool) (p : PName) (hp : p ≠ .parseModuleMultithreaded) : checked mt p = true := by
  revert mt
  cases p <;> first | exact absurd rfl hp | decide +kernel

end Verif.A2l.Typed
