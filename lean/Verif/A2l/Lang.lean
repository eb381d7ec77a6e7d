import Verif.A2l.Tokens
import Verif.A2l.PNames

/-!
A small imperative language in which the parse functions of package a2l are written down
line by line (file `Parsers.lean`), and its meaning.

All parse functions of the package have the same form: a struct `x`, an error variable
`err`, an optional buffer `buf`, the token cursor `tok`, and `if`/`switch`/`for` statements
over them. The statement language has exactly these constructs.

Simplifications: `log` calls have no effect; error values are only "nil" or "not nil";
a `float64` parsed by `strconv.ParseFloat` is represented by the token it was parsed from
(whether the token is accepted is a parameter `floatOk`); the capacity hints of `make` are
ignored; reading a struct field never written gives `Val.zero`, which stands for the zero
value of the type of that field.
-/

namespace Verif.A2l.Lang
open Verif.Go Verif.A2l

/-- Go values built by the parsers. -/
inductive Val where
  | zero
  | bool (b : Bool)
  | str (s : Str)
  | int (z : Int)
  | flt (tok : Str)
  | list (l : List Val)
  | obj (o : String → Val)
  | map (m : Str → Option Val)

/-- A struct value: its fields by name. -/
abbrev Obj := String → Val

/-- The zero struct `T{}`. -/
def Obj.empty : Obj := fun _ => .zero

/-- `x.f = v` -/
def Obj.set (o : Obj) (f : String) (v : Val) : Obj := fun g => if g = f then v else o g

/-- The slice in field `f` (nil slice = empty). -/
def Obj.list (o : Obj) (f : String) : List Val :=
  match o f with
  | .list l => l
  | _ => []

/-- The integer in field `f`. -/
def Obj.int (o : Obj) (f : String) : Int :=
  match o f with
  | .int z => z
  | _ => 0

/-- The string in field `f`. -/
def Obj.str (o : Obj) (f : String) : Str :=
  match o f with
  | .str s => s
  | _ => []

/-- The boolean in field `f`. -/
def Obj.flag (o : Obj) (f : String) : Bool :=
  match o f with
  | .bool b => b
  | _ => false

/-- The string field `f` of the struct `v`. -/
def Val.strField (v : Val) (f : String) : Str :=
  match v with
  | .obj o => Obj.str o f
  | _ => []

/-- The conversions applied to tokens: `strconv.ParseUint(t, 10, bits)`,
`strconv.ParseInt(t, 10, bits)`, `strconv.ParseFloat(t, 64)`. -/
inductive Conv where
  | uint (bits : Nat)
  | int (bits : Nat)
  | float
deriving DecidableEq, Repr

/-- The conversion applied to `buf` when it is stored: none, `uintN(buf)`, `intN(buf)`. -/
inductive Cast where
  | same
  | uint (bits : Nat)
  | int (bits : Nat)
deriving DecidableEq, Repr

/-- An enum parser (a2l/enums.go): does it call `tok.next()` (else `tok.current()`), and
which token gives which constant. -/
structure EnumDef where
  usesNext : Bool
  table : List (Str × Str)
deriving DecidableEq, Repr

/-- Conditions of `if` and `switch`. -/
inductive Cond where
  /-- `tok.current() == t` -/
  | curIs (t : Str)
  /-- the value returned by the last `tok.next()` is `t` -/
  | retIs (t : Str)
  /-- `isKeyword(tok.current())` -/
  | curKw
  /-- `err != nil` -/
  | errNe
  /-- `!x.f` -/
  | unset (f : String)
  /-- `uint16(len(x.f)) == x.g` -/
  | len16Is (f g : String)
  /-- `len(x.f) == n` -/
  | lenIs (f : String) (n : Nat)
  /-- `useMultithreading` -/
  | multi
  | or (a b : Cond)
deriving DecidableEq, Repr

/-- Statements. -/
inductive Stmt where
  | skip
  | seq (a b : Stmt)
  /-- `tok.next()` -/
  | next
  /-- `tok.previous()` -/
  | prev
  /-- `break forLoop` -/
  | brk
  /-- `err = errors.New(...)` -/
  | setErr
  /-- `x.f = true` -/
  | setTrue (f : String)
  /-- `x.f = tok.current()` -/
  | storeCur (f : String)
  /-- `x.f = append(x.f, tok.current())` -/
  | appendCur (f : String)
  /-- `x.f = x.f + " " + tok.current()` -/
  | concatCur (f : String)
  /-- `for i := 0; i < n; i++ { x.f[i] = tok.current() }` -/
  | storeArr (f : String) (n : Nat)
  /-- `x.f = c` for a constant -/
  | storeConst (f : String) (c : Str)
  /-- `buf, err = strconv.ParseX(tok.current(), ...)` -/
  | conv (c : Conv)
  /-- `buf, err = strconv.ParseX(r, ...)` with `r` the value just returned by `tok.next()` -/
  | convRet (c : Conv)
  /-- `x.f = cast(buf)` -/
  | store (f : String) (c : Cast)
  /-- `x.f = append(x.f, cast(buf))` -/
  | append (f : String) (c : Cast)
  /-- `x.f = make(map[string]T)` -/
  | mapInit (f : String)
  /-- `x.f[buf.key] = buf` -/
  | mapInsert (f key : String)
  /-- `x.f, err = parseYEnum(tok)` -/
  | enumField (f : String) (e : EnumDef)
  /-- `buf, err = parseY(tok)` -/
  | callBuf (p : PName)
  /-- `x.f, err = parseY(tok)` -/
  | callField (f : String) (p : PName)
  | ite (c : Cond) (a b : Stmt)
  /-- `forLoop: for { b }` -/
  | loop (b : Stmt)
deriving DecidableEq, Repr

/-- A statement list. -/
def blk : List Stmt → Stmt
  | [] => .skip
  | s :: ss => .seq s (blk ss)

/-- `switch tok.next() { case t: ... default: ... }` after the call of `tok.next()`. -/
def switchRet : List (Str × Stmt) → Stmt → Stmt
  | [], d => d
  | (t, s) :: cs, d => .ite (.retIs t) s (switchRet cs d)

/-- `switch tok.current() { case t: ... default: ... }`. -/
def switchCur : List (Str × Stmt) → Stmt → Stmt
  | [], d => d
  | (t, s) :: cs, d => .ite (.curIs t) s (switchCur cs d)

/-! ### strconv -/

/-- Value of a decimal digit. -/
def digit? (c : Char) : Option Nat :=
  if '0'.toNat ≤ c.toNat ∧ c.toNat ≤ '9'.toNat then some (c.toNat - '0'.toNat) else none

/-- The number written by a digit string, `none` if there is another character. -/
def digits? (acc : Nat) : Str → Option Nat
  | [] => some acc
  | c :: cs =>
    match digit? c with
    | some d => digits? (acc * 10 + d) cs
    | none => none

/-- `strconv.ParseUint(s, 10, bits)` of the Go standard library: value and whether the error
is nil. Syntax error: value 0; range error: largest value. (An explicit base 10 admits no
prefix and no underscore.) -/
def parseUint (s : Str) (bits : Nat) : Nat × Bool :=
  match s with
  | [] => (0, false)
  | _ =>
    match digits? 0 s with
    | none => (0, false)
    | some n => if n < 2 ^ bits then (n, true) else (2 ^ bits - 1, false)

/-- `strconv.ParseInt(s, 10, bits)`: optional sign, then as `ParseUint` with 64 bits and a
range check. -/
def parseInt (s : Str) (bits : Nat) : Int × Bool :=
  let (neg, d) := match s with
    | '+' :: t => (false, t)
    | '-' :: t => (true, t)
    | t => (false, t)
  match d with
  | [] => (0, false)
  | _ =>
    match digits? 0 d with
    | none => (0, false)
    | some n =>
      if neg then
        if n ≤ 2 ^ (bits - 1) then (-(n : Int), true) else (-((2 ^ (bits - 1) : Nat) : Int), false)
      else
        if n < 2 ^ (bits - 1) then ((n : Int), true) else (((2 ^ (bits - 1) : Nat) : Int) - 1, false)

/-- The Go conversions `uintN(z)` and `intN(z)`: wrap around. -/
def castInt (c : Cast) (z : Int) : Int :=
  match c with
  | .same => z
  | .uint b => z % (2 ^ b : Nat)
  | .int b => (z + (2 ^ (b - 1) : Nat)) % (2 ^ b : Nat) - (2 ^ (b - 1) : Nat)

def castVal (c : Cast) (v : Val) : Val :=
  match v with
  | .int z => .int (castInt c z)
  | v => v

/-! ### Execution -/

/-- What a call of a parse function gives: position of the cursor, the struct, `err != nil`;
or a panic; or "not finished within the given number of loop rounds". -/
inductive PRes where
  | ok (idx : Nat) (v : Val) (err : Bool)
  | panic
  | timeout

/-- The surroundings of a parse: the global `tokenList`, the tokens `strconv.ParseFloat`
accepts, the flag `useMultithreading`, and the behaviour of `parseModuleMultithreaded`. -/
structure Env where
  toks : List Str
  floatOk : Str → Bool
  multi : Bool
  mtModule : Nat → PRes

/-- Local state of one parse function. -/
structure St where
  /-- `tok.index` -/
  idx : Nat
  /-- value returned by the last `tok.next()` -/
  ret : Str
  obj : Obj
  buf : Val
  /-- `err != nil` -/
  err : Bool

inductive Ctl where
  | cont
  | brk
deriving DecidableEq

inductive Out where
  | ok (s : St) (c : Ctl)
  | panic
  | timeout

/-- `tok.current()`, a2l/token_generator.go:21-27. -/
def Env.current (E : Env) (i : Nat) : Str := (E.toks[i]?).getD emptyToken

/-- Can `tok.next()` advance, a2l/token_generator.go:30. -/
def Env.hasNext (E : Env) (i : Nat) : Bool := decide (i + 1 < E.toks.length)

/-- `strconv.ParseX(t)`: the buffer and whether there is no error. -/
def convert (E : Env) (c : Conv) (t : Str) : Val × Bool :=
  match c with
  | .uint b => (.int (parseUint t b).1, (parseUint t b).2)
  | .int b => (.int (parseInt t b).1, (parseInt t b).2)
  | .float => if E.floatOk t then (.flt t, true) else (.zero, false)

/-- Meaning of conditions. -/
def holds (E : Env) (s : St) : Cond → Bool
  | .curIs t => E.current s.idx = t
  | .retIs t => s.ret = t
  | .curKw => isKeyword (E.current s.idx)
  | .errNe => s.err
  | .unset f => !s.obj.flag f
  | .len16Is f g => decide (((s.obj.list f).length % 65536 : Nat) = s.obj.int g)
  | .lenIs f n => (s.obj.list f).length = n
  | .multi => E.multi
  | .or a b => holds E s a || holds E s b

/-- `tok.next()`, a2l/token_generator.go:29-37. -/
def doNext (E : Env) (s : St) : St :=
  if E.hasNext s.idx then { s with idx := s.idx + 1, ret := E.current (s.idx + 1) }
  else { s with ret := emptyToken }

/-- `m[k] = v` on a Go map. -/
def mapSet (m : Str → Option Val) (k : Str) (v : Val) : Str → Option Val :=
  fun k' => if k' = k then some v else m k'

/-- A loop `for { f }`: at most `n` rounds. -/
def iter (f : St → Out) : Nat → St → Out
  | 0, _ => .timeout
  | n + 1, s =>
    match f s with
    | .ok s' .cont => iter f n s'
    | .ok s' .brk => .ok s' .cont
    | .panic => .panic
    | .timeout => .timeout

/-- Meaning of statements; `K` answers calls of other parse functions, `n` bounds the
rounds of each loop. -/
def exec (E : Env) (K : PName → Nat → PRes) (n : Nat) : Stmt → St → Out
  | .skip, s => .ok s .cont
  | .seq a b, s =>
    match exec E K n a s with
    | .ok s' .cont => exec E K n b s'
    | r => r
  | .next, s => .ok (doNext E s) .cont
  | .prev, s => if s.idx = 0 then .panic else .ok { s with idx := s.idx - 1 } .cont
  | .brk, s => .ok s .brk
  | .setErr, s => .ok { s with err := true } .cont
  | .setTrue f, s => .ok { s with obj := s.obj.set f (.bool true) } .cont
  | .storeCur f, s => .ok { s with obj := s.obj.set f (.str (E.current s.idx)) } .cont
  | .appendCur f, s =>
    .ok { s with obj := s.obj.set f (.list (s.obj.list f ++ [.str (E.current s.idx)])) } .cont
  | .concatCur f, s =>
    .ok { s with obj := s.obj.set f (.str (s.obj.str f ++ spaceToken ++ E.current s.idx)) } .cont
  | .storeArr f k, s =>
    .ok { s with obj := s.obj.set f (.list (List.replicate k (.str (E.current s.idx)))) } .cont
  | .storeConst f c, s => .ok { s with obj := s.obj.set f (.str c) } .cont
  | .conv c, s =>
    .ok { s with buf := (convert E c (E.current s.idx)).1,
                 err := !(convert E c (E.current s.idx)).2 } .cont
  | .convRet c, s =>
    .ok { s with buf := (convert E c s.ret).1, err := !(convert E c s.ret).2 } .cont
  | .store f c, s => .ok { s with obj := s.obj.set f (castVal c s.buf) } .cont
  | .append f c, s =>
    .ok { s with obj := s.obj.set f (.list (s.obj.list f ++ [castVal c s.buf])) } .cont
  | .mapInit f, s => .ok { s with obj := s.obj.set f (.map fun _ => none) } .cont
  | .mapInsert f key, s =>
    match s.obj f with
    | .map m => .ok { s with obj := s.obj.set f (.map (mapSet m (s.buf.strField key) s.buf)) } .cont
    | _ => .panic
  | .enumField f e, s =>
    let s1 := if e.usesNext then doNext E s else s
    let t := if e.usesNext then s1.ret else E.current s.idx
    match e.table.lookup t with
    | some v => .ok { s1 with obj := s1.obj.set f (.str v), err := false } .cont
    | none => .ok { s1 with obj := s1.obj.set f (.str emptyToken), err := true } .cont
  | .callBuf p, s =>
    match K p s.idx with
    | .ok i v e => .ok { s with idx := i, buf := v, err := e } .cont
    | .panic => .panic
    | .timeout => .timeout
  | .callField f p, s =>
    match K p s.idx with
    | .ok i v e => .ok { s with idx := i, obj := s.obj.set f v, err := e } .cont
    | .panic => .panic
    | .timeout => .timeout
  | .ite c a b, s => if holds E s c then exec E K n a s else exec E K n b s
  | .loop b, s => iter (exec E K n b) n s

/-- State at the start of a parse function: `x := T{}`, `var err error`. -/
def St.init (i : Nat) : St := ⟨i, emptyToken, Obj.empty, .zero, false⟩

/-- `return x, err` -/
def finish : Out → PRes
  | .ok s _ => .ok s.idx (.obj s.obj) s.err
  | .panic => .panic
  | .timeout => .timeout

end Verif.A2l.Lang
