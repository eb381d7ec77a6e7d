import Verif.A2l.Parts

/-!
C70: writing an object as tokens and reading it again. The specification: trees of objects, how they are written,
and the struct each of them stands for.
-/

namespace Verif.A2l.Write
open Verif.Go Verif.A2l Lang Decl Template

/-- An object to be written: its first token, the parse function of its kind, the tokens of its positional
parameters, the tokens of the list or text at its end, its optional parts. A `choice` is an optional part that
is a keyword followed by a constant. A `given` object is any other one: its tokens after the first, and its value. -/
inductive Node where
  | obj (key : Str) (fn : PName) (words more : List Str) (parts : List Node)
  | choice (key word : Str)
  | given (key : Str) (fn : PName) (rest : List Str) (val : Val)

def Node.key : Node → Str
  | .obj k _ _ _ _ => k
  | .choice k _ => k
  | .given k _ _ _ => k

/-- The closing token, for the objects that have one. -/
def closing (fn : PName) : List Str :=
  match shape fn with
  | .block _ _ _ _ _ => [fin fn]
  | _ => []

mutual
/-- The tokens of an object after its first one. -/
def Node.tail : Node → List Str
  | .obj _ fn ws ms parts => ws ++ (ms ++ (written parts ++ closing fn))
  | .choice _ w => [w]
  | .given _ _ ts _ => ts
/-- The tokens of a list of objects. -/
def written : List Node → List Str
  | [] => []
  | n :: ns => n.key :: (n.tail ++ written ns)
end

/-- MATRIX_DIM and FRAME_MEASUREMENT have no end of their own: they are read up to one of these tokens. -/
def stops : PName → Option (List Str)
  | .parseMatrixDim => some keywords
  | .parseFrameMeasurement => some [(str! "/end FRAME"), (str! "/begin IF_DATA")]
  | _ => none

def Node.stops : Node → Option (List Str)
  | .given _ fn _ _ => Write.stops fn
  | _ => none

/-- Each object without an end of its own stands before a token that ends it; `e` is the token after the objects. -/
def followed : List Node → Str → Bool
  | [], _ => true
  | a :: ns, e => (match a.stops with
      | none => true
      | some l => l.contains (match ns with | [] => e | b :: _ => b.key)) && followed ns e

/-- The value a parameter token stands for. -/
def valueOf : Decl.Kind → Str → Val
  | .str, t => .str t
  | .uint _, t => .int (decVal t)
  | .int _, '-' :: t => .int (-(decVal t))
  | .int _, '+' :: t => .int (decVal t)
  | .int _, t => .int (decVal t)
  | .float, t => .flt t
  | .enum _, t => .str t

/-- What a field keeps of the values `l` of the parts that belong to it. -/
def combine : Decl.Mode → List Val → Val
  | .field, l => l.getLast?.getD .zero
  | .append, [] => .zero
  | .append, l => .list l
  | .byName key, l => .map fun name => (l.filter (·.strField key = name)).getLast?

def target : Sub → String
  | .obj _ f _ => f
  | .enum _ f => f

def modeOf : Sub → Decl.Mode
  | .obj _ _ m => m
  | .enum _ _ => .field

/-- The values of the parts that belong to field `g`. -/
def belonging (subs : List (Str × Sub)) (vs : List (Str × Val)) (g : String) : List Val :=
  (vs.filter fun y => subs.any fun s => s.1 = y.1 && target s.2 = g).map (·.2)

/-- The value of the list or text at the end of an object. -/
def restVal : Rest → List Str → Val
  | _, [] => .zero
  | .none, _ => .zero
  | .list _ _ k, ms => .list (ms.map (valueOf k))
  | .text _ _, ms => .str (ms.flatMap (' ' :: ·))

def restField : Rest → Option String
  | .none => none
  | .list f _ _ => some f
  | .text f _ => some f

/-- The struct of an object with the given shape: all markers set, every parameter in its field, the list or text,
and in the fields of the optional parts what is kept of them. -/
def struct : Shape → List Str → List Str → List (Str × Val) → Obj
  | .keyword f fl, _, _, _ => fun g => if g = f ∨ g = fl then .bool true else .zero
  | sh, ws, ms, vs => fun g =>
    if g ∈ sh.flags then .bool true else
    match (sh.params.zip ws).find? (·.1.field = g) with
    | some (q, w) => valueOf q.kind w
    | none =>
      match sh with
      | .block _ _ rest subs _ =>
        if restField rest = some g then restVal rest ms else
        match subs.find? (target ·.2 = g) with
        | some s => combine (modeOf s.2) (belonging subs vs g)
        | none => .zero
      | _ => .zero

mutual
/-- The value an object stands for. -/
def Node.value : Node → Val
  | .obj _ fn ws ms parts => .obj (struct (shape fn) ws ms (values parts))
  | .choice _ w => .str w
  | .given _ _ _ v => v
def values : List Node → List (Str × Val)
  | [] => []
  | n :: ns => (n.key, n.value) :: values ns
end

/-- `n` may be an optional part of an object with the declared parts `subs`. -/
def Allowed (subs : List (Str × Sub)) : Node → Prop
  | .obj k fn _ _ _ => ∃ f md, (k, Sub.obj fn f md) ∈ subs
  | .given k fn _ _ => ∃ f md, (k, Sub.obj fn f md) ∈ subs
  | .choice k w => ∃ e f c, (k, Sub.enum e f) ∈ subs ∧ e.usesNext = true ∧ (w, c) ∈ e.table

/-- The tokens `ws` are legal for the parameters `ps`. -/
def Fits (E : Env) (ps : List Param) (ws : List Str) : Prop :=
  ws.length = ps.length ∧ ∀ (k : Nat) q w, ps[k]? = some q → ws[k]? = some w → ∃ v, Denotes E q.kind w v

/-- The tokens `ms` are legal for the list or text at the end. -/
def FitsRest (E : Env) : Rest → List Str → Prop
  | .none, ms => ms = []
  | .list _ _ k, ms => ∀ w ∈ ms, ∃ v, Denotes E k w v
  | .text _ _, _ => True

/-- The objects that can be written: as many parameters as declared, each legal and none to be mistaken for a keyword;
the optional parts are declared ones. -/
inductive Legal (E : Env) : Node → Prop
  | keyword {k fn f fl} (hr : fn ∉ irregular) (hs : shape fn = .keyword f fl) : Legal E (.obj k fn [] [] [])
  | flat {k fn ps ws} (hr : fn ∉ irregular) (hs : shape fn = .seq ps ∨ ∃ q, shape fn = .one q ∧ ps = [q])
      (hf : Fits E ps ws) (hw : ∀ w ∈ ws, w ≠ [] ∧ w ∉ keywords) : Legal E (.obj k fn ws [] [])
  | block {k fn raw ps rest subs maps ws ms parts} (hr : fn ∉ irregular)
      (hs : shape fn = .block raw ps rest subs maps) (hf : Fits E ps ws) (hm : FitsRest E rest ms)
      (hw : ∀ w ∈ ws ++ ms, Plain raw (fin fn) subs w) (ha : ∀ n ∈ parts, Allowed subs n)
      (hn : followed parts (fin fn) = true) (hp : ∀ n ∈ parts, Legal E n) : Legal E (.obj k fn ws ms parts)
  | choice {k w} : Legal E (.choice k w)
  | given {k fn ts v} (h : ∀ i, E.toks[i]? = some k → Props.Words E i ts →
        (∀ l, stops fn = some l → ∃ t ∈ l, TokAfter E (i + ts.length) t) → Returns E fn i (.ok (i + ts.length) v false)) :
      Legal E (.given k fn ts v)

end Verif.A2l.Write
