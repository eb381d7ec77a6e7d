import Verif.A2l.Decls

/-!
The statement list that belongs to a declared shape, and the parse functions that are exactly
of this form.
-/

namespace Verif.A2l.Template
open Verif.Go Verif.A2l Lang Decl

/-- `if err != nil { break forLoop }` -/
def ifErr (b : Bool) : Stmt := .ite .errNe (blk (if b then [.brk] else [])) (blk [])

/-- Reading the current token into a field; `b`: leave the loop after an error. -/
def load (b : Bool) (f : String) : Kind → List Stmt
  | .str => [.storeCur f]
  | .uint w => [.conv (.uint w), ifErr b, .store f (.uint w)]
  | .int w => [.conv (.int w), ifErr b, .store f (.int w)]
  | .float => [.conv .float, ifErr b, .store f .same]
  | .enum e => [.enumField f e, ifErr b]

/-- Appending the current token to a field. -/
def add (f : String) : Kind → List Stmt
  | .str => [.appendCur f]
  | .uint w => [.conv (.uint w), ifErr true, .append f (.uint w)]
  | .int w => [.conv (.int w), ifErr true, .append f (.int w)]
  | .float => [.conv .float, ifErr true, .append f .same]
  | .enum _ => [.setErr, .brk]

/-- An `if ... else if ...` chain. -/
def chain : List (Cond × List Stmt) → List Stmt
  | [] => []
  | (c, b) :: l => [.ite c (blk b) (blk (chain l))]

def paramCase (p : Param) : Cond × List Stmt :=
  (.unset p.flag, load true p.field p.kind ++ [.setTrue p.flag])

def restCase : Rest → List (Cond × List Stmt)
  | .none => []
  | .list f fl k => [(.unset fl, add f k)]
  | .text f fl => [(.unset fl, [.concatCur f])]

def subStmt : Sub → List Stmt
  | .obj q f .field => [.callField f q, ifErr true]
  | .obj q f .append => [.callBuf q, ifErr true, .append f .same]
  | .obj q f (.byName key) => [.callBuf q, ifErr true, .mapInsert f key]
  | .enum e f => [.enumField f e, ifErr true]

/-- The default branch of the loop over the tokens of a block. -/
def defaults (raw : Bool) (fin : Str) (ps : List Param) (rest : Rest) : List (Cond × List Stmt) :=
  (.curIs emptyToken, [.setErr, .brk]) :: (.curIs fin, rest.flags.map .setTrue ++ [.brk]) ::
    ((if raw then [] else [(.curKw, [.setErr, .brk])]) ++ ps.map paramCase ++ restCase rest)

def round (raw : Bool) (fin : Str) (ps : List Param) (rest : Rest) (subs : List (Str × Sub)) : Stmt :=
  match subs with
  | [] => blk (.next :: chain (defaults raw fin ps rest))
  | s :: ss => blk [.next, switchRet ((s :: ss).map fun x => (x.1, blk (subStmt x.2)))
      (blk (chain (defaults raw fin ps rest)))]

def seqCases : List Param → List (Cond × List Stmt)
  | [] => []
  | [p] => [(.unset p.flag, load true p.field p.kind ++ [.setTrue p.flag, .brk])]
  | p :: ps => paramCase p :: seqCases ps

/-- The statement list of a parse function for an object of the given shape. -/
def template (fin : Str) : Shape → Stmt
  | .keyword f fl => blk [.ite (.unset fl) (blk [.setTrue f, .setTrue fl]) (blk [])]
  | .one p => blk (.next :: chain [(.curIs emptyToken, [.setErr]), (.curKw, [.setErr]),
      (.unset p.flag, load false p.field p.kind ++ [.setTrue p.flag])])
  | .seq ps => blk [.loop (blk (.next :: chain ((.curIs emptyToken, [.setErr, .brk]) ::
      (.curKw, [.setErr, .brk]) :: seqCases ps)))]
  | .block raw ps rest subs maps => blk (maps.map .mapInit ++ [.loop (round raw fin ps rest subs)])
  | .other => .skip

def fin (p : PName) : Str := (Spec.endToken p).getD []

/-- Parse functions that do not have the form their declaration asks for. -/
def irregular : List PName := [.parseA2l, .parseBitOperation, .parseBlob, .parseCompuTab,
  .parseCompuVtab, .parseCompuVtabRange, .parseFrame, .parseFrameMeasurement, .parseGuardRails,
  .parseMatrixDim, .parseMeasurement, .parseMemoryLayout, .parseMemorySegment, .parseNoRescaleX,
  .parseOverwrite, .parseProject, .parseSymbolTypeLink, .parseTypeDefMeasurement, .parseUnit,
  .parseVarForbiddenComb, .parseVariantCoding, .parseModuleMultithreaded]

theorem body_eq (p : PName) (hp : p ∉ irregular) : body p = template (fin p) (shape p) := by
  cases p <;> first | exact absurd (by decide) hp | rfl

end Verif.A2l.Template
