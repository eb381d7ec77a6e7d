import Verif.Conc.RaceHex
import Verif.Conc.A2lRun

/-!
What the goroutines of the A2L parser do to memory, step by step of `Conc/A2lRun.lean`. As for the hex parsers, the accesses of a goroutine
between two operations on channels and wait groups are put directly before the second one.

The calls of `parseModuleMultithreaded` are numbered; the goroutines, channels and objects of a call carry its number.
-/

namespace Verif.Conc.Race.A2l
open Verif.Go Verif.A2l Lang Verif.Conc.A2lRun

/-- The goroutines of the tokenizer, and the one that collects the tokens (a2l/token_generator.go:50-71). -/
def tokPipe : Pipe G Loc Sy := ⟨.tok, .rdA, .tokens, .piece⟩

/-- `tokenBuilderRoutine` (a2l/token_generator.go:88-137) before it sends; line 126 is executed for every module that begins in the share, at
least once here. -/
def tokActs (k : Nat) : List A := [.read .logger, .read .a2lLines, .atomic .moduleCount, .write (.chars k)]

/-- `append(tokenList, t...)` (a2l/token_generator.go:69). -/
def tokGot : List A := [.read .tokenList, .write .tokenList]

/-- a2l/a2l.go:54-81, 134-154 and a2l/token_generator.go:43-64. -/
def startEvents (np : Nat) : Trace :=
  acts .rdA ([.read .logger, .write .a2lLines, .write .moduleCount, .write .tokenList] ++ (List.range np).map fun k => .go (.tok k))

/-- Looking at the characters of tokens. -/
def chars (np : Nat) : List A := .read .logger :: .read .a2lLines :: (List.range np).map fun k => .read (.chars k)

/-- `current` and `next` of the token generator (a2l/token_generator.go:21-37), and what the parse functions do with the token. -/
def tokens (np : Nat) : List A := .read .tokenList :: chars np

/-- The field of `Module` that the collector of channel `c` writes (a2l/module.go:468-655). -/
def fieldOf : Nat → String
  | 0 => "errors"
  | c + 1 => ((channels[c]?).map (·.field)).getD ""

/-- The number of channels, and of collectors (a2l/module.go:373-399, 467). -/
def numChans : Nat := channels.length + 1

/-- The goroutines of a call of `parseModuleMultithreaded`. -/
def crew (np q : Nat) : List G := (List.range np).map (.par q) ++ .closer q :: (List.range numChans).map (.coll q)

/-- a2l/module.go:327-436, 466-655: the fields are set, the goroutines are started. Lines 415-418: without a closing token no goroutine is
started. -/
def callActs (np q : Nat) (start : Bool) : List A :=
  .read .multithreading :: tokens np ++ (List.range numChans).map (fun c => .write (.field q (fieldOf c))) ++ if start then (crew np q).map .go else []

/-- What happens in a step of `Collect.step`, in the call number `q`. -/
def collEvents {α : Type} (np q : Nat) (s : Collect.State α) : Collect.Op → Trace
  /- a2l/module.go:744-1004 -/
  | .send k =>
    match s.ws[k]? with
    | some w =>
      match w.todo with
      | (c, _) :: _ =>
        match s.chans[c]? with
        | some ch => if ch.closed then [] else acts (.par q k) (tokens np ++ [.write (.object q c (ch.acc.length + ch.buf.length)), .send (.chan q c)])
        | none => []
      | [] => []
    | none => []
  /- a2l/module.go:719 -/
  | .exit k => acts (.par q k) (tokens np ++ [.done (.wgPar q)])
  /- a2l/module.go:675-704 -/
  | .close => acts (.closer q) ((if s.closing = 0 then [.wait (.wgPar q)] else []) ++ [.close (.chan q s.closing), .read .logger])
  /- a2l/module.go:470, 477 and so on -/
  | .recv c =>
    match s.chans[c]? with
    | some ch => acts (.coll q c) (.recv (.chan q c) :: .read (.object q c ch.acc.length) :: chars np ++ [.read (.field q (fieldOf c)), .write (.field q (fieldOf c))])
    | none => []
  /- a2l/module.go:469, 473 and so on -/
  | .fin c => acts (.coll q c) [.closed (.chan q c), .read .logger, .done (.wgCol q)]

/-- What happens in a step of `A2lRun.step`. -/
def events (I : Input) : State → Op → Trace
  | .tokenizing p, .chan o => tokPipe.events tokActs tokGot p o
  /- a2l/token_generator.go:72-84 -/
  | .tokenizing _, .main => acts .rdA (tokGot ++ [.read .moduleCount, .write .multithreading, .read .logger])
  | .parsing ts ans, .call i =>
    match startModule I ts ans i with
    | .inModule _ _ _ _ => acts .rdA (callActs I.np ans.length true)
    | _ => acts .rdA (callActs I.np ans.length false)
  /- the parse functions, to the end of `parseA2l` -/
  | .parsing _ _, .main => acts .rdA (.read .multithreading :: tokens I.np ++ [.write .a2l])
  | .inModule _ ans _ c, .coll o => collEvents I.np ans.length c o
  /- a2l/module.go:657, 444-450 -/
  | .inModule _ ans _ c, .main =>
    if c.crashed then []
    else acts .rdA (.wait (.wgCol ans.length) :: .read .logger :: (List.range numChans).map fun c => .read (.field ans.length (fieldOf c)))
  | _, _ => []

/-- The execution that belongs to a run. -/
def traceFrom (I : Input) : State → List Op → Trace
  | _, [] => []
  | s, o :: os =>
    match step I s o with
    | none => []
    | some s' => events I s o ++ traceFrom I s' os

def trace (I : Input) (os : List Op) : Trace := startEvents I.np ++ traceFrom I (A2lRun.init I) os

end Verif.Conc.Race.A2l
