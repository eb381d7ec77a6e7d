import Verif.A2l.Parsers

/-!
Running the parse functions of package a2l.
-/

namespace Verif.A2l
open Verif.Go Lang

/-- A call `parseP(tok)` with `tok.index = i`; `n` bounds the rounds of every loop, `d` the
depth of nested calls. Calls of `parseModuleMultithreaded` are answered by the environment. -/
def run (E : Env) (n : Nat) : Nat → PName → Nat → PRes
  | 0, _, _ => .timeout
  | d + 1, p, i =>
    if p = .parseModuleMultithreaded then E.mtModule i
    else finish (exec E (run E n d) n (body p) (St.init i))

/-- Height of the call graph below a parse function. -/
def maxDepth : Nat := 8

/-- A call `parseP(tok)` with `tok.index = i`. The bounds are large enough for every token
list that ends with the empty token (theorem `C28_terminates`). -/
def parse (E : Env) (p : PName) (i : Nat) : PRes := run E (E.toks.length + 1) maxDepth p i

end Verif.A2l
