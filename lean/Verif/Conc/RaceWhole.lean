import Verif.Conc.RaceA2l
import Verif.Conc.WholeProps

/-!
What all goroutines of a call of `ReadCalibration` do to memory, step by step of `Conc/Whole.lean`, and what the caller does with the
result afterwards. `readA2L` and `readHex` begin at once: up to their first operation on a channel they only access memory that nobody
else knows yet, so the place of these accesses in the execution makes no difference.
-/

namespace Verif.Conc.Race.All
open Verif.Go Verif.Conc.Whole
open Verif.Ihex (Mem splitLines)

/-- What the goroutines of a part of the program do. -/
structure Labels {Out : Type} (X : Sys Out) where
  first : Trace
  ev : X.S → X.O → Trace

def fixedLabels {Out : Type} (r : Out) : Labels (fixed r) := ⟨[], fun _ o => nomatch o⟩

def a2lLabels (I : A2lRun.Input) : Labels (a2lSys I) := ⟨A2l.startEvents I.np, A2l.events I⟩

def hexLabels {R : Type} (P : HexRun.Prog R) (M : Hex.Access P) (n : Nat) (lines : List Str) : Labels (hexSys P n lines) :=
  ⟨Hex.startEvents n, Hex.events P M n lines⟩

/-- `a2l.ParseFromFile` (calib_data.go:104). -/
def labelsA (F : Files) : Labels F.readA2L :=
  show Labels (match F.a2l with
    | none => fixed (.error .unreadable)
    | some t => a2lSys (F.input t)) from
  match F.a2l with
  | none => fixedLabels _
  | some _ => a2lLabels _

/-- `ParseFromFile` of ihex32 or srec19 (calib_data.go:126, 139). -/
def labelsH (F : Files) : Labels F.readHex :=
  show Labels (match ReadCal.format F.path, F.hex with
    | none, _ => fixed (.error .unsupported)
    | some _, none => fixed (.error .unreadable)
    | some .intelHex, some t => hexSys (HexRun.ihex F.cpus) F.cpus (splitLines t)
    | some .s19, some t => hexSys HexRun.srec F.cpus (splitLines t)) from
  match ReadCal.format F.path, F.hex with
  | none, _ => fixedLabels _
  | some _, none => fixedLabels _
  | some .intelHex, some _ => hexLabels _ (Hex.ihexAccess _) _ _
  | some .s19, some _ => hexLabels _ Hex.srecAccess _ _

/-- Who an event belongs to: the caller before it starts the two goroutines, a parser (`false`: A2L, `true`: hex), `readA2L` or `readHex` after its
parser has returned, or the caller. -/
inductive Tag
  | pro
  | part (b : Bool)
  | glue (b : Bool)
  | main
  deriving DecidableEq

abbrev Tagged := List (Tag × Ev)

def root : Bool → G
  | false => .rdA
  | true => .rdH

def resultChan : Bool → Sy
  | false => .a2lChan
  | true => .hexChan

/-- calib_data.go:60, 67-69; `configureLogger` sets the logger (line 177). -/
def prologue : Tagged := [(.pro, ⟨.caller, .write .logger⟩), (.pro, ⟨.caller, .go .rdA⟩), (.pro, ⟨.caller, .go .rdH⟩)]

/-- calib_data.go:105-114, 127-154: the result is sent, which copies the structure, or an error; the channel is closed; `wg.Done()`. -/
def glueActs (b ok : Bool) : Nat → List A
  | 0 => if ok then (if b then [] else [.read .a2l]) ++ [.send (resultChan b)] else [.read .logger, .send .errChan]
  | 1 => .close (resultChan b) :: if ok then [.read .logger] else []
  | 2 => [.done .wgReaders]
  | _ => []

/-- calib_data.go:76-98. -/
def mainActs {α β ε : Type} (s : ReadCal.State α β ε) : List A :=
  match s.main with
  | .wait => [.wait .wgReaders]
  | .close => [.close .errChan]
  | .drain _ => if s.errBuf.isEmpty then [.closed .errChan] else [.recv .errChan, .read .logger]
  | .recvA => if s.aBuf.isEmpty then [.closed .a2lChan] else [.recv .a2lChan]
  | .recvH _ => if s.hBuf.isEmpty then [.closed .hexChan] else [.recv .hexChan]
  | _ => []

def tagged (g : Tag) (t : Trace) : Tagged := t.map (g, ·)

def isOk {α ε : Type} : Except ε α → Bool
  | .ok _ => true
  | .error _ => false

section
variable {A H E : Type} {MA : Sys (Except E A)} {MH : Sys (Except E H)}

/-- What happens in a step of `Whole.step`. -/
def events (LA : Labels MA) (LH : Labels MH) (s : State MA MH) : Whole.Op MA MH → Tagged
  | .a2l o => tagged (.part false) (LA.ev s.a o)
  | .hex o => tagged (.part true) (LH.ev s.h o)
  | .readA2L =>
    match MA.out s.a with
    | some r => tagged (.glue false) (acts .rdA (glueActs false (isOk r) s.m.pcA))
    | none => []
  | .readHex =>
    match MH.out s.h with
    | some r => tagged (.glue true) (acts .rdH (glueActs true (isOk r) s.m.pcH))
    | none => []
  | .main => tagged .main (acts .caller (mainActs s.m))

/-- A step of the call, or an access of the caller to the result. -/
inductive Do (MA : Sys (Except E A)) (MH : Sys (Except E H))
  | step (o : Whole.Op MA MH)
  | use (a : Race.A)

/-- What the caller can do with the result: read it and what it refers to, and change it; characters of strings cannot be changed. -/
def usable : Race.A → Bool
  | .read l => match l with | .a2l | .object _ _ _ | .field _ _ | .hexMap | .chars _ | .a2lLines | .logger => true | _ => false
  | .write l => match l with | .a2l | .object _ _ _ | .field _ _ | .hexMap => true | _ => false
  | _ => false

/-- The call has returned. -/
def returned (s : State MA MH) : Bool :=
  match s.m.main with
  | .ret _ => true
  | _ => false

def traceFrom (LA : Labels MA) (LH : Labels MH) : State MA MH → List (Do MA MH) → Tagged
  | _, [] => []
  | s, .step o :: os =>
    match Whole.step s o with
    | none => []
    | some s' => events LA LH s o ++ traceFrom LA LH s' os
  | s, .use a :: os => if returned s && usable a then (.main, ⟨.caller, a⟩) :: traceFrom LA LH s os else []

def tags (LA : Labels MA) (LH : Labels MH) (os : List (Do MA MH)) : Tagged :=
  prologue ++ tagged (.part false) LA.first ++ tagged (.part true) LH.first ++ traceFrom LA LH (start MA MH) os

end

/-- The execution that belongs to a run of the whole call. -/
def trace (F : Files) (os : List (Do F.readA2L F.readHex)) : Trace := (tags (labelsA F) (labelsH F) os).map (·.2)

end Verif.Conc.Race.All
