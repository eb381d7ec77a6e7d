import Verif.A2l.ModProps
import Verif.A2l.TokProps

/-!
Several goroutines call `ParseFromFile` (a2l/a2l.go:54-85). The token list, the module counter and
the multithreading flag are variables of the package (a2l/token_generator.go:14-15, a2l/a2l.go:21),
so all calls share them.

A call is cut into the steps at which it touches these variables. Simplified: collecting the tokens
of one worker (and counting its modules), and the whole of `parseA2l`, are one step each; the real
program can be interrupted inside these steps too, so it has all interleavings of the model and more.
-/

namespace Verif.A2l.Shared
open Verif.Go Lang Verif.Conc

/-- The variables of the package `a2l` that calls share. -/
structure Globals where
  /-- `tokenList`, a2l/token_generator.go:14 -/
  tokenList : List Str
  /-- `moduleCount`, a2l/token_generator.go:15 -/
  moduleCount : Nat
  /-- `useMultithreading`, a2l/a2l.go:21 -/
  useMultithreading : Bool

/-- Where a call of `ParseFromFile` is. -/
inductive Pc where
  /-- the file is read, `buildTokenGeneratorFromString` is about to be called -/
  | start
  /-- the tokens of the workers before `i` are collected (a2l/token_generator.go:66-70) -/
  | collect (i : Nat)
  /-- `buildTokenGeneratorFromString` has returned, `parseA2l` is about to be called -/
  | parse
  /-- the call returned -/
  | done (r : PRes)

/-- What a set of calls works on: call `c` reads a file with content `text c`; `np` is `numProc`;
`sched c i` is the schedule of a multithreaded module parse of call `c` at index `i`. -/
structure Setup where
  np : Nat
  graphic : Char → Bool
  floatOk : Str → Bool
  text : Nat → Str
  sched : Nat → Nat → List Collect.Op

/-- `parseA2l` (a2l/a2l.go:89-131) on the given tokens, with the module parser that the flag
selects (a2l/project.go:34-44). -/
def parseTokens (S : Setup) (c : Nat) (ts : List Str) (multi : Bool) : PRes :=
  let E : Env := ⟨ts, S.floatOk, false, fun _ => .panic⟩
  A2l.parse (if multi then mtEnv E S.np (S.sched c) else E) .parseA2l 0

/-- The lines of the file of call `c` (a2l/a2l.go:134-154, a2l/token_generator.go:48-53). -/
def lines (S : Setup) (c : Nat) : List Str :=
  splitChar '\n' (replaceEscapedQuotes (cleanString S.graphic (S.text c)))

/-- One step of a call: the new shared variables and where the call is afterwards. -/
def callStep (S : Setup) (c : Nat) (g : Globals) : Pc → Globals × Pc
  /- a2l/token_generator.go:45, 52 -/
  | .start => ({ g with moduleCount := 0, tokenList := [] }, .collect 0)
  | .collect i =>
    if i < S.np then
      /- a2l/token_generator.go:66-70; 123-127 (`atomic.AddUint32(&moduleCount, 1)`) -/
      match (share? (lines S c) S.np i).bind tokenBuilderRoutine with
      | some ts =>
        ({ g with tokenList := g.tokenList ++ ts, moduleCount := (g.moduleCount + ts.count beginModule) % 2 ^ 32 },
          .collect (i + 1))
      | none => (g, .done .panic)
    else
      /- a2l/token_generator.go:71-85 -/
      ({ g with tokenList := g.tokenList ++ [[]], useMultithreading := !(decide (1 < g.moduleCount)) }, .parse)
  /- a2l/a2l.go:74 -/
  | .parse => (g, .done (parseTokens S c g.tokenList g.useMultithreading))
  | .done r => (g, .done r)

structure State where
  g : Globals
  pc : Nat → Pc

/-- Call `c` takes a step. -/
def step (S : Setup) (s : State) (c : Nat) : State :=
  let r := callStep S c s.g (s.pc c)
  { g := r.1, pc := fun c' => if c' = c then r.2 else s.pc c' }

/-- The calls take steps in the order of the list. -/
def calls (S : Setup) (s : State) (l : List Nat) : State := l.foldl (step S) s

/-- The state of the program before any call; a2l/a2l.go:21 sets the flag. -/
def init : State := { g := ⟨[], 0, true⟩, pc := fun _ => .start }

/-- The result of a call, if it has returned. -/
def State.result (s : State) (c : Nat) : Option PRes :=
  match s.pc c with
  | .done r => some r
  | _ => none

/-! ### Lemmas -/

theorem run_append (S : Setup) (s : State) (a b : List Nat) : calls S s (a ++ b) = calls S (calls S s a) b :=
  List.foldl_append

theorem run_snoc (S : Setup) (s : State) (l : List Nat) (c : Nat) :
    calls S s (l ++ [c]) = step S (calls S s l) c := by rw [run_append]; rfl

theorem run_cons (S : Setup) (s : State) (c : Nat) (l : List Nat) : calls S s (c :: l) = calls S (step S s c) l := rfl

theorem step_other (S : Setup) (s : State) {c d : Nat} (h : c ≠ d) : (step S s d).pc c = s.pc c := by
  simp [step, h]

theorem run_other (S : Setup) {c : Nat} : ∀ (l : List Nat) (s : State), c ∉ l → (calls S s l).pc c = s.pc c := by
  intro l
  induction l with
  | nil => intro s _; rfl
  | cons d l ih =>
    intro s h
    rw [run_cons, ih _ (fun hh => h (List.mem_cons_of_mem _ hh)),
      step_other S s (fun hh => h (by rw [hh]; exact List.mem_cons_self))]

theorem run_done (S : Setup) {c : Nat} {r : PRes} : ∀ (l : List Nat) (s : State), s.pc c = .done r →
    (calls S s l).pc c = .done r := by
  intro l
  induction l with
  | nil => intro s h; exact h
  | cons d l ih =>
    intro s h
    rw [run_cons]
    apply ih
    by_cases hd : c = d
    · subst hd; simp [step, h, callStep]
    · rw [step_other S s hd, h]

/-- The tokens of worker `i`. -/
def piece (S : Setup) (c i : Nat) : List Str := lex .normal (textStream (share (lines S c) S.np i))

theorem pieces (S : Setup) (c : Nat) :
    tokensOfFile S.graphic S.np (S.text c) = some (((List.range S.np).map (piece S c)).flatten ++ [[]]) := by
  unfold tokensOfFile
  rw [tokensFromString_eq]
  rfl

/-- The state after call `c`, alone, has collected the tokens of `k` workers. -/
theorem run_collect (S : Setup) (c : Nat) (s : State) (h : s.pc c = .start) (k : Nat) (hk : k ≤ S.np) :
    (calls S s (List.replicate (k + 1) c)).g =
      { s.g with tokenList := ((List.range k).map (piece S c)).flatten,
                 moduleCount := (((List.range k).map (piece S c)).flatten.count beginModule) % 2 ^ 32 } ∧
    (calls S s (List.replicate (k + 1) c)).pc c = .collect k := by
  induction k with
  | zero => simp [calls, step, h, callStep]
  | succ k ih =>
    obtain ⟨h1, h2⟩ := ih (by omega)
    rw [List.replicate_succ', run_snoc]
    have hc : (share? (lines S c) S.np k).bind tokenBuilderRoutine = some (piece S c k) := by
      rw [share?_eq _ (by omega)]
      exact tokenBuilderRoutine_eq _
    constructor
    · simp only [step, h2, callStep, if_pos (show k < S.np by omega), hc, h1]
      rw [List.range_succ, List.map_append, List.flatten_append]
      simp [List.count_append]
    · simp only [step, h2, callStep, if_pos (show k < S.np by omega), hc, if_pos]

/-- The state after call `c`, alone, has built its token list. -/
theorem run_build (S : Setup) (c : Nat) (s : State) (h : s.pc c = .start) :
    ∃ ts, tokensOfFile S.graphic S.np (S.text c) = some ts ∧
      (calls S s (List.replicate (S.np + 2) c)).g.tokenList = ts ∧
      (moduleCount ts < 2 ^ 32 → (calls S s (List.replicate (S.np + 2) c)).g.useMultithreading = useMultithreading ts) ∧
      (calls S s (List.replicate (S.np + 2) c)).pc c = .parse := by
  refine ⟨_, pieces S c, ?_⟩
  obtain ⟨h1, h2⟩ := run_collect S c s h S.np (Nat.le_refl _)
  rw [List.replicate_succ', run_snoc]
  refine ⟨?_, ?_, ?_⟩
  · simp only [step, h2, callStep, if_neg (Nat.lt_irrefl _), h1]
  · intro hm
    simp only [step, h2, callStep, if_neg (Nat.lt_irrefl _), h1]
    unfold useMultithreading moduleCount at *
    rw [List.count_append] at *
    have h0 : List.count beginModule [[]] = 0 := by decide
    rw [h0, Nat.add_zero] at hm ⊢
    rw [Nat.mod_eq_of_lt hm]
  · simp only [step, h2, callStep, if_neg (Nat.lt_irrefl _), if_pos]

end Verif.A2l.Shared

namespace Verif.A2l.Props
open Verif.Go Lang Verif.Conc Shared

/-- What a call should return: the parse of the tokens of its own file, multithreaded unless the
file has several modules. -/
def OwnResult (S : Setup) (c : Nat) (r : PRes) : Prop :=
  ∃ ts, tokensOfFile S.graphic S.np (S.text c) = some ts ∧
    r = A2l.parse (if useMultithreading ts then mtEnv ⟨ts, S.floatOk, false, fun _ => .panic⟩ S.np (S.sched c)
      else ⟨ts, S.floatOk, false, fun _ => .panic⟩) .parseA2l 0

/-- The full statement: in every interleaving every call that returns gets the result of its own
file. It is false, see `C37_false`. -/
def C37_full : Prop := ∀ (S : Setup) (l : List Nat) (c : Nat) (r : PRes), 0 < S.np →
  (calls S init l).result c = some r → OwnResult S c r

/-- C37 for a call during which no other call takes a step; before and after it the other calls may
interleave in any way. Files with 2^32 modules or more are excluded. Missing: calls that overlap. -/
theorem C37_partial (S : Setup) (c : Nat) (before after : List Nat) (hb : c ∉ before)
    (hm : ∀ ts, tokensOfFile S.graphic S.np (S.text c) = some ts → moduleCount ts < 2 ^ 32) :
    ∃ r, (calls S init (before ++ List.replicate (S.np + 3) c ++ after)).result c = some r ∧ OwnResult S c r := by
  have h0 : (calls S init before).pc c = .start := by rw [run_other S _ _ hb]; rfl
  obtain ⟨ts, h1, h2, h3, h4⟩ := run_build S c _ h0
  have hf : (calls S init (before ++ List.replicate (S.np + 3) c)).pc c =
      .done (parseTokens S c ts (useMultithreading ts)) := by
    rw [run_append, List.replicate_succ', run_snoc]
    simp only [step, h4, callStep, h2, h3 (hm ts h1), if_pos]
  refine ⟨parseTokens S c ts (useMultithreading ts), ?_, ts, h1, rfl⟩
  rw [run_append]
  unfold State.result
  rw [run_done S after _ hf]

/-- For any two files there is an interleaving in which the first caller gets the content of the
second file: both build their token list before the first one parses. -/
theorem C37_mixup (S : Setup) (a b : Nat) (hab : a ≠ b) :
    ∃ l ts, tokensOfFile S.graphic S.np (S.text b) = some ts ∧
      (moduleCount ts < 2 ^ 32 →
        (calls S init l).result a = some (parseTokens S a ts (useMultithreading ts))) := by
  obtain ⟨_, _, _, _, ha⟩ := run_build S a init rfl
  have hb0 : (calls S init (List.replicate (S.np + 2) a)).pc b = .start := by
    rw [run_other S _ _ (by simp [Ne.symm hab])]; rfl
  obtain ⟨ts, h1, h2, h3, _⟩ := run_build S b _ hb0
  refine ⟨List.replicate (S.np + 2) a ++ List.replicate (S.np + 2) b ++ [a], ts, h1, fun hm => ?_⟩
  have hpa : (calls S init (List.replicate (S.np + 2) a ++ List.replicate (S.np + 2) b)).pc a = .parse := by
    rw [run_append, run_other S _ _ (by simp [hab]), ha]
  rw [run_snoc]
  simp only [State.result, step, hpa, callStep, if_pos]
  rw [run_append, h2, h3 hm]

theorem tokens_one_line (graphic : Char → Bool) (n : Nat) (hn : 0 < n) (s x : Str)
    (h : splitChar '\n' (replaceEscapedQuotes (cleanString graphic s)) = [x]) :
    tokensOfFile graphic n s = some (lex .normal (textStream [x]) ++ [[]]) := by
  unfold tokensOfFile
  rw [tokensFromString_eq, h]
  obtain ⟨m, rfl⟩ : ∃ m, n = m + 1 := ⟨n - 1, by omega⟩
  have hp : ∀ i, i < m → share [x] (m + 1) i = [] := by
    intro i hi
    have : 1 / (m + 1) = 0 := Nat.div_eq_of_lt (by omega)
    simp [share, shareStart, shareEnd, this, show i ≠ m by omega]
  have hl : share [x] (m + 1) m = [x] := by
    cases m with
    | zero => rfl
    | succ m =>
      have : 1 / (m + 1 + 1) = 0 := Nat.div_eq_of_lt (by omega)
      simp [share, shareStart, shareEnd, this]
  rw [List.range_succ, List.map_append, List.flatten_append]
  have : ((List.range m).map fun i => lex .normal (textStream (share [x] (m + 1) i))).flatten = [] := by
    rw [List.flatten_eq_nil_iff]
    intro l hl'
    obtain ⟨i, hi, rfl⟩ := List.mem_map.1 hl'
    rw [hp i (List.mem_range.1 hi)]
    rfl
  rw [this]
  simp [hl]

/-- Two files: an empty one, and one with a stray keyword. -/
def twoFiles (np : Nat) : Setup :=
  ⟨np, fun _ => true, fun _ => true, fun c => if c = 0 then [] else (str! "/end UNIT"), fun _ _ => []⟩

def isErr : PRes → Bool
  | .ok _ _ e => e
  | _ => true

/-- Disagreement: for every number of workers, the caller that parses the empty file can get the
error of the other file. -/
theorem C37_false_everywhere (np : Nat) (hn : 0 < np) : ∃ l r, (calls (twoFiles np) init l).result 0 = some r ∧
    ¬ OwnResult (twoFiles np) 0 r := by
  have h0 : tokensOfFile (fun _ => true) np [] = some [[]] := by
    rw [tokens_one_line _ _ hn [] [] (by decide +kernel)]
    decide +kernel
  have h1 : tokensOfFile (fun _ => true) np (str! "/end UNIT") = some [(str! "/end UNIT"), []] := by
    rw [tokens_one_line _ _ hn (str! "/end UNIT") (str! "/end UNIT") (by decide +kernel)]
    decide +kernel
  obtain ⟨l, ts, h2, h3⟩ := C37_mixup (twoFiles np) 0 1 (by decide)
  have h2' : tokensOfFile (fun _ => true) np (str! "/end UNIT") = some ts := h2
  rw [h1] at h2'
  obtain rfl := Option.some.inj h2'
  refine ⟨l, _, h3 (by decide), ?_⟩
  rintro ⟨ts, h4, h5⟩
  have h4' : tokensOfFile (fun _ => true) np [] = some ts := h4
  rw [h0] at h4'
  obtain rfl := Option.some.inj h4'
  have := congrArg isErr h5
  have e1 : isErr (A2l.parse (mtEnv ⟨[(str! "/end UNIT"), []], fun _ => true, false, fun _ => .panic⟩ np
      (fun _ => [])) .parseA2l 0) = true := by rfl
  have e2 : isErr (A2l.parse (mtEnv ⟨[[]], fun _ => true, false, fun _ => .panic⟩ np
      (fun _ => [])) .parseA2l 0) = false := by rfl
  rw [show useMultithreading [[]] = true by decide, if_pos rfl] at this
  exact absurd (e1.symm.trans (this.trans e2)) (by decide)

theorem C37_false : ¬ C37_full := by
  intro h
  obtain ⟨l, r, h1, h2⟩ := C37_false_everywhere 2 (by decide)
  exact h2 (h _ l 0 r (by decide) h1)

/-- Non-vacuity of `C37_partial`: the other caller has built its tokens before and parses (wrong
tokens) afterwards; the call in between gets its own result, no error. -/
example : ∃ r, (calls (twoFiles 2) init ([1, 1, 1, 1] ++ List.replicate 5 0 ++ [1])).result 0 = some r ∧
    OwnResult (twoFiles 2) 0 r :=
  C37_partial (twoFiles 2) 0 [1, 1, 1, 1] [1] (by decide) (by
    intro ts h
    have : tokensOfFile (fun _ => true) 2 [] = some [[]] := by decide +kernel
    rw [show tokensOfFile (twoFiles 2).graphic (twoFiles 2).np ((twoFiles 2).text 0) = some [[]] from this] at h
    cases h
    decide)

example : ((calls (twoFiles 2) init ([1, 1, 1, 1] ++ List.replicate 5 0 ++ [1])).result 0).map isErr = some false := by
  decide +kernel

example : ((calls (twoFiles 2) init ([0, 0, 0, 0] ++ [1, 1, 1, 1] ++ [0])).result 0).map isErr = some true := by
  decide +kernel

end Verif.A2l.Props
