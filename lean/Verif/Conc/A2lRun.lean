import Verif.Conc.Props
import Verif.A2l.Oracle
import Verif.A2l.Shared

/-!
`ParseFromFile` (a2l/a2l.go:54-85) as a concurrent program: the goroutines of the tokenizer (a2l/token_generator.go:50-70), then
the main goroutine in `parseA2l`, and inside it, whenever it calls `parseModuleMultithreaded`, the workers, the closing goroutine
and the collectors of a2l/module.go:327-1005. `Op` says which goroutine makes the next step. Computation between two channel
operations is one step.

The parse functions are the functions of `Run.lean`; they are run with the answers that the calls of
`parseModuleMultithreaded` have given so far. The main goroutine is at such a call at index `i` if the parse would panic as soon
as the call at `i` panics, and cannot go on without an answer.
-/

namespace Verif.Conc.A2lRun
open Verif.Go Verif.A2l Lang Oracle Analysis

/-- What the call works on: `np` is `numProc` (a2l/a2l.go:25), `text` the content of the file. -/
structure Input where
  np : Nat
  graphic : Char → Bool
  floatOk : Str → Bool
  text : Str

/-- Where the main goroutine is, with the goroutines beside it. -/
inductive State
  /-- collects the tokens from the channels (a2l/token_generator.go:65-70) -/
  | tokenizing (p : Pipeline.State (List Str))
  /-- in `parseA2l`; `ans` are the answers of `parseModuleMultithreaded` so far, with the index of the call -/
  | parsing (ts : List Str) (ans : List (Nat × PRes))
  /-- waits for the collectors in `parseModuleMultithreaded`, called at index `i` -/
  | inModule (ts : List Str) (ans : List (Nat × PRes)) (i : Nat) (c : Collect.State Val)
  | returned (r : PRes)
  /-- a goroutine has panicked -/
  | crashed

inductive Op
  /-- a channel operation of the tokenizer -/
  | chan (o : Pipeline.Op)
  /-- the main goroutine calls `parseModuleMultithreaded` at index `i` -/
  | call (i : Nat)
  /-- a channel or wait-group operation of the module parser -/
  | coll (o : Collect.Op)
  /-- the main goroutine goes on -/
  | main

/-- a2l/a2l.go:134-154, a2l/token_generator.go:48-53. -/
def Input.lines (I : Input) : List Str := splitChar '\n' (replaceEscapedQuotes (cleanString I.graphic I.text))

/-- What the goroutines of the tokenizer send (a2l/token_generator.go:54-64, 87-97); `none` is a panic. -/
def Input.pieces (I : Input) : Option (List (List Str)) := (shares? I.lines I.np).bind fun parts => parts.mapM tokenBuilderRoutine

/-- a2l/token_generator.go:43-64: the goroutines of the tokenizer are started. -/
def init (I : Input) : State :=
  match I.pieces with
  | none => .crashed
  | some tss => .tokenizing (Pipeline.init 1 (tss.map fun t => [t]))

/-- a2l/token_generator.go:77-84, with the counter of line 15, a `uint32`. -/
def multi (ts : List Str) : Bool := !(decide (1 < ts.count beginModule % 2 ^ 32))

/-- The surroundings of the goroutines of the module parser. -/
def workerEnv (I : Input) (ts : List Str) : Env := ⟨ts, I.floatOk, false, fun _ => .panic⟩

/-- The surroundings of the main goroutine, with answers of `parseModuleMultithreaded`. -/
def mainEnv (I : Input) (ts : List Str) (f : Nat → PRes) : Env := ⟨ts, I.floatOk, multi ts, f⟩

/-- The answers given so far; `timeout` for the others. -/
def answers (ans : List (Nat × PRes)) : Nat → PRes := fun j => (ans.lookup j).getD .timeout

/-- The answers given so far, and a panic for the call at `i`. -/
def trap (ans : List (Nat × PRes)) (i : Nat) : Nat → PRes := fun j => if j = i ∧ ans.lookup i = none then .panic else answers ans j

def isPanic : PRes → Bool
  | .panic => true
  | _ => false

/-- The main goroutine is about to call `parseModuleMultithreaded` at index `i`. -/
def asks (I : Input) (ts : List Str) (ans : List (Nat × PRes)) (i : Nat) : Bool :=
  isPanic (parse (mainEnv I ts (trap ans i)) .parseA2l 0)

/-- a2l/module.go:327-436: the goroutines of the module parser are started; without a closing token after the header the
function returns at once (line 415). -/
def startModule (I : Input) (ts : List Str) (ans : List (Nat × PRes)) (i : Nat) : State :=
  let E := workerEnv I ts
  if endIndex E ≤ (header E i).1 then .parsing ts ((i, .ok (header E i).1 (.obj (header E i).2.1) true) :: ans)
  else match scripts E I.np (header E i).1 (endIndex E) with
    | none => .crashed
    | some ss => .inModule ts ans i (Collect.init (capacities I.np) ss)

/-- a2l/module.go:438-451: what the module parser returns when the collectors have returned. -/
def endModule (I : Input) (ts : List Str) (i : Nat) (c : Collect.State Val) : PRes :=
  let E := workerEnv I ts
  let errs := received c errChan
  let o1 := collectAll (received c) 1 channels (header E i).2.1
  let o2 := if errs = [] then o1 else o1.set "errors" (.list errs)
  .ok (endIndex E) (.obj o2) ((header E i).2.2 || !errs.isEmpty)

/-- One step; `none` if the goroutine cannot make one. -/
def step (I : Input) : State → Op → Option State
  | .tokenizing p, .chan o => (Pipeline.step p o).map .tokenizing
  | .tokenizing p, .main => if p.pos = p.ws.length then some (.parsing (p.acc.flatten ++ [[]]) []) else none
  | .parsing ts ans, .call i => if asks I ts ans i then some (startModule I ts ans i) else none
  | .parsing ts ans, .main =>
    match parse (mainEnv I ts (answers ans)) .parseA2l 0 with
    | .timeout => none
    | .panic => some .crashed
    | r => some (.returned r)
  | .inModule ts ans i c, .coll o => (Collect.step c o).map (.inModule ts ans i)
  | .inModule ts ans i c, .main =>
    if c.crashed then some .crashed
    else if c.finished then some (.parsing ts ((i, endModule I ts i c) :: ans)) else none
  | _, _ => none

def run (I : Input) (s : State) : List Op → Option State
  | [] => some s
  | o :: os => (step I s o).bind fun s' => run I s' os

/-! ### The main goroutine between two calls -/

/-- The tokens of the file. -/
def Tokens (I : Input) (ts : List Str) : Prop := tokensOfFile I.graphic I.np I.text = some ts

theorem tokens_exist (I : Input) : ∃ ts, Tokens I ts := by
  obtain ⟨ts, h, _⟩ := C27_tokenizer_total I.graphic I.np I.text
  exact ⟨_, h⟩

theorem tokens_pieces {I : Input} {ts : List Str} (h : Tokens I ts) : ∃ tss, I.pieces = some tss ∧ ts = tss.flatten ++ [[]] := by
  unfold Tokens tokensOfFile tokensFromString at h
  unfold Input.pieces Input.lines
  simp only [Option.bind_eq_bind, Option.pure_def, Option.bind_eq_some_iff, Option.some.injEq] at h
  obtain ⟨parts, h1, tss, h2, h3⟩ := h
  exact ⟨tss, by simp only [h1, Option.bind_some, h2], h3.symm⟩

theorem tokens_wf {I : Input} {ts : List Str} (h : Tokens I ts) (fl : Str → Bool) (m : Bool) (f : Nat → PRes) :
    Wf ⟨ts, fl, m, f⟩ := by
  obtain ⟨pre, h1, h2⟩ := C27_tokenizer_total I.graphic I.np I.text
  unfold Tokens at h
  rw [h1] at h
  cases h
  exact ⟨pre, rfl, fun hh => h2 _ hh rfl⟩

theorem tokens_pos {I : Input} {ts : List Str} (h : Tokens I ts) : 0 < ts.length := by
  obtain ⟨tss, _, rfl⟩ := tokens_pieces h
  simp

/-- An answer that the module parser can give under some schedule. -/
def CanAnswer (I : Input) (ts : List Str) (i : Nat) (r : PRes) : Prop :=
  ∃ sched, mtModule (workerEnv I ts) I.np sched i = r ∧ r ≠ .timeout

/-- All answers so far are possible ones. -/
def Fair (I : Input) (ts : List Str) (ans : List (Nat × PRes)) : Prop := ∀ i r, ans.lookup i = some r → CanAnswer I ts i r

/-- The answers so far can be completed. -/
theorem complete {I : Input} (hn : 0 < I.np) {ts : List Str} (ht : Tokens I ts) {ans : List (Nat × PRes)} (hf : Fair I ts ans) :
    ∃ sched : Nat → List Collect.Op, (∀ i < ts.length, mtModule (workerEnv I ts) I.np (sched i) i ≠ .timeout) ∧
      Extends (fun i => mtModule (workerEnv I ts) I.np (sched i) i) (answers ans) := by
  have : ∀ i, ∃ sched, (i < ts.length → mtModule (workerEnv I ts) I.np sched i ≠ .timeout) ∧
      (∀ r, ans.lookup i = some r → mtModule (workerEnv I ts) I.np sched i = r) := by
    intro i
    cases hl : ans.lookup i with
    | some r =>
      obtain ⟨sched, h1, h2⟩ := hf i r hl
      exact ⟨sched, fun _ => h1 ▸ h2, fun r' hr => by cases hr; exact h1⟩
    | none =>
      by_cases hi : i < ts.length
      · obtain ⟨sched, hs⟩ := (Props.C35_returns (E := workerEnv I ts) (tokens_wf ht _ _ _) rfl hn hi).1
        exact ⟨sched, fun _ => hs, fun r hr => by cases hr⟩
      · exact ⟨[], fun h => absurd h hi, fun r hr => by cases hr⟩
  obtain ⟨sched, hs⟩ := Classical.axiomOfChoice this
  refine ⟨sched, fun i hi => (hs i).1 hi, fun i hi => ?_⟩
  unfold answers at hi ⊢
  cases hl : ans.lookup i with
  | none => simp [hl] at hi
  | some r => simpa using (hs i).2 r hl

/-- With good answers inside the list the parse returns, whatever the answers outside. -/
theorem parse_good {I : Input} {ts : List Str} (ht : Tokens I ts) {g : Nat → PRes}
    (hg : multi ts = true → ∀ i < ts.length, Good (mainEnv I ts g) (g i) i 0) :
    ∃ i v e, parse (mainEnv I ts g) .parseA2l 0 = .ok i v e := by
  obtain ⟨i, v, e, h, _⟩ := Props.parse_ok (E := mainEnv I ts g) (tokens_wf ht _ _ _) hg .parseA2l (by decide) 0 (tokens_pos ht)
  exact ⟨i, v, e, h⟩

theorem good_answers {I : Input} (hn : 0 < I.np) {ts : List Str} (ht : Tokens I ts) {sched : Nat → List Collect.Op}
    (hs : ∀ i < ts.length, mtModule (workerEnv I ts) I.np (sched i) i ≠ .timeout) (g : Nat → PRes) (i : Nat) (hi : i < ts.length) :
    Good (mainEnv I ts g) (mtModule (workerEnv I ts) I.np (sched i) i) i 0 := by
  obtain ⟨j, o, e, h1, h2, h3⟩ := (Props.C35_returns (E := workerEnv I ts) (tokens_wf ht _ _ _) rfl hn hi).2 (sched i) (hs i hi)
  exact ⟨j, .obj o, e, h1, h2, h3, fun _ => h2⟩

/-- Between two calls: either the parse ends without another call, with a result that does not depend on answers not given yet;
or it asks for the answer at one index inside the list, which has not been answered. -/
theorem decide_next {I : Input} (hn : 0 < I.np) {ts : List Str} (ht : Tokens I ts) {ans : List (Nat × PRes)} (hf : Fair I ts ans) :
    (∃ i v e, (∀ g, Extends g (answers ans) → parse (mainEnv I ts g) .parseA2l 0 = .ok i v e) ∧ ∀ j, asks I ts ans j = false) ∨
    (∃ j, j < ts.length ∧ multi ts = true ∧ ans.lookup j = none ∧ (∀ k, asks I ts ans k = true ↔ k = j) ∧
      parse (mainEnv I ts (answers ans)) .parseA2l 0 = .timeout) := by
  obtain ⟨sched, hs, hx⟩ := complete hn ht hf
  have hgood : ∀ g : Nat → PRes, (∀ i < ts.length, g i = mtModule (workerEnv I ts) I.np (sched i) i) →
      ∃ i v e, parse (mainEnv I ts g) .parseA2l 0 = .ok i v e := fun g hg =>
    parse_good ht fun _ i hi => by rw [hg i hi]; exact good_answers hn ht hs g i hi
  have htrap : ∀ i, Extends (trap ans i) (answers ans) := by
    intro i j hj
    unfold trap
    rw [if_neg]
    rintro ⟨rfl, h⟩
    exact hj (by simp [answers, h])
  cases parse_tri (mainEnv I ts (answers ans)) (answers ans) .parseA2l 0 with
  | ends r h =>
    left
    obtain ⟨i, v, e, he⟩ := hgood _ fun i _ => rfl
    have hr : r = .ok i v e := (h _ hx).symm.trans he
    subst hr
    refine ⟨i, v, e, h, fun j => ?_⟩
    unfold asks
    rw [show parse (mainEnv I ts (trap ans j)) .parseA2l 0 = _ from h _ (htrap j)]
    rfl
  | calls j hj h =>
    right
    have hnone : ans.lookup j = none := by
      cases hl : ans.lookup j with
      | none => rfl
      | some r =>
        obtain ⟨_, _, h2⟩ := hf j r hl
        simp [answers, hl] at hj
        exact absurd hj h2
    -- a parse with a panic at `j` and good answers elsewhere panics
    have hpan : parse (mainEnv I ts fun i => if i = j then .panic else mtModule (workerEnv I ts) I.np (sched i) i) .parseA2l 0 = .panic := by
      refine (h _ fun i hi => ?_).1 (if_pos rfl)
      by_cases hij : i = j
      · subst hij; exact absurd hj hi
      · rw [if_neg hij]; exact hx i hi
    have hlt : j < ts.length := by
      rcases Nat.lt_or_ge j ts.length with hlt | hge
      · exact hlt
      · obtain ⟨i, v, e, he⟩ := hgood (fun i => if i = j then .panic else mtModule (workerEnv I ts) I.np (sched i) i) fun i hi => if_neg (by omega)
        rw [hpan] at he; cases he
    have hm : multi ts = true := by
      cases hm : multi ts with
      | true => rfl
      | false =>
        obtain ⟨i, v, e, he⟩ := parse_good (I := I) ht (g := fun i => if i = j then .panic else mtModule (workerEnv I ts) I.np (sched i) i) fun h' => by
          rw [hm] at h'; cases h'
        rw [hpan] at he; cases he
    refine ⟨j, hlt, hm, hnone, fun k => ⟨fun hk => ?_, ?_⟩, (h _ (Extends.refl _)).2 hj⟩
    · rcases Classical.em (k = j) with h' | h'
      · exact h'
      · have := (h _ (htrap k)).2 (by unfold trap; rw [if_neg (fun hh => h' hh.1.symm)]; exact hj)
        unfold asks at hk
        rw [show parse (mainEnv I ts (trap ans k)) .parseA2l 0 = .timeout from this] at hk
        cases hk
    · rintro rfl
      unfold asks
      rw [show parse (mainEnv I ts (trap ans k)) .parseA2l 0 = .panic from (h _ (htrap k)).1 (by simp [trap, hnone])]
      rfl

/-! ### Invariant -/

/-- What may be returned: what the model of the parse functions gives under some schedule of the module parser in which every
goroutine comes to its end. -/
def Result (I : Input) (ts : List Str) (r : PRes) : Prop :=
  ∃ sched : Nat → List Collect.Op, (∀ i < ts.length, mtModule (workerEnv I ts) I.np (sched i) i ≠ .timeout) ∧
    r = parse (if multi ts then mtEnv (workerEnv I ts) I.np sched else workerEnv I ts) .parseA2l 0

inductive Inv (I : Input) (ts : List Str) : State → Prop
  | tokenizing {p} (tss : List (List Str)) (hts : ts = tss.flatten ++ [[]]) (h : Pipeline.Inv (tss.map fun t => [t]) p) :
      Inv I ts (.tokenizing p)
  | parsing {ans} (hf : Fair I ts ans) : Inv I ts (.parsing ts ans)
  | inModule {ans i c} (hf : Fair I ts ans) (hi : i < ts.length) (hnew : ans.lookup i = none)
      (hlt : ¬ endIndex (workerEnv I ts) ≤ (header (workerEnv I ts) i).1) (ss : List (List (Nat × Val)))
      (hss : scripts (workerEnv I ts) I.np (header (workerEnv I ts) i).1 (endIndex (workerEnv I ts)) = some ss)
      (hch : ∀ sc ∈ ss, ∀ m ∈ sc, m.1 < (capacities I.np).length)
      (ops : List Collect.Op) (hr : Collect.run (Collect.init (capacities I.np) ss) ops = some c) : Inv I ts (.inModule ts ans i c)
  | returned {i v e} (h : Result I ts (.ok i v e)) : Inv I ts (.returned (.ok i v e))

theorem init_inv {I : Input} {ts : List Str} (ht : Tokens I ts) : Inv I ts (init I) := by
  obtain ⟨tss, h1, h2⟩ := tokens_pieces ht
  unfold init
  rw [h1]
  exact .tokenizing tss h2 (Pipeline.inv_init _ _)

theorem fair_cons {I : Input} {ts : List Str} {ans : List (Nat × PRes)} (hf : Fair I ts ans) {i : Nat} {r : PRes}
    (h : CanAnswer I ts i r) : Fair I ts ((i, r) :: ans) := by
  intro j r' hj
  rw [List.lookup_cons] at hj
  split at hj
  · next heq =>
    cases hj
    rw [eq_of_beq heq]
    exact h
  · exact hf j r' hj

/-- The result of a parse that ends without another call. -/
theorem result_of_end {I : Input} (hn : 0 < I.np) {ts : List Str} (ht : Tokens I ts) {ans : List (Nat × PRes)} (hf : Fair I ts ans)
    {r : PRes} (h : ∀ g, Extends g (answers ans) → parse (mainEnv I ts g) .parseA2l 0 = r) : Result I ts r := by
  obtain ⟨sched, hs, hx⟩ := complete hn ht hf
  refine ⟨sched, hs, ?_⟩
  cases hm : multi ts with
  | true =>
    rw [if_pos rfl, ← h _ hx]
    unfold mainEnv
    rw [hm]
    rfl
  | false =>
    rw [if_neg (by decide)]
    -- without the flag the answers are not used
    have key : ∀ g g' : Nat → PRes, parse (mainEnv I ts g) .parseA2l 0 = parse (mainEnv I ts g') .parseA2l 0 := by
      have hall : ∀ g : Nat → PRes, Extends g fun _ => PRes.timeout := fun g j hj => absurd rfl hj
      cases parse_tri (mainEnv I ts fun _ => .timeout) (fun _ => .timeout) .parseA2l 0 with
      | ends r h => exact fun g g' => (h g (hall g)).trans (h g' (hall g')).symm
      | calls j hj h =>
        have := (h (fun _ => .panic) (hall _)).1 rfl
        obtain ⟨i, v, e, he⟩ := parse_good (I := I) ht (g := fun _ => .panic) fun h' => by rw [hm] at h'; cases h'
        rw [show parse (mainEnv I ts fun _ => .panic) .parseA2l 0 = .panic from this] at he
        cases he
    rw [← h _ hx, key _ fun _ => .panic]
    unfold mainEnv workerEnv
    rw [hm]

theorem step_inv {I : Input} (hn : 0 < I.np) {ts : List Str} (ht : Tokens I ts) {s s' : State} {o : Op} (hi : Inv I ts s)
    (hs : step I s o = some s') : Inv I ts s' := by
  cases hi with
  | @tokenizing p tss hts h =>
    cases o with
    | chan o =>
      obtain ⟨p', h1, rfl⟩ := Option.map_eq_some_iff.1 hs
      exact .tokenizing tss hts (Pipeline.inv_step h h1)
    | main =>
      simp only [step] at hs
      split at hs
      · next hp =>
        cases hs
        have hc := h.content
        rw [hp, List.drop_length] at hc
        have : p.acc.flatten ++ [[]] = ts := by
          rw [hts]
          simp only [List.map_nil, List.flatten_nil, List.append_nil] at hc
          rw [hc]
          simp [← List.flatMap_def]
        rw [this]
        exact .parsing fun i r h => by simp at h
      · cases hs
    | call i => cases hs
    | coll o => cases hs
  | @parsing ans hf =>
    cases o with
    | chan o => cases hs
    | coll o => cases hs
    | call i =>
      simp only [step] at hs
      split at hs
      · next ha =>
        cases hs
        rcases decide_next hn ht hf with ⟨_, _, _, _, h⟩ | ⟨j, hj, _, hnone, hiff, _⟩
        · rw [h i] at ha; cases ha
        · obtain rfl := (hiff i).1 ha
          unfold startModule
          dsimp only
          split
          · next hle =>
            refine .parsing (fair_cons hf ⟨[], ?_, by simp⟩)
            unfold mtModule
            dsimp only
            rw [if_pos hle]
          · next hle =>
            have hh := header_idx (E := workerEnv I ts) hj
            obtain ⟨ss, h1, h2, _, h4⟩ := scripts_total (E := workerEnv I ts) (np := I.np) (tokens_wf ht _ _ _) (Props.mtGood_seq rfl)
              (start := (header (workerEnv I ts) i).1) (stop := endIndex (workerEnv I ts)) (by omega) (endIndex_lt (tokens_pos ht))
            rw [h1]
            exact .inModule hf hj hnone hle ss h1 h4 [] rfl
      · cases hs
    | main =>
      rcases decide_next hn ht hf with ⟨i, v, e, h, _⟩ | ⟨j, _, _, _, _, hto⟩
      · simp only [step, h _ (Extends.refl _), Option.some.injEq] at hs
        subst hs
        exact .returned (result_of_end hn ht hf h)
      · simp only [step, hto] at hs
        cases hs
  | @inModule ans i c hf hi hnew hlt ss hss hch ops hr =>
    have hinv := Collect.run_inv _ _ _ (Collect.inv_init (capacities I.np) ss) hr
    cases o with
    | chan o => cases hs
    | call i => cases hs
    | coll o =>
      obtain ⟨c', h1, rfl⟩ := Option.map_eq_some_iff.1 hs
      refine .inModule hf hi hnew hlt ss hss hch (ops ++ [o]) ?_
      have key : ∀ (ops : List Collect.Op) (a : Collect.State Val), Collect.run a ops = some c → Collect.run a (ops ++ [o]) = some c' := by
        intro ops
        induction ops with
        | nil => intro a h; cases h; simp [Collect.run, h1]
        | cons p ops ih =>
          intro a h
          simp only [Collect.run, Option.bind_eq_some_iff] at h
          obtain ⟨b, hb, h⟩ := h
          simp only [List.cons_append, Collect.run, hb, Option.bind_some]
          exact ih b h
      exact key ops _ hr
    | main =>
      simp only [step, hinv.crash, Bool.false_eq_true, if_false] at hs
      split at hs
      · next hfin =>
        cases hs
        refine .parsing (fair_cons hf ⟨ops, ?_, by simp [endModule]⟩)
        unfold mtModule
        dsimp only
        rw [if_neg hlt, hss]
        dsimp only
        rw [hr]
        simp only [hinv.crash, hfin, Bool.false_eq_true, if_false, if_true]
        rfl
      · cases hs
  | returned h => cases o <;> cases hs

theorem run_inv {I : Input} (hn : 0 < I.np) {ts : List Str} (ht : Tokens I ts) {s s' : State} {os : List Op} (hi : Inv I ts s)
    (hr : run I s os = some s') : Inv I ts s' := by
  induction os generalizing s with
  | nil => cases hr; exact hi
  | cons o os ih =>
    obtain ⟨s1, h1, h2⟩ := Option.bind_eq_some_iff.1 hr
    exact ih (step_inv hn ht hi h1) h2

/-! ### No deadlock, termination -/

/-- As long as the parser has not returned some goroutine can make a step. -/
theorem progress {I : Input} (hn : 0 < I.np) {ts : List Str} (ht : Tokens I ts) {s : State} (hi : Inv I ts s) :
    (∃ o s', step I s o = some s') ∨ ∃ r, s = .returned r := by
  cases hi with
  | @tokenizing p tss hts h =>
    left
    by_cases hf : p.pos = p.ws.length
    · exact ⟨.main, _, if_pos hf⟩
    · obtain ⟨o, p', ho⟩ := Pipeline.progress h hf
      exact ⟨.chan o, .tokenizing p', by simp [step, ho]⟩
  | @parsing ans hf =>
    left
    rcases decide_next hn ht hf with ⟨i, v, e, h, _⟩ | ⟨j, _, _, _, hiff, _⟩
    · exact ⟨.main, .returned (.ok i v e), by simp only [step, h _ (Extends.refl _)]⟩
    · exact ⟨.call j, _, by simp only [step, (hiff j).2 rfl, if_true]; rfl⟩
  | @inModule ans i c hf hi hnew hlt ss hss hch ops hr =>
    left
    have hinv := Collect.run_inv _ _ _ (Collect.inv_init (capacities I.np) ss) hr
    cases hfin : c.finished with
    | true => exact ⟨.main, _, by simp only [step, hinv.crash, hfin, Bool.false_eq_true, if_false, if_true]; rfl⟩
    | false =>
      obtain ⟨o, c', ho⟩ := Collect.progress hinv (capacities_pos hn) hch hfin
      exact ⟨.coll o, .inModule ts ans i c', by simp [step, ho]⟩
  | @returned i v e h => exact Or.inr ⟨_, rfl⟩

/-- The calls of the module parser that are still possible. -/
def openCalls (ts : List Str) (ans : List (Nat × PRes)) : Nat := (List.range ts.length).countP fun j => (ans.lookup j).isNone

theorem openCalls_cons {ts : List Str} {ans : List (Nat × PRes)} {i : Nat} (hi : i < ts.length) (hn : ans.lookup i = none) (r : PRes) :
    openCalls ts ((i, r) :: ans) < openCalls ts ans := by
  unfold openCalls
  have key : ∀ l : List Nat, (l.countP fun j => (List.lookup j ((i, r) :: ans)).isNone) ≤ l.countP (fun j => (ans.lookup j).isNone) ∧
      (i ∈ l → (l.countP fun j => (List.lookup j ((i, r) :: ans)).isNone) < l.countP (fun j => (ans.lookup j).isNone)) := by
    intro l
    induction l with
    | nil => simp
    | cons a l ih =>
      obtain ⟨h1, h2⟩ := ih
      simp only [List.countP_cons]
      by_cases ha : a = i
      · subst ha
        simp only [List.lookup_cons, beq_self_eq_true, hn, Option.isNone_some, Option.isNone_none, Bool.false_eq_true, if_false, if_true]
        simp only [List.lookup_cons] at h1
        constructor
        · omega
        · intro _; omega
      · have hb : (a == i) = false := by simpa using ha
        have he : List.lookup a ((i, r) :: ans) = ans.lookup a := by rw [List.lookup_cons, hb]
        rw [he]
        refine ⟨by omega, fun hm => ?_⟩
        have := h2 (by simpa [Ne.symm ha] using hm)
        omega
  exact (key _).2 (List.mem_range.2 hi)

/-- Phase, open calls, inside a call, operations left. -/
def State.rank : State → Nat × Nat × Nat × Nat
  | .tokenizing p => (2, 0, 0, p.work)
  | .parsing ts ans => (1, openCalls ts ans, 0, 0)
  | .inModule ts ans i c => (1, openCalls ts ((i, .panic) :: ans), 1, c.left)
  | .returned _ => (0, 0, 0, 0)
  | .crashed => (0, 0, 0, 0)

/-- The order of ranks. -/
def Less : Nat × Nat × Nat × Nat → Nat × Nat × Nat × Nat → Prop :=
  Prod.Lex (· < ·) (Prod.Lex (· < ·) (Prod.Lex (· < ·) (· < ·)))

theorem less_wf : WellFounded Less :=
  (Prod.lex ⟨_, Nat.lt_wfRel.wf⟩ (Prod.lex ⟨_, Nat.lt_wfRel.wf⟩ (Prod.lex ⟨_, Nat.lt_wfRel.wf⟩ ⟨_, Nat.lt_wfRel.wf⟩))).wf

theorem openCalls_congr (ts : List Str) (ans : List (Nat × PRes)) (i : Nat) (r r' : PRes) :
    openCalls ts ((i, r) :: ans) = openCalls ts ((i, r') :: ans) := by
  unfold openCalls
  congr 1
  funext j
  simp only [List.lookup_cons]
  split <;> rfl

/-- Every step makes the rank smaller. -/
theorem step_less {I : Input} (hn : 0 < I.np) {ts : List Str} (ht : Tokens I ts) {s s' : State} {o : Op} (hi : Inv I ts s)
    (hs : step I s o = some s') : Less s'.rank s.rank := by
  cases hi with
  | @tokenizing p tss hts h =>
    cases o with
    | chan o =>
      obtain ⟨p', h1, rfl⟩ := Option.map_eq_some_iff.1 hs
      exact .right _ (.right _ (.right _ (Pipeline.step_work h1)))
    | main =>
      simp only [step] at hs
      split at hs
      · cases hs; exact .left _ _ (by decide)
      · cases hs
    | call i => cases hs
    | coll o => cases hs
  | @parsing ans hf =>
    cases o with
    | chan o => cases hs
    | coll o => cases hs
    | call i =>
      simp only [step] at hs
      split at hs
      · next ha =>
        cases hs
        rcases decide_next hn ht hf with ⟨_, _, _, _, h⟩ | ⟨j, hj, _, hnone, hiff, _⟩
        · rw [h i] at ha; cases ha
        · obtain rfl := (hiff i).1 ha
          unfold startModule
          dsimp only
          split
          · exact .right _ (.left _ _ (openCalls_cons hj hnone _))
          · split
            · exact .left _ _ (by decide)
            · exact .right _ (.left _ _ (openCalls_cons hj hnone _))
      · cases hs
    | main =>
      simp only [step] at hs
      split at hs
      · cases hs
      · cases hs; exact .left _ _ (by decide)
      · cases hs; exact .left _ _ (by decide)
  | @inModule ans i c hf hi hnew hlt ss hss hch ops hr =>
    have hinv := Collect.run_inv _ _ _ (Collect.inv_init (capacities I.np) ss) hr
    cases o with
    | chan o => cases hs
    | call i => cases hs
    | coll o =>
      obtain ⟨c', h1, rfl⟩ := Option.map_eq_some_iff.1 hs
      exact .right _ (.right _ (.right _ (Collect.step_left hinv h1)))
    | main =>
      simp only [step] at hs
      split at hs
      · cases hs; exact .left _ _ (by decide)
      · split at hs
        · cases hs
          show Less (1, openCalls ts ((i, endModule I ts i c) :: ans), 0, 0) (1, openCalls ts ((i, .panic) :: ans), 1, c.left)
          rw [openCalls_congr ts ans i _ .panic]
          exact .right _ (.right _ (.left _ _ (by decide)))
        · cases hs
  | returned h => cases o <;> cases hs

end Verif.Conc.A2lRun
