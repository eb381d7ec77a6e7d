import Verif.Conc.A2lRunProps
import Verif.A2l.ModExamples

/-!
Property C84, the other direction: every result that the parse functions give under some schedule of the module parser is the
result of a run of the whole program. So the counterexamples to C34 and C36, which are schedules of the module parser, are runs
of `ParseFromFile`.
-/

namespace Verif.Conc.A2lRun
open Verif.Go Verif.A2l Lang Oracle Analysis

theorem run_append {I : Input} {s s' : State} {os os' : List Op} (h : run I s os = some s') :
    run I s (os ++ os') = run I s' os' := by
  induction os generalizing s with
  | nil => cases h; rfl
  | cons o os ih =>
    obtain ⟨s1, h1, h2⟩ := Option.bind_eq_some_iff.1 h
    simp only [List.cons_append, run, h1, Option.bind_some]
    exact ih h2

theorem run_coll {I : Input} {ts : List Str} {ans : List (Nat × PRes)} {i : Nat} {c c' : Collect.State Val} {ops : List Collect.Op}
    (h : Collect.run c ops = some c') : run I (.inModule ts ans i c) (ops.map .coll) = some (.inModule ts ans i c') := by
  induction ops generalizing c with
  | nil => cases h; rfl
  | cons o ops ih =>
    simp only [Collect.run, Option.bind_eq_some_iff] at h
    obtain ⟨c1, h1, h2⟩ := h
    simp only [List.map_cons, run, step, h1, Option.map_some, Option.bind_some]
    exact ih h2

/-- The tokenizer comes to its end. -/
theorem tokenize {I : Input} {ts : List Str} (ht : Tokens I ts) : ∃ os, run I (init I) os = some (.parsing ts []) := by
  obtain ⟨tss, h1, h2⟩ := tokens_pieces ht
  have key : ∀ k, ∀ p : Pipeline.State (List Str), p.work = k → Pipeline.Inv (tss.map fun t => [t]) p →
      ∃ os, run I (.tokenizing p) os = some (.parsing ts []) := by
    intro k
    induction k using Nat.strongRecOn with
    | _ k ih =>
      intro p hk hp
      by_cases hf : p.pos = p.ws.length
      · refine ⟨[.main], ?_⟩
        have hc := hp.content
        rw [hf, List.drop_length] at hc
        have : p.acc.flatten ++ [[]] = ts := by
          rw [h2]
          simp only [List.map_nil, List.flatten_nil, List.append_nil] at hc
          rw [hc]
          simp [← List.flatMap_def]
        simp [run, step, hf, this]
      · obtain ⟨o, p', ho⟩ := Pipeline.progress hp hf
        obtain ⟨os, hos⟩ := ih _ (hk ▸ Pipeline.step_work ho) p' rfl (Pipeline.inv_step hp ho)
        exact ⟨.chan o :: os, by simp [run, step, ho, hos]⟩
  unfold init
  rw [h1]
  exact key _ _ rfl (Pipeline.inv_init _ _)

/-- A call of the module parser that is answered under the schedule `sched`. -/
theorem answer {I : Input} {ts : List Str} {ans : List (Nat × PRes)} {i : Nat} (ha : asks I ts ans i = true) {sched : List Collect.Op}
    {j : Nat} {v : Val} {e : Bool} (h : mtModule (workerEnv I ts) I.np sched i = .ok j v e) :
    ∃ os, run I (.parsing ts ans) os = some (.parsing ts ((i, .ok j v e) :: ans)) := by
  unfold mtModule at h
  dsimp only at h
  split at h
  · next hle =>
    refine ⟨[.call i], ?_⟩
    simp only [run, step, ha, if_true, Option.bind_some, startModule]
    rw [if_pos hle, h]
  · next hle =>
    split at h
    · cases h
    · next ss hss =>
      split at h
      · cases h
      · next c hc =>
        split at h
        · cases h
        · next hcr =>
          split at h
          · next hfin =>
            refine ⟨.call i :: (sched.map .coll ++ [.main]), ?_⟩
            simp only [run, step, ha, if_true, Option.bind_some, startModule]
            rw [if_neg hle, hss]
            dsimp only
            rw [run_append (run_coll hc)]
            simp only [run, step, if_neg hcr, if_pos hfin, Option.bind_some]
            rw [← h]
            rfl
          · cases h

/-- With several modules the module parser is not called. -/
theorem answers_unused {I : Input} {ts : List Str} (ht : Tokens I ts) (hm : multi ts = false) (g : Nat → PRes) :
    parse (mainEnv I ts g) .parseA2l 0 = parse (workerEnv I ts) .parseA2l 0 := by
  have hw : workerEnv I ts = mainEnv I ts fun _ => .panic := by unfold mainEnv workerEnv; rw [hm]
  rw [hw]
  have hall : ∀ g : Nat → PRes, Extends g fun _ => PRes.timeout := fun g j hj => absurd rfl hj
  cases parse_tri (mainEnv I ts fun _ => .timeout) (fun _ => .timeout) .parseA2l 0 with
  | ends r h => exact (h g (hall g)).trans (h _ (hall _)).symm
  | calls j hj h =>
    have := (h (fun _ => .panic) (hall _)).1 rfl
    obtain ⟨i, v, e, he⟩ := parse_good (I := I) ht (g := fun _ => .panic) fun h' => by rw [hm] at h'; cases h'
    rw [show parse (mainEnv I ts fun _ => .panic) .parseA2l 0 = .panic from this] at he
    cases he

/-- C84: every result that the parse functions give under some schedule of the module parser is returned by a run. -/
theorem C84_every_result {I : Input} (hn : 0 < I.np) {ts : List Str} (ht : tokensOfFile I.graphic I.np I.text = some ts) {r : PRes}
    (hr : Result I ts r) : ∃ os, run I (init I) os = some (.returned r) := by
  obtain ⟨sched, hs, hr⟩ := hr
  have key : ∀ k, ∀ ans : List (Nat × PRes), openCalls ts ans = k → Fair I ts ans →
      Extends (fun i => mtModule (workerEnv I ts) I.np (sched i) i) (answers ans) →
      ∃ os, run I (.parsing ts ans) os = some (.returned r) := by
    intro k
    induction k using Nat.strongRecOn with
    | _ k ih =>
      intro ans hk hf hx
      rcases decide_next hn ht hf with ⟨i, v, e, h, _⟩ | ⟨j, hj, hm, hnone, hiff, _⟩
      · refine ⟨[.main], ?_⟩
        have hre : r = .ok i v e := by
          rw [hr, ← h _ hx]
          cases hm : multi ts with
          | true => rw [if_pos rfl]; unfold mainEnv; rw [hm]; rfl
          | false =>
            rw [if_neg (by decide)]
            exact (answers_unused ht hm _).symm
        simp only [run, step, h _ (Extends.refl _), Option.bind_some, hre]
      · obtain ⟨j', o, e, h1, _⟩ := (Props.C35_returns (E := workerEnv I ts) (tokens_wf ht _ _ _) rfl hn hj).2 (sched j) (hs j hj)
        obtain ⟨os, hos⟩ := answer ((hiff j).2 rfl) h1
        obtain ⟨os', hos'⟩ := ih _ (hk ▸ openCalls_cons hj hnone (.ok j' (.obj o) e)) _ rfl (fair_cons hf ⟨sched j, h1, by simp⟩) (by
          intro i hi
          unfold answers at hi ⊢
          rw [List.lookup_cons] at hi ⊢
          split
          · next heq => rw [eq_of_beq heq]; exact h1
          · next heq => simp only [heq] at hi; exact hx i hi)
        exact ⟨os ++ os', (run_append hos).trans hos'⟩
  obtain ⟨os, hos⟩ := tokenize ht
  obtain ⟨os', hos'⟩ := key _ [] rfl (fun i r h => by simp at h) (fun i hi => absurd rfl hi)
  exact ⟨os ++ os', (run_append hos).trans hos'⟩

/-- C84: the results of the runs are exactly the results of the parse functions under the schedules of the module parser. -/
theorem C84_results {I : Input} (hn : 0 < I.np) {ts : List Str} (ht : tokensOfFile I.graphic I.np I.text = some ts) (r : PRes) :
    (∃ os, run I (init I) os = some (.returned r)) ↔ Result I ts r := by
  refine ⟨fun ⟨os, h⟩ => ?_, C84_every_result hn ht⟩
  obtain ⟨_, ts', ht', hr⟩ := (C84_safe hn h).2 r rfl
  cases ht.symm.trans ht'
  exact hr

/-! ### Runs that give different results -/

/-- A file that defines the unit `m` twice; with two workers the cut falls between the definitions. -/
def twice : Input := ⟨2, fun _ => true, fun _ => true,
  "/begin PROJECT P \"p\"\n/begin MODULE M \"d\" /begin UNIT m \"one\" /end UNIT\n/begin UNIT m \"two\" /end UNIT /end MODULE\n/end PROJECT".toList⟩

/-- A run in which the workers of the module parser send in the given order. -/
def orderRun (sends recvs : List Nat) : List Op :=
  [.chan (.send 1), .chan (.send 0), .chan (.close 0), .chan (.close 1), .chan .recv, .chan .advance, .chan .recv, .chan .advance, .main, .call 3] ++
  (Props.simpleSched 2 sends recvs).map .coll ++ [.main, .main]

/-- The description of the unit `m` in the first module of the file, if the file has been read without an error. -/
def unitOf : State → Option Str
  | .returned (.ok _ (.obj o) false) =>
    match o "Project" with
    | .obj p => match p "Modules" with
      | .list (.obj m :: _) => (Obj.map m "Units" (str! "m")).map (·.strField "longIdentifier")
      | _ => none
    | _ => none
  | _ => none

/-- C84: the same file is read without an error to two different contents, depending on which worker is faster. -/
theorem C84_two_results : ∃ (I : Input) (os os' : List Op) (s s' : State), 0 < I.np ∧ run I (init I) os = some s ∧ run I (init I) os' = some s' ∧
    unitOf s = some (str! "\"one\"") ∧ unitOf s' = some (str! "\"two\"") := by
  have h1 : ((run twice (init twice) (orderRun [1, 0] [24, 24])).map unitOf) = some (some (str! "\"one\"")) := by decide +kernel
  have h2 : ((run twice (init twice) (orderRun [0, 1] [24, 24])).map unitOf) = some (some (str! "\"two\"")) := by decide +kernel
  obtain ⟨s, hs, h1⟩ := Option.map_eq_some_iff.1 h1
  obtain ⟨s', hs', h2⟩ := Option.map_eq_some_iff.1 h2
  exact ⟨twice, _, _, s, s', by decide, hs, hs', h1, h2⟩

-- a result as in `C84_every_result`
example : ∃ ts r, tokensOfFile twice.graphic twice.np twice.text = some ts ∧ Result twice ts r := by
  obtain ⟨ts, ht⟩ := tokens_exist twice
  obtain ⟨os, r, h⟩ := C84_completes (I := twice) (by decide) (os := []) (s := init twice) rfl
  exact ⟨ts, r, ht, (C84_results (by decide) ht r).1 ⟨os, h⟩⟩

end Verif.Conc.A2lRun
