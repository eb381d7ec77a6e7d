import Verif.Conc.A2lRun
import Verif.A2l.LayoutOne

/-!
Property C84: `ParseFromFile` of the A2L parser with all interleavings of its goroutines.
-/

namespace Verif.Conc.A2lRun
open Verif.Go Verif.A2l Lang Write Decl

/-! ### Specification -/

/-- The text consists of the objects `ns`: laid out in any way, with several modules, or with one module and no harmful cut
between the workers. -/
inductive Written (I : Input) : List Node → Prop
  | several {ns : List Node} (ha : ∀ n ∈ ns, Allowed fileParts n) (hp : ∀ n ∈ ns, Whole (Props.writtenEnv I.floatOk ns) n)
      (hne : [] ∉ written ns) (htext : Spec.LaidOut I.graphic I.np I.text (written ns))
      (h2 : 2 ≤ (written ns).count (str! "/begin MODULE")) (h32 : (written ns).count (str! "/begin MODULE") < 2 ^ 32) : Written I ns
  | one {ns top heads parts : List Node} {pn pt mn mt : Str} {i : Nat}
      (hns : ns = top ++ [project pn pt (heads ++ [aModule mn mt parts])]) (hi : i = (written top).length + 3 + (written heads).length)
      (hat : ∀ n ∈ top, Allowed fileParts n) (hpt : ∀ n ∈ top, Whole (Props.writtenEnv I.floatOk ns) n)
      (hpn : pn ≠ [] ∧ pn ∉ keywords) (hptx : pt ≠ [] ∧ pt ∉ keywords)
      (hah : ∀ n ∈ heads, Allowed projectParts n) (hph : ∀ n ∈ heads, Whole (Props.writtenEnv I.floatOk ns) n)
      (hpm : Whole (Props.writtenEnv I.floatOk ns) (aModule mn mt parts))
      (hne : [] ∉ written ns) (htext : Spec.LaidOut I.graphic I.np I.text (written ns))
      (h1 : (written ns).count (str! "/begin MODULE") ≤ 1) (h1' : (written ns).count (str! "/end MODULE") ≤ 1)
      (hcuts : ModSpec.SafeCuts (Props.writtenEnv I.floatOk ns) (i + 2) (i + 3 + (written parts).length) I.np (placed (i + 3) parts))
      (hcons : ModSpec.Consistent (placed (i + 3) parts)) : Written I ns

/-! ### C84 -/

/-- C84: whatever the text, the number of workers and the interleaving of all goroutines: nothing panics, and if the parser has
returned, the result is one that the parse functions give for the tokens of the text, with a schedule of the module parser
under which all its goroutines come to their end. -/
theorem C84_safe {I : Input} (hn : 0 < I.np) {os : List Op} {s : State} (h : run I (init I) os = some s) :
    s ≠ .crashed ∧ ∀ r, s = .returned r → (∃ i v e, r = .ok i v e) ∧ ∃ ts, tokensOfFile I.graphic I.np I.text = some ts ∧ Result I ts r := by
  obtain ⟨ts, ht⟩ := tokens_exist I
  have hi := run_inv hn ht (init_inv ht) h
  refine ⟨?_, ?_⟩
  · rintro rfl
    cases hi
  rintro r rfl
  cases hi with
  | returned hr => exact ⟨⟨_, _, _, rfl⟩, ts, ht, hr⟩

/-- C84: there is no deadlock. A run that cannot be continued has returned. -/
theorem C84_returns {I : Input} (hn : 0 < I.np) {os : List Op} {s : State} (h : run I (init I) os = some s)
    (hst : ∀ o, step I s o = none) : ∃ r, s = .returned r := by
  obtain ⟨ts, ht⟩ := tokens_exist I
  rcases progress hn ht (run_inv hn ht (init_inv ht) h) with ⟨o, s', ho⟩ | h
  · rw [hst o] at ho; cases ho
  · exact h

theorem no_infinite {I : Input} (hn : 0 < I.np) {ts : List Str} (ht : Tokens I ts) (f : Nat → State) (h0 : Inv I ts (f 0))
    (hf : ∀ i, ∃ o, step I (f i) o = some (f (i + 1))) : False := by
  have hinv : ∀ i, Inv I ts (f i) := by
    intro i
    induction i with
    | zero => exact h0
    | succ i ih => obtain ⟨o, ho⟩ := hf i; exact step_inv hn ht ih ho
  have key : ∀ k, ∀ i, (f i).rank = k → False := by
    intro k
    induction k using less_wf.induction with
    | _ k ih =>
      intro i hi
      obtain ⟨o, ho⟩ := hf i
      exact ih _ (hi ▸ step_less hn ht (hinv i) ho) (i + 1) rfl
  exact key _ 0 rfl

/-- C84: no run goes on for ever, whatever the scheduler does. -/
theorem C84_terminates {I : Input} (hn : 0 < I.np) : ¬ ∃ f : Nat → State, f 0 = init I ∧ ∀ i, ∃ o, step I (f i) o = some (f (i + 1)) := by
  rintro ⟨f, h0, hf⟩
  obtain ⟨ts, ht⟩ := tokens_exist I
  exact no_infinite hn ht f (h0 ▸ init_inv ht) hf

theorem exists_maximal {I : Input} (hn : 0 < I.np) {ts : List Str} (ht : Tokens I ts) {s : State} (hi : Inv I ts s) :
    ∃ os s', run I s os = some s' ∧ ∀ o, step I s' o = none := by
  have key : ∀ k, ∀ s : State, Inv I ts s → s.rank = k → ∃ os s', run I s os = some s' ∧ ∀ o, step I s' o = none := by
    intro k
    induction k using less_wf.induction with
    | _ k ih =>
      intro s hi hk
      by_cases hst : ∀ o, step I s o = none
      · exact ⟨[], s, rfl, hst⟩
      · simp only [Classical.not_forall] at hst
        obtain ⟨o, ho⟩ := hst
        obtain ⟨s1, ho⟩ := Option.ne_none_iff_exists'.1 ho
        obtain ⟨os, s', h1, h2⟩ := ih _ (hk ▸ step_less hn ht hi ho) s1 (step_inv hn ht hi ho) rfl
        exact ⟨o :: os, s', by simp [run, ho, h1], h2⟩
  exact key _ s hi rfl

/-- C84: every partial run can be completed. -/
theorem C84_completes {I : Input} (hn : 0 < I.np) {os : List Op} {s : State} (h : run I (init I) os = some s) :
    ∃ os' r, run I s os' = some (.returned r) := by
  obtain ⟨ts, ht⟩ := tokens_exist I
  have hi := run_inv hn ht (init_inv ht) h
  obtain ⟨os', s', h1, h2⟩ := exists_maximal hn ht hi
  rcases progress hn ht (run_inv hn ht hi h1) with ⟨o, s'', ho⟩ | ⟨r, rfl⟩
  · rw [h2 o] at ho; cases ho
  · exact ⟨os', r, h1⟩

/-- C84: no goroutine is left behind. When the main goroutine goes on from the tokenizer, all goroutines of the tokenizer have
closed their channels, and there is nothing in the channels; when it goes on from the module parser, all workers have returned
and all channels are closed, empty, and their collectors have returned. -/
theorem C84_no_leak {I : Input} (hn : 0 < I.np) {os : List Op} {s s' : State} (h : run I (init I) os = some s) (hs : step I s .main = some s') :
    (∀ p, s = .tokenizing p → ∀ w ∈ p.ws, w.todo = [] ∧ w.closed = true ∧ w.buf = []) ∧
    (∀ ts ans i c, s = .inModule ts ans i c → (∀ w ∈ c.ws, w.done = true ∧ w.todo = []) ∧
      ∀ k ∈ c.chans, k.closed = true ∧ k.buf = [] ∧ k.fin = true) := by
  obtain ⟨ts, ht⟩ := tokens_exist I
  have hi := run_inv hn ht (init_inv ht) h
  constructor
  · rintro p rfl w hw
    cases hi with
    | tokenizing tss hts hp =>
      simp only [step] at hs
      split at hs
      · next hpos =>
        obtain ⟨i, hi, rfl⟩ := List.getElem_of_mem hw
        obtain ⟨h1, h2⟩ := hp.past i _ (by omega) (List.getElem?_eq_getElem hi)
        exact ⟨hp.closed _ hw h1, h1, h2⟩
      · cases hs
  · rintro ts' ans i c rfl
    cases hi with
    | inModule hf hi hnew hlt ss hss hch ops hr =>
      have hinv := Collect.run_inv _ _ _ (Collect.inv_init (capacities I.np) ss) hr
      simp only [step, hinv.crash, Bool.false_eq_true, if_false] at hs
      split at hs
      · next hfin =>
        have hfin' : ∀ k ∈ c.chans, k.fin = true := List.all_eq_true.1 hfin
        have hcl : 0 < c.closing := by
          have hl : 0 < c.chans.length := by rw [hinv.clen]; simp [capacities, channels]
          obtain ⟨k, hk⟩ : ∃ k, c.chans[0]? = some k := ⟨_, List.getElem?_eq_getElem hl⟩
          exact (hinv.closed 0 k hk).1 (hinv.fin k (List.mem_of_getElem? hk) (hfin' k (List.mem_of_getElem? hk))).1
        refine ⟨fun w hw => ?_, fun k hk => ?_⟩
        · have hd := List.all_eq_true.1 (hinv.closing hcl) w hw
          exact ⟨hd, hinv.done w hw hd⟩
        · obtain ⟨h1, h2⟩ := hinv.fin k hk (hfin' k hk)
          exact ⟨h1, h2, hfin' k hk⟩
      · cases hs

/-- The call as a call of the sequential model, with the given schedule of the module parser. -/
def setup (I : Input) (sched : Nat → List Collect.Op) : Shared.Setup := ⟨I.np, I.graphic, I.floatOk, fun _ => I.text, fun _ => sched⟩

theorem result_calls {I : Input} {ts : List Str} (ht : Tokens I ts) (h32 : moduleCount ts < 2 ^ 32) {r : PRes} (h : Result I ts r) :
    ∃ sched : Nat → List Collect.Op, (∀ i < ts.length, mtModule (workerEnv I ts) I.np (sched i) i ≠ .timeout) ∧
      (Shared.calls (setup I sched) Shared.init ([] ++ List.replicate (I.np + 3) 0 ++ [])).result 0 = some r := by
  obtain ⟨sched, h1, h2⟩ := h
  refine ⟨sched, h1, ?_⟩
  obtain ⟨r', hr', ts', ht', he⟩ := Props.C37_partial (setup I sched) 0 [] [] (by simp) fun ts' ht' => by
    cases ht.symm.trans ht'; exact h32
  cases ht.symm.trans ht'
  have hm : multi ts = useMultithreading ts := by
    unfold multi useMultithreading
    rw [show ts.count beginModule % 2 ^ 32 = moduleCount ts from Nat.mod_eq_of_lt h32]
  rw [h2, hm]
  rw [he] at hr'
  exact hr'

/-- The results for a file that consists of the objects `ns`. -/
theorem written_result {I : Input} (hn : 0 < I.np) (hfl : I.floatOk [] = false) {ns : List Node} (hw : Written I ns)
    {ts : List Str} (ht : Tokens I ts) {r : PRes} (hr : Result I ts r) : r = .ok (written ns).length (.obj (fileStruct ns)) false := by
  cases hw with
  | several ha hp hne htext h2 h32 =>
    cases ht.symm.trans (Props.C80_tokens I.graphic htext)
    obtain ⟨sched, h1, h2'⟩ := result_calls ht (by unfold moduleCount; rw [show beginModule = str! "/begin MODULE" from rfl, Props.count_end]; exact h32) hr
    exact Option.some.inj (h2'.symm.trans (Props.C80_file_partial (setup I sched) hfl hn 0 [] [] (by simp) ns ha hp hne htext h2 h32))
  | one hns hi hat hpt hpn hptx hah hph hpm hne htext h1 h1' hcuts hcons =>
    cases ht.symm.trans (Props.C80_tokens I.graphic htext)
    obtain ⟨sched, h1s, h2'⟩ := result_calls ht (by unfold moduleCount; rw [show beginModule = str! "/begin MODULE" from rfl, Props.count_end]; omega) hr
    exact Option.some.inj (h2'.symm.trans (Props.C80_one_module_partial (setup I sched) hfl hn 0 [] [] (by simp) _ _ _ _ _ _ _ hns hi hat hpt hpn
      hptx hah hph hpm hne htext h1 h1' hcuts hcons (fun i hi => h1s i (by simpa using hi))))

/-- A file that consists of the objects `ns` is read to the values of these objects, under every interleaving, without an
error. -/
theorem written_read {I : Input} (hn : 0 < I.np) (hfl : I.floatOk [] = false) {ns : List Node} (hw : Written I ns)
    {os : List Op} {r : PRes} (h : run I (init I) os = some (.returned r)) : r = .ok (written ns).length (.obj (fileStruct ns)) false := by
  obtain ⟨_, ts, ht, hr⟩ := (C84_safe hn h).2 r rfl
  exact written_result hn hfl hw ht hr

/-- A file with one module, cut inside the measurement when two workers share it. -/
def oneModule : Input := ⟨2, fun _ => true, Props.natB, unlines (written Props.singleFile)⟩

theorem oneModule_written : Written oneModule Props.singleFile := by
  have hwr : ∀ t ∈ written Props.singleFile, Writable t := by
    have : (written Props.singleFile).all Props.writableB = true := by decide +kernel
    exact fun t ht => Props.writableB_spec (List.all_eq_true.1 this t ht)
  exact .one (top := []) (heads := []) (i := 3) rfl rfl (fun _ h => nomatch h) (fun _ h => nomatch h) (by decide) (by decide)
    (fun _ h => nomatch h) (fun _ h => nomatch h) Props.single_whole (by decide +kernel)
    (Props.laidOut_lines (graphic := fun _ => true) (n := 2) (by decide) (by decide) hwr (clean_of (by decide +kernel))) (by decide +kernel) (by decide +kernel)
    Props.single_cuts Props.single_consistent

-- there are complete runs, and all return the values of the file
example : (∃ os r, run oneModule (init oneModule) os = some (.returned r)) ∧
    ∀ os r, run oneModule (init oneModule) os = some (.returned r) → r = .ok 35 (.obj (fileStruct Props.singleFile)) false := by
  obtain ⟨os, r, h⟩ := C84_completes (I := oneModule) (by decide) (os := []) (s := init oneModule) rfl
  refine ⟨⟨os, r, h⟩, fun os r h => ?_⟩
  have := written_read (by decide) (by decide) oneModule_written h
  rwa [show (written Props.singleFile).length = 35 by decide +kernel] at this

/-- A module with one group, read by two workers. -/
def small : Input := ⟨2, fun _ => true, fun _ => true,
  "/begin PROJECT P \"p\"\n/begin MODULE M \"m\" /begin GROUP G \"g\" /end GROUP\n/end MODULE\n/end PROJECT".toList⟩

/-- The operations of the tokenizer, the main goroutine, the module parser. -/
def smallRun : List Op :=
  [.chan (.send 1), .chan (.send 0), .chan (.close 0), .chan (.close 1), .chan .recv, .chan .advance, .chan .recv, .chan .advance, .main, .call 3,
   .coll (.exit 1), .coll (.send 0), .coll (.exit 0)] ++ ((List.range 27).map fun _ => .coll .close) ++ [.coll (.recv 11)] ++
  ((List.range 27).map fun k => .coll (.fin k)) ++ [.main, .main]

-- the call of the module parser is at the token MODULE and at no other
example : ((run small (init small) (smallRun.take 9)).any fun
    | .parsing ts ans => (List.range 13).all fun i => asks small ts ans i == (i == 3)
    | _ => false) = true := by decide +kernel

-- the run returns without an error, at the last token
example : ((run small (init small) smallRun).any fun
    | .returned (.ok i _ e) => i == 12 && !e
    | _ => false) = true := by decide +kernel

end Verif.Conc.A2lRun
