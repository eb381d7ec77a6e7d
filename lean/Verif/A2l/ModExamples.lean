import Verif.A2l.ModProps2

/-!
Files on which C34 and C36 fail, and examples for C28, C34, C35 and C36.
-/

namespace Verif.A2l.Props
open Verif.Go Lang Verif.Conc Analysis ModSpec

/-- A schedule: the given workers send in the given order, all workers return, all channels
are closed, the given collectors receive in the given order, all collectors return. -/
def simpleSched (np : Nat) (sends recvs : List Nat) : List Collect.Op :=
  sends.map .send ++ (List.range np).map .exit ++ List.replicate 27 .close ++ recvs.map .recv ++
    (List.range 27).map .fin

/-- The tokens `ts` followed by the end of the file. -/
def fileEnv (ts : List Str) : Env := ⟨ts ++ [[]], fun _ => true, false, fun _ => .panic⟩

theorem fileEnv_wf {ts : List Str} (h : [] ∉ ts) : Wf (fileEnv ts) := ⟨ts, rfl, h⟩

/-- The result is a module up to position `j`, without error. -/
def accepted (r : PRes) (j : Nat) : Bool :=
  match r with
  | .ok i (.obj _) false => i = j
  | _ => false

/-- The description of the unit of the given name in a module. -/
def unitText (r : PRes) (name : Str) : Option Str :=
  match r with
  | .ok _ (.obj o) _ => (Obj.map o "Units" name).map (·.strField "longIdentifier")
  | _ => none

/-- Is there an IF_DATA block of the given name in a module? -/
def hasIfData (r : PRes) (name : Str) : Bool :=
  match r with
  | .ok _ (.obj o) _ => (Obj.map o "ifData" name).isSome
  | _ => false

theorem accepted_ok {r : PRes} {j : Nat} (h : accepted r j = true) : ∃ o, r = .ok j (.obj o) false := by
  unfold accepted at h
  split at h
  · rename_i i o; simp only [decide_eq_true_eq] at h; subst h; exact ⟨o, rfl⟩
  · cases h

theorem accepted_returns {E : Env} {i j : Nat} (h : accepted (parse E .parseModule i) j = true) :
    ∃ o, parse E .parseModule i = .ok j (.obj o) false ∧ Returns E .parseModule i (.ok j (.obj o) false) := by
  obtain ⟨o, ho⟩ := accepted_ok h
  exact ⟨o, ho, returns_of_run ho (by simp)⟩

theorem opensDec {t : Str} (h : kinds.all (fun K => decide (K.tok ≠ t)) = true) : ¬ Opens t := by
  rintro ⟨K, hK, ht⟩
  have := List.all_eq_true.1 h K hK
  simp [ht] at this

/-- Decidable form of `OneModule`. -/
def oneModuleB (E : Env) (i j : Nat) : Bool :=
  kinds.all (fun K => decide (K.tok ≠ E.current (i + 1) ∧ K.tok ≠ E.current (i + 2))) &&
  decide (E.current (i + 1) ≠ (str! "/end MODULE") ∧ E.current (i + 2) ≠ (str! "/end MODULE") ∧
    E.toks[j]? = some (str! "/end MODULE")) &&
  (List.range E.toks.length).all (fun y => decide (E.toks[y]? = some (str! "/end MODULE") → y = j))

theorem oneModule_of {E : Env} {i j : Nat} (h : oneModuleB E i j = true) : OneModule E i j := by
  unfold oneModuleB at h
  simp only [Bool.and_eq_true, List.all_eq_true, decide_eq_true_eq, List.mem_range] at h
  obtain ⟨⟨h1, h2, h3, h4⟩, h5⟩ := h
  have hcur : ∀ k t, E.toks[k]? = some t → E.current k = t := fun k t ht => by
    unfold Env.current; rw [ht]; rfl
  refine { name := fun t ht => ⟨?_, ?_⟩, text := fun t ht => ⟨?_, ?_⟩, stop := h4, only := ?_ }
  · rintro ⟨K, hK, he⟩; exact (h1 K hK).1 (by rw [hcur _ _ ht, he])
  · rw [← hcur _ _ ht]; exact h2
  · rintro ⟨K, hK, he⟩; exact (h1 K hK).2 (by rw [hcur _ _ ht, he])
  · rw [← hcur _ _ ht]; exact h3
  · intro y hy
    exact h5 y (List.getElem?_eq_some_iff.1 hy).1 hy

/-! ### C34 is false -/

/-- A module with two units; with two workers the cut falls on the second `/begin UNIT`. -/
def lostFile : Env := fileEnv [(str! "/begin MODULE"), (str! "M"), (str! "\"d\""),
  (str! "/begin UNIT"), (str! "a"), (str! "\"x\""), (str! "/end UNIT"),
  (str! "/begin UNIT"), (str! "b"), (str! "\"y\""), (str! "\"z\""), (str! "/end UNIT"), (str! "/end MODULE")]

/-- C34 is false: with two workers the second unit is lost. -/
theorem C34_false : ¬ C34_full := by
  intro h
  obtain ⟨o, ho, hr⟩ := accepted_returns (E := lostFile) (i := 0) (j := 12) (by decide +kernel)
  -- the parser stores every text of a unit as its description, so the last one remains
  have h1 : unitText (parse lostFile .parseModule 0) (str! "b") = some (str! "\"z\"") := by decide +kernel
  have h2 : unitText (mtModule lostFile 2 (simpleSched 2 [0] [24]) 0) (str! "b") = none := by decide +kernel
  have h4 : accepted (mtModule lostFile 2 (simpleSched 2 [0] [24]) 0) 12 = true := by decide +kernel
  have h3 := h lostFile (fileEnv_wf (by decide)) rfl 0 12 o (by decide) (oneModule_of (by decide +kernel)) hr 2 (by decide)
    (simpleSched 2 [0] [24]) (by obtain ⟨o', h5⟩ := accepted_ok h4; rw [h5]; simp)
  rw [h3, ← ho, h1] at h2
  cases h2

/-- A module with a measurement that has an IF_DATA block of its own; with two workers the
cut falls inside the measurement, before that block. -/
def nestedFile : Env := fileEnv [(str! "/begin MODULE"), (str! "M"), (str! "\"d\""),
  (str! "/begin MEASUREMENT"), (str! "n"), (str! "\"l\""), (str! "UBYTE"), (str! "NO_COMPU_METHOD"), (str! "0"),
  (str! "0"), (str! "0"), (str! "255"), (str! "/begin IF_DATA"), (str! "XCP"), (str! "y"), (str! "/end IF_DATA"),
  (str! "/end MEASUREMENT"), (str! "/end MODULE")]

/-- C34 is false in another way: an inner block appears as an object of the module, which it
is not for the sequential parser. -/
theorem C34_false_nested : ∃ o : Obj, Returns nestedFile .parseModule 0 (.ok 17 (.obj o) false) ∧
    o.map "ifData" (str! "XCP") = none ∧
    ∃ (sched : List Collect.Op) (o' : Obj), mtModule nestedFile 2 sched 0 = .ok 17 (.obj o') false ∧
      (o'.map "ifData" (str! "XCP")).isSome = true := by
  obtain ⟨o, ho, hr⟩ := accepted_returns (E := nestedFile) (i := 0) (j := 17) (by decide +kernel)
  have h1 : hasIfData (parse nestedFile .parseModule 0) (str! "XCP") = false := by decide +kernel
  have h2 : hasIfData (mtModule nestedFile 2 (simpleSched 2 [0, 1] [12, 14]) 0) (str! "XCP") = true := by decide +kernel
  have h3 : accepted (mtModule nestedFile 2 (simpleSched 2 [0, 1] [12, 14]) 0) 17 = true := by decide +kernel
  obtain ⟨o', ho'⟩ := accepted_ok h3
  rw [ho] at h1
  rw [ho'] at h2
  refine ⟨o, hr, ?_, _, o', ho', h2⟩
  unfold hasIfData at h1
  simpa using h1

/-- A module with a misplaced keyword. -/
def strayFile : Env := fileEnv [(str! "/begin MODULE"), (str! "M"), (str! "\"d\""),
  (str! "/begin UNIT"), (str! "a"), (str! "\"x\""), (str! "/end UNIT"), (str! "/end GROUP"), (str! "/end MODULE")]

/-- The parallel parser does not report errors the sequential parser reports. -/
theorem C34_false_error : (∃ j o, Returns strayFile .parseModule 0 (.ok j (.obj o) true)) ∧
    ∃ sched j o, mtModule strayFile 2 sched 0 = .ok j (.obj o) false := by
  constructor
  · have h : (match parse strayFile .parseModule 0 with | .ok _ (.obj _) e => e | _ => false) = true := by decide +kernel
    split at h
    · rename_i j o e hp; subst h; exact ⟨j, o, returns_of_run hp (by simp)⟩
    · cases h
  · obtain ⟨o, ho⟩ := accepted_ok (r := mtModule strayFile 2 (simpleSched 2 [0] [24]) 0) (j := 8) (by decide +kernel)
    exact ⟨_, _, _, ho⟩

/-! ### C36 is false -/

/-- A module that defines the unit `m` twice; with two workers the cut falls between the
definitions. -/
def twiceFile : Env := fileEnv [(str! "/begin MODULE"), (str! "M"), (str! "\"d\""),
  (str! "/begin UNIT"), (str! "m"), (str! "\"one\""), (str! "/end UNIT"),
  (str! "/begin UNIT"), (str! "m"), (str! "\"two\""), (str! "/end UNIT"), (str! "/end MODULE")]

/-- The unit parsed at `p` ends at `e` and has name `m` and the given description. -/
def unitAt (E : Env) (p e : Nat) (name text : Str) : Bool :=
  match parse E .parseUnit p with
  | .ok i v false => i = e && v.strField "name" = name && v.strField "longIdentifier" = text
  | _ => false

theorem unitAt_ok {E : Env} {p e : Nat} {name text : Str} (h : unitAt E p e name text = true) :
    ∃ v, Returns E .parseUnit p (.ok e v false) ∧ v.strField "name" = name ∧ v.strField "longIdentifier" = text := by
  unfold unitAt at h
  split at h
  · rename_i i v hp
    simp only [Bool.and_eq_true, decide_eq_true_eq] at h
    obtain ⟨⟨rfl, h1⟩, h2⟩ := h
    exact ⟨v, returns_of_run hp (by simp), h1, h2⟩
  · cases h

/-- The content of the example file. -/
theorem twiceFile_scan : ∃ v w, v.strField "name" = (str! "m") ∧ v.strField "longIdentifier" = (str! "\"one\"") ∧
    w.strField "name" = (str! "m") ∧ w.strField "longIdentifier" = (str! "\"two\"") ∧
    Scan twiceFile 2 [⟨3, 6, 23, v⟩, ⟨7, 10, 23, w⟩] 11 := by
  obtain ⟨v, hv, h1, h2⟩ := unitAt_ok (E := twiceFile) (p := 3) (e := 6) (name := (str! "m")) (text := (str! "\"one\"")) (by decide +kernel)
  obtain ⟨w, hw, h3, h4⟩ := unitAt_ok (E := twiceFile) (p := 7) (e := 10) (name := (str! "m")) (text := (str! "\"two\"")) (by decide +kernel)
  refine ⟨v, w, h1, h2, h3, h4, ?_⟩
  exact Scan.obj (s := 2) (K := ⟨(str! "/begin UNIT"), .parseUnit, "Units", some "name"⟩) rfl rfl hv
    (Scan.obj (s := 6) (K := ⟨(str! "/begin UNIT"), .parseUnit, "Units", some "name"⟩) rfl rfl hw (Scan.stop (s := 10) rfl))

theorem cuts_between (E : Env) (v w : Val) : SafeCuts E 2 11 2 [⟨3, 6, 23, v⟩, ⟨7, 10, 23, w⟩] := by
  intro k h1 h2 f hf
  have : k = 1 := by omega
  subst this
  simp only [List.mem_cons, List.not_mem_nil, or_false] at hf
  rcases hf with rfl | rfl
  · exact ⟨by show (3 : Nat) ≠ 6; decide, fun _ x hx hx' => by simp only [cut] at hx; simp only at hx'; omega⟩
  · exact ⟨by show (7 : Nat) ≠ 6; decide, fun h => by simp [cut] at h⟩

/-- C36 is false: if the second worker is faster, the first definition wins. -/
theorem C36_false : ¬ C36_full := by
  intro h
  obtain ⟨v, w, h1, h2, h3, h4, hsc⟩ := twiceFile_scan
  obtain ⟨o, ho⟩ := accepted_ok (r := mtModule twiceFile 2 (simpleSched 2 [1, 0] [24, 24]) 0) (j := 11) (by decide +kernel)
  have h5 : unitText (mtModule twiceFile 2 (simpleSched 2 [1, 0] [24, 24]) 0) (str! "m") = some (str! "\"one\"") := by
    decide +kernel
  have h6 := h twiceFile (fileEnv_wf (by decide)) rfl 0 11 _ (by decide) (oneModule_of (by decide +kernel)) hsc 2 (by decide)
    (cuts_between _ v w) _ o ho 23 ⟨(str! "/begin UNIT"), .parseUnit, "Units", some "name"⟩ "name" rfl rfl (str! "m")
  have h7 : lastNamed [⟨3, 6, 23, v⟩, ⟨7, 10, 23, w⟩] 23 (str! "m") = some w := by
    have e1 : Found.name ⟨3, 6, 23, v⟩ = (str! "m") := h1
    have e2 : Found.name ⟨7, 10, 23, w⟩ = (str! "m") := h3
    simp [lastNamed, e1, e2]
  rw [ho] at h5
  simp only [unitText] at h5
  simp only at h6
  rw [h6, h7] at h5
  simp only [Option.map_some, Option.some.injEq] at h5
  rw [h4] at h5
  exact absurd h5 (by decide)

/-- With the other order of sending the second definition wins: the result depends on the
schedule. -/
example : unitText (mtModule twiceFile 2 (simpleSched 2 [0, 1] [24, 24]) 0) (str! "m") = some (str! "\"two\"") := by
  decide +kernel

/-- `C36_sequential_partial` on the example: the second definition. -/
example : ∃ (o : Obj) (w : Val), Returns twiceFile .parseModule 0 (.ok 11 (.obj o) false) ∧ o.map "Units" (str! "m") = some w ∧
    w.strField "longIdentifier" = (str! "\"two\"") := by
  obtain ⟨v, w, h1, h2, h3, h4, hsc⟩ := twiceFile_scan
  obtain ⟨o, ho, hr⟩ := accepted_returns (E := twiceFile) (i := 0) (j := 11) (by decide +kernel)
  have h := (C36_sequential_partial (E := twiceFile) (fileEnv_wf (by decide)) rfl (by decide) (oneModule_of (by decide +kernel)) hr hsc).1
    23 ⟨(str! "/begin UNIT"), .parseUnit, "Units", some "name"⟩ "name" rfl rfl (str! "m")
  have e1 : Found.name ⟨3, 6, 23, v⟩ = (str! "m") := h1
  have e2 : Found.name ⟨7, 10, 23, w⟩ = (str! "m") := h3
  simp only [lastNamed, List.filter_cons, e1, e2] at h
  exact ⟨o, w, hr, h, h4⟩

/-! ### Examples -/

/-- A module with two units, cut between them. -/
def goodFile : Env := fileEnv [(str! "/begin MODULE"), (str! "M"), (str! "\"d\""),
  (str! "/begin UNIT"), (str! "m"), (str! "\"one\""), (str! "/end UNIT"),
  (str! "/begin UNIT"), (str! "s"), (str! "\"two\""), (str! "/end UNIT"), (str! "/end MODULE")]

theorem goodFile_wf : Wf goodFile := fileEnv_wf (by decide)

theorem goodFile_one : OneModule goodFile 0 11 := oneModule_of (by decide +kernel)

/-- The hypotheses of `C34_partial` are met: both parsers give the same module. -/
example : ∃ o : Obj, Returns goodFile .parseModule 0 (.ok 11 (.obj o) false) ∧
    mtModule goodFile 2 (simpleSched 2 [1, 0] [24, 24]) 0 = .ok 11 (.obj o) false ∧
    (o.map "Units" (str! "s")).map (·.strField "longIdentifier") = some (str! "\"two\"") := by
  obtain ⟨v, hv, h1, h2⟩ := unitAt_ok (E := goodFile) (p := 3) (e := 6) (name := (str! "m")) (text := (str! "\"one\"")) (by decide +kernel)
  obtain ⟨w, hw, h3, h4⟩ := unitAt_ok (E := goodFile) (p := 7) (e := 10) (name := (str! "s")) (text := (str! "\"two\"")) (by decide +kernel)
  have hsc : Scan goodFile 2 [⟨3, 6, 23, v⟩, ⟨7, 10, 23, w⟩] 11 :=
    Scan.obj (s := 2) (K := ⟨(str! "/begin UNIT"), .parseUnit, "Units", some "name"⟩) rfl rfl hv
    (Scan.obj (s := 6) (K := ⟨(str! "/begin UNIT"), .parseUnit, "Units", some "name"⟩) rfl rfl hw (Scan.stop (s := 10) rfl))
  obtain ⟨o, ho, hr⟩ := accepted_returns (E := goodFile) (i := 0) (j := 11) (by decide +kernel)
  have h5 : unitText (parse goodFile .parseModule 0) (str! "s") = some (str! "\"two\"") := by decide +kernel
  rw [ho] at h5
  refine ⟨o, hr, ?_, h5⟩
  obtain ⟨o', ho'⟩ := accepted_ok (r := mtModule goodFile 2 (simpleSched 2 [1, 0] [24, 24]) 0) (j := 11) (by decide +kernel)
  refine C34_partial goodFile_wf rfl (by decide) goodFile_one hr hsc (by decide)
    (cuts_between _ v w) ?_ (by rw [ho']; simp)
  intro f hf g hg _ hn
  have e1 : Found.name ⟨3, 6, 23, v⟩ = (str! "m") := h1
  have e2 : Found.name ⟨7, 10, 23, w⟩ = (str! "s") := h3
  simp only [List.mem_cons, List.not_mem_nil, or_false] at hf hg
  rcases hf with rfl | rfl <;> rcases hg with rfl | rfl
  · rfl
  · rw [e1, e2] at hn; exact absurd hn (by decide)
  · rw [e1, e2] at hn; exact absurd hn (by decide)
  · rfl

/-- `C36_parallel_partial` on the same file: each unit is defined once, so it is found. -/
example : ∃ (o : Obj) (w : Val), mtModule goodFile 2 (simpleSched 2 [1, 0] [24, 24]) 0 = .ok 11 (.obj o) false ∧
    o.map "Units" (str! "s") = some w ∧ w.strField "longIdentifier" = (str! "\"two\"") := by
  obtain ⟨v, hv, h1, h2⟩ := unitAt_ok (E := goodFile) (p := 3) (e := 6) (name := (str! "m")) (text := (str! "\"one\"")) (by decide +kernel)
  obtain ⟨w, hw, h3, h4⟩ := unitAt_ok (E := goodFile) (p := 7) (e := 10) (name := (str! "s")) (text := (str! "\"two\"")) (by decide +kernel)
  have hsc : Scan goodFile 2 [⟨3, 6, 23, v⟩, ⟨7, 10, 23, w⟩] 11 :=
    Scan.obj (s := 2) (K := ⟨(str! "/begin UNIT"), .parseUnit, "Units", some "name"⟩) rfl rfl hv
    (Scan.obj (s := 6) (K := ⟨(str! "/begin UNIT"), .parseUnit, "Units", some "name"⟩) rfl rfl hw (Scan.stop (s := 10) rfl))
  obtain ⟨o', ho'⟩ := accepted_ok (r := mtModule goodFile 2 (simpleSched 2 [1, 0] [24, 24]) 0) (j := 11) (by decide +kernel)
  have e1 : Found.name ⟨3, 6, 23, v⟩ = (str! "m") := h1
  have e2 : Found.name ⟨7, 10, 23, w⟩ = (str! "s") := h3
  have h := C36_parallel_partial goodFile_wf rfl (by decide) goodFile_one hsc
    (cuts_between _ v w) ho' (n := 23) (K := ⟨(str! "/begin UNIT"), .parseUnit, "Units", some "name"⟩)
    (key := "name") rfl rfl (name := (str! "s")) (w := 1) (by decide) (by
      intro f hf _ hn
      simp only [List.mem_cons, List.not_mem_nil, or_false] at hf
      rcases hf with rfl | rfl
      · rw [e1] at hn; exact absurd hn (by decide)
      · exact ⟨by show (6 : Nat) < 7; decide, fun h => by omega⟩)
  refine ⟨o', w, ho', ?_, h4⟩
  rw [h]
  have hne : ¬ (str! "m") = (str! "s") := by decide
  simp [lastNamed, e1, e2]

/-- C35 on the example: the call returns under this schedule, both units have been sent and are
in the module. -/
example : accepted (mtModule goodFile 2 (simpleSched 2 [1, 0] [24, 24]) 0) 11 = true ∧
    unitText (mtModule goodFile 2 (simpleSched 2 [1, 0] [24, 24]) 0) (str! "m") = some (str! "\"one\"") ∧
    unitText (mtModule goodFile 2 (simpleSched 2 [1, 0] [24, 24]) 0) (str! "s") = some (str! "\"two\"") := by
  decide +kernel

/-- The hypotheses of `C35_no_loss` are met there: a worker has sent something. -/
example : (header goodFile 0).1 = 2 ∧ endIndex goodFile = 11 ∧
    ((worker goodFile (maxIndex 2 11 2 1) 14 (minIndex 2 11 2 1)).map fun l => l.map (·.1)) = some [24] := by
  decide +kernel

/-- C28 on a file parsed in parallel. -/
example : ∃ sched, ∃ i' v e, Returns (mtEnv goodFile 2 sched) .parseProject 0 (.ok i' v e) ∧ 0 ≤ i' ∧ i' < 13 := by
  have hw : Wf goodFile := goodFile_wf
  have hex : ∀ i, ∃ s, i < goodFile.toks.length → mtModule goodFile 2 s i ≠ .timeout := fun i => by
    by_cases hi : i < goodFile.toks.length
    · obtain ⟨s, hs⟩ := (C35_returns hw rfl (by decide : 0 < 2) hi).1
      exact ⟨s, fun _ => hs⟩
    · exact ⟨[], fun h => absurd h hi⟩
  obtain ⟨sched, hsched⟩ := Classical.skolem.1 hex
  exact ⟨sched, C28_multithreaded hw rfl (by decide : 0 < 2) hsched .parseProject (by decide) 0 (by decide)⟩

end Verif.A2l.Props
