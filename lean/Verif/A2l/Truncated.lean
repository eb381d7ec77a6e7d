import Verif.A2l.FileProps
import Verif.A2l.Flat
import Verif.Conc.A2lRunAll

/-!
Files that end inside a project (a2l/a2l.go:90-132, a2l/project.go:18-68): an opened project that is never closed
is an error of the whole file, whatever stands before it, for every number of workers and every schedule.
-/

namespace Verif.A2l.Truncated
open Verif.Go Lang FileSpec Template Props Analysis Decl

/-- The file opens a project that it does not close: specification on the tokens alone. -/
def Unclosed (ts : List Str) : Prop :=
  ∃ k, ts[k]? = some "/begin PROJECT".toList ∧ "/end PROJECT".toList ∉ ts.drop (k + 1)

theorem begin_keyword : "/begin PROJECT".toList ∈ keywords := by decide +kernel

/-- The tokens of a version number are no keywords. -/
theorem version {E : Env} (hw : Wf E) {p : PName} (hp : p ∉ irregular) {ps : List Param} (hsh : shape p = .seq ps)
    {i j k : Nat} {v : Val} (h : Returns E p i (.ok j v false)) (hk : E.toks[k]? = some "/begin PROJECT".toList)
    (hik : i < k) : j < k := by
  obtain ⟨r, _, hj, hval⟩ := flat_values hw hp (.inl hsh) h
  refine Classical.byContradiction fun hn => ?_
  obtain ⟨t, h1, h2, _⟩ := hval (k - i - 1) (ps[k - i - 1]'(by omega)) (List.getElem?_eq_getElem _)
  have h3 : E.toks[i + (k - i - 1) + 1]? = some t := h1
  rw [show i + (k - i - 1) + 1 = k by omega, hk] at h3
  cases h3
  exact h2 begin_keyword

theorem no_top {E : Env} (hw : Wf E) (hmt : MtGood E) {k : Nat} (hk : E.toks[k]? = some "/begin PROJECT".toList)
    (hend : "/end PROJECT".toList ∉ E.toks.drop (k + 1)) {i j : Nat} {o o' : Obj} (h : Top E i o j o') : k < i := by
  have hkl := (List.getElem?_eq_some_iff.1 hk).1
  induction h with
  | @stop i o hi =>
    have hil := (List.getElem?_eq_some_iff.1 hi).1
    have hcur : E.current i = emptyToken := by
      have := hi
      unfold Env.current
      rw [hi]
      rfl
    have := (hw.end_iff hil).1 hcur
    refine Classical.byContradiction fun hn => ?_
    have : i = k := by omega
    subst this
    rw [hk] at hi
    cases hi
  | @word i o j o' t hi h1 h2 h3 _ ih =>
    have hne : i ≠ k := by
      rintro rfl
      rw [hk] at hi
      cases hi
      exact h3 (by decide)
    omega
  | @part i o j o' e t p f v hi hm hr _ ih =>
    have hil := (List.getElem?_eq_some_iff.1 hi).1
    refine Classical.byContradiction fun hn => ?_
    simp only [heads, List.mem_cons, Prod.mk.injEq, List.not_mem_nil, or_false] at hm
    rcases hm with ⟨rfl, rfl, rfl⟩ | ⟨rfl, rfl, rfl⟩ | ⟨rfl, rfl, rfl⟩
    · have hne : i ≠ k := by
        rintro rfl
        rw [hk] at hi
        cases hi
      have := version hw (by decide) rfl hr hk (by omega)
      omega
    · have hne : i ≠ k := by
        rintro rfl
        rw [hk] at hi
        cases hi
      have := version hw (by decide) rfl hr hk (by omega)
      omega
    · obtain ⟨h1, h2⟩ := C30_partial hw hmt .parseProject "/end PROJECT".toList (by decide) (by decide) (by decide) i hil e v hr
      have hke : k < e := by
        have : e ≠ k := by
          rintro rfl
          rw [hk] at h2
          cases h2
        omega
      refine hend (List.mem_iff_getElem?.2 ⟨e - (k + 1), ?_⟩)
      rw [List.getElem?_drop, ← h2]
      congr 1
      omega

/-- C112: a token list with a project that is never closed is an error. -/
theorem C112_tokens {E : Env} (hw : Wf E) (hmt : MtGood E) (hu : Unclosed E.toks) :
    ∃ i v, Returns E .parseA2l 0 (.ok i v true) := by
  obtain ⟨k, hk, hend⟩ := hu
  have hkl := (List.getElem?_eq_some_iff.1 hk).1
  obtain ⟨i, v, e, _, hr, _⟩ := parse_ok hw hmt .parseA2l (by decide) 0 (by omega)
  cases e with
  | true => exact ⟨i, v, hr⟩
  | false =>
    obtain ⟨o, _, htop⟩ := (C56_file hw hmt).1 hr
    exact absurd (no_top hw hmt hk hend htop) (by omega)

/-- Whatever stands behind the opening token of the last project of a file, up to its closing token: the file that
breaks off there has an unclosed project. -/
theorem unclosed_take {ts : List Str} {k m : Nat} (hk : ts[k]? = some "/begin PROJECT".toList) (hkm : k < m)
    (hend : ∀ e, ts[e]? = some "/end PROJECT".toList → e < k ∨ m ≤ e) : Unclosed (ts.take m ++ [[]]) := by
  have hkl := (List.getElem?_eq_some_iff.1 hk).1
  refine ⟨k, ?_, fun hmem => ?_⟩
  · rw [List.getElem?_append_left (by rw [List.length_take]; omega), List.getElem?_take, if_pos hkm, hk]
  · obtain ⟨n, hn⟩ := List.mem_iff_getElem?.1 hmem
    rw [List.getElem?_drop] at hn
    by_cases hl : k + 1 + n < (ts.take m).length
    · rw [List.getElem?_append_left hl, List.getElem?_take] at hn
      split at hn
      · rcases hend _ hn with h | h <;> omega
      · cases hn
    · rw [List.getElem?_append_right (by omega)] at hn
      have := List.mem_of_getElem? hn
      simp at this

/-- C112: a file cut off anywhere behind the opening token of its project and before the closing one is an error. -/
theorem C112_cut {E : Env} {ts : List Str} {k m : Nat} (hk : ts[k]? = some "/begin PROJECT".toList) (hkm : k < m)
    (hend : ∀ e, ts[e]? = some "/end PROJECT".toList → e < k ∨ m ≤ e) (hne : [] ∉ ts) (hE : E.toks = ts.take m ++ [[]])
    (hmt : MtGood E) : ∃ i v, Returns E .parseA2l 0 (.ok i v true) :=
  C112_tokens ⟨_, hE, fun h => hne (List.mem_of_mem_take h)⟩ hmt (hE ▸ unclosed_take hk hkm hend)

/-- A file with a version and a project with a module. -/
def whole : List Str := [(str! "ASAP2_VERSION"), (str! "1"), (str! "71"), (str! "/begin PROJECT"), (str! "p"), (str! "\"x\""),
  (str! "/begin MODULE"), (str! "m"), (str! "\"y\""), (str! "/end MODULE"), (str! "/end PROJECT")]

-- the file as a whole is accepted and closes its project
example : (∃ j v, A2l.parse (fileEnv (whole ++ [[]])) .parseA2l 0 = .ok j v false) := by
  have h : (match A2l.parse (fileEnv (whole ++ [[]])) .parseA2l 0 with | .ok _ _ e => e | _ => true) = false := by decide +kernel
  revert h
  split
  · rintro rfl; exact ⟨_, _, by assumption⟩
  · intro h; cases h

-- cut off behind the module the hypotheses of `C112_cut` and `C112_tokens` hold
example : whole[3]? = some "/begin PROJECT".toList ∧ (∀ e, whole[e]? = some "/end PROJECT".toList → e < 3 ∨ 10 ≤ e) ∧ [] ∉ whole ∧
    Unclosed (whole.take 10 ++ [[]]) := by
  have h : ∀ e, whole[e]? = some "/end PROJECT".toList → e < 3 ∨ 10 ≤ e := by
    intro e he
    have hl : e < 11 := (List.getElem?_eq_some_iff.1 he).1
    have : ∀ e < 11, whole[e]? = some "/end PROJECT".toList → e < 3 ∨ 10 ≤ e := by decide +kernel
    exact this e hl he
  exact ⟨by decide, h, by decide, unclosed_take (k := 3) (by decide) (by decide) h⟩

end Verif.A2l.Truncated

namespace Verif.Conc.A2lRun
open Verif.Go Verif.A2l Lang Oracle Analysis Truncated

/-- C112: no run of the reader, with any number of workers and any schedule, accepts a file with an unclosed project. -/
theorem C112_runs {I : Input} (hn : 0 < I.np) {ts : List Str} (ht : tokensOfFile I.graphic I.np I.text = some ts)
    (hu : Unclosed ts) {os : List Op} {r : PRes} (h : run I (init I) os = some (.returned r)) : ∃ i v, r = .ok i v true := by
  obtain ⟨sched, hs, hr⟩ := (C84_results hn ht r).1 ⟨os, h⟩
  have key : ∀ E : Env, Wf E → Props.MtGood E → E.toks = ts → r = parse E .parseA2l 0 → ∃ i v, r = .ok i v true := by
    intro E hw hmt hE hrE
    obtain ⟨i, v, h1⟩ := C112_tokens hw hmt (hE ▸ hu)
    obtain ⟨i', v', e', h2, h3, _⟩ := Props.parse_ok hw hmt .parseA2l (by decide) 0 (hE ▸ tokens_pos ht)
    cases h1.unique h3
    exact ⟨i, v, hrE.trans h2⟩
  cases hm : multi ts with
  | false =>
    rw [hm, if_neg (by decide)] at hr
    exact key _ (tokens_wf ht _ _ _) (Props.mtGood_seq rfl) rfl hr
  | true =>
    rw [hm, if_pos rfl] at hr
    exact key (mtEnv (workerEnv I ts) I.np sched) (tokens_wf ht _ _ _) (fun _ i hi => good_answers hn ht hs (fun _ => .panic) i hi) rfl hr

/-- A file that ends inside its module, read with two workers. -/
def broken : Input := ⟨2, fun _ => true, fun _ => true,
  "/begin PROJECT P \"p\"\n/begin MODULE M \"d\" /begin UNIT m \"one\" /end UNIT\n/begin UNIT m \"two\"".toList⟩

-- the hypotheses of `C112_runs` hold, and there is a run
example : ∃ ts os r, tokensOfFile broken.graphic broken.np broken.text = some ts ∧ Unclosed ts ∧
    run broken (init broken) os = some (.returned r) ∧ ∃ i v, r = .ok i v true := by
  have h : (tokensOfFile broken.graphic broken.np broken.text).map (fun ts => (ts[0]?, (ts.drop 1).contains "/end PROJECT".toList)) =
    some (some "/begin PROJECT".toList, false) := by decide +kernel
  obtain ⟨ts, ht, h⟩ := Option.map_eq_some_iff.1 h
  simp only [Prod.mk.injEq] at h
  have hu : Unclosed ts := ⟨0, h.1, fun hm => by rw [List.contains_iff_mem.2 hm] at h; exact absurd h.2 (by decide)⟩
  obtain ⟨os, r, hr⟩ := C84_completes (I := broken) (by decide) (os := []) (s := init broken) rfl
  exact ⟨ts, os, r, ht, hu, hr, C112_runs (by decide) ht hu hr⟩

end Verif.Conc.A2lRun
