import Verif.A2l.File
import Verif.A2l.ModExamples

/-!
Properties of whole files: C55 (a file with several modules), C56 (what a file means), C34 for files.
-/

namespace Verif.A2l.FileSpec
open Verif.Go Lang ModSpec

/-- The module whose block begins at `i` has a name and a description: the two tokens after
`/begin MODULE` open no object and do not end the module. -/
structure Titled (E : Env) (i : Nat) : Prop where
  name : ∀ t, E.toks[i + 1]? = some t → ¬ Opens t ∧ t ≠ (str! "/end MODULE")
  text : ∀ t, E.toks[i + 2]? = some t → ¬ Opens t ∧ t ≠ (str! "/end MODULE")

/-- The module `v` holds the objects between the positions `i` and `j` and no others: for every kind of
object and every name the last one, for the kinds of which there is one the last one. -/
def HoldsOwn (E : Env) (i j : Nat) (v : Val) : Prop :=
  ∃ (o : Obj) (os : List Found), v = .obj o ∧ Scan E (i + 2) os j ∧ (∀ f ∈ os, i < f.pos ∧ f.pos ≤ f.stop ∧ f.stop < j) ∧
    (∀ (n : Nat) (K : Kind) (key : String), kinds[n]? = some K → K.key = some key →
      ∀ name, o.map K.field name = lastNamed os n name) ∧
    (∀ (n : Nat) (K : Kind), kinds[n]? = some K → K.key = none → o K.field = (lastOf os n).getD .zero)

/-- The modules of the project that begins at `i` and ends at `j`: they are listed in the order of the file,
each begins with `/begin MODULE`, ends with `/end MODULE` and holds its own objects; there is no further
`/begin MODULE` in the project, except inside a module or a header. -/
structure Modules (E : Env) (i j : Nat) (vs : List Val) (ms : List Mod) : Prop where
  vals : vs = ms.map (·.val)
  order : InOrder i j ms
  ends : ∀ m ∈ ms, E.toks[m.pos]? = some (str! "/begin MODULE") ∧ E.toks[m.stop]? = some (str! "/end MODULE")
  own : ∀ m ∈ ms, Titled E m.pos → HoldsOwn E m.pos m.stop m.val
  all : ∀ z, i < z → z ≤ j → E.toks[z]? = some (str! "/begin MODULE") → (∃ m ∈ ms, m.pos ≤ z ∧ z ≤ m.stop) ∨
    ∃ a b v, E.toks[a]? = some (str! "/begin HEADER") ∧ Returns E .parseHeader a (.ok b v false) ∧ a ≤ z ∧ z ≤ b

end Verif.A2l.FileSpec

namespace Verif.A2l.Props
open Verif.Go Lang Analysis ModSpec FileSpec File Shared Verif.Conc

theorem titled_plain {E : Env} {i : Nat} (h : Titled E i) : PlainHeader E i := by
  have gen : ∀ k, (∀ t, E.toks[k]? = some t → ¬ Opens t ∧ t ≠ (str! "/end MODULE")) →
      ¬ Opens (E.current k) ∧ E.current k ≠ endModuleToken := by
    intro k hk
    unfold Env.current
    cases ht : E.toks[k]? with
    | none => exact ⟨empty_not_opens, by decide⟩
    | some t => exact hk t ht
  exact ⟨gen _ h.name, gen _ h.text⟩

/-- The project in the result of a parse. -/
theorem top_project {E : Env} {i j : Nat} {o o' : Obj} (h : Top E i o j o') : o' "Project" = o "Project" ∨
    ∃ a b, E.toks[a]? = some (str! "/begin PROJECT") ∧ Returns E .parseProject a (.ok b (o' "Project") false) := by
  induction h with
  | stop => exact Or.inl rfl
  | word _ _ _ _ _ ih => exact ih
  | @part i o j o' e t p f v ht hp hr htop ih =>
    rcases ih with h | h
    · simp only [heads, List.mem_cons, Prod.mk.injEq, List.not_mem_nil, or_false] at hp
      rcases hp with ⟨rfl, rfl, rfl⟩ | ⟨rfl, rfl, rfl⟩ | ⟨rfl, rfl, rfl⟩
      · exact Or.inl h
      · exact Or.inl h
      · right
        refine ⟨i, e, ht, ?_⟩
        rw [h]
        exact hr
    · exact Or.inr h

/-! ### C56: what a file means -/

/-- C56: a token list is accepted exactly if it consists of version numbers, projects and words that are no
keywords, in any order and number; the result has the values of the last one of each. -/
theorem C56_file {E : Env} (hw : Wf E) (hmt : MtGood E) {j : Nat} {v : Val} :
    Returns E .parseA2l 0 (.ok j v false) ↔ ∃ o, v = .obj o ∧ Top E 0 Obj.empty j o :=
  a2l_iff hw hmt (by obtain ⟨pre, h, _⟩ := hw; rw [h]; simp)

/-- C56 for projects: whatever the sequential parser accepts has the modules of the file. Missing: a file need not
have a project, see `C56_false`. -/
theorem C56_project_partial {E : Env} (hw : Wf E) (hs : E.multi = false) {i j : Nat} (hi : i < E.toks.length) {v : Val}
    (h : Returns E .parseProject i (.ok j v false)) :
    ∃ (o : Obj) (ms : List Mod), v = .obj o ∧ Modules E i j (o.list "Modules") ms := by
  have hmt := mtGood_seq hs
  obtain ⟨o, ms, ls, rfl, h1, h2, h3, h4, h5⟩ := project_modules hw hmt hi h
  have hm : modParser E = .parseModule := by unfold modParser; rw [hs]; rfl
  rw [hm] at h3
  refine ⟨o, ms, rfl, h1, h2, fun m hm => ?_, fun m hm ht => ?_, fun z z1 z2 z3 => ?_⟩
  · obtain ⟨g1, g2⟩ := h3 m hm
    exact ⟨g1, (C30_partial hw hmt .parseModule (str! "/end MODULE") (by decide) (by decide) (by decide) m.pos
      (List.getElem?_eq_some_iff.1 g1).1 m.stop m.val g2).2⟩
  · obtain ⟨g1, g2⟩ := h3 m hm
    have hlt := (List.getElem?_eq_some_iff.1 g1).1
    obtain ⟨x, hx⟩ : ∃ x, m.val = .obj x := by
      obtain ⟨_, n, d, g⟩ := g2
      have := g n (d + 1) (Nat.le_refl _) (by omega)
      rw [run, if_neg (by decide)] at this
      cases hr : exec E (run E n d) n (body .parseModule) (St.init m.pos) with
      | ok s c => rw [hr] at this; simp only [finish, PRes.ok.injEq] at this; exact ⟨_, this.2.1.symm⟩
      | panic => rw [hr] at this; cases this
      | timeout => rw [hr] at this; cases this
    rw [hx] at g2
    obtain ⟨os, a1, a2, a3⟩ := module_content hw hs hlt (titled_plain ht) g2
    refine ⟨x, os, hx, a1, fun f hf => ?_, a2, a3⟩
    have := (scan_pos hw hmt a1).2.2.2 f hf
    exact ⟨by omega, this.2⟩
  · rcases h5 z z1 z2 z3 with h | ⟨a, ha, h⟩
    · exact Or.inl h
    · obtain ⟨b1, v, b2⟩ := h4 a ha
      exact Or.inr ⟨a.1, a.2, v, b1, b2, h⟩

/-! ### C55: a file with several modules -/

/-- C55: a file with at least two (and less than 2^32) modules that is accepted has the modules of the file,
in the order of the file, each with its own objects and no others, for every number of workers. (The call is
not overlapped by another one, see C37.) -/
theorem C55_own_objects (S : Setup) (c : Nat) (before after : List Nat) (hb : c ∉ before) {ts : List Str}
    (hts : tokensOfFile S.graphic S.np (S.text c) = some ts) (h2 : 2 ≤ ts.count (str! "/begin MODULE"))
    (h32 : ts.count (str! "/begin MODULE") < 2 ^ 32) :
    ∃ r, (calls S init (before ++ List.replicate (S.np + 3) c ++ after)).result c = some r ∧
      ∀ j a, r = .ok j (.obj a) false → ∀ p : Obj, a "Project" = .obj p →
        ∃ i k ms, ts[i]? = some (str! "/begin PROJECT") ∧ ts[k]? = some (str! "/end PROJECT") ∧
          Modules ⟨ts, S.floatOk, false, fun _ => .panic⟩ i k (p.list "Modules") ms := by
  obtain ⟨r, h1, ts', h3, h4⟩ := C37_partial S c before after hb (fun ts' h => by
    rw [hts] at h; cases h; exact h32)
  rw [hts] at h3
  cases h3
  refine ⟨r, h1, fun j a hr p hp => ?_⟩
  have hm : useMultithreading ts = false := by
    unfold useMultithreading moduleCount
    rw [show beginModule = (str! "/begin MODULE") by decide]
    simp only [Bool.not_eq_false', decide_eq_true_eq]
    omega
  rw [hm, if_neg (by decide)] at h4
  obtain ⟨ts', ht', hne⟩ := C27_tokenizer_total S.graphic S.np (S.text c)
  rw [hts] at ht'
  cases ht'
  have hw : Wf ⟨ts' ++ [[]], S.floatOk, false, fun _ => .panic⟩ := ⟨ts', rfl, fun hh => hne _ hh rfl⟩
  have hmt : MtGood ⟨ts' ++ [[]], S.floatOk, false, fun _ => .panic⟩ := mtGood_seq rfl
  have hret : Returns ⟨ts' ++ [[]], S.floatOk, false, fun _ => .panic⟩ .parseA2l 0 (.ok j (.obj a) false) := by
    obtain ⟨j', v', e', g1, g2, _⟩ := parse_ok hw hmt .parseA2l (by decide) 0 (by simp)
    rw [← h4, hr] at g1
    cases g1
    exact g2
  obtain ⟨o, ho, htop⟩ := (C56_file hw hmt).1 hret
  cases ho
  rcases top_project htop with h | ⟨i, k, g1, g2⟩
  · rw [hp] at h; cases h
  · have hi := (List.getElem?_eq_some_iff.1 g1).1
    rw [hp] at g2
    obtain ⟨o', ms, g3, g4⟩ := C56_project_partial hw rfl hi g2
    cases g3
    exact ⟨i, k, ms, g1, (C30_partial hw hmt .parseProject (str! "/end PROJECT") (by decide) (by decide) (by decide) i hi k _ g2).2, g4⟩

theorem header_ge {E : Env} (i : Nat) : i ≤ (header E i).1 := by
  have hn : ∀ k, k ≤ nextIdx E k := fun k => by unfold nextIdx; split <;> omega
  have h1 := hn i
  have h2 := hn (nextIdx E i)
  unfold header
  simp only
  split <;> (try split) <;> simp only <;> omega

theorem endIndex_le {E : Env} {y : Nat} (h : E.toks[y]? = some (str! "/end MODULE")) : endIndex E ≤ y := by
  unfold endIndex
  cases hf : E.toks.findIdx? (· = endModuleToken) with
  | none => simp
  | some k =>
    rw [List.findIdx?_eq_some_iff_getElem] at hf
    obtain ⟨hk, _, hmin⟩ := hf
    simp only [Option.getD_some]
    rcases Nat.lt_or_ge y k with hlt | hge
    · have := hmin y hlt
      obtain ⟨hy, he⟩ := List.getElem?_eq_some_iff.1 h
      rw [he] at this
      exact absurd this (by decide)
    · exact hge

/-- Why the choice matters: the parallel parser rejects every module that begins after the end of another one,
under every schedule. -/
theorem C55_parallel_rejects {E : Env} {y i np : Nat} (hy : E.toks[y]? = some (str! "/end MODULE")) (h : y ≤ i)
    (sched : List Collect.Op) : ∃ j v, mtModule E np sched i = .ok j v true := by
  have h1 := endIndex_le hy
  have h2 := header_ge (E := E) i
  unfold mtModule
  simp only
  rw [if_pos (by omega)]
  exact ⟨_, _, rfl⟩

/-- A file with two modules that both have a group `g`. -/
def twoModText : Str := (str! "ASAP2_VERSION 1 71\n/begin PROJECT p \"x\"\n/begin MODULE a \"first\"\n/begin GROUP g \"one\" /end GROUP\n/end MODULE\n/begin MODULE b \"second\"\n/begin GROUP g \"two\" /end GROUP\n/end MODULE\n/end PROJECT\n")

def twoModToks : List Str := [(str! "ASAP2_VERSION"), (str! "1"), (str! "71"), (str! "/begin PROJECT"), (str! "p"), (str! "\"x\""),
  (str! "/begin MODULE"), (str! "a"), (str! "\"first\""), (str! "/begin GROUP"), (str! "g"), (str! "\"one\""), (str! "/end GROUP"),
  (str! "/end MODULE"), (str! "/begin MODULE"), (str! "b"), (str! "\"second\""), (str! "/begin GROUP"), (str! "g"), (str! "\"two\""),
  (str! "/end GROUP"), (str! "/end MODULE"), (str! "/end PROJECT"), []]

def twoMods : Setup := ⟨3, fun c => c ≠ '\n', fun _ => false, fun _ => twoModText, fun _ _ => []⟩

theorem twoMods_toks : tokensOfFile twoMods.graphic twoMods.np (twoMods.text 0) = some twoModToks := by decide +kernel

/-- The descriptions of the groups `g` of the modules in a result. -/
def groupTexts : Option PRes → List Str
  | some (.ok _ (.obj a) false) => match a "Project" with
    | .obj p => (Obj.list p "Modules").map fun v => match v with
      | .obj m => match Obj.map m "Groups" (str! "g") with
        | some g => Val.strField g "groupLongIdentifier"
        | none => []
      | _ => []
    | _ => []
  | _ => []

/-- Non-vacuity of `C55_own_objects`: the file is accepted, and each module has its own group. -/
example : groupTexts ((calls twoMods init ([] ++ List.replicate (3 + 3) 0 ++ [])).result 0) = [(str! "\"one\""), (str! "\"two\"")] ∧
    ∃ r, (calls twoMods init ([] ++ List.replicate (3 + 3) 0 ++ [])).result 0 = some r ∧
      ∀ j a, r = .ok j (.obj a) false → ∀ p : Obj, a "Project" = .obj p →
        ∃ i k ms, twoModToks[i]? = some (str! "/begin PROJECT") ∧ twoModToks[k]? = some (str! "/end PROJECT") ∧
          Modules ⟨twoModToks, fun _ => false, false, fun _ => .panic⟩ i k (p.list "Modules") ms :=
  ⟨by decide +kernel, C55_own_objects twoMods 0 [] [] (by simp) twoMods_toks (by decide +kernel) (by decide +kernel)⟩

/-- Non-vacuity of `C55_parallel_rejects`: the second module of this file. -/
example : ∃ j v, mtModule ⟨twoModToks, fun _ => false, false, fun _ => .panic⟩ 3 [] 14 = .ok j v true :=
  C55_parallel_rejects (y := 13) (by decide +kernel) (by decide) _

/-- The choice of the module parser: with less than two modules the file is parsed in parallel, otherwise
sequentially. -/
theorem C55_choice (S : Setup) (c : Nat) (before after : List Nat) (hb : c ∉ before) {ts : List Str}
    (hts : tokensOfFile S.graphic S.np (S.text c) = some ts) (h32 : ts.count (str! "/begin MODULE") < 2 ^ 32) :
    (calls S init (before ++ List.replicate (S.np + 3) c ++ after)).result c =
      some (if 2 ≤ ts.count (str! "/begin MODULE") then A2l.parse ⟨ts, S.floatOk, false, fun _ => .panic⟩ .parseA2l 0
        else A2l.parse (mtEnv ⟨ts, S.floatOk, false, fun _ => .panic⟩ S.np (S.sched c)) .parseA2l 0) := by
  obtain ⟨r, h1, ts', h3, h4⟩ := C37_partial S c before after hb (fun ts' h => by
    rw [hts] at h; cases h; exact h32)
  rw [hts] at h3
  cases h3
  rw [h1, h4]
  by_cases h : 2 ≤ ts.count (str! "/begin MODULE")
  · have hm : useMultithreading ts = false := by
      unfold useMultithreading moduleCount
      rw [show beginModule = (str! "/begin MODULE") by decide]
      simp only [Bool.not_eq_false', decide_eq_true_eq]
      omega
    rw [if_pos h, hm, if_neg (by decide)]
  · have hm : useMultithreading ts = true := by
      unfold useMultithreading moduleCount
      rw [show beginModule = (str! "/begin MODULE") by decide]
      simp only [Bool.not_eq_true', decide_eq_false_iff_not]
      omega
    rw [if_neg h, hm, if_pos rfl]

/-! ### C34 for files -/

theorem mt_alike (E : Env) (np : Nat) (sched : Nat → List Collect.Op) : Alike E (mtEnv E np sched) := ⟨rfl, rfl⟩

/-- The module parsers agree wherever a module is read. -/
def AgreeOn (E : Env) (np : Nat) (sched : Nat → List Collect.Op) : Prop :=
  ∀ i j o, E.toks[i]? = some (str! "/begin MODULE") → Returns E .parseModule i (.ok j (.obj o) false) →
    mtModule E np (sched i) i = .ok j (.obj o) false

theorem project_agree {E : Env} (hw : Wf E) (hs : E.multi = false) {np : Nat} {sched : Nat → List Collect.Op}
    (ha : AgreeOn E np sched) {i j : Nat} {v : Val} (h : Returns E .parseProject i (.ok j v false)) :
    Returns (mtEnv E np sched) .parseProject i (.ok j v false) := by
  obtain ⟨o, rfl, k, m, j', o₁, h1, h2, h3, h4⟩ := Loose.irr_only hw project_mem h
  refine Loose.irr_reads (E := mtEnv E np sched) hw project_mem ⟨k, m, j', o₁, ?_, h2, h3, h4⟩
  clear h2 h3 h4 h
  generalize (⟨0, Obj.empty, i⟩ : Decl.Pos) = x at h1
  generalize (⟨m, o₁, j'⟩ : Decl.Pos) = y at h1
  induction h1 with
  | nil => exact .nil
  | @cons k x y z hi _ ih =>
    refine .cons ?_ ih
    cases hi with
    | param hp ht hne hfin hsub hkw hv => exact .param hp ht hne hfin hsub hkw hv
    | rest hm ht hne hfin hsub hkw hr => exact .rest hm ht hne hfin hsub hkw hr
    | @sub m o o' i j t hk ht hr =>
      refine .sub hk ht ?_
      obtain ⟨x, hx, hr⟩ := hr
      refine ⟨x, hx, ?_⟩
      simp only [Loose.project, List.mem_cons, Prod.mk.injEq, List.not_mem_nil, or_false] at hx
      rcases hx with ⟨rfl, rfl⟩ | ⟨rfl, rfl⟩
      · obtain ⟨v, hv, hk⟩ := hr
        exact ⟨v, returns_alike (mt_alike E np sched) (by decide) hv, hk⟩
      · obtain ⟨v, hv, rfl⟩ := hr
        rw [hs, if_neg (by decide)] at hv
        obtain ⟨x, rfl⟩ : ∃ x, v = .obj x := by
          obtain ⟨_, n, d, g⟩ := hv
          have := g n (d + 1) (Nat.le_refl _) (by omega)
          rw [run, if_neg (by decide)] at this
          cases hr : exec E (run E n d) n (body .parseModule) (St.init (i + 1)) with
          | ok s c => rw [hr] at this; simp only [finish, PRes.ok.injEq] at this; exact ⟨_, this.2.1.symm⟩
          | panic => rw [hr] at this; cases this
          | timeout => rw [hr] at this; cases this
        refine ⟨.obj x, ?_, rfl⟩
        have hm := ha _ _ _ ht hv
        refine returns_of_run (n := 0) (d := 1) ?_ (by simp)
        show mtModule E np (sched (i + 1)) (i + 1) = _
        exact hm

theorem top_agree {E : Env} (hw : Wf E) (hs : E.multi = false) {np : Nat} {sched : Nat → List Collect.Op}
    (ha : AgreeOn E np sched) {i j : Nat} {o o' : Obj} (h : Top E i o j o') : Top (mtEnv E np sched) i o j o' := by
  induction h with
  | stop ht => exact .stop ht
  | word ht hne hkw hh _ ih => exact .word ht hne hkw hh ih
  | @part i o j o' e t p f v ht hp hr htop ih =>
    refine .part ht hp ?_ ih
    simp only [heads, List.mem_cons, Prod.mk.injEq, List.not_mem_nil, or_false] at hp
    rcases hp with ⟨rfl, rfl, rfl⟩ | ⟨rfl, rfl, rfl⟩ | ⟨rfl, rfl, rfl⟩
    · exact returns_alike (mt_alike E np sched) (by decide) hr
    · exact returns_alike (mt_alike E np sched) (by decide) hr
    · exact project_agree hw hs ha hr

/-- C34 for files: if the sequential parser accepts a file whose modules satisfy the conditions of `C34_partial`
(one module, no harmful cut, objects of the same kind and name equal), the parallel parser gives the same result,
under every complete schedule. Missing: the other modules, as in `C34_partial`. -/
theorem C34_file_partial {E : Env} (hw : Wf E) (hs : E.multi = false) {np : Nat} (hnp : 0 < np)
    {sched : Nat → List Collect.Op} (hc : ∀ i < E.toks.length, mtModule E np (sched i) i ≠ .timeout)
    (hmod : ∀ i j, E.toks[i]? = some (str! "/begin MODULE") → (∃ v, Returns E .parseModule i (.ok j v false)) →
      OneModule E i j ∧ ∀ os, Scan E (i + 2) os j → SafeCuts E (i + 2) j np os ∧ Consistent os)
    {j : Nat} {v : Val} (h : A2l.parse E .parseA2l 0 = .ok j v false) :
    A2l.parse (mtEnv E np sched) .parseA2l 0 = .ok j v false := by
  have hmt := mtGood_seq hs
  have hmt' : MtGood (mtEnv E np sched) := by
    intro _ k hk
    obtain ⟨j, o, e, h1, h2, h3⟩ := (C35_returns hw hs hnp hk).2 (sched k) (hc k hk)
    exact ⟨j, .obj o, e, h1, h2, h3, fun _ => h2⟩
  have h0 : 0 < E.toks.length := by obtain ⟨pre, hp, _⟩ := hw; rw [hp]; simp
  have hw' : Wf (mtEnv E np sched) := hw
  obtain ⟨j1, v1, e1, g1, g2, _⟩ := parse_ok hw hmt .parseA2l (by decide) 0 h0
  rw [h] at g1
  cases g1
  obtain ⟨o, rfl, htop⟩ := (C56_file hw hmt).1 g2
  have hag : AgreeOn E np sched := by
    intro i j o hi hr
    have hlt := (List.getElem?_eq_some_iff.1 hi).1
    obtain ⟨h1, h2⟩ := hmod i j hi ⟨_, hr⟩
    obtain ⟨os, h3, _⟩ := C34_content hw hs hlt h1 hr
    obtain ⟨h4, h5⟩ := h2 os h3
    exact C34_partial hw hs hlt h1 hr h3 hnp h4 h5 (hc i hlt)
  have hr := (C56_file hw' hmt').2 ⟨o, rfl, top_agree hw hs hag htop⟩
  obtain ⟨j2, v2, e2, k1, k2, _⟩ := parse_ok hw' hmt' .parseA2l (by decide) 0 h0
  rw [k1]
  cases hr.unique k2
  rfl

/-- A project with one module with two units, cut between them. -/
def wholeFile : Env := fileEnv [(str! "/begin PROJECT"), (str! "p"), (str! "\"x\""), (str! "/begin MODULE"), (str! "M"), (str! "\"d\""),
  (str! "/begin UNIT"), (str! "m"), (str! "\"one\""), (str! "/end UNIT"),
  (str! "/begin UNIT"), (str! "s"), (str! "\"two\""), (str! "/end UNIT"), (str! "/end MODULE"), (str! "/end PROJECT")]

theorem wholeFile_wf : Wf wholeFile := fileEnv_wf (by decide)

theorem wholeFile_module : ∀ i, wholeFile.toks[i]? = some (str! "/begin MODULE") → i = 3 := by
  intro i h
  have hlt : i < 17 := (List.getElem?_eq_some_iff.1 h).1
  have hall : ∀ i < 17, wholeFile.toks[i]? = some (str! "/begin MODULE") → i = 3 := by decide +kernel
  exact hall i hlt h

/-- Non-vacuity of `C34_file_partial`: under every complete schedule of two workers the file gives the same result as
sequentially. -/
example : ∃ v, A2l.parse wholeFile .parseA2l 0 = .ok 16 v false ∧
    (∃ sched : Nat → List Collect.Op, ∀ i < wholeFile.toks.length, mtModule wholeFile 2 (sched i) i ≠ .timeout) ∧
    ∀ sched : Nat → List Collect.Op, (∀ i < wholeFile.toks.length, mtModule wholeFile 2 (sched i) i ≠ .timeout) →
      A2l.parse (mtEnv wholeFile 2 sched) .parseA2l 0 = .ok 16 v false := by
  obtain ⟨v, hv, h1, h2⟩ := unitAt_ok (E := wholeFile) (p := 6) (e := 9) (name := (str! "m")) (text := (str! "\"one\"")) (by decide +kernel)
  obtain ⟨w, hw, h3, h4⟩ := unitAt_ok (E := wholeFile) (p := 10) (e := 13) (name := (str! "s")) (text := (str! "\"two\"")) (by decide +kernel)
  have hsc : Scan wholeFile 5 [⟨6, 9, 23, v⟩, ⟨10, 13, 23, w⟩] 14 :=
    Scan.obj (s := 5) (K := ⟨(str! "/begin UNIT"), .parseUnit, "Units", some "name"⟩) rfl rfl hv
    (Scan.obj (s := 9) (K := ⟨(str! "/begin UNIT"), .parseUnit, "Units", some "name"⟩) rfl rfl hw (Scan.stop (s := 13) rfl))
  obtain ⟨o, ho⟩ := accepted_ok (r := A2l.parse wholeFile .parseA2l 0) (j := 16) (by decide +kernel)
  obtain ⟨om, _, hr⟩ := accepted_returns (E := wholeFile) (i := 3) (j := 14) (by decide +kernel)
  refine ⟨.obj o, ho, ?_, fun sched hc => C34_file_partial wholeFile_wf rfl (by decide) hc ?_ ho⟩
  · have hex : ∀ i, ∃ s, i < wholeFile.toks.length → mtModule wholeFile 2 s i ≠ .timeout := fun i => by
      by_cases hi : i < wholeFile.toks.length
      · obtain ⟨s, hs⟩ := (C35_returns wholeFile_wf rfl (by decide : 0 < 2) hi).1
        exact ⟨s, fun _ => hs⟩
      · exact ⟨[], fun h => absurd h hi⟩
    exact Classical.skolem.1 hex
  · rintro i j hi ⟨v', hr'⟩
    obtain rfl := wholeFile_module i hi
    cases hr'.unique hr
    refine ⟨oneModule_of (by decide +kernel), fun os hos => ?_⟩
    obtain ⟨rfl, _⟩ := scan_unique hos hsc
    constructor
    · intro k k1 k2 f hf
      have : k = 1 := by omega
      subst this
      simp only [List.mem_cons, List.not_mem_nil, or_false] at hf
      rcases hf with rfl | rfl
      · exact ⟨by show (6 : Nat) ≠ 9; decide, fun _ x hx hx' => by simp only [cut] at hx; simp only at hx'; omega⟩
      · exact ⟨by show (10 : Nat) ≠ 9; decide, fun h => by simp [cut] at h⟩
    · intro f hf g hg _ hn
      have e1 : Found.name ⟨6, 9, 23, v⟩ = (str! "m") := h1
      have e2 : Found.name ⟨10, 13, 23, w⟩ = (str! "s") := h3
      simp only [List.mem_cons, List.not_mem_nil, or_false] at hf hg
      rcases hf with rfl | rfl <;> rcases hg with rfl | rfl
      · rfl
      · rw [e1, e2] at hn; exact absurd hn (by decide)
      · rw [e1, e2] at hn; exact absurd hn (by decide)
      · rfl

/-! ### C56: what is accepted besides -/

/-- What one expects of an accepted file: it has a project. It is false, see `C56_false`. -/
def C56_full : Prop := ∀ (E : Env), Wf E → E.multi = false → ∀ j o, Returns E .parseA2l 0 (.ok j (.obj o) false) →
  ∃ i k, E.toks[i]? = some (str! "/begin PROJECT") ∧ Returns E .parseProject i (.ok k (o "Project") false)

/-- Every text of words that are no keywords is accepted, and the result is empty. -/
theorem C56_words_accepted {E : Env} (hw : Wf E) (hs : MtGood E) {ws : List Str} (ht : E.toks = ws ++ [[]])
    (hk : ∀ t ∈ ws, t ∉ keywords ∧ t ∉ heads.map (·.1)) : Returns E .parseA2l 0 (.ok ws.length (.obj Obj.empty) false) := by
  refine (C56_file hw hs).2 ⟨_, rfl, ?_⟩
  obtain ⟨pre, hp, hne⟩ := hw
  have hne' : ∀ t ∈ ws, t ≠ [] := by
    intro t h1 h2
    subst h2
    rw [ht] at hp
    have := List.append_cancel_right hp
    subst this
    exact hne h1
  have main : ∀ k, k ≤ ws.length → Top E (ws.length - k) Obj.empty ws.length Obj.empty := by
    intro k
    induction k with
    | zero => intro _; exact .stop (by rw [ht]; simp)
    | succ k ih =>
      intro hk'
      have hlt : ws.length - (k + 1) < ws.length := by omega
      have hget : E.toks[ws.length - (k + 1)]? = some (ws[ws.length - (k + 1)]) := by
        rw [ht, List.getElem?_append_left hlt, List.getElem?_eq_getElem hlt]
      have hmem : ws[ws.length - (k + 1)] ∈ ws := List.getElem_mem hlt
      have := ih (by omega)
      refine .word hget (hne' _ hmem) (hk _ hmem).1 (hk _ hmem).2 ?_
      rwa [show ws.length - (k + 1) + 1 = ws.length - k by omega]
  have := main ws.length (Nat.le_refl _)
  rwa [Nat.sub_self] at this

theorem C56_false : ¬ C56_full := by
  intro h
  obtain ⟨i, k, h1, _⟩ := h ⟨[[]], fun _ => false, false, fun _ => .panic⟩ ⟨[], rfl, by simp⟩ rfl 0 _
    (C56_words_accepted ⟨[], rfl, by simp⟩ (mtGood_seq rfl) (ws := []) rfl (by simp))
  have hlt := (List.getElem?_eq_some_iff.1 h1).1
  simp only [List.length_cons, List.length_nil] at hlt
  obtain rfl : i = 0 := by omega
  cases h1

/-- A version number or project in a file. -/
structure Part where
  pos : Nat
  stop : Nat
  tok : Str
  parser : PName
  field : String
  val : Val

/-- C56: the value of each part of the result is that of the last such part of the file; earlier projects are lost. -/
theorem C56_last {E : Env} (hw : Wf E) (hmt : MtGood E) {i j : Nat} {o o' : Obj} (h : Top E i o j o') :
    ∃ ps : List Part, (∀ q ∈ ps, i ≤ q.pos ∧ q.pos ≤ q.stop ∧ E.toks[q.pos]? = some q.tok ∧ (q.tok, q.parser, q.field) ∈ heads ∧
        Returns E q.parser q.pos (.ok q.stop q.val false)) ∧ ps.Pairwise (fun q r => q.stop < r.pos) ∧
      ∀ f, o' f = (((ps.filter (·.field = f)).getLast?).map (·.val)).getD (o f) := by
  induction h with
  | stop => exact ⟨[], by simp, .nil, fun f => rfl⟩
  | word _ _ _ _ _ ih =>
    obtain ⟨ps, h1, h2, h3⟩ := ih
    exact ⟨ps, fun q hq => ⟨by have := (h1 q hq).1; omega, (h1 q hq).2⟩, h2, h3⟩
  | @part i o j o' e t p f v ht hp hr htop ih =>
    obtain ⟨ps, h1, h2, h3⟩ := ih
    have hlt := (List.getElem?_eq_some_iff.1 ht).1
    have hle : i ≤ e := by
      have hne : p ≠ .parseModuleMultithreaded := by
        simp only [heads, List.mem_cons, Prod.mk.injEq, List.not_mem_nil, or_false] at hp
        rcases hp with ⟨_, rfl, _⟩ | ⟨_, rfl, _⟩ | ⟨_, rfl, _⟩ <;> decide
      obtain ⟨_, _, _, _, g1, g2, _⟩ := parse_ok hw hmt p hne i hlt
      cases hr.unique g1
      exact g2
    refine ⟨⟨i, e, t, p, f, v⟩ :: ps, ?_, List.pairwise_cons.2 ⟨fun q hq => ?_, h2⟩, fun g => ?_⟩
    · intro q hq
      rcases List.mem_cons.1 hq with rfl | hq
      · exact ⟨Nat.le_refl _, hle, ht, hp, hr⟩
      · exact ⟨by have := (h1 q hq).1; omega, (h1 q hq).2⟩
    · have := (h1 q hq).1
      show e < q.pos
      omega
    · rw [h3 g]
      by_cases hg : f = g
      · subst hg
        rw [List.filter_cons, if_pos (by simp), getLast?_or_cons, set_same]
        cases (ps.filter (·.field = f)).getLast? <;> rfl
      · rw [List.filter_cons, if_neg (by simpa using hg), set_other (Ne.symm hg)]

/-- The names of the projects of a result. -/
def projectName : PRes → Option Str
  | .ok _ (.obj a) false => some ((a "Project").strField "Name")
  | _ => none

/-- Disagreement: a file with two projects is accepted, the first project is lost. -/
theorem C56_two_projects : projectName (A2l.parse (fileEnv [(str! "/begin PROJECT"), (str! "p"), (str! "\"x\""), (str! "/end PROJECT"),
    (str! "/begin PROJECT"), (str! "q"), (str! "\"y\""), (str! "/end PROJECT")]) .parseA2l 0) = some (str! "q") := by
  decide +kernel

/-- Non-vacuity of `C56_file` and `C56_last`: the example file is described by `Top`, with one part. -/
example : ∃ o : Obj, Top wholeFile 0 Obj.empty 16 o ∧ (o "Project").strField "Name" = (str! "p") := by
  obtain ⟨o, ho⟩ := accepted_ok (r := A2l.parse wholeFile .parseA2l 0) (j := 16) (by decide +kernel)
  have hn : projectName (A2l.parse wholeFile .parseA2l 0) = some (str! "p") := by decide +kernel
  obtain ⟨o', ho', ht⟩ := (C56_file wholeFile_wf (mtGood_seq rfl)).1 (returns_of_run ho (by simp))
  cases ho'
  rw [ho] at hn
  exact ⟨o, ht, Option.some.inj hn⟩

/-- Non-vacuity of `C56_words_accepted`. -/
example : Returns (fileEnv [(str! "hello"), (str! "world")]) .parseA2l 0 (.ok 2 (.obj Obj.empty) false) :=
  C56_words_accepted (fileEnv_wf (by decide)) (mtGood_seq rfl) rfl (by decide +kernel)

end Verif.A2l.Props
