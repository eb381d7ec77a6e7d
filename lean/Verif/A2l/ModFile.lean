import Verif.A2l.ModIff
import Verif.A2l.FileProps

/-!
C34 for whole files, exactly: when the parallel parser gives the result of the sequential one for a file with one module.
-/

namespace Verif.A2l.Props
open Verif.Go Lang Verif.Conc Analysis ModSpec FileSpec File
open Template (fin)

/-- The parallel parser stops at the end of the module. -/
theorem mtModule_stop {E : Env} {np : Nat} {sched : List Collect.Op} {i j : Nat} {v : Val} (h : mtModule E np sched i = .ok j v false) :
    j = endIndex E := by
  unfold mtModule at h
  simp only at h
  split at h
  · simp at h
  · split at h
    · cases h
    · split at h
      · cases h
      · split at h
        · cases h
        · split at h
          · simp only [PRes.ok.injEq] at h; exact h.1.symm
          · cases h

/-- The project of an accepted file is what the project parser returns somewhere. -/
theorem project_of_file {E : Env} (hw : Wf E) (hmt : MtGood E) {J : Nat} {a p : Obj} (h : A2l.parse E .parseA2l 0 = .ok J (.obj a) false)
    (hp : a "Project" = .obj p) : ∃ x y, x < E.toks.length ∧ Returns E .parseProject x (.ok y (.obj p) false) := by
  have h0 : 0 < E.toks.length := by obtain ⟨pre, hp, _⟩ := hw; rw [hp]; simp
  obtain ⟨j1, v1, e1, g1, g2, _⟩ := parse_ok hw hmt .parseA2l (by decide) 0 h0
  rw [h] at g1
  cases g1
  obtain ⟨o, ho, htop⟩ := (C56_file hw hmt).1 g2
  cases ho
  obtain ⟨ps, h1, _, h3⟩ := C56_last hw hmt htop
  have := h3 "Project"
  rw [hp] at this
  cases hl : (ps.filter (·.field = "Project")).getLast? with
  | none => rw [hl] at this; simp [Obj.empty] at this
  | some q =>
    rw [hl] at this
    simp only [Option.map_some, Option.getD_some] at this
    obtain ⟨hq, hf⟩ := List.mem_filter.1 (List.mem_of_getLast? hl)
    obtain ⟨_, _, k1, k2, k3⟩ := h1 q hq
    have hf : q.field = "Project" := by simpa using hf
    rw [hf] at k2
    simp only [heads, List.mem_cons, Prod.mk.injEq, List.not_mem_nil, or_false] at k2
    rcases k2 with ⟨_, _, hh⟩ | ⟨_, _, hh⟩ | ⟨_, hpar, _⟩
    · exact absurd hh (by decide)
    · exact absurd hh (by decide)
    · rw [hpar, ← this] at k3
      exact ⟨q.pos, q.stop, (List.getElem?_eq_some_iff.1 k1).1, k3⟩

/-- The only module of such a file. -/
theorem module_of_file {E : Env} (hw : Wf E) (hmt : MtGood E) {J : Nat} {a p : Obj} {v : Val} (h : A2l.parse E .parseA2l 0 = .ok J (.obj a) false)
    (hp : a "Project" = .obj p) (hm : p.list "Modules" = [v]) {i : Nat} (hi : ∀ k, E.toks[k]? = some (str! "/begin MODULE") → k = i) :
    ∃ y, Returns E (modParser E) i (.ok y v false) := by
  obtain ⟨x, y, hx, hr⟩ := project_of_file hw hmt h hp
  obtain ⟨o, ms, hs, ho, h1, _, h3, _⟩ := project_modules hw hmt hx hr
  cases ho
  rw [hm] at h1
  cases ms with
  | nil => simp at h1
  | cons m ms =>
    simp only [List.map_cons, List.cons.injEq] at h1
    obtain ⟨g1, g2⟩ := h3 m (by simp)
    rw [hi m.pos g1, ← h1.1] at g2
    exact ⟨m.stop, g2⟩

/-- **C34 exactly, for files.** A file with one module, accepted by the sequential parser: the parallel parser gives the same result for the
whole file under every schedule just if the criterion of `C34_iff` holds for the module. -/
theorem C34_file_iff {E : Env} (hw : Wf E) (hs : E.multi = false) {np : Nat} (hnp : 0 < np) {J : Nat} {a p o : Obj}
    (h : A2l.parse E .parseA2l 0 = .ok J (.obj a) false) (hp : a "Project" = .obj p) (hm : p.list "Modules" = [.obj o]) {i j : Nat}
    (hi : ∀ k, E.toks[k]? = some (str! "/begin MODULE") ↔ k = i) (h1 : OneModule E i j) {os : List Found} (hsc : Scan E (i + 2) os j)
    {ps : Nat → List Found} {bs : Nat → Bool} (hpc : Pieces E (i + 2) j np ps bs) :
    (∀ sched : Nat → List Collect.Op, (∀ k < E.toks.length, mtModule E np (sched k) k ≠ .timeout) →
      A2l.parse (mtEnv E np sched) .parseA2l 0 = .ok J (.obj a) false) ↔
      (∀ w < np, bs w = false) ∧ ∀ n name,
        (∀ w < np, ∀ v, lastNamed (ps w) n name = some v → lastNamed os n name = some v) ∧
        (∀ v, lastNamed os n name = some v → ∃ w < np, ∃ v', lastNamed (ps w) n name = some v') := by
  have hmt := mtGood_seq hs
  have hil : i < E.toks.length := (List.getElem?_eq_some_iff.1 ((hi i).2 rfl)).1
  have good : ∀ {sched : Nat → List Collect.Op}, (∀ k < E.toks.length, mtModule E np (sched k) k ≠ .timeout) → MtGood (mtEnv E np sched) := by
    intro sched hc _ k hk
    obtain ⟨j, o, e, h1, h2, h3⟩ := (C35_returns hw hs hnp hk).2 (sched k) (hc k hk)
    exact ⟨j, .obj o, e, h1, h2, h3, fun _ => h2⟩
  have h0 : 0 < E.toks.length := by omega
  obtain ⟨y, hy⟩ := module_of_file hw hmt h hp hm fun k => (hi k).1
  rw [show modParser E = .parseModule by unfold modParser; rw [hs]; rfl] at hy
  have hyj : y = j := h1.only y (C30_partial hw hmt .parseModule (str! "/end MODULE") (by decide) (by decide) (by decide) i hil y _ hy).2
  subst hyj
  have hij : i + 2 < y := (scan_pos hw hmt hsc).1
  have hend : endIndex E = y := endIndex_eq h1.stop fun z hz he => by have := h1.only z he; omega
  rw [← C34_iff hw hs h1 hy hsc hnp hpc]
  constructor
  · intro hall sc hto
    have hex : ∀ k, ∃ s, k < E.toks.length → mtModule E np s k ≠ .timeout := by
      intro k
      by_cases hk : k < E.toks.length
      · obtain ⟨s, hs'⟩ := (C35_returns hw hs hnp hk).1
        exact ⟨s, fun _ => hs'⟩
      · exact ⟨[], fun h => absurd h hk⟩
    obtain ⟨f, hf⟩ := Classical.axiomOfChoice hex
    let sched : Nat → List Collect.Op := fun k => if k = i then sc else f k
    have hc : ∀ k < E.toks.length, mtModule E np (sched k) k ≠ .timeout := by
      intro k hk
      by_cases hki : k = i
      · subst hki; simpa [sched] using hto
      · simpa [sched, hki] using hf k hk
    have hpar := hall sched hc
    obtain ⟨z, hz⟩ := module_of_file (E := mtEnv E np sched) hw (good hc) hpar hp hm fun k => (hi k).1
    have hz : Returns (mtEnv E np sched) .parseModuleMultithreaded i (.ok z (.obj o) false) := hz
    have hres : mtModule E np sc i = .ok z (.obj o) false := by
      obtain ⟨_, n, d, g⟩ := hz
      have := g n (d + 1) (Nat.le_refl _) (by omega)
      rw [run, if_pos rfl] at this
      have h2 : (mtEnv E np sched).mtModule i = mtModule E np sc i := by
        show mtModule E np (sched i) i = _
        simp [sched]
      rw [← h2]
      exact this
    rw [hres, mtModule_stop hres, hend]
  · intro hall sched hc
    obtain ⟨j1, v1, e1, g1, g2, _⟩ := parse_ok hw hmt .parseA2l (by decide) 0 h0
    rw [h] at g1
    cases g1
    obtain ⟨o', ho, htop⟩ := (C56_file hw hmt).1 g2
    cases ho
    have hag : AgreeOn E np sched := by
      intro k j' o' hk hr
      have hki := (hi k).1 hk
      subst hki
      have := hr.unique hy
      simp only [PRes.ok.injEq, Val.obj.injEq, and_true] at this
      obtain ⟨rfl, rfl⟩ := this
      exact hall _ (hc k hil)
    have hr := (C56_file (E := mtEnv E np sched) hw (good hc)).2 ⟨a, rfl, top_agree hw hs hag htop⟩
    obtain ⟨j2, v2, e2, k1, k2, _⟩ := parse_ok (E := mtEnv E np sched) hw (good hc) .parseA2l (by decide) 0 h0
    rw [k1]
    cases hr.unique k2
    rfl

/-- The file is accepted, up to `J`, and has one project with one module. -/
def oneModule? (r : PRes) (J : Nat) : Bool :=
  match r with
  | .ok j (.obj a) false => decide (j = J) && match a "Project" with
    | .obj p => match Obj.list p "Modules" with
      | [.obj _] => true
      | _ => false
    | _ => false
  | _ => false

theorem oneModule?_spec {r : PRes} {J : Nat} (h : oneModule? r J = true) :
    ∃ a p o : Obj, r = .ok J (.obj a) false ∧ a "Project" = .obj p ∧ p.list "Modules" = [.obj o] := by
  unfold oneModule? at h
  split at h
  · next j a =>
    rw [Bool.and_eq_true, decide_eq_true_eq] at h
    obtain ⟨rfl, h⟩ := h
    split at h
    · next p hp =>
      split at h
      · next o hm => exact ⟨a, p, o, rfl, hp, hm⟩
      · simp at h
    · simp at h
  · simp at h

/-- A whole file with the module of which two workers lose the unit `b`. -/
def lostWhole : Env := fileEnv [(str! "/begin PROJECT"), (str! "p"), (str! "\"x\""), (str! "/begin MODULE"), (str! "M"), (str! "\"d\""),
  (str! "/begin UNIT"), (str! "a"), (str! "\"x\""), (str! "/end UNIT"),
  (str! "/begin UNIT"), (str! "b"), (str! "\"y\""), (str! "\"z\""), (str! "/end UNIT"), (str! "/end MODULE"), (str! "/end PROJECT")]

theorem lostWhole_module (k : Nat) : lostWhole.toks[k]? = some (str! "/begin MODULE") ↔ k = 3 := by
  constructor
  · intro h
    have hlt : k < 18 := (List.getElem?_eq_some_iff.1 h).1
    have hall : ∀ i < 18, lostWhole.toks[i]? = some (str! "/begin MODULE") → i = 3 := by decide +kernel
    exact hall k hlt h
  · rintro rfl; rfl

/-- The criterion fails for it, so under some complete schedule the result for the file is another one. -/
example : ∃ a : Obj, A2l.parse lostWhole .parseA2l 0 = .ok 17 (.obj a) false ∧
    ∃ sched : Nat → List Collect.Op, (∀ k < lostWhole.toks.length, mtModule lostWhole 2 (sched k) k ≠ .timeout) ∧
      A2l.parse (mtEnv lostWhole 2 sched) .parseA2l 0 ≠ .ok 17 (.obj a) false := by
  have hwf : Wf lostWhole := fileEnv_wf (by decide)
  obtain ⟨v, hv, h1, h2⟩ := unitAt_ok (E := lostWhole) (p := 6) (e := 9) (name := (str! "a")) (text := (str! "\"x\"")) (by decide +kernel)
  obtain ⟨w, hw, h3, h4⟩ := unitAt_ok (E := lostWhole) (p := 10) (e := 14) (name := (str! "b")) (text := (str! "\"z\"")) (by decide +kernel)
  have hsc : Scan lostWhole 5 [⟨6, 9, 23, v⟩, ⟨10, 14, 23, w⟩] 15 :=
    Scan.obj (s := 5) (K := ⟨(str! "/begin UNIT"), .parseUnit, "Units", some "name"⟩) rfl rfl hv
    (Scan.obj (s := 9) (K := ⟨(str! "/begin UNIT"), .parseUnit, "Units", some "name"⟩) rfl rfl hw (Scan.stop (s := 14) rfl))
  obtain ⟨a, p, o, ha, hp, hm⟩ := oneModule?_spec (r := A2l.parse lostWhole .parseA2l 0) (J := 17) (by decide +kernel)
  have hpc : Pieces lostWhole (3 + 2) 15 2 (fun w' => if w' = 0 then [⟨6, 9, 23, v⟩] else []) (fun _ => false) := by
    intro k hk
    have : k = 0 ∨ k = 1 := by omega
    rcases this with rfl | rfl
    · exact Share.obj (lim := 10) (x := 5) (K := ⟨(str! "/begin UNIT"), .parseUnit, "Units", some "name"⟩) (by decide) rfl rfl hv
        (Share.limit (by decide))
    · exact Share.skip (lim := 16) (x := 10) (by decide) rfl (by decide) (by decide) (opensDec (by decide +kernel))
        (Share.skip (by decide) rfl (by decide) (by decide) (opensDec (by decide +kernel))
          (Share.skip (by decide) rfl (by decide) (by decide) (opensDec (by decide +kernel))
            (Share.skip (by decide) rfl (by decide) (by decide) (opensDec (by decide +kernel))
              (Share.stop (by decide) rfl))))
  refine ⟨a, ha, Classical.byContradiction fun hno => ?_⟩
  have hall : ∀ sched : Nat → List Collect.Op, (∀ k < lostWhole.toks.length, mtModule lostWhole 2 (sched k) k ≠ .timeout) →
      A2l.parse (mtEnv lostWhole 2 sched) .parseA2l 0 = .ok 17 (.obj a) false := fun sched h1 =>
    Classical.byContradiction fun h2 => hno ⟨sched, h1, h2⟩
  have e1 : Found.name ⟨6, 9, 23, v⟩ = (str! "a") := h1
  have e2 : Found.name ⟨10, 14, 23, w⟩ = (str! "b") := h3
  obtain ⟨k, hk, x, hx⟩ := (((C34_file_iff hwf rfl (by decide) ha hp hm lostWhole_module (oneModule_of (by decide +kernel)) hsc hpc).1 hall).2 23
    (str! "b")).2 w (by simp [lastNamed, e1, e2])
  have : k = 0 ∨ k = 1 := by omega
  rcases this with rfl | rfl
  · simp [lastNamed, e1] at hx
  · simp [lastNamed] at hx


end Verif.A2l.Props
