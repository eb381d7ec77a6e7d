import Verif.A2l.Rename

/-! C104, second part: the parallel module parser. -/

namespace Verif.A2l.Rename
open Verif.Go Verif.A2l Lang Verif.Conc

variable {f : Str → Str} {E : Env}

/-! ### The goroutines do not look at the objects they pass on -/

section
variable {α β : Type} (g : α → β)

def mapM (l : List (Nat × α)) : List (Nat × β) := l.map fun x => (x.1, g x.2)

def mapW (w : Collect.Worker α) : Collect.Worker β := { todo := mapM g w.todo, done := w.done }

def mapC (c : Collect.Chan α) : Collect.Chan β :=
  { buf := mapM g c.buf, cap := c.cap, closed := c.closed, acc := mapM g c.acc, fin := c.fin }

def mapS (s : Collect.State α) : Collect.State β :=
  { ws := s.ws.map (mapW g), chans := s.chans.map (mapC g), closing := s.closing, crashed := s.crashed }

theorem mapM_isEmpty (l : List (Nat × α)) : (mapM g l).isEmpty = l.isEmpty := by cases l <;> rfl

theorem step_map (s : Collect.State α) (o : Collect.Op) : Collect.step (mapS g s) o = (Collect.step s o).map (mapS g) := by
  cases o with
  | send i =>
    simp only [Collect.step, mapS, List.getElem?_map]
    cases s.ws[i]? with
    | none => rfl
    | some w =>
      obtain ⟨todo, done⟩ := w
      cases todo with
      | nil => rfl
      | cons x t =>
        obtain ⟨k, x⟩ := x
        simp only [Option.map_some, mapW, mapM, List.map_cons]
        cases s.chans[k]? with
        | none => rfl
        | some c =>
          simp only [Option.map_some, mapC, mapM, List.length_map]
          split
          · simp [mapS]
          · split <;> simp [mapS, mapW, mapC, mapM, List.map_set]
  | exit i =>
    simp only [Collect.step, mapS, List.getElem?_map]
    cases s.ws[i]? with
    | none => rfl
    | some w =>
      simp only [Option.map_some, mapW, mapM_isEmpty]
      split <;> simp [mapS, mapW, List.map_set]
  | close =>
    simp only [Collect.step, mapS, List.getElem?_map]
    cases s.chans[s.closing]? with
    | none => rfl
    | some c =>
      have e : (s.ws.map (mapW g)).all (·.done) = s.ws.all (·.done) := by simp [List.all_map, Function.comp_def, mapW]
      simp only [Option.map_some, e]
      split <;> simp [mapS, mapC, List.map_set]
  | recv k =>
    simp only [Collect.step, mapS, List.getElem?_map]
    cases s.chans[k]? with
    | none => rfl
    | some c =>
      obtain ⟨buf, cap, closed, acc, fin⟩ := c
      cases buf with
      | nil => rfl
      | cons x b => simp [mapS, mapC, mapM, List.map_set]
  | fin k =>
    simp only [Collect.step, mapS, List.getElem?_map]
    cases s.chans[k]? with
    | none => rfl
    | some c =>
      simp only [Option.map_some, mapC, mapM_isEmpty]
      split <;> simp [mapS, mapC, List.map_set]

theorem run_map (os : List Collect.Op) : ∀ s : Collect.State α, Collect.run (mapS g s) os = (Collect.run s os).map (mapS g) := by
  induction os with
  | nil => intro s; rfl
  | cons o os ih =>
    intro s
    simp only [Collect.run, step_map]
    cases Collect.step s o with
    | none => rfl
    | some s' => simpa using ih s'

theorem init_map (caps : List Nat) (sc : List (List (Nat × α))) : Collect.init caps (sc.map (mapM g)) = mapS g (Collect.init caps sc) := by
  simp [Collect.init, mapS, mapW, mapC, mapM, Function.comp_def]

theorem finished_map (s : Collect.State α) : (mapS g s).finished = s.finished := by
  simp [Collect.State.finished, mapS, List.all_map, Function.comp_def, mapC]
end

theorem received_map (g : Val → Val) (s : Collect.State Val) (k : Nat) : received (mapS g s) k = (received s k).map g := by
  simp only [received, mapS, List.getElem?_map]
  cases s.chans[k]? with
  | none => rfl
  | some c => simp [mapC, mapM, Function.comp_def]

/-! ### The workers -/

theorem channel_words : ∀ c ∈ channels, c.tok ∈ keywords := by
  have h : channels.all (fun c => keywords.contains c.tok) = true := by decide +kernel
  intro c hc
  have := List.all_eq_true.1 h c hc
  simpa using this

theorem end_word : endModuleToken ∈ keywords := by
  have h : keywords.contains endModuleToken = true := by decide +kernel
  simpa using h

theorem findCase_ren (hi : ∀ t, f (f t) = t) (t : Str) : ∀ (cs : List ModCase) (k : Nat), (∀ c ∈ cs, f c.tok = c.tok) → findCase (f t) k cs = findCase t k cs := by
  intro cs
  induction cs with
  | nil => intro k _; rfl
  | cons c cs ih =>
    intro k hc
    have e := eq_iff hi (hc c (by simp)) t
    simp only [findCase]
    by_cases h : c.tok = t
    · rw [if_pos h, if_pos (e.2 h.symm).symm]
    · rw [if_neg h, if_neg (fun hh => h (e.1 hh.symm).symm)]
      exact ih (k + 1) (fun c' h' => hc c' (by simp [h']))

theorem nextIdx_ren (i : Nat) : nextIdx (renE f E) i = nextIdx E i := by
  simp only [nextIdx, hasNext_ren]

theorem nextTok_ren (h0 : f [] = []) (i : Nat) : nextTok (renE f E) i = f (nextTok E i) := by
  simp only [nextTok, hasNext_ren]
  split
  · exact current_ren h0 _
  · exact h0.symm

theorem worker_ren (h : Renames f E.floatOk) (max : Int) (n : Nat) : ∀ i, worker (renE f E) max n i = (worker E max n i).map (mapM (ren f)) := by
  induction n with
  | zero => intro i; rfl
  | succ n ih =>
    intro i
    simp only [worker, nextTok_ren h.nil, nextIdx_ren, current_ren h.nil]
    rw [findCase_ren h.inv _ channels 1 (fun c hc => h.kw _ (channel_words c hc))]
    split
    · rfl
    · cases findCase (nextTok E i) 1 channels with
      | some kc =>
        obtain ⟨k, c⟩ := kc
        simp only [parse_ren h]
        cases parse E c.parser (nextIdx E i) with
        | ok j v e =>
          simp only [renP]
          split
          · rfl
          · rw [ih]
            cases worker E max n j <;> simp [mapM]
        | panic => rfl
        | timeout => rfl
      | none =>
        have e1 : f (E.current (nextIdx E i)) = emptyToken ↔ E.current (nextIdx E i) = emptyToken := eq_iff h.inv h.nil _
        have e2 : f (E.current (nextIdx E i)) = endModuleToken ↔ E.current (nextIdx E i) = endModuleToken :=
          eq_iff h.inv (h.kw _ end_word) _
        simp only [e1, e2]
        split
        · rfl
        · split
          · rfl
          · split
            · rfl
            · exact ih _

theorem mapM_option {α β γ : Type} (F : α → Option β) (G : α → Option γ) (q : β → γ) (hF : ∀ a, G a = (F a).map q) (l : List α) :
    l.mapM G = (l.mapM F).map (List.map q) := by
  induction l with
  | nil => simp
  | cons a l ih =>
    simp only [List.mapM_cons, hF, ih]
    cases F a with
    | none => rfl
    | some b =>
      cases l.mapM F <;> rfl

theorem scripts_ren (h : Renames f E.floatOk) (np start stop : Nat) :
    scripts (renE f E) np start stop = (scripts E np start stop).map (List.map (mapM (ren f))) := by
  unfold scripts
  apply mapM_option
  intro k
  have e : (renE f E).toks.length = E.toks.length := by simp [renE]
  rw [e]
  exact worker_ren h _ _ _

theorem endIndex_ren (h : Renames f E.floatOk) : endIndex (renE f E) = endIndex E := by
  simp only [endIndex, renE, List.findIdx?_map]
  congr 2
  funext t
  simp only [Function.comp]
  exact decide_eq_decide.2 (eq_iff h.inv (h.kw _ end_word) t)

/-! ### The module -/

theorem newModule_ren : renObj f newModule = newModule := by
  have aux : ∀ (l : List String) (o : Obj), renObj f (l.foldl (fun o g => o.set g (.map fun _ => none)) o) = l.foldl (fun o g => o.set g (.map fun _ => none)) (renObj f o) := by
    intro l
    induction l with
    | nil => intro o; rfl
    | cons g l ih => intro o; simp only [List.foldl_cons, ih, ren_set]; rfl
  unfold newModule
  rw [aux]
  rfl

theorem header_ren (h : Renames f E.floatOk) (i : Nat) :
    header (renE f E) i = ((header E i).1, renObj f (header E i).2.1, (header E i).2.2) := by
  have e : ∀ j, f (E.current j) = emptyToken ↔ E.current j = emptyToken := fun j => eq_iff h.inv h.nil _
  simp only [header, nextIdx_ren, current_ren h.nil, e]
  split
  · simp [newModule_ren]
  · split <;> simp [ren_set, newModule_ren, ren]

theorem map_ren (o : Obj) (g : String) : (renObj f o).map g = fun k => renO f (o.map g (f k)) := by
  simp only [renObj, Obj.map]
  cases o g <;> simp [ren, renO]

theorem collectOne_ren (h : Renames f E.floatOk) (c : ModCase) (o : Obj) (v : Val) :
    collectOne c (renObj f o) (ren f v) = renObj f (collectOne c o v) := by
  simp only [collectOne]
  cases c.key with
  | none => simp [ren_set]
  | some key => simp only [ren_set, ren_mapSet h.inv, map_ren, ren_strField h.nil]

theorem foldl_ren (h : Renames f E.floatOk) (c : ModCase) (l : List Val) : ∀ o, (l.map (ren f)).foldl (collectOne c) (renObj f o) = renObj f (l.foldl (collectOne c) o) := by
  induction l with
  | nil => intro o; rfl
  | cons v l ih => intro o; simp only [List.map_cons, List.foldl_cons, collectOne_ren h, ih]

theorem collectAll_ren (h : Renames f E.floatOk) (acc acc' : Nat → List Val) (ha : ∀ k, acc' k = (acc k).map (ren f)) :
    ∀ (cs : List ModCase) (k : Nat) (o : Obj), collectAll acc' k cs (renObj f o) = renObj f (collectAll acc k cs o) := by
  intro cs
  induction cs with
  | nil => intro k o; rfl
  | cons c cs ih => intro k o; simp only [collectAll, ha, foldl_ren h, ih]

theorem mtModule_ren (h : Renames f E.floatOk) (np : Nat) (sched : List Collect.Op) (i : Nat) :
    mtModule (renE f E) np sched i = renP f (mtModule E np sched i) := by
  simp only [mtModule, header_ren h, endIndex_ren h, scripts_ren h]
  split
  · rfl
  · cases scripts E np (header E i).1 (endIndex E) with
    | none => rfl
    | some ss =>
      simp only [Option.map_some, init_map, run_map]
      cases Collect.run (Collect.init (capacities np) ss) sched with
      | none => rfl
      | some s =>
        have e : (mapS (ren f) s).crashed = s.crashed := rfl
        simp only [Option.map_some, finished_map, received_map, e]
        split
        · rfl
        · split
          · rw [collectAll_ren h (received s) (received (mapS (ren f) s)) (received_map _ s)]
            cases received s errChan with
            | nil => simp [renP, ren]; rfl
            | cons x l => 
              simp only [renP, ren, List.map_cons]
              rw [show Val.list (ren f x :: l.map (ren f)) = ren f (.list (x :: l)) by simp [ren, renL_map]]
              simp only [reduceCtorEq, if_false, List.isEmpty_cons]
              congr 2
              exact (ren_set _ _ _).symm
          · rfl

/-- The parallel parse of the renamed tokens. -/
theorem mtEnv_ren (h : Renames f E.floatOk) (np : Nat) (sched : Nat → List Collect.Op) :
    mtEnv (renE f E) np sched = renE f (mtEnv E np sched) := by
  simp only [mtEnv, renE]
  congr 1
  funext i
  exact mtModule_ren h np (sched i) i

end Verif.A2l.Rename
