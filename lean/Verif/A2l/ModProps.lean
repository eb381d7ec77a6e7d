import Verif.A2l.ModLemmas

/-!
Property C35: the parallel module parser (a2l/module.go:327-1005) ends without deadlock and
loses nothing. With it C28 for files with one module, which are parsed in parallel.

`E` gives the tokens (and which tokens `strconv.ParseFloat` accepts); `np` is the number of
workers, `NumCPU()*2` in the code.
-/

namespace Verif.A2l.Props
open Verif.Go Lang Verif.Conc Analysis

theorem mtGood_seq {E : Env} (hs : E.multi = false) : MtGood E := fun h => by rw [hs] at h; cases h

/-- Worker `w` of `np`, with the module's objects between the tokens `start` and `stop`,
sends `v` on channel `k`. -/
def Sent (E : Env) (np start stop k : Nat) (v : Val) : Prop :=
  ∃ w < np, ∃ l, worker E (maxIndex start stop np w) (E.toks.length + 1) (minIndex start stop np w) = some l ∧
    (k, v) ∈ l

theorem sent_iff {E : Env} (hw : Wf E) (hs : E.multi = false) {np start stop : Nat} {ss : List (List (Nat × Val))}
    (h1 : start ≤ stop) (h2 : stop < E.toks.length) (hss : scripts E np start stop = some ss) (k : Nat) (v : Val) :
    Sent E np start stop k v ↔ ∃ sc ∈ ss, (k, v) ∈ sc := by
  obtain ⟨ss', h3, h4, h5, _⟩ := scripts_total (np := np) hw (mtGood_seq hs) h1 h2
  rw [hss] at h3
  simp only [Option.some.injEq] at h3
  subst h3
  constructor
  · rintro ⟨w, hwn, l, hl, hm⟩
    have := h5 w hwn
    rw [hl] at this
    exact ⟨l, List.mem_of_getElem? this, hm⟩
  · rintro ⟨sc, hsc, hm⟩
    obtain ⟨w, hwl, rfl⟩ := List.getElem_of_mem hsc
    have := h5 w (by omega)
    rw [List.getElem?_eq_getElem hwl] at this
    exact ⟨w, by omega, _, this.symm, hm⟩

/-! ### C35: no deadlock -/

/-- C35, first part: whatever the goroutines have done so far, no goroutine has sent on a
closed channel, and unless all collectors have returned some goroutine can go on. -/
theorem C35_no_deadlock {E : Env} (hw : Wf E) (hs : E.multi = false) {np : Nat} (hn : 0 < np)
    {start stop : Nat} (h1 : start ≤ stop) (h2 : stop < E.toks.length) {ss : List (List (Nat × Val))}
    (hss : scripts E np start stop = some ss) (ops : List Collect.Op) (s : Collect.State Val)
    (hr : Collect.run (Collect.init (capacities np) ss) ops = some s) :
    s.crashed = false ∧ (s.finished = false → ∃ o s', Collect.step s o = some s') := by
  have hinv := Collect.run_inv _ _ _ (Collect.inv_init (capacities np) ss) hr
  refine ⟨hinv.crash, fun hf => ?_⟩
  obtain ⟨ss', h3, _, _, h6⟩ := scripts_total (np := np) hw (mtGood_seq hs) h1 h2
  rw [hss] at h3
  simp only [Option.some.injEq] at h3
  subst h3
  exact Collect.progress hinv (capacities_pos hn) h6 hf

theorem left_init {α : Type} (caps : List Nat) (ss : List (List (Nat × α))) :
    (Collect.init caps ss).left = 3 * (ss.map List.length).sum + ss.length + 2 * caps.length := by
  have h1 : ((ss.map fun s => ({ todo := s, done := false } : Collect.Worker α)).map Collect.Worker.left).sum =
      3 * (ss.map List.length).sum + ss.length := by
    induction ss with
    | nil => rfl
    | cons a l ih =>
      simp only [List.map_cons, List.sum_cons, List.length_cons, Collect.Worker.left] at ih ⊢
      rw [ih]
      simp
      omega
  have h2 : ((caps.map fun c => ({ buf := [], cap := c, closed := false, acc := [], fin := false } :
      Collect.Chan α)).map Collect.Chan.left).sum = caps.length := by
    clear h1
    induction caps with
    | nil => rfl
    | cons a l ih =>
      simp only [List.map_cons, List.sum_cons, List.length_cons, Collect.Chan.left] at ih ⊢
      rw [ih]
      simp
      omega
  simp only [Collect.init, Collect.State.left, h1, h2, List.length_map]
  omega

/-- C35, second part: no schedule goes on forever. A run has at most three steps per message,
one per worker and two per channel. -/
theorem C35_terminates {np : Nat} {ss : List (List (Nat × Val))} (ops : List Collect.Op)
    (s : Collect.State Val) (hr : Collect.run (Collect.init (capacities np) ss) ops = some s) :
    ops.length ≤ 3 * (ss.map List.length).sum + ss.length + 54 := by
  have := Collect.run_length _ _ _ (Collect.inv_init (capacities np) ss) hr
  rw [left_init, capacities_length] at this
  omega

/-- The workers themselves return, for every split of the token list. -/
theorem C35_workers_return {E : Env} (hw : Wf E) (hs : E.multi = false) {max : Int} {i : Nat}
    (hi : i < E.toks.length) : ∃ l, worker E max (E.toks.length + 1) i = some l :=
  worker_total hw (mtGood_seq hs) _ _ hi (by omega)

/-- C35, third part: the call returns. There is a complete schedule, and under every complete
schedule (`timeout` marks the others) the result is a module with or without error; the cursor
does not move backwards and stays inside the token list. -/
theorem C35_returns {E : Env} (hw : Wf E) (hs : E.multi = false) {np : Nat} (hn : 0 < np) {i : Nat}
    (hi : i < E.toks.length) :
    (∃ sched, mtModule E np sched i ≠ .timeout) ∧
    ∀ sched, mtModule E np sched i ≠ .timeout →
      ∃ j o e, mtModule E np sched i = .ok j (.obj o) e ∧ i ≤ j ∧ j < E.toks.length := by
  have hmt := mtGood_seq hs
  have hh := header_idx hi
  refine ⟨?_, fun sched hc => ?_⟩
  · by_cases h : endIndex E ≤ (header E i).1
    · refine ⟨[], ?_⟩
      unfold mtModule
      simp only
      rw [if_pos h]
      simp
    · obtain ⟨ss, h1, _, _, h4⟩ := scripts_total (np := np) hw hmt (start := (header E i).1) (stop := endIndex E)
        (by omega) (endIndex_lt hw.pos)
      obtain ⟨ops, s, h5, h6⟩ := Collect.run_complete (capacities_pos hn) h4 _
        (Collect.init (capacities np) ss) (Nat.le_refl _) (Collect.inv_init _ _)
      refine ⟨ops, ?_⟩
      have hinv := Collect.run_inv _ _ _ (Collect.inv_init (capacities np) ss) h5
      unfold mtModule
      simp only [if_neg h, h1, h5, hinv.crash, h6]
      simp
  · rcases mtModule_cases hw hmt hi hc with ⟨_, h⟩ | ⟨hlt, ss, s, _, _, _, _, h⟩
    · exact ⟨_, _, _, h, hh.1, hh.2⟩
    · exact ⟨_, _, _, h, by omega, endIndex_lt hw.pos⟩

/-! ### C35: nothing is lost -/

/-- What a complete call has done: the goroutines have run to the end in state `s`, and every
field of the module holds what its collector has made of the messages. -/
structure MtRun (E : Env) (np start j : Nat) (o0 o : Obj) (e0 e : Bool) (ss : List (List (Nat × Val)))
    (s : Collect.State Val) : Prop where
  scripts : scripts E np start (endIndex E) = some ss
  inv : Collect.Inv (capacities np) ss s
  fin : s.finished = true
  idx : j = endIndex E
  sent : ∀ k v, k < 27 → (v ∈ received s k ↔ Sent E np start (endIndex E) k v)
  field : ∀ (n : Nat) (c : ModCase), channels[n]? = some c →
    o c.field = ((received s (n + 1)).foldl (collectOne c) o0) c.field
  init : ∀ (n : Nat) (c : ModCase), channels[n]? = some c → o0 c.field = newModule c.field
  other : ∀ f, f ∉ channels.map (·.field) → f ≠ "errors" → o f = o0 f
  errors : o "errors" = if received s 0 = [] then .zero else .list (received s 0)
  err : e = (e0 || !(received s 0).isEmpty)

theorem header_fields {E : Env} {i start : Nat} {o0 : Obj} {e0 : Bool} (hh : header E i = (start, o0, e0))
    (f : String) (hf : f ∉ ["Name", "nameSet", "longIdentifier", "longIdentifierSet"]) : o0 f = newModule f := by
  simp only [List.mem_cons, List.not_mem_nil, or_false, not_or] at hf
  unfold header at hh
  simp only at hh
  split at hh
  · simp only [Prod.mk.injEq] at hh; rw [← hh.2.1]
  · split at hh
    · simp only [Prod.mk.injEq] at hh; rw [← hh.2.1, set_other hf.2.1, set_other hf.1]
    · simp only [Prod.mk.injEq] at hh
      rw [← hh.2.1, set_other hf.2.2.2, set_other hf.2.2.1, set_other hf.2.1, set_other hf.1]

theorem channel_lt {n : Nat} {c : ModCase} (hn : channels[n]? = some c) : n + 1 < 27 := by
  have := (List.getElem?_eq_some_iff.1 hn).1
  rw [channels_length] at this
  omega

theorem mt_run_sched {E : Env} (hw : Wf E) (hs : E.multi = false) {np : Nat} {i : Nat}
    (hi : i < E.toks.length) {sched : List Collect.Op} {start j : Nat} {o0 o : Obj} {e0 e : Bool}
    (hh : header E i = (start, o0, e0)) (hend : start < endIndex E)
    (hc : mtModule E np sched i = .ok j (.obj o) e) :
    ∃ ss s, Collect.run (Collect.init (capacities np) ss) sched = some s ∧ MtRun E np start j o0 o e0 e ss s := by
  have hmt := mtGood_seq hs
  have hlt := endIndex_lt hw.pos
  rcases mtModule_cases hw hmt hi (by rw [hc]; simp) with ⟨h, _⟩ | ⟨_, ss, s, h1, h2, h3, h4, h5⟩
  · rw [hh] at h; simp only at h; omega
  rw [hh] at h1 h5
  simp only at h1 h5
  rw [hc] at h5
  simp only [PRes.ok.injEq, Val.obj.injEq] at h5
  obtain ⟨hj, ho, he⟩ := h5
  have hnd := channels_fields
  rw [List.nodup_append] at hnd
  have h0 := header_fields hh
  refine ⟨ss, s, h2, { scripts := h1, inv := h4, fin := h3, idx := hj, err := he, sent := ?_, field := ?_, init := ?_, other := ?_, errors := ?_ }⟩
  · intro k v hk
    rw [received_iff h4 h3 hk, sent_iff hw hs (Nat.le_of_lt hend) hlt h1]
  · intro n c hn
    have hm : c.field ∈ channels.map (·.field) := List.mem_map.2 ⟨c, List.mem_of_getElem? hn, rfl⟩
    have hne : c.field ≠ "errors" := hnd.2.2 _ hm _ (by simp)
    have : o c.field = (collectAll (received s) 1 channels o0) c.field := by
      rw [ho]
      split
      · rfl
      · exact set_other hne
    rw [this, collectAll_field channels 1 o0 n c hnd.1 hn, Nat.add_comm]
  · intro n c hn
    have hm : c.field ∈ channels.map (·.field) := List.mem_map.2 ⟨c, List.mem_of_getElem? hn, rfl⟩
    apply h0
    intro hin
    exact hnd.2.2 _ hm _ (List.mem_cons_of_mem _ hin) rfl
  · intro f hf hne
    have : o f = (collectAll (received s) 1 channels o0) f := by
      rw [ho]
      split
      · rfl
      · exact set_other hne
    rw [this, collectAll_other channels 1 o0 hf]
  · have hin : "errors" ∉ channels.map (·.field) := fun h => hnd.2.2 _ h _ (by simp) rfl
    rw [ho]
    show _ = if received s errChan = [] then _ else _
    split
    · rw [collectAll_other channels 1 o0 hin, h0 _ (by decide)]
      exact newModule_fields.2 _ (by decide +kernel)
    · exact set_same _ _ _

theorem mt_run {E : Env} (hw : Wf E) (hs : E.multi = false) {np : Nat} {i : Nat}
    (hi : i < E.toks.length) {sched : List Collect.Op} {start j : Nat} {o0 o : Obj} {e0 e : Bool}
    (hh : header E i = (start, o0, e0)) (hend : start < endIndex E)
    (hc : mtModule E np sched i = .ok j (.obj o) e) : ∃ ss s, MtRun E np start j o0 o e0 e ss s :=
  let ⟨ss, s, _, h⟩ := mt_run_sched hw hs hi hh hend hc
  ⟨ss, s, h⟩

namespace MtRun
variable {E : Env} {np start j : Nat} {o0 o : Obj} {e0 e : Bool} {ss : List (List (Nat × Val))}
  {s : Collect.State Val}

/-- A map of the module: under every name the object collected last. -/
theorem map_eq (h : MtRun E np start j o0 o e0 e ss s) {n : Nat} {c : ModCase} {key : String}
    (hn : channels[n]? = some c) (hk : c.key = some key) : ∃ m, o c.field = .map m ∧
    ∀ name, m name = ((received s (n + 1)).filter (fun v => v.strField key = name)).getLast? := by
  obtain ⟨m, hm, hmn⟩ := foldl_map hk (received s (n + 1)) o0 (newModule_map hn hk (h.init n c hn))
  refine ⟨m, by rw [h.field n c hn, hm], fun name => ?_⟩
  rw [hmn]
  have : o0.map c.field name = none := by
    unfold Obj.map
    rw [h.init n c hn, newModule_fields.1 _ (key_field hn hk)]
  simp [this]

/-- A single value of the module: the one collected last. -/
theorem single_eq (h : MtRun E np start j o0 o e0 e ss s) {n : Nat} {c : ModCase}
    (hn : channels[n]? = some c) (hk : c.key = none) :
    o c.field = ((received s (n + 1)).getLast?).getD .zero := by
  rw [h.field n c hn, foldl_single hk, h.init n c hn, newModule_single hn hk]

end MtRun

/-- `C35_no_loss` in terms of the rows of the model: under every complete schedule, when the module has an end token,
every object a worker has sent is in the result under its name, unless an object of the same
kind and name has replaced it; the result has no other objects; and an error is reported just
when a worker has sent one or the module's name and description are missing. -/
theorem no_loss_channels {E : Env} (hw : Wf E) (hs : E.multi = false) {np : Nat} {i : Nat}
    (hi : i < E.toks.length) {sched : List Collect.Op} {start j : Nat} {o0 o : Obj} {e0 e : Bool}
    (hh : header E i = (start, o0, e0)) (hend : start < endIndex E)
    (hc : mtModule E np sched i = .ok j (.obj o) e) :
    (∀ (n : Nat) (c : ModCase) (key : String), channels[n]? = some c → c.key = some key →
      (∀ v, Sent E np start (endIndex E) (n + 1) v → ∃ v', o.map c.field (v.strField key) = some v') ∧
      (∀ name v', o.map c.field name = some v' →
        Sent E np start (endIndex E) (n + 1) v' ∧ v'.strField key = name)) ∧
    (∀ (n : Nat) (c : ModCase), channels[n]? = some c → c.key = none →
      (∀ v, Sent E np start (endIndex E) (n + 1) v → Sent E np start (endIndex E) (n + 1) (o c.field)) ∧
      ((∀ v, ¬ Sent E np start (endIndex E) (n + 1) v) → o c.field = .zero)) ∧
    (e = true ↔ e0 = true ∨ ∃ v, Sent E np start (endIndex E) 0 v) := by
  obtain ⟨ss, s, hrun⟩ := mt_run hw hs hi hh hend hc
  refine ⟨?_, ?_, ?_⟩
  · intro n c key hn hk
    obtain ⟨m, hm, hmn⟩ := hrun.map_eq hn hk
    have hom : o.map c.field = m := by unfold Obj.map; rw [hm]
    constructor
    · intro v hv
      rw [hom, hmn]
      have hin := (hrun.sent _ v (channel_lt hn)).2 hv
      cases hl : ((received s (n + 1)).filter (fun v' => v'.strField key = v.strField key)).getLast? with
      | some v' => exact ⟨v', rfl⟩
      | none =>
        rw [List.getLast?_eq_none_iff, List.filter_eq_nil_iff] at hl
        exact absurd (by simp) (hl v hin)
    · intro name v' hv'
      rw [hom, hmn] at hv'
      have := List.mem_of_getLast? hv'
      simp only [List.mem_filter, decide_eq_true_eq] at this
      exact ⟨(hrun.sent _ v' (channel_lt hn)).1 this.1, this.2⟩
  · intro n c hn hk
    have hof := hrun.single_eq hn hk
    constructor
    · intro v hv
      have hin := (hrun.sent _ v (channel_lt hn)).2 hv
      cases hl : (received s (n + 1)).getLast? with
      | none => rw [List.getLast?_eq_none_iff] at hl; rw [hl] at hin; cases hin
      | some v' =>
        rw [hl] at hof
        rw [hof]
        exact (hrun.sent _ v' (channel_lt hn)).1 (List.mem_of_getLast? hl)
    · intro hno
      have : received s (n + 1) = [] := by
        apply List.eq_nil_iff_forall_not_mem.2
        intro v hv
        exact hno v ((hrun.sent _ v (channel_lt hn)).1 hv)
      rw [hof, this]
      rfl
  · rw [hrun.err]
    simp only [Bool.or_eq_true, Bool.not_eq_true', List.isEmpty_eq_false_iff]
    constructor
    · rintro (h | h)
      · exact Or.inl h
      · obtain ⟨v, hv⟩ := List.exists_mem_of_ne_nil _ h
        exact Or.inr ⟨v, (hrun.sent _ v (by decide)).1 hv⟩
    · rintro (h | ⟨v, hv⟩)
      · exact Or.inl h
      · exact Or.inr (List.ne_nil_of_mem ((hrun.sent _ v (by decide)).2 hv))

/-! ### C28 with the parallel module parser -/

/-- C28 for files parsed in parallel: if every call of the parallel module parser gets a
complete schedule, every parse function returns, from every position. -/
theorem C28_multithreaded {E : Env} (hw : Wf E) (hs : E.multi = false) {np : Nat} (hn : 0 < np)
    {sched : Nat → List Collect.Op} (hc : ∀ i < E.toks.length, mtModule E np (sched i) i ≠ .timeout)
    (p : PName) (hp : p ≠ .parseModuleMultithreaded) (i : Nat) (hi : i < E.toks.length) :
    ∃ i' v e, Returns (mtEnv E np sched) p i (.ok i' v e) ∧ i ≤ i' ∧ i' < E.toks.length := by
  have hmt : MtGood (mtEnv E np sched) := by
    intro _ k hk
    obtain ⟨j, o, e, h1, h2, h3⟩ := (C35_returns hw hs hn hk).2 (sched k) (hc k hk)
    exact ⟨j, .obj o, e, h1, h2, h3, fun _ => h2⟩
  exact C28_terminates (E := mtEnv E np sched) hw hmt p hp i hi

/-- C28 for whole files: every file, cut into `n` pieces by the tokenizer and parsed with `np`
workers, is parsed to the end under every schedule. -/
theorem C28_file_multithreaded (graphic : Char → Bool) (n : Nat) (s : Str) (floatOk : Str → Bool)
    {np : Nat} (hn : 0 < np) : ∃ ts, tokensOfFile graphic n s = some ts ∧
    ∀ mt sched, (∀ i < ts.length, mtModule ⟨ts, floatOk, false, mt⟩ np (sched i) i ≠ .timeout) →
      ∃ i v e, Returns (mtEnv ⟨ts, floatOk, false, mt⟩ np sched) .parseA2l 0 (.ok i v e) := by
  obtain ⟨ts, h1, h2⟩ := C27_tokenizer_total graphic n s
  refine ⟨_, h1, fun mt sched hc => ?_⟩
  obtain ⟨i', v, e, h, _, _⟩ := C28_multithreaded (E := ⟨ts ++ [[]], floatOk, false, mt⟩)
    ⟨ts, rfl, fun hh => h2 _ hh rfl⟩ rfl hn hc .parseA2l (by decide) 0 (by simp)
  exact ⟨i', v, e, h⟩

end Verif.A2l.Props
