import Verif.Conc.Pipeline
import Verif.Conc.FanIn
import Verif.Conc.ReadCal
import Verif.Ihex.Total
import Verif.Srec.Lemmas

/-! Properties C19-C23. -/

namespace Verif.Conc

open Verif.Go

/-! ## C19: fan-out/collect -/

/-- C19, every run: what the collector has received so far is an initial part of the
concatenation of the workers' batches in worker order; the run is not longer than twice
the number of batches and workers. -/
theorem C19_every_run {α : Type} (cap : Nat) (scripts : List (List α)) {os : List Pipeline.Op}
    {s : Pipeline.State α} (h : Pipeline.run (Pipeline.init cap scripts) os = some s) :
    s.acc <+: scripts.flatten ∧ os.length ≤ 2 * (scripts.map List.length).sum + 2 * scripts.length := by
  have hi := Pipeline.inv_run (Pipeline.inv_init cap scripts) h
  have hw := Pipeline.run_work h
  rw [Pipeline.init_work] at hw
  exact ⟨⟨_, hi.content⟩, by omega⟩

/-- C19, no deadlock and the result: a run that cannot be continued has delivered all
batches in order, and every worker has sent everything and closed its channel. -/
theorem C19_maximal_run {α : Type} (cap : Nat) (scripts : List (List α)) {os : List Pipeline.Op}
    {s : Pipeline.State α} (h : Pipeline.run (Pipeline.init cap scripts) os = some s)
    (hstuck : ∀ o, Pipeline.step s o = none) :
    s.acc = scripts.flatten ∧ s.pos = scripts.length ∧
      ∀ w ∈ s.ws, w.closed = true ∧ w.buf = [] ∧ w.todo = [] := by
  have hi := Pipeline.inv_run (Pipeline.inv_init cap scripts) h
  have hf : s.finished := by
    apply Classical.byContradiction
    intro hn
    obtain ⟨o, s', ho⟩ := Pipeline.progress hi hn
    rw [hstuck o] at ho
    simp at ho
  refine ⟨?_, hf.trans hi.len, Pipeline.finished_workers hi hf⟩
  have hc := hi.content
  have hp : s.pos = s.ws.length := hf
  rw [hp, List.drop_length] at hc
  simpa using hc

/-- A run of two workers (channel capacity 0 and three batches) that cannot be continued. -/
example : ∃ os s, Pipeline.run (Pipeline.init 0 [[1, 2], [3]]) os = some s ∧ s.acc = [1, 2, 3] ∧
    s.finished :=
  ⟨[.handoff, .handoff, .close 0, .advance, .handoff, .close 1, .advance], _, rfl, rfl, rfl⟩

/-- C19 for the Intel HEX records (ihex32/hex.go:112-130): under every schedule the records
collected are those of the sequential function used in the model. -/
theorem C19_ihex_records {n : Nat} {lines : List Str} {recs : List Ihex.Record} {parts : List (List Str)}
    {rss : List (List Ihex.Record)} (hp : shares? lines n = some parts)
    (hr : parts.mapM Ihex.parseRecordRoutine = some rss) (h : Ihex.parseRecords n lines = some recs)
    {os : List Pipeline.Op} {s : Pipeline.State (List Ihex.Record)}
    (hrun : Pipeline.run (Pipeline.init lines.length (rss.map fun r => [r])) os = some s)
    (hstuck : ∀ o, Pipeline.step s o = none) : s.acc.flatten = recs := by
  have := (C19_maximal_run _ _ hrun hstuck).1
  rw [this]
  unfold Ihex.parseRecords at h
  rw [hp] at h
  simp [hr] at h
  rw [← h]
  simp [← List.flatMap_def]

/-- C19 for the Intel HEX data (ihex32/hex.go:174-200): the bytes reach the map in the order
of the sequential function, under every schedule, also if a worker sends several batches on
its channel of capacity 1. -/
theorem C19_ihex_data {n : Nat} {recs : List Ihex.Record} {parts : List (List Ihex.Record)}
    {batches : List (List (List Ihex.DataByte))} (hp : shares? recs n = some parts)
    (hb : parts.mapM Ihex.calcDataRoutine = some batches) {o : Ihex.Outcome}
    (h : Ihex.collectData n recs = some o) {os : List Pipeline.Op}
    {s : Pipeline.State (List Ihex.DataByte)}
    (hrun : Pipeline.run (Pipeline.init 1 batches) os = some s)
    (hstuck : ∀ o, Pipeline.step s o = none) : Ihex.insertBytes Ihex.Mem.empty s.acc.flatten = o := by
  have := (C19_maximal_run _ _ hrun hstuck).1
  rw [this]
  unfold Ihex.collectData at h
  rw [hp] at h
  simp [hb] at h
  exact h

/-- The hypotheses of `C19_ihex_records` on a file of four records and two CPUs. -/
example : ∃ parts rss recs os s, shares? (Ihex.Spec.encode .upper [⟨false, 0, 0, [1]⟩, ⟨true, 1, 0, [2]⟩]) 2 = some parts ∧
    parts.mapM Ihex.parseRecordRoutine = some rss ∧
    Ihex.parseRecords 2 (Ihex.Spec.encode .upper [⟨false, 0, 0, [1]⟩, ⟨true, 1, 0, [2]⟩]) = some recs ∧
    Pipeline.run (Pipeline.init 3 (rss.map fun r => [r])) os = some s ∧ recs.length = 4 ∧ s.finished :=
  ⟨_, _, _, [.send 1, .close 1, .send 0, .recv, .close 0, .advance, .recv, .advance], _, rfl, rfl, rfl, rfl,
    by decide +kernel, rfl⟩

/-- `insertBytes` stops at the first collision: an early `return` of the collector does not
depend on batches it has not received yet. -/
theorem insertBytes_prefix (m : Ihex.Mem) (xs ys : List Ihex.DataByte)
    (h : (Ihex.insertBytes m xs).err ≠ none) : Ihex.insertBytes m (xs ++ ys) = Ihex.insertBytes m xs := by
  induction xs generalizing m with
  | nil => simp [Ihex.insertBytes] at h
  | cons d ds ih =>
    rw [List.cons_append]
    unfold Ihex.insertBytes at h ⊢
    split
    · rfl
    · next hd => rw [hd] at h; exact ih _ h

/-- C19, early return: if at some moment of some run the received bytes already collide, the
outcome reported then is the outcome of the sequential function. -/
theorem C19_early_return (batches : List (List (List Ihex.DataByte))) {os : List Pipeline.Op}
    {s : Pipeline.State (List Ihex.DataByte)} (hrun : Pipeline.run (Pipeline.init 1 batches) os = some s)
    (hc : (Ihex.insertBytes Ihex.Mem.empty s.acc.flatten).err ≠ none) :
    Ihex.insertBytes Ihex.Mem.empty s.acc.flatten =
      Ihex.insertBytes Ihex.Mem.empty batches.flatten.flatten := by
  obtain ⟨t, ht⟩ := (C19_every_run _ _ hrun).1
  rw [← ht, List.flatten_append, insertBytes_prefix _ _ _ hc]

/-- C19 for the S19 records (srec19/hex.go:110-132). -/
theorem C19_srec_records {n : Nat} {lines : List Str} {recs : List Srec.Record} {parts : List (List Str)}
    {rss : List (List Srec.Record)} (hp : shares? lines n = some parts)
    (hr : parts.mapM Srec.parseRecordRoutine = some rss) (h : Srec.parseRecords n lines = some recs)
    {os : List Pipeline.Op} {s : Pipeline.State (List Srec.Record)}
    (hrun : Pipeline.run (Pipeline.init lines.length (rss.map fun r => [r])) os = some s)
    (hstuck : ∀ o, Pipeline.step s o = none) : s.acc.flatten = recs := by
  have := (C19_maximal_run _ _ hrun hstuck).1
  rw [this]
  unfold Srec.parseRecords at h
  rw [hp] at h
  simp [hr] at h
  rw [← h]
  simp [← List.flatMap_def]

/-- C19 for the S19 data (srec19/hex.go:162-190). -/
theorem C19_srec_data {n : Nat} {recs : List Srec.Record} {parts : List (List Srec.Record)}
    {batches : List (List (List Ihex.DataByte))} (hp : shares? recs n = some parts)
    (hb : parts.mapM Srec.calcDataRoutine = some batches) {o : Ihex.Outcome}
    (h : Srec.collectData n recs = some o) {os : List Pipeline.Op}
    {s : Pipeline.State (List Ihex.DataByte)}
    (hrun : Pipeline.run (Pipeline.init 1 batches) os = some s)
    (hstuck : ∀ o, Pipeline.step s o = none) : Ihex.insertBytes Ihex.Mem.empty s.acc.flatten = o := by
  have := (C19_maximal_run _ _ hrun hstuck).1
  rw [this]
  unfold Srec.collectData at h
  rw [hp] at h
  simp [hb] at h
  exact h

/-! ## C20: the checksum verdict channel -/

/-- C20, every reachable state: a worker that has not returned can do its next operation
(in particular it is never blocked on the channel). -/
theorem C20_never_blocks (scripts : List (List Bool)) {os : List FanIn.Op} {s : FanIn.State}
    (h : FanIn.run (FanIn.init scripts.length scripts) os = some s) {i : Nat} {w : FanIn.Worker}
    (hi : s.ws[i]? = some w) (hd : w.done = false) : ∃ s', FanIn.step s (.work i) = some s' :=
  FanIn.worker_enabled (FanIn.inv_run (FanIn.inv_init scripts) h) hi hd

/-- C20: every run is finite; a run that cannot be continued has a verdict, which is
"invalid" iff some record of some worker is. The verdict never differs. -/
theorem C20_verdict (scripts : List (List Bool)) {os : List FanIn.Op} {s : FanIn.State}
    (h : FanIn.run (FanIn.init scripts.length scripts) os = some s) :
    os.length ≤ 2 * (scripts.map List.length).sum + scripts.length + 1 ∧
    (∀ v, s.verdict = some v → (v = true ↔ ∃ t ∈ scripts, false ∈ t)) ∧
    ((∀ o, FanIn.step s o = none) → s.verdict ≠ none) := by
  have hi := FanIn.inv_run (FanIn.inv_init scripts) h
  have hw := FanIn.run_work h
  rw [FanIn.init_work] at hw
  refine ⟨by omega, ?_, ?_⟩
  · intro v hv
    rw [hi.ver v hv]
    simp [List.any_eq_true]
  · intro hst hv
    have hall : s.ws.all (·.done) = true := by
      rw [List.all_eq_true]
      intro w hw
      obtain ⟨i, hlt, rfl⟩ := List.getElem_of_mem hw
      cases hd : s.ws[i].done with
      | true => rfl
      | false =>
        obtain ⟨s', hs'⟩ := FanIn.worker_enabled hi (List.getElem?_eq_getElem hlt) hd
        rw [hst] at hs'
        simp at hs'
    have := hst .main
    simp [FanIn.step, hv, hall] at this

/-- A run with two workers of which one finds a bad record. -/
example : ∃ os s, FanIn.run (FanIn.init 2 [[true, false, true], [true]]) os = some s ∧
    s.verdict = some true :=
  ⟨[.work 0, .work 1, .work 0, .work 1, .work 0, .main], _, rfl, rfl⟩

/-- C20: what the workers of the Intel HEX parser report: the model's `anyChecksumFailure`
is the verdict of every complete run (the verdict of a record being `validateChecksum`). -/
theorem C20_ihex {n : Nat} {recs : List Ihex.Record} {parts : List (List Ihex.Record)} {b : Bool}
    (hp : shares? recs n = some parts) (h : Ihex.anyChecksumFailure n recs = some b)
    {os : List FanIn.Op} {s : FanIn.State}
    (hrun : FanIn.run (FanIn.init n (parts.map fun p => p.map fun r =>
      Ihex.validateChecksum r == some (some true))) os = some s)
    (hlen : parts.length = n) {v : Bool} (hv : s.verdict = some v) : v = b := by
  have hrun' := hrun
  have := (C20_verdict (parts.map fun p => p.map fun r => Ihex.validateChecksum r == some (some true))
    (os := os) (s := s) (by rw [List.length_map, hlen]; exact hrun)).2.1 v hv
  have hf : ∀ (rs : List Ihex.Record) (c : Bool), Ihex.checksumFailure rs = some c →
      (c = true ↔ false ∈ rs.map fun r => Ihex.validateChecksum r == some (some true)) := by
    intro rs
    induction rs with
    | nil => intro c hc; simp [Ihex.checksumFailure] at hc; simp [← hc]
    | cons r rs ih =>
      intro c hc
      unfold Ihex.checksumFailure at hc
      cases hvr : Ihex.validateChecksum r with
      | none => simp [hvr] at hc
      | some x =>
        rcases x with _ | x
        · simp [hvr] at hc; subst hc; simp [hvr]
        · cases x with
          | false => simp [hvr] at hc; subst hc; simp [hvr]
          | true =>
            simp [hvr] at hc
            rw [ih c hc]
            simp [hvr]
  have hfs : ∀ (ps : List (List Ihex.Record)) (vs : List Bool), ps.mapM Ihex.checksumFailure = some vs →
      (vs.any id = true ↔ ∃ t ∈ ps.map (fun p => p.map fun r => Ihex.validateChecksum r == some (some true)),
        false ∈ t) := by
    intro ps
    induction ps with
    | nil => intro vs hvs; simp at hvs; simp [hvs]
    | cons p ps ih =>
      intro vs hvs
      rw [List.mapM_cons] at hvs
      cases h1 : Ihex.checksumFailure p with
      | none => rw [h1] at hvs; simp at hvs
      | some c =>
        cases h2 : ps.mapM Ihex.checksumFailure with
        | none => rw [h1, h2] at hvs; simp at hvs
        | some cs =>
          rw [h1, h2] at hvs
          simp at hvs; subst hvs
          rw [List.any_cons, Bool.or_eq_true, ih cs h2, id, hf p c h1]
          simp
  unfold Ihex.anyChecksumFailure at h
  rw [hp] at h
  cases hm : parts.mapM Ihex.checksumFailure with
  | none => simp [hm] at h
  | some vs =>
    simp [hm] at h
    rw [Bool.eq_iff_iff, this, ← hfs parts vs hm, ← h]

/-- C20: what the workers of the S19 parser report: the model's `anyChecksumFailure`
is the verdict of every complete run (the verdict of a record being `validateChecksum`). -/
theorem C20_srec {n : Nat} {recs : List Srec.Record} {parts : List (List Srec.Record)} {b : Bool}
    (hp : shares? recs n = some parts) (h : Srec.anyChecksumFailure n recs = some b)
    {os : List FanIn.Op} {s : FanIn.State}
    (hrun : FanIn.run (FanIn.init n (parts.map fun p => p.map fun r =>
      Srec.validateChecksum r == some (some true))) os = some s)
    (hlen : parts.length = n) {v : Bool} (hv : s.verdict = some v) : v = b := by
  have hrun' := hrun
  have := (C20_verdict (parts.map fun p => p.map fun r => Srec.validateChecksum r == some (some true))
    (os := os) (s := s) (by rw [List.length_map, hlen]; exact hrun)).2.1 v hv
  have hf : ∀ (rs : List Srec.Record) (c : Bool), Srec.checksumFailure rs = some c →
      (c = true ↔ false ∈ rs.map fun r => Srec.validateChecksum r == some (some true)) := by
    intro rs
    induction rs with
    | nil => intro c hc; simp [Srec.checksumFailure] at hc; simp [← hc]
    | cons r rs ih =>
      intro c hc
      unfold Srec.checksumFailure at hc
      cases hvr : Srec.validateChecksum r with
      | none => simp [hvr] at hc
      | some x =>
        rcases x with _ | x
        · simp [hvr] at hc; subst hc; simp [hvr]
        · cases x with
          | false => simp [hvr] at hc; subst hc; simp [hvr]
          | true =>
            simp [hvr] at hc
            rw [ih c hc]
            simp [hvr]
  have hfs : ∀ (ps : List (List Srec.Record)) (vs : List Bool), ps.mapM Srec.checksumFailure = some vs →
      (vs.any id = true ↔ ∃ t ∈ ps.map (fun p => p.map fun r => Srec.validateChecksum r == some (some true)),
        false ∈ t) := by
    intro ps
    induction ps with
    | nil => intro vs hvs; simp at hvs; simp [hvs]
    | cons p ps ih =>
      intro vs hvs
      rw [List.mapM_cons] at hvs
      cases h1 : Srec.checksumFailure p with
      | none => rw [h1] at hvs; simp at hvs
      | some c =>
        cases h2 : ps.mapM Srec.checksumFailure with
        | none => rw [h1, h2] at hvs; simp at hvs
        | some cs =>
          rw [h1, h2] at hvs
          simp at hvs; subst hvs
          rw [List.any_cons, Bool.or_eq_true, ih cs h2, id, hf p c h1]
          simp
  unfold Srec.anyChecksumFailure at h
  rw [hp] at h
  cases hm : parts.mapM Srec.checksumFailure with
  | none => simp [hm] at h
  | some vs =>
    simp [hm] at h
    rw [Bool.eq_iff_iff, this, ← hfs parts vs hm, ← h]

/-! ## C21: ReadCalibration -/

open ReadCal

/-- C21: every run is finite (at most 12 steps), and one that cannot be continued has
returned: nothing blocks for ever, no goroutine panics, both readers have returned. -/
theorem C21_terminates {A H E : Type} (ra : Except E A) (rh : Except E H) {os : List Who}
    {s : State A H E} (h : run ra rh (init A H E) os = some s) :
    os.length ≤ 12 ∧ ((∀ w, step ra rh s w = none) → (∃ r, s.main = .ret r) ∧ s.pcA = 3 ∧ s.pcH = 3) := by
  have hi := inv_run (inv_init ra rh) h
  have hw := run_work (inv_init ra rh) h
  refine ⟨by simp [State.work, init] at hw; omega, ?_⟩
  intro hst
  have hA : s.pcA = 3 := by
    apply Classical.byContradiction
    intro hc
    obtain ⟨_, h'⟩ := a_enabled hi hc
    rw [hst] at h'; simp at h'
  have hH : s.pcH = 3 := by
    apply Classical.byContradiction
    intro hc
    obtain ⟨_, h'⟩ := h_enabled hi hc
    rw [hst] at h'; simp at h'
  refine ⟨?_, hA, hH⟩
  cases hm : s.main with
  | ret r => exact ⟨r, rfl⟩
  | _ =>
    exfalso
    obtain ⟨_, h'⟩ := m_enabled hi hA hH (by rw [hm]; rfl)
    rw [hst] at h'; simp at h'

/-- C21: no run panics. -/
theorem C21_no_panic {A H E : Type} (ra : Except E A) (rh : Except E H) {os : List Who}
    {s : State A H E} (h : run ra rh (init A H E) os = some s) : s.main ≠ .panicked := by
  have hi := (inv_run (inv_init ra rh) h).main
  intro hm
  unfold MainOk at hi
  rw [hm] at hi
  exact hi

/-- C21, the result: an error iff one of the readers failed, and it is an error of a reader
that failed; without error both results are returned, with an error neither is. -/
theorem C21_result {A H E : Type} (ra : Except E A) (rh : Except E H) {os : List Who}
    {s : State A H E} (h : run ra rh (init A H E) os = some s) {r : Result A H E}
    (hr : s.main = .ret r) :
    (r.err = none ↔ (∃ a, ra = .ok a) ∧ (∃ x, rh = .ok x)) ∧
    (∀ e, r.err = some e → ra = .error e ∨ rh = .error e) ∧
    (∀ a x, ra = .ok a → rh = .ok x → r = ⟨some a, some x, none⟩) ∧
    (r.err ≠ none → r.a2l = none ∧ r.hex = none) := by
  have hi := inv_run (inv_init ra rh) h
  have hm := hi.main
  unfold MainOk at hm
  rw [hr] at hm
  obtain ⟨⟨hA, hH⟩, h1, h2, h3⟩ := hm
  have hlog := hi.readers.log
  simp only [LogOk, hA, hH, Nat.succ_ne_zero, if_false] at hlog
  obtain ⟨ra2, rhx, re⟩ := r
  simp only at h1 h2 h3 ⊢
  cases ra with
  | error e1 =>
    cases rh with
    | error e2 =>
      have hl : s.log = [e1, e2] ∨ s.log = [e2, e1] := by simpa [errOf] using hlog
      rcases hl with hl | hl
      all_goals
        rw [hl] at h1 h3
        simp at h1
        subst h1
        simp [h3]
    | ok x =>
      have hl : s.log = [e1] := by simpa [errOf] using hlog
      rw [hl] at h1 h3
      simp at h1
      subst h1
      simp [h3]
  | ok a =>
    cases rh with
    | error e2 =>
      have hl : s.log = [e2] := by simpa [errOf] using hlog
      rw [hl] at h1 h3
      simp at h1
      subst h1
      simp [h3]
    | ok x =>
      have hl : s.log = [] := by simpa [errOf] using hlog
      rw [hl] at h1
      obtain ⟨p, q⟩ := h2 hl
      simp [okOf] at p q h1
      subst p q h1
      simp

/-- A complete run with two successful readers, the hex reader first. -/
example : ∃ s, run (.ok 1 : Except String Nat) (.ok 2 : Except String Nat) (init Nat Nat String)
    [.h, .a, .h, .h, .a, .a, .m, .m, .m, .m, .m] = some s ∧ s.main = .ret ⟨some 1, some 2, none⟩ :=
  ⟨_, rfl, rfl⟩

/-- If the log file cannot be created the error is returned at once (and the
machine does not move). -/
theorem C21_logger {A H E : Type} (ra : Except E A) (rh : Except E H) (e : E) :
    (start (A := A) (H := H) (some e)).main = .ret ⟨none, none, some e⟩ ∧
    ∀ w, step ra rh (start (A := A) (H := H) (some e)) w = none := by
  refine ⟨rfl, ?_⟩
  intro w
  cases w <;> rfl

/-! ## C22: the first error -/

/-- Full statement of C22 (false: `C22_false`): the error returned is the first one
reported. -/
def C22_full : Prop :=
  ∀ (A H E : Type) (ra : Except E A) (rh : Except E H) (os : List Who) (s : State A H E)
    (r : Result A H E), run ra rh (init A H E) os = some s → s.main = .ret r → r.err = s.log.head?

/-- What the code does: it returns the *last* error reported. -/
theorem C22_last {A H E : Type} (ra : Except E A) (rh : Except E H) {os : List Who}
    {s : State A H E} (h : run ra rh (init A H E) os = some s) {r : Result A H E}
    (hr : s.main = .ret r) : r.err = s.log.getLast? := by
  have hm := (inv_run (inv_init ra rh) h).main
  unfold MainOk at hm
  rw [hr] at hm
  exact hm.2.1

theorem C22_false : ¬ C22_full := by
  intro h
  have := h Nat Nat Nat (.error 1) (.error 2) [.a, .h, .a, .a, .h, .h, .m, .m, .m, .m, .m, .m] _ _ rfl rfl
  exact absurd this (by decide)

/-- C22 if at most one reader fails: the error returned is the (first and only) one. Missing:
both fail. -/
theorem C22_partial {A H E : Type} (ra : Except E A) (rh : Except E H)
    (hone : (∃ a, ra = .ok a) ∨ (∃ x, rh = .ok x)) {os : List Who}
    {s : State A H E} (h : run ra rh (init A H E) os = some s) {r : Result A H E}
    (hr : s.main = .ret r) : r.err = s.log.head? := by
  rw [C22_last ra rh h hr]
  have hlog := log_length (inv_run (inv_init ra rh) h).readers.log
  have hle : s.log.length ≤ 1 := by
    rw [hlog]
    have e1 := errOf_length ra
    have e2 := errOf_length rh
    rcases hone with ⟨a, rfl⟩ | ⟨x, rfl⟩
    · have e3 : (errOf (Except.ok a : Except E A)).length = 0 := rfl
      rw [e3]; split <;> split <;> omega
    · have e3 : (errOf (Except.ok x : Except E H)).length = 0 := rfl
      rw [e3]; split <;> split <;> omega
  rcases hl : s.log with _ | ⟨a, _ | ⟨b, l⟩⟩
  · rfl
  · rfl
  · rw [hl] at hle; simp at hle

example : ∃ s r, run (.error "a2l" : Except String Nat) (.ok 2 : Except String Nat) (init Nat Nat String)
    [.h, .a, .h, .h, .a, .a, .m, .m, .m, .m, .m] = some s ∧ s.main = .ret r ∧ r.err = some "a2l" :=
  ⟨_, _, rfl, rfl, rfl⟩

/-! ## C23: the hex format -/

/-- Specification: the extensions of the two formats, and a name with all its letters in small. -/
def extHex : Str := ['.', 'h', 'e', 'x']
def extS19 : Str := ['.', 's', '1', '9']
def inSmall (name : Str) : Str := name.map Char.toLower

/-- Specification: what the file name says. -/
def nameFormat (path : Str) : Option Format :=
  if extHex <:+ inSmall path then some .intelHex
  else if extS19 <:+ inSmall path then some .s19
  else none

theorem format_small (path : Str) : format path = if contains extHex (inSmall path) then some .intelHex
    else if contains extS19 (inSmall path) then some .s19 else none := rfl

/-- Full statement of C23 (false: `C23_false`). -/
def C23_full : Prop := ∀ path : Str, format path = nameFormat path

/-- A path ending in `.hex` is read as Intel HEX, always. -/
theorem C23_hex_partial (path : Str) (h : extHex <:+ inSmall path) : format path = some .intelHex := by
  rw [format_small]
  rw [if_pos ((contains_iff _ _).mpr h.isInfix)]

/-- A path ending in `.s19` that has no `.hex` anywhere is read as S19. -/
theorem C23_s19_partial (path : Str) (h : extS19 <:+ inSmall path) (hx : ¬ extHex <:+: inSmall path) :
    format path = some .s19 := by
  rw [format_small]
  rw [if_neg (by rw [contains_iff]; exact hx), if_pos ((contains_iff _ _).mpr h.isInfix)]

/-- A path that has neither anywhere is rejected. -/
theorem C23_other_partial (path : Str) (hx : ¬ extHex <:+: inSmall path)
    (hs : ¬ extS19 <:+: inSmall path) {H E : Type} (ihex srec : Str → Except E H) (e : E) :
    readHexResult path ihex srec e = .error e := by
  unfold readHexResult
  rw [format_small]
  rw [if_neg (by rw [contains_iff]; exact hx), if_neg (by rw [contains_iff]; exact hs)]

/-- Missing in the three partial theorems: names with `.hex`/`.s19` elsewhere than at the
end. The S19 file `cal.hex.s19` is given to the Intel HEX parser. -/
theorem C23_false : ¬ C23_full := by
  intro h
  have := h "cal.hex.s19".toList
  revert this
  decide +kernel

/-- And a file of any type in a directory called `x.hex` too. -/
example : format "/data/x.hex/notes.txt".toList = some .intelHex := by decide +kernel
example : nameFormat "CAL.HEX".toList = some .intelHex ∧ nameFormat "cal.s19".toList = some .s19 ∧
    nameFormat "cal.txt".toList = none := by decide +kernel

end Verif.Conc
