import Verif.Conc.HexRunInst

/-!
Properties C82 and C83: the hex parsers as concurrent programs, with all interleavings of their goroutines.
-/

namespace Verif.Conc.HexRun

open Verif.Go Verif.Hex Verif.Hex.Spec
open Verif.Ihex (Mem Outcome DataByte insertBytes)
open Verif.Ihex.Spec (Clash typeText upperText half)

/-- The answer that belongs to a text: `sums` says whether all sums are right, `ps` are the pairs of address and byte that
the text gives. -/
def Answer (sums : Prop) (ps : List (Nat × Nat)) (o : Outcome) : Prop :=
  (¬ sums → o.err = some .invalidChecksums ∧ ∀ a, o.map a = none) ∧
  (sums → ((ps.map Prod.fst).Nodup → o.err = none ∧ ∀ a v, o.map a = some v ↔ (a, v) ∈ ps) ∧
    ∀ pre a v w, Clash ps pre a v w → o.err = some (.collision a v w) ∧ ∀ x y, o.map x = some y ↔ (x, y) ∈ pre)

/-! ### C82: Intel HEX -/

/-- C82: whatever the text, the number of CPUs and the interleaving of all goroutines: nothing panics, and if the parser has
returned, the answer is the one that belongs to the text. -/
theorem C82_ihex_safe {n : Nat} (hn : 0 < n) (lines : List Str) {os : List Op} {s : State (ihex n)}
    (h : run (ihex n) n (init (ihex n) n lines) os = some s) :
    s ≠ .crashed ∧ ∀ o rest, s = .returned o rest →
      Answer (∀ l ∈ Ihex.Spec.recognised n lines, Ihex.Spec.LineSumOk l) (Ihex.Spec.textBytes n lines) o := by
  have hi := run_inv hn (ihex_total hn lines) (init_inv (ihex_total hn lines)) h
  refine ⟨?_, ?_⟩
  · rintro rfl
    cases hi
  rintro o rest rfl
  cases hi with
  | returned hr _ =>
    obtain ⟨sched, hp⟩ := ihex_result hn hr
    obtain ⟨h1, h2⟩ := Ihex.C77_ihex hn lines hp
    refine ⟨fun hs => h1 ?_, h2⟩
    simpa only [Classical.not_forall, exists_prop] using hs

/-- C82: there is no deadlock. A run that cannot be continued has returned. -/
theorem C82_ihex_returns {n : Nat} (hn : 0 < n) (lines : List Str) {os : List Op} {s : State (ihex n)}
    (h : run (ihex n) n (init (ihex n) n lines) os = some s) (hst : ∀ o, step (ihex n) n s o = none) :
    ∃ o rest, s = .returned o rest := by
  have hi := run_inv hn (ihex_total hn lines) (init_inv (ihex_total hn lines)) h
  rcases progress ihex_shared_progress hi with ⟨o, s', ho⟩ | h
  · rw [hst o] at ho; cases ho
  · exact h

/-- C82: no run goes on for ever, whatever the scheduler does. -/
theorem C82_ihex_terminates {n : Nat} (hn : 0 < n) (lines : List Str) : ¬ ∃ f : Nat → State (ihex n), f 0 = init (ihex n) n lines ∧
    ∀ i, ∃ o, step (ihex n) n (f i) o = some (f (i + 1)) :=
  fun ⟨f, h0, hf⟩ => no_infinite hn (ihex_total hn lines) _ ihex_shared_work f h0 hf

/-- C82: every partial run can be completed, and all complete runs give the answer of the sequential model. -/
theorem C82_ihex_sequential {n : Nat} (hn : 0 < n) (lines : List Str) {os : List Op} {s : State (ihex n)}
    (h : run (ihex n) n (init (ihex n) n lines) os = some s) :
    ∃ os' o rest, run (ihex n) n s os' = some (.returned o rest) ∧
      ∀ sched o', Ihex.parseHex n sched lines = some (some o') → o' = o := by
  have hi := run_inv hn (ihex_total hn lines) (init_inv (ihex_total hn lines)) h
  obtain ⟨os', s', hr, hst⟩ := exists_maximal hn (ihex_total hn lines) _ ihex_shared_work hi
  have hi' := run_inv hn (ihex_total hn lines) hi hr
  rcases progress ihex_shared_progress hi' with ⟨o, s'', ho⟩ | ⟨o, rest, rfl⟩
  · rw [hst o] at ho; cases ho
  · refine ⟨os', o, rest, hr, ?_⟩
    cases hi' with
    | returned hres _ =>
      obtain ⟨sched, hp⟩ := ihex_result hn hres
      exact fun sched' o' h' => Ihex.C73_schedule hn lines h' hp

/-- The offset workers of a state. -/
def offsetWorkers {n : Nat} : State (ihex n) → Option Ihex.Locks.LState
  | .checking _ s | .waiting s | .returned _ (.offsets s) => some s
  | _ => none

theorem reached_offsets {n : Nat} (hn : 0 < n) {lines : List Str} {os : List Op} {s : State (ihex n)} {t : Ihex.Locks.LState}
    (h : run (ihex n) n (init (ihex n) n lines) os = some s) (ht : offsetWorkers s = some t) :
    ∃ ks, (ihex n).shared.run ((ihex n).shared.start (Ihex.recordsOf n lines)) ks = some t := by
  have hi := run_inv hn (ihex_total hn lines) (init_inv (ihex_total hn lines)) h
  cases hi with
  | parsing => cases ht
  | checking scripts h hb ks hr => cases ht; exact ⟨ks, hr⟩
  | waiting hb ks hr => cases ht; exact ⟨ks, hr⟩
  | collecting => cases ht
  | @returned o rest h hr =>
    cases rest with
    | offsets s => cases ht; exact hr
    | data p => cases ht

/-- C82: no two offset workers are at the same record between its `Lock` and its `Unlock`. -/
theorem C82_exclusive {n : Nat} (hn : 0 < n) (lines : List Str) {os : List Op} {s : State (ihex n)} {t : Ihex.Locks.LState}
    (h : run (ihex n) n (init (ihex n) n lines) os = some s) (ht : offsetWorkers s = some t) {k k' : Nat}
    {w w' : Ihex.Locks.LWorker} (hk : t.workers[k]? = some w) (hk' : t.workers[k']? = some w') (hw : w.holds = true)
    (hw' : w'.holds = true) (hp : w.pos = w'.pos) : k = k' := by
  obtain ⟨ks, hr⟩ := reached_offsets hn h ht
  exact Ihex.Locks.exclusive (ihex_reach hr).1 hk hk' hw hw' hp

/-- C82: the checksum workers run at the same time as the offset workers, without taking the locks. What they read of the
records is never changed: at any time the verdict on every record is the one at the start. -/
theorem C82_checksums_undisturbed {n : Nat} (hn : 0 < n) (lines : List Str) {os : List Op} {s : State (ihex n)} {t : Ihex.Locks.LState}
    (h : run (ihex n) n (init (ihex n) n lines) os = some s) (ht : offsetWorkers s = some t) :
    t.recs.map Ihex.validateChecksum = (Ihex.recordsOf n lines).map Ihex.validateChecksum := by
  obtain ⟨ks, hr⟩ := reached_offsets hn h ht
  have hr := ihex_run hr
  have key : ∀ (ks : List Nat) (a b : Ihex.Locks.LState), Ihex.Locks.run a ks = some b →
      b.recs.map (fun r => { r with offset := [] }) = a.recs.map (fun r => { r with offset := [] }) := by
    intro ks
    induction ks with
    | nil => intro a b h; cases h; rfl
    | cons k ks ih =>
      intro a b h
      obtain ⟨c, h1, h2⟩ := Option.bind_eq_some_iff.1 h
      rw [ih c b h2, Ihex.Locks.fields_fixed h1]
  have := congrArg (List.map Ihex.validateChecksum) (key ks _ _ hr)
  simp only [List.map_map] at this
  exact this

/-- A segment line and two data lines. -/
def okLines : List Str := [":020000041234B4".toList, ":0100000001FE".toList, ":0100010001FD".toList]

/-- A run on two CPUs in which the goroutines take turns. -/
def okRun : List Op :=
  [.chan (.send 1), .chan (.send 0), .chan (.close 0), .chan (.close 1), .chan .recv, .chan .advance, .chan .recv, .chan .advance, .main,
   .off 0, .check (.work 0), .off 1, .off 0, .check (.work 0), .off 1, .off 0, .check (.work 1), .off 1, .off 0, .check (.work 1), .off 1,
   .off 0, .check (.work 1), .off 1, .off 0, .check .main, .off 1, .off 0, .off 1, .off 0, .off 0, .off 0, .off 0, .off 0, .main, .main,
   .chan (.send 1), .chan (.send 0), .chan (.close 0), .chan (.close 1), .chan .recv, .chan .advance, .chan .recv, .chan .advance, .main]

-- it returns the two bytes in the segment
example : ((run (ihex 2) 2 (init (ihex 2) 2 okLines) okRun).any fun
    | .returned o _ => o.err == none && o.map 0x12340000 == some 1 && o.map 0x12340001 == some 1 && o.map 0 == none
    | _ => false) = true := by decide +kernel

-- on the way two workers are between `Lock` and `Unlock`, at different records
example : ((run (ihex 2) 2 (init (ihex 2) 2 okLines) (okRun.take 12)).any fun s =>
    match offsetWorkers s with
    | some t => t.workers.map (fun w => (w.holds, w.pos)) == [(true, 0), (true, 1)]
    | none => false) = true := by decide +kernel

-- and later one has changed an offset while the sums are still being checked
example : ((run (ihex 2) 2 (init (ihex 2) 2 okLines) (okRun.take 25)).any fun
    | .checking f t => f.verdict == none && (t : Ihex.Locks.LState).recs.map (·.offset) == ["1234".toList, "1234".toList, "0000".toList]
    | _ => false) = true := by decide +kernel

/-! ### C82: S19 -/

theorem C82_srec_safe {n : Nat} (hn : 0 < n) (lines : List Str) {os : List Op} {s : State srec}
    (h : run srec n (init srec n lines) os = some s) :
    s ≠ .crashed ∧ ∀ o rest, s = .returned o rest →
      Answer (∀ l ∈ Srec.Spec.recognised n lines, Srec.Spec.LineSumOk l) (Srec.Spec.textBytes n lines) o := by
  have hi := run_inv hn (srec_total hn lines) (init_inv (srec_total hn lines)) h
  refine ⟨?_, ?_⟩
  · rintro rfl
    cases hi
  rintro o rest rfl
  cases hi with
  | returned hr _ =>
    obtain ⟨o', ho', h1, h2⟩ := Srec.C77_srec hn lines
    cases (srec_result hn hr).symm.trans ho'
    refine ⟨fun hs => h1 ?_, h2⟩
    simpa only [Classical.not_forall, exists_prop] using hs

theorem C82_srec_returns {n : Nat} (hn : 0 < n) (lines : List Str) {os : List Op} {s : State srec}
    (h : run srec n (init srec n lines) os = some s) (hst : ∀ o, step srec n s o = none) : ∃ o rest, s = .returned o rest := by
  have hi := run_inv hn (srec_total hn lines) (init_inv (srec_total hn lines)) h
  rcases progress srec_shared_progress hi with ⟨o, s', ho⟩ | h
  · rw [hst o] at ho; cases ho
  · exact h

theorem C82_srec_terminates {n : Nat} (hn : 0 < n) (lines : List Str) : ¬ ∃ f : Nat → State srec, f 0 = init srec n lines ∧
    ∀ i, ∃ o, step srec n (f i) o = some (f (i + 1)) :=
  fun ⟨f, h0, hf⟩ => no_infinite hn (srec_total hn lines) (fun _ => 0) srec_shared_work f h0 hf

theorem C82_srec_sequential {n : Nat} (hn : 0 < n) (lines : List Str) {os : List Op} {s : State srec}
    (h : run srec n (init srec n lines) os = some s) :
    ∃ os' o rest, run srec n s os' = some (.returned o rest) ∧ Srec.parseHex n lines = some o := by
  have hi := run_inv hn (srec_total hn lines) (init_inv (srec_total hn lines)) h
  obtain ⟨os', s', hr, hst⟩ := exists_maximal hn (srec_total hn lines) (fun _ => 0) srec_shared_work hi
  have hi' := run_inv hn (srec_total hn lines) hi hr
  rcases progress srec_shared_progress hi' with ⟨o, s'', ho⟩ | ⟨o, rest, rfl⟩
  · rw [hst o] at ho; cases ho
  · refine ⟨os', o, rest, hr, ?_⟩
    cases hi' with
    | returned hres _ => exact srec_result hn hres

-- a run on two CPUs that returns two bytes
example : ((run srec 2 (init srec 2 ["S30600000010FFEA".toList, "S30600000020FEDB".toList])
    [.chan (.send 1), .chan (.send 0), .chan (.close 0), .chan (.close 1), .chan .recv, .chan .advance, .chan .recv, .chan .advance, .main,
     .check (.work 1), .check (.work 0), .check (.work 0), .check (.work 1), .check .main, .main, .main,
     .chan (.send 1), .chan (.send 0), .chan (.close 0), .chan (.close 1), .chan .recv, .chan .advance, .chan .recv, .chan .advance, .main]).any fun
    | .returned o _ => o.err == none && o.map 16 == some 255 && o.map 32 == some 254
    | _ => false) = true := by decide +kernel

/-! ### C83: every goroutine ends -/

/-- Full statement of C83 for Intel HEX (false: `C83_false`): when nothing can move any more, all goroutines that the parser
did not wait for have ended too. -/
def C83_full : Prop :=
  ∀ (n : Nat) (lines : List Str) (os : List Op) (o : Outcome) (rest : Rest (ihex n)), 0 < n →
    run (ihex n) n (init (ihex n) n lines) os = some (.returned o rest) →
    (∀ op, step (ihex n) n (.returned o rest) op = none) → rest.ended

/-- C83 for files whose segment lines give numbers. Missing from `C83_full`: segment lines of 14 characters whose fourth
digit, which the sum does not cover, is no digit. -/
theorem C83_partial {n : Nat} (hn : 0 < n) {lines : List Str}
    (hseg : ∀ l ∈ Ihex.Spec.recognised n lines, typeText l = ['0', '4'] → half (upperText l) ≠ none) {os : List Op} {o : Outcome}
    {rest : Rest (ihex n)} (h : run (ihex n) n (init (ihex n) n lines) os = some (.returned o rest))
    (hst : ∀ op, step (ihex n) n (.returned o rest) op = none) : rest.ended :=
  rest_ends ihex_shared_progress (ihex_one hseg) (run_inv hn (ihex_total hn lines) (init_inv (ihex_total hn lines)) h) hst

/-- After a wrong sum the offset workers always end. -/
theorem C83_checksum {n : Nat} (hn : 0 < n) {lines : List Str} {os : List Op} {o : Outcome} {t : (ihex n).shared.S}
    (h : run (ihex n) n (init (ihex n) n lines) os = some (.returned o (.offsets t)))
    (hst : ∀ op, step (ihex n) n (.returned o (.offsets t)) op = none) : (ihex n).shared.done t = true := by
  obtain ⟨ks, hr⟩ := reached_offsets hn h rfl
  cases hd : (ihex n).shared.done t with
  | true => rfl
  | false =>
    obtain ⟨k, s', hk⟩ := ihex_shared_progress ks t hr hd
    have := hst (.off k)
    simp [step, hk] at this

/-- C83 for S19: every goroutine ends, for every text. -/
theorem C83_srec {n : Nat} (hn : 0 < n) {lines : List Str} {os : List Op} {o : Outcome} {rest : Rest srec}
    (h : run srec n (init srec n lines) os = some (.returned o rest)) (hst : ∀ op, step srec n (.returned o rest) op = none) :
    rest.ended :=
  rest_ends srec_shared_progress srec_one (run_inv hn (srec_total hn lines) (init_inv (srec_total hn lines)) h) hst

/-- After a return without an error all goroutines have ended. -/
def Success {R : Type} {P : Prog R} : State P → Prop
  | .returned o (.offsets _) => o.err ≠ none
  | .returned o (.data p) => o.err = none → ∀ w ∈ p.ws, w.closed = true
  | _ => True

theorem success_step {R : Type} {P : Prog R} {n : Nat} {lines : List Str} {recs : List R} {s s' : State P} {o : Op} (hi : Inv P n lines recs s)
    (h : Success s) (hs : step P n s o = some s') : Success s' := by
  have keep : ∀ {p p' : Pipeline.State (List DataByte)} {o : Pipeline.Op}, Pipeline.step p o = some p' → (∀ w ∈ p.ws, w.closed = true) →
      ∀ w ∈ p'.ws, w.closed = true := by
    intro p p' o hs h
    cases o <;> simp only [Pipeline.step] at hs <;> (repeat' split at hs) <;> cases hs <;>
      first
        | exact h
        | (intro v hv
           rcases List.mem_or_eq_of_mem_set hv with hv | rfl
           · exact h v hv
           · first | rfl | (dsimp only; exact h _ (List.mem_of_getElem? (by assumption))))
  have start : ∀ recs, Success (startCheck P n recs) ∧ Success (startData P n recs) := by
    intro recs
    constructor
    · unfold startCheck; split <;> trivial
    · unfold startData; split <;> trivial
  cases hi with
  | parsing =>
    cases o <;> simp only [step] at hs
    · obtain ⟨_, _, rfl⟩ := Option.map_eq_some_iff.1 hs; trivial
    · cases hs
    · cases hs
    · split at hs
      · cases hs; exact (start _).1
      · cases hs
  | checking =>
    cases o <;> simp only [step] at hs
    · cases hs
    · obtain ⟨_, _, rfl⟩ := Option.map_eq_some_iff.1 hs; trivial
    · obtain ⟨_, _, rfl⟩ := Option.map_eq_some_iff.1 hs; trivial
    · split at hs
      · cases hs
      · cases hs; exact nofun
      · cases hs; trivial
  | waiting =>
    cases o <;> simp only [step] at hs
    · cases hs
    · cases hs
    · obtain ⟨_, _, rfl⟩ := Option.map_eq_some_iff.1 hs; trivial
    · split at hs
      · cases hs; exact (start _).2
      · cases hs
  | collecting hb ks s hr hd scripts hsc hp hroom hm =>
    cases o <;> simp only [step] at hs
    · split at hs
      · cases hs
      · split at hs
        · next he => cases hs; intro h; rw [he] at h; cases h
        · cases hs; trivial
    · cases hs
    · cases hs
    · split at hs
      · next hf => cases hs; exact fun _ w hw => (Pipeline.finished_workers hp hf w hw).1
      · cases hs
  | @returned o' rest hres hrest =>
    cases rest with
    | offsets t =>
      cases o <;> simp only [step] at hs <;> first | cases hs | skip
      obtain ⟨_, _, rfl⟩ := Option.map_eq_some_iff.1 hs
      exact h
    | data p =>
      cases o with
      | chan c =>
        cases c <;> simp only [step] at hs <;> first | cases hs | skip
        all_goals
          obtain ⟨_, h1, rfl⟩ := Option.map_eq_some_iff.1 hs
          exact fun he => keep h1 (h he)
      | check _ | off _ | main => simp [step] at hs

theorem success_run {R : Type} {P : Prog R} {n : Nat} (hn : 0 < n) {lines : List Str} {recs : List R} (ht : Total P n lines recs) {s s' : State P}
    {os : List Op} (hi : Inv P n lines recs s) (h : Success s) (hr : run P n s os = some s') : Success s' := by
  induction os generalizing s with
  | nil => cases hr; exact h
  | cons o os ih =>
    obtain ⟨s1, h1, h2⟩ := Option.bind_eq_some_iff.1 hr
    exact ih (step_inv hn ht hi h1) (success_step hi h h1) h2

theorem success_init {R : Type} (P : Prog R) (n : Nat) (lines : List Str) : Success (init P n lines) := by
  unfold init; split <;> trivial

theorem success_ended {R : Type} {P : Prog R} {o : Outcome} {rest : Rest P} (h : Success (.returned o rest)) (he : o.err = none) : rest.ended := by
  cases rest with
  | offsets t => exact absurd he h
  | data p => exact h he

/-- C83 for successful calls: at the moment the parser returns without an error every goroutine it started has ended already,
for every text. -/
theorem C83_success_ihex {n : Nat} (hn : 0 < n) {lines : List Str} {os : List Op} {o : Outcome} {rest : Rest (ihex n)}
    (h : run (ihex n) n (init (ihex n) n lines) os = some (.returned o rest)) (he : o.err = none) : rest.ended :=
  success_ended (success_run hn (ihex_total hn lines) (init_inv (ihex_total hn lines)) (success_init _ _ _) h) he

theorem C83_success_srec {n : Nat} (hn : 0 < n) {lines : List Str} {os : List Op} {o : Outcome} {rest : Rest srec}
    (h : run srec n (init srec n lines) os = some (.returned o rest)) (he : o.err = none) : rest.ended :=
  success_ended (success_run hn (srec_total hn lines) (init_inv (srec_total hn lines)) (success_init _ _ _) h) he

theorem insertBytes_err {h : Mem} {bs : List DataByte} {e : Ihex.ParseError} (he : (insertBytes h bs).err = some e) : ∃ a x y, e = .collision a x y := by
  induction bs generalizing h with
  | nil => cases he
  | cons b bs ih =>
    unfold insertBytes at he
    split at he
    · cases he; exact ⟨_, _, _, rfl⟩
    · exact ih he

/-- C83: only a call that found two values for one address can leave goroutines behind for ever. -/
theorem C83_leak {n : Nat} (hn : 0 < n) {lines : List Str} {os : List Op} {o : Outcome} {rest : Rest (ihex n)}
    (h : run (ihex n) n (init (ihex n) n lines) os = some (.returned o rest))
    (hst : ∀ op, step (ihex n) n (.returned o rest) op = none) (hl : ¬ rest.ended) : ∃ a x y, o.err = some (.collision a x y) := by
  cases rest with
  | offsets t => exact absurd (C83_checksum hn h hst) hl
  | data p =>
    cases he : o.err with
    | none => exact absurd (C83_success_ihex hn h he) hl
    | some e =>
      cases run_inv hn (ihex_total hn lines) (init_inv (ihex_total hn lines)) h with
      | returned hres hrest =>
        rcases hres with ⟨hb, _⟩ | ⟨_, ks, s, _, _, rfl⟩
        · exact absurd hb hrest.1
        · obtain ⟨a, x, y, rfl⟩ := insertBytes_err he
          exact ⟨a, x, y, rfl⟩

-- a run that returns without an error
example : ((run (ihex 2) 2 (init (ihex 2) 2 okLines) okRun).any fun
    | .returned o _ => o.err == none
    | _ => false) = true := by decide +kernel

/-- Two lines with the same address, then a segment line with a letter that is no digit and a data line. -/
def leakLines : List Str :=
  [":0100000001FE".toList, ":0100000001FE".toList, ":0200000400GFA".toList, ":0100000007F8".toList]

/-- A run on two CPUs. -/
def leakRun : List Op :=
  [.chan (.send 1), .chan (.send 0), .chan (.close 0), .chan (.close 1), .chan .recv, .chan .advance, .chan .recv, .chan .advance, .main,
   .off 0, .check (.work 0), .off 1, .off 0, .check (.work 0), .off 1, .off 0, .check (.work 0), .off 1, .off 0, .check (.work 1), .off 1,
   .off 0, .check (.work 1), .off 1, .off 0, .check (.work 1), .off 1, .off 0, .check .main, .off 1, .off 0, .off 1, .off 0, .off 0, .off 0,
   .off 0, .main, .main, .chan (.send 1), .chan (.send 0), .chan (.close 0), .chan .recv]

/-- The worker is blocked in a send to a full channel. -/
def blocked (w : Pipeline.Worker (List DataByte)) : Bool := !w.todo.isEmpty && decide (w.cap ≤ w.buf.length)

theorem leak_reached : ((run (ihex 2) 2 (init (ihex 2) 2 leakLines) leakRun).any fun
    | .returned o (.data p) => o.err == some (.collision 0 1 1) &&
        p.ws.map (fun w => (w.todo.isEmpty, w.closed, blocked w)) == [(true, true, false), (false, false, true)]
    | _ => false) = true := by decide +kernel

theorem leak_stuck : ∃ o rest, run (ihex 2) 2 (init (ihex 2) 2 leakLines) leakRun = some (.returned o rest) ∧
    (∀ op, step (ihex 2) 2 (.returned o rest) op = none) ∧ ¬ rest.ended := by
  obtain ⟨s, hs, hp⟩ := (Option.any_eq_true _ _).1 leak_reached
  split at hp
  · next o p =>
    simp only [Bool.and_eq_true, beq_iff_eq] at hp
    obtain ⟨_, hws⟩ := hp
    obtain ⟨w0, w1, hw⟩ : ∃ w0 w1, p.ws = [w0, w1] := by
      match h : p.ws with
      | [a, b] => exact ⟨a, b, rfl⟩
      | [] => rw [h] at hws; simp at hws
      | [_] => rw [h] at hws; simp at hws
      | _ :: _ :: _ :: _ => rw [h] at hws; simp at hws
    rw [hw] at hws
    simp only [List.map_cons, List.map_nil, List.cons.injEq, Prod.mk.injEq, and_true] at hws
    obtain ⟨⟨h00, h01, _⟩, h10, h11, h12⟩ := hws
    refine ⟨o, .data p, hs, ?_, ?_⟩
    rotate_left
    · intro hend
      have := hend w1 (by rw [hw]; simp)
      rw [h11] at this
      cases this
    · intro op
      have h0 : w0.todo = [] := by simpa using h00
      cases op with
      | main => rfl
      | check o => rfl
      | off k => rfl
      | chan c =>
        cases c with
        | recv => rfl
        | handoff => rfl
        | advance => rfl
        | send i =>
          simp only [step, Pipeline.step, hw]
          match i with
          | 0 => simp [h0]
          | 1 =>
            simp only [blocked, Bool.and_eq_true, decide_eq_true_eq] at h12
            cases htodo : w1.todo with
            | nil => simp [htodo]
            | cons x t =>
              simp [htodo]
              omega
          | i + 2 => simp
        | close i =>
          simp only [step, Pipeline.step, hw]
          match i with
          | 0 => simp [h01]
          | 1 => simp [h10]
          | i + 2 => simp
  · cases hp

/-- C83 is false: after the collision nobody receives from the second worker. It has an empty batch in its channel, for the
line it could not compute, and waits for ever to send the rest. -/
theorem C83_false : ¬ C83_full := by
  intro hall
  obtain ⟨o, rest, h, hst, hl⟩ := leak_stuck
  exact hl (hall 2 leakLines leakRun o rest (by omega) h hst)

-- the hypotheses of `C83_partial`: a collision with goroutines left over, in a file with a segment line
example : (∀ l ∈ Ihex.Spec.recognised 2 (okLines ++ okLines), typeText l = ['0', '4'] → half (upperText l) ≠ none) ∧
    Ihex.Spec.recognised 2 (okLines ++ okLines) = okLines ++ okLines := by decide +kernel

end Verif.Conc.HexRun
