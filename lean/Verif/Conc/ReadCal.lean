import Verif.Go.Strings

/-!
`ReadCalibration` (calib_data.go:45-98) with its two goroutines `readA2L` (102-114) and
`readHex` (118-155) as a state machine; one step is one channel or wait-group operation of
one goroutine. The two parsers are represented by what they return (`Except`); that they
return is assumed here (see the properties of the parsers).
-/

namespace Verif.Conc.ReadCal

open Verif.Go

/-- What `ReadCalibration` returns; `none` in `a2l`/`hex` is the zero value. -/
structure Result (A H E : Type) where
  a2l : Option A
  hex : Option H
  err : Option E

/-- Where the main goroutine is. -/
inductive Main (A H E : Type)
  /-- at `wgReaders.Wait()` (line 76) -/
  | wait
  /-- passed the wait, about to `close(errChan)` (line 80) -/
  | close
  /-- about to test `len(errChan) > 0` (line 86) -/
  | test
  /-- in the `range errChan` loop (lines 87-92) with the current value of `firstErr` -/
  | drain (firstErr : Option E)
  /-- at `cd.A2l = <-a2lChan` (line 95) -/
  | recvA
  /-- at `cd.Hex = <-hexChan` (line 96) -/
  | recvH (a : Option A)
  | ret (r : Result A H E)
  /-- a goroutine has panicked (send on or close of a closed channel, negative counter) -/
  | panicked

structure State (A H E : Type) where
  /-- program counter of `readA2L`: 0 before its send, 1 before `close(ca)`, 2 before the
  deferred `wg.Done()`, 3 returned -/
  pcA : Nat
  /-- the same for `readHex` -/
  pcH : Nat
  errBuf : List E
  errClosed : Bool
  aBuf : List A
  aClosed : Bool
  hBuf : List H
  hClosed : Bool
  wg : Nat
  main : Main A H E
  /-- errors in the order in which they were reported (history, not part of the program) -/
  log : List E

/-- calib_data.go:51-53,67: channels and wait group before the goroutines run. -/
def init (A H E : Type) : State A H E :=
  { pcA := 0, pcH := 0, errBuf := [], errClosed := false, aBuf := [], aClosed := false,
    hBuf := [], hClosed := false, wg := 2, main := .wait, log := [] }

inductive Who
  | a
  | h
  | m

/-- calib_data.go:107/133/146/152: `ce <- err`; the error channel has capacity 2. -/
def sendErr {A H E : Type} (s : State A H E) (e : E) : Option (State A H E) :=
  if s.errClosed then some { s with main := .panicked }
  else if s.errBuf.length < 2 then some { s with errBuf := s.errBuf ++ [e], log := s.log ++ [e] }
  else none

/-- `wg.Done()` -/
def wgDone {A H E : Type} (s : State A H E) : State A H E :=
  if s.wg = 0 then { s with main := .panicked } else { s with wg := s.wg - 1 }

/-- calib_data.go:102-114: a step of `readA2L`, whose parser gives `ra`; `none` if it is blocked or has returned. -/
def stepA {A H E : Type} (ra : Except E A) (s : State A H E) : Option (State A H E) :=
  match s.pcA with
  | 0 => match ra with
    | .error e => (sendErr s e).map fun s => { s with pcA := 1 }
    | .ok a =>
      if s.aClosed then some { s with main := .panicked }
      else if s.aBuf.length < 1 then some { s with aBuf := s.aBuf ++ [a], pcA := 1 }
      else none
  | 1 => if s.aClosed then some { s with main := .panicked } else some { s with aClosed := true, pcA := 2 }
  | 2 => some { wgDone s with pcA := 3 }
  | _ => none

/-- calib_data.go:118-155: a step of `readHex`, whose parser gives `rh`. -/
def stepH {A H E : Type} (rh : Except E H) (s : State A H E) : Option (State A H E) :=
  match s.pcH with
  | 0 => match rh with
    | .error e => (sendErr s e).map fun s => { s with pcH := 1 }
    | .ok h =>
      if s.hClosed then some { s with main := .panicked }
      else if s.hBuf.length < 1 then some { s with hBuf := s.hBuf ++ [h], pcH := 1 }
      else none
  | 1 => if s.hClosed then some { s with main := .panicked } else some { s with hClosed := true, pcH := 2 }
  | 2 => some { wgDone s with pcH := 3 }
  | _ => none

/-- calib_data.go:76-98: a step of the main goroutine. -/
def stepM {A H E : Type} (s : State A H E) : Option (State A H E) :=
  match s.main with
  | .wait => if s.wg = 0 then some { s with main := .close } else none
  | .close => if s.errClosed then some { s with main := .panicked }
    else some { s with errClosed := true, main := .test }
  | .test => if 0 < s.errBuf.length then some { s with main := .drain none } else some { s with main := .recvA }
  | .drain f => match s.errBuf with
    | e :: es => some { s with errBuf := es, main := .drain (some e) }
    | [] => if s.errClosed then some { s with main := .ret ⟨none, none, f⟩ } else none
  | .recvA => match s.aBuf with
    | a :: as => some { s with aBuf := as, main := .recvH (some a) }
    | [] => if s.aClosed then some { s with main := .recvH none } else none
  | .recvH a => match s.hBuf with
    | h :: hs => some { s with hBuf := hs, main := .ret ⟨a, some h, none⟩ }
    | [] => if s.hClosed then some { s with main := .ret ⟨a, none, none⟩ } else none
  | .ret _ => none
  | .panicked => none

/-- One step of the chosen goroutine; `none` if it is blocked or has returned. -/
def step {A H E : Type} (ra : Except E A) (rh : Except E H) (s : State A H E) : Who → Option (State A H E)
  | .a => stepA ra s
  | .h => stepH rh s
  | .m => stepM s

def run {A H E : Type} (ra : Except E A) (rh : Except E H) (s : State A H E) : List Who → Option (State A H E)
  | [] => some s
  | o :: os => (step ra rh s o).bind fun s' => run ra rh s' os

/-- calib_data.go:55-60: `ReadCalibration` fails at once if the log file cannot be
created, otherwise it starts the machine above. -/
def start {A H E : Type} (logErr : Option E) : State A H E :=
  match logErr with
  | some e => { init A H E with main := .ret ⟨none, none, some e⟩, pcA := 3, pcH := 3, wg := 0 }
  | none => init A H E

/-! ### The choice of the hex parser -/

inductive Format
  | intelHex
  | s19
  deriving DecidableEq

/-- `strings.ToLower` (ASCII letters; no other character maps to one of `.hexs19`). -/
def lowerStr (s : Str) : Str := s.map Char.toLower

def dotHex : Str := ['.', 'h', 'e', 'x']
def dotS19 : Str := ['.', 's', '1', '9']

/-- calib_data.go:125,138,150: which parser `readHex` calls; `none` is the error
"unsupported hex file type". -/
def format (path : Str) : Option Format :=
  if contains dotHex (lowerStr path) then some .intelHex
  else if contains dotS19 (lowerStr path) then some .s19
  else none

/-- calib_data.go:118-155 (`readHex`): what is sent, for parsers given by their results
on this path. -/
def readHexResult {H E : Type} (path : Str) (ihex srec : Str → Except E H) (unsupported : E) : Except E H :=
  match format path with
  | some .intelHex => ihex path
  | some .s19 => srec path
  | none => .error unsupported

/-! ### Invariant -/

def errOf {A E : Type} : Except E A → List E
  | .error e => [e]
  | .ok _ => []

def okOf {A E : Type} : Except E A → List A
  | .error _ => []
  | .ok a => [a]

/-- Reported errors match the program counters, in one of the two orders. -/
def LogOk {A H E : Type} (ra : Except E A) (rh : Except E H) (pcA pcH : Nat) (log : List E) : Prop :=
  let la := if pcA = 0 then [] else errOf ra
  let lh := if pcH = 0 then [] else errOf rh
  log = la ++ lh ∨ log = lh ++ la

/-- The readers' side. -/
structure Readers {A H E : Type} (ra : Except E A) (rh : Except E H) (s : State A H E) : Prop where
  pcA : s.pcA ≤ 3
  pcH : s.pcH ≤ 3
  wg : s.wg = (if s.pcA = 3 then 0 else 1) + (if s.pcH = 3 then 0 else 1)
  aClosed : s.aClosed = decide (2 ≤ s.pcA)
  hClosed : s.hClosed = decide (2 ≤ s.pcH)
  log : LogOk ra rh s.pcA s.pcH s.log

/-- The main goroutine's side. -/
def MainOk {A H E : Type} (ra : Except E A) (rh : Except E H) (s : State A H E) : Prop :=
  let done := s.pcA = 3 ∧ s.pcH = 3
  let aFull := s.aBuf = if s.pcA = 0 then [] else okOf ra
  let hFull := s.hBuf = if s.pcH = 0 then [] else okOf rh
  match s.main with
  | .wait => s.errClosed = false ∧ s.errBuf = s.log ∧ aFull ∧ hFull
  | .close => done ∧ s.errClosed = false ∧ s.errBuf = s.log ∧ aFull ∧ hFull
  | .test => done ∧ s.errClosed = true ∧ s.errBuf = s.log ∧ aFull ∧ hFull
  | .drain f => done ∧ s.errClosed = true ∧ s.log ≠ [] ∧ ∃ pre, pre ++ s.errBuf = s.log ∧ f = pre.getLast?
  | .recvA => done ∧ s.log = [] ∧ aFull ∧ hFull
  | .recvH a => done ∧ s.log = [] ∧ a = (okOf ra).head? ∧ hFull
  | .ret r => done ∧ r.err = s.log.getLast? ∧
      (s.log = [] → r.a2l = (okOf ra).head? ∧ r.hex = (okOf rh).head?) ∧
      (s.log ≠ [] → r.a2l = none ∧ r.hex = none)
  | .panicked => False

structure Inv {A H E : Type} (ra : Except E A) (rh : Except E H) (s : State A H E) : Prop where
  readers : Readers ra rh s
  main : MainOk ra rh s

theorem inv_init {A H E : Type} (ra : Except E A) (rh : Except E H) : Inv ra rh (init A H E) where
  readers := by
    refine ⟨?_, ?_, ?_, ?_, ?_, ?_⟩ <;> simp [init, LogOk]
  main := by simp [MainOk, init]

theorem log_length {A H E : Type} {ra : Except E A} {rh : Except E H} {p q : Nat} {log : List E}
    (h : LogOk ra rh p q log) : log.length = (if p = 0 then 0 else (errOf ra).length) +
      (if q = 0 then 0 else (errOf rh).length) := by
  unfold LogOk at h
  rcases h with h | h <;> rw [h] <;> (repeat' split) <;> simp <;> omega

theorem errOf_length {A E : Type} (r : Except E A) : (errOf r).length ≤ 1 := by
  cases r <;> simp [errOf]

/-- While a reader runs the main goroutine waits. -/
theorem main_wait {A H E : Type} {ra : Except E A} {rh : Except E H} {s : State A H E} (h : Inv ra rh s)
    (hr : s.pcA ≠ 3 ∨ s.pcH ≠ 3) : s.main = .wait := by
  have hm := h.main
  unfold MainOk at hm
  cases hmm : s.main with
  | wait => rfl
  | close => rw [hmm] at hm; obtain ⟨⟨a, b⟩, _⟩ := hm; omega
  | test => rw [hmm] at hm; obtain ⟨⟨a, b⟩, _⟩ := hm; omega
  | drain f => rw [hmm] at hm; obtain ⟨⟨a, b⟩, _⟩ := hm; omega
  | recvA => rw [hmm] at hm; obtain ⟨⟨a, b⟩, _⟩ := hm; omega
  | recvH f => rw [hmm] at hm; obtain ⟨⟨a, b⟩, _⟩ := hm; omega
  | ret f => rw [hmm] at hm; obtain ⟨⟨a, b⟩, _⟩ := hm; omega
  | panicked => rw [hmm] at hm; exact hm.elim

theorem wait_ok {A H E : Type} {ra : Except E A} {rh : Except E H} {s : State A H E} (h : Inv ra rh s)
    (hm : s.main = .wait) : s.errClosed = false ∧ s.errBuf = s.log ∧
      (s.aBuf = if s.pcA = 0 then [] else okOf ra) ∧ (s.hBuf = if s.pcH = 0 then [] else okOf rh) := by
  have := h.main
  unfold MainOk at this
  rw [hm] at this
  exact this

/-- The invariant of a waiting state from its parts. -/
theorem inv_wait {A H E : Type} {ra : Except E A} {rh : Except E H} {s : State A H E}
    (hr : Readers ra rh s) (hm : s.main = .wait) (h1 : s.errClosed = false) (h2 : s.errBuf = s.log)
    (h3 : s.aBuf = if s.pcA = 0 then [] else okOf ra) (h4 : s.hBuf = if s.pcH = 0 then [] else okOf rh) :
    Inv ra rh s := by
  refine ⟨hr, ?_⟩
  unfold MainOk
  rw [hm]
  exact ⟨h1, h2, h3, h4⟩

theorem inv_a {A H E : Type} {ra : Except E A} {rh : Except E H} {s s' : State A H E} (h : Inv ra rh s)
    (hs : step ra rh s .a = some s') : Inv ra rh s' := by
  obtain ⟨r1, r2, r3, r4, r5, r6⟩ := h.readers
  have hlen := log_length r6
  simp only [step, stepA] at hs
  split at hs
  · next hpc =>
    have hm := main_wait h (Or.inl (by omega))
    obtain ⟨w1, w2, w3, w4⟩ := wait_ok h hm
    have hac : s.aClosed = false := by rw [r4, hpc]; rfl
    split at hs
    · next e =>
      have hlen2 : s.errBuf.length < 2 := by
        rw [w2, hlen, hpc]; simp; split
        · omega
        · have := errOf_length rh; omega
      simp only [sendErr, w1, Bool.false_eq_true, if_false, if_pos hlen2, Option.map_some, Option.some.injEq] at hs
      subst hs
      apply inv_wait
      · refine ⟨by simp, r2, by simpa [hpc] using r3, by simp [hac], r5, ?_⟩
        have r6' := r6
        simp only [LogOk, hpc] at r6' ⊢
        right
        rcases r6' with r | r <;> simp [r, errOf]
      · exact hm
      · rfl
      · simp [w2]
      · simp [w3, hpc, okOf]
      · exact w4
    · next a =>
      have hb : s.aBuf = [] := by rw [w3, hpc]; rfl
      simp only [hac, Bool.false_eq_true, if_false, hb, List.length_nil, Nat.zero_lt_one, if_true, List.nil_append,
        Option.some.injEq] at hs
      subst hs
      apply inv_wait
      · refine ⟨by simp, r2, by simpa [hpc] using r3, by simp, r5, ?_⟩
        have r6' := r6
        simp only [LogOk, hpc] at r6' ⊢
        simpa [errOf] using r6'
      · exact hm
      · exact w1
      · exact w2
      · simp [okOf]
      · exact w4
  · next hpc =>
    have hm := main_wait h (Or.inl (by omega))
    obtain ⟨w1, w2, w3, w4⟩ := wait_ok h hm
    have hac : s.aClosed = false := by rw [r4, hpc]; rfl
    simp only [hac, Bool.false_eq_true, if_false, Option.some.injEq] at hs
    subst hs
    apply inv_wait
    · refine ⟨by simp, r2, by simpa [hpc] using r3, by simp, r5, by simpa [LogOk, hpc] using r6⟩
    · exact hm
    · exact w1
    · exact w2
    · simpa [hpc] using w3
    · exact w4
  · next hpc =>
    have hm := main_wait h (Or.inl (by omega))
    obtain ⟨w1, w2, w3, w4⟩ := wait_ok h hm
    have hwg : s.wg ≠ 0 := by rw [r3, hpc]; simp
    simp only [wgDone, if_neg hwg, Option.some.injEq] at hs
    subst hs
    apply inv_wait
    · refine ⟨by simp, r2, ?_, by simp [r4, hpc], r5, by simpa [LogOk, hpc] using r6⟩
      simp only [r3, hpc]; simp
    · exact hm
    · exact w1
    · exact w2
    · simpa [hpc] using w3
    · exact w4
  · simp at hs

theorem inv_h {A H E : Type} {ra : Except E A} {rh : Except E H} {s s' : State A H E} (h : Inv ra rh s)
    (hs : step ra rh s .h = some s') : Inv ra rh s' := by
  obtain ⟨r1, r2, r3, r4, r5, r6⟩ := h.readers
  have hlen := log_length r6
  simp only [step, stepH] at hs
  split at hs
  · next hpc =>
    have hm := main_wait h (Or.inr (by omega))
    obtain ⟨w1, w2, w3, w4⟩ := wait_ok h hm
    have hac : s.hClosed = false := by rw [r5, hpc]; rfl
    split at hs
    · next e =>
      have hlen2 : s.errBuf.length < 2 := by
        rw [w2, hlen, hpc]; simp; split
        · omega
        · have := errOf_length ra; omega
      simp only [sendErr, w1, Bool.false_eq_true, if_false, if_pos hlen2, Option.map_some, Option.some.injEq] at hs
      subst hs
      apply inv_wait
      · refine ⟨r1, by simp, by simpa [hpc] using r3, r4, by simp [hac], ?_⟩
        have r6' := r6
        simp only [LogOk, hpc] at r6' ⊢
        left
        rcases r6' with r | r <;> simp [r, errOf]
      · exact hm
      · rfl
      · simp [w2]
      · exact w3
      · simp [w4, hpc, okOf]
    · next a =>
      have hb : s.hBuf = [] := by rw [w4, hpc]; rfl
      simp only [hac, Bool.false_eq_true, if_false, hb, List.length_nil, Nat.zero_lt_one, if_true, List.nil_append,
        Option.some.injEq] at hs
      subst hs
      apply inv_wait
      · refine ⟨r1, by simp, by simpa [hpc] using r3, r4, by simp, ?_⟩
        have r6' := r6
        simp only [LogOk, hpc] at r6' ⊢
        simpa [errOf] using r6'
      · exact hm
      · exact w1
      · exact w2
      · exact w3
      · simp [okOf]
  · next hpc =>
    have hm := main_wait h (Or.inr (by omega))
    obtain ⟨w1, w2, w3, w4⟩ := wait_ok h hm
    have hac : s.hClosed = false := by rw [r5, hpc]; rfl
    simp only [hac, Bool.false_eq_true, if_false, Option.some.injEq] at hs
    subst hs
    apply inv_wait
    · refine ⟨r1, by simp, by simpa [hpc] using r3, r4, by simp, by simpa [LogOk, hpc] using r6⟩
    · exact hm
    · exact w1
    · exact w2
    · exact w3
    · simpa [hpc] using w4
  · next hpc =>
    have hm := main_wait h (Or.inr (by omega))
    obtain ⟨w1, w2, w3, w4⟩ := wait_ok h hm
    have hwg : s.wg ≠ 0 := by rw [r3, hpc]; simp
    simp only [wgDone, if_neg hwg, Option.some.injEq] at hs
    subst hs
    apply inv_wait
    · refine ⟨r1, by simp, ?_, r4, by simp [r5, hpc], by simpa [LogOk, hpc] using r6⟩
      simp only [r3, hpc]; simp
    · exact hm
    · exact w1
    · exact w2
    · exact w3
    · simpa [hpc] using w4
  · simp at hs

theorem inv_m {A H E : Type} {ra : Except E A} {rh : Except E H} {s s' : State A H E} (h : Inv ra rh s)
    (hs : step ra rh s .m = some s') : Inv ra rh s' := by
  obtain ⟨r1, r2, r3, r4, r5, r6⟩ := h.readers
  have hm := h.main
  unfold MainOk at hm
  simp only [step, stepM] at hs
  split at hs
  · next hmm =>
    rw [hmm] at hm
    split at hs
    · next hwg =>
      simp only [Option.some.injEq] at hs
      subst hs
      refine ⟨⟨r1, r2, r3, r4, r5, r6⟩, ?_⟩
      have : s.pcA = 3 ∧ s.pcH = 3 := by
        rw [hwg] at r3
        constructor
        · apply Classical.byContradiction; intro hc; rw [if_neg hc] at r3; omega
        · apply Classical.byContradiction; intro hc; rw [if_neg hc] at r3; omega
      exact ⟨this, hm⟩
    · simp at hs
  · next hmm =>
    rw [hmm] at hm
    obtain ⟨hd, h1, h2⟩ := hm
    simp only [h1, Bool.false_eq_true, if_false, Option.some.injEq] at hs
    subst hs
    exact ⟨⟨r1, r2, r3, r4, r5, r6⟩, hd, rfl, h2⟩
  · next hmm =>
    rw [hmm] at hm
    obtain ⟨hd, h1, h2, h3, h4⟩ := hm
    split at hs
    · next hpos =>
      simp only [Option.some.injEq] at hs
      subst hs
      refine ⟨⟨r1, r2, r3, r4, r5, r6⟩, hd, h1, ?_, [], by simpa using h2, rfl⟩
      intro he
      rw [h2, he] at hpos
      simp at hpos
    · next hpos =>
      simp only [Option.some.injEq] at hs
      subst hs
      refine ⟨⟨r1, r2, r3, r4, r5, r6⟩, hd, ?_, h3, h4⟩
      rw [← h2]
      apply List.eq_nil_of_length_eq_zero; omega
  · next f hmm =>
    rw [hmm] at hm
    obtain ⟨hd, h1, h2, pre, h3, h4⟩ := hm
    split at hs
    · next e es he =>
      simp only [Option.some.injEq] at hs
      subst hs
      refine ⟨⟨r1, r2, r3, r4, r5, r6⟩, hd, h1, h2, pre ++ [e], ?_, by simp⟩
      rw [he] at h3
      simpa using h3
    · next he =>
      simp only [h1, if_true, Option.some.injEq] at hs
      subst hs
      rw [he] at h3
      simp at h3
      refine ⟨⟨r1, r2, r3, r4, r5, r6⟩, hd, ?_, ?_, ?_⟩
      · show f = _; rw [h4, h3]
      · intro hc; exact absurd hc h2
      · intro _; exact ⟨rfl, rfl⟩
  · next hmm =>
    rw [hmm] at hm
    obtain ⟨hd, h1, h2, h3⟩ := hm
    simp only [hd.1, Nat.succ_ne_zero, if_false] at h2
    split at hs
    · next a as ha =>
      simp only [Option.some.injEq] at hs
      subst hs
      refine ⟨⟨r1, r2, r3, r4, r5, r6⟩, hd, h1, ?_, h3⟩
      rw [← h2, ha]; rfl
    · next ha =>
      split at hs
      · simp only [Option.some.injEq] at hs
        subst hs
        refine ⟨⟨r1, r2, r3, r4, r5, r6⟩, hd, h1, ?_, h3⟩
        rw [← h2, ha]; rfl
      · simp at hs
  · next a hmm =>
    rw [hmm] at hm
    obtain ⟨hd, h1, h2, h3⟩ := hm
    simp only [hd.2, Nat.succ_ne_zero, if_false] at h3
    split at hs
    · next x xs hx =>
      simp only [Option.some.injEq] at hs
      subst hs
      refine ⟨⟨r1, r2, r3, r4, r5, r6⟩, hd, ?_, ?_, ?_⟩
      · simp [h1]
      · intro _; refine ⟨h2, ?_⟩; rw [← h3, hx]; rfl
      · intro hc; exact absurd h1 hc
    · next hx =>
      split at hs
      · simp only [Option.some.injEq] at hs
        subst hs
        refine ⟨⟨r1, r2, r3, r4, r5, r6⟩, hd, ?_, ?_, ?_⟩
        · simp [h1]
        · intro _; refine ⟨h2, ?_⟩; rw [← h3, hx]; rfl
        · intro hc; exact absurd h1 hc
      · simp at hs
  · simp at hs
  · simp at hs

theorem inv_run {A H E : Type} {ra : Except E A} {rh : Except E H} {s s' : State A H E} {os : List Who}
    (h : Inv ra rh s) (hr : run ra rh s os = some s') : Inv ra rh s' := by
  induction os generalizing s with
  | nil => simp [run] at hr; subst hr; exact h
  | cons o os ih =>
    simp only [run] at hr
    cases hs : step ra rh s o with
    | none => rw [hs] at hr; simp at hr
    | some s1 =>
      rw [hs] at hr
      refine ih ?_ hr
      cases o
      · exact inv_a h hs
      · exact inv_h h hs
      · exact inv_m h hs

/-! ### Progress and measure -/

def Main.returned {A H E : Type} : Main A H E → Bool
  | .ret _ => true
  | _ => false

theorem a_enabled {A H E : Type} {ra : Except E A} {rh : Except E H} {s : State A H E} (h : Inv ra rh s)
    (hp : s.pcA ≠ 3) : ∃ s', step ra rh s .a = some s' := by
  have hm := main_wait h (Or.inl hp)
  obtain ⟨w1, w2, w3, w4⟩ := wait_ok h hm
  obtain ⟨r1, r2, r3, r4, r5, r6⟩ := h.readers
  have hlen := log_length r6
  have : s.pcA = 0 ∨ s.pcA = 1 ∨ s.pcA = 2 := by omega
  rcases this with hpc | hpc | hpc
  · have hac : s.aClosed = false := by rw [r4, hpc]; rfl
    cases ra with
    | error e =>
      have hlen2 : s.errBuf.length < 2 := by
        rw [w2, hlen, hpc]; simp; split
        · omega
        · have := errOf_length rh; omega
      simp [step, stepA, hpc, sendErr, w1, hlen2]
    | ok a =>
      have hb : s.aBuf = [] := by rw [w3, hpc]; rfl
      simp [step, stepA, hpc, hac, hb]
  · simp only [step, stepA, hpc]
    split <;> exact ⟨_, rfl⟩
  · simp only [step, stepA, hpc]; exact ⟨_, rfl⟩

theorem h_enabled {A H E : Type} {ra : Except E A} {rh : Except E H} {s : State A H E} (h : Inv ra rh s)
    (hp : s.pcH ≠ 3) : ∃ s', step ra rh s .h = some s' := by
  have hm := main_wait h (Or.inr hp)
  obtain ⟨w1, w2, w3, w4⟩ := wait_ok h hm
  obtain ⟨r1, r2, r3, r4, r5, r6⟩ := h.readers
  have hlen := log_length r6
  have : s.pcH = 0 ∨ s.pcH = 1 ∨ s.pcH = 2 := by omega
  rcases this with hpc | hpc | hpc
  · have hac : s.hClosed = false := by rw [r5, hpc]; rfl
    cases rh with
    | error e =>
      have hlen2 : s.errBuf.length < 2 := by
        rw [w2, hlen, hpc]; simp; split
        · omega
        · have := errOf_length ra; omega
      simp [step, stepH, hpc, sendErr, w1, hlen2]
    | ok a =>
      have hb : s.hBuf = [] := by rw [w4, hpc]; rfl
      simp [step, stepH, hpc, hac, hb]
  · simp only [step, stepH, hpc]
    split <;> exact ⟨_, rfl⟩
  · simp only [step, stepH, hpc]; exact ⟨_, rfl⟩

theorem m_enabled {A H E : Type} {ra : Except E A} {rh : Except E H} {s : State A H E} (h : Inv ra rh s)
    (hA : s.pcA = 3) (hH : s.pcH = 3) (hr : s.main.returned = false) : ∃ s', step ra rh s .m = some s' := by
  obtain ⟨r1, r2, r3, r4, r5, r6⟩ := h.readers
  have hac : s.aClosed = true := by rw [r4, hA]; rfl
  have hhc : s.hClosed = true := by rw [r5, hH]; rfl
  have hwg : s.wg = 0 := by rw [r3, hA, hH]; rfl
  have hm := h.main
  unfold MainOk at hm
  cases hmm : s.main with
  | wait => simp [step, stepM, hmm, hwg]
  | close => simp only [step, stepM, hmm]; split <;> exact ⟨_, rfl⟩
  | test => simp only [step, stepM, hmm]; split <;> exact ⟨_, rfl⟩
  | drain f =>
    rw [hmm] at hm
    simp only [step, stepM, hmm, hm.2.1, if_true]
    split <;> exact ⟨_, rfl⟩
  | recvA => simp only [step, stepM, hmm, hac, if_true]; split <;> exact ⟨_, rfl⟩
  | recvH a => simp only [step, stepM, hmm, hhc, if_true]; split <;> exact ⟨_, rfl⟩
  | ret r => rw [hmm] at hr; simp [Main.returned] at hr
  | panicked => rw [hmm] at hm; exact hm.elim

/-- Steps still possible. -/
def State.work {A H E : Type} (s : State A H E) : Nat :=
  (3 - s.pcA) + (3 - s.pcH) +
  match s.main with
  | .wait => 6
  | .close => 5
  | .test => 4
  | .drain _ => 1 + s.errBuf.length
  | .recvA => 2
  | .recvH _ => 1
  | .ret _ => 0
  | .panicked => 0

theorem step_work {A H E : Type} {ra : Except E A} {rh : Except E H} {s s' : State A H E} {o : Who}
    (h : Inv ra rh s) (hs : step ra rh s o = some s') : s'.work < s.work := by
  have h' : Inv ra rh s' := by
    cases o
    · exact inv_a h hs
    · exact inv_h h hs
    · exact inv_m h hs
  obtain ⟨r1, r2, r3, r4, r5, r6⟩ := h.readers
  have hlen := log_length r6
  have e1 := errOf_length ra
  have e2 := errOf_length rh
  have hle : s.log.length ≤ 2 := by
    rw [hlen]; split <;> split <;> omega
  cases o with
  | a =>
    have hp : s.pcA ≠ 3 := by intro hc; simp [step, stepA, hc] at hs
    have hm := main_wait h (Or.inl hp)
    obtain ⟨w1, w2, w3, w4⟩ := wait_ok h hm
    have : s.pcA = 0 ∨ s.pcA = 1 ∨ s.pcA = 2 := by omega
    rcases this with hpc | hpc | hpc
    · have hac : s.aClosed = false := by rw [r4, hpc]; rfl
      cases ra with
      | error e =>
        simp only [step, stepA, hpc, sendErr, w1, Bool.false_eq_true, if_false] at hs
        split at hs
        · simp only [Option.map_some, Option.some.injEq] at hs
          subst hs
          simp only [State.work, hm, hpc]; omega
        · simp at hs
      | ok a =>
        simp only [step, stepA, hpc, hac, Bool.false_eq_true, if_false] at hs
        split at hs
        · simp only [Option.some.injEq] at hs
          subst hs
          simp only [State.work, hm, hpc]; omega
        · simp at hs
    · have hac : s.aClosed = false := by rw [r4, hpc]; rfl
      simp only [step, stepA, hpc, hac, Bool.false_eq_true, if_false, Option.some.injEq] at hs
      subst hs
      simp only [State.work, hm, hpc]; omega
    · have hwg : s.wg ≠ 0 := by rw [r3, hpc]; simp
      simp only [step, stepA, hpc, wgDone, if_neg hwg, Option.some.injEq] at hs
      subst hs
      simp only [State.work, hm, hpc]; omega
  | h =>
    have hp : s.pcH ≠ 3 := by intro hc; simp [step, stepH, hc] at hs
    have hm := main_wait h (Or.inr hp)
    obtain ⟨w1, w2, w3, w4⟩ := wait_ok h hm
    have : s.pcH = 0 ∨ s.pcH = 1 ∨ s.pcH = 2 := by omega
    rcases this with hpc | hpc | hpc
    · have hac : s.hClosed = false := by rw [r5, hpc]; rfl
      cases rh with
      | error e =>
        simp only [step, stepH, hpc, sendErr, w1, Bool.false_eq_true, if_false] at hs
        split at hs
        · simp only [Option.map_some, Option.some.injEq] at hs
          subst hs
          simp only [State.work, hm, hpc]; omega
        · simp at hs
      | ok a =>
        simp only [step, stepH, hpc, hac, Bool.false_eq_true, if_false] at hs
        split at hs
        · simp only [Option.some.injEq] at hs
          subst hs
          simp only [State.work, hm, hpc]; omega
        · simp at hs
    · have hac : s.hClosed = false := by rw [r5, hpc]; rfl
      simp only [step, stepH, hpc, hac, Bool.false_eq_true, if_false, Option.some.injEq] at hs
      subst hs
      simp only [State.work, hm, hpc]; omega
    · have hwg : s.wg ≠ 0 := by rw [r3, hpc]; simp
      simp only [step, stepH, hpc, wgDone, if_neg hwg, Option.some.injEq] at hs
      subst hs
      simp only [State.work, hm, hpc]; omega
  | m =>
    have hm := h.main
    unfold MainOk at hm
    simp only [step, stepM] at hs
    split at hs
    · next hmm =>
      split at hs
      · simp only [Option.some.injEq] at hs
        subst hs
        simp only [State.work, hmm]; omega
      · simp at hs
    · next hmm =>
      rw [hmm] at hm
      simp only [hm.2.1, Bool.false_eq_true, if_false, Option.some.injEq] at hs
      subst hs
      simp only [State.work, hmm]; omega
    · next hmm =>
      rw [hmm] at hm
      have hb : s.errBuf.length ≤ 2 := by rw [hm.2.2.1]; exact hle
      split at hs
      · simp only [Option.some.injEq] at hs
        subst hs
        simp only [State.work, hmm]; omega
      · simp only [Option.some.injEq] at hs
        subst hs
        simp only [State.work, hmm]; omega
    · next f hmm =>
      split at hs
      · next e es he =>
        simp only [Option.some.injEq] at hs
        subst hs
        simp only [State.work, hmm, he, List.length_cons]; omega
      · next he =>
        split at hs
        · simp only [Option.some.injEq] at hs
          subst hs
          simp only [State.work, hmm]; omega
        · simp at hs
    · next hmm =>
      split at hs
      · simp only [Option.some.injEq] at hs
        subst hs
        simp only [State.work, hmm]; omega
      · split at hs
        · simp only [Option.some.injEq] at hs
          subst hs
          simp only [State.work, hmm]; omega
        · simp at hs
    · next a hmm =>
      split at hs
      · simp only [Option.some.injEq] at hs
        subst hs
        simp only [State.work, hmm]; omega
      · split at hs
        · simp only [Option.some.injEq] at hs
          subst hs
          simp only [State.work, hmm]; omega
        · simp at hs
    · simp at hs
    · simp at hs

theorem run_work {A H E : Type} {ra : Except E A} {rh : Except E H} {s s' : State A H E} {os : List Who}
    (h : Inv ra rh s) (hr : run ra rh s os = some s') : s'.work + os.length ≤ s.work := by
  induction os generalizing s with
  | nil => simp [run] at hr; subst hr; simp
  | cons o os ih =>
    simp only [run] at hr
    cases hs : step ra rh s o with
    | none => rw [hs] at hr; simp at hr
    | some s1 =>
      rw [hs] at hr
      have hi : Inv ra rh s1 := by
        cases o
        · exact inv_a h hs
        · exact inv_h h hs
        · exact inv_m h hs
      have := ih hi hr
      have := step_work h hs
      simp only [List.length_cons]
      omega

end Verif.Conc.ReadCal
