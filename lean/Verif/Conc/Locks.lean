import Verif.Conc.Pipeline
import Verif.Ihex.ExactProps

/-!
`addOffsets` (ihex32/record.go:56-81) with the mutex of every record: taking the lock, reading the record, storing the
offset and giving the lock back are steps of their own. `Verif.Ihex.Model` takes the whole loop body as one step; here it is
shown that this is right.
-/

namespace Verif.Ihex.Locks

open Verif.Go

/-- Where a worker is in the loop body (ihex32/record.go:63-80). -/
inductive PC
  /-- before `recs[i].rwm.Lock()`, or the loop condition if `i` is past the end -/
  | top
  /-- holds the lock, about to read the record -/
  | locked
  /-- holds the lock, about to execute `recs[i].offset = offs` -/
  | store
  /-- about to execute `recs[i].rwm.Unlock()`; `brk` says whether `break` follows -/
  | unlock (brk : Bool)
  /-- `wg.Done()` has been called -/
  | done
  deriving DecidableEq, Repr

/-- Local variables of a worker and its place in the code. -/
structure LWorker where
  pos : Nat
  offs : Str
  first : Bool
  pc : PC
  deriving DecidableEq, Repr

/-- The shared records, the holder of the mutex of each of them, and the workers. -/
structure LState where
  recs : List Record
  locks : List (Option Nat)
  workers : List LWorker
  deriving DecidableEq, Repr

/-- ihex32/hex.go:132-138 with record.go:60-62. -/
def start (n : Nat) (recs : List Record) : LState :=
  { recs, locks := recs.map fun _ => none,
    workers := (List.range n).map fun i => { pos := shareStart recs.length n i, offs := zeroOffset, first := false, pc := .top } }

/-- The decisions of ihex32/record.go:65-78 for a record that has been read: local variables afterwards and what to do next. -/
def decideBody (r : Record) (w : LWorker) : LWorker :=
  if r.recordType = extendedLinearAddressRecordToken then { w with offs := r.offset, first := true, pc := .unlock false }
  else if r.recordType = dataRecordToken then
    if w.first ∧ r.offset = w.offs then { w with pc := .unlock true }
    else if w.first ∧ r.offset ≠ w.offs then { w with first := false, pc := .store }
    else if r.offset ≠ w.offs ∧ w.offs ≠ zeroOffset then { w with pc := .store }
    else { w with pc := .unlock false }
  else { w with pc := .unlock false }

/-- One step of worker `k`; `none` if it has returned or waits for a lock. -/
def step (s : LState) (k : Nat) : Option LState :=
  match s.workers[k]? with
  | none => none
  | some w =>
    match w.pc with
    | .top =>
      match s.locks[w.pos]? with
      | none => some { s with workers := s.workers.set k { w with pc := .done } }
      | some none => some { s with locks := s.locks.set w.pos (some k), workers := s.workers.set k { w with pc := .locked } }
      | some (some _) => none
    | .locked =>
      match s.recs[w.pos]? with
      | none => none
      | some r => some { s with workers := s.workers.set k (decideBody r w) }
    | .store =>
      match s.recs[w.pos]? with
      | none => none
      | some r => some { s with recs := s.recs.set w.pos { r with offset := w.offs }, workers := s.workers.set k { w with pc := .unlock false } }
    | .unlock brk =>
      some { s with locks := s.locks.set w.pos none,
                    workers := s.workers.set k (if brk then { w with pc := .done } else { w with pos := w.pos + 1, pc := .top }) }
    | .done => none

/-- The worker is between `Lock` and `Unlock`. -/
def LWorker.holds (w : LWorker) : Bool :=
  match w.pc with
  | .locked | .store | .unlock _ => true
  | _ => false

def LState.allDone (s : LState) : Bool := s.workers.all fun w => w.pc == .done

def run (s : LState) : List Nat → Option LState
  | [] => some s
  | k :: ks => (step s k).bind fun s' => run s' ks

/-! ### Locks -/

/-- A lock is held by exactly the worker that is between `Lock` and `Unlock` of that record. -/
structure LockInv (s : LState) : Prop where
  len : s.locks.length = s.recs.length
  iff : ∀ (i k : Nat), s.locks[i]? = some (some k) ↔ ∃ w : LWorker, s.workers[k]? = some w ∧ w.holds = true ∧ w.pos = i

theorem start_inv (n : Nat) (recs : List Record) : LockInv (start n recs) where
  len := by simp [start]
  iff := by
    intro i k
    constructor
    · intro h
      simp only [start, List.getElem?_map, Option.map_eq_some_iff] at h
      obtain ⟨_, _, h⟩ := h
      cases h
    · rintro ⟨w, h, hh, _⟩
      simp only [start, List.getElem?_map, Option.map_eq_some_iff] at h
      obtain ⟨_, _, rfl⟩ := h
      cases hh

theorem exclusive {s : LState} (h : LockInv s) {k k' : Nat} {w w' : LWorker} (hk : s.workers[k]? = some w)
    (hk' : s.workers[k']? = some w') (hh : w.holds = true) (hh' : w'.holds = true) (hp : w.pos = w'.pos) : k = k' := by
  have h1 := (h.iff w.pos k).2 ⟨w, hk, hh, rfl⟩
  have h2 := (h.iff w.pos k').2 ⟨w', hk', hh', hp.symm⟩
  rw [h1] at h2
  simpa using h2

theorem set_workers_iff {ws : List LWorker} {k j : Nat} {w w' x : LWorker} (hk : ws[k]? = some w) :
    (ws.set k w')[j]? = some x ↔ (j = k ∧ x = w') ∨ (j ≠ k ∧ ws[j]? = some x) := by
  have hlt := Conc.Pipeline.lt_of_getElem? hk
  rw [List.getElem?_set]
  by_cases hj : k = j
  · subst hj
    simp [hlt, eq_comm]
  · simp [hj, Ne.symm hj]

theorem decideBody_pos (r : Record) (w : LWorker) : (decideBody r w).pos = w.pos := by
  unfold decideBody
  repeat' split
  all_goals rfl

theorem decideBody_holds (r : Record) (w : LWorker) : (decideBody r w).holds = true := by
  unfold decideBody
  repeat' split
  all_goals rfl

/-- A step that neither takes nor gives back a lock. -/
theorem inv_same {s s' : LState} {k : Nat} {w w' : LWorker} (h : LockInv s) (hk : s.workers[k]? = some w)
    (hl : s'.locks = s.locks) (hr : s'.recs.length = s.recs.length) (hw : s'.workers = s.workers.set k w')
    (hp : w'.holds = true ↔ w.holds = true) (hpos : w.holds = true → w'.pos = w.pos) : LockInv s' where
  len := by rw [hl, hr]; exact h.len
  iff := by
    intro i j
    rw [hl, h.iff, hw]
    constructor
    · rintro ⟨x, hx, hh, hi⟩
      by_cases hj : j = k
      · subst hj
        rw [hk] at hx; cases hx
        exact ⟨w', (set_workers_iff hk).2 (Or.inl ⟨rfl, rfl⟩), hp.2 hh, (hpos hh).trans hi⟩
      · exact ⟨x, (set_workers_iff hk).2 (Or.inr ⟨hj, hx⟩), hh, hi⟩
    · rintro ⟨x, hx, hh, hi⟩
      rcases (set_workers_iff hk).1 hx with ⟨rfl, rfl⟩ | ⟨_, hx⟩
      · exact ⟨w, hk, hp.1 hh, (hpos (hp.1 hh)).symm.trans hi⟩
      · exact ⟨x, hx, hh, hi⟩

theorem step_inv {s s' : LState} {k : Nat} (h : LockInv s) (hs : step s k = some s') : LockInv s' := by
  unfold step at hs
  split at hs
  · cases hs
  · next w hk =>
    split at hs
    · next hpc =>
      split at hs
      · cases hs
        exact inv_same h hk rfl rfl rfl (by simp [LWorker.holds, hpc]) (by simp [LWorker.holds, hpc])
      · next hlock =>
        cases hs
        have hlt := Conc.Pipeline.lt_of_getElem? hlock
        refine ⟨by simpa using h.len, fun i j => ?_⟩
        show (s.locks.set w.pos (some k))[i]? = some (some j) ↔ ∃ x, (s.workers.set k { w with pc := .locked })[j]? = some x ∧ _
        by_cases hi : w.pos = i
        · subst hi
          rw [List.getElem?_set, if_pos rfl, if_pos hlt]
          constructor
          · intro hj
            obtain rfl : k = j := by simpa using hj
            exact ⟨_, (set_workers_iff hk).2 (Or.inl ⟨rfl, rfl⟩), rfl, rfl⟩
          · rintro ⟨x, hx, hh, hp⟩
            rcases (set_workers_iff hk).1 hx with ⟨rfl, _⟩ | ⟨_, hx⟩
            · rfl
            · have := (h.iff w.pos j).2 ⟨x, hx, hh, hp⟩
              rw [hlock] at this; cases this
        · rw [List.getElem?_set, if_neg hi, h.iff]
          constructor
          · rintro ⟨x, hx, hh, hp⟩
            have hj : j ≠ k := by
              rintro rfl
              rw [hk] at hx; cases hx
              simp [LWorker.holds, hpc] at hh
            exact ⟨x, (set_workers_iff hk).2 (Or.inr ⟨hj, hx⟩), hh, hp⟩
          · rintro ⟨x, hx, hh, hp⟩
            rcases (set_workers_iff hk).1 hx with ⟨_, rfl⟩ | ⟨_, hx⟩
            · exact absurd hp hi
            · exact ⟨x, hx, hh, hp⟩
      · cases hs
    · next hpc =>
      split at hs
      · cases hs
      · next r hr =>
        cases hs
        exact inv_same h hk rfl rfl rfl (by rw [decideBody_holds]; simp [LWorker.holds, hpc]) (fun _ => decideBody_pos r w)
    · next hpc =>
      split at hs
      · cases hs
      · next r hr =>
        cases hs
        exact inv_same h hk rfl (by simp) rfl (by simp [LWorker.holds, hpc]) (fun _ => rfl)
    · next brk hpc =>
      cases hs
      have hown := (h.iff w.pos k).2 ⟨w, hk, by simp [LWorker.holds, hpc], rfl⟩
      have hlt := Conc.Pipeline.lt_of_getElem? hown
      have hnot : (if brk then { w with pc := PC.done } else { w with pos := w.pos + 1, pc := .top }).holds = false := by
        cases brk <;> rfl
      refine ⟨by simpa using h.len, fun i j => ?_⟩
      show (s.locks.set w.pos none)[i]? = some (some j) ↔ ∃ x, (s.workers.set k _)[j]? = some x ∧ _
      by_cases hi : w.pos = i
      · subst hi
        rw [List.getElem?_set, if_pos rfl, if_pos hlt]
        constructor
        · intro hj; cases hj
        · rintro ⟨x, hx, hh, hp⟩
          rcases (set_workers_iff hk).1 hx with ⟨rfl, rfl⟩ | ⟨hj, hx⟩
          · rw [hnot] at hh; cases hh
          · have := (h.iff w.pos j).2 ⟨x, hx, hh, hp⟩
            rw [hown] at this
            exact absurd (by simpa using this.symm) hj
      · rw [List.getElem?_set, if_neg hi, h.iff]
        constructor
        · rintro ⟨x, hx, hh, hp⟩
          have hj : j ≠ k := by
            rintro rfl
            rw [hk] at hx; cases hx
            exact hi hp
          exact ⟨x, (set_workers_iff hk).2 (Or.inr ⟨hj, hx⟩), hh, hp⟩
        · rintro ⟨x, hx, hh, hp⟩
          rcases (set_workers_iff hk).1 hx with ⟨_, rfl⟩ | ⟨_, hx⟩
          · rw [hnot] at hh; cases hh
          · exact ⟨x, hx, hh, hp⟩
    · cases hs

theorem run_inv {s s' : LState} {ks : List Nat} (h : LockInv s) (hr : run s ks = some s') : LockInv s' := by
  induction ks generalizing s with
  | nil => cases hr; exact h
  | cons k ks ih =>
    obtain ⟨s1, h1, h2⟩ := Option.bind_eq_some_iff.1 hr
    exact ih (step_inv h h1) h2

/-! ### Atomic steps -/

/-- The worker of the coarse model: the body counts as executed once the record has been read. -/
def LWorker.coarse (w : LWorker) : Worker :=
  { pos := match w.pc with
      | .store | .unlock false => w.pos + 1
      | _ => w.pos,
    offs := w.offs, first := w.first,
    done := match w.pc with
      | .done | .unlock true => true
      | _ => false }

/-- The coarse state: the stores that are still to come have been made. -/
structure Sim (s : LState) (a : OffState) : Prop where
  workers : a.workers = s.workers.map LWorker.coarse
  pending : ∀ (k : Nat) w r, s.workers[k]? = some w → w.pc = .store → s.recs[w.pos]? = some r → a.recs[w.pos]? = some { r with offset := w.offs }
  other : ∀ (i : Nat), (∀ (k : Nat) w, s.workers[k]? = some w → w.pc = .store → w.pos ≠ i) → a.recs[i]? = s.recs[i]?

theorem start_sim (n : Nat) (recs : List Record) : Sim (start n recs) (initOffsets n recs) where
  workers := by simp [start, initOffsets, initAt, initWorker, LWorker.coarse, Function.comp_def]
  pending := by
    intro k w r hk hp
    simp only [start, List.getElem?_map, Option.map_eq_some_iff] at hk
    obtain ⟨_, _, rfl⟩ := hk
    cases hp
  other := fun _ _ => rfl

theorem sim_done {s : LState} {a : OffState} (h : Sim s a) (hd : s.allDone = true) : a.recs = s.recs ∧ a.allDone = true := by
  have hd' : ∀ w ∈ s.workers, w.pc = .done := by simpa [LState.allDone] using hd
  constructor
  · apply List.ext_getElem?
    intro i
    refine h.other i fun k w hk hp => ?_
    rw [hd' w (List.mem_of_getElem? hk)] at hp; cases hp
  · simp only [OffState.allDone, h.workers, List.all_map, List.all_eq_true]
    intro w hw
    simp [LWorker.coarse, hd' w hw]

theorem decideBody_coarse {recs : List Record} {r : Record} {w : LWorker} (hr : recs[w.pos]? = some r) :
    workerStep recs { pos := w.pos, offs := w.offs, first := w.first, done := false } =
      (if (decideBody r w).pc = .store then recs.set w.pos { r with offset := (decideBody r w).offs } else recs, (decideBody r w).coarse) := by
  unfold workerStep decideBody
  simp only [Bool.false_eq_true, if_false, hr]
  repeat' split
  all_goals simp_all [LWorker.coarse]

/-- Every step is a step of the coarse model or changes nothing there. -/
theorem sim_step {s s' : LState} {a : OffState} {k : Nat} (hi : LockInv s) (h : Sim s a) (hs : step s k = some s') :
    Sim s' a ∨ Sim s' (offStep a k) := by
  unfold step at hs
  split at hs
  · cases hs
  · next w hk =>
    have hck : a.workers[k]? = some w.coarse := by rw [h.workers, List.getElem?_map, hk]; rfl
    have hwk : ∀ w', (s.workers.set k w').map LWorker.coarse = a.workers.set k w'.coarse := by
      intro w'; rw [h.workers, List.map_set]
    have hsame : ∀ w', w'.coarse = w.coarse → (s.workers.set k w').map LWorker.coarse = a.workers := by
      intro w' he
      rw [hwk, he]
      apply List.ext_getElem?
      intro j
      rw [List.getElem?_set]
      split
      · next hj =>
        subst hj
        rw [if_pos (Conc.Pipeline.lt_of_getElem? hck), hck]
      · rfl
    split at hs
    · next hpc =>
      -- top
      split at hs
      · next hl =>
        cases hs
        right
        have hr : s.recs[w.pos]? = none := by
          rw [List.getElem?_eq_none_iff] at hl ⊢
          rw [← hi.len]; exact hl
        have ha : a.recs[w.pos]? = none := by
          rw [h.other w.pos, hr]
          intro j x hj hp he
          have := (hi.iff x.pos j).2 ⟨x, hj, by simp [LWorker.holds, hp], rfl⟩
          rw [he, hl] at this; cases this
        have hstep : offStep a k = { a with workers := a.workers.set k { w.coarse with done := true } } := by
          have : w.coarse = { pos := w.pos, offs := w.offs, first := w.first, done := false } := by simp [LWorker.coarse, hpc]
          simp only [offStep, hck, workerStep, this, Bool.false_eq_true, if_false, ha]
        rw [hstep]
        refine ⟨?_, ?_, ?_⟩
        · show a.workers.set k _ = (s.workers.set k _).map _
          rw [hwk]
          simp [LWorker.coarse, hpc]
        · intro j x r hj hp hx
          rcases (set_workers_iff hk).1 hj with ⟨_, rfl⟩ | ⟨_, hj⟩
          · cases hp
          · exact h.pending j x r hj hp hx
        · intro i hno
          refine h.other i fun j x hj hp => ?_
          refine hno j x ((set_workers_iff hk).2 (Or.inr ⟨?_, hj⟩)) hp
          rintro rfl
          rw [hk] at hj; cases hj
          rw [hpc] at hp; cases hp
      · next hl =>
        cases hs
        left
        refine ⟨(hsame _ (by simp [LWorker.coarse, hpc])).symm, ?_, ?_⟩
        · intro j x r hj hp hx
          rcases (set_workers_iff hk).1 hj with ⟨_, rfl⟩ | ⟨_, hj⟩
          · cases hp
          · exact h.pending j x r hj hp hx
        · intro i hno
          refine h.other i fun j x hj hp => ?_
          refine hno j x ((set_workers_iff hk).2 (Or.inr ⟨?_, hj⟩)) hp
          rintro rfl
          rw [hk] at hj; cases hj
          rw [hpc] at hp; cases hp
      · cases hs
    · next hpc =>
      -- locked
      split at hs
      · cases hs
      · next r hr =>
        cases hs
        right
        have hnostore : ∀ (j : Nat) x, s.workers[j]? = some x → x.pc = .store → x.pos ≠ w.pos := by
          intro j x hj hp he
          obtain rfl := exclusive hi hj hk (by simp [LWorker.holds, hp]) (by simp [LWorker.holds, hpc]) he
          rw [hk] at hj; cases hj
          rw [hpc] at hp; cases hp
        have ha : a.recs[w.pos]? = some r := by rw [h.other w.pos hnostore, hr]
        have hcw : w.coarse = { pos := w.pos, offs := w.offs, first := w.first, done := false } := by simp [LWorker.coarse, hpc]
        have hstep : offStep a k = ⟨if (decideBody r w).pc = .store then a.recs.set w.pos { r with offset := (decideBody r w).offs } else a.recs,
            a.workers.set k (decideBody r w).coarse⟩ := by
          simp only [offStep, hck, hcw, decideBody_coarse ha]
        rw [hstep]
        refine ⟨(hwk _).symm, ?_, ?_⟩
        · intro j x r' hj hp hx
          rcases (set_workers_iff hk).1 hj with ⟨_, rfl⟩ | ⟨_, hj⟩
          · have hx : s.recs[(decideBody r w).pos]? = some r' := hx
            rw [decideBody_pos, hr] at hx
            cases hx
            show (if (decideBody r w).pc = .store then _ else _)[(decideBody r w).pos]? = _
            rw [if_pos hp, decideBody_pos, List.getElem?_set, if_pos rfl, if_pos (Conc.Pipeline.lt_of_getElem? ha)]
          · have hne := hnostore j x hj hp
            have := h.pending j x r' hj hp hx
            show (if (decideBody r w).pc = .store then a.recs.set w.pos _ else a.recs)[x.pos]? = _
            split
            · rw [List.getElem?_set, if_neg (Ne.symm hne)]; exact this
            · exact this
        · intro i hno
          have hold : ∀ (j : Nat) x, s.workers[j]? = some x → x.pc = .store → x.pos ≠ i := by
            intro j x hj hp
            refine hno j x ((set_workers_iff hk).2 (Or.inr ⟨?_, hj⟩)) hp
            rintro rfl
            rw [hk] at hj; cases hj
            rw [hpc] at hp; cases hp
          show (if (decideBody r w).pc = .store then a.recs.set w.pos _ else a.recs)[i]? = s.recs[i]?
          split
          · next hst =>
            have hne := hno k _ ((set_workers_iff hk).2 (Or.inl ⟨rfl, rfl⟩)) hst
            rw [decideBody_pos] at hne
            rw [List.getElem?_set, if_neg hne]
            exact h.other i hold
          · exact h.other i hold
    · next hpc =>
      -- store
      split at hs
      · cases hs
      · next r hr =>
        cases hs
        left
        refine ⟨(hsame _ (by simp [LWorker.coarse, hpc])).symm, ?_, ?_⟩
        · intro j x r' hj hp hx
          rcases (set_workers_iff hk).1 hj with ⟨_, rfl⟩ | ⟨hne, hj⟩
          · cases hp
          · have hpos : w.pos ≠ x.pos := fun he =>
              hne (exclusive hi hj hk (by simp [LWorker.holds, hp]) (by simp [LWorker.holds, hpc]) he.symm)
            have hx : (s.recs.set w.pos { r with offset := w.offs })[x.pos]? = some r' := hx
            rw [List.getElem?_set, if_neg hpos] at hx
            exact h.pending j x r' hj hp hx
        · intro i hno
          show a.recs[i]? = (s.recs.set w.pos { r with offset := w.offs })[i]?
          by_cases hiw : w.pos = i
          · subst hiw
            rw [List.getElem?_set, if_pos rfl, if_pos (Conc.Pipeline.lt_of_getElem? hr)]
            exact h.pending k w r hk hpc hr
          · rw [List.getElem?_set, if_neg hiw]
            refine h.other i fun j x hj hp => ?_
            by_cases hjk : j = k
            · subst hjk
              rw [hk] at hj; cases hj
              exact hiw
            · exact hno j x ((set_workers_iff hk).2 (Or.inr ⟨hjk, hj⟩)) hp
    · next brk hpc =>
      -- unlock
      cases hs
      left
      refine ⟨(hsame _ (by cases brk <;> simp [LWorker.coarse, hpc])).symm, ?_, ?_⟩
      · intro j x r hj hp hx
        rcases (set_workers_iff hk).1 hj with ⟨_, rfl⟩ | ⟨_, hj⟩
        · cases brk <;> cases hp
        · exact h.pending j x r hj hp hx
      · intro i hno
        refine h.other i fun j x hj hp => ?_
        refine hno j x ((set_workers_iff hk).2 (Or.inr ⟨?_, hj⟩)) hp
        rintro rfl
        rw [hk] at hj; cases hj
        rw [hpc] at hp; cases hp
    · cases hs

theorem sim_run {s s' : LState} {a : OffState} {ks : List Nat} (hi : LockInv s) (h : Sim s a) (hr : run s ks = some s') :
    ∃ sched, Sim s' (runOffsets a sched) := by
  induction ks generalizing s a with
  | nil => cases hr; exact ⟨[], h⟩
  | cons k ks ih =>
    obtain ⟨s1, h1, h2⟩ := Option.bind_eq_some_iff.1 hr
    rcases sim_step hi h h1 with h3 | h3
    · exact ih (step_inv hi h1) h3 h2
    · obtain ⟨sched, h4⟩ := ih (step_inv hi h1) h3 h2
      exact ⟨k :: sched, h4⟩

/-! ### No worker waits for ever -/

/-- Bound on the steps a worker still makes. -/
def LWorker.work (len : Nat) (w : LWorker) : Nat :=
  match w.pc with
  | .top => 4 * (len - w.pos) + 1
  | .locked => 4 * (len - w.pos - 1) + 4
  | .store => 4 * (len - w.pos - 1) + 3
  | .unlock _ => 4 * (len - w.pos - 1) + 2
  | .done => 0

def LState.work (s : LState) : Nat := (s.workers.map (LWorker.work s.recs.length)).sum

theorem decideBody_work (len : Nat) (r : Record) (w : LWorker) (h : w.pc = .locked) :
    (decideBody r w).work len < w.work len := by
  unfold decideBody
  repeat' split
  all_goals simp only [LWorker.work, h]; omega

theorem step_work {s s' : LState} {k : Nat} (hi : LockInv s) (hs : step s k = some s') : s'.work < s.work := by
  unfold step at hs
  split at hs
  · cases hs
  · next w hk =>
    have key : ∀ w' : LWorker, w'.work s.recs.length < w.work s.recs.length →
        ((s.workers.set k w').map (LWorker.work s.recs.length)).sum < s.work := by
      intro w' hlt
      have := Conc.Pipeline.sum_map_set (LWorker.work s.recs.length) (w' := w') hk
      unfold LState.work
      omega
    split at hs
    · next hpc =>
      split at hs
      · cases hs; exact key _ (by simp [LWorker.work, hpc])
      · next hl =>
        cases hs
        have := Conc.Pipeline.lt_of_getElem? hl
        rw [hi.len] at this
        exact key _ (by simp only [LWorker.work, hpc]; omega)
      · cases hs
    · next hpc =>
      split at hs
      · cases hs
      · cases hs; exact key _ (decideBody_work _ _ _ hpc)
    · next hpc =>
      split at hs
      · cases hs
      · cases hs
        have := key { w with pc := .unlock false } (by simp only [LWorker.work, hpc]; omega)
        simpa [LState.work] using this
    · next brk hpc =>
      cases hs
      refine key _ ?_
      cases brk
      · simp only [Bool.false_eq_true, if_false, LWorker.work, hpc]; omega
      · simp [LWorker.work, hpc]
    · cases hs

theorem progress {s : LState} (hi : LockInv s) (hd : s.allDone = false) : ∃ k s', step s k = some s' := by
  have hholder : ∀ (k : Nat) w, s.workers[k]? = some w → w.holds = true → ∃ s', step s k = some s' := by
    intro k w hk hh
    have hl := (hi.iff w.pos k).2 ⟨w, hk, hh, rfl⟩
    have hlt := Conc.Pipeline.lt_of_getElem? hl
    rw [hi.len] at hlt
    have hr := List.getElem?_eq_getElem hlt
    unfold step
    simp only [hk]
    cases hpc : w.pc with
    | top => simp [LWorker.holds, hpc] at hh
    | done => simp [LWorker.holds, hpc] at hh
    | locked => simp only [hr]; exact ⟨_, rfl⟩
    | store => simp only [hr]; exact ⟨_, rfl⟩
    | unlock b => exact ⟨_, rfl⟩
  have : ∃ w ∈ s.workers, w.pc ≠ .done := by
    simpa [LState.allDone] using hd
  obtain ⟨w, hw, hne⟩ := this
  obtain ⟨k, hk, rfl⟩ := List.getElem_of_mem hw
  have hk' := List.getElem?_eq_getElem hk
  generalize s.workers[k] = w at hk' hne hw
  cases hh : w.holds with
  | true => obtain ⟨s', hs⟩ := hholder k w hk' hh; exact ⟨k, s', hs⟩
  | false =>
    have hpc : w.pc = .top := by
      cases hpc : w.pc <;> simp_all [LWorker.holds]
    cases hl : s.locks[w.pos]? with
    | none => exact ⟨k, _, by simp only [step, hk', hpc, hl]; rfl⟩
    | some o =>
      cases o with
      | none => exact ⟨k, _, by simp only [step, hk', hpc, hl]; rfl⟩
      | some j =>
        obtain ⟨x, hx, hxh, _⟩ := (hi.iff w.pos j).1 hl
        obtain ⟨s', hs⟩ := hholder j x hx hxh
        exact ⟨j, s', hs⟩

/-- The checksum workers run at the same time; what they read is never changed. -/
theorem fields_fixed {s s' : LState} {k : Nat} (hs : step s k = some s') :
    s'.recs.map (fun r => { r with offset := [] }) = s.recs.map (fun r => { r with offset := [] }) := by
  unfold step at hs
  repeat' split at hs
  all_goals cases hs
  all_goals try rfl
  next w _ _ _ _ r hr =>
    show (s.recs.set w.pos _).map _ = _
    rw [List.map_set]
    apply List.ext_getElem?
    intro i
    rw [List.getElem?_set]
    split
    · next he =>
      subst he
      rw [List.getElem?_map, hr]
      simp [Conc.Pipeline.lt_of_getElem? hr]
    · rfl

end Verif.Ihex.Locks
