import Verif.Ihex.Offsets

/-!
C103: how many records the workers of `addOffsets` lock.
-/

namespace Verif.Ihex

open Verif.Go

/-- How many times a record is locked (ihex32/record.go:64) when the scheduler lets the workers run in the order `sched`: an iteration of a
worker whose loop has not ended and whose index is in range locks one record. -/
def visits : OffState → List Nat → Nat
  | _, [] => 0
  | s, k :: ks =>
    (match s.workers[k]? with
      | some w => if w.done = false ∧ w.pos < s.recs.length then 1 else 0
      | none => 0) + visits (offStep s k) ks

/-- C103 as stated: the workers share the records, so that together they lock each record once, apart from one more for every worker that stops
at a record of another one. -/
def C103_full : Prop := ∀ (n : Nat), 0 < n → ∀ (recs : List Record) (sched : List Nat),
  (∀ r ∈ recs, r.recordType = ['0', '0'] → r.offset = ['0', '0', '0', '0']) → visits (initOffsets n recs) sched ≤ recs.length + n

/-- Sum over the workers. -/
def total (m : Worker → Nat) (s : OffState) : Nat := (s.workers.map m).sum

theorem sum_setW {l : List Worker} {k : Nat} {w w' : Worker} (h : l[k]? = some w) (m : Worker → Nat) :
    ((l.set k w').map m).sum + m w = (l.map m).sum + m w' := by
  induction l generalizing k with
  | nil => simp at h
  | cons x l ih =>
    cases k with
    | zero =>
      simp only [List.getElem?_cons_zero, Option.some.injEq] at h
      subst h
      simp only [List.set_cons_zero, List.map_cons, List.sum_cons]; omega
    | succ k =>
      have := ih (k := k) (by simpa using h)
      simp only [List.set_cons_succ, List.map_cons, List.sum_cons]; omega

theorem offStep_length (s : OffState) (k : Nat) : (offStep s k).recs.length = s.recs.length ∧ (offStep s k).workers.length = s.workers.length := by
  unfold offStep
  cases h : s.workers[k]? with
  | none => simp
  | some w => exact ⟨(workerStep_progress s.recs w).1, by simp⟩

theorem runOffsets_length (sched : List Nat) : ∀ s : OffState,
    (runOffsets s sched).recs.length = s.recs.length ∧ (runOffsets s sched).workers.length = s.workers.length := by
  induction sched with
  | nil => intro s; exact ⟨rfl, rfl⟩
  | cons k ks ih =>
    intro s
    have h1 := ih (offStep s k)
    have h2 := offStep_length s k
    exact ⟨h1.1.trans h2.1, h1.2.trans h2.2⟩

/-- How far a worker has come; the end of its loop counts as one more step. -/
def way (w : Worker) : Nat := w.pos + if w.done then 1 else 0

theorem step_way (recs : List Record) (w : Worker) :
    way w + (if w.done = false ∧ w.pos < recs.length then 1 else 0) ≤ way (workerStep recs w).2 := by
  unfold way
  cases hd : w.done with
  | true => simp [workerStep, hd]
  | false =>
    unfold workerStep
    simp only [hd, Bool.false_eq_true, if_false]
    cases hr : recs[w.pos]? with
    | none => simp; split <;> omega
    | some r =>
      refine Nat.le_trans (m := w.pos + 1) (by split <;> omega) ?_
      simp only
      repeat' split
      all_goals simp_all

theorem visits_le (sched : List Nat) : ∀ s : OffState, total way s + visits s sched ≤ total way (runOffsets s sched) := by
  induction sched with
  | nil => intro s; simp [visits, runOffsets]
  | cons k ks ih =>
    intro s
    have h := ih (offStep s k)
    have hr : runOffsets s (k :: ks) = runOffsets (offStep s k) ks := rfl
    rw [hr]
    simp only [visits]
    have : total way s + (match s.workers[k]? with
        | some w => if w.done = false ∧ w.pos < s.recs.length then 1 else 0
        | none => 0) ≤ total way (offStep s k) := by
      cases hw : s.workers[k]? with
      | none => simp [offStep, hw]
      | some w =>
        have h1 := step_way s.recs w
        have h2 := sum_setW hw (w' := (workerStep s.recs w).2) way
        simp only [offStep, hw, total]
        omega
    omega

/-! ### Without segment records: every worker goes on to the end -/

/-- Local variables of a worker that has seen no segment record. -/
structure Plain (N : Nat) (w : Worker) : Prop where
  first : w.first = false
  le : w.pos ≤ N
  done : w.done = true → w.pos = N

theorem plain_step {recs : List Record} (h0 : ∀ r ∈ recs, ¬ IsEla r) {w : Worker} (h : Plain recs.length w) :
    Plain recs.length (workerStep recs w).2 ∧ (∀ r ∈ (workerStep recs w).1, ¬ IsEla r) ∧
      w.pos + (if w.done = false ∧ w.pos < recs.length then 1 else 0) = (workerStep recs w).2.pos := by
  unfold workerStep
  split
  · next hd => exact ⟨h, h0, by simp [hd]⟩
  · next hd =>
    have hd : w.done = false := by simpa using hd
    split
    · next hn =>
      have hge : recs.length ≤ w.pos := by simpa using hn
      exact ⟨⟨h.first, h.le, fun _ => Nat.le_antisymm h.le hge⟩, h0, by simp; omega⟩
    · next r hr =>
      have hlt : w.pos < recs.length := (List.getElem?_eq_some_iff.1 hr).1
      have hre := h0 r (List.mem_of_getElem? hr)
      rw [if_neg hre]
      have hgo : ∀ w' : Worker, w'.pos = w.pos + 1 → w'.first = false → w'.done = w.done → Plain recs.length w' := fun w' a b c =>
        ⟨b, by omega, fun hh => by rw [c, hd] at hh; cases hh⟩
      split
      · next hdt =>
        rw [if_neg (by simp [h.first]), if_neg (by simp [h.first])]
        split
        · refine ⟨hgo _ rfl h.first rfl, fun x hx => ?_, by simp [hd, hlt]⟩
          rcases List.mem_or_eq_of_mem_set hx with hx | rfl
          · exact h0 x hx
          · exact hre
        · exact ⟨hgo _ rfl h.first rfl, h0, by simp [hd, hlt]⟩
      · exact ⟨hgo _ rfl h.first rfl, h0, by simp [hd, hlt]⟩

theorem plain_visits (sched : List Nat) : ∀ s : OffState, (∀ r ∈ s.recs, ¬ IsEla r) → (∀ w ∈ s.workers, Plain s.recs.length w) →
    (∀ w ∈ (runOffsets s sched).workers, Plain s.recs.length w) ∧
      total (·.pos) s + visits s sched = total (·.pos) (runOffsets s sched) := by
  induction sched with
  | nil => intro s _ h; exact ⟨h, by simp [visits, runOffsets]⟩
  | cons k ks ih =>
    intro s h0 hp
    cases hw : s.workers[k]? with
    | none =>
      have e : offStep s k = s := by simp [offStep, hw]
      have hr : runOffsets s (k :: ks) = runOffsets s ks := by show runOffsets (offStep s k) ks = _; rw [e]
      rw [hr]
      simp only [visits, hw, e, Nat.zero_add]
      exact ih s h0 hp
    | some w =>
      have hst := plain_step h0 (hp w (List.mem_of_getElem? hw))
      have hlen := (offStep_length s k).1
      have hrec : (offStep s k).recs = (workerStep s.recs w).1 := by simp [offStep, hw]
      have hwk : (offStep s k).workers = s.workers.set k (workerStep s.recs w).2 := by simp [offStep, hw]
      have := ih (offStep s k) (by rw [hrec]; exact hst.2.1) (fun v hv => by
        rw [hlen]
        rw [hwk] at hv
        rcases List.mem_or_eq_of_mem_set hv with hv | rfl
        · exact hp v hv
        · exact hst.1)
      rw [hlen] at this
      refine ⟨this.1, ?_⟩
      have e : runOffsets s (k :: ks) = runOffsets (offStep s k) ks := rfl
      rw [e, ← this.2]
      simp only [visits, hw]
      have h2 := sum_setW hw (w' := (workerStep s.recs w).2) (·.pos)
      have h3 := hst.2.2
      simp only [total, hwk]
      omega

theorem sum_constW {l : List Worker} {m : Worker → Nat} {c : Nat} (h : ∀ w ∈ l, m w = c) : (l.map m).sum = l.length * c := by
  induction l with
  | nil => simp
  | cons x l ih =>
    simp only [List.map_cons, List.sum_cons, List.length_cons]
    rw [ih (fun w hw => h w (by simp [hw])), h x (by simp), Nat.succ_mul]; omega

/-- Without segment records (an image below 64 kB) every worker runs from its start to the end of the file, under every schedule: the first one
locks all records, so nothing is gained, and together they lock this many. -/
theorem visits_plain {n : Nat} {recs : List Record} (h0 : ∀ r ∈ recs, ¬ IsEla r) {sched : List Nat}
    (hd : (runOffsets (initOffsets n recs) sched).allDone = true) :
    visits (initOffsets n recs) sched + ((List.range n).map fun i => shareStart recs.length n i).sum = n * recs.length := by
  have hst : ∀ w ∈ (initOffsets n recs).workers, Plain recs.length w := by
    intro w hw
    simp only [initOffsets, initAt, List.map_map, List.mem_map, List.mem_range, Function.comp] at hw
    obtain ⟨i, hi, rfl⟩ := hw
    refine ⟨rfl, ?_, fun h => by cases h⟩
    show recs.length / n * i ≤ recs.length
    exact Nat.le_trans (Nat.mul_le_mul_left _ (Nat.le_of_lt hi)) (Nat.div_mul_le_self _ _)
  obtain ⟨h1, h2⟩ := plain_visits sched (initOffsets n recs) h0 hst
  have hend : total (·.pos) (runOffsets (initOffsets n recs) sched) = n * recs.length := by
    have hl := (runOffsets_length sched (initOffsets n recs)).2
    have e := sum_constW (m := (·.pos)) (c := recs.length) (l := (runOffsets (initOffsets n recs) sched).workers)
      (fun w hw => (h1 w hw).done (List.all_eq_true.1 hd w hw))
    rw [total, e, hl]
    simp [initOffsets, initAt]
  have hbeg : total (·.pos) (initOffsets n recs) = ((List.range n).map fun i => shareStart recs.length n i).sum := by
    simp only [total, initOffsets, initAt, List.map_map]
    rfl
  omega

end Verif.Ihex
