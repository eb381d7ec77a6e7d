import Verif.Conc.Pipeline

/-!
The checksum verdict channel: ihex32/hex.go:141-168 with record.go:85-97, and
srec19/hex.go:134-160 with record.go:47-59 (the same text).

`n` workers share one channel of capacity `n`. Each worker checks its records in turn; at
the first bad one it sends `false` and stops; `defer wg.Done()`. The main goroutine waits
for all workers, closes the channel and reads it.
-/

namespace Verif.Conc.FanIn

/-- A worker: the verdicts of the records it still has to check (`true` = valid), whether
it is about to send (blocked there while the channel is full), whether it has sent, and
whether it has returned (`wg.Done`). -/
structure Worker where
  todo : List Bool
  sending : Bool
  sent : Bool
  done : Bool

structure State where
  ws : List Worker
  /-- content of the verdict channel -/
  buf : List Bool
  cap : Nat
  /-- what the main goroutine has concluded: `none` while it waits -/
  verdict : Option Bool

/-- Worker `i` does its next operation, or the main goroutine passes `wg.Wait()` and reads
the channel. -/
inductive Op
  | work (i : Nat)
  | main

/-- One iteration of record.go:89-96 or its `c <- false`; `none` if blocked or returned. -/
def workerStep (buf : List Bool) (cap : Nat) (w : Worker) : Option (List Bool × Worker) :=
  if w.done then none
  else if w.sending then
    if buf.length < cap then some (buf ++ [false], { w with sending := false, sent := true, done := true })
    else none
  else match w.todo with
    | [] => some (buf, { w with done := true })
    | true :: t => some (buf, { w with todo := t })
    | false :: t => some (buf, { w with todo := t, sending := true })

/-- hex.go:158-167 in ihex32: after `wg.Wait()`, `false` in the channel means invalid. -/
def step (s : State) : Op → Option State
  | .work i =>
    match s.ws[i]? with
    | some w =>
      match workerStep s.buf s.cap w with
      | some (b, w') => some { s with ws := s.ws.set i w', buf := b }
      | none => none
    | none => none
  | .main =>
    if s.verdict.isNone && s.ws.all (·.done) then
      some { s with verdict := some (s.buf.any (fun v => !v)) }
    else none

def init (cap : Nat) (scripts : List (List Bool)) : State :=
  { ws := scripts.map fun t => { todo := t, sending := false, sent := false, done := false },
    buf := [], cap, verdict := none }

def run (s : State) : List Op → Option State
  | [] => some s
  | o :: os => (step s o).bind fun s' => run s' os

/-- Does the worker (still) lead to a report? -/
def Worker.bad (w : Worker) : Bool := w.sent || w.sending || w.todo.any (fun v => !v)

/-- Per worker: after a report nothing is checked any more; a worker that returned without
a report had nothing left. -/
structure Worker.Ok (w : Worker) (script : List Bool) : Prop where
  bad : (w.sent || w.sending || (w.todo.any fun v => !v)) = script.any fun v => !v
  sent_done : w.sent = true → w.done = true
  excl : w.done = true → w.sending = false
  fin : w.done = true → w.sent = false → w.todo = []

structure Inv (scripts : List (List Bool)) (s : State) : Prop where
  len : s.ws.length = scripts.length
  ok : ∀ (i : Nat) w t, s.ws[i]? = some w → scripts[i]? = some t → w.Ok t
  buf : s.buf = List.replicate (s.ws.countP (·.sent)) false
  cap : s.cap = scripts.length
  ver : ∀ v, s.verdict = some v → v = (scripts.any fun t => t.any fun v => !v)

theorem inv_init (scripts : List (List Bool)) : Inv scripts (init scripts.length scripts) where
  len := by simp [init]
  ok := by
    intro i w t hw ht
    simp only [init, List.getElem?_map] at hw
    rw [ht] at hw
    simp at hw
    subst hw
    exact ⟨by simp, by simp, by simp, by simp⟩
  buf := by
    have : (scripts.map fun t => ({ todo := t, sending := false, sent := false, done := false } : Worker)).countP (·.sent) = 0 := by
      rw [List.countP_eq_zero]
      intro w hw
      obtain ⟨_, _, rfl⟩ := List.mem_map.mp hw
      simp
    simp only [init, this]; rfl
  cap := rfl
  ver := by intro v h; simp [init] at h

theorem countP_set {α : Type} (p : α → Bool) {l : List α} {i : Nat} {w w' : α} (hi : l[i]? = some w) :
    (l.set i w').countP p + (if p w then 1 else 0) = l.countP p + (if p w' then 1 else 0) := by
  induction l generalizing i with
  | nil => simp at hi
  | cons a l ih =>
    cases i with
    | zero =>
      simp at hi; subst hi
      simp only [List.set_cons_zero, List.countP_cons]
      omega
    | succ i =>
      simp only [List.getElem?_cons_succ] at hi
      have := ih hi
      simp only [List.set_cons_succ, List.countP_cons]
      omega

theorem sent_lt {s : State} {i : Nat} {w : Worker} (hi : s.ws[i]? = some w) (hs : w.sent = false) :
    s.ws.countP (·.sent) < s.ws.length := by
  have h1 := List.countP_le_length (p := fun w : Worker => w.sent) (l := s.ws)
  rcases Nat.lt_or_ge (s.ws.countP (·.sent)) s.ws.length with h | h
  · exact h
  · have := List.countP_eq_length.mp (Nat.le_antisymm h1 h) w (List.mem_of_getElem? hi)
    rw [hs] at this; simp at this

theorem all_done_verdict {scripts : List (List Bool)} {s : State} (h : Inv scripts s)
    (hd : s.ws.all (·.done) = true) :
    s.buf.any (fun v => !v) = scripts.any fun t => t.any fun v => !v := by
  have hd' : ∀ w ∈ s.ws, w.done = true := by simpa using hd
  rw [h.buf, Bool.eq_iff_iff]
  have hsent : ∀ (i : Nat) w t, s.ws[i]? = some w → scripts[i]? = some t → w.sent = t.any fun v => !v := by
    intro i w t hw ht
    have ok := h.ok i w t hw ht
    have hdone := hd' w (List.mem_of_getElem? hw)
    have e := ok.bad
    rw [ok.excl hdone] at e
    cases hs : w.sent with
    | true => rw [hs] at e; simpa using e
    | false =>
      rw [hs, ok.fin hdone hs] at e
      simpa using e
  constructor
  · intro hb
    have hpos : 0 < s.ws.countP (·.sent) := by
      rcases Nat.eq_zero_or_pos (s.ws.countP (·.sent)) with h0 | h0
      · rw [h0] at hb; simp at hb
      · exact h0
    obtain ⟨w, hw, hs⟩ := List.countP_pos_iff.mp hpos
    obtain ⟨i, hi, rfl⟩ := List.getElem_of_mem hw
    have hi' : i < scripts.length := by rw [← h.len]; exact hi
    have := hsent i _ _ (List.getElem?_eq_getElem hi) (List.getElem?_eq_getElem hi')
    rw [List.any_eq_true]
    exact ⟨scripts[i], List.getElem_mem hi', by rw [← this]; exact hs⟩
  · intro hb
    obtain ⟨t, ht, hb⟩ := List.any_eq_true.mp hb
    obtain ⟨i, hi, rfl⟩ := List.getElem_of_mem ht
    have hi' : i < s.ws.length := by rw [h.len]; exact hi
    have := hsent i _ _ (List.getElem?_eq_getElem hi') (List.getElem?_eq_getElem hi)
    have hpos : 0 < s.ws.countP (·.sent) :=
      List.countP_pos_iff.mpr ⟨_, List.getElem_mem hi', by rw [this]; exact hb⟩
    have : ∃ k, s.ws.countP (·.sent) = k + 1 := ⟨_, (Nat.succ_pred_eq_of_pos hpos).symm⟩
    obtain ⟨k, hk⟩ := this
    rw [hk]; simp [List.replicate_succ]

theorem inv_step {scripts : List (List Bool)} {s s' : State} {o : Op} (h : Inv scripts s)
    (hs : step s o = some s') : Inv scripts s' := by
  cases o with
  | main =>
    simp only [step] at hs
    split at hs
    · next hc =>
      simp only [Option.some.injEq] at hs
      subst hs
      simp only [Bool.and_eq_true] at hc
      refine ⟨h.len, h.ok, h.buf, h.cap, ?_⟩
      intro v hv
      simp only [Option.some.injEq] at hv
      rw [← hv, all_done_verdict h hc.2]
    · simp at hs
  | work i =>
    simp only [step] at hs
    split at hs
    · next w hi =>
      split at hs
      · next b w' hw =>
        simp only [Option.some.injEq] at hs
        subst hs
        have hi' : i < scripts.length := by rw [← h.len]; exact Pipeline.lt_of_getElem? hi
        have okw := h.ok i w _ hi (List.getElem?_eq_getElem hi')
        have hcnt := countP_set (fun w : Worker => w.sent) (w' := w') hi
        have key : w'.Ok scripts[i] ∧
            b = List.replicate ((s.ws.set i w').countP (·.sent)) false := by
          unfold workerStep at hw
          split at hw
          · simp at hw
          next hnd =>
          have hns : w.sent = false := by
            cases hh : w.sent with
            | false => rfl
            | true => exact absurd (okw.sent_done hh) hnd
          split at hw
          · next hsend =>
            split at hw
            · simp only [Option.some.injEq, Prod.mk.injEq] at hw
              obtain ⟨rfl, rfl⟩ := hw
              refine ⟨⟨?_, by simp, by simp, by simp⟩, ?_⟩
              · have := okw.bad; rw [hsend] at this; simpa using this
              · simp only [hns] at hcnt
                simp at hcnt
                rw [hcnt, h.buf, List.replicate_succ']
            · simp at hw
          · next hns' =>
            have hcnt' : ∀ w'' : Worker, w''.sent = w.sent →
                (s.ws.set i w'').countP (·.sent) = s.ws.countP (·.sent) := by
              intro w'' he
              have := countP_set (fun w : Worker => w.sent) (w' := w'') hi
              simp only [he] at this
              omega
            simp only [Bool.not_eq_true] at hns'
            split at hw
            · next ht =>
              simp only [Option.some.injEq, Prod.mk.injEq] at hw
              obtain ⟨rfl, rfl⟩ := hw
              refine ⟨⟨?_, by simp, fun _ => hns', fun _ _ => ht⟩, ?_⟩
              · exact okw.bad
              · exact h.buf.trans (by rw [hcnt' { w with done := true } rfl])
            · next t ht =>
              simp only [Option.some.injEq, Prod.mk.injEq] at hw
              obtain ⟨rfl, rfl⟩ := hw
              refine ⟨⟨?_, okw.sent_done, okw.excl, ?_⟩, ?_⟩
              · have := okw.bad; rw [ht] at this; simpa using this
              · intro hd; exact absurd hd hnd
              · exact h.buf.trans (by rw [hcnt' { w with todo := t } rfl])
            · next t ht =>
              simp only [Option.some.injEq, Prod.mk.injEq] at hw
              obtain ⟨rfl, rfl⟩ := hw
              refine ⟨⟨?_, okw.sent_done, ?_, ?_⟩, ?_⟩
              · have := okw.bad; rw [ht] at this; simpa using this
              · intro hd; exact absurd hd hnd
              · intro hd; exact absurd hd hnd
              · exact h.buf.trans (by rw [hcnt' { w with todo := t, sending := true } rfl])
        refine ⟨by simpa using h.len, ?_, key.2, h.cap, h.ver⟩
        intro j x t hx ht
        simp only [List.getElem?_set] at hx
        split at hx
        · next hij =>
          subst hij
          split at hx
          · simp at hx; subst hx
            rw [List.getElem?_eq_getElem hi'] at ht
            simp at ht; subst ht
            exact key.1
          · simp at hx
        · exact h.ok j x t hx ht
      · simp at hs
    · simp at hs

theorem inv_run {scripts : List (List Bool)} {s s' : State} {os : List Op} (h : Inv scripts s)
    (hr : run s os = some s') : Inv scripts s' := by
  induction os generalizing s with
  | nil => simp [run] at hr; subst hr; exact h
  | cons o os ih =>
    simp only [run] at hr
    cases hs : step s o with
    | none => rw [hs] at hr; simp at hr
    | some s1 => rw [hs] at hr; exact ih (inv_step h hs) hr

/-- No worker is ever blocked. -/
theorem worker_enabled {scripts : List (List Bool)} {s : State} (h : Inv scripts s) {i : Nat} {w : Worker}
    (hi : s.ws[i]? = some w) (hd : w.done = false) : ∃ s', step s (.work i) = some s' := by
  have hi' : i < scripts.length := by rw [← h.len]; exact Pipeline.lt_of_getElem? hi
  have okw := h.ok i w _ hi (List.getElem?_eq_getElem hi')
  have hns : w.sent = false := by
    cases hh : w.sent with
    | false => rfl
    | true => rw [okw.sent_done hh] at hd; simp at hd
  have hroom : s.buf.length < s.cap := by
    rw [h.buf, h.cap, ← h.len, List.length_replicate]
    exact sent_lt hi hns
  simp only [step, hi]
  unfold workerStep
  rw [if_neg (by simp [hd])]
  cases hse : w.sending with
  | true => simp only [if_true, if_pos hroom]; exact ⟨_, rfl⟩
  | false =>
    simp only [Bool.false_eq_true, if_false]
    rcases w.todo with _ | ⟨_ | _, t⟩ <;> exact ⟨_, rfl⟩

/-! ### Measure -/

def Worker.work (w : Worker) : Nat :=
  w.todo.length + (if w.done then 0 else 1)

def State.work (s : State) : Nat :=
  (s.ws.map Worker.work).sum + (s.ws.map fun w => w.todo.length + (if w.sending then 1 else 0)).sum
    + (if s.verdict.isNone then 1 else 0)

theorem step_work {s s' : State} {o : Op} (hs : step s o = some s') : s'.work < s.work := by
  cases o with
  | main =>
    simp only [step] at hs
    split at hs
    · next hc =>
      simp only [Option.some.injEq] at hs
      subst hs
      simp only [Bool.and_eq_true] at hc
      simp [State.work, hc.1]
    · simp at hs
  | work i =>
    simp only [step] at hs
    split at hs
    · next w hi =>
      split at hs
      · next b w' hw =>
        simp only [Option.some.injEq] at hs
        subst hs
        have h1 := Pipeline.sum_map_set Worker.work (w' := w') hi
        have h2 := Pipeline.sum_map_set (fun w : Worker => w.todo.length + (if w.sending then 1 else 0)) (w' := w') hi
        simp only [State.work]
        unfold workerStep at hw
        split at hw
        · simp at hw
        next hnd =>
        split at hw
        · next hse =>
          split at hw
          · simp only [Option.some.injEq, Prod.mk.injEq] at hw
            obtain ⟨rfl, rfl⟩ := hw
            simp only [Worker.work, hse] at h1 h2 ⊢
            simp [hnd] at h1 h2 ⊢
            omega
          · simp at hw
        · next hns =>
          split at hw
          · simp only [Option.some.injEq, Prod.mk.injEq] at hw
            obtain ⟨rfl, rfl⟩ := hw
            simp only [Worker.work] at h1 h2 ⊢
            simp [hnd] at h1 h2 ⊢
            omega
          · next t ht =>
            simp only [Option.some.injEq, Prod.mk.injEq] at hw
            obtain ⟨rfl, rfl⟩ := hw
            simp only [Worker.work, ht] at h1 h2 ⊢
            simp at h1 h2 ⊢
            omega
          · next t ht =>
            simp only [Option.some.injEq, Prod.mk.injEq] at hw
            obtain ⟨rfl, rfl⟩ := hw
            simp only [Worker.work, ht] at h1 h2 ⊢
            simp [hns] at h1 h2 ⊢
            omega
      · simp at hs
    · simp at hs

theorem run_work {s s' : State} {os : List Op} (hr : run s os = some s') : s'.work + os.length ≤ s.work := by
  induction os generalizing s with
  | nil => simp [run] at hr; subst hr; simp
  | cons o os ih =>
    simp only [run] at hr
    cases hs : step s o with
    | none => rw [hs] at hr; simp at hr
    | some s1 =>
      rw [hs] at hr
      have := ih hr
      have := step_work hs
      simp only [List.length_cons]
      omega

theorem init_work (cap : Nat) (scripts : List (List Bool)) :
    (init cap scripts).work = 2 * (scripts.map List.length).sum + scripts.length + 1 := by
  have : ∀ l : List (List Bool),
      ((l.map fun t => ({ todo := t, sending := false, sent := false, done := false } : Worker)).map Worker.work).sum
        = (l.map List.length).sum + l.length ∧
      ((l.map fun t => ({ todo := t, sending := false, sent := false, done := false } : Worker)).map
        fun w => w.todo.length + (if w.sending then 1 else 0)).sum = (l.map List.length).sum := by
    intro l
    induction l with
    | nil => exact ⟨rfl, rfl⟩
    | cons a l ih =>
      simp only [List.map_cons, List.sum_cons, ih.1, ih.2, List.length_cons]
      simp [Worker.work]
      omega
  simp only [State.work, init, (this scripts).1, (this scripts).2]
  simp
  omega

end Verif.Conc.FanIn
