/-!
The fan-out/collect pattern used five times in the code base: `n` goroutines each send
batches on a private channel and close it; the collector ranges over the channels in
worker order.

* ihex32/hex.go:112-130 (records, capacity `len(lines)`), 174-200 (data, capacity 1)
* srec19/hex.go:110-132 and 162-190 (the same)
* a2l/token_generator.go:50-70 (tokens, capacity 1)

One step is one channel operation; which enabled operation happens next is the choice of
the scheduler, so a run is any sequence of enabled operations.
-/

namespace Verif.Conc.Pipeline

/-- A worker goroutine and its channel: the batches it has not sent yet, the content of
the channel, its capacity and whether it has been closed. -/
structure Worker (α : Type) where
  todo : List α
  buf : List α
  cap : Nat
  closed : Bool

/-- All workers, the index of the channel the collector reads from, and what it has
received so far. -/
structure State (α : Type) where
  ws : List (Worker α)
  pos : Nat
  acc : List α

/-- One operation. -/
inductive Op
  /-- worker `i` puts its next batch into its channel (`c <- x`), possible if there is room -/
  | send (i : Nat)
  /-- worker `i`, having sent everything, closes its channel -/
  | close (i : Nat)
  /-- the collector takes a batch from the current channel -/
  | recv
  /-- the collector, waiting at the current empty channel, is handed a batch directly (the
  only way to pass a batch if the capacity is 0) -/
  | handoff
  /-- the current channel is closed and empty: the `range` loop ends, next channel -/
  | advance
  deriving DecidableEq

/-- The effect of an operation, `none` if it is not enabled. -/
def step {α : Type} (s : State α) : Op → Option (State α)
  | .send i =>
    match s.ws[i]? with
    | some w =>
      match w.todo with
      | x :: t =>
        if w.buf.length < w.cap then
          some { s with ws := s.ws.set i { w with todo := t, buf := w.buf ++ [x] } }
        else none
      | [] => none
    | none => none
  | .close i =>
    match s.ws[i]? with
    | some w =>
      if w.todo.isEmpty && !w.closed then some { s with ws := s.ws.set i { w with closed := true } }
      else none
    | none => none
  | .recv =>
    match s.ws[s.pos]? with
    | some w =>
      match w.buf with
      | x :: b => some { s with ws := s.ws.set s.pos { w with buf := b }, acc := s.acc ++ [x] }
      | [] => none
    | none => none
  | .handoff =>
    match s.ws[s.pos]? with
    | some w =>
      match w.buf, w.todo with
      | [], x :: t => some { s with ws := s.ws.set s.pos { w with todo := t }, acc := s.acc ++ [x] }
      | _, _ => none
    | none => none
  | .advance =>
    match s.ws[s.pos]? with
    | some w => if w.closed && w.buf.isEmpty then some { s with pos := s.pos + 1 } else none
    | none => none

/-- Before the first operation: worker `i` has to send `scripts[i]` on a channel of
capacity `cap`. -/
def init {α : Type} (cap : Nat) (scripts : List (List α)) : State α :=
  { ws := scripts.map fun s => { todo := s, buf := [], cap, closed := false }, pos := 0, acc := [] }

/-- A run: a sequence of operations, `none` if one of them is not enabled. -/
def run {α : Type} (s : State α) : List Op → Option (State α)
  | [] => some s
  | o :: os => (step s o).bind fun s' => run s' os

/-- The collector has drained all channels. -/
def State.finished {α : Type} (s : State α) : Prop := s.pos = s.ws.length

/-! ### Invariant -/

/-- What worker still has to deliver. -/
def Worker.pending {α : Type} (w : Worker α) : List α := w.buf ++ w.todo

structure Inv {α : Type} (scripts : List (List α)) (s : State α) : Prop where
  len : s.ws.length = scripts.length
  pos_le : s.pos ≤ s.ws.length
  content : s.acc ++ ((s.ws.drop s.pos).map Worker.pending).flatten = scripts.flatten
  closed : ∀ w ∈ s.ws, w.closed = true → w.todo = []
  past : ∀ i w, i < s.pos → s.ws[i]? = some w → w.closed = true ∧ w.buf = []

theorem inv_init {α : Type} (cap : Nat) (scripts : List (List α)) : Inv scripts (init cap scripts) where
  len := by simp [init]
  pos_le := by simp [init]
  content := by simp [init, Worker.pending, Function.comp_def]
  closed := by
    intro w hw hc
    simp only [init, List.mem_map] at hw
    obtain ⟨_, _, rfl⟩ := hw
    simp at hc
  past := by intro i w h; simp [init] at h

theorem mem_set {α : Type} {l : List α} {i : Nat} {x y : α} (h : y ∈ l.set i x) : y ∈ l ∨ y = x :=
  List.mem_or_eq_of_mem_set h

theorem drop_set_map {α β : Type} (f : α → β) {l : List α} {i p : Nat} {w w' : α} (hi : l[i]? = some w)
    (hf : f w' = f w) : ((l.set i w').drop p).map f = (l.drop p).map f := by
  rw [List.map_drop, List.map_drop, List.map_set]
  congr 1
  rw [hf]
  apply List.ext_getElem?
  intro j
  rw [List.getElem?_set]
  split
  · next h =>
    subst h
    have hlt : i < l.length := by
      rcases Nat.lt_or_ge i l.length with h | h
      · exact h
      · rw [List.getElem?_eq_none h] at hi; simp at hi
    rw [List.getElem?_map, hi]
    simp [hlt]
  · rfl

theorem drop_eq_cons {α : Type} {l : List α} {p : Nat} {w : α} (h : l[p]? = some w) :
    l.drop p = w :: l.drop (p + 1) := by
  have hlt : p < l.length := by
    rcases Nat.lt_or_ge p l.length with h' | h'
    · exact h'
    · rw [List.getElem?_eq_none h'] at h; simp at h
  rw [List.drop_eq_getElem_cons hlt]
  rw [List.getElem?_eq_getElem hlt] at h
  simp at h
  rw [h]

theorem drop_set_self {α : Type} {l : List α} {p : Nat} {w w' : α} (h : l[p]? = some w) :
    (l.set p w').drop p = w' :: l.drop (p + 1) := by
  have hlt : p < l.length := by
    rcases Nat.lt_or_ge p l.length with h' | h'
    · exact h'
    · rw [List.getElem?_eq_none h'] at h; simp at h
  rw [drop_eq_cons (w := w') (by simp [hlt])]
  rw [List.drop_set, if_pos (by omega)]

theorem lt_of_getElem? {α : Type} {l : List α} {i : Nat} {w : α} (hi : l[i]? = some w) : i < l.length := by
  rcases Nat.lt_or_ge i l.length with h | h
  · exact h
  · rw [List.getElem?_eq_none h] at hi; simp at hi

/-- An operation that changes one worker, keeping what it has to deliver. -/
theorem inv_update {α : Type} {scripts : List (List α)} {s : State α} (h : Inv scripts s) {i : Nat}
    {w w' : Worker α} (hi : s.ws[i]? = some w) (hp : w'.pending = w.pending)
    (hc : w'.closed = true → w'.todo = [])
    (hpast : i < s.pos → w'.closed = true ∧ w'.buf = []) :
    Inv scripts { s with ws := s.ws.set i w' } where
  len := by simpa using h.len
  pos_le := by simpa using h.pos_le
  content := by
    show s.acc ++ (((s.ws.set i w').drop s.pos).map Worker.pending).flatten = _
    rw [drop_set_map _ hi hp]; exact h.content
  closed := by
    intro x hx
    rcases mem_set hx with hx | rfl
    · exact h.closed x hx
    · exact hc
  past := by
    intro j x hj hx
    simp only [List.getElem?_set] at hx
    split at hx
    · next hij =>
      subst hij
      split at hx
      · simp at hx; subst hx; exact hpast hj
      · simp at hx
    · exact h.past j x hj hx

/-- An operation that moves the first pending batch of the current worker to the collector. -/
theorem inv_take {α : Type} {scripts : List (List α)} {s : State α} (h : Inv scripts s)
    {w w' : Worker α} {x : α} (hi : s.ws[s.pos]? = some w) (hp : w.pending = x :: w'.pending)
    (hc : w'.closed = true → w'.todo = []) :
    Inv scripts { s with ws := s.ws.set s.pos w', acc := s.acc ++ [x] } where
  len := by simpa using h.len
  pos_le := by simpa using h.pos_le
  content := by
    show (s.acc ++ [x]) ++ (((s.ws.set s.pos w').drop s.pos).map Worker.pending).flatten = _
    rw [drop_set_self hi, ← h.content, drop_eq_cons hi]
    simp [hp]
  closed := by
    intro y hy
    rcases mem_set hy with hy | rfl
    · exact h.closed y hy
    · exact hc
  past := by
    intro j y hj hy
    simp only at hj
    simp only [List.getElem?_set] at hy
    rw [if_neg (by omega)] at hy
    exact h.past j y hj hy

theorem inv_step {α : Type} {scripts : List (List α)} {s s' : State α} {o : Op} (h : Inv scripts s)
    (hs : step s o = some s') : Inv scripts s' := by
  cases o with
  | send i =>
    simp only [step] at hs
    split at hs
    · next w hi =>
      split at hs
      · next x t ht =>
        split at hs
        · simp only [Option.some.injEq] at hs
          subst hs
          have hc : w.closed ≠ true := by
            intro hc
            have := h.closed w (List.mem_of_getElem? hi) hc
            rw [this] at ht; simp at ht
          refine inv_update h hi ?_ ?_ ?_
          · simp [Worker.pending, ht]
          · intro hc'; exact absurd hc' hc
          · intro hlt; exact absurd (h.past i w hlt hi).1 hc
        · simp at hs
      · simp at hs
    · simp at hs
  | close i =>
    simp only [step] at hs
    split at hs
    · next w hi =>
      split at hs
      · next hcond =>
        simp only [Option.some.injEq] at hs
        subst hs
        simp only [Bool.and_eq_true, List.isEmpty_iff, Bool.not_eq_true'] at hcond
        refine inv_update h hi rfl (fun _ => hcond.1) ?_
        intro hlt
        exact ⟨rfl, (h.past i w hlt hi).2⟩
      · simp at hs
    · simp at hs
  | recv =>
    simp only [step] at hs
    split at hs
    · next w hi =>
      split at hs
      · next x b hb =>
        simp only [Option.some.injEq] at hs
        subst hs
        refine inv_take h hi ?_ (fun hc => h.closed w (List.mem_of_getElem? hi) hc)
        simp [Worker.pending, hb]
      · simp at hs
    · simp at hs
  | handoff =>
    simp only [step] at hs
    split at hs
    · next w hi =>
      split at hs
      · next x t hb ht =>
        simp only [Option.some.injEq] at hs
        subst hs
        refine inv_take h hi ?_ ?_
        · simp [Worker.pending, hb, ht]
        · intro hc
          have := h.closed w (List.mem_of_getElem? hi) hc
          rw [this] at ht; simp at ht
      · simp at hs
    · simp at hs
  | advance =>
    simp only [step] at hs
    split at hs
    · next w hi =>
      split at hs
      · next hcond =>
        simp only [Option.some.injEq] at hs
        subst hs
        simp only [Bool.and_eq_true, List.isEmpty_iff] at hcond
        have ht := h.closed w (List.mem_of_getElem? hi) hcond.1
        refine ⟨h.len, lt_of_getElem? hi, ?_, h.closed, ?_⟩
        · have := h.content
          rw [drop_eq_cons hi] at this
          simpa [Worker.pending, hcond.2, ht] using this
        · intro j y hj hy
          simp only at hj hy
          by_cases hjp : j < s.pos
          · exact h.past j y hjp hy
          · have : j = s.pos := by omega
            subst this
            rw [hi] at hy
            simp at hy; subst hy
            exact hcond
      · simp at hs
    · simp at hs

theorem inv_run {α : Type} {scripts : List (List α)} {s s' : State α} {os : List Op} (h : Inv scripts s)
    (hr : run s os = some s') : Inv scripts s' := by
  induction os generalizing s with
  | nil => simp [run] at hr; subst hr; exact h
  | cons o os ih =>
    simp only [run] at hr
    cases hs : step s o with
    | none => rw [hs] at hr; simp at hr
    | some s1 => rw [hs] at hr; exact ih (inv_step h hs) hr

/-! ### Measure -/

/-- Operations still to be done for a worker: send and receive each batch, close. -/
def Worker.work {α : Type} (w : Worker α) : Nat :=
  2 * w.todo.length + w.buf.length + if w.closed then 0 else 1

def State.work {α : Type} (s : State α) : Nat :=
  (s.ws.map Worker.work).sum + (s.ws.length - s.pos)

theorem sum_map_set {α : Type} (f : α → Nat) {l : List α} {i : Nat} {w w' : α} (hi : l[i]? = some w) :
    ((l.set i w').map f).sum + f w = (l.map f).sum + f w' := by
  induction l generalizing i with
  | nil => simp at hi
  | cons a l ih =>
    cases i with
    | zero => simp at hi; subst hi; simp; omega
    | succ i =>
      simp only [List.getElem?_cons_succ] at hi
      have := ih hi
      simp only [List.set_cons_succ, List.map_cons, List.sum_cons]
      omega

theorem step_work {α : Type} {s s' : State α} {o : Op} (hs : step s o = some s') : s'.work < s.work := by
  cases o with
  | send i =>
    simp only [step] at hs
    split at hs
    · next w hi =>
      split at hs
      · next x t ht =>
        split at hs
        · simp only [Option.some.injEq] at hs
          subst hs
          have := sum_map_set Worker.work (w' := { w with todo := t, buf := w.buf ++ [x] }) hi
          simp only [State.work, List.length_set]
          simp only [Worker.work, List.length_append, List.length_cons, List.length_nil, ht] at this ⊢
          omega
        · simp at hs
      · simp at hs
    · simp at hs
  | close i =>
    simp only [step] at hs
    split at hs
    · next w hi =>
      split at hs
      · next hcond =>
        simp only [Option.some.injEq] at hs
        subst hs
        simp only [Bool.and_eq_true, List.isEmpty_iff, Bool.not_eq_true'] at hcond
        have := sum_map_set Worker.work (w' := { w with closed := true }) hi
        simp only [State.work, List.length_set]
        simp only [Worker.work, hcond.2, hcond.1] at this ⊢
        simp at this ⊢
        omega
      · simp at hs
    · simp at hs
  | recv =>
    simp only [step] at hs
    split at hs
    · next w hi =>
      split at hs
      · next x b hb =>
        simp only [Option.some.injEq] at hs
        subst hs
        have := sum_map_set Worker.work (w' := { w with buf := b }) hi
        simp only [State.work, List.length_set]
        simp only [Worker.work, List.length_cons, hb] at this ⊢
        omega
      · simp at hs
    · simp at hs
  | handoff =>
    simp only [step] at hs
    split at hs
    · next w hi =>
      split at hs
      · next x t hb ht =>
        simp only [Option.some.injEq] at hs
        subst hs
        have := sum_map_set Worker.work (w' := { w with todo := t }) hi
        simp only [State.work, List.length_set]
        simp only [Worker.work, List.length_cons, ht] at this ⊢
        omega
      · simp at hs
    · simp at hs
  | advance =>
    simp only [step] at hs
    split at hs
    · next w hi =>
      split at hs
      · simp only [Option.some.injEq] at hs
        subst hs
        have := lt_of_getElem? hi
        simp only [State.work]
        omega
      · simp at hs
    · simp at hs

theorem run_work {α : Type} {s s' : State α} {os : List Op} (hr : run s os = some s') :
    s'.work + os.length ≤ s.work := by
  induction os generalizing s with
  | nil => simp [run] at hr; subst hr; simp
  | cons o os ih =>
    simp only [run] at hr
    cases hs : step s o with
    | none => rw [hs] at hr; simp at hr
    | some s1 =>
      rw [hs] at hr
      have := ih hr
      have := step_work hs
      simp only [List.length_cons]
      omega

theorem init_work {α : Type} (cap : Nat) (scripts : List (List α)) :
    (init cap scripts).work = 2 * (scripts.map List.length).sum + 2 * scripts.length := by
  simp only [State.work, init, List.map_map, List.length_map, Nat.sub_zero]
  have : ∀ l : List (List α), (l.map (Worker.work ∘ fun s => ({ todo := s, buf := [], cap, closed := false } : Worker α))).sum
      = 2 * (l.map List.length).sum + l.length := by
    intro l
    induction l with
    | nil => rfl
    | cons a l ih =>
      rw [List.map_cons, List.sum_cons, ih]
      simp [Worker.work]
      omega
  rw [this]; omega

/-! ### Progress -/

theorem progress {α : Type} {scripts : List (List α)} {s : State α} (h : Inv scripts s)
    (hn : ¬ s.finished) : ∃ o s', step s o = some s' := by
  have hlt : s.pos < s.ws.length := by
    have := h.pos_le
    unfold State.finished at hn
    omega
  have hi : s.ws[s.pos]? = some s.ws[s.pos] := List.getElem?_eq_getElem hlt
  generalize s.ws[s.pos] = w at hi
  cases hb : w.buf with
  | cons x b => exact ⟨.recv, _, by simp only [step, hi, hb]; rfl⟩
  | nil =>
    cases ht : w.todo with
    | cons x t => exact ⟨.handoff, _, by simp only [step, hi, hb, ht]; rfl⟩
    | nil =>
      cases hc : w.closed with
      | true => exact ⟨.advance, { s with pos := s.pos + 1 }, by simp [step, hi, hb, hc]⟩
      | false => exact ⟨.close s.pos, { s with ws := s.ws.set s.pos { w with closed := true } }, by
          simp [step, hi, ht, hc]⟩

/-- Workers never block for ever either: an unfinished worker's batch is eventually taken
(used with capacity 0 or a full channel). When the collector is finished all workers are. -/
theorem finished_workers {α : Type} {scripts : List (List α)} {s : State α} (h : Inv scripts s)
    (hf : s.finished) : ∀ w ∈ s.ws, w.closed = true ∧ w.buf = [] ∧ w.todo = [] := by
  intro w hw
  obtain ⟨i, hi, rfl⟩ := List.getElem_of_mem hw
  unfold State.finished at hf
  obtain ⟨h1, h2⟩ := h.past i s.ws[i] (by omega) (List.getElem?_eq_getElem hi)
  exact ⟨h1, h2, h.closed _ hw h1⟩

end Verif.Conc.Pipeline
