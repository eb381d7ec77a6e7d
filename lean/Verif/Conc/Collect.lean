/-!
The goroutines of the parallel module parser (a2l/module.go:327-1005), without what they
parse: every worker has a fixed list of messages to send, each on one of several channels;
every channel has a collector goroutine of its own; one goroutine waits for all workers and
then closes the channels one after the other; the main goroutine waits for all collectors.

One step is one channel or wait-group operation; which one happens next is the choice of
the scheduler.
-/

namespace Verif.Conc.Collect

/-- A worker (`parseModuleMainLoop`): the messages it still has to send, each with the number
of its channel, and whether it has returned (`wg.Done()`, module.go:719). -/
structure Worker (α : Type) where
  todo : List (Nat × α)
  done : Bool

/-- A channel with its collector: content, capacity, closed; what the collector has
received so far (oldest first) and whether it has returned. The number of the sending worker
is kept with every message; the code does not have it. -/
structure Chan (α : Type) where
  buf : List (Nat × α)
  cap : Nat
  closed : Bool
  acc : List (Nat × α)
  fin : Bool

/-- All goroutines; `closing` is the number of channels closed so far; `crashed` tells that a
goroutine has sent on a closed channel. -/
structure State (α : Type) where
  ws : List (Worker α)
  chans : List (Chan α)
  closing : Nat
  crashed : Bool

inductive Op
  /-- worker `i` sends its next message (module.go:756 and so on) -/
  | send (i : Nat)
  /-- worker `i`, having sent everything, returns -/
  | exit (i : Nat)
  /-- the closing goroutine, with all workers returned, closes the next channel
  (module.go:675-703) -/
  | close
  /-- the collector of channel `k` takes a message (module.go:467-649) -/
  | recv (k : Nat)
  /-- the collector of channel `k` finds it closed and empty and returns -/
  | fin (k : Nat)
  deriving DecidableEq, Repr

/-- The effect of an operation, `none` if it is not enabled. -/
def step {α : Type} (s : State α) : Op → Option (State α)
  | .send i =>
    match s.ws[i]? with
    | some w =>
      match w.todo with
      | (k, x) :: t =>
        match s.chans[k]? with
        | some c =>
          if c.closed then some { s with crashed := true }
          else if c.buf.length < c.cap then
            some { s with ws := s.ws.set i { w with todo := t },
                          chans := s.chans.set k { c with buf := c.buf ++ [(i, x)] } }
          else none
        | none => none
      | [] => none
    | none => none
  | .exit i =>
    match s.ws[i]? with
    | some w =>
      if w.todo.isEmpty && !w.done then some { s with ws := s.ws.set i { w with done := true } }
      else none
    | none => none
  | .close =>
    match s.chans[s.closing]? with
    | some c =>
      if s.ws.all (·.done) then
        some { s with chans := s.chans.set s.closing { c with closed := true },
                      closing := s.closing + 1 }
      else none
    | none => none
  | .recv k =>
    match s.chans[k]? with
    | some c =>
      match c.buf with
      | x :: b => some { s with chans := s.chans.set k { c with buf := b, acc := c.acc ++ [x] } }
      | [] => none
    | none => none
  | .fin k =>
    match s.chans[k]? with
    | some c =>
      if c.closed && c.buf.isEmpty && !c.fin then
        some { s with chans := s.chans.set k { c with fin := true } }
      else none
    | none => none

/-- Before the first operation: worker `i` has to send `scripts[i]`, channel `k` has capacity
`caps[k]`. -/
def init {α : Type} (caps : List Nat) (scripts : List (List (Nat × α))) : State α :=
  { ws := scripts.map fun s => { todo := s, done := false }
    chans := caps.map fun c => { buf := [], cap := c, closed := false, acc := [], fin := false }
    closing := 0, crashed := false }

/-- A run: a sequence of operations, `none` if one of them is not enabled. -/
def run {α : Type} (s : State α) : List Op → Option (State α)
  | [] => some s
  | o :: os => (step s o).bind fun s' => run s' os

/-- `wgCollectors.Wait()` returns (module.go:657). -/
def State.finished {α : Type} (s : State α) : Bool := s.chans.all (·.fin)

/-! ### Invariant -/

/-- The messages of a list that go to channel `k`. -/
def onChan {α : Type} (k : Nat) (l : List (Nat × α)) : List α := (l.filter (·.1 = k)).map (·.2)

/-- The messages of a list that come from worker `i`. -/
def fromWorker {α : Type} (i : Nat) (l : List (Nat × α)) : List α := (l.filter (·.1 = i)).map (·.2)

structure Inv {α : Type} (caps : List Nat) (scripts : List (List (Nat × α))) (s : State α) : Prop where
  wlen : s.ws.length = scripts.length
  clen : s.chans.length = caps.length
  caps : ∀ (k : Nat) c, s.chans[k]? = some c → caps[k]? = some c.cap
  /-- every message is exactly once in a worker's list, in the channel or collected; the
  messages of one worker on one channel stay in order -/
  flow : ∀ (k : Nat) c (i : Nat) w sc, s.chans[k]? = some c → s.ws[i]? = some w →
    scripts[i]? = some sc → fromWorker i (c.acc ++ c.buf) ++ onChan k w.todo = onChan k sc
  /-- the rest of a worker's list consists of messages of its script -/
  sub : ∀ (i : Nat) w sc, s.ws[i]? = some w → scripts[i]? = some sc → ∃ pre, pre ++ w.todo = sc
  /-- senders are workers -/
  tags : ∀ c ∈ s.chans, ∀ x ∈ c.acc ++ c.buf, x.1 < scripts.length
  done : ∀ w ∈ s.ws, w.done = true → w.todo = []
  /-- channels are closed in order, and only when all workers have returned -/
  closed : ∀ (k : Nat) c, s.chans[k]? = some c → (c.closed = true ↔ k < s.closing)
  closing : 0 < s.closing → s.ws.all (·.done) = true
  closing_le : s.closing ≤ s.chans.length
  fin : ∀ c ∈ s.chans, c.fin = true → c.closed = true ∧ c.buf = []
  crash : s.crashed = false

theorem inv_init {α : Type} (caps : List Nat) (scripts : List (List (Nat × α))) :
    Inv caps scripts (init caps scripts) where
  wlen := by simp [init]
  clen := by simp [init]
  caps := by
    intro k c h
    simp only [init, List.getElem?_map, Option.map_eq_some_iff] at h
    obtain ⟨_, h, rfl⟩ := h
    exact h
  flow := by
    intro k c i w sc h h' h''
    simp only [init, List.getElem?_map, Option.map_eq_some_iff] at h h'
    obtain ⟨_, _, rfl⟩ := h
    obtain ⟨_, h', rfl⟩ := h'
    rw [h''] at h'
    simp only [Option.some.injEq] at h'
    subst h'
    simp [fromWorker]
  sub := by
    intro i w sc h h'
    simp only [init, List.getElem?_map, Option.map_eq_some_iff] at h
    obtain ⟨_, h, rfl⟩ := h
    rw [h'] at h
    simp only [Option.some.injEq] at h
    subst h
    exact ⟨[], rfl⟩
  tags := by
    intro c h
    simp only [init, List.mem_map] at h
    obtain ⟨_, _, rfl⟩ := h
    simp
  done := by
    intro w h
    simp only [init, List.mem_map] at h
    obtain ⟨_, _, rfl⟩ := h
    simp
  closed := by
    intro k c h
    simp only [init, List.getElem?_map, Option.map_eq_some_iff] at h
    obtain ⟨_, _, rfl⟩ := h
    simp [init]
  closing := by simp [init]
  closing_le := by simp [init]
  fin := by
    intro c h
    simp only [init, List.mem_map] at h
    obtain ⟨_, _, rfl⟩ := h
    simp
  crash := rfl

theorem getElem?_set_cases {α : Type} {l : List α} {i j : Nat} {x y : α} (h : (l.set i x)[j]? = some y) :
    (i = j ∧ y = x ∧ i < l.length) ∨ (i ≠ j ∧ l[j]? = some y) := by
  rw [List.getElem?_set] at h
  split at h
  · next hij =>
    split at h
    · next hl => simp only [Option.some.injEq] at h; exact Or.inl ⟨hij, h.symm, hl⟩
    · cases h
  · next hij => exact Or.inr ⟨hij, h⟩

theorem mem_set {α : Type} {l : List α} {i : Nat} {x y : α} (h : y ∈ l.set i x) : y ∈ l ∨ y = x :=
  List.mem_or_eq_of_mem_set h

theorem mem_of_getElem? {α : Type} {l : List α} {i : Nat} {x : α} (h : l[i]? = some x) : x ∈ l :=
  List.mem_of_getElem? h

theorem step_inv {α : Type} {caps : List Nat} {scripts : List (List (Nat × α))} {s s' : State α} {o : Op}
    (hi : Inv caps scripts s) (h : step s o = some s') : Inv caps scripts s' := by
  cases o with
  | send i =>
    simp only [step] at h
    split at h
    · rename_i w hw
      split at h
      · rename_i k x t ht
        split at h
        · rename_i c hc
          split at h
          · rename_i hcl
            exfalso
            have h1 := (hi.closed k c hc).1 hcl
            have h2 := hi.closing (by omega)
            have h3 := List.all_eq_true.1 h2 w (mem_of_getElem? hw)
            have h4 := hi.done w (mem_of_getElem? hw) h3
            rw [ht] at h4
            cases h4
          · rename_i hcl
            split at h
            · simp only [Option.some.injEq] at h
              subst h
              have hlt : i < scripts.length := by
                rw [← hi.wlen]
                rcases Nat.lt_or_ge i s.ws.length with h | h
                · exact h
                · rw [List.getElem?_eq_none h] at hw; cases hw
              have hnd : ∀ w' ∈ s.ws.set i { w with todo := t }, w'.done = true → w'.todo = [] := by
                intro w' hw' hd
                rcases mem_set hw' with h | rfl
                · exact hi.done w' h hd
                · have := hi.done w (mem_of_getElem? hw) hd
                  rw [ht] at this; cases this
              refine { wlen := by simp [hi.wlen], clen := by simp [hi.clen], caps := ?_, flow := ?_,
                       sub := ?_, tags := ?_, done := hnd, closed := ?_, closing := ?_,
                       closing_le := by simp [hi.closing_le], fin := ?_, crash := hi.crash }
              · intro k' c' h'
                rcases getElem?_set_cases h' with ⟨rfl, rfl, _⟩ | ⟨_, h⟩
                · exact hi.caps k c hc
                · exact hi.caps k' c' h
              · intro k' c' i' w' sc hk' hi' hsc
                rcases getElem?_set_cases hk' with ⟨rfl, rfl, _⟩ | ⟨hk, hk'⟩ <;>
                  rcases getElem?_set_cases hi' with ⟨rfl, rfl, _⟩ | ⟨hii, hi'⟩
                · have := hi.flow k c i w sc hc hw hsc
                  rw [ht] at this
                  rw [← this]
                  simp [fromWorker, onChan]
                · have := hi.flow k c i' w' sc hc hi' hsc
                  rw [← this]
                  simp [fromWorker, hii]
                · have := hi.flow k' c' i w sc hk' hw hsc
                  rw [ht] at this
                  rw [← this]
                  simp [onChan, hk]
                · exact hi.flow k' c' i' w' sc hk' hi' hsc
              · intro i' w' sc hi' hsc
                rcases getElem?_set_cases hi' with ⟨rfl, rfl, _⟩ | ⟨hii, hi'⟩
                · obtain ⟨pre, hp⟩ := hi.sub i w sc hw hsc
                  rw [ht] at hp
                  exact ⟨pre ++ [(k, x)], by simpa using hp⟩
                · exact hi.sub i' w' sc hi' hsc
              · intro c' hc' y hy
                rcases mem_set hc' with h | rfl
                · exact hi.tags c' h y hy
                · simp only [← List.append_assoc, List.mem_append, List.mem_singleton] at hy
                  rcases hy with hy | rfl
                  · exact hi.tags c (mem_of_getElem? hc) y (by simpa using hy)
                  · exact hlt
              · intro k' c' hk'
                rcases getElem?_set_cases hk' with ⟨rfl, rfl, _⟩ | ⟨hk, hk'⟩
                · exact hi.closed k c hc
                · exact hi.closed k' c' hk'
              · intro hpos
                exfalso
                have h2 := hi.closing hpos
                have h3 := List.all_eq_true.1 h2 w (mem_of_getElem? hw)
                have h4 := hi.done w (mem_of_getElem? hw) h3
                rw [ht] at h4
                cases h4
              · intro c' hc' hf
                rcases mem_set hc' with h | rfl
                · exact hi.fin c' h hf
                · exact absurd (hi.fin c (mem_of_getElem? hc) hf).1 hcl
            · cases h
        · cases h
      · cases h
    · cases h
  | exit i =>
    simp only [step] at h
    split at h
    · rename_i w hw
      split at h
      · rename_i hcond
        simp only [Bool.and_eq_true, List.isEmpty_iff, Bool.not_eq_true'] at hcond
        simp only [Option.some.injEq] at h
        subst h
        refine { wlen := by simp [hi.wlen], clen := hi.clen, caps := hi.caps, flow := ?_, sub := ?_,
                 tags := hi.tags, done := ?_, closed := hi.closed, closing := ?_,
                 closing_le := hi.closing_le, fin := hi.fin, crash := hi.crash }
        · intro k' c' i' w' sc hk' hi' hsc
          rcases getElem?_set_cases hi' with ⟨rfl, rfl, _⟩ | ⟨_, hi'⟩
          · exact hi.flow k' c' i w sc hk' hw hsc
          · exact hi.flow k' c' i' w' sc hk' hi' hsc
        · intro i' w' sc hi' hsc
          rcases getElem?_set_cases hi' with ⟨rfl, rfl, _⟩ | ⟨_, hi'⟩
          · exact hi.sub i w sc hw hsc
          · exact hi.sub i' w' sc hi' hsc
        · intro w' hw' hd
          rcases mem_set hw' with h | rfl
          · exact hi.done w' h hd
          · exact hcond.1
        · intro hpos
          have h2 := hi.closing hpos
          have h3 := List.all_eq_true.1 h2 w (mem_of_getElem? hw)
          rw [h3] at hcond
          exact absurd hcond.2 (by simp)
      · cases h
    · cases h
  | close =>
    simp only [step] at h
    split at h
    · rename_i c hc
      split at h
      · rename_i hall
        simp only [Option.some.injEq] at h
        subst h
        have hlt : s.closing < s.chans.length := by
          rcases Nat.lt_or_ge s.closing s.chans.length with h | h
          · exact h
          · rw [List.getElem?_eq_none h] at hc; cases hc
        refine { wlen := hi.wlen, clen := by simp [hi.clen], caps := ?_, flow := ?_, sub := hi.sub,
                 tags := ?_, done := hi.done, closed := ?_, closing := fun _ => hall,
                 closing_le := ?_, fin := ?_, crash := hi.crash }
        · intro k' c' h'
          rcases getElem?_set_cases h' with ⟨rfl, rfl, _⟩ | ⟨_, h⟩
          · exact hi.caps _ c hc
          · exact hi.caps k' c' h
        · intro k' c' i' w' sc hk' hi' hsc
          rcases getElem?_set_cases hk' with ⟨rfl, rfl, _⟩ | ⟨_, hk'⟩
          · exact hi.flow _ c i' w' sc hc hi' hsc
          · exact hi.flow k' c' i' w' sc hk' hi' hsc
        · intro c' hc' y hy
          rcases mem_set hc' with h | rfl
          · exact hi.tags c' h y hy
          · exact hi.tags c (mem_of_getElem? hc) y hy
        · intro k' c' hk'
          rcases getElem?_set_cases hk' with ⟨rfl, rfl, _⟩ | ⟨hne, hk'⟩
          · simp
          · rw [hi.closed k' c' hk']
            show k' < s.closing ↔ k' < s.closing + 1
            omega
        · simp only [List.length_set]; omega
        · intro c' hc' hf
          rcases mem_set hc' with h | rfl
          · exact hi.fin c' h hf
          · exact ⟨rfl, (hi.fin c (mem_of_getElem? hc) hf).2⟩
      · cases h
    · cases h
  | recv k =>
    simp only [step] at h
    split at h
    · rename_i c hc
      split at h
      · rename_i x b hb
        simp only [Option.some.injEq] at h
        subst h
        have hsplit : (c.acc ++ [x]) ++ b = c.acc ++ c.buf := by rw [hb]; simp
        refine { wlen := hi.wlen, clen := by simp [hi.clen], caps := ?_, flow := ?_, sub := hi.sub,
                 tags := ?_, done := hi.done, closed := ?_, closing := hi.closing,
                 closing_le := by simp [hi.closing_le], fin := ?_, crash := hi.crash }
        · intro k' c' h'
          rcases getElem?_set_cases h' with ⟨rfl, rfl, _⟩ | ⟨_, h⟩
          · exact hi.caps _ c hc
          · exact hi.caps k' c' h
        · intro k' c' i' w' sc hk' hi' hsc
          rcases getElem?_set_cases hk' with ⟨rfl, rfl, _⟩ | ⟨_, hk'⟩
          · have := hi.flow _ c i' w' sc hc hi' hsc
            simp only [hsplit]
            exact this
          · exact hi.flow k' c' i' w' sc hk' hi' hsc
        · intro c' hc' y hy
          rcases mem_set hc' with h | rfl
          · exact hi.tags c' h y hy
          · simp only [hsplit] at hy
            exact hi.tags c (mem_of_getElem? hc) y hy
        · intro k' c' hk'
          rcases getElem?_set_cases hk' with ⟨rfl, rfl, _⟩ | ⟨_, hk'⟩
          · exact hi.closed _ c hc
          · exact hi.closed k' c' hk'
        · intro c' hc' hf
          rcases mem_set hc' with h | rfl
          · exact hi.fin c' h hf
          · have := (hi.fin c (mem_of_getElem? hc) hf).2
            rw [hb] at this; cases this
      · cases h
    · cases h
  | fin k =>
    simp only [step] at h
    split at h
    · rename_i c hc
      split at h
      · rename_i hcond
        simp only [Bool.and_eq_true, List.isEmpty_iff, Bool.not_eq_true'] at hcond
        simp only [Option.some.injEq] at h
        subst h
        refine { wlen := hi.wlen, clen := by simp [hi.clen], caps := ?_, flow := ?_, sub := hi.sub,
                 tags := ?_, done := hi.done, closed := ?_, closing := hi.closing,
                 closing_le := by simp [hi.closing_le], fin := ?_, crash := hi.crash }
        · intro k' c' h'
          rcases getElem?_set_cases h' with ⟨rfl, rfl, _⟩ | ⟨_, h⟩
          · exact hi.caps _ c hc
          · exact hi.caps k' c' h
        · intro k' c' i' w' sc hk' hi' hsc
          rcases getElem?_set_cases hk' with ⟨rfl, rfl, _⟩ | ⟨_, hk'⟩
          · exact hi.flow _ c i' w' sc hc hi' hsc
          · exact hi.flow k' c' i' w' sc hk' hi' hsc
        · intro c' hc' y hy
          rcases mem_set hc' with h | rfl
          · exact hi.tags c' h y hy
          · exact hi.tags c (mem_of_getElem? hc) y hy
        · intro k' c' hk'
          rcases getElem?_set_cases hk' with ⟨rfl, rfl, _⟩ | ⟨_, hk'⟩
          · exact hi.closed _ c hc
          · exact hi.closed k' c' hk'
        · intro c' hc' hf
          rcases mem_set hc' with h | rfl
          · exact hi.fin c' h hf
          · exact hcond.1
      · cases h
    · cases h

theorem run_inv {α : Type} {caps : List Nat} {scripts : List (List (Nat × α))} : ∀ (ops : List Op)
    (s s' : State α), Inv caps scripts s → run s ops = some s' → Inv caps scripts s' := by
  intro ops
  induction ops with
  | nil => intro s s' hi h; simp only [run, Option.some.injEq] at h; subst h; exact hi
  | cons o os ih =>
    intro s s' hi h
    simp only [run, Option.bind_eq_some_iff] at h
    obtain ⟨s1, h1, h2⟩ := h
    exact ih s1 s' (step_inv hi h1) h2

/-! ### No deadlock -/

/-- As long as the collectors have not all returned, some operation is possible, provided
every message goes to an existing channel and every channel has room for a message. -/
theorem progress {α : Type} {caps : List Nat} {scripts : List (List (Nat × α))} {s : State α}
    (hi : Inv caps scripts s) (hcap : ∀ c ∈ caps, 0 < c)
    (hch : ∀ sc ∈ scripts, ∀ m ∈ sc, m.1 < caps.length) (hnf : s.finished = false) :
    ∃ o s', step s o = some s' := by
  by_cases hbuf : ∃ (k : Nat) (c : Chan α), s.chans[k]? = some c ∧ c.buf ≠ []
  · obtain ⟨k, c, hc, hne⟩ := hbuf
    obtain ⟨x, b, hb⟩ := List.exists_cons_of_ne_nil hne
    exact ⟨.recv k, _, by simp only [step, hc, hb]; rfl⟩
  · have hempty : ∀ (k : Nat) (c : Chan α), s.chans[k]? = some c → c.buf = [] := by
      intro k c hc
      cases hb : c.buf with
      | nil => rfl
      | cons x b => exact absurd ⟨k, c, hc, by simp [hb]⟩ hbuf
    by_cases hdone : s.ws.all (·.done) = true
    · by_cases hcl : s.closing < s.chans.length
      · exact ⟨.close, _, by simp only [step, List.getElem?_eq_getElem hcl, hdone, if_true]; rfl⟩
      · simp only [State.finished] at hnf
        have : ∃ c ∈ s.chans, c.fin = false := by
          rcases Classical.em (∃ c ∈ s.chans, c.fin = false) with h | h
          · exact h
          · exfalso
            have : s.chans.all (·.fin) = true := by
              rw [List.all_eq_true]
              intro c hc
              cases hf : c.fin with
              | true => rfl
              | false => exact absurd ⟨c, hc, hf⟩ h
            rw [this] at hnf; cases hnf
        obtain ⟨c, hc, hf⟩ := this
        obtain ⟨k, hk, rfl⟩ := List.getElem_of_mem hc
        have hk' : s.chans[k]? = some s.chans[k] := List.getElem?_eq_getElem hk
        have hclosed := (hi.closed k _ hk').2 (by omega)
        exact ⟨.fin k, _, by simp [step, hk', hclosed, hempty k _ hk', hf]; rfl⟩
    · have : ∃ w ∈ s.ws, w.done = false := by
        rcases Classical.em (∃ w ∈ s.ws, w.done = false) with h | h
        · exact h
        · exfalso
          apply hdone
          rw [List.all_eq_true]
          intro w hw
          cases hd : w.done with
          | true => rfl
          | false => exact absurd ⟨w, hw, hd⟩ h
      obtain ⟨w, hw, hd⟩ := this
      obtain ⟨i, hil, rfl⟩ := List.getElem_of_mem hw
      have hi' : s.ws[i]? = some s.ws[i] := List.getElem?_eq_getElem hil
      cases ht : s.ws[i].todo with
      | nil => exact ⟨.exit i, _, by simp [step, hi', ht, hd]; rfl⟩
      | cons m t =>
        obtain ⟨k, x⟩ := m
        have hsl : i < scripts.length := by rw [← hi.wlen]; exact hil
        obtain ⟨pre, hp⟩ := hi.sub i _ _ hi' (List.getElem?_eq_getElem hsl)
        have hkl : k < caps.length :=
          hch _ (List.getElem_mem hsl) (k, x) (by rw [← hp, ht]; simp)
        have hkl' : k < s.chans.length := by rw [hi.clen]; exact hkl
        have hc : s.chans[k]? = some s.chans[k] := List.getElem?_eq_getElem hkl'
        by_cases hcl : s.chans[k].closed = true
        · exact ⟨.send i, _, by simp only [step, hi', ht, hc, hcl, if_true]; rfl⟩
        · have h1 := hi.caps k _ hc
          have h2 : 0 < s.chans[k].cap := hcap _ (mem_of_getElem? h1)
          have h3 := hempty k _ hc
          exact ⟨.send i, _, by
            simp only [step, hi', ht, hc, hcl, Bool.false_eq_true, if_false, h3, List.length_nil, h2, if_true]; rfl⟩

/-! ### Termination -/

/-- Operations still to come. -/
def Worker.left {α : Type} (w : Worker α) : Nat := 3 * w.todo.length + (if w.done then 0 else 1)

def Chan.left {α : Type} (c : Chan α) : Nat := 2 * c.buf.length + (if c.fin then 0 else 1)

def State.left {α : Type} (s : State α) : Nat :=
  (s.ws.map Worker.left).sum + (s.chans.map Chan.left).sum + (s.chans.length - s.closing)

theorem sum_set {l : List Nat} {i x y : Nat} (h : l[i]? = some x) : (l.set i y).sum + x = l.sum + y := by
  induction l generalizing i with
  | nil => simp at h
  | cons a l ih =>
    cases i with
    | zero => simp at h; subst h; simp; omega
    | succ i =>
      simp only [List.getElem?_cons_succ] at h
      have := ih h
      simp only [List.set_cons_succ, List.sum_cons]
      omega

theorem sum_map_set {β : Type} (f : β → Nat) {l : List β} {i : Nat} {x y : β} (h : l[i]? = some x) :
    ((l.set i y).map f).sum + f x = (l.map f).sum + f y := by
  rw [List.map_set]
  exact sum_set (by rw [List.getElem?_map, h]; rfl)

theorem step_left {α : Type} {caps : List Nat} {scripts : List (List (Nat × α))} {s s' : State α} {o : Op}
    (hi : Inv caps scripts s) (h : step s o = some s') : s'.left < s.left := by
  have hi' := step_inv hi h
  cases o with
  | send i =>
    simp only [step] at h
    split at h
    · rename_i w hw
      split at h
      · rename_i k x t ht
        split at h
        · rename_i c hc
          split at h
          · simp only [Option.some.injEq] at h
            subst h
            have := hi'.crash
            simp at this
          · split at h
            · simp only [Option.some.injEq] at h
              subst h
              have h1 := sum_map_set Worker.left (y := { w with todo := t }) hw
              have h2 := sum_map_set Chan.left (y := { c with buf := c.buf ++ [(i, x)] }) hc
              simp only [State.left, List.length_set]
              simp only [Worker.left, Chan.left, ht, List.length_cons, List.length_append,
                List.length_nil] at h1 h2
              omega
            · cases h
        · cases h
      · cases h
    · cases h
  | exit i =>
    simp only [step] at h
    split at h
    · rename_i w hw
      split at h
      · rename_i hcond
        simp only [Bool.and_eq_true, List.isEmpty_iff, Bool.not_eq_true'] at hcond
        simp only [Option.some.injEq] at h
        subst h
        have h1 := sum_map_set Worker.left (y := { w with done := true }) hw
        simp only [State.left]
        simp only [Worker.left, hcond.2] at h1 ⊢
        simp only [Bool.false_eq_true, if_false, if_true] at h1
        omega
      · cases h
    · cases h
  | close =>
    simp only [step] at h
    split at h
    · rename_i c hc
      split at h
      · simp only [Option.some.injEq] at h
        subst h
        have hlt : s.closing < s.chans.length := by
          rcases Nat.lt_or_ge s.closing s.chans.length with h | h
          · exact h
          · rw [List.getElem?_eq_none h] at hc; cases hc
        have h2 := sum_map_set Chan.left (y := { c with closed := true }) hc
        simp only [State.left, List.length_set]
        simp only [Chan.left] at h2 ⊢
        omega
      · cases h
    · cases h
  | recv k =>
    simp only [step] at h
    split at h
    · rename_i c hc
      split at h
      · rename_i x b hb
        simp only [Option.some.injEq] at h
        subst h
        have h2 := sum_map_set Chan.left (y := { c with buf := b, acc := c.acc ++ [x] }) hc
        simp only [State.left, List.length_set]
        simp only [Chan.left, hb, List.length_cons] at h2 ⊢
        omega
      · cases h
    · cases h
  | fin k =>
    simp only [step] at h
    split at h
    · rename_i c hc
      split at h
      · rename_i hcond
        simp only [Bool.and_eq_true, List.isEmpty_iff, Bool.not_eq_true'] at hcond
        simp only [Option.some.injEq] at h
        subst h
        have h2 := sum_map_set Chan.left (y := { c with fin := true }) hc
        simp only [State.left, List.length_set]
        simp only [Chan.left, hcond.2] at h2 ⊢
        simp only [Bool.false_eq_true, if_false, if_true] at h2
        omega
      · cases h
    · cases h

theorem run_length {α : Type} {caps : List Nat} {scripts : List (List (Nat × α))} : ∀ (ops : List Op)
    (s s' : State α), Inv caps scripts s → run s ops = some s' → ops.length + s'.left ≤ s.left := by
  intro ops
  induction ops with
  | nil => intro s s' _ h; simp only [run, Option.some.injEq] at h; subst h; simp
  | cons o os ih =>
    intro s s' hi h
    simp only [run, Option.bind_eq_some_iff] at h
    obtain ⟨s1, h1, h2⟩ := h
    have := ih s1 s' (step_inv hi h1) h2
    have := step_left hi h1
    simp only [List.length_cons]
    omega

/-- A run that has not finished can be continued to the end. -/
theorem run_complete {α : Type} {caps : List Nat} {scripts : List (List (Nat × α))}
    (hcap : ∀ c ∈ caps, 0 < c) (hch : ∀ sc ∈ scripts, ∀ m ∈ sc, m.1 < caps.length) :
    ∀ (n : Nat) (s : State α), s.left ≤ n → Inv caps scripts s →
      ∃ ops s', run s ops = some s' ∧ s'.finished = true := by
  intro n
  induction n with
  | zero =>
    intro s hl hi
    cases hf : s.finished with
    | true => exact ⟨[], s, rfl, hf⟩
    | false =>
      obtain ⟨o, s', h⟩ := progress hi hcap hch hf
      have := step_left hi h
      omega
  | succ n ih =>
    intro s hl hi
    cases hf : s.finished with
    | true => exact ⟨[], s, rfl, hf⟩
    | false =>
      obtain ⟨o, s1, h⟩ := progress hi hcap hch hf
      have := step_left hi h
      obtain ⟨ops, s', h1, h2⟩ := ih s1 (by omega) (step_inv hi h)
      exact ⟨o :: ops, s', by simp [run, h, h1], h2⟩

/-! ### What arrives -/

/-- When the collectors have returned, every channel has delivered, per worker and in the
worker's order, exactly the messages the workers had for it. -/
theorem delivered {α : Type} {caps : List Nat} {scripts : List (List (Nat × α))} {s : State α}
    (hi : Inv caps scripts s) (hf : s.finished = true) (k : Nat) (c : Chan α)
    (hc : s.chans[k]? = some c) :
    (∀ (i : Nat) sc, scripts[i]? = some sc → fromWorker i c.acc = onChan k sc) ∧
    (∀ x ∈ c.acc, x.1 < scripts.length) := by
  have hfin := List.all_eq_true.1 hf
  obtain ⟨hclosed, hbuf⟩ := hi.fin c (mem_of_getElem? hc) (hfin c (mem_of_getElem? hc))
  have hcl := (hi.closed k c hc).1 hclosed
  have hall := hi.closing (by omega)
  constructor
  · intro i sc hsc
    have hlt : i < s.ws.length := by
      rw [hi.wlen]
      rcases Nat.lt_or_ge i scripts.length with h | h
      · exact h
      · rw [List.getElem?_eq_none h] at hsc; cases hsc
    have hw : s.ws[i]? = some s.ws[i] := List.getElem?_eq_getElem hlt
    have h1 := hi.flow k c i _ sc hc hw hsc
    rw [hi.done _ (List.getElem_mem hlt) (List.all_eq_true.1 hall _ (List.getElem_mem hlt)), hbuf] at h1
    simpa [onChan] using h1
  · intro x hx
    exact hi.tags c (mem_of_getElem? hc) x (by simp [hx])

end Verif.Conc.Collect
