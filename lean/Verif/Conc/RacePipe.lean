import Verif.Conc.Race
import Verif.Conc.Pipeline

/-!
What the goroutines of the pattern in `Conc/Pipeline.lean` do to memory: every worker makes batches and sends them, the collector
receives them and looks into them.
-/

namespace Verif.Conc.Race

variable {G L S : Type}

/-- Goroutine `g` does `as`. -/
def acts (g : G) (as : List (Act G L S)) : List (Event G L S) := as.map (⟨g, ·⟩)

/-- The goroutines, their channels, and the content of the batches: `bt k m` is the one of goroutine `k` that is sent when `m` are left. -/
structure Pipe (G L S : Type) where
  wk : Nat → G
  c : G
  ch : Nat → S
  bt : Nat → Nat → L

/-- What happens in a step of `Pipeline.step`: before it sends a batch goroutine `k` does `loc k`, and after the receipt of one the collector
does `got`. -/
def Pipe.events {α : Type} (Q : Pipe G L S) (loc : Nat → List (Act G L S)) (got : List (Act G L S)) (p : Pipeline.State α) : Pipeline.Op → List (Event G L S)
  | .send k =>
    match p.ws[k]? with
    | some w => acts (Q.wk k) (loc k ++ [.write (Q.bt k w.todo.length), .send (Q.ch k)])
    | none => []
  | .close k => acts (Q.wk k) [.close (Q.ch k)]
  | .recv =>
    match p.ws[p.pos]? with
    | some w => acts Q.c (.recv (Q.ch p.pos) :: .read (Q.bt p.pos (w.todo.length + w.buf.length)) :: got)
    | none => []
  | .handoff =>
    match p.ws[p.pos]? with
    | some w => acts (Q.wk p.pos) (loc p.pos ++ [.write (Q.bt p.pos w.todo.length), .send (Q.ch p.pos)]) ++
        acts Q.c (.recv (Q.ch p.pos) :: .read (Q.bt p.pos w.todo.length) :: got)
    | none => []
  | .advance => acts Q.c [.closed (Q.ch p.pos)]

/-- Different goroutines have different channels and batches, and the collector is none of them. -/
structure Pipe.Distinct (Q : Pipe G L S) : Prop where
  wk : ∀ {j k}, Q.wk j = Q.wk k → j = k
  ch : ∀ {j k}, Q.ch j = Q.ch k → j = k
  bt : ∀ {j k m l}, Q.bt j m = Q.bt k l → j = k ∧ m = l
  c : ∀ k, Q.wk k ≠ Q.c

/-- The action has nothing to do with the channels and batches. -/
def Pipe.Apart (Q : Pipe G L S) (a : Act G L S) : Prop :=
  (∀ k, a ≠ .send (Q.ch k) ∧ a ≠ .recv (Q.ch k)) ∧ ∀ k m x, a.access ≠ some (Q.bt k m, x)

theorem acts_append (g : G) (as bs : List (Act G L S)) : acts g (as ++ bs) = acts g as ++ acts g bs := by simp [acts]

theorem acts_cons (g : G) (a : Act G L S) (bs : List (Act G L S)) : acts g (a :: bs) = [⟨g, a⟩] ++ acts g bs := by simp [acts]

theorem at_append {α : Type} {t u : List α} {i : Nat} {e : α} (h : (t ++ u)[i]? = some e) : t[i]? = some e ∨ (t.length ≤ i ∧ u[i - t.length]? = some e) := by
  rw [List.getElem?_append] at h
  split at h
  · exact Or.inl h
  · exact Or.inr ⟨by omega, h⟩

theorem mem_acts {g : G} {as : List (Act G L S)} {e : Event G L S} : e ∈ acts g as ↔ e.who = g ∧ e.act ∈ as := by
  obtain ⟨f, a⟩ := e
  simp only [acts, List.mem_map, Event.mk.injEq]
  constructor
  · rintro ⟨b, hb, rfl, rfl⟩; exact ⟨rfl, hb⟩
  · rintro ⟨rfl, h⟩; exact ⟨a, h, rfl, rfl⟩

theorem at_acts {t : List (Event G L S)} {g : G} {as : List (Act G L S)} {i : Nat} {e : Event G L S} (h : (t ++ acts g as)[i]? = some e) :
    t[i]? = some e ∨ (t.length ≤ i ∧ e.who = g ∧ e.act ∈ as) := by
  rcases at_append h with h | ⟨h, h'⟩
  · exact Or.inl h
  · exact Or.inr ⟨h, mem_acts.1 (List.mem_of_getElem? h')⟩

theorem at_snoc {t : List (Event G L S)} {i : Nat} {e f : Event G L S} (h : (t ++ [f])[i]? = some e) : t[i]? = some e ∨ (i = t.length ∧ e = f) := by
  rcases at_append h with h | ⟨h, h'⟩
  · exact Or.inl h
  · have hl := lt_of_get h'
    simp at hl
    have : i - t.length = 0 := by omega
    rw [this] at h'
    simp at h'
    exact Or.inr ⟨by omega, h'.symm⟩

variable [DecidableEq S] {cap : S → Nat}

theorem sends_append (t u : List (Event G L S)) (c : S) : sends (t ++ u) c = sends t c + sends u c := by simp [sends]

theorem recvs_append (t u : List (Event G L S)) (c : S) : recvs (t ++ u) c = recvs t c + recvs u c := by simp [recvs]

theorem sends_eq_zero {t : List (Event G L S)} {c : S} (h : ∀ e ∈ t, e.act ≠ .send c) : sends t c = 0 := by
  rw [sends, List.countP_eq_zero]
  intro e he
  have := h e he
  split <;> simp_all

theorem recvs_eq_zero {t : List (Event G L S)} {c : S} (h : ∀ e ∈ t, e.act ≠ .recv c) : recvs t c = 0 := by
  rw [recvs, List.countP_eq_zero]
  intro e he
  have := h e he
  split <;> simp_all

/-- All events of one goroutine that come together. -/
theorem Free.acts {own : G → Prop} {t : List (Event G L S)} {g : G} : ∀ {as : List (Act G L S)}, Free cap own t →
    (∀ a ∈ as, ∀ i f, t[i]? = some f → own f.who → f.who ≠ g → Conflict f.act a → Past cap t g i) → Free cap own (t ++ Race.acts g as) := by
  intro as
  induction as generalizing t with
  | nil => intro h _; simpa [Race.acts] using h
  | cons a as ih =>
    intro h hc
    rw [acts_cons, ← List.append_assoc]
    refine ih (h.snoc fun _ i f h1 h2 h3 h4 => hc a (by simp) i f h1 h2 h3 h4) fun b hb i f h1 h2 h3 h4 => ?_
    rcases at_snoc h1 with h1 | ⟨_, rfl⟩
    · exact (hc b (by simp [hb]) i f h1 h2 h3 h4).append
    · exact absurd rfl h3

/-- What a goroutine did is not later than the last thing it has done. -/
theorem upto_last {t : List (Event G L S)} {g : G} {a : Act G L S} {i : Nat} {e : Event G L S} (h : (t ++ [⟨g, a⟩])[i]? = some e) (hg : e.who = g) :
    Le cap (t ++ [⟨g, a⟩]) i t.length := by
  rcases at_snoc h with h' | ⟨rfl, _⟩
  · subst hg
    exact Or.inr ((Past.own h').hb (e := ⟨e.who, a⟩))
  · exact Or.inl rfl

theorem upto_last' {t : List (Event G L S)} {g : G} {a : Act G L S} {i : Nat} {e : Event G L S} (h : (t ++ [⟨g, a⟩])[i]? = some e) (hg : e.who = g) :
    Upto cap (t ++ [⟨g, a⟩]) a i :=
  ⟨t.length, g, by simp, upto_last h hg⟩

variable {α : Type}

/-- What is known of the goroutines while they work. -/
structure PipeInv (cap : S → Nat) (Q : Pipe G L S) (p : Pipeline.State α) (t : List (Event G L S)) : Prop where
  who : ∀ {i : Nat} {e : Event G L S} {k : Nat}, t[i]? = some e → e.who = Q.wk k → k < p.ws.length
  tidy : ∀ {k : Nat} {w : Pipeline.Worker α}, p.ws[k]? = some w → w.closed = true → w.todo = []
  past : ∀ {k : Nat} {w : Pipeline.Worker α}, p.ws[k]? = some w → k < p.pos → w.closed = true
  cnt : ∀ {k : Nat} {w : Pipeline.Worker α}, p.ws[k]? = some w → sends t (Q.ch k) = recvs t (Q.ch k) + w.buf.length
  sent : ∀ {k : Nat} {w : Pipeline.Worker α} {i : Nat} {e : Event G L S} {m : Nat} {x : Kind}, p.ws[k]? = some w → t[i]? = some e → e.who = Q.wk k → e.act.access = some (Q.bt k m, x) → w.todo.length < m ∧
    ∃ j, Le cap t i j ∧ t[j]? = some ⟨Q.wk k, .send (Q.ch k)⟩ ∧ sends (t.take j) (Q.ch k) + m = sends t (Q.ch k) + w.todo.length
  seen : ∀ {k : Nat} {w : Pipeline.Worker α} {i : Nat} {e : Event G L S} {m : Nat} {x : Kind}, p.ws[k]? = some w → t[i]? = some e → e.who ≠ Q.wk k → e.act.access = some (Q.bt k m, x) →
    x = .read ∧ e.who = Q.c ∧ w.todo.length < m
  closed : ∀ {k : Nat} {w : Pipeline.Worker α} {i : Nat} {e : Event G L S}, p.ws[k]? = some w → w.closed = true → t[i]? = some e → e.who = Q.wk k → Upto cap t (.close (Q.ch k)) i
  joined : ∀ {k i : Nat} {e : Event G L S}, k < p.pos → t[i]? = some e → e.who = Q.wk k → Past cap t Q.c i

theorem PipeInv.init {Q : Pipe G L S} (c : Nat) (scripts : List (List α)) {t : List (Event G L S)}
    (h : ∀ e ∈ t, (∀ k, e.who ≠ Q.wk k) ∧ Q.Apart e.act) : PipeInv cap Q (Pipeline.init c scripts) t where
  who := fun h1 h2 => absurd h2 ((h _ (List.mem_of_getElem? h1)).1 _)
  tidy := fun {k w} h1 h2 => by
    simp only [Pipeline.init, List.getElem?_map, Option.map_eq_some_iff] at h1
    obtain ⟨_, _, rfl⟩ := h1
    cases h2
  past := fun _ h2 => by simp [Pipeline.init] at h2
  cnt := fun {k w} h1 => by
    simp only [Pipeline.init, List.getElem?_map, Option.map_eq_some_iff] at h1
    obtain ⟨_, _, rfl⟩ := h1
    rw [sends_eq_zero fun e he => ((h e he).2.1 k).1, recvs_eq_zero fun e he => ((h e he).2.1 k).2]
    rfl
  sent := fun _ h2 _ h4 => absurd h4 ((h _ (List.mem_of_getElem? h2)).2.2 _ _ _)
  seen := fun _ h2 _ h4 => absurd h4 ((h _ (List.mem_of_getElem? h2)).2.2 _ _ _)
  closed := fun _ _ h3 h4 => absurd h4 ((h _ (List.mem_of_getElem? h3)).1 _)
  joined := fun _ h3 h4 => absurd h4 ((h _ (List.mem_of_getElem? h3)).1 _)

theorem take_append_le {β : Type} {t u : List β} {j : Nat} (h : j ≤ t.length) : (t ++ u).take j = t.take j := List.take_append_of_le_length h

/-- Other goroutines go on, or the collector does something else. -/
theorem PipeInv.alien {Q : Pipe G L S} {p : Pipeline.State α} {t u : List (Event G L S)} (hp : PipeInv cap Q p t)
    (h : ∀ e ∈ u, (∀ k, e.who ≠ Q.wk k) ∧ Q.Apart e.act) : PipeInv cap Q p (t ++ u) := by
  have hs : ∀ k, sends (t ++ u) (Q.ch k) = sends t (Q.ch k) := fun k => by
    rw [sends_append, sends_eq_zero (t := u) fun e he => ((h e he).2.1 k).1]; rfl
  have hr : ∀ k, recvs (t ++ u) (Q.ch k) = recvs t (Q.ch k) := fun k => by
    rw [recvs_append, recvs_eq_zero (t := u) fun e he => ((h e he).2.1 k).2]; rfl
  have hw : ∀ {i : Nat} {e : Event G L S} {k : Nat}, (t ++ u)[i]? = some e → e.who = Q.wk k → t[i]? = some e := fun {i e k} h1 h2 => by
    rcases at_append h1 with h1 | ⟨_, h1⟩
    · exact h1
    · exact absurd h2 ((h _ (List.mem_of_getElem? h1)).1 _)
  have hb : ∀ {i : Nat} {e : Event G L S} {k m : Nat} {x : Kind}, (t ++ u)[i]? = some e → e.act.access = some (Q.bt k m, x) → t[i]? = some e := fun {i e k m x} h1 h2 => by
    rcases at_append h1 with h1 | ⟨_, h1⟩
    · exact h1
    · exact absurd h2 ((h _ (List.mem_of_getElem? h1)).2.2 _ _ _)
  exact {
    who := fun h1 h2 => hp.who (hw h1 h2) h2
    tidy := hp.tidy
    past := hp.past
    cnt := fun h1 => by rw [hs, hr]; exact hp.cnt h1
    sent := fun h1 h2 h3 h4 => by
      obtain ⟨a, j, b, c, d⟩ := hp.sent h1 (hw h2 h3) h3 h4
      refine ⟨a, j, b.append, getElem?_append c, ?_⟩
      rw [hs, take_append (lt_of_get c)]
      exact d
    seen := fun h1 h2 h3 h4 => hp.seen h1 (hb h2 h4) h3 h4
    closed := fun h1 h2 h3 h4 => (hp.closed h1 h2 (hw h3 h4) h4).append
    joined := fun h1 h3 h4 => (hp.joined h1 (hw h3 h4) h4).append }

theorem get_set {β : Type} {l : List β} {k j : Nat} {x y : β} (h : (l.set k x)[j]? = some y) : (j = k ∧ y = x) ∨ (j ≠ k ∧ l[j]? = some y) := by
  rw [List.getElem?_set] at h
  split at h
  · next hk => split at h <;> simp_all
  · next hk => exact Or.inr ⟨Ne.symm hk, h⟩

/-- Goroutine `k` makes a batch and sends it. -/
theorem PipeInv.send {Q : Pipe G L S} (hQ : Q.Distinct) {p : Pipeline.State α} {t : List (Event G L S)} (hp : PipeInv cap Q p t) {k : Nat}
    {w : Pipeline.Worker α} {x : α} {td : List α} (hk : p.ws[k]? = some w) (htd : w.todo = x :: td) {loc : List (Act G L S)}
    (hloc : ∀ a ∈ loc, Q.Apart a) :
    PipeInv cap Q { p with ws := p.ws.set k { w with todo := td, buf := w.buf ++ [x] } }
      (t ++ acts (Q.wk k) (loc ++ [.write (Q.bt k w.todo.length), .send (Q.ch k)])) := by
  have hm : ∀ e ∈ acts (Q.wk k) (loc ++ [.write (Q.bt k w.todo.length), .send (Q.ch k)]), e.who = Q.wk k ∧
      (e.act ∈ loc ∨ e.act = .write (Q.bt k w.todo.length) ∨ e.act = .send (Q.ch k)) := by
    intro e he; simpa [mem_acts] using he
  have hs : ∀ j, j ≠ k → sends (t ++ acts (Q.wk k) (loc ++ [.write (Q.bt k w.todo.length), .send (Q.ch k)])) (Q.ch j) = sends t (Q.ch j) := by
    intro j hj
    rw [sends_append, sends_eq_zero (t := acts _ _)]; · rfl
    intro e he
    rcases (hm e he).2 with h | h | h
    · exact ((hloc _ h).1 j).1
    · rw [h]; exact nofun
    · rw [h]; intro h; cases hQ.ch (Act.send.inj h); exact hj rfl
  have hr : ∀ j, recvs (t ++ acts (Q.wk k) (loc ++ [.write (Q.bt k w.todo.length), .send (Q.ch k)])) (Q.ch j) = recvs t (Q.ch j) := by
    intro j
    rw [recvs_append, recvs_eq_zero (t := acts _ _)]; · rfl
    intro e he
    rcases (hm e he).2 with h | h | h
    · exact ((hloc _ h).1 j).2
    · rw [h]; exact nofun
    · rw [h]; exact nofun
  have hloc0 : sends (acts (Q.wk k) (loc ++ [.write (Q.bt k w.todo.length)])) (Q.ch k) = 0 := by
    apply sends_eq_zero
    intro e he
    simp only [mem_acts, List.mem_append, List.mem_singleton] at he
    rcases he.2 with h | h
    · exact ((hloc _ h).1 k).1
    · rw [h]; exact nofun
  have hsplit : t ++ acts (Q.wk k) (loc ++ [.write (Q.bt k w.todo.length), .send (Q.ch k)]) =
      (t ++ acts (Q.wk k) (loc ++ [.write (Q.bt k w.todo.length)])) ++ [⟨Q.wk k, .send (Q.ch k)⟩] := by
    simp [acts]
  have hs1 : sends (t ++ acts (Q.wk k) (loc ++ [.write (Q.bt k w.todo.length), .send (Q.ch k)])) (Q.ch k) = sends t (Q.ch k) + 1 := by
    rw [hsplit, sends_append, sends_append, hloc0]; simp [sends]
  have hclosed : w.closed = false := by
    cases h : w.closed with
    | false => rfl
    | true => have := hp.tidy hk h; rw [htd] at this; cases this
  exact {
    who := fun {i e j} h1 h2 => by
      simp only [List.length_set]
      rcases at_append h1 with h1 | ⟨_, h1⟩
      · exact hp.who h1 h2
      · have h3 := (hm _ (List.mem_of_getElem? h1)).1
        rw [h2] at h3
        cases hQ.wk h3
        exact lt_of_get hk
    tidy := fun {j w'} h1 h2 => by
      rcases get_set h1 with ⟨rfl, rfl⟩ | ⟨_, h1⟩
      · simp only at h2; rw [hclosed] at h2; cases h2
      · exact hp.tidy h1 h2
    past := fun {j w'} h1 h2 => by
      rcases get_set h1 with ⟨rfl, rfl⟩ | ⟨_, h1⟩
      · exact (show w.closed = true from hp.past hk h2)
      · exact hp.past h1 h2
    cnt := fun {j w'} h1 => by
      rcases get_set h1 with ⟨rfl, rfl⟩ | ⟨hj, h1⟩
      · rw [hs1, hr, hp.cnt hk]; simp; omega
      · rw [hs j hj, hr]; exact hp.cnt h1
    sent := fun {j w' i e m y} h1 h2 h3 h4 => by
      rcases get_set h1 with ⟨rfl, rfl⟩ | ⟨hj, h1⟩
      · rcases at_append h2 with h2' | ⟨_, h2'⟩
        · obtain ⟨a, l, b, c, d⟩ := hp.sent hk h2' h3 h4
          simp only [htd, List.length_cons] at a d
          refine ⟨show td.length < m by omega, l, b.append, getElem?_append c, ?_⟩
          rw [hs1, take_append (lt_of_get c)]
          show _ = _ + td.length
          omega
        · have hm' : m = w.todo.length := by
            rcases (hm _ (List.mem_of_getElem? h2')).2 with h | h | h
            · exact absurd h4 ((hloc _ h).2 _ _ _)
            · rw [h] at h4; simp [Act.access] at h4; exact (hQ.bt h4.1).2.symm
            · rw [h] at h4; cases h4
          refine ⟨by simp only [hm', htd, List.length_cons]; omega, (t ++ acts (Q.wk j) (loc ++ [Act.write (Q.bt j w.todo.length)])).length, ?_, ?_, ?_⟩
          · rw [hsplit] at h2 ⊢; exact upto_last h2 h3
          · rw [hsplit]; simp
          · rw [hs1, hsplit, take_append_le (Nat.le_refl _), List.take_length, sends_append, hloc0]
            simp only [hm', htd, List.length_cons]
            omega
      · rcases at_append h2 with h2' | ⟨_, h2'⟩
        · obtain ⟨a, l, b, c, d⟩ := hp.sent h1 h2' h3 h4
          refine ⟨a, l, b.append, getElem?_append c, ?_⟩
          rw [hs j hj, take_append (lt_of_get c)]
          exact d
        · have h5 := (hm _ (List.mem_of_getElem? h2')).1
          rw [h3] at h5
          exact absurd (hQ.wk h5) hj
    seen := fun {j w' i e m y} h1 h2 h3 h4 => by
      rcases get_set h1 with ⟨rfl, rfl⟩ | ⟨hj, h1⟩
      · rcases at_append h2 with h2 | ⟨_, h2⟩
        · obtain ⟨a, b, c⟩ := hp.seen hk h2 h3 h4
          refine ⟨a, b, ?_⟩
          simp only [htd, List.length_cons] at c ⊢
          omega
        · exact absurd (hm _ (List.mem_of_getElem? h2)).1 h3
      · rcases at_append h2 with h2 | ⟨_, h2⟩
        · exact hp.seen h1 h2 h3 h4
        · rcases (hm _ (List.mem_of_getElem? h2)).2 with h | h | h
          · exact absurd h4 ((hloc _ h).2 _ _ _)
          · rw [h] at h4; simp [Act.access] at h4; exact absurd (hQ.bt h4.1).1.symm hj
          · rw [h] at h4; cases h4
    closed := fun {j w' i e} h1 h2 h3 h4 => by
      rcases get_set h1 with ⟨rfl, rfl⟩ | ⟨hj, h1⟩
      · simp only at h2; rw [hclosed] at h2; cases h2
      · rcases at_append h3 with h3 | ⟨_, h3⟩
        · exact (hp.closed h1 h2 h3 h4).append
        · have h5 := (hm _ (List.mem_of_getElem? h3)).1
          rw [h4] at h5
          exact absurd (hQ.wk h5) hj
    joined := fun {j i e} h1 h3 h4 => by
      rcases at_append h3 with h3 | ⟨_, h3⟩
      · exact (hp.joined h1 h3 h4).append
      · have h5 := (hm _ (List.mem_of_getElem? h3)).1
        rw [h4] at h5
        cases hQ.wk h5
        have := hp.past hk h1
        rw [hclosed] at this
        cases this }

/-- Goroutine `k` closes its channel. -/
theorem PipeInv.close {Q : Pipe G L S} (hQ : Q.Distinct) {p : Pipeline.State α} {t : List (Event G L S)} (hp : PipeInv cap Q p t) {k : Nat}
    {w : Pipeline.Worker α} (hk : p.ws[k]? = some w) (htd : w.todo = []) (hcl : w.closed = false) :
    PipeInv cap Q { p with ws := p.ws.set k { w with closed := true } } (t ++ [⟨Q.wk k, .close (Q.ch k)⟩]) := by
  have hs : ∀ j, sends (t ++ [⟨Q.wk k, .close (Q.ch k)⟩]) (Q.ch j) = sends t (Q.ch j) := by intro j; simp [sends]
  have hr : ∀ j, recvs (t ++ [⟨Q.wk k, .close (Q.ch k)⟩]) (Q.ch j) = recvs t (Q.ch j) := by intro j; simp [recvs]
  have hb : ∀ {i : Nat} {e : Event G L S} {l : L} {x : Kind}, (t ++ [⟨Q.wk k, .close (Q.ch k)⟩])[i]? = some e → e.act.access = some (l, x) → t[i]? = some e := fun {i e k x} h1 h2 => by
    rcases at_snoc h1 with h1 | ⟨_, rfl⟩
    · exact h1
    · cases h2
  have hsame : ∀ {j : Nat} {w' : Pipeline.Worker α}, (p.ws.set k { w with closed := true })[j]? = some w' → ∃ w0 : Pipeline.Worker α, p.ws[j]? = some w0 ∧ w0.todo = w'.todo ∧ w0.buf = w'.buf ∧
      (w0.closed = true → w'.closed = true) ∧ (w'.closed = true → w0.closed = true ∨ j = k) := fun {j w'} h1 => by
    rcases get_set h1 with ⟨rfl, rfl⟩ | ⟨_, h1⟩
    · exact ⟨w, hk, rfl, rfl, fun _ => rfl, fun _ => Or.inr rfl⟩
    · exact ⟨w', h1, rfl, rfl, id, Or.inl⟩
  exact {
    who := fun {i e j} h1 h2 => by
      simp only [List.length_set]
      rcases at_snoc h1 with h1 | ⟨_, rfl⟩
      · exact hp.who h1 h2
      · cases hQ.wk h2; exact lt_of_get hk
    tidy := fun {j w'} h1 h2 => by
      rcases get_set h1 with ⟨rfl, rfl⟩ | ⟨_, h1⟩
      · exact htd
      · exact hp.tidy h1 h2
    past := fun {j w'} h1 h2 => by
      obtain ⟨w0, h0, _, _, h3, _⟩ := hsame h1
      exact h3 (hp.past h0 h2)
    cnt := fun {j w'} h1 => by
      obtain ⟨w0, h0, _, h3, _⟩ := hsame h1
      rw [hs, hr, ← h3]; exact hp.cnt h0
    sent := fun {j w' i e m y} h1 h2 h3 h4 => by
      obtain ⟨w0, h0, h5, _⟩ := hsame h1
      obtain ⟨a, l, b, c, d⟩ := hp.sent h0 (hb h2 h4) h3 h4
      rw [← h5]
      refine ⟨a, l, b.append, getElem?_append c, ?_⟩
      rw [hs, take_append (lt_of_get c)]
      exact d
    seen := fun {j w' i e m y} h1 h2 h3 h4 => by
      obtain ⟨w0, h0, h5, _⟩ := hsame h1
      rw [← h5]
      exact hp.seen h0 (hb h2 h4) h3 h4
    closed := fun {j w' i e} h1 h2 h3 h4 => by
      by_cases hj : j = k
      · subst hj; exact upto_last' h3 h4
      · rcases get_set h1 with ⟨h, _⟩ | ⟨_, h1⟩
        · exact absurd h hj
        · rcases at_snoc h3 with h3 | ⟨_, rfl⟩
          · exact (hp.closed h1 h2 h3 h4).append
          · exact absurd (hQ.wk h4).symm hj
    joined := fun {j i e} h1 h3 h4 => by
      rcases at_snoc h3 with h3 | ⟨_, rfl⟩
      · exact (hp.joined h1 h3 h4).append
      · cases hQ.wk h4
        have := hp.past hk h1
        rw [hcl] at this
        cases this }

/-- The collector receives a batch. -/
theorem PipeInv.recv {Q : Pipe G L S} (hQ : Q.Distinct) {p : Pipeline.State α} {t : List (Event G L S)} (hp : PipeInv cap Q p t)
    {w : Pipeline.Worker α} {x : α} {b : List α} (hk : p.ws[p.pos]? = some w) (hb : w.buf = x :: b) :
    PipeInv cap Q { p with ws := p.ws.set p.pos { w with buf := b }, acc := p.acc ++ [x] }
      (t ++ [⟨Q.c, .recv (Q.ch p.pos)⟩, ⟨Q.c, .read (Q.bt p.pos (w.todo.length + w.buf.length))⟩]) ∧
    ∀ i e y, t[i]? = some e → e.who = Q.wk p.pos → e.act.access = some (Q.bt p.pos (w.todo.length + w.buf.length), y) →
      Past cap (t ++ [⟨Q.c, .recv (Q.ch p.pos)⟩]) Q.c i := by
  have hs : ∀ j, sends (t ++ [⟨Q.c, .recv (Q.ch p.pos)⟩, ⟨Q.c, .read (Q.bt p.pos (w.todo.length + w.buf.length))⟩]) (Q.ch j) = sends t (Q.ch j) := by
    intro j; simp [sends]
  have hw : ∀ {i : Nat} {e : Event G L S} {k : Nat}, (t ++ [⟨Q.c, .recv (Q.ch p.pos)⟩, ⟨Q.c, .read (Q.bt p.pos (w.todo.length + w.buf.length))⟩])[i]? = some e →
      e.who = Q.wk k → t[i]? = some e := fun {i e k} h1 h2 => by
    rcases at_append h1 with h1 | ⟨_, h1⟩
    · exact h1
    · have := List.mem_of_getElem? h1
      simp only [List.mem_cons, List.not_mem_nil, or_false] at this
      rcases this with rfl | rfl
      · exact absurd h2.symm (hQ.c k)
      · exact absurd h2.symm (hQ.c k)
  have hsame : ∀ {j : Nat} {w' : Pipeline.Worker α}, (p.ws.set p.pos { w with buf := b })[j]? = some w' → ∃ w0 : Pipeline.Worker α, p.ws[j]? = some w0 ∧ w0.todo = w'.todo ∧
      w0.closed = w'.closed := fun {j w'} h1 => by
    rcases get_set h1 with ⟨rfl, rfl⟩ | ⟨_, h1⟩
    · exact ⟨w, hk, rfl, rfl⟩
    · exact ⟨w', h1, rfl, rfl⟩
  refine ⟨{
    who := fun {i e j} h1 h2 => by simp only [List.length_set]; exact hp.who (hw h1 h2) h2
    tidy := fun {j w'} h1 h2 => by
      obtain ⟨w0, h0, h3, h4⟩ := hsame h1
      rw [← h3]; exact hp.tidy h0 (h4.trans h2)
    past := fun {j w'} h1 h2 => by
      obtain ⟨w0, h0, h3, h4⟩ := hsame h1
      rw [← h4]; exact hp.past h0 h2
    cnt := fun {j w'} h1 => by
      rw [hs, recvs_append]
      rcases get_set h1 with ⟨rfl, rfl⟩ | ⟨hj, h1⟩
      · rw [hp.cnt hk, hb]
        simp [recvs]
        omega
      · rw [recvs_eq_zero (t := [_, _]), hp.cnt h1]; · rfl
        intro e he
        simp only [List.mem_cons, List.not_mem_nil, or_false] at he
        rcases he with rfl | rfl
        · intro h; exact hj (hQ.ch (Act.recv.inj h)).symm
        · exact nofun
    sent := fun {j w' i e m y} h1 h2 h3 h4 => by
      obtain ⟨w0, h0, h5, _⟩ := hsame h1
      obtain ⟨a, l, b, c, d⟩ := hp.sent h0 (hw h2 h3) h3 h4
      rw [← h5]
      refine ⟨a, l, b.append, getElem?_append c, ?_⟩
      rw [hs, take_append (lt_of_get c)]
      exact d
    seen := fun {j w' i e m y} h1 h2 h3 h4 => by
      obtain ⟨w0, h0, h5, _⟩ := hsame h1
      rw [← h5]
      rcases at_append h2 with h2 | ⟨_, h2⟩
      · exact hp.seen h0 h2 h3 h4
      · have := List.mem_of_getElem? h2
        simp only [List.mem_cons, List.not_mem_nil, or_false] at this
        rcases this with rfl | rfl
        · cases h4
        · simp only [Act.access, Option.some.injEq, Prod.mk.injEq] at h4
          obtain ⟨h4, rfl⟩ := h4
          obtain ⟨rfl, rfl⟩ := hQ.bt h4
          rw [hk] at h0
          cases h0
          refine ⟨rfl, rfl, ?_⟩
          rw [hb, List.length_cons]
          omega
    closed := fun {j w' i e} h1 h2 h3 h4 => by
      obtain ⟨w0, h0, h5, h6⟩ := hsame h1
      exact (hp.closed h0 (h6.trans h2) (hw h3 h4) h4).append
    joined := fun {j i e} h1 h3 h4 => (hp.joined h1 (hw h3 h4) h4).append }, ?_⟩
  intro i e y h1 h2 h3
  obtain ⟨_, j, h4, h5, h6⟩ := hp.sent hk h1 h2 h3
  refine ⟨t.length, ⟨Q.c, .recv (Q.ch p.pos)⟩, by simp, Or.inl rfl, Or.inr (h4.append.hb ?_)⟩
  refine HB.message (getElem?_append h5) (j := t.length) (h := Q.c) (c := Q.ch p.pos) (by simp) (lt_of_get h5) ?_
  rw [take_append (lt_of_get h5), take_append_le (Nat.le_refl _), List.take_length]
  have := hp.cnt hk
  omega

/-- The collector goes on to the next channel. -/
theorem PipeInv.advance {Q : Pipe G L S} (hQ : Q.Distinct) {p : Pipeline.State α} {t : List (Event G L S)} (hp : PipeInv cap Q p t)
    {w : Pipeline.Worker α} (hk : p.ws[p.pos]? = some w) (hcl : w.closed = true) :
    PipeInv cap Q { p with pos := p.pos + 1 } (t ++ [⟨Q.c, .closed (Q.ch p.pos)⟩]) := by
  have h0 : PipeInv cap Q p (t ++ [⟨Q.c, .closed (Q.ch p.pos)⟩]) := hp.alien (by
    intro e he
    cases List.mem_singleton.1 he
    exact ⟨fun k h => hQ.c k h.symm, fun k => ⟨nofun, nofun⟩, fun k m x => nofun⟩)
  refine { h0 with past := fun {j w'} h1 h2 => ?_, joined := fun {j i e} h1 h3 h4 => ?_ }
  · rcases Nat.lt_succ_iff_lt_or_eq.1 h2 with h2 | rfl
    · exact hp.past h1 h2
    · rw [hk] at h1; cases h1; exact hcl
  · rcases Nat.lt_succ_iff_lt_or_eq.1 h1 with h1 | rfl
    · exact h0.joined h1 h3 h4
    · rcases at_snoc h3 with h3 | ⟨_, rfl⟩
      · exact (hp.closed hk hcl h3 h4).closed
      · exact absurd h4.symm (hQ.c _)

/-- The accesses of an action to memory that other goroutines use too are later than theirs. -/
def Clear (cap : S → Nat) (own : G → Prop) (t : List (Event G L S)) (g : G) (a : Act G L S) : Prop :=
  ∀ i f, t[i]? = some f → own f.who → f.who ≠ g → Conflict f.act a → Past cap t g i

theorem clear_quiet {own : G → Prop} {t : List (Event G L S)} {g : G} {a : Act G L S} (h : a.access = none) : Clear cap own t g a := by
  rintro i f _ _ _ ⟨l, x, y, _, h2, _⟩
  rw [h] at h2
  cases h2

theorem Pipe.length_step {p p' : Pipeline.State α} {o : Pipeline.Op} (hs : Pipeline.step p o = some p') : p'.ws.length = p.ws.length := by
  cases o <;> simp only [Pipeline.step] at hs <;> repeat' split at hs
  all_goals first
    | (cases hs; done)
    | (cases hs; simp)

/-- One step of the pattern keeps what is known, and makes no race. -/
theorem PipeInv.step {Q : Pipe G L S} (hQ : Q.Distinct) {p p' : Pipeline.State α} {t : List (Event G L S)} (hp : PipeInv cap Q p t)
    {own : G → Prop} (hf : Free cap own t) {o : Pipeline.Op} (hs : Pipeline.step p o = some p') {loc : Nat → List (Act G L S)} {got : List (Act G L S)}
    (hloc : ∀ k, k < p.ws.length → ∀ a ∈ loc k, Q.Apart a ∧ Clear cap own t (Q.wk k) a) (hgot : ∀ a ∈ got, Q.Apart a ∧ Clear cap own t Q.c a)
    (hlg : ∀ k, ∀ a ∈ loc k, ∀ b ∈ got, ¬ Conflict a b) :
    PipeInv cap Q p' (t ++ Q.events loc got p o) ∧ Free cap own (t ++ Q.events loc got p o) := by
  have hsend : ∀ {k : Nat} {w : Pipeline.Worker α} {x : α} {td : List α}, p.ws[k]? = some w → w.todo = x :: td →
      Free cap own (t ++ acts (Q.wk k) (loc k ++ [.write (Q.bt k w.todo.length), .send (Q.ch k)])) := fun {k w x td} hk htd => by
    refine hf.acts fun a ha => ?_
    simp only [List.mem_append, List.mem_cons, List.not_mem_nil, or_false] at ha
    rcases ha with ha | rfl | rfl
    · exact (hloc k (lt_of_get hk) a ha).2
    · rintro i f h1 h2 h3 ⟨l, y, z, h4, h5, _⟩
      simp only [Act.access, Option.some.injEq, Prod.mk.injEq] at h5
      obtain ⟨rfl, rfl⟩ := h5
      obtain ⟨_, _, h⟩ := hp.seen hk h1 h3 h4
      exact absurd h (Nat.lt_irrefl _)
    · exact clear_quiet rfl
  have hgot' : ∀ {p0 : Pipeline.State α} {t0 : List (Event G L S)} {w : Pipeline.Worker α} {x : α} {b : List α}, PipeInv cap Q p0 t0 → Free cap own t0 → p0.ws[p0.pos]? = some w → w.buf = x :: b →
      (∀ a ∈ got, Q.Apart a ∧ Clear cap own t0 Q.c a) →
      PipeInv cap Q { p0 with ws := p0.ws.set p0.pos { w with buf := b }, acc := p0.acc ++ [x] }
        (t0 ++ acts Q.c (.recv (Q.ch p0.pos) :: .read (Q.bt p0.pos (w.todo.length + w.buf.length)) :: got)) ∧
      Free cap own (t0 ++ acts Q.c (.recv (Q.ch p0.pos) :: .read (Q.bt p0.pos (w.todo.length + w.buf.length)) :: got)) := fun {p0 t0 w x b} hp hf hk hb hg => by
    obtain ⟨h1, h2⟩ := hp.recv hQ hk hb
    rw [acts_cons, acts_cons, ← List.append_assoc, ← List.append_assoc]
    have h3 : Free cap own (t0 ++ [⟨Q.c, .recv (Q.ch p0.pos)⟩]) := hf.snoc fun _ i f g1 g2 g3 g4 => clear_quiet (cap := cap) (own := own) rfl i f g1 g2 g3 g4
    have h4 : Free cap own (t0 ++ [⟨Q.c, .recv (Q.ch p0.pos)⟩] ++ [⟨Q.c, .read (Q.bt p0.pos (w.todo.length + w.buf.length))⟩]) := by
      refine h3.snoc fun _ i f g1 g2 g3 ⟨l, y, z, g4, g5, g6, g7⟩ => ?_
      simp only [Act.access, Option.some.injEq, Prod.mk.injEq] at g5
      obtain ⟨rfl, rfl⟩ := g5
      rcases at_snoc g1 with g1 | ⟨_, rfl⟩
      · by_cases hw : f.who = Q.wk p0.pos
        · exact h2 i f y g1 hw g4
        · obtain ⟨rfl, _⟩ := hp.seen hk g1 hw g4
          exact absurd ⟨rfl, rfl⟩ g6
      · cases g4
    rw [show t0 ++ [⟨Q.c, .recv (Q.ch p0.pos)⟩, ⟨Q.c, .read (Q.bt p0.pos (w.todo.length + w.buf.length))⟩] =
      t0 ++ [⟨Q.c, .recv (Q.ch p0.pos)⟩] ++ [⟨Q.c, .read (Q.bt p0.pos (w.todo.length + w.buf.length))⟩] by simp] at h1
    refine ⟨h1.alien fun e he => ?_, h4.acts fun a ha i f g1 g2 g3 g4 => ?_⟩
    · obtain ⟨he1, he2⟩ := mem_acts.1 he
      exact ⟨fun k => he1 ▸ (hQ.c k).symm, (hg _ he2).1⟩
    · rcases at_snoc g1 with g1 | ⟨_, rfl⟩
      · rcases at_snoc g1 with g1 | ⟨_, rfl⟩
        · exact ((hg a ha).2 i f g1 g2 g3 g4).append.append
        · exact absurd rfl g3
      · exact absurd rfl g3
  cases o with
  | send k =>
    simp only [Pipeline.step] at hs
    split at hs
    · rename_i w hk
      split at hs
      · rename_i x td htd
        split at hs
        · cases hs
          simp only [Pipe.events, hk]
          exact ⟨hp.send hQ hk htd fun a ha => (hloc k (lt_of_get hk) a ha).1, hsend hk htd⟩
        · cases hs
      · cases hs
    · cases hs
  | close k =>
    simp only [Pipeline.step] at hs
    split at hs
    · rename_i w hk
      split at hs
      · rename_i hc
        cases hs
        simp only [Bool.and_eq_true, List.isEmpty_iff, Bool.not_eq_true'] at hc
        exact ⟨hp.close hQ hk hc.1 hc.2, hf.snoc fun _ i f g1 g2 g3 g4 => clear_quiet (cap := cap) (own := own) rfl i f g1 g2 g3 g4⟩
      · cases hs
    · cases hs
  | recv =>
    simp only [Pipeline.step] at hs
    split at hs
    · rename_i w hk
      split at hs
      · rename_i x b hb
        cases hs
        simp only [Pipe.events, hk]
        exact hgot' hp hf hk hb hgot
      · cases hs
    · cases hs
  | handoff =>
    simp only [Pipeline.step] at hs
    split at hs
    · rename_i w hk
      split at hs
      · rename_i x td hb htd
        cases hs
        simp only [Pipe.events, hk]
        have h1 := hp.send hQ hk htd fun a ha => (hloc p.pos (lt_of_get hk) a ha).1
        have h2 := hgot' (x := x) (b := []) h1 (hsend hk htd) (w := { w with todo := td, buf := w.buf ++ [x] })
          (by simp [lt_of_get hk]) (by simp [hb]) (by
            intro a ha
            refine ⟨(hgot a ha).1, fun i f g1 g2 g3 g4 => ?_⟩
            rcases at_acts g1 with g1 | ⟨_, g5, g6⟩
            · exact ((hgot a ha).2 i f g1 g2 g3 g4).append
            · simp only [List.mem_append, List.mem_cons, List.not_mem_nil, or_false] at g6
              rcases g6 with g6 | g6 | g6
              · exact absurd g4 (hlg _ _ g6 _ ha)
              · obtain ⟨l, y, z, g7, g8, _⟩ := g4
                rw [g6] at g7
                cases g7
                exact absurd g8 ((hgot a ha).1.2 _ _ _)
              · obtain ⟨l, y, z, g7, g8, _⟩ := g4
                rw [g6] at g7
                cases g7)
        simp only [List.set_set, hb, List.nil_append, List.length_singleton] at h2
        have e1 : w.todo.length = td.length + 1 := by rw [htd]; rfl
        have e2 : ({ todo := td, buf := [], cap := w.cap, closed := w.closed } : Pipeline.Worker α) = { w with todo := td } := by rw [← hb]
        rw [← e1, e2, List.append_assoc] at h2
        exact h2
      · cases hs
    · cases hs
  | advance =>
    simp only [Pipeline.step] at hs
    split at hs
    · rename_i w hk
      split at hs
      · rename_i hc
        cases hs
        simp only [Bool.and_eq_true] at hc
        exact ⟨hp.advance hQ hk hc.1, hf.snoc fun _ i f g1 g2 g3 g4 => clear_quiet (cap := cap) (own := own) rfl i f g1 g2 g3 g4⟩
      · cases hs
    · cases hs

/-- What the events of a step are. -/
theorem Pipe.mem_events {Q : Pipe G L S} {p p' : Pipeline.State α} {o : Pipeline.Op} (hs : Pipeline.step p o = some p') {loc : Nat → List (Act G L S)} {got : List (Act G L S)}
    {e : Event G L S} (h : e ∈ Q.events loc got p o) :
    (∃ k, k < p.ws.length ∧ e.who = Q.wk k ∧ (e.act ∈ loc k ∨ (∃ m, e.act = .write (Q.bt k m)) ∨ e.act.access = none)) ∨
    (e.who = Q.c ∧ (e.act ∈ got ∨ (∃ k m, e.act = .read (Q.bt k m)) ∨ e.act.access = none)) := by
  cases o with
  | send k =>
    simp only [Pipe.events] at h
    split at h
    · rename_i w hk
      simp only [mem_acts, List.mem_append, List.mem_cons, List.not_mem_nil, or_false] at h
      refine Or.inl ⟨k, lt_of_get hk, h.1, ?_⟩
      rcases h.2 with h | h | h
      · exact Or.inl h
      · exact Or.inr (Or.inl ⟨_, h⟩)
      · exact Or.inr (Or.inr (by rw [h]; rfl))
    · cases h
  | close k =>
    simp only [Pipe.events, mem_acts, List.mem_cons, List.not_mem_nil, or_false] at h
    have : k < p.ws.length := by
      simp only [Pipeline.step] at hs
      split at hs
      · rename_i hk; exact lt_of_get hk
      · cases hs
    exact Or.inl ⟨k, this, h.1, Or.inr (Or.inr (by rw [h.2]; rfl))⟩
  | recv =>
    simp only [Pipe.events] at h
    split at h
    · simp only [mem_acts, List.mem_cons] at h
      refine Or.inr ⟨h.1, ?_⟩
      rcases h.2 with h | h | h
      · exact Or.inr (Or.inr (by rw [h]; rfl))
      · exact Or.inr (Or.inl ⟨_, _, h⟩)
      · exact Or.inl h
    · cases h
  | handoff =>
    simp only [Pipe.events] at h
    split at h
    · rename_i w hk
      simp only [List.mem_append, mem_acts, List.mem_cons, List.not_mem_nil, or_false] at h
      rcases h with h | h
      · refine Or.inl ⟨_, lt_of_get hk, h.1, ?_⟩
        rcases h.2 with h | h | h
        · exact Or.inl h
        · exact Or.inr (Or.inl ⟨_, h⟩)
        · exact Or.inr (Or.inr (by rw [h]; rfl))
      · refine Or.inr ⟨h.1, ?_⟩
        rcases h.2 with h | h | h
        · exact Or.inr (Or.inr (by rw [h]; rfl))
        · exact Or.inr (Or.inl ⟨_, _, h⟩)
        · exact Or.inl h
    · cases h
  | advance =>
    simp only [Pipe.events, mem_acts, List.mem_cons, List.not_mem_nil, or_false] at h
    exact Or.inr ⟨h.1, Or.inr (Or.inr (by rw [h.2]; rfl))⟩

/-- What the events of a step are, with the operations on channels. -/
theorem Pipe.mem_events' {Q : Pipe G L S} {p : Pipeline.State α} {o : Pipeline.Op} {loc : Nat → List (Act G L S)} {got : List (Act G L S)}
    {e : Event G L S} (h : e ∈ Q.events loc got p o) : ((∃ k, e.who = Q.wk k) ∨ e.who = Q.c) ∧
    ((∃ k, e.act ∈ loc k) ∨ e.act ∈ got ∨ (∃ k m, e.act = .write (Q.bt k m) ∨ e.act = .read (Q.bt k m)) ∨
      ∃ k, e.act = .send (Q.ch k) ∨ e.act = .recv (Q.ch k) ∨ e.act = .close (Q.ch k) ∨ e.act = .closed (Q.ch k)) := by
  have send : ∀ {k m}, e ∈ acts (Q.wk k) (loc k ++ [.write (Q.bt k m), .send (Q.ch k)]) → ((∃ k, e.who = Q.wk k) ∨ e.who = Q.c) ∧
    ((∃ k, e.act ∈ loc k) ∨ e.act ∈ got ∨ (∃ k m, e.act = .write (Q.bt k m) ∨ e.act = .read (Q.bt k m)) ∨
      ∃ k, e.act = .send (Q.ch k) ∨ e.act = .recv (Q.ch k) ∨ e.act = .close (Q.ch k) ∨ e.act = .closed (Q.ch k)) := by
    intro k m h
    simp only [mem_acts, List.mem_append, List.mem_cons, List.not_mem_nil, or_false] at h
    refine ⟨Or.inl ⟨k, h.1⟩, ?_⟩
    rcases h.2 with h | h | h
    · exact Or.inl ⟨k, h⟩
    · exact Or.inr (Or.inr (Or.inl ⟨k, m, Or.inl h⟩))
    · exact Or.inr (Or.inr (Or.inr ⟨k, Or.inl h⟩))
  have recv : ∀ {k m}, e ∈ acts Q.c (.recv (Q.ch k) :: .read (Q.bt k m) :: got) → ((∃ k, e.who = Q.wk k) ∨ e.who = Q.c) ∧
    ((∃ k, e.act ∈ loc k) ∨ e.act ∈ got ∨ (∃ k m, e.act = .write (Q.bt k m) ∨ e.act = .read (Q.bt k m)) ∨
      ∃ k, e.act = .send (Q.ch k) ∨ e.act = .recv (Q.ch k) ∨ e.act = .close (Q.ch k) ∨ e.act = .closed (Q.ch k)) := by
    intro k m h
    simp only [mem_acts, List.mem_cons] at h
    refine ⟨Or.inr h.1, ?_⟩
    rcases h.2 with h | h | h
    · exact Or.inr (Or.inr (Or.inr ⟨k, Or.inr (Or.inl h)⟩))
    · exact Or.inr (Or.inr (Or.inl ⟨k, m, Or.inr h⟩))
    · exact Or.inr (Or.inl h)
  cases o with
  | send k =>
    simp only [Pipe.events] at h
    split at h
    · exact send h
    · cases h
  | close k =>
    simp only [Pipe.events, mem_acts, List.mem_cons, List.not_mem_nil, or_false] at h
    exact ⟨Or.inl ⟨k, h.1⟩, Or.inr (Or.inr (Or.inr ⟨k, Or.inr (Or.inr (Or.inl h.2))⟩))⟩
  | recv =>
    simp only [Pipe.events] at h
    split at h
    · exact recv h
    · cases h
  | handoff =>
    simp only [Pipe.events] at h
    split at h
    · rcases List.mem_append.1 h with h | h
      · exact send h
      · exact recv h
    · cases h
  | advance =>
    simp only [Pipe.events, mem_acts, List.mem_cons, List.not_mem_nil, or_false] at h
    exact ⟨Or.inr h.1, Or.inr (Or.inr (Or.inr ⟨p.pos, Or.inr (Or.inr (Or.inr h.2))⟩))⟩

end Verif.Conc.Race
