/-!
Data races after the memory model of Go (https://go.dev/ref/mem): what goroutines do to memory and to the things they synchronise with,
which of these events happen before which, and when two of them race.

All channels of the code have a capacity of at least one, so sending and receiving are separate events.
-/

namespace Verif.Conc.Race

/-- What a goroutine does: `L` are memory locations, `S` channels, mutexes and wait groups, `G` goroutines. -/
inductive Act (G L S : Type)
  | read (l : L)
  | write (l : L)
  /-- an operation of package sync/atomic -/
  | atomic (l : L)
  /-- `go` -/
  | go (g : G)
  | send (c : S)
  | recv (c : S)
  | close (c : S)
  /-- the channel is found closed and empty -/
  | closed (c : S)
  | lock (m : S)
  | unlock (m : S)
  | done (w : S)
  | wait (w : S)
  deriving DecidableEq

structure Event (G L S : Type) where
  who : G
  act : Act G L S
  deriving DecidableEq

variable {G L S : Type}

/-- The number of messages sent on a channel. -/
def sends [DecidableEq S] (t : List (Event G L S)) (c : S) : Nat :=
  t.countP fun e => match e.act with | .send d => d = c | _ => false

/-- The number of messages received from a channel. -/
def recvs [DecidableEq S] (t : List (Event G L S)) (c : S) : Nat :=
  t.countP fun e => match e.act with | .recv d => d = c | _ => false

/-- In the execution `t`, event `i` happens before event `j`; `cap` are the capacities of the channels. -/
inductive HB [DecidableEq S] (cap : S → Nat) (t : List (Event G L S)) : Nat → Nat → Prop
  /-- one goroutine -/
  | order {i j e f} : t[i]? = some e → t[j]? = some f → i < j → e.who = f.who → HB cap t i j
  /-- the `go` statement, and what the new goroutine does -/
  | go {i j g f} : t[i]? = some ⟨g, .go f.who⟩ → t[j]? = some f → i < j → HB cap t i j
  /-- a message is sent before it is received -/
  | message {i j g h c} : t[i]? = some ⟨g, .send c⟩ → t[j]? = some ⟨h, .recv c⟩ → i < j → sends (t.take i) c = recvs (t.take j) c → HB cap t i j
  /-- there is room in the channel because a message was received before -/
  | room {i j g h c} : t[i]? = some ⟨g, .recv c⟩ → t[j]? = some ⟨h, .send c⟩ → i < j → recvs (t.take i) c + cap c = sends (t.take j) c → HB cap t i j
  | closed {i j g h c} : t[i]? = some ⟨g, .close c⟩ → t[j]? = some ⟨h, .closed c⟩ → i < j → HB cap t i j
  | mutex {i j g h m} : t[i]? = some ⟨g, .unlock m⟩ → t[j]? = some ⟨h, .lock m⟩ → i < j → HB cap t i j
  | group {i j g h w} : t[i]? = some ⟨g, .done w⟩ → t[j]? = some ⟨h, .wait w⟩ → i < j → HB cap t i j
  | atomic {i j g h l} : t[i]? = some ⟨g, .atomic l⟩ → t[j]? = some ⟨h, .atomic l⟩ → i < j → HB cap t i j
  | trans {i j k} : HB cap t i j → HB cap t j k → HB cap t i k

inductive Kind
  | read | write | atomic
  deriving DecidableEq

/-- The access to memory an event consists in. -/
def Act.access : Act G L S → Option (L × Kind)
  | .read l => some (l, .read)
  | .write l => some (l, .write)
  | .atomic l => some (l, .atomic)
  | _ => none

/-- Two accesses to one location, not both reads and not both atomic. -/
def Conflict (a b : Act G L S) : Prop :=
  ∃ l x y, a.access = some (l, x) ∧ b.access = some (l, y) ∧ ¬ (x = .read ∧ y = .read) ∧ ¬ (x = .atomic ∧ y = .atomic)

/-- In the execution `t` there is a data race: two goroutines access one location, and neither access happens before the other. -/
def Racy [DecidableEq S] (cap : S → Nat) (t : List (Event G L S)) : Prop :=
  ∃ i j e f, t[i]? = some e ∧ t[j]? = some f ∧ i ≠ j ∧ e.who ≠ f.who ∧ Conflict e.act f.act ∧ ¬ HB cap t i j ∧ ¬ HB cap t j i

/-! ### Executions that grow -/

variable [DecidableEq S] {cap : S → Nat}

/-- Event `i` is not later than event `j`. -/
def Le (cap : S → Nat) (t : List (Event G L S)) (i j : Nat) : Prop := i = j ∨ HB cap t i j

theorem getElem?_append {α : Type} {t u : List α} {i : Nat} {e : α} (h : t[i]? = some e) : (t ++ u)[i]? = some e := by
  have : i < t.length := by
    rcases Nat.lt_or_ge i t.length with h' | h'
    · exact h'
    · rw [List.getElem?_eq_none h'] at h; cases h
  rw [List.getElem?_append_left this, h]

theorem lt_of_get {α : Type} {t : List α} {i : Nat} {e : α} (h : t[i]? = some e) : i < t.length := by
  rcases Nat.lt_or_ge i t.length with h' | h'
  · exact h'
  · rw [List.getElem?_eq_none h'] at h; cases h

theorem take_append {α : Type} {t u : List α} {i : Nat} (h : i < t.length) : (t ++ u).take i = t.take i := by
  rw [List.take_append_of_le_length (by omega)]

theorem HB.append {t u : List (Event G L S)} {i j : Nat} (h : HB cap t i j) : HB cap (t ++ u) i j := by
  induction h with
  | order h1 h2 h3 h4 => exact .order (getElem?_append h1) (getElem?_append h2) h3 h4
  | go h1 h2 h3 => exact .go (getElem?_append h1) (getElem?_append h2) h3
  | message h1 h2 h3 h4 =>
    exact .message (getElem?_append h1) (getElem?_append h2) h3 (by rw [take_append (lt_of_get h1), take_append (lt_of_get h2)]; exact h4)
  | room h1 h2 h3 h4 =>
    exact .room (getElem?_append h1) (getElem?_append h2) h3 (by rw [take_append (lt_of_get h1), take_append (lt_of_get h2)]; exact h4)
  | closed h1 h2 h3 => exact .closed (getElem?_append h1) (getElem?_append h2) h3
  | mutex h1 h2 h3 => exact .mutex (getElem?_append h1) (getElem?_append h2) h3
  | group h1 h2 h3 => exact .group (getElem?_append h1) (getElem?_append h2) h3
  | atomic h1 h2 h3 => exact .atomic (getElem?_append h1) (getElem?_append h2) h3
  | trans _ _ ih1 ih2 => exact .trans ih1 ih2

/-- What happens before happens earlier. -/
theorem HB.lt {t : List (Event G L S)} {i j : Nat} (h : HB cap t i j) : i < j := by
  induction h with
  | order _ _ h _ | go _ _ h | message _ _ h _ | room _ _ h _ | closed _ _ h | mutex _ _ h | group _ _ h | atomic _ _ h => exact h
  | trans _ _ h1 h2 => exact Nat.lt_trans h1 h2

theorem Le.append {t u : List (Event G L S)} {i j : Nat} (h : Le cap t i j) : Le cap (t ++ u) i j :=
  h.imp id HB.append

theorem Le.hb {t : List (Event G L S)} {i j k : Nat} (h : Le cap t i j) (h' : HB cap t j k) : HB cap t i k := by
  rcases h with rfl | h
  · exact h'
  · exact .trans h h'

/-- Event `i` happens before everything that goroutine `g` does from now on. -/
def Past (cap : S → Nat) (t : List (Event G L S)) (g : G) (i : Nat) : Prop :=
  ∃ j e, t[j]? = some e ∧ (e.who = g ∨ e.act = .go g) ∧ Le cap t i j

/-- Event `i` is not later than one with the action `a`: closing a channel, giving back a lock, leaving a wait group. -/
def Upto (cap : S → Nat) (t : List (Event G L S)) (a : Act G L S) (i : Nat) : Prop :=
  ∃ j g, t[j]? = some ⟨g, a⟩ ∧ Le cap t i j

theorem Past.append {t u : List (Event G L S)} {g : G} {i : Nat} (h : Past cap t g i) : Past cap (t ++ u) g i := by
  obtain ⟨j, e, h1, h2, h3⟩ := h
  exact ⟨j, e, getElem?_append h1, h2, h3.append⟩

theorem Upto.append {t u : List (Event G L S)} {a : Act G L S} {i : Nat} (h : Upto cap t a i) : Upto cap (t ++ u) a i := by
  obtain ⟨j, g, h1, h2⟩ := h
  exact ⟨j, g, getElem?_append h1, h2.append⟩

theorem Past.hb {t : List (Event G L S)} {e : Event G L S} {i : Nat} (h : Past cap t e.who i) : HB cap (t ++ [e]) i t.length := by
  obtain ⟨j, f, h1, h2, h3⟩ := h
  have hl : (t ++ [e])[t.length]? = some e := by simp
  refine h3.append.hb ?_
  rcases h2 with h2 | h2
  · exact .order (getElem?_append h1) hl (lt_of_get h1) h2
  · obtain ⟨g, a⟩ := f
    cases h2
    exact .go (getElem?_append h1) hl (lt_of_get h1)

theorem Past.own {t : List (Event G L S)} {i : Nat} {e : Event G L S} (h : t[i]? = some e) : Past cap t e.who i :=
  ⟨i, e, h, Or.inl rfl, Or.inl rfl⟩

/-- `go` hands over what is known. -/
theorem Past.go {t : List (Event G L S)} {g g' : G} {i : Nat} (h : Past cap t g i) : Past cap (t ++ [⟨g, .go g'⟩]) g' i :=
  ⟨t.length, ⟨g, .go g'⟩, by simp, Or.inr rfl, Or.inr (h.hb (e := ⟨g, .go g'⟩))⟩

theorem Past.upto {t : List (Event G L S)} {g : G} {a : Act G L S} {i : Nat} (h : Past cap t g i) : Upto cap (t ++ [⟨g, a⟩]) a i :=
  ⟨t.length, g, by simp, Or.inr (h.hb (e := ⟨g, a⟩))⟩

theorem upto_sync {t : List (Event G L S)} {g : G} {a b : Act G L S} {i : Nat} (h : Upto cap t a i)
    (hs : ∀ j f, t[j]? = some ⟨f, a⟩ → HB cap (t ++ [⟨g, b⟩]) j t.length) : Past cap (t ++ [⟨g, b⟩]) g i := by
  obtain ⟨j, f, h1, h2⟩ := h
  exact ⟨t.length, ⟨g, b⟩, by simp, Or.inl rfl, Or.inr (h2.append.hb (hs j f h1))⟩

theorem Upto.closed {t : List (Event G L S)} {g : G} {c : S} {i : Nat} (h : Upto cap t (.close c) i) : Past cap (t ++ [⟨g, .closed c⟩]) g i :=
  upto_sync h fun _ _ h => .closed (getElem?_append h) (by simp; rfl) (lt_of_get h)

theorem Upto.lock {t : List (Event G L S)} {g : G} {m : S} {i : Nat} (h : Upto cap t (.unlock m) i) : Past cap (t ++ [⟨g, .lock m⟩]) g i :=
  upto_sync h fun _ _ h => .mutex (getElem?_append h) (by simp; rfl) (lt_of_get h)

theorem Upto.wait {t : List (Event G L S)} {g : G} {w : S} {i : Nat} (h : Upto cap t (.done w) i) : Past cap (t ++ [⟨g, .wait w⟩]) g i :=
  upto_sync h fun _ _ h => .group (getElem?_append h) (by simp; rfl) (lt_of_get h)

/-! ### Executions without races -/

/-- No data race among the goroutines `own`. -/
def Free (cap : S → Nat) (own : G → Prop) (t : List (Event G L S)) : Prop :=
  ∀ i j e f, t[i]? = some e → t[j]? = some f → i < j → own e.who → own f.who → e.who ≠ f.who → Conflict e.act f.act → HB cap t i j

theorem conflict_symm {a b : Act G L S} (h : Conflict a b) : Conflict b a := by
  obtain ⟨l, x, y, h1, h2, h3, h4⟩ := h
  exact ⟨l, y, x, h2, h1, fun h => h3 ⟨h.2, h.1⟩, fun h => h4 ⟨h.2, h.1⟩⟩

theorem free_not_racy {t : List (Event G L S)} (h : Free cap (fun _ => True) t) : ¬ Racy cap t := by
  rintro ⟨i, j, e, f, h1, h2, h3, h4, h5, h6, h7⟩
  rcases Nat.lt_or_gt_of_ne h3 with h3 | h3
  · exact h6 (h i j e f h1 h2 h3 trivial trivial h4 h5)
  · exact h7 (h j i f e h2 h1 h3 trivial trivial (Ne.symm h4) (conflict_symm h5))

theorem free_nil (own : G → Prop) : Free (L := L) cap own [] := by
  intro i j e f h1; simp at h1

theorem Free.snoc {own : G → Prop} {t : List (Event G L S)} {e : Event G L S} (h : Free cap own t)
    (he : own e.who → ∀ i f, t[i]? = some f → own f.who → f.who ≠ e.who → Conflict f.act e.act → Past cap t e.who i) :
    Free cap own (t ++ [e]) := by
  intro i j f f' h1 h2 h3 h4 h5 h6 h7
  rw [List.getElem?_append] at h1 h2
  split at h2
  · rename_i hj
    rw [if_pos (Nat.lt_trans h3 hj)] at h1
    exact (h i j f f' h1 h2 h3 h4 h5 h6 h7).append
  · rename_i hj
    have hj' : j = t.length := by
      have := lt_of_get h2
      simp at this
      omega
    subst hj'
    simp at h2
    subst h2
    rw [if_pos h3] at h1
    exact (he h5 i f h1 h4 h6 h7).hb

end Verif.Conc.Race
