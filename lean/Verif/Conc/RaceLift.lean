import Verif.Conc.RacePipe

/-!
An execution that is part of a larger one: what happens before what in the part does so in the whole.
-/

namespace Verif.Conc.Race

variable {G L S G' L' S' : Type}

/-- The same action with other names. -/
def Act.map (fg : G → G') (fl : L → L') (fs : S → S') : Act G L S → Act G' L' S'
  | .read l => .read (fl l)
  | .write l => .write (fl l)
  | .atomic l => .atomic (fl l)
  | .go g => .go (fg g)
  | .send c => .send (fs c)
  | .recv c => .recv (fs c)
  | .close c => .close (fs c)
  | .closed c => .closed (fs c)
  | .lock c => .lock (fs c)
  | .unlock c => .unlock (fs c)
  | .done c => .done (fs c)
  | .wait c => .wait (fs c)

def Event.map (fg : G → G') (fl : L → L') (fs : S → S') (e : Event G L S) : Event G' L' S' := ⟨fg e.who, e.act.map fg fl fs⟩

/-- How many elements of the part are before place `j`. -/
def rank {X E : Type} (sel : X → Option E) (T : List X) (j : Nat) : Nat := ((T.take j).filterMap sel).length

/-- At place `j` of the whole is what is at place `i` of the part. -/
def At {X E : Type} (sel : X → Option E) (T : List X) (j i : Nat) (e : E) : Prop := ∃ x, T[j]? = some x ∧ sel x = some e ∧ rank sel T j = i

theorem At.get {X E : Type} {sel : X → Option E} {T : List X} {j i : Nat} {e : E} (h : At sel T j i e) : (T.filterMap sel)[i]? = some e := by
  obtain ⟨x, h1, h2, rfl⟩ := h
  have hj := lt_of_get h1
  have : T = T.take j ++ x :: T.drop (j + 1) := by
    have hx : T[j] = x := by rw [List.getElem?_eq_getElem hj] at h1; exact Option.some.inj h1
    rw [← hx, List.getElem_cons_drop, List.take_append_drop]
  have hf : T.filterMap sel = (T.take j).filterMap sel ++ e :: (T.drop (j + 1)).filterMap sel := by
    conv => lhs; rw [this]
    rw [List.filterMap_append, List.filterMap_cons_some h2]
  unfold rank
  rw [hf, List.getElem?_append_right (Nat.le_refl _)]
  simp

theorem exists_at {X E : Type} {sel : X → Option E} {T : List X} {i : Nat} {e : E} (h : (T.filterMap sel)[i]? = some e) : ∃ j, At sel T j i e := by
  induction T generalizing i with
  | nil => simp at h
  | cons y T ih =>
    cases hy : sel y with
    | none =>
      rw [List.filterMap_cons_none hy] at h
      obtain ⟨j, x, h1, h2, h3⟩ := ih h
      exact ⟨j + 1, x, by simpa using h1, h2, by simpa [rank, hy] using h3⟩
    | some f =>
      rw [List.filterMap_cons_some hy] at h
      cases i with
      | zero => cases h; exact ⟨0, y, rfl, hy, rfl⟩
      | succ i =>
        obtain ⟨j, x, h1, h2, h3⟩ := ih (by simpa using h)
        exact ⟨j + 1, x, by simpa using h1, h2, by simpa [rank, hy] using h3⟩

theorem rank_mono {X E : Type} {sel : X → Option E} {T : List X} {j k : Nat} (h : j ≤ k) : rank sel T j ≤ rank sel T k := by
  unfold rank
  have : T.take k = T.take j ++ (T.take k).drop j := by
    have := List.take_append_drop j (T.take k)
    rw [List.take_take, Nat.min_eq_left h] at this
    exact this.symm
  rw [this, List.filterMap_append, List.length_append]
  omega

theorem At.lt {X E : Type} {sel : X → Option E} {T : List X} {j i j' i' : Nat} {e e' : E} (h : At sel T j i e) (h' : At sel T j' i' e') (hl : i < i') : j < j' := by
  obtain ⟨_, _, _, rfl⟩ := h
  obtain ⟨_, _, _, rfl⟩ := h'
  rcases Nat.lt_or_ge j j' with h | h
  · exact h
  · have := rank_mono (sel := sel) (T := T) h
    omega

theorem At.mono {X E : Type} {sel : X → Option E} {T : List X} {j i j' i' : Nat} {e e' : E} (h : At sel T j i e) (h' : At sel T j' i' e') (hl : j < j') : i < i' := by
  obtain ⟨x, h1, h2, rfl⟩ := h
  obtain ⟨_, _, _, rfl⟩ := h'
  have h3 : rank sel T (j + 1) ≤ rank sel T j' := rank_mono hl
  have h4 : rank sel T (j + 1) = rank sel T j + 1 := by
    unfold rank
    rw [List.take_add_one, h1]
    simp [h2]
  omega

theorem At.take {X E : Type} {sel : X → Option E} {T : List X} {j i : Nat} {e : E} (h : At sel T j i e) : (T.take j).filterMap sel = (T.filterMap sel).take i := by
  obtain ⟨x, h1, h2, rfl⟩ := h
  have hf : T.filterMap sel = (T.take j).filterMap sel ++ (T.drop j).filterMap sel := by
    conv => lhs; rw [← List.take_append_drop j T]
    rw [List.filterMap_append]
  unfold rank
  rw [hf, List.take_left]

theorem At.uniq {X E : Type} {sel : X → Option E} {T : List X} {j i j' : Nat} {e e' : E} (h : At sel T j i e) (h' : At sel T j' i e') : j = j' := by
  rcases Nat.lt_trichotomy j j' with hl | hl | hl
  · have := h.mono h' hl; omega
  · exact hl
  · have := h'.mono h hl; omega

section
variable [DecidableEq S] [DecidableEq S'] {X : Type}

/-- `T.filterMap sel` is a part of `T.map full`, and nobody else sends or receives on its channels. -/
structure View (full : X → Event G' L' S') (sel : X → Option (Event G L S)) (fg : G → G') (fl : L → L') (fs : S → S') (C : S → Prop) (T : List X) : Prop where
  same : ∀ x ∈ T, ∀ e, sel x = some e → full x = e.map fg fl fs
  inj : ∀ c d, fs c = fs d → c = d
  chans : ∀ x ∈ T, ∀ e, sel x = some e → ∀ c, e.act = .send c ∨ e.act = .recv c → C c
  alone : ∀ x ∈ T, ∀ c, C c → (full x).act = .send (fs c) ∨ (full x).act = .recv (fs c) → (sel x).isSome = true

variable {full : X → Event G' L' S'} {sel : X → Option (Event G L S)} {fg : G → G'} {fl : L → L'} {fs : S → S'} {C : S → Prop} {T : List X}

theorem View.sends (h : View full sel fg fl fs C T) {c : S} (hc : C c) {U : List X} (hU : ∀ x ∈ U, x ∈ T) : Race.sends (U.map full) (fs c) = Race.sends (U.filterMap sel) c := by
  induction U with
  | nil => rfl
  | cons x U ih =>
    have ih := ih fun y hy => hU y (List.mem_cons_of_mem _ hy)
    have hx := hU x List.mem_cons_self
    cases hs : sel x with
    | none =>
      rw [List.filterMap_cons_none hs, List.map_cons]
      unfold Race.sends at ih ⊢
      rw [List.countP_cons, ih]
      have : ¬ (full x).act = .send (fs c) := fun hn => by
        have := h.alone x hx c hc (Or.inl hn)
        rw [hs] at this; cases this
      generalize (full x).act = a at this
      cases a with
      | send d =>
        have hd : ¬ d = fs c := fun hd => this (by rw [hd])
        simp [hd]
      | _ => simp
    | some e =>
      rw [List.filterMap_cons_some hs, List.map_cons]
      unfold Race.sends at ih ⊢
      rw [List.countP_cons, List.countP_cons, ih, h.same x hx e hs]
      obtain ⟨g, a⟩ := e
      cases a with
      | send d =>
        simp only [Event.map, Act.map]
        by_cases hd : d = c
        · subst hd; simp
        · have : ¬ fs d = fs c := fun hf => hd (h.inj _ _ hf)
          simp [hd, this]
      | _ => simp [Event.map, Act.map]

theorem View.recvs (h : View full sel fg fl fs C T) {c : S} (hc : C c) {U : List X} (hU : ∀ x ∈ U, x ∈ T) : Race.recvs (U.map full) (fs c) = Race.recvs (U.filterMap sel) c := by
  induction U with
  | nil => rfl
  | cons x U ih =>
    have ih := ih fun y hy => hU y (List.mem_cons_of_mem _ hy)
    have hx := hU x List.mem_cons_self
    cases hs : sel x with
    | none =>
      rw [List.filterMap_cons_none hs, List.map_cons]
      unfold Race.recvs at ih ⊢
      rw [List.countP_cons, ih]
      have : ¬ (full x).act = .recv (fs c) := fun hn => by
        have := h.alone x hx c hc (Or.inr hn)
        rw [hs] at this; cases this
      generalize (full x).act = a at this
      cases a with
      | recv d =>
        have hd : ¬ d = fs c := fun hd => this (by rw [hd])
        simp [hd]
      | _ => simp
    | some e =>
      rw [List.filterMap_cons_some hs, List.map_cons]
      unfold Race.recvs at ih ⊢
      rw [List.countP_cons, List.countP_cons, ih, h.same x hx e hs]
      obtain ⟨g, a⟩ := e
      cases a with
      | recv d =>
        simp only [Event.map, Act.map]
        by_cases hd : d = c
        · subst hd; simp
        · have : ¬ fs d = fs c := fun hf => hd (h.inj _ _ hf)
          simp [hd, this]
      | _ => simp [Event.map, Act.map]

theorem View.at (h : View full sel fg fl fs C T) {j i : Nat} {e : Event G L S} (ha : At sel T j i e) : (T.map full)[j]? = some (e.map fg fl fs) := by
  obtain ⟨x, h1, h2, _⟩ := ha
  rw [List.getElem?_map, h1, Option.map_some, h.same x (List.mem_of_getElem? h1) e h2]

/-- What is known in the part of the channels of its messages. -/
theorem View.chan (h : View full sel fg fl fs C T) {j i : Nat} {e : Event G L S} (ha : At sel T j i e) {c : S} (hc : e.act = .send c ∨ e.act = .recv c) : C c := by
  obtain ⟨x, h1, h2, _⟩ := ha
  exact h.chans x (List.mem_of_getElem? h1) e h2 c hc

theorem View.sends_take (h : View full sel fg fl fs C T) {j i : Nat} {e : Event G L S} (ha : At sel T j i e) {c : S} (hc : C c) :
    Race.sends ((T.map full).take j) (fs c) = Race.sends ((T.filterMap sel).take i) c := by
  rw [← List.map_take, ← ha.take]
  exact h.sends hc fun x hx => List.mem_of_mem_take hx

theorem View.recvs_take (h : View full sel fg fl fs C T) {j i : Nat} {e : Event G L S} (ha : At sel T j i e) {c : S} (hc : C c) :
    Race.recvs ((T.map full).take j) (fs c) = Race.recvs ((T.filterMap sel).take i) c := by
  rw [← List.map_take, ← ha.take]
  exact h.recvs hc fun x hx => List.mem_of_mem_take hx

/-- What happens before what in the part does so in the whole. -/
theorem View.hb (h : View full sel fg fl fs C T) {cap : S → Nat} {cap' : S' → Nat} (hcap : ∀ c, C c → cap' (fs c) = cap c) {i i' : Nat}
    (hb : HB cap (T.filterMap sel) i i') : ∀ {j j' e e'}, At sel T j i e → At sel T j' i' e' → HB cap' (T.map full) j j' := by
  have key : ∀ {i j : Nat} {e f : Event G L S}, (T.filterMap sel)[i]? = some f → At sel T j i e → e = f := fun h1 h2 => by
    have := h2.get; rw [h1] at this; exact (Option.some.inj this).symm
  induction hb with
  | order h1 h2 h3 h4 =>
    intro j j' e e' ha ha'
    obtain rfl := key h1 ha
    obtain rfl := key h2 ha'
    exact .order (h.at ha) (h.at ha') (ha.lt ha' h3) (congrArg fg h4)
  | go h1 h2 h3 =>
    intro j j' e e' ha ha'
    obtain rfl := key h1 ha
    obtain rfl := key h2 ha'
    exact .go (h.at ha) (h.at ha') (ha.lt ha' h3)
  | message h1 h2 h3 h4 =>
    intro j j' e e' ha ha'
    obtain rfl := key h1 ha
    obtain rfl := key h2 ha'
    have hc := h.chan ha (Or.inl rfl)
    exact .message (h.at ha) (h.at ha') (ha.lt ha' h3) (by rw [h.sends_take ha hc, h.recvs_take ha' hc]; exact h4)
  | room h1 h2 h3 h4 =>
    intro j j' e e' ha ha'
    obtain rfl := key h1 ha
    obtain rfl := key h2 ha'
    have hc := h.chan ha (Or.inr rfl)
    exact .room (h.at ha) (h.at ha') (ha.lt ha' h3) (by rw [h.recvs_take ha hc, h.sends_take ha' hc, hcap _ hc]; exact h4)
  | closed h1 h2 h3 =>
    intro j j' e e' ha ha'
    obtain rfl := key h1 ha
    obtain rfl := key h2 ha'
    exact .closed (h.at ha) (h.at ha') (ha.lt ha' h3)
  | mutex h1 h2 h3 =>
    intro j j' e e' ha ha'
    obtain rfl := key h1 ha
    obtain rfl := key h2 ha'
    exact .mutex (h.at ha) (h.at ha') (ha.lt ha' h3)
  | group h1 h2 h3 =>
    intro j j' e e' ha ha'
    obtain rfl := key h1 ha
    obtain rfl := key h2 ha'
    exact .group (h.at ha) (h.at ha') (ha.lt ha' h3)
  | atomic h1 h2 h3 =>
    intro j j' e e' ha ha'
    obtain rfl := key h1 ha
    obtain rfl := key h2 ha'
    exact .atomic (h.at ha) (h.at ha') (ha.lt ha' h3)
  | @trans i k i' hb1 hb2 ih1 ih2 =>
    intro j j' e e' ha ha'
    have hk : ∃ f, (T.filterMap sel)[k]? = some f := by
      have h1 := hb2.lt
      have h2 := lt_of_get ha'.get
      exact ⟨_, List.getElem?_eq_getElem (by omega)⟩
    obtain ⟨f, hf⟩ := hk
    obtain ⟨m, hm⟩ := exists_at hf
    exact .trans (ih1 ha hm) (ih2 hm ha')

theorem View.le (h : View full sel fg fl fs C T) {cap : S → Nat} {cap' : S' → Nat} (hcap : ∀ c, C c → cap' (fs c) = cap c) {i i' : Nat}
    (hl : Le cap (T.filterMap sel) i i') {j j' : Nat} {e e' : Event G L S} (ha : At sel T j i e) (ha' : At sel T j' i' e') : Le cap' (T.map full) j j' := by
  rcases hl with rfl | hl
  · exact Or.inl (ha.uniq ha')
  · exact Or.inr (h.hb hcap hl ha ha')

end

/-! ### Goroutines begin when they are started -/

/-- Every goroutine but `root` was started by an event before. -/
def Begun (root : G) (t : List (Event G L S)) : Prop :=
  ∀ (j : Nat) (e : Event G L S), t[j]? = some e → e.who = root ∨ ∃ (i : Nat) (g : G), i < j ∧ t[i]? = some ⟨g, .go e.who⟩

/-- The goroutine is `root`, or it was started. -/
def Started (root : G) (t : List (Event G L S)) (g : G) : Prop := g = root ∨ ∃ (i : Nat) (h : G), t[i]? = some ⟨h, .go g⟩

theorem Started.append {root : G} {t u : List (Event G L S)} {g : G} (h : Started root t g) : Started root (t ++ u) g := by
  rcases h with h | ⟨i, f, h⟩
  · exact Or.inl h
  · exact Or.inr ⟨i, f, getElem?_append h⟩

theorem Started.acts {root g h : G} {t : List (Event G L S)} {as : List (Act G L S)} (hg : .go g ∈ as) : Started root (t ++ acts h as) g := by
  have hm : (⟨h, .go g⟩ : Event G L S) ∈ t ++ Race.acts h as := List.mem_append_right _ (mem_acts.2 ⟨rfl, hg⟩)
  obtain ⟨i, hi⟩ := List.getElem?_of_mem hm
  exact Or.inr ⟨i, h, hi⟩

theorem Begun.append {root : G} {t u : List (Event G L S)} (h : Begun root t) (hu : ∀ e ∈ u, Started root t e.who) : Begun root (t ++ u) := by
  intro j e he
  rcases at_append he with h1 | ⟨h1, h2⟩
  · rcases h j e h1 with h3 | ⟨i, g, h3, h4⟩
    · exact Or.inl h3
    · exact Or.inr ⟨i, g, h3, getElem?_append h4⟩
  · rcases hu e (List.mem_of_getElem? h2) with h3 | ⟨i, g, h3⟩
    · exact Or.inl h3
    · exact Or.inr ⟨i, g, by have := lt_of_get h3; omega, getElem?_append h3⟩

theorem begun_nil {root : G} : Begun (L := L) (S := S) root [] := by intro j e h; simp at h

/-- Everything is later than something that the first goroutine does. -/
theorem Begun.root [DecidableEq S] {cap : S → Nat} {root : G} {t : List (Event G L S)} (h : Begun root t) {j : Nat} {e : Event G L S} (he : t[j]? = some e) :
    ∃ i f, t[i]? = some f ∧ f.who = root ∧ Le cap t i j := by
  induction j using Nat.strongRecOn generalizing e with
  | _ j ih =>
    rcases h j e he with h1 | ⟨i, g, h1, h2⟩
    · exact ⟨j, e, he, h1, Or.inl rfl⟩
    · obtain ⟨k, f, h3, h4, h5⟩ := ih i h1 h2
      exact ⟨k, f, h3, h4, Or.inr (h5.hb (.go h2 he h1))⟩

end Verif.Conc.Race
