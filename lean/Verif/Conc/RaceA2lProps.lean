import Verif.Conc.RaceA2lProofs
import Verif.Conc.RaceCheck
import Verif.Conc.A2lRunProps

/-! Data races of the A2L parser (C90). -/

namespace Verif.Conc.Race.A2l
open Verif.Go Verif.A2l Lang Verif.Conc.A2lRun

/-- C90: no execution of `ParseFromFile`, whatever the text and the order of the steps of the goroutines, has a data race: not in the
tokenizer with its counter and its list of tokens, and not in the module parser with its 27 collectors. -/
theorem C90_a2l (cap : Sy → Nat) (I : Input) (os : List Op) : ¬ Racy cap (trace I os) := not_racy I os

/-- In the run of the small module two goroutines count modules, what a worker of the module parser has made is seen by the collector, and what
the collector has written is read by the main goroutine. -/
example : (run small (A2lRun.init small) smallRun).isSome = true ∧
    ⟨.tok 0, .atomic .moduleCount⟩ ∈ trace small smallRun ∧ ⟨.tok 1, .atomic .moduleCount⟩ ∈ trace small smallRun ∧
    ⟨.par 0 0, .write (.object 0 11 0)⟩ ∈ trace small smallRun ∧ ⟨.coll 0 11, .read (.object 0 11 0)⟩ ∈ trace small smallRun ∧
    ⟨.coll 0 11, .write (.field 0 (fieldOf 11))⟩ ∈ trace small smallRun ∧ ⟨.rdA, .read (.field 0 (fieldOf 11))⟩ ∈ trace small smallRun ∧
    ¬ Racy (fun _ => 1) (trace small smallRun) :=
  ⟨by decide +kernel, by decide +kernel, by decide +kernel, by decide +kernel, by decide +kernel, by decide +kernel, by decide +kernel, C90_a2l _ _ _⟩

/-- Counting the modules has to be atomic (a2l/token_generator.go:126). -/
theorem C90_atomic_needed : ∃ I os, Racy (fun _ => 1) ((trace I os).map fun e => if e.act = .atomic .moduleCount then ⟨e.who, .write .moduleCount⟩ else e) :=
  ⟨small, smallRun.take 2, racy_of_races (i := 8) (j := 14) (by decide +kernel)⟩

/-- Waiting for the collectors (a2l/module.go:657) is needed: without it the main goroutine reads a field while the collector writes it. -/
theorem C90_collectors_needed : ∃ I os, Racy (fun _ => 1) ((trace I os).filter fun e => decide (e.act ≠ .wait (.wgCol 0))) :=
  ⟨small, smallRun, racy_of_races (i := 179) (j := 273) (by decide +kernel)⟩

/-- A module with a group and a unit. -/
def mixed : Input := ⟨1, fun _ => true, fun _ => true,
  "/begin PROJECT P \"p\"\n/begin MODULE M \"m\" /begin GROUP G \"g\" /end GROUP /begin UNIT U \"u\" \"v\" DERIVED /end UNIT\n/end MODULE\n/end PROJECT".toList⟩

/-- Both objects are sent and received. -/
def mixedRun : List Op :=
  [.chan (.send 0), .chan (.close 0), .chan .recv, .chan .advance, .main, .call 3, .coll (.send 0), .coll (.send 0), .coll (.recv 11), .coll (.recv 24)]

/-- The collectors have to write different fields (a2l/module.go:468-655): if that of the units wrote the field of the groups, there would be a
race. -/
theorem C90_fields_needed : ∃ I os, Racy (fun _ => 1) ((trace I os).map fun e => match e.act with
    | .write (.field q f) => if f = fieldOf 24 then ⟨e.who, .write (.field q (fieldOf 11))⟩ else e
    | _ => e) :=
  ⟨mixed, mixedRun, racy_of_races (i := 101) (j := 108) (by decide +kernel)⟩

-- in the run both fields are written, by two goroutines
example : (run mixed (A2lRun.init mixed) mixedRun).isSome = true ∧ (trace mixed mixedRun)[101]? = some ⟨.coll 0 11, .write (.field 0 (fieldOf 11))⟩ ∧
    (trace mixed mixedRun)[108]? = some ⟨.coll 0 24, .write (.field 0 (fieldOf 24))⟩ := ⟨by decide +kernel, by decide +kernel, by decide +kernel⟩

/-! ### Two calls at the same time -/

/-- Variables of the package are the same in both calls. -/
def Loc.global : Loc → Bool
  | .tokenList | .moduleCount | .multithreading | .logger => true
  | _ => false

/-- The goroutines, memory and channels of two calls: `none` is the goroutine that starts both. -/
def mark (b : Bool) (e : Ev) : Event (Option (Bool × G)) (Bool × Loc) (Bool × Sy) :=
  let m : Loc → Bool × Loc := fun l => (if Loc.global l then false else b, l)
  ⟨some (b, e.who), match e.act with
    | .read l => .read (m l)
    | .write l => .write (m l)
    | .atomic l => .atomic (m l)
    | .go g => .go (some (b, g))
    | .send c => .send (b, c)
    | .recv c => .recv (b, c)
    | .close c => .close (b, c)
    | .closed c => .closed (b, c)
    | .lock c => .lock (b, c)
    | .unlock c => .unlock (b, c)
    | .done c => .done (b, c)
    | .wait c => .wait (b, c)⟩

/-- `t` is `u` and `v` in some order. -/
inductive Mix {α : Type} : List α → List α → List α → Prop
  | nil : Mix [] [] []
  | left {x u v t} : Mix u v t → Mix (x :: u) v (x :: t)
  | right {x u v t} : Mix u v t → Mix u (x :: v) (x :: t)

abbrev Ev2 := Event (Option (Bool × G)) (Bool × Loc) (Bool × Sy)

/-- Somebody starts two goroutines, and each of them calls `ParseFromFile`. -/
def Overlap (I J : Input) (os os' : List Op) (t : List Ev2) : Prop :=
  ∃ u, Mix ((trace I os).map (mark false)) ((trace J os').map (mark true)) u ∧
    t = ⟨none, .go (some (false, .rdA))⟩ :: ⟨none, .go (some (true, .rdA))⟩ :: u

theorem Mix.symm {α : Type} {u v t : List α} (h : Mix u v t) : Mix v u t := by
  induction h with
  | nil => exact .nil
  | left _ ih => exact .right ih
  | right _ ih => exact .left ih

/-- The elements of the two lists at their places in the mixture. -/
theorem Mix.place {α : Type} {u v t : List α} (h : Mix u v t) : ∃ f g : Nat → Nat, (∀ i x, u[i]? = some x → t[f i]? = some x) ∧
    (∀ i x, v[i]? = some x → t[g i]? = some x) ∧ (∀ i j, i < j → f i < f j) ∧ (∀ i j, i < j → g i < g j) ∧
    ∀ i x, t[i]? = some x → (∃ j, f j = i ∧ u[j]? = some x) ∨ ∃ j, g j = i ∧ v[j]? = some x := by
  induction h with
  | nil => exact ⟨id, id, by simp, by simp, fun _ _ h => h, fun _ _ h => h, by simp⟩
  | @left x u v t _ ih =>
    obtain ⟨f, g, h1, h2, h3, h4, h5⟩ := ih
    refine ⟨fun i => match i with | 0 => 0 | i + 1 => f i + 1, fun i => g i + 1, ?_, ?_, ?_, ?_, ?_⟩
    · intro i y hy
      cases i with
      | zero => simpa using hy
      | succ i => simpa using h1 i y (by simpa using hy)
    · intro i y hy; simpa using h2 i y hy
    · intro i j hij
      cases i with
      | zero => cases j with | zero => omega | succ j => simp
      | succ i => cases j with
        | zero => omega
        | succ j => have := h3 i j (by omega); simp; omega
    · intro i j hij; have := h4 i j hij; simp only; omega
    · intro i y hy
      cases i with
      | zero => exact Or.inl ⟨0, rfl, by simpa using hy⟩
      | succ i =>
        rcases h5 i y (by simpa using hy) with ⟨j, rfl, h6⟩ | ⟨j, rfl, h6⟩
        · exact Or.inl ⟨j + 1, rfl, by simpa using h6⟩
        · exact Or.inr ⟨j, rfl, h6⟩
  | @right x u v t _ ih =>
    obtain ⟨f, g, h1, h2, h3, h4, h5⟩ := ih
    refine ⟨fun i => f i + 1, fun i => match i with | 0 => 0 | i + 1 => g i + 1, ?_, ?_, ?_, ?_, ?_⟩
    · intro i y hy; simpa using h1 i y hy
    · intro i y hy
      cases i with
      | zero => simpa using hy
      | succ i => simpa using h2 i y (by simpa using hy)
    · intro i j hij; have := h3 i j hij; simp only; omega
    · intro i j hij
      cases i with
      | zero => cases j with | zero => omega | succ j => simp
      | succ i => cases j with
        | zero => omega
        | succ j => have := h4 i j (by omega); simp; omega
    · intro i y hy
      cases i with
      | zero => exact Or.inr ⟨0, rfl, by simpa using hy⟩
      | succ i =>
        rcases h5 i y (by simpa using hy) with ⟨j, rfl, h6⟩ | ⟨j, rfl, h6⟩
        · exact Or.inl ⟨j, rfl, h6⟩
        · exact Or.inr ⟨j + 1, rfl, by simpa using h6⟩

/-- If a goroutine has done nothing but read and write, and the one that has started it nothing but `go`, then nothing of others happens before
what they have done. -/
theorem hb_into {cap : Bool × Sy → Nat} {t : List Ev2} {g : Option (Bool × G)} {m : Nat}
    (hfirst : ∀ (i : Nat) (e : Ev2), t[i]? = some e → i ≤ m → e.who = g → ∃ l, e.act = .read l ∨ e.act = .write l)
    (hgo : ∀ (i : Nat) (e : Ev2), t[i]? = some e → e.act = .go g → e.who = none)
    (hroot : ∀ (i : Nat) (e : Ev2), t[i]? = some e → e.who = none → ∃ g', e.act = .go g') (hno : ∀ (i : Nat) (e : Ev2), t[i]? = some e → e.act ≠ .go none)
    {i j : Nat} (hb : HB cap t i j) : j ≤ m → (∃ f, t[j]? = some f ∧ (f.who = g ∨ f.who = none)) → ∃ e, t[i]? = some e ∧ (e.who = g ∨ e.who = none) := by
  have key : ∀ {j : Nat} {h : Option (Bool × G)} {a : Act (Option (Bool × G)) (Bool × Loc) (Bool × Sy)}, t[j]? = some ⟨h, a⟩ → j ≤ m → h = g ∨ h = none →
      (∃ l, a = .read l ∨ a = .write l) ∨ ∃ g', a = .go g' := fun {j h a} h1 h2 h3 => by
    rcases h3 with h3 | h3
    · exact Or.inl (hfirst j _ h1 h2 h3)
    · exact Or.inr (hroot j _ h1 h3)
  induction hb with
  | order h1 h2 h3 h4 =>
    rintro hm ⟨f, hf, hw⟩
    rw [h2] at hf; cases hf
    exact ⟨_, h1, by rw [h4]; exact hw⟩
  | @go i j g' f' h1 h2 h3 =>
    rintro hm ⟨f, hf, hw⟩
    rw [h2] at hf; cases hf
    rcases hw with hw | hw
    · exact ⟨_, h1, Or.inr (hgo _ _ h1 (by rw [hw]))⟩
    · exact absurd (by rw [hw] : (Act.go f'.who : Act (Option (Bool × G)) (Bool × Loc) (Bool × Sy)) = .go none) (hno _ _ h1)
  | trans a b ih1 ih2 =>
    intro hm hw
    obtain ⟨e, he, hw⟩ := ih2 hm hw
    exact ih1 (by have := b.lt; omega) ⟨e, he, hw⟩
  | message h1 h2 h3 h4 | room h1 h2 h3 h4 | closed h1 h2 h3 | mutex h1 h2 h3 | group h1 h2 h3 | atomic h1 h2 h3 =>
    rintro hm ⟨f, hf, hw⟩
    rw [h2] at hf; cases hf
    rcases key h2 hm hw with ⟨l, h | h⟩ | ⟨g', h⟩ <;> cases h

/-- What a call does first. -/
theorem trace_head (I : Input) (os : List Op) : ∃ u, trace I os =
    ⟨.rdA, .read .logger⟩ :: ⟨.rdA, .write .a2lLines⟩ :: ⟨.rdA, .write .moduleCount⟩ :: ⟨.rdA, .write .tokenList⟩ :: u := ⟨_, rfl⟩

theorem trace_own {I : Input} {os : List Op} : ∀ e ∈ trace I os, a2lG e.who ∧ Fine e.act := fun e he => by
  rcases List.mem_append.1 he with he | he
  · exact startEvents_own e he
  · exact traceFrom_own e he

theorem mark_go {b : Bool} {e : Ev} {x : Option (Bool × G)} (h : (mark b e).act = .go x) : ∃ g, e.act = .go g ∧ x = some (b, g) := by
  obtain ⟨w, a⟩ := e
  cases a <;> cases h
  exact ⟨_, rfl, rfl⟩

/-- C90 for two calls at the same time: whatever the texts and the order of the steps, they have a data race, on `tokenList`. -/
theorem C90_overlap_false {I J : Input} {os os' : List Op} {t : List Ev2} (cap : Bool × Sy → Nat) (h : Overlap I J os os' t) : Racy cap t := by
  -- the call that is the second one to write `tokenList` is `c`
  have key : ∀ (c : Bool) (I J : Input) (os os' : List Op) (u : List Ev2) (f g : Nat → Nat),
      (∀ i x, ((trace I os).map (mark (!c)))[i]? = some x → u[f i]? = some x) →
      (∀ i x, ((trace J os').map (mark c))[i]? = some x → u[g i]? = some x) → (∀ i j, i < j → g i < g j) →
      (∀ i x, u[i]? = some x → (∃ j, f j = i ∧ ((trace I os).map (mark (!c)))[j]? = some x) ∨ ∃ j, g j = i ∧ ((trace J os').map (mark c))[j]? = some x) →
      f 3 < g 3 → Racy cap (⟨none, .go (some (false, .rdA))⟩ :: ⟨none, .go (some (true, .rdA))⟩ :: u) := by
    intro c I J os os' u f g h1 h2 h4 h5 hlt
    obtain ⟨v, hv⟩ := trace_head I os
    obtain ⟨w, hw⟩ := trace_head J os'
    have hi : u[f 3]? = some (mark (!c) ⟨.rdA, .write .tokenList⟩) := h1 3 _ (by rw [hv]; rfl)
    have hj : u[g 3]? = some (mark c ⟨.rdA, .write .tokenList⟩) := h2 3 _ (by rw [hw]; rfl)
    have hin : ∀ (i : Nat) (e : Ev2), (⟨none, .go (some (false, .rdA))⟩ :: ⟨none, .go (some (true, .rdA))⟩ :: u)[i]? = some e →
        (e.who = none ∧ ∃ b, e.act = .go (some (b, .rdA))) ∨ ∃ k, i = k + 2 ∧ u[k]? = some e := by
      intro i e h
      match i with
      | 0 => cases h; exact Or.inl ⟨rfl, _, rfl⟩
      | 1 => cases h; exact Or.inl ⟨rfl, _, rfl⟩
      | k + 2 => exact Or.inr ⟨k, rfl, h⟩
    have hmark : ∀ (k : Nat) (e : Ev2), u[k]? = some e → ∃ b e', e = mark b e' ∧ Fine e'.act := by
      intro k e h
      rcases h5 k e h with ⟨j, _, h⟩ | ⟨j, _, h⟩
      all_goals
        rw [List.getElem?_map, Option.map_eq_some_iff] at h
        obtain ⟨e', h6, rfl⟩ := h
        exact ⟨_, e', rfl, (trace_own e' (List.mem_of_getElem? h6)).2⟩
    refine ⟨f 3 + 2, g 3 + 2, _, _, hi, hj, by omega, ?_, ⟨(false, .tokenList), .write, .write, rfl, rfl, nofun, nofun⟩, fun hb => ?_, fun hb => ?_⟩
    · intro h; simp [mark] at h
    · have hx : ∃ e : Ev2, u[f 3]? = some e ∧ (e.who = some (c, .rdA) ∨ e.who = none) := by
        refine hb_into (t := ⟨none, .go (some (false, .rdA))⟩ :: ⟨none, .go (some (true, .rdA))⟩ :: u) (i := f 3 + 2) (g := some (c, .rdA)) (m := g 3 + 2) ?_ ?_ ?_ ?_ hb (Nat.le_refl _) ⟨_, hj, Or.inl rfl⟩
        · intro i e he hle hwho
          rcases hin i e he with ⟨h, _⟩ | ⟨k, rfl, he⟩
          · rw [h] at hwho; cases hwho
          · rcases h5 k e he with ⟨j, _, h⟩ | ⟨j, rfl, h⟩
            · rw [List.getElem?_map, Option.map_eq_some_iff] at h
              obtain ⟨e', _, rfl⟩ := h
              simp [mark] at hwho
            · have hj3 : j ≤ 3 := by
                rcases Nat.lt_or_ge 3 j with h' | h'
                · have := h4 3 j h'; omega
                · exact h'
              rw [hw] at h
              match j with
              | 0 => cases h; exact ⟨_, Or.inl rfl⟩
              | 1 => cases h; exact ⟨_, Or.inr rfl⟩
              | 2 => cases h; exact ⟨_, Or.inr rfl⟩
              | 3 => cases h; exact ⟨_, Or.inr rfl⟩
        · intro i e he hgo
          rcases hin i e he with ⟨h, _⟩ | ⟨k, rfl, he⟩
          · exact h
          · obtain ⟨b, e', rfl, hf⟩ := hmark k e he
            obtain ⟨g', h6, h7⟩ := mark_go hgo
            cases h7
            exact absurd rfl (hf.2.2 _ h6).2
        · intro i e he hwho
          rcases hin i e he with ⟨_, b, h⟩ | ⟨k, rfl, he⟩
          · exact ⟨_, h⟩
          · obtain ⟨b, e', rfl, hf⟩ := hmark k e he
            cases hwho
        · intro i e he hgo
          rcases hin i e he with ⟨_, b, h⟩ | ⟨k, rfl, he⟩
          · rw [h] at hgo; cases hgo
          · obtain ⟨b, e', rfl, hf⟩ := hmark k e he
            obtain ⟨g', _, h7⟩ := mark_go hgo
            cases h7
      obtain ⟨e, he, hwho⟩ := hx
      rw [hi] at he
      cases he
      rcases hwho with h | h <;> simp [mark] at h
    · have := hb.lt; omega
  obtain ⟨u, hm, rfl⟩ := h
  obtain ⟨f, g, h1, h2, h3, h4, h5⟩ := hm.place
  rcases Nat.lt_trichotomy (f 3) (g 3) with h | h | h
  · exact key true I J os os' u f g h1 h2 h4 h5 h
  · obtain ⟨v, hv⟩ := trace_head I os
    obtain ⟨w, hw⟩ := trace_head J os'
    have hi := h1 3 _ (by rw [hv]; rfl)
    have hj := h2 3 _ (by rw [hw]; rfl)
    rw [h, hj] at hi
    cases hi
  · exact key false J I os' os u g f h2 h1 h3 (fun i x hx => (h5 i x hx).symm) h

-- two calls one after the other, without anybody waiting: such executions exist
example (I J : Input) (os os' : List Op) : Overlap I J os os'
    (⟨none, .go (some (false, .rdA))⟩ :: ⟨none, .go (some (true, .rdA))⟩ :: ((trace I os).map (mark false) ++ (trace J os').map (mark true))) := by
  refine ⟨_, ?_, rfl⟩
  generalize (trace I os).map (mark false) = u
  generalize (trace J os').map (mark true) = v
  induction u with
  | nil =>
    induction v with
    | nil => exact .nil
    | cons x v ih => exact .right ih
  | cons x u ih => exact .left ih

end Verif.Conc.Race.A2l
