import Verif.Conc.RaceHex

/-! No execution of the hex parsers has a data race: what is known in every phase. -/

namespace Verif.Conc.Race.Hex

open Verif.Go Verif.Conc.HexRun
open Verif.Ihex (DataByte)

variable {R : Type} {cap : Sy → Nat}

/-- The goroutines of the hex parser. -/
def hexG : G → Prop
  | .rdH | .line _ | .chk _ | .off _ | .data _ => True
  | _ => False

/-- The memory of the hex parser. -/
def hexL : Loc → Prop
  | .hexLines | .hexRecs | .batch _ _ | .fixed _ | .offs _ | .bytes _ _ | .hexMap => True
  | _ => False

theorem recPipe_distinct : recPipe.Distinct where
  wk := fun h => G.line.inj h
  ch := fun h => Sy.recs.inj h
  bt := fun h => Loc.batch.inj h
  c := fun _ => nofun

theorem datPipe_distinct : datPipe.Distinct where
  wk := fun h => G.data.inj h
  ch := fun h => Sy.dat.inj h
  bt := fun h => Loc.bytes.inj h
  c := fun _ => nofun

/-- The event belongs to other goroutines and to nothing that the hex parser uses. -/
def Foreign (e : Ev) : Prop := ¬ hexG e.who ∧ recPipe.Apart e.act ∧ datPipe.Apart e.act

theorem own_past {t : Trace} {g : G} {i : Nat} {e : Ev} (h : t[i]? = some e) (hg : e.who = g) : Past cap t g i := by subst hg; exact Past.own h

/-- Goroutines that are started know what the one that starts them knows. -/
theorem Past.forks {t : Trace} {g : G} {i : Nat} : ∀ {gs : List G}, Past cap t g i → ∀ g' ∈ gs, Past cap (t ++ acts g (gs.map .go)) g' i := by
  intro gs
  induction gs generalizing t with
  | nil => intro _ g' h; cases h
  | cons a gs ih =>
    intro h g' hg
    rw [List.map_cons, acts_cons, ← List.append_assoc]
    rcases List.mem_cons.1 hg with rfl | hg
    · exact h.go.append
    · exact ih h.append g' hg

theorem acc_eq {l l' : Loc} {x x' : Kind} {a : A} (h : a.access = some (l, x)) (h' : a.access = some (l', x')) : l' = l ∧ x' = x := by
  rw [h] at h'; cases h'; exact ⟨rfl, rfl⟩

/-! ### While lines are parsed -/

/-- What a goroutine that parses lines accesses. -/
def LineLoc (rss : List (List R)) (k : Nat) (l : Loc) (x : Kind) : Prop :=
  ((l = .hexLines ∨ l = .logger) ∧ x = .read) ∨ (∃ r ∈ made rss k, (l = .fixed r ∨ l = .offs r) ∧ x = .write) ∨ ∃ m, l = .batch k m ∧ x = .write

structure InvP (cap : Sy → Nat) (n : Nat) (rss : List (List R)) (p : Pipeline.State (List R)) (t : Trace) : Prop where
  pipe : PipeInv cap recPipe p t
  len : p.ws.length = n
  free : Free cap hexG t
  who : ∀ {i : Nat} {e : Ev}, t[i]? = some e → hexG e.who → e.who = .rdH ∨ ∃ k, k < n ∧ e.who = .line k
  line : ∀ {i : Nat} {e : Ev} {k : Nat} {l : Loc} {x : Kind}, t[i]? = some e → e.who = .line k → e.act.access = some (l, x) → LineLoc rss k l x
  main : ∀ {i : Nat} {e : Ev} {l : Loc} {x : Kind}, t[i]? = some e → e.who = .rdH → e.act.access = some (l, x) →
    l = .hexRecs ∨ l = .hexMap ∨ (∃ k m, l = .batch k m) ∨ (l = .hexLines ∧ ∀ k, k < n → Past cap t (.line k) i)
  dat : ∀ e ∈ t, (∀ k, e.who ≠ .data k) ∧ datPipe.Apart e.act

theorem range'_disjoint {α : Type} {rss : List (List α)} {j k r : Nat} (hj : r ∈ made rss j) (hk : r ∈ made rss k) : j = k := by
  have key : ∀ a b, a < b → r ∈ made rss a → r ∈ made rss b → False := by
    intro a b hab ha hb
    simp only [made, List.mem_range'_1] at ha hb
    have : (rss.take a).flatten.length + (rss[a]?.getD []).length ≤ (rss.take b).flatten.length := by
      have h1 : (rss.take (a + 1)).flatten.length ≤ (rss.take b).flatten.length := by
        have : rss.take b = rss.take (a + 1) ++ (rss.drop (a + 1)).take (b - (a + 1)) := by
          rw [← List.take_add]; congr 1; omega
        rw [this, List.flatten_append, List.length_append]; omega
      have h2 : (rss.take (a + 1)).flatten.length = (rss.take a).flatten.length + (rss[a]?.getD []).length := by
        rw [List.take_add_one, List.flatten_append, List.length_append]
        cases rss[a]? <;> simp
      omega
    omega
  rcases Nat.lt_trichotomy j k with h | h | h
  · exact absurd hk (fun hk => key j k h hj hk)
  · exact h
  · exact absurd hj (fun hj => key k j h hk hj)

theorem lineActs_access {rss : List (List R)} {k : Nat} {a : A} (h : a ∈ lineActs rss k) : ∃ l x, a.access = some (l, x) ∧
    (((l = .hexLines ∨ l = .logger) ∧ x = .read) ∨ ∃ r ∈ made rss k, (l = .fixed r ∨ l = .offs r) ∧ x = .write) := by
  simp only [lineActs, List.mem_cons, List.mem_flatMap, List.not_mem_nil, or_false] at h
  rcases h with rfl | rfl | ⟨r, hr, rfl | rfl⟩
  · exact ⟨_, _, rfl, Or.inl ⟨Or.inr rfl, rfl⟩⟩
  · exact ⟨_, _, rfl, Or.inl ⟨Or.inl rfl, rfl⟩⟩
  · exact ⟨_, _, rfl, Or.inr ⟨r, hr, Or.inl rfl, rfl⟩⟩
  · exact ⟨_, _, rfl, Or.inr ⟨r, hr, Or.inr rfl, rfl⟩⟩

/-- An access to memory is no operation on a channel. -/
theorem apart_of_access {Q : Pipe G Loc Sy} {a : A} {l : Loc} {x : Kind} (h : a.access = some (l, x)) (hl : ∀ k m, l ≠ Q.bt k m) : Q.Apart a := by
  refine ⟨fun k => ⟨?_, ?_⟩, fun k m y h' => ?_⟩
  · rintro rfl; cases h
  · rintro rfl; cases h
  · rw [h] at h'
    exact hl k m (congrArg Prod.fst (Option.some.inj h'))

theorem InvP.step {n : Nat} {rss : List (List R)} {p p' : Pipeline.State (List R)} {t : Trace} (h : InvP cap n rss p t) {o : Pipeline.Op}
    (hs : Pipeline.step p o = some p') : InvP cap n rss p' (t ++ recPipe.events (lineActs rss) recGot p o) := by
  have hloc : ∀ k, k < p.ws.length → ∀ a ∈ lineActs rss k, recPipe.Apart a ∧ Clear cap hexG t (recPipe.wk k) a := by
    intro k hk a ha
    obtain ⟨l, x, hl, hx⟩ := lineActs_access ha
    refine ⟨apart_of_access hl fun k' m => ?_, ?_⟩
    · rcases hx with ⟨rfl | rfl, _⟩ | ⟨r, _, rfl | rfl, _⟩ <;> exact nofun
    · rintro i f h1 h2 h3 ⟨l', y, z, h4, h5, h6, h7⟩
      obtain ⟨rfl, rfl⟩ := acc_eq hl h5
      rcases h.who h1 h2 with hw | ⟨j, hj, hw⟩
      · rcases h.main h1 hw h4 with rfl | rfl | ⟨_, _, rfl⟩ | ⟨rfl, hp⟩
        · rcases hx with ⟨h | h, _⟩ | ⟨r, _, h | h, _⟩ <;> cases h
        · rcases hx with ⟨h | h, _⟩ | ⟨r, _, h | h, _⟩ <;> cases h
        · rcases hx with ⟨h | h, _⟩ | ⟨r, _, h | h, _⟩ <;> cases h
        · exact hp k (h.len ▸ hk)
      · have hjk : j ≠ k := by rintro rfl; exact h3 hw
        rcases h.line h1 hw h4 with ⟨hl', rfl⟩ | ⟨r, hr, hl', rfl⟩ | ⟨m, hl', rfl⟩
        · rcases hx with ⟨_, rfl⟩ | ⟨r, _, h | h, _⟩
          · exact absurd ⟨rfl, rfl⟩ h6
          · rw [h] at hl'; rcases hl' with h | h <;> cases h
          · rw [h] at hl'; rcases hl' with h | h <;> cases h
        · rcases hx with ⟨rfl | rfl, _⟩ | ⟨r', hr', h | h, _⟩
          · rcases hl' with h | h <;> cases h
          · rcases hl' with h | h <;> cases h
          · rw [h] at hl'
            rcases hl' with h | h
            · cases h; exact absurd (range'_disjoint hr hr') hjk
            · cases h
          · rw [h] at hl'
            rcases hl' with h | h
            · cases h
            · cases h; exact absurd (range'_disjoint hr hr') hjk
        · rw [hl'] at hx
          rcases hx with ⟨h | h, _⟩ | ⟨r, _, h | h, _⟩ <;> cases h
  have hgot : ∀ a ∈ recGot, recPipe.Apart a ∧ Clear cap hexG t recPipe.c a := by
    intro a ha
    have hl : ∃ x, a.access = some (.hexRecs, x) := by
      simp only [recGot, List.mem_cons, List.not_mem_nil, or_false] at ha
      rcases ha with rfl | rfl <;> exact ⟨_, rfl⟩
    obtain ⟨x, hl⟩ := hl
    refine ⟨apart_of_access hl fun k' m => nofun, ?_⟩
    rintro i f h1 h2 h3 ⟨l', y, z, h4, h5, h6, h7⟩
    obtain ⟨rfl, rfl⟩ := acc_eq hl h5
    rcases h.who h1 h2 with hw | ⟨j, hj, hw⟩
    · exact absurd hw h3
    · rcases h.line h1 hw h4 with ⟨h | h, _⟩ | ⟨r, _, h | h, _⟩ | ⟨m, h, _⟩ <;> cases h
  have hlg : ∀ k, ∀ a ∈ lineActs rss k, ∀ b ∈ recGot, ¬ Conflict a b := by
    rintro k a ha b hb ⟨l, y, z, h4, h5, _⟩
    obtain ⟨l', x, hl, hx⟩ := lineActs_access ha
    obtain ⟨rfl, rfl⟩ := acc_eq hl h4
    have : l = .hexRecs := by
      simp only [recGot, List.mem_cons, List.not_mem_nil, or_false] at hb
      rcases hb with rfl | rfl <;> cases h5 <;> rfl
    subst this
    rcases hx with ⟨h | h, _⟩ | ⟨r, _, h | h, _⟩ <;> cases h
  obtain ⟨h1, h2⟩ := h.pipe.step recPipe_distinct h.free hs hloc hgot hlg
  have hm := @Pipe.mem_events G Loc Sy _ _ recPipe p p' o hs (lineActs rss) recGot
  refine ⟨h1, (Pipe.length_step hs).trans h.len, h2, ?_, ?_, ?_, ?_⟩
  · intro i e he hg
    rcases at_append he with he | ⟨_, he⟩
    · exact h.who he hg
    · rcases hm (List.mem_of_getElem? he) with ⟨k, hk, hw, _⟩ | ⟨hw, _⟩
      · exact Or.inr ⟨k, h.len ▸ hk, hw⟩
      · exact Or.inl hw
  · intro i e k l x he hw hx
    rcases at_append he with he | ⟨_, he⟩
    · exact h.line he hw hx
    · rcases hm (List.mem_of_getElem? he) with ⟨k', hk, hw', ha⟩ | ⟨hw', _⟩
      · obtain rfl : k = k' := G.line.inj (hw.symm.trans hw')
        rcases ha with ha | ⟨m, ha⟩ | ha
        · obtain ⟨l', x', hl, hx'⟩ := lineActs_access ha
          obtain ⟨rfl, rfl⟩ := acc_eq hl hx
          rcases hx' with h | h
          · exact Or.inl h
          · exact Or.inr (Or.inl h)
        · rw [ha] at hx; cases hx; exact Or.inr (Or.inr ⟨m, rfl, rfl⟩)
        · rw [ha] at hx; cases hx
      · rw [hw] at hw'; cases hw'
  · intro i e l x he hw hx
    rcases at_append he with he | ⟨_, he⟩
    · rcases h.main he hw hx with h | h | h | ⟨h, h'⟩
      · exact Or.inl h
      · exact Or.inr (Or.inl h)
      · exact Or.inr (Or.inr (Or.inl h))
      · exact Or.inr (Or.inr (Or.inr ⟨h, fun k hk => (h' k hk).append⟩))
    · rcases hm (List.mem_of_getElem? he) with ⟨k', hk, hw', ha⟩ | ⟨hw', ha⟩
      · rw [hw] at hw'; cases hw'
      · rcases ha with ha | ⟨k, m, ha⟩ | ha
        · simp only [recGot, List.mem_cons, List.not_mem_nil, or_false] at ha
          rcases ha with ha | ha <;> rw [ha] at hx <;> cases hx <;> exact Or.inl rfl
        · rw [ha] at hx; cases hx; exact Or.inr (Or.inr (Or.inl ⟨k, m, rfl⟩))
        · rw [ha] at hx; cases hx
  · intro e he
    rcases List.mem_append.1 he with he | he
    · exact h.dat e he
    · have happ : ∀ {a : A}, (∃ l x, a.access = some (l, x) ∧ ∀ k m, l ≠ .bytes k m) → datPipe.Apart a := by
        rintro a ⟨l, x, hl, hb⟩; exact apart_of_access hl hb
      refine ⟨fun k hk => ?_, ?_⟩
      · rcases hm he with ⟨k', _, hw', _⟩ | ⟨hw', _⟩ <;> rw [hk] at hw' <;> cases hw'
      · clear h1 h2 hm hloc hgot hlg hs
        have hline : ∀ k, ∀ a ∈ lineActs rss k, datPipe.Apart a := fun k a ha => by
          obtain ⟨l, x, hl, hx⟩ := lineActs_access ha
          refine happ ⟨l, x, hl, fun k' m => ?_⟩
          rcases hx with ⟨rfl | rfl, _⟩ | ⟨r, _, rfl | rfl, _⟩ <;> exact nofun
        have hgt : ∀ a ∈ recGot, datPipe.Apart a := fun a ha => by
          simp only [recGot, List.mem_cons, List.not_mem_nil, or_false] at ha
          rcases ha with rfl | rfl <;> exact happ ⟨_, _, rfl, fun _ _ => nofun⟩
        have hq : ∀ {a : A}, a.access = none → (∀ k, a ≠ .send (.dat k) ∧ a ≠ .recv (.dat k)) → datPipe.Apart a := fun {a} h0 h1 =>
          ⟨h1, fun k m x h => by rw [h0] at h; cases h⟩
        cases o with
        | send k =>
          simp only [Pipe.events] at he
          split at he
          · simp only [mem_acts, List.mem_append, List.mem_cons, List.not_mem_nil, or_false] at he
            rcases he.2 with he | he | he
            · exact hline _ _ he
            · rw [he]; exact happ ⟨_, _, rfl, fun _ _ => nofun⟩
            · rw [he]; exact hq rfl fun _ => ⟨nofun, nofun⟩
          · cases he
        | close k =>
          simp only [Pipe.events, mem_acts, List.mem_cons, List.not_mem_nil, or_false] at he
          rw [he.2]; exact hq rfl fun _ => ⟨nofun, nofun⟩
        | recv =>
          simp only [Pipe.events] at he
          split at he
          · simp only [mem_acts, List.mem_cons] at he
            rcases he.2 with he | he | he
            · rw [he]; exact hq rfl fun _ => ⟨nofun, nofun⟩
            · rw [he]; exact happ ⟨_, _, rfl, fun _ _ => nofun⟩
            · exact hgt _ he
          · cases he
        | handoff =>
          simp only [Pipe.events] at he
          split at he
          · simp only [List.mem_append, mem_acts, List.mem_cons, List.not_mem_nil, or_false] at he
            rcases he with ⟨_, he | he | he⟩ | ⟨_, he | he | he⟩
            · exact hline _ _ he
            · rw [he]; exact happ ⟨_, _, rfl, fun _ _ => nofun⟩
            · rw [he]; exact hq rfl fun _ => ⟨nofun, nofun⟩
            · rw [he]; exact hq rfl fun _ => ⟨nofun, nofun⟩
            · rw [he]; exact happ ⟨_, _, rfl, fun _ _ => nofun⟩
            · exact hgt _ he
          · cases he
        | advance =>
          simp only [Pipe.events, mem_acts, List.mem_cons, List.not_mem_nil, or_false] at he
          rw [he.2]; exact hq rfl fun _ => ⟨nofun, nofun⟩

theorem InvP.foreign {n : Nat} {rss : List (List R)} {p : Pipeline.State (List R)} {t : Trace} (h : InvP cap n rss p t) {e : Ev} (he : Foreign e) :
    InvP cap n rss p (t ++ [e]) := by
  have hg : ∀ {i : Nat} {f : Ev}, (t ++ [e])[i]? = some f → hexG f.who → t[i]? = some f := fun {i f} h1 h2 => by
    rcases at_snoc h1 with h1 | ⟨_, rfl⟩
    · exact h1
    · exact absurd h2 he.1
  refine ⟨h.pipe.alien ?_, h.len, h.free.snoc fun h' => absurd h' he.1, fun h1 h2 => h.who (hg h1 h2) h2,
    fun h1 h2 h3 => h.line (hg h1 (h2 ▸ trivial)) h2 h3, fun h1 h2 h3 => ?_, ?_⟩
  · intro f hf
    cases List.mem_singleton.1 hf
    exact ⟨fun k hk => he.1 (show hexG e.who by rw [hk]; trivial), he.2.1⟩
  · rcases h.main (hg h1 (h2 ▸ trivial)) h2 h3 with h | h | h | ⟨h, h'⟩
    · exact Or.inl h
    · exact Or.inr (Or.inl h)
    · exact Or.inr (Or.inr (Or.inl h))
    · exact Or.inr (Or.inr (Or.inr ⟨h, fun k hk => (h' k hk).append⟩))
  · intro f hf
    rcases List.mem_append.1 hf with hf | hf
    · exact h.dat f hf
    · cases List.mem_singleton.1 hf
      exact ⟨fun k hk => he.1 (show hexG e.who by rw [hk]; trivial), he.2.2⟩

theorem InvP.init {n c : Nat} {rss : List (List R)} (hl : rss.length = n) {t : Trace} (ht : ∀ e ∈ t, Foreign e) :
    InvP cap n rss (Pipeline.init c (rss.map fun r => [r])) (t ++ startEvents n) := by
  have hsplit : t ++ startEvents n = t ++ acts .rdH [.write .hexLines, .write .hexMap, .write .hexRecs] ++ acts .rdH (((List.range n).map G.line).map .go) := by
    rw [startEvents, acts_append, List.append_assoc, List.map_map]; rfl
  have hm : ∀ e ∈ startEvents n, e.who = .rdH ∧ (e.act = .write .hexLines ∨ e.act = .write .hexMap ∨ e.act = .write .hexRecs ∨ ∃ k, e.act = .go (.line k)) := by
    intro e he
    simp only [startEvents, mem_acts, List.mem_append, List.mem_cons, List.not_mem_nil, or_false, List.mem_map] at he
    refine ⟨he.1, ?_⟩
    rcases he.2 with (h | h | h) | ⟨k, _, h⟩
    · exact Or.inl h
    · exact Or.inr (Or.inl h)
    · exact Or.inr (Or.inr (Or.inl h))
    · exact Or.inr (Or.inr (Or.inr ⟨k, h.symm⟩))
  have hnew : ∀ {i : Nat} {e : Ev}, (t ++ startEvents n)[i]? = some e → hexG e.who → e ∈ startEvents n := fun {i e} h1 h2 => by
    rcases at_append h1 with h1 | ⟨_, h1⟩
    · exact absurd h2 (ht _ (List.mem_of_getElem? h1)).1
    · exact List.mem_of_getElem? h1
  refine ⟨PipeInv.init _ _ ?_, by simp [Pipeline.init, hl], ?_, ?_, ?_, ?_, ?_⟩
  · intro e he
    rcases List.mem_append.1 he with he | he
    · exact ⟨fun k hk => (ht e he).1 (show hexG e.who by rw [hk]; trivial), (ht e he).2.1⟩
    · obtain ⟨h1, h2⟩ := hm e he
      refine ⟨fun k hk => (by rw [hk] at h1; cases h1), ?_⟩
      rcases h2 with h | h | h | ⟨k, h⟩ <;> rw [h] <;> exact ⟨fun _ => ⟨nofun, nofun⟩, fun _ _ _ => nofun⟩
  · have h0 : Free cap hexG t := by
      intro i j e f h1 h2 h3 h4
      exact absurd h4 (ht _ (List.mem_of_getElem? h1)).1
    refine h0.acts ?_
    intro a ha i f h1 h2
    exact absurd h2 (ht _ (List.mem_of_getElem? h1)).1
  · intro i e h1 h2
    exact Or.inl (hm e (hnew h1 h2)).1
  · intro i e k l x h1 h2 h3
    have := (hm e (hnew h1 (h2 ▸ trivial))).1
    rw [h2] at this
    cases this
  · intro i e l x h1 h2 h3
    obtain ⟨h4, h5⟩ := hm e (hnew h1 (h2 ▸ trivial))
    rcases h5 with h | h | h | ⟨k, h⟩
    · rw [h] at h3
      cases h3
      refine Or.inr (Or.inr (Or.inr ⟨rfl, fun k hk => ?_⟩))
      rw [hsplit] at h1 ⊢
      rcases at_acts h1 with h1 | ⟨_, _, h1⟩
      · exact Past.forks (own_past h1 h4) _ (List.mem_map.2 ⟨k, List.mem_range.2 hk, rfl⟩)
      · rw [h] at h1
        simp at h1
    · rw [h] at h3; cases h3; exact Or.inr (Or.inl rfl)
    · rw [h] at h3; cases h3; exact Or.inl rfl
    · rw [h] at h3; cases h3
  · intro e he
    rcases List.mem_append.1 he with he | he
    · exact ⟨fun k hk => (ht e he).1 (show hexG e.who by rw [hk]; trivial), (ht e he).2.2⟩
    · obtain ⟨h1, h2⟩ := hm e he
      refine ⟨fun k hk => (by rw [hk] at h1; cases h1), ?_⟩
      rcases h2 with h | h | h | ⟨k, h⟩ <;> rw [h] <;> exact ⟨fun _ => ⟨nofun, nofun⟩, fun _ _ _ => nofun⟩

/-! ### While sums are checked and offsets are set -/

/-- A read of something that nobody changes any more. -/
def Harmless (a : A) : Prop := ∀ l x, a.access = some (l, x) → x = .read ∧ (l = .hexRecs ∨ l = .hexLines ∨ l = .logger ∨ ∃ r, l = .fixed r)

/-- The goroutines of the phase. -/
def phaseC (n m : Nat) (g : G) : Prop := g = .rdH ∨ (∃ k, k < m ∧ g = .off k) ∨ ∃ k, k < n ∧ g = .chk k

/-- An access to an offset happens before all others to come: the goroutine that has the lock knows of it, or the one that gave it back. -/
def Guard (cap : Sy → Nat) (holder : Nat → Option Nat) (t : Trace) (r i : Nat) : Prop :=
  match holder r with
  | some k => Past cap t (.off k) i
  | none => Upto cap t (.unlock (.mut r)) i

theorem Guard.append {holder : Nat → Option Nat} {t u : Trace} {r i : Nat} (h : Guard cap holder t r i) : Guard cap holder (t ++ u) r i := by
  unfold Guard at h ⊢
  split
  · next he => rw [he] at h; exact h.append
  · next he => rw [he] at h; exact h.append

structure InvC (cap : Sy → Nat) (n m : Nat) (holder : Nat → Option Nat) (fin : Nat → Prop) (t : Trace) : Prop where
  free : Free cap hexG t
  cls : ∀ {i : Nat} {e : Ev}, t[i]? = some e → hexG e.who → (∀ g, phaseC n m g → Past cap t g i) ∨ (Harmless e.act ∧ phaseC n m e.who) ∨
    ∃ k r x, k < m ∧ e.who = .off k ∧ e.act.access = some (.offs r, x) ∧ Guard cap holder t r i
  fin : ∀ {k : Nat} {i : Nat} {e : Ev}, fin k → t[i]? = some e → e.who = .off k → Upto cap t (.done .wgOff) i
  off : ∀ {k : Nat} {i : Nat} {e : Ev}, t[i]? = some e → e.who = .off k → k < m
  dat : ∀ e ∈ t, (∀ k, e.who ≠ .data k) ∧ datPipe.Apart e.act

/-- The read of something that nobody changes any more does not race. -/
theorem InvC.harmless {n m : Nat} {holder : Nat → Option Nat} {fin : Nat → Prop} {t : Trace} (h : InvC cap n m holder fin t) {g : G} (hg : phaseC n m g)
    (hfin : ∀ k, g = .off k → ¬ fin k) {as : List A} (has : ∀ a ∈ as, Harmless a ∧ datPipe.Apart a) : InvC cap n m holder fin (t ++ acts g as) := by
  refine ⟨h.free.acts ?_, ?_, ?_, ?_, ?_⟩
  · rintro a ha i f h1 h2 h3 ⟨l, x, y, h4, h5, h6, h7⟩
    obtain ⟨rfl, hl⟩ := (has a ha).1 _ _ h5
    rcases h.cls h1 h2 with hc | ⟨hc, _⟩ | ⟨k, r, x', _, _, hc, _⟩
    · exact hc g hg
    · exact absurd ⟨(hc _ _ h4).1, rfl⟩ h6
    · obtain ⟨rfl, _⟩ := acc_eq hc h4
      rcases hl with h | h | h | ⟨_, h⟩ <;> cases h
  · intro i e h1 h2
    rcases at_acts h1 with h1 | ⟨_, h3, h4⟩
    · rcases h.cls h1 h2 with hc | hc | ⟨k, r, x', hk, hw, hc, hgd⟩
      · exact Or.inl fun g hg => (hc g hg).append
      · exact Or.inr (Or.inl hc)
      · exact Or.inr (Or.inr ⟨k, r, x', hk, hw, hc, hgd.append⟩)
    · exact Or.inr (Or.inl ⟨(has _ h4).1, h3 ▸ hg⟩)
  · intro k i e h1 h2 h3
    rcases at_acts h2 with h2 | ⟨_, h4, _⟩
    · exact (h.fin h1 h2 h3).append
    · exact absurd h1 (hfin k (h4.symm.trans h3))
  · intro k i e h1 h2
    rcases at_acts h1 with h1 | ⟨_, h4, _⟩
    · exact h.off h1 h2
    · rw [h2] at h4
      rcases hg with h | ⟨j, hj, h⟩ | ⟨j, hj, h⟩ <;> rw [h] at h4 <;> cases h4
      exact hj
  · intro e he
    rcases List.mem_append.1 he with he | he
    · exact h.dat e he
    · obtain ⟨h1, h2⟩ := mem_acts.1 he
      refine ⟨fun k hk => ?_, (has _ h2).2⟩
      rw [hk] at h1
      rcases hg with h | ⟨j, hj, h⟩ | ⟨j, hj, h⟩ <;> rw [h] at h1 <;> cases h1

/-- The goroutine that has the lock reads and changes the offset. -/
theorem InvC.access {n m : Nat} {holder : Nat → Option Nat} {fin : Nat → Prop} {t : Trace} (h : InvC cap n m holder fin t) {k r : Nat} (hk : k < m)
    (hfin : ¬ fin k) (hr : holder r = some k) {a : A} (ha : a = .read (.offs r) ∨ a = .write (.offs r)) : InvC cap n m holder fin (t ++ [⟨.off k, a⟩]) := by
  have hacc : ∃ x, a.access = some (.offs r, x) := by rcases ha with rfl | rfl <;> exact ⟨_, rfl⟩
  obtain ⟨x, hx⟩ := hacc
  refine ⟨h.free.snoc ?_, ?_, ?_, ?_, ?_⟩
  · rintro _ i f h1 h2 h3 ⟨l, y, z, h4, h5, h6, h7⟩
    obtain ⟨rfl, rfl⟩ := acc_eq hx h5
    rcases h.cls h1 h2 with hc | ⟨hc, _⟩ | ⟨k', r', x', _, _, hc, hgd⟩
    · exact hc _ (Or.inr (Or.inl ⟨k, hk, rfl⟩))
    · rcases (hc _ _ h4).2 with h | h | h | ⟨_, h⟩ <;> cases h
    · obtain ⟨h8, _⟩ := acc_eq hc h4
      cases h8
      simpa [Guard, hr] using hgd
  · intro i e h1 h2
    rcases at_snoc h1 with h1' | ⟨rfl, rfl⟩
    · rcases h.cls h1' h2 with hc | hc | ⟨k, r, x', hk, hw, hc, hgd⟩
      · exact Or.inl fun g hg => (hc g hg).append
      · exact Or.inr (Or.inl hc)
      · exact Or.inr (Or.inr ⟨k, r, x', hk, hw, hc, hgd.append⟩)
    · refine Or.inr (Or.inr ⟨k, r, x, hk, rfl, hx, ?_⟩)
      simp only [Guard, hr]
      exact Past.own h1
  · intro k' i e h1 h2 h3
    rcases at_snoc h2 with h2 | ⟨_, rfl⟩
    · exact (h.fin h1 h2 h3).append
    · cases h3; exact absurd h1 hfin
  · intro k' i e h1 h2
    rcases at_snoc h1 with h1 | ⟨_, rfl⟩
    · exact h.off h1 h2
    · cases h2; exact hk
  · intro e he
    rcases List.mem_append.1 he with he | he
    · exact h.dat e he
    · cases List.mem_singleton.1 he
      exact ⟨fun _ => nofun, apart_of_access hx fun _ _ => nofun⟩

/-- Operations on locks and on the wait group. -/
theorem InvC.sync {n m : Nat} {holder holder' : Nat → Option Nat} {fin fin' : Nat → Prop} {t : Trace} (h : InvC cap n m holder fin t) {k : Nat} (hk : k < m)
    {a : A} (hx : a.access = none) (ha : datPipe.Apart a) (hfin : ∀ j, fin' j → (fin j ∧ j ≠ k) ∨ (j = k ∧ a = .done .wgOff))
    (hgd : ∀ r i, Guard cap holder t r i → Guard cap holder' (t ++ [⟨.off k, a⟩]) r i) : InvC cap n m holder' fin' (t ++ [⟨.off k, a⟩]) := by
  refine ⟨h.free.snoc ?_, ?_, ?_, ?_, ?_⟩
  · rintro _ i f h1 h2 h3 ⟨l, y, z, h4, h5, h6, h7⟩
    rw [show (⟨.off k, a⟩ : Ev).act = a from rfl, hx] at h5
    cases h5
  · intro i e h1 h2
    rcases at_snoc h1 with h1' | ⟨rfl, rfl⟩
    · rcases h.cls h1' h2 with hc | hc | ⟨k, r, x', hk, hw, hc, hg⟩
      · exact Or.inl fun g hg => (hc g hg).append
      · exact Or.inr (Or.inl hc)
      · exact Or.inr (Or.inr ⟨k, r, x', hk, hw, hc, hgd _ _ hg⟩)
    · exact Or.inr (Or.inl ⟨fun l x h => (by rw [show (⟨.off k, a⟩ : Ev).act = a from rfl, hx] at h; cases h), Or.inr (Or.inl ⟨k, hk, rfl⟩)⟩)
  · intro j i e h1 h2 h3
    rcases hfin j h1 with ⟨h1, hj⟩ | ⟨rfl, rfl⟩
    · rcases at_snoc h2 with h2 | ⟨_, rfl⟩
      · exact (h.fin h1 h2 h3).append
      · cases h3; exact absurd rfl hj
    · exact upto_last' h2 h3
  · intro k' i e h1 h2
    rcases at_snoc h1 with h1 | ⟨_, rfl⟩
    · exact h.off h1 h2
    · cases h2; exact hk
  · intro e he
    rcases List.mem_append.1 he with he | he
    · exact h.dat e he
    · cases List.mem_singleton.1 he
      exact ⟨fun _ => nofun, ha⟩

theorem InvC.weaken {n m : Nat} {holder : Nat → Option Nat} {fin fin' : Nat → Prop} {t : Trace} (h : InvC cap n m holder fin t) (hf : ∀ j, fin' j → fin j) :
    InvC cap n m holder fin' t :=
  ⟨h.free, h.cls, fun h1 h2 h3 => h.fin (hf _ h1) h2 h3, h.off, h.dat⟩

theorem InvC.foreign {n m : Nat} {holder : Nat → Option Nat} {fin : Nat → Prop} {t : Trace} (h : InvC cap n m holder fin t) {e : Ev} (he : Foreign e) :
    InvC cap n m holder fin (t ++ [e]) := by
  have hg : ∀ {i : Nat} {f : Ev}, (t ++ [e])[i]? = some f → hexG f.who → t[i]? = some f := fun {i f} h1 h2 => by
    rcases at_snoc h1 with h1 | ⟨_, rfl⟩
    · exact h1
    · exact absurd h2 he.1
  refine ⟨h.free.snoc fun h' => absurd h' he.1, fun h1 h2 => ?_, fun h1 h2 h3 => (h.fin h1 (hg h2 (h3 ▸ trivial)) h3).append,
    fun h1 h2 => h.off (hg h1 (h2 ▸ trivial)) h2, ?_⟩
  · rcases h.cls (hg h1 h2) h2 with hc | hc | ⟨k, r, x', hk, hw, hc, hgd⟩
    · exact Or.inl fun g hg => (hc g hg).append
    · exact Or.inr (Or.inl hc)
    · exact Or.inr (Or.inr ⟨k, r, x', hk, hw, hc, hgd.append⟩)
  · intro f hf
    rcases List.mem_append.1 hf with hf | hf
    · exact h.dat f hf
    · cases List.mem_singleton.1 hf
      exact ⟨fun k hk => he.1 (show hexG e.who by rw [hk]; trivial), he.2.2⟩

/-- What a step of a goroutine that works on the records does: it uses the offset of a record whose lock it has, takes or gives back a lock, or ends. -/
inductive Does (as : List A) (k : Nat) (h h' : Nat → Option Nat) (f' : Prop) : Prop
  | use (r : Nat) (bs : List A) : as = .read .hexRecs :: bs → (∀ b ∈ bs, b = .read (.fixed r) ∨ b = .read (.offs r) ∨ b = .write (.offs r)) →
      h r = some k → h' = h → ¬ f' → Does as k h h' f'
  | lock (r : Nat) : as = [.read .hexRecs, .lock (.mut r)] → h r = none → (h' = fun j => if j = r then some k else h j) → ¬ f' → Does as k h h' f'
  | unlock (r : Nat) (b : Bool) : as = [.read .hexRecs, .unlock (.mut r)] ++ (if b then [.done .wgOff] else []) → h r = some k →
      (h' = fun j => if j = r then none else h j) → (f' → b = true) → Does as k h h' f'
  | exit : as = [.read .hexRecs, .done .wgOff] → h' = h → Does as k h h' f'

/-- How the goroutines keep out of each other's way. -/
structure Disc (P : Prog R) (M : Access P) where
  Reach : P.shared.S → Prop
  holder : P.shared.S → Nat → Option Nat
  fin : P.shared.S → Nat → Prop
  start : ∀ recs, Reach (P.shared.start recs)
  step : ∀ {s s' k}, Reach s → P.shared.step s k = some s' → Reach s' ∧ k < M.workers ∧ ¬ fin s k ∧ (∀ j, j ≠ k → fin s' j → fin s j) ∧
    Does (M.acts s k) k (holder s) (holder s') (fin s' k)
  done : ∀ {s}, Reach s → P.shared.done s = true → ∀ k, k < M.workers → fin s k

theorem harmless_recs : Harmless (.read .hexRecs) ∧ datPipe.Apart (.read .hexRecs) :=
  ⟨fun l x h => by cases h; exact ⟨rfl, Or.inl rfl⟩, apart_of_access rfl fun _ _ => nofun⟩

theorem InvC.off_step {n m k : Nat} {h h' : Nat → Option Nat} {fin fin' : Nat → Prop} {t : Trace} (hi : InvC cap n m h fin t) (hk : k < m) (hf : ¬ fin k)
    (hf' : ∀ j, j ≠ k → fin' j → fin j) {as : List A} (hd : Does as k h h' (fin' k)) : InvC cap n m h' fin' (t ++ acts (.off k) as) := by
  have hph : phaseC n m (.off k) := Or.inr (Or.inl ⟨k, hk, rfl⟩)
  have hno : ∀ j, G.off k = .off j → ¬ fin j := fun j h => by cases h; exact hf
  have hrecs : InvC cap n m h fin (t ++ [⟨.off k, .read .hexRecs⟩]) := hi.harmless hph hno (as := [.read .hexRecs]) (by simpa using harmless_recs)
  have hweak : ¬ fin' k → ∀ j, fin' j → fin j := fun h0 j hj => by
    by_cases hjk : j = k
    · subst hjk; exact absurd hj h0
    · exact hf' j hjk hj
  cases hd with
  | use r bs h1 h2 h3 h4 h5 =>
    subst h1 h4
    refine InvC.weaken ?_ (hweak h5)
    rw [acts_cons, ← List.append_assoc]
    clear hi hf' h5 hweak
    revert h2
    generalize t ++ [(⟨.off k, .read .hexRecs⟩ : Ev)] = t at hrecs
    induction bs generalizing t with
    | nil => intro _; simpa [acts] using hrecs
    | cons b bs ih =>
      intro h2
      rw [acts_cons, ← List.append_assoc]
      refine ih (t := t ++ [⟨.off k, b⟩]) ?_ fun b' hb' => h2 b' (by simp [hb'])
      rcases h2 b (by simp) with h | h
      · subst h
        exact hrecs.harmless hph hno (as := [.read (.fixed r)]) (by
          intro a ha
          cases List.mem_singleton.1 ha
          exact ⟨fun l x h => by cases h; exact ⟨rfl, Or.inr (Or.inr (Or.inr ⟨r, rfl⟩))⟩, apart_of_access rfl fun _ _ => nofun⟩)
      · exact hrecs.access hk hf h3 h
  | lock r h1 h2 h3 h4 =>
    subst h1 h3
    rw [show acts (.off k) [.read .hexRecs, .lock (.mut r)] = [(⟨.off k, .read .hexRecs⟩ : Ev)] ++ [⟨.off k, .lock (.mut r)⟩] from rfl, ← List.append_assoc]
    refine hrecs.sync hk rfl ⟨fun _ => ⟨nofun, nofun⟩, fun _ _ _ => nofun⟩ (fun j hj => Or.inl ⟨hweak h4 j hj, ?_⟩) ?_
    · rintro rfl; exact h4 hj
    · intro r' i hg
      by_cases hr : r' = r
      · subst hr
        simp only [Guard, h2] at hg
        simp only [Guard, if_pos]
        exact hg.lock
      · simp only [Guard, if_neg hr]
        exact hg.append
  | unlock r b h1 h2 h3 h4 =>
    subst h1 h3
    have hun : ∀ fin'' : Nat → Prop, (∀ j, fin'' j → fin j ∧ j ≠ k) →
        InvC cap n m (fun j => if j = r then none else h j) fin'' (t ++ [⟨.off k, .read .hexRecs⟩] ++ [⟨.off k, .unlock (.mut r)⟩]) := fun fin'' hf'' => by
      refine hrecs.sync hk rfl ⟨fun _ => ⟨nofun, nofun⟩, fun _ _ _ => nofun⟩ (fun j hj => Or.inl (hf'' j hj)) ?_
      intro r' i hg
      by_cases hr : r' = r
      · subst hr
        simp only [Guard, h2] at hg
        simp only [Guard, if_pos]
        exact hg.upto
      · simp only [Guard, if_neg hr]
        exact hg.append
    cases b with
    | false =>
      have h5 : ¬ fin' k := fun h => by have := h4 h; cases this
      have := hun fin' fun j hj => ⟨hweak h5 j hj, by rintro rfl; exact h5 hj⟩
      simpa [acts] using this
    | true =>
      have h6 := hun (fun j => fin j ∧ j ≠ k) fun j hj => hj
      have := h6.sync (fin' := fin') (holder' := fun j => if j = r then none else h j) hk (a := .done .wgOff) rfl ⟨fun _ => ⟨nofun, nofun⟩, fun _ _ _ => nofun⟩
        (fun j hj => by
          by_cases hjk : j = k
          · exact Or.inr ⟨hjk, rfl⟩
          · exact Or.inl ⟨⟨hf' j hjk hj, hjk⟩, hjk⟩) (fun r' i hg => hg.append)
      simpa [acts] using this
  | exit h1 h2 =>
    subst h1 h2
    rw [show acts (.off k) [.read .hexRecs, .done .wgOff] = [(⟨.off k, .read .hexRecs⟩ : Ev)] ++ [⟨.off k, .done .wgOff⟩] from rfl, ← List.append_assoc]
    exact hrecs.sync hk rfl ⟨fun _ => ⟨nofun, nofun⟩, fun _ _ _ => nofun⟩
        (fun j hj => by
          by_cases hjk : j = k
          · exact Or.inr ⟨hjk, rfl⟩
          · exact Or.inl ⟨hf' j hjk hj, hjk⟩) (fun r' i hg => hg.append)

theorem quiet_go (g g' : G) {own : G → Prop} {t : Trace} : Clear cap own t g (.go g') := clear_quiet rfl

/-- All records are there: the goroutines of the next phase are started. -/
theorem InvP.next {n m : Nat} {rss : List (List R)} {p : Pipeline.State (List R)} {t : Trace} (h : InvP cap n rss p t) (hp : p.pos = p.ws.length)
    (holder : Nat → Option Nat) (fin : Nat → Prop) :
    InvC cap n m holder fin (t ++ acts .rdH (.read .hexRecs :: ((List.range m).map G.off ++ (List.range n).map G.chk).map .go)) := by
  have hall : ∀ {i : Nat} {e : Ev}, t[i]? = some e → hexG e.who → Past cap t .rdH i := fun {i e} h1 h2 => by
    rcases h.who h1 h2 with hw | ⟨k, hk, hw⟩
    · exact own_past h1 hw
    · exact h.pipe.joined (k := k) (by rw [hp, h.len]; exact hk) h1 hw
  rw [acts_cons, ← List.append_assoc]
  have hall' : ∀ {i : Nat} {e : Ev}, (t ++ [⟨.rdH, .read .hexRecs⟩])[i]? = some e → hexG e.who → Past cap (t ++ [⟨.rdH, .read .hexRecs⟩]) .rdH i := fun {i e} h1 h2 => by
    rcases at_snoc h1 with h1' | ⟨_, rfl⟩
    · exact (hall h1' h2).append
    · exact Past.own h1
  have hf : Free cap hexG (t ++ [⟨.rdH, .read .hexRecs⟩]) := h.free.snoc fun _ i f h1 h2 _ _ => hall h1 h2
  have hnew : ∀ e ∈ acts (G.rdH) (((List.range m).map G.off ++ (List.range n).map G.chk).map .go), e.who = .rdH ∧ ∃ g, e.act = (.go g : A) := by
    intro e he
    obtain ⟨h1, h2⟩ := mem_acts.1 he
    obtain ⟨g, _, h2⟩ := List.mem_map.1 h2
    exact ⟨h1, g, h2.symm⟩
  refine ⟨hf.acts ?_, ?_, ?_, ?_, ?_⟩
  · intro a ha
    obtain ⟨g, _, rfl⟩ := List.mem_map.1 ha
    exact quiet_go _ _
  · intro i e h1 h2
    rcases at_append h1 with h1 | ⟨_, h1⟩
    · refine Or.inl fun g hg => ?_
      rcases hg with rfl | ⟨k, hk, rfl⟩ | ⟨k, hk, rfl⟩
      · exact (hall' h1 h2).append
      · exact Past.forks (hall' h1 h2) _ (List.mem_append.2 (Or.inl (List.mem_map.2 ⟨k, List.mem_range.2 hk, rfl⟩)))
      · exact Past.forks (hall' h1 h2) _ (List.mem_append.2 (Or.inr (List.mem_map.2 ⟨k, List.mem_range.2 hk, rfl⟩)))
    · obtain ⟨h3, g, h4⟩ := hnew e (List.mem_of_getElem? h1)
      refine Or.inr (Or.inl ⟨fun l x h => ?_, Or.inl h3⟩)
      rw [h4] at h
      cases h
  · intro k i e _ h2 h3
    exfalso
    rcases at_append h2 with h2 | ⟨_, h2⟩
    · rcases at_snoc h2 with h2 | ⟨_, rfl⟩
      · rcases h.who h2 (h3 ▸ trivial) with hw | ⟨j, _, hw⟩ <;> rw [h3] at hw <;> cases hw
      · cases h3
    · have := (hnew e (List.mem_of_getElem? h2)).1
      rw [h3] at this; cases this
  · intro k i e h2 h3
    exfalso
    rcases at_append h2 with h2 | ⟨_, h2⟩
    · rcases at_snoc h2 with h2 | ⟨_, rfl⟩
      · rcases h.who h2 (h3 ▸ trivial) with hw | ⟨j, _, hw⟩ <;> rw [h3] at hw <;> cases hw
      · cases h3
    · have := (hnew e (List.mem_of_getElem? h2)).1
      rw [h3] at this; cases this
  · intro e he
    rcases List.mem_append.1 he with he | he
    · rcases List.mem_append.1 he with he | he
      · exact h.dat e he
      · cases List.mem_singleton.1 he
        exact ⟨fun _ => nofun, harmless_recs.2⟩
    · obtain ⟨h3, g, h4⟩ := hnew e he
      refine ⟨fun k hk => (by rw [hk] at h3; cases h3), ?_⟩
      rw [h4]
      exact ⟨fun _ => ⟨nofun, nofun⟩, fun _ _ _ => nofun⟩

/-! ### While bytes are computed -/

/-- A read of something that nobody changes any more. -/
def Harmless' (a : A) : Prop :=
  ∀ l x, a.access = some (l, x) → x = .read ∧ (l = .hexRecs ∨ l = .hexLines ∨ l = .logger ∨ (∃ r, l = .fixed r) ∨ ∃ r, l = .offs r)

/-- The goroutines of the phase. -/
def phaseD (n : Nat) (g : G) : Prop := g = .rdH ∨ ∃ k, k < n ∧ g = .data k

structure InvD (cap : Sy → Nat) (n : Nat) (p : Pipeline.State (List DataByte)) (t : Trace) : Prop where
  pipe : PipeInv cap datPipe p t
  len : p.ws.length ≤ n
  free : Free cap hexG t
  cls : ∀ {i : Nat} {e : Ev}, t[i]? = some e → hexG e.who → (∀ g, phaseD n g → Past cap t g i) ∨ Harmless' e.act ∨
    (∃ x, e.who = .rdH ∧ e.act.access = some (.hexMap, x)) ∨ ∃ k m x, e.act.access = some (.bytes k m, x)

/-- All offsets are set: the goroutines of the next phase are started. -/
theorem InvC.next {n m c : Nat} {holder : Nat → Option Nat} {fin : Nat → Prop} {t : Trace} (h : InvC cap n m holder fin t) (hfin : ∀ k, k < m → fin k)
    {scripts : List (List (List DataByte))} (hl : scripts.length ≤ n) :
    InvD cap n (Pipeline.init c scripts) (t ++ acts .rdH ((if m = 0 then [] else [.wait .wgOff]) ++ .read .hexRecs :: ((List.range n).map G.data).map .go)) := by
  have hw : Free cap hexG (t ++ acts .rdH (if m = 0 then [] else [.wait .wgOff])) ∧
      (∀ {i : Nat} {e : Ev}, (t ++ acts .rdH (if m = 0 then [] else [.wait .wgOff]))[i]? = some e → hexG e.who →
        Past cap (t ++ acts .rdH (if m = 0 then [] else [.wait .wgOff])) .rdH i ∨ (Harmless e.act)) ∧
      ∀ e ∈ t ++ acts .rdH (if m = 0 then [] else [.wait .wgOff]), (∀ k, e.who ≠ .data k) ∧ datPipe.Apart e.act := by
    have hgen : ∀ as : List A, (∀ a ∈ as, a = .wait .wgOff) → (m ≠ 0 → as = [.wait .wgOff]) → Free cap hexG (t ++ acts .rdH as) ∧
      (∀ {i : Nat} {e : Ev}, (t ++ acts .rdH as)[i]? = some e → hexG e.who → Past cap (t ++ acts .rdH as) .rdH i ∨ (Harmless e.act)) ∧
      ∀ e ∈ t ++ acts .rdH as, (∀ k, e.who ≠ .data k) ∧ datPipe.Apart e.act := by
      intro as has hm
      refine ⟨h.free.acts fun a ha => ?_, fun {i e} h1 h2 => ?_, fun e he => ?_⟩
      · rw [has a ha]; exact clear_quiet rfl
      · rcases at_acts h1 with h1 | ⟨_, h3, h4⟩
        · rcases h.cls h1 h2 with hc | ⟨hc, _⟩ | ⟨k, r, x, hk, hw, _, _⟩
          · exact Or.inl (hc _ (Or.inl rfl)).append
          · exact Or.inr hc
          · rw [hm (by omega)]
            exact Or.inl (h.fin (hfin k hk) h1 hw).wait
        · refine Or.inr fun l x h => ?_
          rw [has _ h4] at h
          cases h
      · rcases List.mem_append.1 he with he | he
        · exact h.dat e he
        · obtain ⟨h1, h2⟩ := mem_acts.1 he
          refine ⟨fun k hk => (by rw [hk] at h1; cases h1), ?_⟩
          rw [has _ h2]
          exact ⟨fun _ => ⟨nofun, nofun⟩, fun _ _ _ => nofun⟩
    refine hgen _ ?_ ?_
    · intro a ha
      split at ha
      · cases ha
      · exact List.mem_singleton.1 ha
    · intro hm; rw [if_neg hm]
  rw [acts_append, ← List.append_assoc]
  generalize t ++ acts .rdH (if m = 0 then [] else [.wait .wgOff]) = u at hw
  obtain ⟨h1, h2, h3⟩ := hw
  rw [acts_cons, ← List.append_assoc]
  have hall' : ∀ {i : Nat} {e : Ev}, (u ++ [⟨.rdH, .read .hexRecs⟩])[i]? = some e → hexG e.who →
      Past cap (u ++ [⟨.rdH, .read .hexRecs⟩]) .rdH i ∨ Harmless e.act := fun {i e} g1 g2 => by
    rcases at_snoc g1 with g1' | ⟨_, rfl⟩
    · exact (h2 g1' g2).imp (·.append) id
    · exact Or.inl (Past.own g1)
  have hf : Free cap hexG (u ++ [⟨.rdH, .read .hexRecs⟩]) := h1.snoc (by
    rintro _ i f g1 g2 _ ⟨l, y, z, g4, g5, g6, _⟩
    cases g5
    rcases h2 g1 g2 with h | h
    · exact h
    · exact absurd ⟨(h _ _ g4).1, rfl⟩ g6)
  have hnew : ∀ e ∈ acts (G.rdH) (((List.range n).map G.data).map .go), e.who = .rdH ∧ ∃ g, e.act = (.go g : A) := by
    intro e he
    obtain ⟨h1, h2⟩ := mem_acts.1 he
    obtain ⟨g, _, h2⟩ := List.mem_map.1 h2
    exact ⟨h1, g, h2.symm⟩
  refine ⟨PipeInv.init _ _ ?_, by simpa [Pipeline.init] using hl, hf.acts ?_, ?_⟩
  · intro e he
    rcases List.mem_append.1 he with he | he
    · rcases List.mem_append.1 he with he | he
      · exact h3 e he
      · cases List.mem_singleton.1 he
        exact ⟨fun _ => nofun, harmless_recs.2⟩
    · obtain ⟨h3, g, h4⟩ := hnew e he
      refine ⟨fun k hk => (by rw [hk] at h3; cases h3), ?_⟩
      rw [h4]
      exact ⟨fun _ => ⟨nofun, nofun⟩, fun _ _ _ => nofun⟩
  · intro a ha
    obtain ⟨g, _, rfl⟩ := List.mem_map.1 ha
    exact quiet_go _ _
  · intro i e g1 g2
    rcases at_append g1 with g1 | ⟨_, g1⟩
    · rcases hall' g1 g2 with hc | hc
      · refine Or.inl fun g hg => ?_
        rcases hg with rfl | ⟨k, hk, rfl⟩
        · exact hc.append
        · exact Past.forks hc _ (List.mem_map.2 ⟨k, List.mem_range.2 hk, rfl⟩)
      · refine Or.inr (Or.inl fun l x h => ?_)
        obtain ⟨h4, h5 | h5 | h5 | h5⟩ := hc l x h
        · exact ⟨h4, Or.inl h5⟩
        · exact ⟨h4, Or.inr (Or.inl h5)⟩
        · exact ⟨h4, Or.inr (Or.inr (Or.inl h5))⟩
        · exact ⟨h4, Or.inr (Or.inr (Or.inr (Or.inl h5)))⟩
    · obtain ⟨_, g, h4⟩ := hnew e (List.mem_of_getElem? g1)
      refine Or.inr (Or.inl fun l x h => ?_)
      rw [h4] at h
      cases h

theorem dataActs_access {len n k : Nat} {a : A} (h : a ∈ dataActs len n k) : ∃ l, a.access = some (l, .read) ∧
    (l = .hexRecs ∨ l = .hexLines ∨ l = .logger ∨ (∃ r, l = .fixed r) ∨ ∃ r, l = .offs r) := by
  simp only [dataActs, List.mem_cons, List.mem_flatMap, List.not_mem_nil, or_false] at h
  rcases h with rfl | rfl | rfl | ⟨r, hr, rfl | rfl⟩
  · exact ⟨_, rfl, Or.inr (Or.inr (Or.inl rfl))⟩
  · exact ⟨_, rfl, Or.inr (Or.inl rfl)⟩
  · exact ⟨_, rfl, Or.inl rfl⟩
  · exact ⟨_, rfl, Or.inr (Or.inr (Or.inr (Or.inl ⟨r, rfl⟩)))⟩
  · exact ⟨_, rfl, Or.inr (Or.inr (Or.inr (Or.inr ⟨r, rfl⟩)))⟩

theorem InvD.step {n len : Nat} {p p' : Pipeline.State (List DataByte)} {t : Trace} (h : InvD cap n p t) {o : Pipeline.Op}
    (hs : Pipeline.step p o = some p') : InvD cap n p' (t ++ datPipe.events (dataActs len n) datGot p o) := by
  have hloc : ∀ k, k < p.ws.length → ∀ a ∈ dataActs len n k, datPipe.Apart a ∧ Clear cap hexG t (datPipe.wk k) a := by
    intro k hk a ha
    obtain ⟨l, hl, hx⟩ := dataActs_access ha
    refine ⟨apart_of_access hl fun k' m => ?_, ?_⟩
    · rcases hx with rfl | rfl | rfl | ⟨_, rfl⟩ | ⟨_, rfl⟩ <;> exact nofun
    · rintro i f h1 h2 h3 ⟨l', y, z, h4, h5, h6, h7⟩
      obtain ⟨rfl, rfl⟩ := acc_eq hl h5
      rcases h.cls h1 h2 with hc | hc | ⟨x, _, hc⟩ | ⟨_, _, x, hc⟩
      · exact hc _ (Or.inr ⟨k, Nat.lt_of_lt_of_le hk h.len, rfl⟩)
      · exact absurd ⟨(hc _ _ h4).1, rfl⟩ h6
      · obtain ⟨rfl, _⟩ := acc_eq hc h4
        rcases hx with h | h | h | ⟨_, h⟩ | ⟨_, h⟩ <;> cases h
      · obtain ⟨rfl, _⟩ := acc_eq hc h4
        rcases hx with h | h | h | ⟨_, h⟩ | ⟨_, h⟩ <;> cases h
  have hgot : ∀ a ∈ datGot, datPipe.Apart a ∧ Clear cap hexG t datPipe.c a := by
    intro a ha
    have hl : ∃ x, a.access = some (.hexMap, x) := by
      simp only [datGot, List.mem_cons, List.not_mem_nil, or_false] at ha
      rcases ha with rfl | rfl <;> exact ⟨_, rfl⟩
    obtain ⟨x, hl⟩ := hl
    refine ⟨apart_of_access hl fun k' m => nofun, ?_⟩
    rintro i f h1 h2 h3 ⟨l', y, z, h4, h5, h6, h7⟩
    obtain ⟨rfl, rfl⟩ := acc_eq hl h5
    rcases h.cls h1 h2 with hc | hc | ⟨x, hw, hc⟩ | ⟨_, _, x, hc⟩
    · exact hc _ (Or.inl rfl)
    · rcases (hc _ _ h4).2 with h | h | h | ⟨_, h⟩ | ⟨_, h⟩ <;> cases h
    · exact absurd hw h3
    · obtain ⟨h8, _⟩ := acc_eq hc h4; cases h8
  have hlg : ∀ k, ∀ a ∈ dataActs len n k, ∀ b ∈ datGot, ¬ Conflict a b := by
    rintro k a ha b hb ⟨l, y, z, h4, h5, _⟩
    obtain ⟨l', hl, hx⟩ := dataActs_access ha
    obtain ⟨rfl, rfl⟩ := acc_eq hl h4
    have : l = .hexMap := by
      simp only [datGot, List.mem_cons, List.not_mem_nil, or_false] at hb
      rcases hb with rfl | rfl <;> cases h5 <;> rfl
    subst this
    rcases hx with h | h | h | ⟨_, h⟩ | ⟨_, h⟩ <;> cases h
  obtain ⟨h1, h2⟩ := h.pipe.step datPipe_distinct h.free hs hloc hgot hlg
  have hm := @Pipe.mem_events G Loc Sy _ _ datPipe p p' o hs (dataActs len n) datGot
  refine ⟨h1, (Pipe.length_step hs) ▸ h.len, h2, ?_⟩
  intro i e he hg
  rcases at_append he with he | ⟨_, he⟩
  · rcases h.cls he hg with hc | hc | hc | hc
    · exact Or.inl fun g hg => (hc g hg).append
    · exact Or.inr (Or.inl hc)
    · exact Or.inr (Or.inr (Or.inl hc))
    · exact Or.inr (Or.inr (Or.inr hc))
  · have hquiet : e.act.access = none → Harmless' e.act := fun h l x h' => by rw [h] at h'; cases h'
    rcases hm (List.mem_of_getElem? he) with ⟨k, hk, hw, ha | ⟨m, ha⟩ | ha⟩ | ⟨hw, ha | ⟨k, m, ha⟩ | ha⟩
    · obtain ⟨l, hl, hx⟩ := dataActs_access ha
      refine Or.inr (Or.inl fun l' x h' => ?_)
      obtain ⟨rfl, rfl⟩ := acc_eq hl h'
      exact ⟨rfl, hx⟩
    · exact Or.inr (Or.inr (Or.inr ⟨k, m, .write, by rw [ha]; rfl⟩))
    · exact Or.inr (Or.inl (hquiet ha))
    · simp only [datGot, List.mem_cons, List.not_mem_nil, or_false] at ha
      refine Or.inr (Or.inr (Or.inl ?_))
      rcases ha with ha | ha <;> rw [ha] <;> exact ⟨_, hw, rfl⟩
    · exact Or.inr (Or.inr (Or.inr ⟨k, m, .read, by rw [ha]; rfl⟩))
    · exact Or.inr (Or.inl (hquiet ha))

theorem InvD.foreign {n : Nat} {p : Pipeline.State (List DataByte)} {t : Trace} (h : InvD cap n p t) {e : Ev} (he : Foreign e) :
    InvD cap n p (t ++ [e]) := by
  refine ⟨h.pipe.alien ?_, h.len, h.free.snoc fun h' => absurd h' he.1, fun h1 h2 => ?_⟩
  · intro f hf
    cases List.mem_singleton.1 hf
    exact ⟨fun k hk => he.1 (show hexG e.who by rw [hk]; trivial), he.2.2⟩
  · rcases at_snoc h1 with h1 | ⟨_, rfl⟩
    · rcases h.cls h1 h2 with hc | hc | hc | hc
      · exact Or.inl fun g hg => (hc g hg).append
      · exact Or.inr (Or.inl hc)
      · exact Or.inr (Or.inr (Or.inl hc))
      · exact Or.inr (Or.inr (Or.inr hc))
    · exact absurd h2 he.1

/-! ### All phases -/

/-- What the hex parser accesses, whatever the phase: its own memory, and the logger, which it reads. The map belongs to one goroutine. -/
def Own (e : Ev) : Prop := hexG e.who → ∀ l x, e.act.access = some (l, x) → (hexL l ∨ (l = .logger ∧ x = .read)) ∧ (l = .hexMap → e.who = .rdH)

/-- What is known in a state. -/
def HexInv (cap : Sy → Nat) {P : Prog R} {M : Access P} (D : Disc P M) (n : Nat) (lines : List Str) (t : Trace) : State P → Prop
  | .parsing p => InvP cap n (parsed P n lines) p t
  | .checking f s => InvC cap n M.workers (D.holder s) (D.fin s) t ∧ D.Reach s ∧ f.ws.length = n
  | .waiting s => InvC cap n M.workers (D.holder s) (D.fin s) t ∧ D.Reach s
  | .collecting p _ => InvD cap n p t
  | .returned _ (.offsets s) => InvC cap n M.workers (D.holder s) (D.fin s) t ∧ D.Reach s
  | .returned _ (.data p) => InvD cap n p t
  | .crashed => Free cap hexG t

theorem HexInv.free {P : Prog R} {M : Access P} {D : Disc P M} {n : Nat} {lines : List Str} {t : Trace} : ∀ {s : State P}, HexInv cap D n lines t s → Free cap hexG t
  | .parsing _, h => InvP.free h
  | .checking _ _, h => h.1.free
  | .waiting _, h => h.1.free
  | .collecting _ _, h => InvD.free h
  | .returned _ (.offsets _), h => h.1.free
  | .returned _ (.data _), h => InvD.free h
  | .crashed, h => h

theorem HexInv.foreign {P : Prog R} {M : Access P} {D : Disc P M} {n : Nat} {lines : List Str} {t : Trace} {e : Ev} (he : Foreign e) :
    ∀ {s : State P}, HexInv cap D n lines t s → HexInv cap D n lines (t ++ [e]) s
  | .parsing _, h => InvP.foreign h he
  | .checking _ _, h => ⟨h.1.foreign he, h.2⟩
  | .waiting _, h => ⟨h.1.foreign he, h.2⟩
  | .collecting _ _, h => InvD.foreign h he
  | .returned _ (.offsets _), h => ⟨h.1.foreign he, h.2⟩
  | .returned _ (.data _), h => InvD.foreign h he
  | .crashed, h => Free.snoc h fun h' => absurd h' he.1

theorem free_foreign {t : Trace} (ht : ∀ e ∈ t, Foreign e) {as : List A} : Free cap hexG (t ++ acts .rdH as) := by
  have h0 : Free cap hexG t := by
    intro i j e f h1 h2 h3 h4
    exact absurd h4 (ht _ (List.mem_of_getElem? h1)).1
  refine h0.acts ?_
  intro a ha i f h1 h2
  exact absurd h2 (ht _ (List.mem_of_getElem? h1)).1

theorem shares_length {α : Type} {l : List α} {n : Nat} {parts : List (List α)} (h : shares? l n = some parts) : parts.length = n := by
  rw [shares?_eq] at h
  cases h
  simp

theorem HexInv.init {P : Prog R} {M : Access P} (D : Disc P M) (n : Nat) (lines : List Str) {t : Trace} (ht : ∀ e ∈ t, Foreign e) :
    HexInv cap D n lines (t ++ startEvents n) (init P n lines) := by
  unfold HexRun.init
  split
  · exact free_foreign ht
  · rename_i rss hr
    show InvP cap n (parsed P n lines) _ _
    have : parsed P n lines = rss := by rw [parsed, hr]; rfl
    rw [this]
    obtain ⟨parts, h1, h2⟩ := Option.bind_eq_some_iff.1 hr
    exact InvP.init ((mapM_some h2).1.trans (shares_length h1)) ht

theorem chkActs_harmless {len n k : Nat} {w : FanIn.Worker} {a : A} (h : a ∈ chkActs len n k w) : Harmless a ∧ datPipe.Apart a := by
  have hq : ∀ {a : A}, a.access = none → (∀ k, a ≠ .send (.dat k) ∧ a ≠ .recv (.dat k)) → Harmless a ∧ datPipe.Apart a := fun {a} h0 h1 =>
    ⟨fun l x h => (by rw [h0] at h; cases h), h1, fun k m x h => (by rw [h0] at h; cases h)⟩
  unfold chkActs at h
  split at h
  · cases h
  · split at h
    · simp only [List.mem_cons, List.not_mem_nil, or_false] at h
      rcases h with rfl | rfl <;> exact hq rfl fun _ => ⟨nofun, nofun⟩
    · split at h
      · cases List.mem_singleton.1 h; exact hq rfl fun _ => ⟨nofun, nofun⟩
      · simp only [List.mem_cons, List.not_mem_nil, or_false] at h
        rcases h with rfl | rfl | rfl | rfl
        · exact harmless_recs
        · exact ⟨fun l x h => by cases h; exact ⟨rfl, Or.inr (Or.inr (Or.inr ⟨_, rfl⟩))⟩, apart_of_access rfl fun _ _ => nofun⟩
        · exact ⟨fun l x h => by cases h; exact ⟨rfl, Or.inr (Or.inl rfl)⟩, apart_of_access rfl fun _ _ => nofun⟩
        · exact ⟨fun l x h => by cases h; exact ⟨rfl, Or.inr (Or.inr (Or.inl rfl))⟩, apart_of_access rfl fun _ _ => nofun⟩

theorem fan_length {f f' : FanIn.State} {o : FanIn.Op} (h : FanIn.step f o = some f') : f'.ws.length = f.ws.length := by
  cases o <;> simp only [FanIn.step] at h <;> repeat' split at h
  all_goals first
    | (cases h; done)
    | (cases h; simp)

/-- Every step keeps what is known. -/
theorem HexInv.step {P : Prog R} {M : Access P} {D : Disc P M} {n : Nat} {lines : List Str} {t : Trace} {s s' : State P} {o : Op}
    (h : HexInv cap D n lines t s) (hs : step P n s o = some s') : HexInv cap D n lines (t ++ events P M n lines s o) s' := by
  have hoff : ∀ {s s' k}, InvC cap n M.workers (D.holder s) (D.fin s) t → D.Reach s → P.shared.step s k = some s' →
      InvC cap n M.workers (D.holder s') (D.fin s') (t ++ acts (.off k) (M.acts s k)) ∧ D.Reach s' := fun {s s' k} hi hr hs => by
    obtain ⟨h1, h2, h3, h4, h5⟩ := D.step hr hs
    exact ⟨hi.off_step h2 h3 h4 h5, h1⟩
  cases s with
  | parsing p =>
    cases o with
    | chan o =>
      obtain ⟨p', h1, rfl⟩ := Option.map_eq_some_iff.1 hs
      exact InvP.step h h1
    | main =>
      simp only [HexRun.step] at hs
      split at hs
      · rename_i hp
        cases hs
        unfold startCheck
        split
        · exact (InvP.next (m := M.workers) h hp (fun _ => none) (fun _ => False)).free
        · rename_i vss hv
          obtain ⟨parts, h1, h2⟩ := Option.bind_eq_some_iff.1 hv
          exact ⟨InvP.next h hp _ _, D.start _, by simp [FanIn.init, (mapM_some h2).1, shares_length h1]⟩
      · cases hs
    | check o => cases hs
    | off k => cases hs
  | checking f s =>
    obtain ⟨hi, hr, hl⟩ := h
    cases o with
    | chan o => cases hs
    | main =>
      have he : t ++ events P M n lines (.checking f s) .main = t := by simp [events]
      rw [he]
      simp only [HexRun.step] at hs
      split at hs
      · cases hs
      · cases hs; exact ⟨hi, hr⟩
      · cases hs; exact ⟨hi, hr⟩
    | check o =>
      obtain ⟨f', h1, rfl⟩ := Option.map_eq_some_iff.1 hs
      refine ⟨?_, hr, (fan_length h1).trans hl⟩
      cases o with
      | work k =>
        simp only [events]
        split
        · rename_i w hk
          exact hi.harmless (Or.inr (Or.inr ⟨k, hl ▸ lt_of_get hk, rfl⟩)) (fun _ => nofun) fun a ha => chkActs_harmless ha
        · rw [List.append_nil]; exact hi
      | main =>
        refine hi.harmless (Or.inl rfl) (fun _ => nofun) fun a ha => ?_
        have hq : a = .wait .wgSum ∨ a = .close .vcs ∨ a = .recv .vcs := by
          simp only [List.mem_append, List.mem_cons, List.not_mem_nil, or_false] at ha
          rcases ha with (h | h) | h
          · exact Or.inl h
          · exact Or.inr (Or.inl h)
          · split at h
            · cases h
            · exact Or.inr (Or.inr (List.mem_singleton.1 h))
        rcases hq with rfl | rfl | rfl <;> exact ⟨fun l x h => (by cases h), fun _ => ⟨nofun, nofun⟩, fun _ _ _ => nofun⟩
    | off k =>
      obtain ⟨s', h1, rfl⟩ := Option.map_eq_some_iff.1 hs
      obtain ⟨h2, h3⟩ := hoff hi hr h1
      exact ⟨h2, h3, hl⟩
  | waiting s =>
    obtain ⟨hi, hr⟩ := h
    cases o with
    | chan o => cases hs
    | check o => cases hs
    | main =>
      simp only [HexRun.step] at hs
      split at hs
      · rename_i hd
        cases hs
        unfold startData
        split
        · exact (hi.next (c := 1) (scripts := []) (D.done hr hd) (Nat.zero_le _)).free
        · rename_i bss hb
          obtain ⟨parts, h1, h2⟩ := Option.bind_eq_some_iff.1 hb
          exact hi.next (D.done hr hd) (by rw [(mapM_some h2).1, shares_length h1]; exact Nat.le_refl _)
      · cases hs
    | off k =>
      obtain ⟨s', h1, rfl⟩ := Option.map_eq_some_iff.1 hs
      exact hoff hi hr h1
  | collecting p m =>
    cases o with
    | chan o =>
      simp only [HexRun.step] at hs
      split at hs
      · cases hs
      · rename_i p' h1
        split at hs
        · cases hs; exact InvD.step h h1
        · cases hs; exact InvD.step h h1
    | main =>
      have he : t ++ events P M n lines (.collecting p m) .main = t := by simp [events]
      rw [he]
      simp only [HexRun.step] at hs
      split at hs
      · cases hs; exact h
      · cases hs
    | check o => cases hs
    | off k => cases hs
  | returned out rest =>
    cases rest with
    | offsets s =>
      obtain ⟨hi, hr⟩ := h
      cases o with
      | off k =>
        obtain ⟨s', h1, rfl⟩ := Option.map_eq_some_iff.1 hs
        exact hoff hi hr h1
      | chan o => cases hs
      | check o => cases hs
      | main => cases hs
    | data p =>
      cases o with
      | chan o =>
        cases o with
        | send k =>
          obtain ⟨p', h1, rfl⟩ := Option.map_eq_some_iff.1 hs
          exact InvD.step h h1
        | close k =>
          obtain ⟨p', h1, rfl⟩ := Option.map_eq_some_iff.1 hs
          exact InvD.step (len := (parsed P n lines).flatten.length) h h1
        | recv => cases hs
        | handoff => cases hs
        | advance => cases hs
      | off k => cases hs
      | check o => cases hs
      | main => cases hs
  | crashed => cases o <;> cases hs

theorem HexInv.run {P : Prog R} {M : Access P} {D : Disc P M} {n : Nat} {lines : List Str} : ∀ {os : List Op} {t : Trace} {s : State P},
    HexInv cap D n lines t s → Free cap hexG (t ++ traceFrom P M n lines s os)
  | [], t, s, h => by simpa [traceFrom] using h.free
  | o :: os, t, s, h => by
    rw [traceFrom]
    split
    · simpa using h.free
    · rename_i s' hs
      rw [← List.append_assoc]
      exact HexInv.run (h.step hs)

/-! ### What is accessed -/

theorem pipe_own {Q : Pipe G Loc Sy} {α : Type} {p p' : Pipeline.State α} {o : Pipeline.Op} (hs : Pipeline.step p o = some p') {loc : Nat → List A} {got : List A}
    (hbt : ∀ k m, hexL (Q.bt k m) ∧ Q.bt k m ≠ .hexMap) (hw : ∀ k, hexG (Q.wk k)) (hc : Q.c = .rdH)
    (hloc : ∀ k, ∀ a ∈ loc k, ∀ l x, a.access = some (l, x) → (hexL l ∨ (l = .logger ∧ x = .read)) ∧ l ≠ .hexMap)
    (hgot : ∀ a ∈ got, ∀ l x, a.access = some (l, x) → hexL l) : ∀ e ∈ Q.events loc got p o, Own e ∧ hexG e.who := by
  intro e he
  rcases Pipe.mem_events hs he with ⟨k, _, h1, h2⟩ | ⟨h1, h2⟩
  · refine ⟨fun _ l x hx => ?_, h1 ▸ hw k⟩
    rcases h2 with h2 | ⟨m, h2⟩ | h2
    · obtain ⟨h3, h4⟩ := hloc k _ h2 l x hx
      exact ⟨h3, fun h => absurd h h4⟩
    · rw [h2] at hx; cases hx; exact ⟨Or.inl (hbt k m).1, fun h => absurd h (hbt k m).2⟩
    · rw [h2] at hx; cases hx
  · refine ⟨fun _ l x hx => ?_, by rw [h1, hc]; trivial⟩
    rcases h2 with h2 | ⟨k, m, h2⟩ | h2
    · exact ⟨Or.inl (hgot _ h2 l x hx), fun _ => h1.trans hc⟩
    · rw [h2] at hx; cases hx; exact ⟨Or.inl (hbt k m).1, fun _ => h1.trans hc⟩
    · rw [h2] at hx; cases hx

theorem recPipe_own {rss : List (List R)} {p p' : Pipeline.State (List R)} {o : Pipeline.Op} (hs : Pipeline.step p o = some p') :
    ∀ e ∈ recPipe.events (lineActs rss) recGot p o, Own e ∧ hexG e.who := by
  refine pipe_own hs (fun _ _ => ⟨trivial, nofun⟩) (fun _ => trivial) rfl ?_ ?_
  · intro k a ha l x h
    obtain ⟨l', x', h1, h2⟩ := lineActs_access ha
    obtain ⟨rfl, rfl⟩ := acc_eq h1 h
    rcases h2 with ⟨rfl | rfl, rfl⟩ | ⟨r, _, rfl | rfl, rfl⟩
    · exact ⟨Or.inl trivial, nofun⟩
    · exact ⟨Or.inr ⟨rfl, rfl⟩, nofun⟩
    · exact ⟨Or.inl trivial, nofun⟩
    · exact ⟨Or.inl trivial, nofun⟩
  · intro a ha l x h
    simp only [recGot, List.mem_cons, List.not_mem_nil, or_false] at ha
    rcases ha with rfl | rfl <;> cases h <;> trivial

theorem datPipe_own {len n : Nat} {p p' : Pipeline.State (List DataByte)} {o : Pipeline.Op} (hs : Pipeline.step p o = some p') :
    ∀ e ∈ datPipe.events (dataActs len n) datGot p o, Own e ∧ hexG e.who := by
  refine pipe_own hs (fun _ _ => ⟨trivial, nofun⟩) (fun _ => trivial) rfl ?_ ?_
  · intro k a ha l x h
    obtain ⟨l', h1, h2⟩ := dataActs_access ha
    obtain ⟨rfl, rfl⟩ := acc_eq h1 h
    rcases h2 with rfl | rfl | rfl | ⟨_, rfl⟩ | ⟨_, rfl⟩
    · exact ⟨Or.inl trivial, nofun⟩
    · exact ⟨Or.inl trivial, nofun⟩
    · exact ⟨Or.inr ⟨rfl, rfl⟩, nofun⟩
    · exact ⟨Or.inl trivial, nofun⟩
    · exact ⟨Or.inl trivial, nofun⟩
  · intro a ha l x h
    simp only [datGot, List.mem_cons, List.not_mem_nil, or_false] at ha
    rcases ha with rfl | rfl <;> cases h <;> trivial

theorem Does.own {as : List A} {k : Nat} {h h' : Nat → Option Nat} {f' : Prop} (hd : Does as k h h' f') : ∀ e ∈ acts (.off k) as, Own e ∧ hexG e.who := by
  intro e he
  obtain ⟨h1, h2⟩ := mem_acts.1 he
  have hq : e.act.access = none → Own e := fun h0 _ l x hx => by rw [h0] at hx; cases hx
  have hr : ∀ {l : Loc}, hexL l → l ≠ .hexMap → (∃ x, e.act.access = some (l, x)) → Own e := fun {l} hl hm ⟨x, hx⟩ _ l' x' hx' => by
    obtain ⟨rfl, rfl⟩ := acc_eq hx hx'; exact ⟨Or.inl hl, fun h => absurd h hm⟩
  refine ⟨?_, h1 ▸ trivial⟩
  cases hd with
  | use r bs g1 g2 =>
    subst g1
    rcases List.mem_cons.1 h2 with h | h
    · exact hr (l := .hexRecs) trivial nofun (by rw [h]; exact ⟨_, rfl⟩)
    · rcases g2 _ h with h | h | h
      · exact hr (l := .fixed r) trivial nofun (by rw [h]; exact ⟨_, rfl⟩)
      · exact hr (l := .offs r) trivial nofun (by rw [h]; exact ⟨_, rfl⟩)
      · exact hr (l := .offs r) trivial nofun (by rw [h]; exact ⟨_, rfl⟩)
  | lock r g1 =>
    subst g1
    simp only [List.mem_cons, List.not_mem_nil, or_false] at h2
    rcases h2 with h | h
    · exact hr (l := .hexRecs) trivial nofun (by rw [h]; exact ⟨_, rfl⟩)
    · exact hq (by rw [h]; rfl)
  | unlock r b g1 =>
    subst g1
    simp only [List.mem_append, List.mem_cons, List.not_mem_nil, or_false] at h2
    rcases h2 with (h | h) | h
    · exact hr (l := .hexRecs) trivial nofun (by rw [h]; exact ⟨_, rfl⟩)
    · exact hq (by rw [h]; rfl)
    · split at h
      · exact hq (by rw [List.mem_singleton.1 h]; rfl)
      · cases h
  | exit g1 =>
    subst g1
    simp only [List.mem_cons, List.not_mem_nil, or_false] at h2
    rcases h2 with h | h
    · exact hr (l := .hexRecs) trivial nofun (by rw [h]; exact ⟨_, rfl⟩)
    · exact hq (by rw [h]; rfl)

/-- All that happens is done by goroutines of the parser, in its own memory. -/
theorem HexInv.own {P : Prog R} {M : Access P} {D : Disc P M} {n : Nat} {lines : List Str} {t : Trace} {s s' : State P} {o : Op}
    (h : HexInv cap D n lines t s) (hs : HexRun.step P n s o = some s') : ∀ e ∈ events P M n lines s o, Own e ∧ hexG e.who := by
  have hq : ∀ {e : Ev}, hexG e.who → e.act.access = none → Own e ∧ hexG e.who := fun {e} hg h0 => ⟨fun _ l x hx => (by rw [h0] at hx; cases hx), hg⟩
  have hrecs : ∀ {e : Ev}, e.who = .rdH → e.act = .read .hexRecs → Own e ∧ hexG e.who := fun {e} hg h0 =>
    ⟨fun _ l x hx => by rw [h0] at hx; cases hx; exact ⟨Or.inl trivial, fun _ => hg⟩, by rw [hg]; trivial⟩
  have hoff : ∀ {s s' k}, D.Reach s → P.shared.step s k = some s' → ∀ e ∈ acts (.off k) (M.acts s k), Own e ∧ hexG e.who := fun {s s' k} hr hs =>
    (D.step hr hs).2.2.2.2.own
  cases s with
  | parsing p =>
    cases o with
    | chan o =>
      obtain ⟨p', h1, rfl⟩ := Option.map_eq_some_iff.1 hs
      exact recPipe_own h1
    | main =>
      intro e he
      obtain ⟨h1, h2⟩ := mem_acts.1 he
      rcases List.mem_cons.1 h2 with h2 | h2
      · exact hrecs h1 h2
      · obtain ⟨g, _, h2⟩ := List.mem_map.1 h2
        exact hq (by rw [h1]; trivial) (by rw [← h2]; rfl)
    | check o => cases hs
    | off k => cases hs
  | checking f s =>
    cases o with
    | chan o => cases hs
    | main => intro e he; simp [events] at he
    | check o =>
      cases o with
      | work k =>
        intro e he
        simp only [events] at he
        split at he
        · obtain ⟨h1, h2⟩ := mem_acts.1 he
          refine ⟨fun _ l x hx => ?_, by rw [h1]; trivial⟩
          obtain ⟨rfl, h3⟩ := (chkActs_harmless h2).1 l x hx
          rcases h3 with rfl | rfl | rfl | ⟨_, rfl⟩
          · exact ⟨Or.inl trivial, nofun⟩
          · exact ⟨Or.inl trivial, nofun⟩
          · exact ⟨Or.inr ⟨rfl, rfl⟩, nofun⟩
          · exact ⟨Or.inl trivial, nofun⟩
        · cases he
      | main =>
        intro e he
        obtain ⟨h1, h2⟩ := mem_acts.1 he
        refine hq (by rw [h1]; trivial) ?_
        simp only [List.mem_append, List.mem_cons, List.not_mem_nil, or_false] at h2
        rcases h2 with (h | h) | h
        · rw [h]; rfl
        · rw [h]; rfl
        · split at h
          · cases h
          · rw [List.mem_singleton.1 h]; rfl
    | off k =>
      obtain ⟨s', h1, rfl⟩ := Option.map_eq_some_iff.1 hs
      exact hoff h.2.1 h1
  | waiting s =>
    cases o with
    | chan o => cases hs
    | check o => cases hs
    | main =>
      intro e he
      obtain ⟨h1, h2⟩ := mem_acts.1 he
      rcases List.mem_append.1 h2 with h2 | h2
      · split at h2
        · cases h2
        · exact hq (by rw [h1]; trivial) (by rw [List.mem_singleton.1 h2]; rfl)
      · rcases List.mem_cons.1 h2 with h2 | h2
        · exact hrecs h1 h2
        · obtain ⟨g, _, h2⟩ := List.mem_map.1 h2
          exact hq (by rw [h1]; trivial) (by rw [← h2]; rfl)
    | off k =>
      obtain ⟨s', h1, rfl⟩ := Option.map_eq_some_iff.1 hs
      exact hoff h.2 h1
  | collecting p m =>
    cases o with
    | chan o =>
      simp only [HexRun.step] at hs
      split at hs
      · cases hs
      · rename_i p' h1
        exact datPipe_own h1
    | main => intro e he; simp [events] at he
    | check o => cases hs
    | off k => cases hs
  | returned out rest =>
    cases rest with
    | offsets s =>
      cases o with
      | off k =>
        obtain ⟨s', h1, rfl⟩ := Option.map_eq_some_iff.1 hs
        exact hoff h.2 h1
      | chan o => cases hs
      | check o => cases hs
      | main => cases hs
    | data p =>
      cases o with
      | chan o =>
        cases o with
        | send k =>
          obtain ⟨p', h1, rfl⟩ := Option.map_eq_some_iff.1 hs
          exact datPipe_own h1
        | close k =>
          obtain ⟨p', h1, rfl⟩ := Option.map_eq_some_iff.1 hs
          exact datPipe_own (len := (parsed P n lines).flatten.length) (n := n) h1
        | recv => cases hs
        | handoff => cases hs
        | advance => cases hs
      | off k => cases hs
      | check o => cases hs
      | main => cases hs
  | crashed => cases o <;> cases hs

theorem startEvents_own {n : Nat} : ∀ e ∈ startEvents n, Own e ∧ hexG e.who := by
  intro e he
  obtain ⟨h1, h2⟩ := mem_acts.1 he
  refine ⟨fun _ l x hx => ?_, by rw [h1]; trivial⟩
  simp only [List.mem_append, List.mem_cons, List.not_mem_nil, or_false, List.mem_map] at h2
  rcases h2 with (h | h | h) | ⟨k, _, h⟩
  · rw [h] at hx; cases hx; exact ⟨Or.inl trivial, nofun⟩
  · rw [h] at hx; cases hx; exact ⟨Or.inl trivial, fun _ => h1⟩
  · rw [h] at hx; cases hx; exact ⟨Or.inl trivial, nofun⟩
  · rw [← h] at hx; cases hx

theorem traceFrom_own {P : Prog R} {M : Access P} {D : Disc P M} {n : Nat} {lines : List Str} : ∀ {os : List Op} {t : Trace} {s : State P},
    HexInv cap D n lines t s → ∀ e ∈ traceFrom P M n lines s os, hexG e.who
  | [], t, s, h => by simp [traceFrom]
  | o :: os, t, s, h => by
    rw [traceFrom]
    split
    · simp
    · rename_i s' hs
      intro e he
      rcases List.mem_append.1 he with he | he
      · exact (h.own hs e he).2
      · exact traceFrom_own (h.step hs) e he

/-- No execution has a data race. -/
theorem not_racy {P : Prog R} {M : Access P} (D : Disc P M) (n : Nat) (lines : List Str) (os : List Op) : ¬ Racy cap (trace P M n lines os) := by
  have h0 : HexInv cap D n lines (startEvents n) (HexRun.init P n lines) := by
    have := HexInv.init (cap := cap) D n lines (t := []) (by simp)
    simpa using this
  have h1 := h0.run (os := os)
  have h2 : ∀ e ∈ trace P M n lines os, hexG e.who := by
    intro e he
    rcases List.mem_append.1 he with he | he
    · exact (startEvents_own e he).2
    · exact traceFrom_own h0 e he
  refine free_not_racy fun i j e f g1 g2 g3 _ _ g4 g5 => h1 i j e f g1 g2 g3 (h2 _ (List.mem_of_getElem? g1)) (h2 _ (List.mem_of_getElem? g2)) g4 g5

/-! ### The two parsers -/

open Ihex.Locks in
/-- The mutex of every record (ihex32/record.go:26, 64-79). -/
def ihexDisc (n : Nat) : Disc (ihex n) (ihexAccess n) where
  Reach := fun s => LockInv s ∧ (LState.workers s).length = n
  holder := fun s r => ((LState.locks s)[r]?).getD none
  fin := fun s k => ∃ w, (LState.workers s)[k]? = some w ∧ w.pc = .done
  start := fun recs => ⟨start_inv n recs, by show (Ihex.Locks.start n recs).workers.length = n; simp [Ihex.Locks.start]⟩
  done := fun {s} hr hd k hk => by
    have hk : k < (LState.workers s).length := hr.2 ▸ hk
    have := List.all_eq_true.1 hd _ (List.getElem_mem hk)
    exact ⟨_, List.getElem?_eq_getElem hk, by simpa using this⟩
  step := fun {s s' k} hr hs => by
    have hs' : Ihex.Locks.step s k = some s' := hs
    have hinv := step_inv hr.1 hs'
    revert hs'
    intro hs'
    unfold Ihex.Locks.step at hs'
    split at hs'
    · cases hs'
    · rename_i w hk
      have hkn : k < n := hr.2 ▸ lt_of_get hk
      have hhold : w.holds = true → ((LState.locks s)[w.pos]?).getD none = some k := fun hh => by
        rw [(hr.1.iff w.pos k).2 ⟨w, hk, hh, rfl⟩]; rfl
      have hnf : w.pc ≠ .done → ¬ ∃ w', (LState.workers s)[k]? = some w' ∧ w'.pc = .done := by
        rintro h ⟨w', h1, h2⟩
        rw [hk] at h1
        cases h1
        exact h h2
      have hother : ∀ w0 : LWorker, ∀ j, j ≠ k → (∃ w', ((LState.workers s).set k w0)[j]? = some w' ∧ w'.pc = .done) →
          ∃ w', (LState.workers s)[j]? = some w' ∧ w'.pc = .done := by
        rintro w0 j hj ⟨w', h1, h2⟩
        rcases get_set h1 with ⟨h, _⟩ | ⟨_, h1⟩
        · exact absurd h hj
        · exact ⟨w', h1, h2⟩
      have hself : ∀ w0 : LWorker, w0.pc ≠ .done → ¬ ∃ w', ((LState.workers s).set k w0)[k]? = some w' ∧ w'.pc = .done := by
        rintro w0 h0 ⟨w', h1, h2⟩
        rcases get_set h1 with ⟨_, rfl⟩ | ⟨h, _⟩
        · exact h0 h2
        · exact h rfl
      split at hs'
      · rename_i hpc
        split at hs'
        · rename_i hl
          cases hs'
          refine ⟨⟨hinv, by simpa using hr.2⟩, hkn, hnf (by rw [hpc]; nofun), hother _, .exit ?_ rfl⟩
          have : ¬ w.pos < (LState.locks s).length := fun h => by rw [List.getElem?_eq_getElem h] at hl; cases hl
          simp only [ihexAccess, hk, hpc, if_neg this]
        · rename_i hl
          cases hs'
          refine ⟨⟨hinv, by simpa using hr.2⟩, hkn, hnf (by rw [hpc]; nofun), hother _, .lock w.pos ?_ ?_ ?_ (hself _ nofun)⟩
          · simp only [ihexAccess, hk, hpc, if_pos (lt_of_get hl)]
          · rw [hl]; rfl
          · funext j
            simp only [List.getElem?_set]
            by_cases hj : j = w.pos
            · subst hj; simp [lt_of_get hl]
            · rw [if_neg hj, if_neg (Ne.symm hj)]
        · cases hs'
      · rename_i hpc
        split at hs'
        · cases hs'
        · rename_i r hrec
          cases hs'
          have hd : (decideBody r w).pc ≠ .done := fun h => by
            have := decideBody_holds r w
            simp [LWorker.holds, h] at this
          refine ⟨⟨hinv, by simpa using hr.2⟩, hkn, hnf (by rw [hpc]; nofun), hother _,
            .use w.pos [.read (.fixed w.pos), .read (.offs w.pos)] ?_ ?_ (hhold (by simp [LWorker.holds, hpc])) rfl (hself _ hd)⟩
          · simp only [ihexAccess, hk, hpc]
          · intro b hb
            simp only [List.mem_cons, List.not_mem_nil, or_false] at hb
            rcases hb with h | h
            · exact Or.inl h
            · exact Or.inr (Or.inl h)
      · rename_i hpc
        split at hs'
        · cases hs'
        · rename_i r hrec
          cases hs'
          refine ⟨⟨hinv, by simpa using hr.2⟩, hkn, hnf (by rw [hpc]; nofun), hother _,
            .use w.pos [.write (.offs w.pos)] ?_ ?_ (hhold (by simp [LWorker.holds, hpc])) rfl (hself _ nofun)⟩
          · simp only [ihexAccess, hk, hpc]
          · intro b hb
            exact Or.inr (Or.inr (List.mem_singleton.1 hb))
      · rename_i brk hpc
        cases hs'
        refine ⟨⟨hinv, by simpa using hr.2⟩, hkn, hnf (by rw [hpc]; nofun), hother _,
          .unlock w.pos brk ?_ (hhold (by simp [LWorker.holds, hpc])) ?_ ?_⟩
        · simp only [ihexAccess, hk, hpc]
        · funext j
          simp only [List.getElem?_set]
          by_cases hj : j = w.pos
          · subst hj
            simp only [if_pos]
            split <;> rfl
          · rw [if_neg hj, if_neg (Ne.symm hj)]
        · cases brk with
          | true => intro _; rfl
          | false => intro h; exact absurd h (hself _ nofun)
      · cases hs'

/-- S19: no goroutine changes records. -/
def srecDisc : Disc srec srecAccess where
  Reach := fun _ => True
  holder := fun _ _ => none
  fin := fun _ _ => True
  start := fun _ => trivial
  step := fun _ h => nomatch h
  done := fun _ _ _ _ => trivial

end Verif.Conc.Race.Hex
