import Verif.Conc.RaceA2l
import Verif.Conc.RaceHexProofs

/-! No execution of the A2L parser has a data race: what is known in every phase. -/

namespace Verif.Conc.Race.A2l
open Verif.Go Verif.A2l Lang Verif.Conc.A2lRun
open Verif.Conc.Race.Hex (Past.forks own_past acc_eq apart_of_access)

variable {cap : Sy → Nat}

/-- The goroutines of the A2L parser. -/
def a2lG : G → Prop
  | .rdA | .tok _ | .par _ _ | .closer _ | .coll _ _ => True
  | _ => False

/-- No message on a channel of the module parser. -/
def NoChan (q : Nat) (a : A) : Prop := ∀ q' c, q ≤ q' → a ≠ .send (.chan q' c) ∧ a ≠ .recv (.chan q' c)

/-- The event belongs to other goroutines and to nothing that the A2L parser uses. -/
def Foreign (e : Ev) : Prop := ¬ a2lG e.who ∧ tokPipe.Apart e.act ∧ NoChan 0 e.act

/-- No access, or one to the logger. -/
def Light (a : A) : Prop := a.access = none ∨ a.access = some (.logger, .read)

/-- The logger is not changed. -/
def Mild (a : A) : Prop := ∀ x, a.access = some (.logger, x) → x = .read

theorem Light.conflict {a b : A} (h : Light a) (hb : Mild b) : ¬ Conflict a b := by
  rintro ⟨l, x, y, h1, h2, h3, _⟩
  rcases h with h | h <;> rw [h] at h1 <;> cases h1
  exact h3 ⟨rfl, hb _ h2⟩

theorem Light.mild {a : A} (h : Light a) : Mild a := by
  intro x hx
  rcases h with h | h <;> rw [h] at hx <;> cases hx
  rfl

/-- The calls of `parseModuleMultithreaded` from number `q` on have not begun. -/
def Fresh (q : Nat) (t : Trace) : Prop :=
  ∀ e ∈ t, NoChan q e.act ∧ ∀ q', q ≤ q' → (∀ k, e.who ≠ .par q' k) ∧ e.who ≠ .closer q' ∧ ∀ c, e.who ≠ .coll q' c

theorem Fresh.append {q : Nat} {t u : Trace} (h : Fresh q t) (h' : Fresh q u) : Fresh q (t ++ u) := by
  intro e he
  rcases List.mem_append.1 he with he | he
  · exact h e he
  · exact h' e he

theorem Fresh.mono {q r : Nat} {t : Trace} (h : Fresh q t) (hq : q ≤ r) : Fresh r t := fun e he =>
  ⟨fun q' c hq' => (h e he).1 q' c (Nat.le_trans hq hq'), fun q' hq' => (h e he).2 q' (Nat.le_trans hq hq')⟩

theorem NoChan.mono {q r : Nat} {a : A} (h : NoChan q a) (hq : q ≤ r) : NoChan r a := fun q' c hq' => h q' c (Nat.le_trans hq hq')

theorem noChan_access {q : Nat} {a : A} {l : Loc} {x : Kind} (h : a.access = some (l, x)) : NoChan q a := by
  intro q' c _
  constructor <;> rintro rfl <;> cases h

theorem fresh_acts {q : Nat} {g : G} {as : List A} (hg : ∀ q', q ≤ q' → (∀ k, g ≠ .par q' k) ∧ g ≠ .closer q' ∧ ∀ c, g ≠ .coll q' c)
    (has : ∀ a ∈ as, NoChan q a) : Fresh q (acts g as) := by
  intro e he
  obtain ⟨h1, h2⟩ := mem_acts.1 he
  rw [h1]
  exact ⟨has _ h2, hg⟩

theorem fresh_foreign {q : Nat} {e : Ev} (he : Foreign e) : Fresh q [e] := by
  intro f hf
  cases List.mem_singleton.1 hf
  refine ⟨he.2.2.mono (Nat.zero_le q), fun q' _ => ⟨fun k hk => he.1 (hk ▸ trivial), fun hk => he.1 (hk ▸ trivial), fun k hk => he.1 (hk ▸ trivial)⟩⟩

/-! ### The main goroutine is in `parseA2l` -/

structure InvM (cap : Sy → Nat) (q : Nat) (t : Trace) : Prop where
  free : Free cap a2lG t
  settled : ∀ {i : Nat} {e : Ev}, t[i]? = some e → a2lG e.who → Light e.act ∨ Past cap t .rdA i
  fresh : Fresh q t

theorem InvM.acts {q : Nat} {t : Trace} (h : InvM cap q t) {as : List A} (hm : ∀ a ∈ as, Mild a) (hc : ∀ a ∈ as, NoChan q a) : InvM cap q (t ++ acts .rdA as) where
  free := h.free.acts fun a ha i f h1 h2 h3 h4 => by
    rcases h.settled h1 h2 with h5 | h5
    · exact absurd h4 (h5.conflict (hm a ha))
    · exact h5
  settled := fun {i e} h1 h2 => by
    rcases at_acts h1 with h3 | ⟨_, h3, _⟩
    · exact (h.settled h3 h2).imp id Past.append
    · exact Or.inr (own_past h1 h3)
  fresh := h.fresh.append (fresh_acts (fun _ _ => ⟨fun _ => nofun, nofun, fun _ => nofun⟩) hc)

theorem InvM.foreign {q : Nat} {t : Trace} (h : InvM cap q t) {e : Ev} (he : Foreign e) : InvM cap q (t ++ [e]) where
  free := h.free.snoc fun h' => absurd h' he.1
  settled := fun {i f} h1 h2 => by
    rcases at_snoc h1 with h3 | ⟨_, rfl⟩
    · exact (h.settled h3 h2).imp id Past.append
    · exact absurd h2 he.1
  fresh := h.fresh.append (fresh_foreign he)

theorem InvM.mono {q r : Nat} {t : Trace} (h : InvM cap q t) (hq : q ≤ r) : InvM cap r t := ⟨h.free, h.settled, h.fresh.mono hq⟩

/-! ### The goroutines of the tokenizer -/

theorem tokPipe_distinct : tokPipe.Distinct where
  wk := fun h => G.tok.inj h
  ch := fun h => Sy.tokens.inj h
  bt := fun h => Loc.piece.inj h
  c := fun _ => nofun

/-- What a goroutine of the tokenizer accesses. -/
def TokLoc (k : Nat) (l : Loc) (x : Kind) : Prop :=
  ((l = .logger ∨ l = .a2lLines) ∧ x = .read) ∨ (l = .moduleCount ∧ x = .atomic) ∨ (l = .chars k ∧ x = .write)

theorem tokActs_access {k : Nat} {a : A} (h : a ∈ tokActs k) : ∃ l x, a.access = some (l, x) ∧ TokLoc k l x := by
  simp only [tokActs, List.mem_cons, List.not_mem_nil, or_false] at h
  rcases h with rfl | rfl | rfl | rfl
  · exact ⟨_, _, rfl, Or.inl ⟨Or.inl rfl, rfl⟩⟩
  · exact ⟨_, _, rfl, Or.inl ⟨Or.inr rfl, rfl⟩⟩
  · exact ⟨_, _, rfl, Or.inr (Or.inl ⟨rfl, rfl⟩)⟩
  · exact ⟨_, _, rfl, Or.inr (Or.inr ⟨rfl, rfl⟩)⟩

theorem tokGot_access {a : A} (h : a ∈ tokGot) : ∃ x, a.access = some (.tokenList, x) := by
  simp only [tokGot, List.mem_cons, List.not_mem_nil, or_false] at h
  rcases h with rfl | rfl <;> exact ⟨_, rfl⟩

structure InvT (cap : Sy → Nat) (np : Nat) (p : Pipeline.State (List Str)) (t : Trace) : Prop where
  pipe : PipeInv cap tokPipe p t
  len : p.ws.length = np
  free : Free cap a2lG t
  who : ∀ {i : Nat} {e : Ev}, t[i]? = some e → a2lG e.who → e.who = .rdA ∨ ∃ k, k < np ∧ e.who = .tok k
  tok : ∀ {i : Nat} {e : Ev} {k : Nat} {l : Loc} {x : Kind}, t[i]? = some e → e.who = .tok k → e.act.access = some (l, x) → TokLoc k l x ∨ ∃ m, l = .piece k m
  main : ∀ {i : Nat} {e : Ev} {l : Loc} {x : Kind}, t[i]? = some e → e.who = .rdA → e.act.access = some (l, x) →
    l = .tokenList ∨ (∃ k m, l = .piece k m) ∨ (l = .logger ∧ x = .read) ∨ ((l = .a2lLines ∨ l = .moduleCount) ∧ ∀ k, k < np → Past cap t (.tok k) i)
  fresh : Fresh 0 t

theorem pipe_fresh {p p' : Pipeline.State (List Str)} {o : Pipeline.Op} (hs : Pipeline.step p o = some p') : Fresh 0 (tokPipe.events tokActs tokGot p o) := by
  have hl : ∀ {k : Nat} {a : A}, a ∈ tokActs k → NoChan 0 a := fun ha => by
    obtain ⟨l, x, h, _⟩ := tokActs_access ha
    exact noChan_access h
  have hg : ∀ {a : A}, a ∈ tokGot → NoChan 0 a := fun ha => by
    obtain ⟨x, h⟩ := tokGot_access ha
    exact noChan_access h
  have w1 : ∀ k q', 0 ≤ q' → (∀ j, tokPipe.wk k ≠ .par q' j) ∧ tokPipe.wk k ≠ .closer q' ∧ ∀ c, tokPipe.wk k ≠ .coll q' c :=
    fun _ _ _ => ⟨fun _ => nofun, nofun, fun _ => nofun⟩
  have w2 : ∀ q', 0 ≤ q' → (∀ j, tokPipe.c ≠ .par q' j) ∧ tokPipe.c ≠ .closer q' ∧ ∀ c, tokPipe.c ≠ .coll q' c :=
    fun _ _ => ⟨fun _ => nofun, nofun, fun _ => nofun⟩
  have n1 : ∀ k, NoChan 0 (.send (tokPipe.ch k)) := fun _ _ _ _ => ⟨nofun, nofun⟩
  have n2 : ∀ k, NoChan 0 (.recv (tokPipe.ch k)) := fun _ _ _ _ => ⟨nofun, nofun⟩
  cases o with
  | send k =>
    simp only [Pipe.events]
    split
    · refine fresh_acts (w1 k) fun a ha => ?_
      simp only [List.mem_append, List.mem_cons, List.not_mem_nil, or_false] at ha
      rcases ha with ha | rfl | rfl
      · exact hl ha
      · exact noChan_access rfl
      · exact n1 k
    · exact nofun
  | close k =>
    simp only [Pipe.events]
    refine fresh_acts (w1 k) fun a ha => ?_
    cases List.mem_singleton.1 ha
    exact fun _ _ _ => ⟨nofun, nofun⟩
  | recv =>
    simp only [Pipe.events]
    split
    · refine fresh_acts w2 fun a ha => ?_
      simp only [List.mem_cons] at ha
      rcases ha with rfl | rfl | ha
      · exact n2 _
      · exact noChan_access rfl
      · exact hg ha
    · exact nofun
  | handoff =>
    simp only [Pipe.events]
    split
    · refine Fresh.append (fresh_acts (w1 _) fun a ha => ?_) (fresh_acts w2 fun a ha => ?_)
      · simp only [List.mem_append, List.mem_cons, List.not_mem_nil, or_false] at ha
        rcases ha with ha | rfl | rfl
        · exact hl ha
        · exact noChan_access rfl
        · exact n1 _
      · simp only [List.mem_cons] at ha
        rcases ha with rfl | rfl | ha
        · exact n2 _
        · exact noChan_access rfl
        · exact hg ha
    · exact nofun
  | advance =>
    simp only [Pipe.events]
    refine fresh_acts w2 fun a ha => ?_
    cases List.mem_singleton.1 ha
    exact fun _ _ _ => ⟨nofun, nofun⟩

theorem InvT.step {np : Nat} {p p' : Pipeline.State (List Str)} {t : Trace} (h : InvT cap np p t) {o : Pipeline.Op} (hs : Pipeline.step p o = some p') :
    InvT cap np p' (t ++ tokPipe.events tokActs tokGot p o) := by
  have hloc : ∀ k, k < p.ws.length → ∀ a ∈ tokActs k, tokPipe.Apart a ∧ Clear cap a2lG t (tokPipe.wk k) a := by
    intro k hk a ha
    obtain ⟨l, x, hl, hx⟩ := tokActs_access ha
    refine ⟨apart_of_access hl fun k' m => ?_, ?_⟩
    · rcases hx with ⟨rfl | rfl, _⟩ | ⟨rfl, _⟩ | ⟨rfl, _⟩ <;> exact nofun
    · rintro i f h1 h2 h3 ⟨l', y, z, h4, h5, h6, h7⟩
      obtain ⟨rfl, rfl⟩ := acc_eq hl h5
      rcases h.who h1 h2 with hw | ⟨j, hj, hw⟩
      · rcases h.main h1 hw h4 with rfl | ⟨_, _, rfl⟩ | ⟨rfl, rfl⟩ | ⟨hl', hp⟩
        · rcases hx with ⟨h | h, _⟩ | ⟨h, _⟩ | ⟨h, _⟩ <;> cases h
        · rcases hx with ⟨h | h, _⟩ | ⟨h, _⟩ | ⟨h, _⟩ <;> cases h
        · rcases hx with ⟨_, rfl⟩ | ⟨h, _⟩ | ⟨h, _⟩
          · exact absurd ⟨rfl, rfl⟩ h6
          · cases h
          · cases h
        · exact hp k (h.len ▸ hk)
      · have hjk : j ≠ k := by rintro rfl; exact h3 hw
        rcases h.tok h1 hw h4 with (⟨hl', rfl⟩ | ⟨hl', rfl⟩ | ⟨hl', rfl⟩) | ⟨m, hl'⟩
        · rcases hx with ⟨_, rfl⟩ | ⟨h, _⟩ | ⟨h, _⟩
          · exact absurd ⟨rfl, rfl⟩ h6
          · rw [h] at hl'; rcases hl' with h | h <;> cases h
          · rw [h] at hl'; rcases hl' with h | h <;> cases h
        · subst hl'
          rcases hx with ⟨h | h, _⟩ | ⟨_, rfl⟩ | ⟨h, _⟩
          · cases h
          · cases h
          · exact absurd ⟨rfl, rfl⟩ h7
          · cases h
        · subst hl'
          rcases hx with ⟨h | h, _⟩ | ⟨h, _⟩ | ⟨h, _⟩
          · cases h
          · cases h
          · cases h
          · cases h; exact absurd rfl hjk
        · subst hl'
          rcases hx with ⟨h | h, _⟩ | ⟨h, _⟩ | ⟨h, _⟩ <;> cases h
  have hgot : ∀ a ∈ tokGot, tokPipe.Apart a ∧ Clear cap a2lG t tokPipe.c a := by
    intro a ha
    obtain ⟨x, hl⟩ := tokGot_access ha
    refine ⟨apart_of_access hl fun k' m => nofun, ?_⟩
    rintro i f h1 h2 h3 ⟨l', y, z, h4, h5, h6, h7⟩
    obtain ⟨rfl, rfl⟩ := acc_eq hl h5
    rcases h.who h1 h2 with hw | ⟨j, hj, hw⟩
    · exact absurd hw h3
    · rcases h.tok h1 hw h4 with (⟨h | h, _⟩ | ⟨h, _⟩ | ⟨h, _⟩) | ⟨m, h⟩ <;> cases h
  have hlg : ∀ k, ∀ a ∈ tokActs k, ∀ b ∈ tokGot, ¬ Conflict a b := by
    rintro k a ha b hb ⟨l, y, z, h4, h5, _⟩
    obtain ⟨l', x, hl, hx⟩ := tokActs_access ha
    obtain ⟨rfl, rfl⟩ := acc_eq hl h4
    obtain ⟨x', hb'⟩ := tokGot_access hb
    obtain ⟨rfl, rfl⟩ := acc_eq hb' h5
    rcases hx with ⟨h | h, _⟩ | ⟨h, _⟩ | ⟨h, _⟩ <;> cases h
  obtain ⟨h1, h2⟩ := h.pipe.step tokPipe_distinct h.free hs hloc hgot hlg
  have hm := @Pipe.mem_events G Loc Sy _ _ tokPipe p p' o hs tokActs tokGot
  refine ⟨h1, (Pipe.length_step hs).trans h.len, h2, ?_, ?_, ?_, h.fresh.append (pipe_fresh hs)⟩
  · intro i e he hg
    rcases at_append he with he | ⟨_, he⟩
    · exact h.who he hg
    · rcases hm (List.mem_of_getElem? he) with ⟨k, hk, hw, _⟩ | ⟨hw, _⟩
      · exact Or.inr ⟨k, h.len ▸ hk, hw⟩
      · exact Or.inl hw
  · intro i e k l x he hw hx
    rcases at_append he with he | ⟨_, he⟩
    · exact h.tok he hw hx
    · rcases hm (List.mem_of_getElem? he) with ⟨k', hk, hw', ha⟩ | ⟨hw', _⟩
      · obtain rfl : k = k' := G.tok.inj (hw.symm.trans hw')
        rcases ha with ha | ⟨m, ha⟩ | ha
        · obtain ⟨l', x', hl, hx'⟩ := tokActs_access ha
          obtain ⟨rfl, rfl⟩ := acc_eq hl hx
          exact Or.inl hx'
        · rw [ha] at hx; cases hx; exact Or.inr ⟨m, rfl⟩
        · rw [ha] at hx; cases hx
      · rw [hw] at hw'; cases hw'
  · intro i e l x he hw hx
    rcases at_append he with he | ⟨_, he⟩
    · rcases h.main he hw hx with h | h | h | ⟨h, h'⟩
      · exact Or.inl h
      · exact Or.inr (Or.inl h)
      · exact Or.inr (Or.inr (Or.inl h))
      · exact Or.inr (Or.inr (Or.inr ⟨h, fun k hk => (h' k hk).append⟩))
    · rcases hm (List.mem_of_getElem? he) with ⟨k', hk, hw', ha⟩ | ⟨hw', ha⟩
      · rw [hw] at hw'; cases hw'
      · rcases ha with ha | ⟨k, m, ha⟩ | ha
        · obtain ⟨x', hl⟩ := tokGot_access ha
          exact Or.inl (acc_eq hl hx).1
        · rw [ha] at hx; cases hx; exact Or.inr (Or.inl ⟨k, m, rfl⟩)
        · rw [ha] at hx; cases hx

theorem InvT.foreign {np : Nat} {p : Pipeline.State (List Str)} {t : Trace} (h : InvT cap np p t) {e : Ev} (he : Foreign e) : InvT cap np p (t ++ [e]) := by
  have hg : ∀ {i : Nat} {f : Ev}, (t ++ [e])[i]? = some f → a2lG f.who → t[i]? = some f := fun {i f} h1 h2 => by
    rcases at_snoc h1 with h1 | ⟨_, rfl⟩
    · exact h1
    · exact absurd h2 he.1
  refine ⟨h.pipe.alien ?_, h.len, h.free.snoc fun h' => absurd h' he.1, fun h1 h2 => h.who (hg h1 h2) h2,
    fun h1 h2 h3 => h.tok (hg h1 (h2 ▸ trivial)) h2 h3, fun h1 h2 h3 => ?_, h.fresh.append (fresh_foreign he)⟩
  · intro f hf
    cases List.mem_singleton.1 hf
    exact ⟨fun k hk => he.1 (show a2lG e.who by rw [hk]; trivial), he.2.1⟩
  · rcases h.main (hg h1 (h2 ▸ trivial)) h2 h3 with h | h | h | ⟨h, h'⟩
    · exact Or.inl h
    · exact Or.inr (Or.inl h)
    · exact Or.inr (Or.inr (Or.inl h))
    · exact Or.inr (Or.inr (Or.inr ⟨h, fun k hk => (h' k hk).append⟩))

theorem InvT.init {np c : Nat} {tss : List (List Str)} (hl : tss.length = np) {t : Trace} (ht : ∀ e ∈ t, Foreign e) :
    InvT cap np (Pipeline.init c (tss.map fun r => [r])) (t ++ startEvents np) := by
  have hsplit : t ++ startEvents np = t ++ acts .rdA [.read .logger, .write .a2lLines, .write .moduleCount, .write .tokenList] ++ acts .rdA (((List.range np).map G.tok).map .go) := by
    rw [startEvents, acts_append, List.append_assoc, List.map_map]; rfl
  have hm : ∀ e ∈ startEvents np, e.who = .rdA ∧ (e.act = .read .logger ∨ e.act = .write .a2lLines ∨ e.act = .write .moduleCount ∨ e.act = .write .tokenList ∨ ∃ k, e.act = .go (.tok k)) := by
    intro e he
    simp only [startEvents, mem_acts, List.mem_append, List.mem_cons, List.not_mem_nil, or_false, List.mem_map] at he
    refine ⟨he.1, ?_⟩
    rcases he.2 with (h | h | h | h) | ⟨k, _, h⟩
    · exact Or.inl h
    · exact Or.inr (Or.inl h)
    · exact Or.inr (Or.inr (Or.inl h))
    · exact Or.inr (Or.inr (Or.inr (Or.inl h)))
    · exact Or.inr (Or.inr (Or.inr (Or.inr ⟨k, h.symm⟩)))
  have hnew : ∀ {i : Nat} {e : Ev}, (t ++ startEvents np)[i]? = some e → a2lG e.who → e ∈ startEvents np := fun {i e} h1 h2 => by
    rcases at_append h1 with h1 | ⟨_, h1⟩
    · exact absurd h2 (ht _ (List.mem_of_getElem? h1)).1
    · exact List.mem_of_getElem? h1
  have hpast : ∀ {i : Nat} {e : Ev} {l : Loc}, (t ++ startEvents np)[i]? = some e → e.who = .rdA → e.act = .write l → ∀ k, k < np → Past cap (t ++ startEvents np) (.tok k) i := by
    intro i e l h1 h2 h3 k hk
    rw [hsplit] at h1 ⊢
    rcases at_acts h1 with h1 | ⟨_, _, h1⟩
    · exact Past.forks (own_past h1 h2) _ (List.mem_map.2 ⟨k, List.mem_range.2 hk, rfl⟩)
    · rw [h3] at h1
      simp at h1
  refine ⟨PipeInv.init _ _ ?_, by simp [Pipeline.init, hl], ?_, ?_, ?_, ?_, ?_⟩
  · intro e he
    rcases List.mem_append.1 he with he | he
    · exact ⟨fun k hk => (ht e he).1 (show a2lG e.who by rw [hk]; trivial), (ht e he).2.1⟩
    · obtain ⟨h1, h2⟩ := hm e he
      refine ⟨fun k hk => (by rw [hk] at h1; cases h1), ?_⟩
      rcases h2 with h | h | h | h | ⟨k, h⟩ <;> rw [h] <;> exact ⟨fun _ => ⟨nofun, nofun⟩, fun _ _ _ => nofun⟩
  · have h0 : Free cap a2lG t := by
      intro i j e f h1 h2 h3 h4
      exact absurd h4 (ht _ (List.mem_of_getElem? h1)).1
    refine h0.acts ?_
    intro a ha i f h1 h2
    exact absurd h2 (ht _ (List.mem_of_getElem? h1)).1
  · intro i e h1 h2
    exact Or.inl (hm e (hnew h1 h2)).1
  · intro i e k l x h1 h2 h3
    have := (hm e (hnew h1 (h2 ▸ trivial))).1
    rw [h2] at this
    cases this
  · intro i e l x h1 h2 h3
    obtain ⟨h4, h5⟩ := hm e (hnew h1 (h2 ▸ trivial))
    rcases h5 with h | h | h | h | ⟨k, h⟩
    · rw [h] at h3; cases h3; exact Or.inr (Or.inr (Or.inl ⟨rfl, rfl⟩))
    · have := hpast h1 h2 h
      rw [h] at h3; cases h3; exact Or.inr (Or.inr (Or.inr ⟨Or.inl rfl, this⟩))
    · have := hpast h1 h2 h
      rw [h] at h3; cases h3; exact Or.inr (Or.inr (Or.inr ⟨Or.inr rfl, this⟩))
    · rw [h] at h3; cases h3; exact Or.inl rfl
    · rw [h] at h3; cases h3
  · refine Fresh.append (fun e he => fresh_foreign (ht e he) e (by simp)) ?_
    intro e he
    obtain ⟨h1, h2⟩ := hm e he
    refine ⟨?_, fun q' _ => (by rw [h1]; exact ⟨fun _ => nofun, nofun, fun _ => nofun⟩)⟩
    rcases h2 with h | h | h | h | ⟨k, h⟩ <;> rw [h] <;> exact fun _ _ _ => ⟨nofun, nofun⟩

/-- All tokens have been collected. -/
theorem InvT.next {np : Nat} {p : Pipeline.State (List Str)} {t : Trace} (h : InvT cap np p t) (hp : p.pos = p.ws.length) : InvM cap 0 t where
  free := h.free
  settled := fun {i e} h1 h2 => by
    rcases h.who h1 h2 with h3 | ⟨k, hk, h3⟩
    · exact Or.inr (own_past h1 h3)
    · exact Or.inr (h.pipe.joined (k := k) (by rw [hp, h.len]; exact hk) h1 h3)
  fresh := h.fresh

/-! ### The goroutines of the module parser -/

/-- Memory that the goroutines of the module parser only read. -/
def SharedLoc (l : Loc) : Prop := l = .logger ∨ l = .a2lLines ∨ l = .tokenList ∨ ∃ k, l = .chars k

/-- What a worker accesses: what it has parsed was sent after that. -/
def ParOk (cap : Sy → Nat) (q : Nat) (t : Trace) (i : Nat) (l : Loc) (x : Kind) : Prop :=
  (x = .read ∧ SharedLoc l) ∨ ∃ c m, l = .object q c m ∧ x = .write ∧ m < sends t (.chan q c) ∧
    ∃ j g, Le cap t i j ∧ t[j]? = some ⟨g, .send (.chan q c)⟩ ∧ sends (t.take j) (.chan q c) = m

/-- What a collector accesses. -/
def CollOk (q c : Nat) (t : Trace) (l : Loc) (x : Kind) : Prop :=
  (x = .read ∧ SharedLoc l) ∨ (∃ m, l = .object q c m ∧ x = .read ∧ m < recvs t (.chan q c)) ∨ l = .field q (fieldOf c)

theorem ParOk.append {q : Nat} {t u : Trace} {i : Nat} {l : Loc} {x : Kind} (h : ParOk cap q t i l x) : ParOk cap q (t ++ u) i l x := by
  rcases h with h | ⟨c, m, h1, h2, h3, j, g, h4, h5, h6⟩
  · exact Or.inl h
  · refine Or.inr ⟨c, m, h1, h2, by rw [sends_append]; omega, j, g, h4.append, getElem?_append h5, ?_⟩
    rw [take_append (lt_of_get h5)]; exact h6

theorem CollOk.append {q c : Nat} {t u : Trace} {l : Loc} {x : Kind} (h : CollOk q c t l x) : CollOk q c (t ++ u) l x := by
  rcases h with h | ⟨m, h1, h2, h3⟩ | h
  · exact Or.inl h
  · exact Or.inr (Or.inl ⟨m, h1, h2, by rw [recvs_append]; omega⟩)
  · exact Or.inr (Or.inr h)

/-- What is known of the events while call number `q` of the module parser is executed. -/
structure Crew (cap : Sy → Nat) (np q : Nat) (t : Trace) : Prop where
  free : Free cap a2lG t
  fresh : Fresh (q + 1) t
  cls : ∀ {i : Nat} {e : Ev}, t[i]? = some e → a2lG e.who →
    Light e.act ∨ (∀ g ∈ G.rdA :: crew np q, Past cap t g i) ∨ (∃ k, e.who = .par q k) ∨ ∃ c, e.who = .coll q c
  par : ∀ {i : Nat} {e : Ev} {k : Nat} {l : Loc} {x : Kind}, t[i]? = some e → e.who = .par q k → e.act.access = some (l, x) → ParOk cap q t i l x
  coll : ∀ {i : Nat} {e : Ev} {c : Nat} {l : Loc} {x : Kind}, t[i]? = some e → e.who = .coll q c → e.act.access = some (l, x) → CollOk q c t l x
  parlt : ∀ {i : Nat} {e : Ev} {k : Nat}, t[i]? = some e → e.who = .par q k → k < np
  colllt : ∀ {i : Nat} {e : Ev} {c : Nat}, t[i]? = some e → e.who = .coll q c → c < numChans

/-- The fields of different collectors are different. -/
theorem fieldOf_inj {c d : Nat} (hc : c < numChans) (hd : d < numChans) (h : fieldOf c = fieldOf d) : c = d := by
  have key : ∀ c < numChans, ∀ d < numChans, fieldOf c = fieldOf d → c = d := by decide +kernel
  exact key c hc d hd h

/-- One more event that is neither an access to memory nor a message of a later call. -/
theorem Crew.quiet {np q : Nat} {t : Trace} (h : Crew cap np q t) {e : Ev} (ha : e.act.access = none) (hc : NoChan (q + 1) e.act)
    (hw : ∀ q', q + 1 ≤ q' → (∀ k, e.who ≠ .par q' k) ∧ e.who ≠ .closer q' ∧ ∀ c, e.who ≠ .coll q' c)
    (hp : ∀ k, e.who = .par q k → k < np) (hl : ∀ c, e.who = .coll q c → c < numChans) : Crew cap np q (t ++ [e]) where
  free := h.free.snoc fun _ i f _ _ _ h4 => by
    obtain ⟨l, x, y, _, h5, _⟩ := h4
    rw [ha] at h5; cases h5
  fresh := h.fresh.append fun f hf => by cases List.mem_singleton.1 hf; exact ⟨hc, hw⟩
  cls := fun {i f} h1 h2 => by
    rcases at_snoc h1 with h3 | ⟨_, rfl⟩
    · rcases h.cls h3 h2 with h | h | h
      · exact Or.inl h
      · exact Or.inr (Or.inl fun g hg => (h g hg).append)
      · exact Or.inr (Or.inr h)
    · exact Or.inl (Or.inl ha)
  par := fun {i f k l x} h1 h2 h3 => by
    rcases at_snoc h1 with h4 | ⟨_, rfl⟩
    · exact (h.par h4 h2 h3).append
    · rw [ha] at h3; cases h3
  coll := fun {i f k l x} h1 h2 h3 => by
    rcases at_snoc h1 with h4 | ⟨_, rfl⟩
    · exact (h.coll h4 h2 h3).append
    · rw [ha] at h3; cases h3
  parlt := fun {i f k} h1 h2 => by
    rcases at_snoc h1 with h4 | ⟨_, rfl⟩
    · exact h.parlt h4 h2
    · exact hp k h2
  colllt := fun {i f k} h1 h2 => by
    rcases at_snoc h1 with h4 | ⟨_, rfl⟩
    · exact h.colllt h4 h2
    · exact hl k h2

theorem Crew.foreign {np q : Nat} {t : Trace} (h : Crew cap np q t) {e : Ev} (he : Foreign e) : Crew cap np q (t ++ [e]) where
  free := h.free.snoc fun h' => absurd h' he.1
  fresh := h.fresh.append (fresh_foreign he)
  cls := fun {i f} h1 h2 => by
    rcases at_snoc h1 with h3 | ⟨_, rfl⟩
    · rcases h.cls h3 h2 with h | h | h
      · exact Or.inl h
      · exact Or.inr (Or.inl fun g hg => (h g hg).append)
      · exact Or.inr (Or.inr h)
    · exact absurd h2 he.1
  par := fun {i f k l x} h1 h2 h3 => by
    rcases at_snoc h1 with h4 | ⟨_, rfl⟩
    · exact (h.par h4 h2 h3).append
    · exact absurd (h2 ▸ trivial) he.1
  coll := fun {i f k l x} h1 h2 h3 => by
    rcases at_snoc h1 with h4 | ⟨_, rfl⟩
    · exact (h.coll h4 h2 h3).append
    · exact absurd (h2 ▸ trivial) he.1
  parlt := fun {i f k} h1 h2 => by
    rcases at_snoc h1 with h4 | ⟨_, rfl⟩
    · exact h.parlt h4 h2
    · exact absurd (h2 ▸ trivial) he.1
  colllt := fun {i f k} h1 h2 => by
    rcases at_snoc h1 with h4 | ⟨_, rfl⟩
    · exact h.colllt h4 h2
    · exact absurd (h2 ▸ trivial) he.1

theorem mem_crew {np q : Nat} {g : G} : g ∈ crew np q ↔ (∃ k, k < np ∧ g = .par q k) ∨ g = .closer q ∨ ∃ c, c < numChans ∧ g = .coll q c := by
  simp only [crew, List.mem_append, List.mem_map, List.mem_range, List.mem_cons]
  constructor
  · rintro (⟨k, h, rfl⟩ | h | ⟨k, h, rfl⟩)
    · exact Or.inl ⟨k, h, rfl⟩
    · exact Or.inr (Or.inl h)
    · exact Or.inr (Or.inr ⟨k, h, rfl⟩)
  · rintro (⟨k, h, rfl⟩ | h | ⟨k, h, rfl⟩)
    · exact Or.inl ⟨k, h, rfl⟩
    · exact Or.inr (Or.inl h)
    · exact Or.inr (Or.inr ⟨k, h, rfl⟩)

/-- A goroutine of the module parser reads. -/
theorem Crew.read {np q : Nat} {t : Trace} (h : Crew cap np q t) {g : G} {l : Loc} (hg : g ∈ crew np q) (hl : SharedLoc l) (hcl : g = .closer q → l = .logger) :
    Crew cap np q (t ++ [⟨g, .read l⟩]) where
  free := h.free.snoc fun _ i f h1 h2 h3 h4 => by
    obtain ⟨l', x, y, h5, h6, h7, _⟩ := h4
    cases h6
    rcases h.cls h1 h2 with h8 | h8 | ⟨k, h8⟩ | ⟨c, h8⟩
    · rcases h8 with h8 | h8 <;> rw [h8] at h5 <;> cases h5
      exact absurd ⟨rfl, rfl⟩ h7
    · exact h8 _ (List.mem_cons_of_mem _ hg)
    · rcases h.par h1 h8 h5 with ⟨rfl, _⟩ | ⟨c, m, rfl, _⟩
      · exact absurd ⟨rfl, rfl⟩ h7
      · rcases hl with h | h | h | ⟨_, h⟩ <;> cases h
    · rcases h.coll h1 h8 h5 with ⟨rfl, _⟩ | ⟨m, rfl, _⟩ | rfl
      · exact absurd ⟨rfl, rfl⟩ h7
      · rcases hl with h | h | h | ⟨_, h⟩ <;> cases h
      · rcases hl with h | h | h | ⟨_, h⟩ <;> cases h
  fresh := h.fresh.append fun f hf => by
    cases List.mem_singleton.1 hf
    refine ⟨noChan_access rfl, fun q' hq' => ?_⟩
    rcases mem_crew.1 hg with ⟨k, _, rfl⟩ | rfl | ⟨k, _, rfl⟩
    · refine ⟨fun k' h => ?_, nofun, fun _ => nofun⟩; cases h; omega
    · refine ⟨fun _ => nofun, fun h => ?_, fun _ => nofun⟩; cases h; omega
    · refine ⟨fun _ => nofun, nofun, fun k' h => ?_⟩; cases h; omega
  cls := fun {i f} h1 h2 => by
    rcases at_snoc h1 with h3 | ⟨_, rfl⟩
    · rcases h.cls h3 h2 with h | h | h
      · exact Or.inl h
      · exact Or.inr (Or.inl fun g hg => (h g hg).append)
      · exact Or.inr (Or.inr h)
    · rcases mem_crew.1 hg with ⟨k, _, rfl⟩ | rfl | ⟨k, _, rfl⟩
      · exact Or.inr (Or.inr (Or.inl ⟨k, rfl⟩))
      · exact Or.inl (Or.inr (by rw [hcl rfl]; rfl))
      · exact Or.inr (Or.inr (Or.inr ⟨k, rfl⟩))
  par := fun {i f k l x} h1 h2 h3 => by
    rcases at_snoc h1 with h4 | ⟨_, rfl⟩
    · exact (h.par h4 h2 h3).append
    · cases h3; exact Or.inl ⟨rfl, hl⟩
  coll := fun {i f k l x} h1 h2 h3 => by
    rcases at_snoc h1 with h4 | ⟨_, rfl⟩
    · exact (h.coll h4 h2 h3).append
    · cases h3; exact Or.inl ⟨rfl, hl⟩
  parlt := fun {i f k} h1 h2 => by
    rcases at_snoc h1 with h4 | ⟨_, rfl⟩
    · exact h.parlt h4 h2
    · cases h2
      rcases mem_crew.1 hg with ⟨k, hk, h⟩ | h | ⟨k, _, h⟩ <;> cases h
      exact hk
  colllt := fun {i f k} h1 h2 => by
    rcases at_snoc h1 with h4 | ⟨_, rfl⟩
    · exact h.colllt h4 h2
    · cases h2
      rcases mem_crew.1 hg with ⟨k, hk, h⟩ | h | ⟨k, hk, h⟩ <;> cases h
      exact hk

theorem Crew.reads {np q : Nat} {t : Trace} (h : Crew cap np q t) {g : G} {as : List A} (hg : g ∈ crew np q) (hcl : g ≠ .closer q)
    (has : ∀ a ∈ as, ∃ l, a = .read l ∧ SharedLoc l) : Crew cap np q (t ++ Race.acts g as) := by
  induction as generalizing t with
  | nil => simpa [Race.acts] using h
  | cons a as ih =>
    rw [acts_cons, ← List.append_assoc]
    obtain ⟨l, rfl, hl⟩ := has a (by simp)
    exact ih (h.read hg hl fun h => absurd h hcl) fun b hb => has b (by simp [hb])

theorem chars_shared {np : Nat} {a : A} (h : a ∈ chars np) : ∃ l, a = .read l ∧ SharedLoc l := by
  simp only [chars, List.mem_cons, List.mem_map] at h
  rcases h with rfl | rfl | ⟨k, _, rfl⟩
  · exact ⟨_, rfl, Or.inl rfl⟩
  · exact ⟨_, rfl, Or.inr (Or.inl rfl)⟩
  · exact ⟨_, rfl, Or.inr (Or.inr (Or.inr ⟨k, rfl⟩))⟩

theorem tokens_shared {np : Nat} {a : A} (h : a ∈ tokens np) : ∃ l, a = .read l ∧ SharedLoc l := by
  rcases List.mem_cons.1 h with rfl | h
  · exact ⟨_, rfl, Or.inr (Or.inr (Or.inl rfl))⟩
  · exact chars_shared h

theorem sends_quiet {t : Trace} {e : Ev} {c : Sy} (h : e.act ≠ .send c) : sends (t ++ [e]) c = sends t c := by
  rw [sends_append, sends_eq_zero (t := [e])]; · rfl
  intro f hf; cases List.mem_singleton.1 hf; exact h

theorem recvs_quiet {t : Trace} {e : Ev} {c : Sy} (h : e.act ≠ .recv c) : recvs (t ++ [e]) c = recvs t c := by
  rw [recvs_append, recvs_eq_zero (t := [e])]; · rfl
  intro f hf; cases List.mem_singleton.1 hf; exact h

theorem sends_self {t : Trace} {g : G} {c : Sy} : sends (t ++ [⟨g, .send c⟩]) c = sends t c + 1 := by
  rw [sends_append]; simp [sends]

theorem recvs_self {t : Trace} {g : G} {c : Sy} : recvs (t ++ [⟨g, .recv c⟩]) c = recvs t c + 1 := by
  rw [recvs_append]; simp [recvs]

/-- A worker sends what it has parsed. -/
theorem Crew.object {np q : Nat} {t : Trace} (h : Crew cap np q t) {k c : Nat} (hk : k < np) {m : Nat} (hm : m = sends t (.chan q c))
    (hr : recvs t (.chan q c) ≤ sends t (.chan q c)) :
    Crew cap np q (t ++ [⟨.par q k, .write (.object q c m)⟩] ++ [⟨.par q k, .send (.chan q c)⟩]) := by
  have hg : G.par q k ∈ crew np q := mem_crew.2 (Or.inl ⟨k, hk, rfl⟩)
  have hwho : ∀ q', q + 1 ≤ q' → (∀ k', G.par q k ≠ .par q' k') ∧ G.par q k ≠ .closer q' ∧ ∀ c, G.par q k ≠ .coll q' c := fun q' hq' =>
    ⟨fun k' h => (by cases h; omega), nofun, fun _ => nofun⟩
  have hs1 : ∀ d, sends (t ++ [⟨.par q k, .write (.object q c m)⟩]) (.chan q d) = sends t (.chan q d) := fun d => sends_quiet nofun
  have f1 : Free cap a2lG (t ++ [⟨.par q k, .write (.object q c m)⟩]) := h.free.snoc fun _ i f h1 h2 h3 h4 => by
    obtain ⟨l', x, y, h5, h6, h7, h8⟩ := h4
    cases h6
    rcases h.cls h1 h2 with h9 | h9 | ⟨k', h9⟩ | ⟨c', h9⟩
    · rcases h9 with h9 | h9 <;> rw [h9] at h5 <;> cases h5
    · exact h9 _ (List.mem_cons_of_mem _ hg)
    · rcases h.par h1 h9 h5 with ⟨_, hl⟩ | ⟨c', m', hl, _, h10, _⟩
      · rcases hl with h | h | h | ⟨_, h⟩ <;> cases h
      · cases hl; omega
    · rcases h.coll h1 h9 h5 with ⟨_, hl⟩ | ⟨m', hl, _, h10⟩ | hl
      · rcases hl with h | h | h | ⟨_, h⟩ <;> cases h
      · cases hl; omega
      · cases hl
  exact {
    free := f1.snoc fun _ i f _ _ _ h4 => by
      obtain ⟨l, x, y, _, h5, _⟩ := h4
      cases h5
    fresh := (h.fresh.append fun f hf => by cases List.mem_singleton.1 hf; exact ⟨noChan_access rfl, hwho⟩).append fun f hf => by
      cases List.mem_singleton.1 hf
      exact ⟨fun q' c' hq' => ⟨fun h => (by cases h; omega), nofun⟩, hwho⟩
    cls := fun {i f} h1 h2 => by
      rcases at_snoc h1 with h3 | ⟨_, rfl⟩
      · rcases at_snoc h3 with h3 | ⟨_, rfl⟩
        · rcases h.cls h3 h2 with h | h | h
          · exact Or.inl h
          · exact Or.inr (Or.inl fun g hg => (h g hg).append.append)
          · exact Or.inr (Or.inr h)
        · exact Or.inr (Or.inr (Or.inl ⟨k, rfl⟩))
      · exact Or.inr (Or.inr (Or.inl ⟨k, rfl⟩))
    par := fun {i f k' l x} h1 h2 h3 => by
      rcases at_snoc h1 with h4 | ⟨_, rfl⟩
      · rcases at_snoc h4 with h4 | ⟨_, rfl⟩
        · exact (h.par h4 h2 h3).append.append
        · cases h3
          refine Or.inr ⟨c, m, rfl, rfl, by rw [sends_self, hs1]; omega, (t ++ [(⟨.par q k, .write (.object q c m)⟩ : Ev)]).length, .par q k, ?_, by simp, ?_⟩
          · exact upto_last h1 rfl
          · rw [take_append_le (Nat.le_refl _), List.take_length, hs1]; exact hm.symm
      · cases h3
    coll := fun {i f k' l x} h1 h2 h3 => by
      rcases at_snoc h1 with h4 | ⟨_, rfl⟩
      · rcases at_snoc h4 with h4 | ⟨_, rfl⟩
        · exact (h.coll h4 h2 h3).append.append
        · cases h2
      · cases h2
    parlt := fun {i f k'} h1 h2 => by
      rcases at_snoc h1 with h4 | ⟨_, rfl⟩
      · rcases at_snoc h4 with h4 | ⟨_, rfl⟩
        · exact h.parlt h4 h2
        · cases h2; exact hk
      · cases h2; exact hk
    colllt := fun {i f k'} h1 h2 => by
      rcases at_snoc h1 with h4 | ⟨_, rfl⟩
      · rcases at_snoc h4 with h4 | ⟨_, rfl⟩
        · exact h.colllt h4 h2
        · cases h2
      · cases h2 }

/-- A collector looks at what it has received, or at its field. -/
theorem Crew.look {np q : Nat} {t : Trace} (h : Crew cap np q t) {c : Nat} (hc : c < numChans) {a : A} {l : Loc} {x : Kind} (ha : a.access = some (l, x))
    (hl : (∃ m, l = .object q c m ∧ x = .read ∧ m < recvs t (.chan q c) ∧
      ∀ {j : Nat} {g : G}, t[j]? = some ⟨g, .send (.chan q c)⟩ → sends (t.take j) (.chan q c) = m → Past cap t (.coll q c) j) ∨ l = .field q (fieldOf c)) :
    Crew cap np q (t ++ [⟨.coll q c, a⟩]) := by
  have hg : G.coll q c ∈ crew np q := mem_crew.2 (Or.inr (Or.inr ⟨c, hc, rfl⟩))
  have hok : CollOk q c t l x := by
    rcases hl with ⟨m, h1, h2, h3, _⟩ | h1
    · exact Or.inr (Or.inl ⟨m, h1, h2, h3⟩)
    · exact Or.inr (Or.inr h1)
  have hlog : ¬ SharedLoc l := by
    rcases hl with ⟨m, rfl, _⟩ | rfl <;> rintro (h | h | h | ⟨_, h⟩) <;> cases h
  exact {
    free := h.free.snoc fun _ i f h1 h2 h3 h4 => by
      obtain ⟨l', y, z, h5, h6, h7, h8⟩ := h4
      obtain ⟨rfl, rfl⟩ := acc_eq ha h6
      rcases h.cls h1 h2 with h9 | h9 | ⟨k', h9⟩ | ⟨c', h9⟩
      · rcases h9 with h9 | h9 <;> rw [h9] at h5 <;> cases h5
        exact absurd (Or.inl rfl) hlog
      · exact h9 _ (List.mem_cons_of_mem _ hg)
      · rcases h.par h1 h9 h5 with ⟨_, hl'⟩ | ⟨c', m', hl', _, h10, j, g, h11, h12, h13⟩
        · exact absurd hl' hlog
        · rcases hl with ⟨m, h14, _, _, h15⟩ | h14
          · rw [hl'] at h14
            cases h14
            obtain ⟨j', e', h16, h17, h18⟩ := h15 h12 h13
            refine ⟨j', e', h16, h17, ?_⟩
            rcases h18 with rfl | h18
            · exact h11
            · exact Or.inr (h11.hb h18)
          · rw [hl'] at h14; cases h14
      · have hne : c' ≠ c := by rintro rfl; exact h3 h9
        rcases h.coll h1 h9 h5 with ⟨_, hl'⟩ | ⟨m', hl', _, _⟩ | hl'
        · exact absurd hl' hlog
        · rcases hl with ⟨m, h14, _⟩ | h14
          · rw [hl'] at h14; cases h14; exact absurd rfl hne
          · rw [hl'] at h14; cases h14
        · rcases hl with ⟨m, h14, _⟩ | h14
          · rw [hl'] at h14; cases h14
          · rw [hl'] at h14
            injection h14 with _ h14
            exact absurd (fieldOf_inj (h.colllt h1 h9) hc h14) hne
    fresh := h.fresh.append fun f hf => by
      cases List.mem_singleton.1 hf
      exact ⟨noChan_access ha, fun q' hq' => ⟨fun _ => nofun, nofun, fun k' h => (by cases h; omega)⟩⟩
    cls := fun {i f} h1 h2 => by
      rcases at_snoc h1 with h3 | ⟨_, rfl⟩
      · rcases h.cls h3 h2 with h | h | h
        · exact Or.inl h
        · exact Or.inr (Or.inl fun g hg => (h g hg).append)
        · exact Or.inr (Or.inr h)
      · exact Or.inr (Or.inr (Or.inr ⟨c, rfl⟩))
    par := fun {i f k l x} h1 h2 h3 => by
      rcases at_snoc h1 with h4 | ⟨_, rfl⟩
      · exact (h.par h4 h2 h3).append
      · cases h2
    coll := fun {i f k l x} h1 h2 h3 => by
      rcases at_snoc h1 with h4 | ⟨_, rfl⟩
      · exact (h.coll h4 h2 h3).append
      · cases h2
        obtain ⟨rfl, rfl⟩ := acc_eq ha h3
        exact hok.append
    parlt := fun {i f k} h1 h2 => by
      rcases at_snoc h1 with h4 | ⟨_, rfl⟩
      · exact h.parlt h4 h2
      · cases h2
    colllt := fun {i f k} h1 h2 => by
      rcases at_snoc h1 with h4 | ⟨_, rfl⟩
      · exact h.colllt h4 h2
      · cases h2; exact hc }

/-- The call begins. -/
theorem InvM.begin {np q : Nat} {t : Trace} (h : InvM cap q t) : Crew cap np q (t ++ Race.acts .rdA ((crew np q).map .go)) := by
  have hq : InvM cap q (t ++ Race.acts .rdA ((crew np q).map .go)) := h.acts
    (fun a ha => (by obtain ⟨g, _, rfl⟩ := List.mem_map.1 ha; exact nofun)) fun a ha => by
      obtain ⟨g, _, rfl⟩ := List.mem_map.1 ha; exact fun _ _ _ => ⟨nofun, nofun⟩
  have hpar : ∀ {i : Nat} {e : Ev} {k : Nat}, (t ++ Race.acts .rdA ((crew np q).map .go))[i]? = some e → e.who ≠ .par q k := fun h1 =>
    ((hq.fresh _ (List.mem_of_getElem? h1)).2 q (Nat.le_refl q)).1 _
  have hcoll : ∀ {i : Nat} {e : Ev} {k : Nat}, (t ++ Race.acts .rdA ((crew np q).map .go))[i]? = some e → e.who ≠ .coll q k := fun h1 =>
    ((hq.fresh _ (List.mem_of_getElem? h1)).2 q (Nat.le_refl q)).2.2 _
  exact {
    free := hq.free
    fresh := hq.fresh.mono (by omega)
    cls := fun {i e} h1 h2 => by
      rcases at_acts h1 with h3 | ⟨_, _, h3⟩
      · rcases h.settled h3 h2 with h4 | h4
        · exact Or.inl h4
        · refine Or.inr (Or.inl fun g hg => ?_)
          rcases List.mem_cons.1 hg with rfl | hg
          · exact h4.append
          · exact Past.forks h4 g hg
      · obtain ⟨g, _, h3⟩ := List.mem_map.1 h3
        exact Or.inl (Or.inl (by rw [← h3]; rfl))
    par := fun h1 h2 => absurd h2 (hpar h1)
    coll := fun h1 h2 => absurd h2 (hcoll h1)
    parlt := fun h1 h2 => absurd h2 (hpar h1)
    colllt := fun h1 h2 => absurd h2 (hcoll h1) }

variable {α : Type}

/-- What is known of how the goroutines wait for each other. -/
structure Join (cap : Sy → Nat) (np q : Nat) (s : Collect.State α) (t : Trace) : Prop where
  lenw : s.ws.length = np
  lenc : s.chans.length = numChans
  cnt : ∀ {c : Nat} {ch : Collect.Chan α}, s.chans[c]? = some ch → sends t (.chan q c) = ch.acc.length + ch.buf.length ∧ recvs t (.chan q c) = ch.acc.length
  tidy : ∀ {k : Nat} {w : Collect.Worker α}, s.ws[k]? = some w → w.done = true → w.todo = []
  leave : ∀ {k : Nat} {w : Collect.Worker α} {i : Nat} {e : Ev}, s.ws[k]? = some w → w.done = true → t[i]? = some e → e.who = .par q k → Upto cap t (.done (.wgPar q)) i
  shut : 0 < s.closing → (∀ w ∈ s.ws, w.done = true) ∧ ∀ {i : Nat} {e : Ev} {k : Nat}, t[i]? = some e → e.who = .par q k → Past cap t (.closer q) i
  clo : ∀ {c : Nat} {ch : Collect.Chan α}, s.chans[c]? = some ch → ch.closed = true → 0 < s.closing ∧
    ∀ {i : Nat} {e : Ev} {k : Nat}, t[i]? = some e → e.who = .par q k → Upto cap t (.close (.chan q c)) i
  fin : ∀ {c : Nat} {ch : Collect.Chan α}, s.chans[c]? = some ch → ch.fin = true → ch.closed = true ∧ ch.buf = [] ∧
    (∀ {i : Nat} {e : Ev} {k : Nat}, t[i]? = some e → e.who = .par q k → Upto cap t (.done (.wgCol q)) i) ∧
    ∀ {i : Nat} {e : Ev}, t[i]? = some e → e.who = .coll q c → Upto cap t (.done (.wgCol q)) i

/-- Others go on. -/
theorem Join.alien {np q : Nat} {s : Collect.State α} {t u : Trace} (h : Join cap np q s t)
    (hu : ∀ e ∈ u, (∀ k, e.who ≠ .par q k) ∧ (∀ c, e.who ≠ .coll q c) ∧ ∀ c, e.act ≠ .send (.chan q c) ∧ e.act ≠ .recv (.chan q c)) : Join cap np q s (t ++ u) := by
  have hp : ∀ {i : Nat} {e : Ev} {k : Nat}, (t ++ u)[i]? = some e → e.who = .par q k → t[i]? = some e := fun {i e k} h1 h2 => by
    rcases at_append h1 with h1 | ⟨_, h1⟩
    · exact h1
    · exact absurd h2 ((hu _ (List.mem_of_getElem? h1)).1 _)
  have hc : ∀ {i : Nat} {e : Ev} {k : Nat}, (t ++ u)[i]? = some e → e.who = .coll q k → t[i]? = some e := fun {i e k} h1 h2 => by
    rcases at_append h1 with h1 | ⟨_, h1⟩
    · exact h1
    · exact absurd h2 ((hu _ (List.mem_of_getElem? h1)).2.1 _)
  exact {
    lenw := h.lenw
    lenc := h.lenc
    cnt := fun {c ch} h1 => by
      rw [sends_append, recvs_append, sends_eq_zero (t := u) fun e he => ((hu e he).2.2 c).1, recvs_eq_zero (t := u) fun e he => ((hu e he).2.2 c).2]
      exact h.cnt h1
    tidy := h.tidy
    leave := fun h1 h2 h3 h4 => (h.leave h1 h2 (hp h3 h4) h4).append
    shut := fun h1 => ⟨(h.shut h1).1, fun h2 h3 => ((h.shut h1).2 (hp h2 h3) h3).append⟩
    clo := fun h1 h2 => ⟨(h.clo h1 h2).1, fun h3 h4 => ((h.clo h1 h2).2 (hp h3 h4) h4).append⟩
    fin := fun h1 h2 => ⟨(h.fin h1 h2).1, (h.fin h1 h2).2.1, fun h3 h4 => ((h.fin h1 h2).2.2.1 (hp h3 h4) h4).append,
      fun h3 h4 => ((h.fin h1 h2).2.2.2 (hc h3 h4) h4).append⟩ }

/-- While a worker is at work no channel is closed. -/
theorem Join.open' {np q : Nat} {s : Collect.State α} {t : Trace} (h : Join cap np q s t) {k : Nat} {w : Collect.Worker α} (hw : s.ws[k]? = some w)
    (hd : w.done = false) : s.closing = 0 := by
  rcases Nat.eq_zero_or_pos s.closing with h0 | h0
  · exact h0
  · have := (h.shut h0).1 w (List.mem_of_getElem? hw)
    rw [hd] at this; cases this

theorem par_noSend {np q k : Nat} {e : Ev} {c : Sy} (he : e ∈ Race.acts (G.par q k) (tokens np)) : e.act ≠ .send c ∧ e.act ≠ .recv c := by
  obtain ⟨l, h, _⟩ := tokens_shared (mem_acts.1 he).2
  rw [h]; exact ⟨nofun, nofun⟩

theorem Join.send {np q : Nat} {s : Collect.State α} {t : Trace} (hc : Crew cap np q t) (h : Join cap np q s t) {k : Nat} {w : Collect.Worker α} {c : Nat} {x : α}
    {td : List (Nat × α)} {ch : Collect.Chan α} (hw : s.ws[k]? = some w) (htd : w.todo = (c, x) :: td) (hch : s.chans[c]? = some ch) :
    let s' : Collect.State α := { s with ws := s.ws.set k { w with todo := td }, chans := s.chans.set c { ch with buf := ch.buf ++ [(k, x)] } }
    let t' := t ++ Race.acts (.par q k) (tokens np ++ [.write (.object q c (ch.acc.length + ch.buf.length)), .send (.chan q c)])
    Crew cap np q t' ∧ Join cap np q s' t' := by
  intro s' t'
  have hk : k < np := h.lenw ▸ lt_of_get hw
  have hd : w.done = false := by
    cases hd : w.done with
    | false => rfl
    | true => have := h.tidy hw hd; rw [htd] at this; cases this
  have h0 := h.open' hw hd
  have hsplit : t' = t ++ Race.acts (.par q k) (tokens np) ++ [⟨.par q k, .write (.object q c (ch.acc.length + ch.buf.length))⟩] ++ [⟨.par q k, .send (.chan q c)⟩] := by
    simp [t', Race.acts]
  have hs0 : ∀ d, sends (t ++ Race.acts (.par q k) (tokens np)) d = sends t d := fun d => by
    rw [sends_append, sends_eq_zero (t := Race.acts _ _) fun e he => (par_noSend he).1]; rfl
  have hr0 : ∀ d, recvs (t ++ Race.acts (.par q k) (tokens np)) d = recvs t d := fun d => by
    rw [recvs_append, recvs_eq_zero (t := Race.acts _ _) fun e he => (par_noSend he).2]; rfl
  have c1 : Crew cap np q t' := by
    rw [hsplit]
    refine (hc.reads (mem_crew.2 (Or.inl ⟨k, hk, rfl⟩)) nofun fun a ha => tokens_shared ha).object hk ?_ ?_
    · rw [hs0]; exact (h.cnt hch).1.symm
    · rw [hs0, hr0, (h.cnt hch).1, (h.cnt hch).2]; omega
  have hold : ∀ {i : Nat} {e : Ev}, t'[i]? = some e → e.who ≠ .par q k → t[i]? = some e := fun {i e} h1 h2 => by
    rcases at_acts h1 with h3 | ⟨_, h3, _⟩
    · exact h3
    · exact absurd h3 h2
  have hncl : ∀ {d : Nat} {ch' : Collect.Chan α}, s'.chans[d]? = some ch' → ch'.closed = false ∧ ch'.fin = false := fun {d ch'} h1 => by
    have key : ∀ {d : Nat} {ch' : Collect.Chan α}, s.chans[d]? = some ch' → ch'.closed = false ∧ ch'.fin = false := fun {d ch'} h1 => by
      have hcl : ch'.closed = false := by
        cases hcl : ch'.closed with
        | false => rfl
        | true => have := (h.clo h1 hcl).1; omega
      refine ⟨hcl, ?_⟩
      cases hf : ch'.fin with
      | false => rfl
      | true => have := (h.fin h1 hf).1; rw [hcl] at this; cases this
    rcases get_set h1 with ⟨_, rfl⟩ | ⟨_, h1⟩
    · exact ⟨(key hch).1, (key hch).2⟩
    · exact key h1
  refine ⟨c1, {
    lenw := by simp [s', h.lenw]
    lenc := by simp [s', h.lenc]
    cnt := fun {d ch'} h1 => ?_
    tidy := fun {k' w'} h1 h2 => ?_
    leave := fun {k' w' i e} h1 h2 h3 h4 => ?_
    shut := fun h1 => absurd h1 (by simp [s', h0])
    clo := fun h1 h2 => by rw [(hncl h1).1] at h2; cases h2
    fin := fun h1 h2 => by rw [(hncl h1).2] at h2; cases h2 }⟩
  · rcases get_set h1 with ⟨rfl, rfl⟩ | ⟨hne, h1⟩
    · rw [hsplit, sends_self, sends_quiet (by exact nofun), hs0, recvs_quiet (by exact nofun), recvs_quiet (by exact nofun), hr0, (h.cnt hch).1, (h.cnt hch).2]
      refine ⟨?_, rfl⟩
      show _ = ch.acc.length + (ch.buf ++ [(k, x)]).length
      rw [List.length_append]
      rfl
    · rw [hsplit, sends_quiet (by intro h; cases h; exact hne rfl), sends_quiet (by exact nofun), hs0, recvs_quiet (by exact nofun), recvs_quiet (by exact nofun), hr0]
      exact h.cnt h1
  · rcases get_set h1 with ⟨rfl, rfl⟩ | ⟨_, h1⟩
    · rw [show ({ w with todo := td } : Collect.Worker α).done = w.done from rfl, hd] at h2; cases h2
    · exact h.tidy h1 h2
  · rcases get_set h1 with ⟨rfl, rfl⟩ | ⟨hne, h1⟩
    · rw [show ({ w with todo := td } : Collect.Worker α).done = w.done from rfl, hd] at h2; cases h2
    · exact (h.leave h1 h2 (hold h3 (by rw [h4]; intro h; cases h; exact hne rfl)) h4).append

theorem Join.exit {np q : Nat} {s : Collect.State α} {t : Trace} (hc : Crew cap np q t) (h : Join cap np q s t) {k : Nat} {w : Collect.Worker α}
    (hw : s.ws[k]? = some w) (htd : w.todo = []) (hd : w.done = false) :
    let s' : Collect.State α := { s with ws := s.ws.set k { w with done := true } }
    let t' := t ++ Race.acts (.par q k) (tokens np ++ [.done (.wgPar q)])
    Crew cap np q t' ∧ Join cap np q s' t' := by
  intro s' t'
  have hk : k < np := h.lenw ▸ lt_of_get hw
  have h0 := h.open' hw hd
  have hsplit : t' = t ++ Race.acts (.par q k) (tokens np) ++ [⟨.par q k, .done (.wgPar q)⟩] := by
    simp [t', Race.acts]
  have hs0 : ∀ d, sends (t ++ Race.acts (.par q k) (tokens np)) d = sends t d := fun d => by
    rw [sends_append, sends_eq_zero (t := Race.acts _ _) fun e he => (par_noSend he).1]; rfl
  have hr0 : ∀ d, recvs (t ++ Race.acts (.par q k) (tokens np)) d = recvs t d := fun d => by
    rw [recvs_append, recvs_eq_zero (t := Race.acts _ _) fun e he => (par_noSend he).2]; rfl
  have c1 : Crew cap np q t' := by
    rw [hsplit]
    exact (hc.reads (mem_crew.2 (Or.inl ⟨k, hk, rfl⟩)) nofun fun a ha => tokens_shared ha).quiet rfl (fun _ _ _ => ⟨nofun, nofun⟩)
      (fun q' hq' => ⟨fun k' h => (by cases h; omega), nofun, fun _ => nofun⟩) (fun k' h => (by cases h; exact hk)) fun _ => nofun
  have hold : ∀ {i : Nat} {e : Ev}, t'[i]? = some e → e.who ≠ .par q k → t[i]? = some e := fun {i e} h1 h2 => by
    rcases at_acts h1 with h3 | ⟨_, h3, _⟩
    · exact h3
    · exact absurd h3 h2
  have hncl : ∀ {d : Nat} {ch' : Collect.Chan α}, s.chans[d]? = some ch' → ch'.closed = false ∧ ch'.fin = false := fun {d ch'} h1 => by
    have hcl : ch'.closed = false := by
      cases hcl : ch'.closed with
      | false => rfl
      | true => have := (h.clo h1 hcl).1; omega
    refine ⟨hcl, ?_⟩
    cases hf : ch'.fin with
    | false => rfl
    | true => have := (h.fin h1 hf).1; rw [hcl] at this; cases this
  refine ⟨c1, {
    lenw := by simp [s', h.lenw]
    lenc := h.lenc
    cnt := fun {d ch'} h1 => ?_
    tidy := fun {k' w'} h1 h2 => ?_
    leave := fun {k' w' i e} h1 h2 h3 h4 => ?_
    shut := fun h1 => absurd h1 (by simp [s', h0])
    clo := fun h1 h2 => by rw [(hncl h1).1] at h2; cases h2
    fin := fun h1 h2 => by rw [(hncl h1).2] at h2; cases h2 }⟩
  · rw [hsplit, sends_quiet (by exact nofun), hs0, recvs_quiet (by exact nofun), hr0]
    exact h.cnt h1
  · rcases get_set h1 with ⟨rfl, rfl⟩ | ⟨_, h1⟩
    · exact htd
    · exact h.tidy h1 h2
  · rcases get_set h1 with ⟨rfl, rfl⟩ | ⟨hne, h1⟩
    · rw [hsplit] at h3 ⊢; exact upto_last' h3 h4
    · exact (h.leave h1 h2 (hold h3 (by rw [h4]; intro h; cases h; exact hne rfl)) h4).append

theorem Join.close {np q : Nat} {s : Collect.State α} {t : Trace} (hc : Crew cap np q t) (h : Join cap np q s t) {c : Collect.Chan α}
    (hcl : s.chans[s.closing]? = some c) (hall : s.ws.all (·.done) = true) :
    let s' : Collect.State α := { s with chans := s.chans.set s.closing { c with closed := true }, closing := s.closing + 1 }
    let t' := t ++ Race.acts (.closer q) ((if s.closing = 0 then [.wait (.wgPar q)] else []) ++ [.close (.chan q s.closing), .read .logger])
    Crew cap np q t' ∧ Join cap np q s' t' := by
  intro s' t'
  have hdone : ∀ w ∈ s.ws, w.done = true := List.all_eq_true.1 hall
  have hg : G.closer q ∈ crew np q := mem_crew.2 (Or.inr (Or.inl rfl))
  have wq : ∀ q', q + 1 ≤ q' → (∀ k, G.closer q ≠ .par q' k) ∧ G.closer q ≠ .closer q' ∧ ∀ c, G.closer q ≠ .coll q' c :=
    fun q' hq' => ⟨fun _ => nofun, fun h => (by cases h; omega), fun _ => nofun⟩
  -- after waiting
  have h1 : ∃ t1, t1 = t ++ Race.acts (.closer q) (if s.closing = 0 then [.wait (.wgPar q)] else []) ∧ Crew cap np q t1 ∧ Join cap np q s t1 ∧
      ∀ {i : Nat} {e : Ev} {k : Nat}, t1[i]? = some e → e.who = .par q k → Past cap t1 (.closer q) i := by
    refine ⟨_, rfl, ?_⟩
    split
    · have hp : ∀ {i : Nat} {e : Ev} {k : Nat}, (t ++ [⟨G.closer q, .wait (.wgPar q)⟩])[i]? = some e → e.who = .par q k → t[i]? = some e := fun {i e k} h1 h2 => by
        rcases at_snoc h1 with h1 | ⟨_, rfl⟩
        · exact h1
        · cases h2
      refine ⟨hc.quiet rfl (fun _ _ _ => ⟨nofun, nofun⟩) wq (fun _ => nofun) fun _ => nofun, h.alien ?_, fun {i e k} h2 h3 => ?_⟩
      · intro e he
        cases List.mem_singleton.1 he
        exact ⟨fun _ => nofun, fun _ => nofun, fun _ => ⟨nofun, nofun⟩⟩
      · have h4 := hp h2 h3
        have hk : k < s.ws.length := h.lenw ▸ hc.parlt h4 h3
        exact (h.leave (List.getElem?_eq_getElem hk) (hdone _ (List.getElem_mem hk)) h4 h3).wait
    · rename_i h0
      have e0 : t ++ Race.acts (.closer q) [] = t := by simp [Race.acts]
      rw [e0]
      exact ⟨hc, h, (h.shut (by omega)).2⟩
  obtain ⟨t1, e1, c1, j1, p1⟩ := h1
  have hsplit : t' = t1 ++ [⟨.closer q, .close (.chan q s.closing)⟩] ++ [⟨.closer q, .read .logger⟩] := by
    simp only [t', e1, acts_append, List.append_assoc]; rfl
  have c2 : Crew cap np q t' := by
    rw [hsplit]
    exact (c1.quiet (e := ⟨.closer q, .close (.chan q s.closing)⟩) rfl (fun _ _ _ => ⟨nofun, nofun⟩) wq (fun _ => nofun) fun _ => nofun).read hg (Or.inl rfl) fun _ => rfl
  have j2 : Join cap np q s t' := by
    rw [hsplit, List.append_assoc]
    refine j1.alien fun e he => ?_
    rcases List.mem_append.1 he with he | he <;> cases List.mem_singleton.1 he <;> exact ⟨fun _ => nofun, fun _ => nofun, fun _ => ⟨nofun, nofun⟩⟩
  have hp : ∀ {i : Nat} {e : Ev} {k : Nat}, t'[i]? = some e → e.who = .par q k → t1[i]? = some e := fun {i e k} h1 h2 => by
    rw [hsplit] at h1
    rcases at_snoc h1 with h1 | ⟨_, rfl⟩
    · rcases at_snoc h1 with h1 | ⟨_, rfl⟩
      · exact h1
      · cases h2
    · cases h2
  have hup : ∀ {i : Nat} {e : Ev} {k : Nat}, t'[i]? = some e → e.who = .par q k → Upto cap t' (.close (.chan q s.closing)) i := fun {i e k} h1 h2 => by
    have := p1 (hp h1 h2) h2
    rw [hsplit]; exact this.upto.append
  exact ⟨c2, {
    lenw := h.lenw
    lenc := by simp [s', h.lenc]
    cnt := fun {d ch'} h1 => by
      rcases get_set h1 with ⟨rfl, rfl⟩ | ⟨_, h1⟩
      · exact ⟨(j2.cnt hcl).1, (j2.cnt hcl).2⟩
      · exact j2.cnt h1
    tidy := j2.tidy
    leave := j2.leave
    shut := fun _ => ⟨hdone, fun h1 h2 => by have := p1 (hp h1 h2) h2; rw [hsplit]; exact this.append.append⟩
    clo := fun {d ch'} h1 h2 => ⟨Nat.succ_pos _, fun h3 h4 => by
      rcases get_set h1 with ⟨rfl, rfl⟩ | ⟨_, h1⟩
      · exact hup h3 h4
      · exact (j2.clo h1 h2).2 h3 h4⟩
    fin := fun {d ch'} h1 h2 => by
      rcases get_set h1 with ⟨rfl, rfl⟩ | ⟨_, h1⟩
      · exact ⟨rfl, (j2.fin hcl h2).2⟩
      · exact j2.fin h1 h2 }⟩

theorem Join.recv {np q : Nat} {s : Collect.State α} {t : Trace} (hc : Crew cap np q t) (h : Join cap np q s t) {c : Nat} {ch : Collect.Chan α}
    {x : Nat × α} {b : List (Nat × α)} (hch : s.chans[c]? = some ch) (hb : ch.buf = x :: b) :
    let s' : Collect.State α := { s with chans := s.chans.set c { ch with buf := b, acc := ch.acc ++ [x] } }
    let t' := t ++ Race.acts (.coll q c) (.recv (.chan q c) :: .read (.object q c ch.acc.length) :: chars np ++ [.read (.field q (fieldOf c)), .write (.field q (fieldOf c))])
    Crew cap np q t' ∧ Join cap np q s' t' := by
  intro s' t'
  have hlt : c < numChans := h.lenc ▸ lt_of_get hch
  have hg : G.coll q c ∈ crew np q := mem_crew.2 (Or.inr (Or.inr ⟨c, hlt, rfl⟩))
  have hsplit : t' = t ++ [⟨.coll q c, .recv (.chan q c)⟩] ++ [⟨.coll q c, .read (.object q c ch.acc.length)⟩] ++ Race.acts (.coll q c) (chars np) ++
      [⟨.coll q c, .read (.field q (fieldOf c))⟩] ++ [⟨.coll q c, .write (.field q (fieldOf c))⟩] := by
    simp [t', Race.acts]
  have c1 : Crew cap np q (t ++ [⟨.coll q c, .recv (.chan q c)⟩]) := hc.quiet rfl (fun q' c' hq' => ⟨nofun, fun h => (by cases h; omega)⟩)
    (fun q' hq' => ⟨fun _ => nofun, nofun, fun k' h => (by cases h; omega)⟩) (fun _ => nofun) fun c' h => (by cases h; exact hlt)
  have c2 : Crew cap np q t' := by
    rw [hsplit]
    refine (((c1.look hlt rfl (Or.inl ⟨_, rfl, rfl, ?_, ?_⟩)).reads hg nofun fun a ha => chars_shared ha).look hlt rfl (Or.inr rfl)).look hlt rfl (Or.inr rfl)
    · rw [recvs_self, (h.cnt hch).2]; omega
    · intro j g h1 h2
      rcases at_snoc h1 with h1' | ⟨_, h1'⟩
      · refine ⟨t.length, ⟨.coll q c, .recv (.chan q c)⟩, by simp, Or.inl rfl, Or.inr (HB.message h1 (by simp; rfl) (lt_of_get h1') ?_)⟩
        rw [h2, take_append_le (Nat.le_refl _), List.take_length, (h.cnt hch).2]
      · cases h1'
  have hp : ∀ {i : Nat} {e : Ev} {k : Nat}, t'[i]? = some e → e.who = .par q k → t[i]? = some e := fun {i e k} h1 h2 => by
    rcases at_acts h1 with h3 | ⟨_, h3, _⟩
    · exact h3
    · rw [h2] at h3; cases h3
  have hs : ∀ d, sends t' (.chan q d) = sends t (.chan q d) := fun d => by
    rw [sends_append, sends_eq_zero (t := Race.acts _ _)]; · rfl
    intro e he
    simp only [mem_acts, List.mem_append, List.mem_cons, List.not_mem_nil, or_false] at he
    rcases he.2 with (h | h | h) | h | h
    · rw [h]; exact nofun
    · rw [h]; exact nofun
    · obtain ⟨l, h, _⟩ := chars_shared h; rw [h]; exact nofun
    · rw [h]; exact nofun
    · rw [h]; exact nofun
  have hr0 : ∀ u : Trace, ∀ d, recvs (u ++ Race.acts (.coll q c) (chars np)) d = recvs u d := fun u d => by
    rw [recvs_append, recvs_eq_zero (t := Race.acts _ _)]; · rfl
    intro e he
    obtain ⟨l, h, _⟩ := chars_shared (mem_acts.1 he).2; rw [h]; exact nofun
  refine ⟨c2, {
    lenw := h.lenw
    lenc := by simp [s', h.lenc]
    cnt := fun {d ch'} h1 => ?_
    tidy := h.tidy
    leave := fun h1 h2 h3 h4 => (h.leave h1 h2 (hp h3 h4) h4).append
    shut := fun h1 => ⟨(h.shut h1).1, fun h2 h3 => ((h.shut h1).2 (hp h2 h3) h3).append⟩
    clo := fun {d ch'} h1 h2 => ?_
    fin := fun {d ch'} h1 h2 => ?_ }⟩
  · rcases get_set h1 with ⟨rfl, rfl⟩ | ⟨hne, h1⟩
    · rw [hs, hsplit, recvs_quiet (by exact nofun), recvs_quiet (by exact nofun), hr0, recvs_quiet (by exact nofun), recvs_self, (h.cnt hch).1, (h.cnt hch).2, hb]
      refine ⟨?_, (List.length_append (as := ch.acc) (bs := [x])).symm⟩
      show _ = (ch.acc ++ [x]).length + b.length
      rw [List.length_append, List.length_cons, List.length_singleton]
      omega
    · rw [hs, hsplit, recvs_quiet (by exact nofun), recvs_quiet (by exact nofun), hr0, recvs_quiet (by exact nofun), recvs_quiet (by intro h; cases h; exact hne rfl)]
      exact h.cnt h1
  · rcases get_set h1 with ⟨rfl, rfl⟩ | ⟨_, h1⟩
    · exact ⟨(h.clo hch h2).1, fun h3 h4 => ((h.clo hch h2).2 (hp h3 h4) h4).append⟩
    · exact ⟨(h.clo h1 h2).1, fun h3 h4 => ((h.clo h1 h2).2 (hp h3 h4) h4).append⟩
  · rcases get_set h1 with ⟨rfl, rfl⟩ | ⟨hne, h1⟩
    · have := (h.fin hch h2).2.1
      rw [hb] at this; cases this
    · refine ⟨(h.fin h1 h2).1, (h.fin h1 h2).2.1, fun h3 h4 => ((h.fin h1 h2).2.2.1 (hp h3 h4) h4).append, fun {i e} h3 h4 => ?_⟩
      rcases at_acts h3 with h5 | ⟨_, h5, _⟩
      · exact ((h.fin h1 h2).2.2.2 h5 h4).append
      · rw [h4] at h5; cases h5; exact absurd rfl hne

theorem Join.finish {np q : Nat} {s : Collect.State α} {t : Trace} (hc : Crew cap np q t) (h : Join cap np q s t) {c : Nat} {ch : Collect.Chan α}
    (hch : s.chans[c]? = some ch) (hcl : ch.closed = true) (hb : ch.buf = []) :
    let s' : Collect.State α := { s with chans := s.chans.set c { ch with fin := true } }
    let t' := t ++ Race.acts (.coll q c) [.closed (.chan q c), .read .logger, .done (.wgCol q)]
    Crew cap np q t' ∧ Join cap np q s' t' := by
  intro s' t'
  have hlt : c < numChans := h.lenc ▸ lt_of_get hch
  have hg : G.coll q c ∈ crew np q := mem_crew.2 (Or.inr (Or.inr ⟨c, hlt, rfl⟩))
  have hsplit : t' = t ++ [⟨.coll q c, .closed (.chan q c)⟩] ++ [⟨.coll q c, .read .logger⟩] ++ [⟨.coll q c, .done (.wgCol q)⟩] := by
    simp [t', Race.acts]
  have wq : ∀ q', q + 1 ≤ q' → (∀ k, G.coll q c ≠ .par q' k) ∧ G.coll q c ≠ .closer q' ∧ ∀ d, G.coll q c ≠ .coll q' d :=
    fun q' hq' => ⟨fun _ => nofun, nofun, fun k' h => (by cases h; omega)⟩
  have c2 : Crew cap np q t' := by
    rw [hsplit]
    exact ((hc.quiet (e := ⟨.coll q c, .closed (.chan q c)⟩) rfl (fun _ _ _ => ⟨nofun, nofun⟩) wq (fun _ => nofun) fun c' h => (by cases h; exact hlt)).read hg (Or.inl rfl) nofun).quiet (e := ⟨.coll q c, .done (.wgCol q)⟩) rfl
      (fun _ _ _ => ⟨nofun, nofun⟩) wq (fun _ => nofun) fun c' h => (by cases h; exact hlt)
  have hp : ∀ {i : Nat} {e : Ev} {k : Nat}, t'[i]? = some e → e.who = .par q k → t[i]? = some e := fun {i e k} h1 h2 => by
    rcases at_acts h1 with h3 | ⟨_, h3, _⟩
    · exact h3
    · rw [h2] at h3; cases h3
  have hcnt : ∀ d, sends t' (.chan q d) = sends t (.chan q d) ∧ recvs t' (.chan q d) = recvs t (.chan q d) := fun d => by
    rw [hsplit]
    exact ⟨by rw [sends_quiet (by exact nofun), sends_quiet (by exact nofun), sends_quiet (by exact nofun)],
      by rw [recvs_quiet (by exact nofun), recvs_quiet (by exact nofun), recvs_quiet (by exact nofun)]⟩
  refine ⟨c2, {
    lenw := h.lenw
    lenc := by simp [s', h.lenc]
    cnt := fun {d ch'} h1 => ?_
    tidy := h.tidy
    leave := fun h1 h2 h3 h4 => (h.leave h1 h2 (hp h3 h4) h4).append
    shut := fun h1 => ⟨(h.shut h1).1, fun h2 h3 => ((h.shut h1).2 (hp h2 h3) h3).append⟩
    clo := fun {d ch'} h1 h2 => ?_
    fin := fun {d ch'} h1 h2 => ?_ }⟩
  · rw [(hcnt d).1, (hcnt d).2]
    rcases get_set h1 with ⟨rfl, rfl⟩ | ⟨hne, h1⟩
    · exact ⟨(h.cnt hch).1, (h.cnt hch).2⟩
    · exact h.cnt h1
  · rcases get_set h1 with ⟨rfl, rfl⟩ | ⟨_, h1⟩
    · exact ⟨(h.clo hch h2).1, fun h3 h4 => ((h.clo hch h2).2 (hp h3 h4) h4).append⟩
    · exact ⟨(h.clo h1 h2).1, fun h3 h4 => ((h.clo h1 h2).2 (hp h3 h4) h4).append⟩
  · rcases get_set h1 with ⟨rfl, rfl⟩ | ⟨hne, h1⟩
    · refine ⟨hcl, hb, fun {i e k} h3 h4 => ?_, fun {i e} h3 h4 => ?_⟩
      · have := ((h.clo hch hcl).2 (hp h3 h4) h4).closed (g := .coll q d)
        rw [hsplit]; exact this.append.upto
      · rw [hsplit] at h3 ⊢; exact upto_last' h3 h4
    · refine ⟨(h.fin h1 h2).1, (h.fin h1 h2).2.1, fun h3 h4 => ((h.fin h1 h2).2.2.1 (hp h3 h4) h4).append, fun {i e} h3 h4 => ?_⟩
      rcases at_acts h3 with h5 | ⟨_, h5, _⟩
      · exact ((h.fin h1 h2).2.2.2 h5 h4).append
      · rw [h4] at h5; cases h5; exact absurd rfl hne

theorem Join.crash {np q : Nat} {s : Collect.State α} {t : Trace} (h : Join cap np q s t) (b : Bool) : Join cap np q { s with crashed := b } t :=
  ⟨h.lenw, h.lenc, h.cnt, h.tidy, h.leave, h.shut, h.clo, h.fin⟩

theorem Join.step {np q : Nat} {s s' : Collect.State α} {t : Trace} (hc : Crew cap np q t) (h : Join cap np q s t) {o : Collect.Op} (hs : Collect.step s o = some s') :
    Crew cap np q (t ++ collEvents np q s o) ∧ Join cap np q s' (t ++ collEvents np q s o) := by
  cases o with
  | send k =>
    simp only [Collect.step] at hs
    split at hs
    · rename_i w hw
      split at hs
      · rename_i c x td htd
        split at hs
        · rename_i ch hch
          simp only [collEvents, hw, htd, hch]
          split at hs
          · rename_i hcl
            cases hs
            rw [if_pos hcl, List.append_nil]
            exact ⟨hc, h.crash _⟩
          · rename_i hcl
            rw [if_neg hcl]
            split at hs
            · cases hs
              exact h.send hc hw htd hch
            · cases hs
        · cases hs
      · cases hs
    · cases hs
  | exit k =>
    simp only [Collect.step] at hs
    split at hs
    · rename_i w hw
      split at hs
      · rename_i hd
        cases hs
        simp only [Bool.and_eq_true, List.isEmpty_iff, Bool.not_eq_true'] at hd
        exact h.exit hc hw hd.1 hd.2
      · cases hs
    · cases hs
  | close =>
    simp only [Collect.step] at hs
    split at hs
    · rename_i c hcl
      split at hs
      · rename_i hd
        cases hs
        exact h.close hc hcl hd
      · cases hs
    · cases hs
  | recv c =>
    simp only [Collect.step] at hs
    split at hs
    · rename_i ch hch
      split at hs
      · rename_i x b hb
        cases hs
        simp only [collEvents, hch]
        exact h.recv hc hch hb
      · cases hs
    · cases hs
  | fin c =>
    simp only [Collect.step] at hs
    split at hs
    · rename_i ch hch
      split at hs
      · rename_i hd
        cases hs
        simp only [Bool.and_eq_true, List.isEmpty_iff, Bool.not_eq_true'] at hd
        exact h.finish hc hch hd.1.1 hd.1.2
      · cases hs
    · cases hs

theorem Join.init {np q : Nat} {ss : List (List (Nat × α))} {t : Trace} (hl : ss.length = np) (ht : Fresh q t) {caps : List Nat} (hcap : caps.length = numChans) :
    Join cap np q (Collect.init caps ss) t := by
  have hp : ∀ {i : Nat} {e : Ev} {k : Nat}, t[i]? = some e → e.who ≠ .par q k := fun h1 => ((ht _ (List.mem_of_getElem? h1)).2 q (Nat.le_refl q)).1 _
  have hch : ∀ {c : Nat} {ch : Collect.Chan α}, (Collect.init caps ss).chans[c]? = some ch → ch.acc = [] ∧ ch.buf = [] ∧ ch.closed = false ∧ ch.fin = false := by
    intro c ch h
    simp only [Collect.init, List.getElem?_map, Option.map_eq_some_iff] at h
    obtain ⟨_, _, rfl⟩ := h
    exact ⟨rfl, rfl, rfl, rfl⟩
  exact {
    lenw := by simp [Collect.init, hl]
    lenc := by simp [Collect.init, hcap]
    cnt := fun {c ch} h1 => by
      rw [(hch h1).1, (hch h1).2.1, sends_eq_zero fun e he => ((ht e he).1 q c (Nat.le_refl q)).1, recvs_eq_zero fun e he => ((ht e he).1 q c (Nat.le_refl q)).2]
      exact ⟨rfl, rfl⟩
    tidy := fun {k w} h1 h2 => by
      simp only [Collect.init, List.getElem?_map, Option.map_eq_some_iff] at h1
      obtain ⟨_, _, rfl⟩ := h1
      cases h2
    leave := fun _ _ h3 h4 => absurd h4 (hp h3)
    shut := fun h1 => absurd h1 (by simp [Collect.init])
    clo := fun h1 h2 => by rw [(hch h1).2.2.1] at h2; cases h2
    fin := fun h1 h2 => by rw [(hch h1).2.2.2] at h2; cases h2 }

/-- All collectors have returned, and the main goroutine goes on. -/
theorem Join.next {np q : Nat} {s : Collect.State α} {t : Trace} (hc : Crew cap np q t) (h : Join cap np q s t) (hf : s.finished = true) :
    InvM cap (q + 1) (t ++ [⟨.rdA, .wait (.wgCol q)⟩]) := by
  have hfin : ∀ ch ∈ s.chans, ch.fin = true := List.all_eq_true.1 hf
  have hget : ∀ c, c < numChans → ∃ ch, s.chans[c]? = some ch ∧ ch.fin = true := fun c hc => by
    have : c < s.chans.length := h.lenc ▸ hc
    exact ⟨_, List.getElem?_eq_getElem this, hfin _ (List.getElem_mem this)⟩
  have hq := hc.quiet (e := ⟨.rdA, .wait (.wgCol q)⟩) rfl (fun _ _ _ => ⟨nofun, nofun⟩) (fun _ _ => ⟨fun _ => nofun, nofun, fun _ => nofun⟩) (fun _ => nofun) fun _ => nofun
  exact {
    free := hq.free
    fresh := hq.fresh
    settled := fun {i e} h1 h2 => by
      rcases at_snoc h1 with h1 | ⟨_, rfl⟩
      · rcases hc.cls h1 h2 with h3 | h3 | ⟨k, h3⟩ | ⟨c, h3⟩
        · exact Or.inl h3
        · exact Or.inr (h3 .rdA (List.mem_cons_self ..)).append
        · obtain ⟨ch, h4, h5⟩ := hget 0 (Nat.succ_pos _)
          exact Or.inr ((h.fin h4 h5).2.2.1 h1 h3).wait
        · obtain ⟨ch, h4, h5⟩ := hget c (hc.colllt h1 h3)
          exact Or.inr ((h.fin h4 h5).2.2.2 h1 h3).wait
      · exact Or.inl (Or.inl rfl) }

/-! ### All phases -/

/-- What is known of the execution so far. -/
def A2lInv (cap : Sy → Nat) (I : Input) (t : Trace) : State → Prop
  | .tokenizing p => InvT cap I.np p t
  | .parsing _ ans => InvM cap ans.length t
  | .inModule _ ans _ c => Crew cap I.np ans.length t ∧ Join cap I.np ans.length c t
  | .returned _ => ∃ q, InvM cap q t
  | .crashed => Free cap a2lG t

theorem A2lInv.free {I : Input} {t : Trace} {s : State} (h : A2lInv cap I t s) : Free cap a2lG t := by
  cases s with
  | tokenizing p => exact InvT.free h
  | parsing ts ans => exact InvM.free h
  | inModule ts ans i c => exact h.1.free
  | returned r => obtain ⟨q, h⟩ := h; exact h.free
  | crashed => exact h

theorem A2lInv.foreign {I : Input} {t : Trace} {s : State} (h : A2lInv cap I t s) {e : Ev} (he : Foreign e) : A2lInv cap I (t ++ [e]) s := by
  cases s with
  | tokenizing p => exact InvT.foreign h he
  | parsing ts ans => exact InvM.foreign h he
  | inModule ts ans i c =>
    refine ⟨h.1.foreign he, h.2.alien fun f hf => ?_⟩
    cases List.mem_singleton.1 hf
    exact ⟨fun k hk => he.1 (hk ▸ trivial), fun k hk => he.1 (hk ▸ trivial), fun c => he.2.2 _ c (Nat.zero_le _)⟩
  | returned r => obtain ⟨q, h⟩ := h; exact ⟨q, h.foreign he⟩
  | crashed => exact Free.snoc h fun h' => absurd h' he.1

theorem mild_read (l : Loc) : Mild (.read l) := by rintro x h; cases h; rfl

theorem mild_write {l : Loc} (hl : l ≠ .logger) : Mild (.write l) := by rintro x h; cases h; exact absurd rfl hl

theorem mild_tokens {np : Nat} {a : A} (h : a ∈ tokens np) : Mild a ∧ ∀ q, NoChan q a := by
  obtain ⟨l, rfl, _⟩ := tokens_shared h
  exact ⟨mild_read l, fun _ => noChan_access rfl⟩

/-- a2l/module.go:327-414. -/
def preActs (np q : Nat) : List A := .read .multithreading :: tokens np ++ (List.range numChans).map (fun c => .write (.field q (fieldOf c)))

theorem mild_pre {np q : Nat} {a : A} (h : a ∈ preActs np q) : Mild a ∧ ∀ q, NoChan q a := by
  simp only [preActs, List.mem_append, List.mem_cons, List.mem_map] at h
  rcases h with (rfl | h) | ⟨c, _, rfl⟩
  · exact ⟨mild_read _, fun _ => noChan_access rfl⟩
  · exact mild_tokens h
  · exact ⟨mild_write nofun, fun _ => noChan_access rfl⟩

theorem mapM_length {β γ : Type} {f : β → Option γ} : ∀ {l : List β} {l' : List γ}, l.mapM f = some l' → l'.length = l.length := by
  intro l
  induction l with
  | nil => intro l' h; cases h; rfl
  | cons a l ih =>
    intro l' h
    rw [List.mapM_cons] at h
    obtain ⟨b, _, h⟩ := Option.bind_eq_some_iff.1 h
    obtain ⟨bs, h1, h⟩ := Option.bind_eq_some_iff.1 h
    cases h
    rw [List.length_cons, List.length_cons, ih h1]

theorem capacities_length (np : Nat) : (capacities np).length = numChans := by simp [capacities, numChans]

theorem A2lInv.step {I : Input} {t : Trace} {s s' : State} (h : A2lInv cap I t s) {o : Op} (hs : A2lRun.step I s o = some s') : A2lInv cap I (t ++ events I s o) s' := by
  cases s with
  | tokenizing p =>
    cases o with
    | chan o =>
      obtain ⟨p', h1, rfl⟩ := Option.map_eq_some_iff.1 hs
      exact InvT.step h h1
    | main =>
      simp only [A2lRun.step] at hs
      split at hs
      · rename_i hp
        cases hs
        refine (InvT.next h hp).acts (fun a ha => ?_) fun a ha => ?_
        · simp only [tokGot, List.mem_append, List.mem_cons, List.not_mem_nil, or_false] at ha
          rcases ha with (rfl | rfl) | rfl | rfl | rfl
          · exact mild_read _
          · exact mild_write nofun
          · exact mild_read _
          · exact mild_write nofun
          · exact mild_read _
        · simp only [tokGot, List.mem_append, List.mem_cons, List.not_mem_nil, or_false] at ha
          rcases ha with (rfl | rfl) | rfl | rfl | rfl <;> exact noChan_access rfl
      · cases hs
    | call i => cases hs
    | coll o => cases hs
  | parsing ts ans =>
    have h : InvM cap ans.length t := h
    have hpre : InvM cap ans.length (t ++ Race.acts .rdA (preActs I.np ans.length)) := h.acts (fun a ha => (mild_pre ha).1) fun a ha => (mild_pre ha).2 _
    cases o with
    | chan o => cases hs
    | call i =>
      have hno : callActs I.np ans.length false = preActs I.np ans.length := List.append_nil _
      have hyes : t ++ Race.acts .rdA (callActs I.np ans.length true) = t ++ Race.acts .rdA (preActs I.np ans.length) ++ Race.acts .rdA ((crew I.np ans.length).map .go) := by
        rw [List.append_assoc, ← acts_append]; rfl
      simp only [A2lRun.step] at hs
      split at hs
      · cases hs
        simp only [events]
        generalize hst : startModule I ts ans i = st
        unfold startModule at hst
        simp only at hst
        split at hst
        · subst hst
          simp only [hno]
          exact InvM.mono hpre (by simp)
        · split at hst
          · subst hst
            simp only [hno]
            exact InvM.free hpre
          · rename_i ss hss
            subst hst
            simp only [hyes]
            have hall : InvM cap ans.length (t ++ Race.acts .rdA (preActs I.np ans.length) ++ Race.acts .rdA ((crew I.np ans.length).map .go)) := hpre.acts
              (fun a ha => (by obtain ⟨g, _, rfl⟩ := List.mem_map.1 ha; exact nofun)) fun a ha => by
                obtain ⟨g, _, rfl⟩ := List.mem_map.1 ha; exact fun _ _ _ => ⟨nofun, nofun⟩
            refine ⟨hpre.begin, Join.init ?_ hall.fresh (capacities_length _)⟩
            rw [mapM_length hss, List.length_range]
      · cases hs
    | coll o => cases hs
    | main =>
      have hend : InvM cap ans.length (t ++ events I (.parsing ts ans) .main) := by
        refine h.acts (fun a ha => ?_) fun a ha => ?_
        · simp only [List.mem_append, List.mem_cons, List.not_mem_nil, or_false] at ha
          rcases ha with (rfl | ha) | rfl
          · exact mild_read _
          · exact (mild_tokens ha).1
          · exact mild_write nofun
        · simp only [List.mem_append, List.mem_cons, List.not_mem_nil, or_false] at ha
          rcases ha with (rfl | ha) | rfl
          · exact noChan_access rfl
          · exact (mild_tokens ha).2 _
          · exact noChan_access rfl
      simp only [A2lRun.step] at hs
      split at hs
      · cases hs
      · cases hs; exact hend.free
      · cases hs; exact ⟨_, hend⟩
  | inModule ts ans i c =>
    cases o with
    | chan o => cases hs
    | call j => cases hs
    | coll o =>
      obtain ⟨c', h1, rfl⟩ := Option.map_eq_some_iff.1 hs
      exact h.2.step h.1 h1
    | main =>
      simp only [A2lRun.step] at hs
      simp only [events]
      split at hs
      · rename_i hc
        cases hs
        rw [if_pos hc, List.append_nil]
        exact h.1.free
      · rename_i hc
        rw [if_neg hc]
        split at hs
        · rename_i hf
          cases hs
          have h1 := h.2.next h.1 hf
          rw [acts_cons, ← List.append_assoc]
          refine InvM.acts (q := ans.length + 1) h1 (fun a ha => ?_) fun a ha => ?_
          · simp only [List.mem_cons, List.mem_map] at ha
            rcases ha with rfl | ⟨c, _, rfl⟩ <;> exact mild_read _
          · simp only [List.mem_cons, List.mem_map] at ha
            rcases ha with rfl | ⟨c, _, rfl⟩ <;> exact noChan_access rfl
        · cases hs
  | returned r => cases o <;> cases hs
  | crashed => cases o <;> cases hs

theorem A2lInv.run {I : Input} {t : Trace} {s : State} (h : A2lInv cap I t s) (os : List Op) : Free cap a2lG (t ++ traceFrom I s os) := by
  induction os generalizing t s with
  | nil => simpa [traceFrom] using h.free
  | cons o os ih =>
    simp only [traceFrom]
    split
    · simpa using h.free
    · rename_i s' hs
      rw [← List.append_assoc]
      exact ih (h.step hs)

theorem A2lInv.init (I : Input) {t : Trace} (ht : ∀ e ∈ t, Foreign e) : A2lInv cap I (t ++ startEvents I.np) (A2lRun.init I) := by
  unfold A2lRun.init
  split
  · rename_i hp
    exact (InvT.init (tss := List.replicate I.np []) (c := 0) (by simp) ht).free
  · rename_i tss hp
    refine InvT.init ?_ ht
    unfold Input.pieces at hp
    obtain ⟨parts, h1, h2⟩ := Option.bind_eq_some_iff.1 hp
    rw [mapM_length h2, Hex.shares_length h1]

/-! ### What belongs to the A2L parser -/

/-- The memory of the A2L parser. -/
def a2lL : Loc → Prop
  | .a2lLines | .piece _ _ | .tokenList | .moduleCount | .multithreading | .chars _ | .object _ _ _ | .field _ _ | .a2l => True
  | _ => False

/-- The channels of the A2L parser. -/
def a2lS : Sy → Prop
  | .tokens _ | .chan _ _ => True
  | _ => False

/-- Nothing is used that does not belong to the A2L parser, but the logger; and the main goroutine is not started again. -/
def Fine (a : A) : Prop := (∀ l x, a.access = some (l, x) → a2lL l ∨ (l = .logger ∧ x = .read)) ∧ (∀ c, a = .send c ∨ a = .recv c → a2lS c) ∧
  ∀ g, a = .go g → a2lG g ∧ g ≠ .rdA

theorem fine_access {a : A} {l : Loc} {x : Kind} (h : a.access = some (l, x)) (hl : a2lL l ∨ (l = .logger ∧ x = .read)) : Fine a := by
  refine ⟨fun l' x' h' => ?_, fun c h' => ?_, fun g h' => ?_⟩
  · obtain ⟨rfl, rfl⟩ := acc_eq h h'; exact hl
  · rcases h' with rfl | rfl <;> cases h
  · subst h'; cases h

theorem fine_quiet {a : A} (h : a.access = none) (hc : ∀ c, a = .send c ∨ a = .recv c → a2lS c)
    (hg : ∀ g, a = .go g → a2lG g ∧ g ≠ .rdA := by nofun) : Fine a :=
  ⟨fun l x h' => (by rw [h] at h'; cases h'), hc, hg⟩

theorem fine_shared {a : A} (h : ∃ l, a = .read l ∧ SharedLoc l) : Fine a := by
  obtain ⟨l, rfl, rfl | rfl | rfl | ⟨k, rfl⟩⟩ := h
  · exact fine_access rfl (Or.inr ⟨rfl, rfl⟩)
  · exact fine_access rfl (Or.inl trivial)
  · exact fine_access rfl (Or.inl trivial)
  · exact fine_access rfl (Or.inl trivial)

theorem fine_pre {np q : Nat} {a : A} (h : a ∈ preActs np q) : Fine a := by
  simp only [preActs, List.mem_append, List.mem_cons, List.mem_map] at h
  rcases h with (rfl | h) | ⟨c, _, rfl⟩
  · exact fine_access rfl (Or.inl trivial)
  · exact fine_shared (tokens_shared h)
  · exact fine_access rfl (Or.inl trivial)

theorem tok_own {p : Pipeline.State (List Str)} {o : Pipeline.Op} : ∀ e ∈ tokPipe.events tokActs tokGot p o, a2lG e.who ∧ Fine e.act := by
  intro e he
  obtain ⟨h1, h2⟩ := Pipe.mem_events' he
  refine ⟨by rcases h1 with ⟨k, h⟩ | h <;> rw [h] <;> trivial, ?_⟩
  rcases h2 with ⟨k, h⟩ | h | ⟨k, m, h | h⟩ | ⟨k, h | h | h | h⟩
  · obtain ⟨l, x, h3, ⟨rfl | rfl, rfl⟩ | ⟨rfl, rfl⟩ | ⟨rfl, rfl⟩⟩ := tokActs_access h
    · exact fine_access h3 (Or.inr ⟨rfl, rfl⟩)
    · exact fine_access h3 (Or.inl trivial)
    · exact fine_access h3 (Or.inl trivial)
    · exact fine_access h3 (Or.inl trivial)
  · obtain ⟨x, h3⟩ := tokGot_access h
    exact fine_access h3 (Or.inl trivial)
  · rw [h]; exact fine_access rfl (Or.inl trivial)
  · rw [h]; exact fine_access rfl (Or.inl trivial)
  · rw [h]; exact fine_quiet rfl (by rintro c (h | h) <;> cases h; trivial)
  · rw [h]; exact fine_quiet rfl (by rintro c (h | h) <;> cases h; trivial)
  · rw [h]; exact fine_quiet rfl (by rintro c (h | h) <;> cases h)
  · rw [h]; exact fine_quiet rfl (by rintro c (h | h) <;> cases h)

theorem coll_own {np q : Nat} {s : Collect.State α} {o : Collect.Op} : ∀ e ∈ collEvents np q s o, a2lG e.who ∧ Fine e.act := by
  intro e he
  cases o with
  | send k =>
    simp only [collEvents] at he
    split at he
    · split at he
      · split at he
        · split at he
          · cases he
          · simp only [mem_acts, List.mem_append, List.mem_cons, List.not_mem_nil, or_false] at he
            refine ⟨he.1 ▸ trivial, ?_⟩
            rcases he.2 with h | h | h
            · exact fine_shared (tokens_shared h)
            · rw [h]; exact fine_access rfl (Or.inl trivial)
            · rw [h]; exact fine_quiet rfl (by rintro c (h | h) <;> cases h; trivial)
        · cases he
      · cases he
    · cases he
  | exit k =>
    simp only [collEvents, mem_acts, List.mem_append, List.mem_cons, List.not_mem_nil, or_false] at he
    refine ⟨he.1 ▸ trivial, ?_⟩
    rcases he.2 with h | h
    · exact fine_shared (tokens_shared h)
    · rw [h]; exact fine_quiet rfl (by rintro c (h | h) <;> cases h)
  | close =>
    simp only [collEvents, mem_acts, List.mem_append, List.mem_cons, List.not_mem_nil, or_false] at he
    refine ⟨he.1 ▸ trivial, ?_⟩
    rcases he.2 with h | h | h
    · split at h
      · rw [List.mem_singleton.1 h]; exact fine_quiet rfl (by rintro c (h | h) <;> cases h)
      · cases h
    · rw [h]; exact fine_quiet rfl (by rintro c (h | h) <;> cases h)
    · rw [h]; exact fine_access rfl (Or.inr ⟨rfl, rfl⟩)
  | recv c =>
    simp only [collEvents] at he
    split at he
    · simp only [mem_acts, List.mem_append, List.mem_cons, List.not_mem_nil, or_false] at he
      refine ⟨he.1 ▸ trivial, ?_⟩
      rcases he.2 with (h | h | h) | h | h
      · rw [h]; exact fine_quiet rfl (by rintro c (h | h) <;> cases h; trivial)
      · rw [h]; exact fine_access rfl (Or.inl trivial)
      · exact fine_shared (chars_shared h)
      · rw [h]; exact fine_access rfl (Or.inl trivial)
      · rw [h]; exact fine_access rfl (Or.inl trivial)
    · cases he
  | fin c =>
    simp only [collEvents, mem_acts, List.mem_cons, List.not_mem_nil, or_false] at he
    refine ⟨he.1 ▸ trivial, ?_⟩
    rcases he.2 with h | h | h
    · rw [h]; exact fine_quiet rfl (by rintro c (h | h) <;> cases h)
    · rw [h]; exact fine_access rfl (Or.inr ⟨rfl, rfl⟩)
    · rw [h]; exact fine_quiet rfl (by rintro c (h | h) <;> cases h)

theorem rdA_own {as : List A} (h : ∀ a ∈ as, Fine a) : ∀ e ∈ Race.acts .rdA as, a2lG e.who ∧ Fine e.act := fun e he => by
  obtain ⟨h1, h2⟩ := mem_acts.1 he
  exact ⟨h1 ▸ trivial, h _ h2⟩

theorem call_own {np q : Nat} {b : Bool} : ∀ a ∈ callActs np q b, Fine a := by
  intro a ha
  rcases List.mem_append.1 ha with ha | ha
  · exact fine_pre ha
  · split at ha
    · obtain ⟨g, hg, rfl⟩ := List.mem_map.1 ha
      refine fine_quiet rfl (by rintro c (h | h) <;> cases h) fun g' h => ?_
      cases h
      rcases mem_crew.1 hg with ⟨k, _, rfl⟩ | rfl | ⟨c, _, rfl⟩ <;> exact ⟨trivial, nofun⟩
    · cases ha

theorem events_own {I : Input} {s : State} {o : Op} : ∀ e ∈ events I s o, a2lG e.who ∧ Fine e.act := by
  intro e he
  unfold events at he
  split at he
  · exact tok_own e he
  · refine rdA_own (fun a ha => ?_) e he
    simp only [tokGot, List.mem_append, List.mem_cons, List.not_mem_nil, or_false] at ha
    rcases ha with (rfl | rfl) | rfl | rfl | rfl
    · exact fine_access rfl (Or.inl trivial)
    · exact fine_access rfl (Or.inl trivial)
    · exact fine_access rfl (Or.inl trivial)
    · exact fine_access rfl (Or.inl trivial)
    · exact fine_access rfl (Or.inr ⟨rfl, rfl⟩)
  · split at he <;> exact rdA_own call_own e he
  · refine rdA_own (fun a ha => ?_) e he
    simp only [List.mem_append, List.mem_cons, List.not_mem_nil, or_false] at ha
    rcases ha with (rfl | ha) | rfl
    · exact fine_access rfl (Or.inl trivial)
    · exact fine_shared (tokens_shared ha)
    · exact fine_access rfl (Or.inl trivial)
  · exact coll_own e he
  · split at he
    · cases he
    · refine rdA_own (fun a ha => ?_) e he
      simp only [List.mem_cons, List.mem_map] at ha
      rcases ha with rfl | rfl | ⟨c, _, rfl⟩
      · exact fine_quiet rfl (by rintro c (h | h) <;> cases h)
      · exact fine_access rfl (Or.inr ⟨rfl, rfl⟩)
      · exact fine_access rfl (Or.inl trivial)
  · cases he

theorem startEvents_own {np : Nat} : ∀ e ∈ startEvents np, a2lG e.who ∧ Fine e.act := by
  refine rdA_own fun a ha => ?_
  simp only [List.mem_append, List.mem_cons, List.not_mem_nil, or_false, List.mem_map] at ha
  rcases ha with (rfl | rfl | rfl | rfl) | ⟨k, _, rfl⟩
  · exact fine_access rfl (Or.inr ⟨rfl, rfl⟩)
  · exact fine_access rfl (Or.inl trivial)
  · exact fine_access rfl (Or.inl trivial)
  · exact fine_access rfl (Or.inl trivial)
  · exact fine_quiet rfl (by rintro c (h | h) <;> cases h) fun g h => by cases h; exact ⟨trivial, nofun⟩

theorem traceFrom_own {I : Input} : ∀ {os : List Op} {s : State}, ∀ e ∈ traceFrom I s os, a2lG e.who ∧ Fine e.act
  | [], s => by simp [traceFrom]
  | o :: os, s => by
    rw [traceFrom]
    split
    · simp
    · intro e he
      rcases List.mem_append.1 he with he | he
      · exact events_own e he
      · exact traceFrom_own e he

/-- No execution has a data race. -/
theorem not_racy (I : Input) (os : List Op) : ¬ Racy cap (trace I os) := by
  have h0 : A2lInv cap I (startEvents I.np) (A2lRun.init I) := by
    have := A2lInv.init (cap := cap) I (t := []) (by simp)
    simpa using this
  have h1 := h0.run os
  have h2 : ∀ e ∈ trace I os, a2lG e.who := by
    intro e he
    rcases List.mem_append.1 he with he | he
    · exact (startEvents_own e he).1
    · exact (traceFrom_own e he).1
  exact free_not_racy fun i j e f g1 g2 g3 _ _ g4 g5 => h1 i j e f g1 g2 g3 (h2 _ (List.mem_of_getElem? g1)) (h2 _ (List.mem_of_getElem? g2)) g4 g5

end Verif.Conc.Race.A2l
