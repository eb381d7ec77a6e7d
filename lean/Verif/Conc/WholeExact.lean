import Verif.Conc.WholeProps
import Verif.Conc.A2lRunAll

/-!
Property C85, the other direction: every result that can be put together from what the two files give is the result of a run. So
the results of `ReadCalibration`, over all interleavings of all goroutines, are known exactly, for any two files.
-/

namespace Verif.Conc.HexRun
open Verif.Ihex (Outcome)

/-- A text has one answer only. -/
theorem answer_unique {sums : Prop} {ps : List (Nat × Nat)} {o o' : Outcome} (h : Answer sums ps o) (h' : Answer sums ps o') : o = o' := by
  have ext : ∀ {o o' : Outcome}, o.err = o'.err → (∀ a, o.map a = o'.map a) → o = o' := by
    intro o o' h1 h2
    cases o; cases o'
    simp only at h1 h2
    subst h1
    congr 1
    funext a
    exact h2 a
  have same : ∀ {m m' : Nat → Option Nat} {l : List (Nat × Nat)}, (∀ a v, m a = some v ↔ (a, v) ∈ l) → (∀ a v, m' a = some v ↔ (a, v) ∈ l) →
      ∀ a, m a = m' a := by
    intro m m' l h1 h2 a
    cases hm : m a with
    | some v => exact ((h2 a v).2 ((h1 a v).1 hm)).symm
    | none =>
      cases hm' : m' a with
      | none => rfl
      | some v => rw [(h1 a v).2 ((h2 a v).1 hm')] at hm; cases hm
  by_cases hs : sums
  · rcases Ihex.clash_or ps with hnd | ⟨pre, a, v, w, hc⟩
    · obtain ⟨h1, h2⟩ := (h.2 hs).1 hnd
      obtain ⟨h3, h4⟩ := (h'.2 hs).1 hnd
      exact ext (h1.trans h3.symm) (same h2 h4)
    · obtain ⟨h1, h2⟩ := (h.2 hs).2 pre a v w hc
      obtain ⟨h3, h4⟩ := (h'.2 hs).2 pre a v w hc
      exact ext (h1.trans h3.symm) (same h2 h4)
  · obtain ⟨h1, h2⟩ := h.1 hs
    obtain ⟨h3, h4⟩ := h'.1 hs
    exact ext (h1.trans h3.symm) fun a => (h2 a).trans (h4 a).symm

end Verif.Conc.HexRun

namespace Verif.Conc.Whole
open Verif.Go Verif.A2l Lang Write Decl EndToEnd ReadCal
open Verif.Ihex (Mem Outcome splitLines joinLines)

/-- A run of a program alone. -/
def Sys.run {Out : Type} (M : Sys Out) (s : M.S) : List M.O → Option M.S
  | [] => some s
  | o :: os => (M.step s o).bind fun s' => M.run s' os

/-- The program can give the result. -/
def Sys.Gives {Out : Type} (M : Sys Out) (r : Out) : Prop := ∃ os s, M.run M.start os = some s ∧ M.out s = some r

/-- A program that keeps to its law gives some result. -/
theorem Law.gives {Out : Type} {M : Sys Out} {I : M.S → Prop} {P : Out → Prop} (l : Law M I P) : ∃ r, M.Gives r ∧ P r := by
  have key : ∀ s, I s → ∃ os s' r, M.run s os = some s' ∧ M.out s' = some r ∧ P r := by
    intro s
    induction s using l.wf.induction with
    | _ s ih =>
      intro hi
      cases ho : M.out s with
      | some r => exact ⟨[], s, r, rfl, ho, l.good hi ho⟩
      | none =>
        obtain ⟨o, s', hs⟩ := l.progress hi ho
        obtain ⟨os, s2, r, h1, h2, h3⟩ := ih s' ⟨hi, o, hs⟩ (l.step hi hs)
        exact ⟨o :: os, s2, r, by simp only [Sys.run, hs, Option.bind_some, h1], h2, h3⟩
  obtain ⟨os, s, r, h1, h2, h3⟩ := key _ l.start
  exact ⟨r, ⟨os, s, h1, h2⟩, h3⟩

section
variable {A H E : Type} {MA : Sys (Except E A)} {MH : Sys (Except E H)}

theorem run_then {s s' : State MA MH} {os os' : List (Op MA MH)} (h : run s os = some s') : run s (os ++ os') = run s' os' := by
  induction os generalizing s with
  | nil => cases h; rfl
  | cons o os ih =>
    obtain ⟨s1, h1, h2⟩ := Option.bind_eq_some_iff.1 h
    simp only [List.cons_append, run, h1, Option.bind_some]
    exact ih h2

theorem run_a2l {a a' : MA.S} {os : List MA.O} (h : MA.run a os = some a') (x : MH.S) (m : ReadCal.State A H E) :
    run (⟨a, x, m⟩ : State MA MH) (os.map .a2l) = some ⟨a', x, m⟩ := by
  induction os generalizing a with
  | nil => cases h; rfl
  | cons o os ih =>
    obtain ⟨a1, h1, h2⟩ := Option.bind_eq_some_iff.1 h
    simp only [List.map_cons, run, step, h1, Option.map_some, Option.bind_some]
    exact ih h2

theorem run_hex {x x' : MH.S} {os : List MH.O} (h : MH.run x os = some x') (a : MA.S) (m : ReadCal.State A H E) :
    run (⟨a, x, m⟩ : State MA MH) (os.map .hex) = some ⟨a, x', m⟩ := by
  induction os generalizing x with
  | nil => cases h; rfl
  | cons o os ih =>
    obtain ⟨a1, h1, h2⟩ := Option.bind_eq_some_iff.1 h
    simp only [List.map_cons, run, step, h1, Option.map_some, Option.bind_some]
    exact ih h2

/-- The op of the whole program for a step of one of the three goroutines of `Conc/ReadCal.lean` (calib_data.go:42-98). -/
def whoOp : Who → Op MA MH
  | .a => .readA2L
  | .h => .readHex
  | .m => .main

theorem run_main {a : MA.S} {x : MH.S} {ra : Except E A} {rh : Except E H} (ha : MA.out a = some ra) (hh : MH.out x = some rh)
    {m m' : ReadCal.State A H E} {ws : List Who} (h : ReadCal.run ra rh m ws = some m') :
    run (⟨a, x, m⟩ : State MA MH) (ws.map whoOp) = some ⟨a, x, m'⟩ := by
  induction ws generalizing m with
  | nil => cases h; rfl
  | cons w ws ih =>
    obtain ⟨m1, h1, h2⟩ := Option.bind_eq_some_iff.1 h
    have : step (⟨a, x, m⟩ : State MA MH) (whoOp w) = some ⟨a, x, m1⟩ := by
      cases w with
      | a => simp only [whoOp, step, ha, Option.bind_some, show ReadCal.stepA ra m = some m1 from h1, Option.map_some]
      | h => simp only [whoOp, step, hh, Option.bind_some, show ReadCal.stepH rh m = some m1 from h1, Option.map_some]
      | m => simp only [whoOp, step, show ReadCal.stepM m = some m1 from h1, Option.map_some]
    simp only [List.map_cons, run, this, Option.bind_some]
    exact ih h2

/-- The main goroutine and the two readers can put together every result that the answers allow: if there are two errors, either. -/
theorem main_run {ra : Except E A} {rh : Except E H} {r : ReadCal.Result A H E} (h : Combines ra rh r) :
    ∃ ws m, ReadCal.run ra rh (ReadCal.init A H E) ws = some m ∧ m.main = .ret r := by
  obtain ⟨r1, r2, r3⟩ := r
  cases ra with
  | ok a =>
    cases rh with
    | ok x =>
      cases h.1 a x rfl rfl
      exact ⟨[.a, .a, .a, .h, .h, .h, .m, .m, .m, .m, .m], _, rfl, rfl⟩
    | error e =>
      obtain ⟨h1, h2, e', h3, h4⟩ := h.2 (Or.inr ⟨e, rfl⟩)
      have : e = e' := by rcases h4 with h4 | h4 <;> cases h4; rfl
      simp only at h1 h2 h3
      subst this h1 h2 h3
      exact ⟨[.a, .a, .a, .h, .h, .h, .m, .m, .m, .m, .m], _, rfl, rfl⟩
  | error e =>
    obtain ⟨h1, h2, e', h3, h4⟩ := h.2 (Or.inl ⟨e, rfl⟩)
    simp only at h1 h2 h3
    subst h1 h2 h3
    cases rh with
    | ok x =>
      have : e = e' := by rcases h4 with h4 | h4 <;> cases h4; rfl
      subst this
      exact ⟨[.a, .a, .a, .h, .h, .h, .m, .m, .m, .m, .m], _, rfl, rfl⟩
    | error e2 =>
      rcases h4 with h4 | h4
      · cases h4
        exact ⟨[.h, .h, .h, .a, .a, .a, .m, .m, .m, .m, .m, .m], _, rfl, rfl⟩
      · cases h4
        exact ⟨[.a, .a, .a, .h, .h, .h, .m, .m, .m, .m, .m, .m], _, rfl, rfl⟩

theorem every_result {ra : Except E A} {rh : Except E H} (ha : MA.Gives ra) (hh : MH.Gives rh) {r : ReadCal.Result A H E} (h : Combines ra rh r) :
    ∃ os s, run (start MA MH) os = some s ∧ s.m.main = .ret r := by
  obtain ⟨os1, a, h1, h2⟩ := ha
  obtain ⟨os2, x, h3, h4⟩ := hh
  obtain ⟨ws, m, h5, h6⟩ := main_run h
  refine ⟨os1.map .a2l ++ (os2.map .hex ++ ws.map whoOp), ⟨a, x, m⟩, ?_, h6⟩
  rw [start, run_then (run_a2l h1 _ _), run_then (run_hex h3 _ _), run_main h2 h4 h5]

end

theorem run_eq {I : A2lRun.Input} (s : A2lRun.State) (os : List A2lRun.Op) : (a2lSys I).run s os = A2lRun.run I s os := by
  induction os generalizing s with
  | nil => rfl
  | cons o os ih =>
    show (A2lRun.step I s o).bind _ = (A2lRun.step I s o).bind _
    congr 1
    funext s'
    exact ih s'

/-- Every answer of the A2L parser is given by a run. -/
theorem a2l_gives {F : Files} (hn : 0 < F.cpus) {ra : Except Err Lang.Obj} (h : F.A2lGives ra) : F.readA2L.Gives ra := by
  unfold Files.A2lGives at h
  unfold Files.readA2L
  split at h
  · subst h
    exact ⟨[], (), rfl, rfl⟩
  · rename_i t _
    obtain ⟨ts, i, v, e, h1, h2, rfl⟩ := h
    obtain ⟨os, hos⟩ := A2lRun.C84_every_result (I := F.input t) (by unfold Files.input; dsimp only; omega) h1 h2
    exact ⟨os, .returned (.ok i v e), (run_eq _ _).trans hos, rfl⟩

/-- The hex file has one answer. -/
theorem hex_unique {F : Files} {rh rh' : Except Err Mem} (h : F.HexGives rh) (h' : F.HexGives rh') : rh = rh' := by
  unfold Files.HexGives at h h'
  cases hf : format F.path with
  | none => rw [hf] at h h'; exact h.trans h'.symm
  | some f =>
    rw [hf] at h h'
    cases hx : F.hex with
    | none => rw [hx] at h h'; exact h.trans h'.symm
    | some t =>
      rw [hx] at h h'
      cases f with
      | intelHex =>
        obtain ⟨o, rfl, h⟩ := h
        obtain ⟨o', rfl, h'⟩ := h'
        rw [HexRun.answer_unique h h']
      | s19 =>
        obtain ⟨o, rfl, h⟩ := h
        obtain ⟨o', rfl, h'⟩ := h'
        rw [HexRun.answer_unique h h']

theorem hex_gives {F : Files} (hn : 0 < F.cpus) {rh : Except Err Mem} (h : F.HexGives rh) : F.readHex.Gives rh := by
  obtain ⟨I, l⟩ := hex_laws hn
  obtain ⟨r, h1, h2, _⟩ := l.gives
  rw [hex_unique h h2]
  exact h1

/-- **C85 exactly.** For any two files the results of the whole call, over all interleavings of all goroutines, are exactly those put
together from an answer of the A2L parser (C84) and the answer of the hex file (C77). -/
theorem C85_results {F : Files} (hn : 0 < F.cpus) (r : Result Lang.Obj Mem Err) :
    (∃ s, Reaches F s ∧ s.m.main = .ret r) ↔ ∃ ra rh, F.A2lGives ra ∧ F.HexGives rh ∧ Combines ra rh r := by
  constructor
  · rintro ⟨s, hs, hr⟩
    exact (C85_safe hn hs).2 r hr
  · rintro ⟨ra, rh, h1, h2, h3⟩
    obtain ⟨os, s, h4, h5⟩ := every_result (a2l_gives hn h1) (hex_gives hn h2) h3
    exact ⟨s, ⟨os, h4⟩, h5⟩

/-- C85: the hex part has no choice: two calls that both return data return the same memory. -/
theorem C85_same_memory {F : Files} (hn : 0 < F.cpus) {s s' : State F.readA2L F.readHex} (h : Reaches F s) (h' : Reaches F s')
    {r r' : Result Lang.Obj Mem Err} (hr : s.m.main = .ret r) (hr' : s'.m.main = .ret r') {m m' : Mem} (hm : r.hex = some m)
    (hm' : r'.hex = some m') : m = m' := by
  have key : ∀ {r : Result Lang.Obj Mem Err} {m : Mem}, (∃ ra rh, F.A2lGives ra ∧ F.HexGives rh ∧ Combines ra rh r) → r.hex = some m →
      F.HexGives (.ok m) := by
    rintro r m ⟨ra, rh, _, h2, h3⟩ hm
    cases rh with
    | error e => rw [(h3.2 (Or.inr ⟨e, rfl⟩)).2.1] at hm; cases hm
    | ok x =>
      cases ra with
      | error e => rw [(h3.2 (Or.inl ⟨e, rfl⟩)).2.1] at hm; cases hm
      | ok a => rw [h3.1 a x rfl rfl] at hm; cases hm; exact h2
  have := hex_unique (key ((C85_safe hn h).2 r hr) hm) (key ((C85_safe hn h').2 r' hr') hm')
  exact Except.ok.inj this

/-- C22 at the level of the whole program: if both files cannot be used, either error can be the one returned, for any two such files. -/
theorem C85_either_error {F : Files} (hn : 0 < F.cpus) {e e' : Err} (ha : F.A2lGives (.error e)) (hh : F.HexGives (.error e')) :
    (∃ s, Reaches F s ∧ s.m.main = .ret ⟨none, none, some e⟩) ∧ ∃ s, Reaches F s ∧ s.m.main = .ret ⟨none, none, some e'⟩ :=
  ⟨(C85_results hn _).2 ⟨_, _, ha, hh, ⟨fun _ _ h => (nomatch h), fun _ => ⟨rfl, rfl, e, rfl, Or.inl rfl⟩⟩⟩,
   (C85_results hn _).2 ⟨_, _, ha, hh, ⟨fun _ _ h => (nomatch h), fun _ => ⟨rfl, rfl, e', rfl, Or.inr rfl⟩⟩⟩⟩

/-! ### Examples -/

-- both files missing, or the second of an unknown format: two different errors
example : (∃ s, Reaches ⟨2, fun _ => true, Props.natB, none, "a.bin".toList, none⟩ s ∧ s.m.main = .ret ⟨none, none, some .unreadable⟩) ∧
    ∃ s, Reaches ⟨2, fun _ => true, Props.natB, none, "a.bin".toList, none⟩ s ∧ s.m.main = .ret ⟨none, none, some .unsupported⟩ :=
  C85_either_error (F := ⟨2, fun _ => true, Props.natB, none, "a.bin".toList, none⟩) (by decide) rfl (by
    unfold Files.HexGives
    have : format "a.bin".toList = none := by decide +kernel
    simp only [this])

-- the file of `C84_two_results` and a hex file: both contents are results of the whole call
example : ∃ (F : Files) (ts : List Str) (o : PRes) (m : Mem), 0 < F.cpus ∧ A2lRun.Result (F.input A2lRun.twice.text) ts o ∧
    F.HexGives (.ok m) ∧ ∀ i v, o = .ok i v false → ∃ s, Reaches F s ∧ s.m.main = .ret ⟨some (Link.objOf v), some m, none⟩ := by
  let F : Files := ⟨1, fun _ => true, fun _ => true, some A2lRun.twice.text, "Data.S19".toList,
    some (joinLines ['\r', '\n'] (Srec.Spec.encode .upper someBlocks))⟩
  obtain ⟨IH, lh⟩ := hex_laws (F := F) (by decide)
  obtain ⟨rh, _, h2, h3⟩ := lh.gives
  obtain ⟨sched, h3⟩ : ∃ sched, hexSent ⟨F.cpus, A2lRun.setup (F.input []) fun _ => [], 0, [], [], F.path,
    joinLines ['\r', '\n'] (Srec.Spec.encode .upper someBlocks), sched⟩ = some rh := h3
  obtain ⟨m, rfl, _⟩ := sent_hex (Nat.zero_lt_one) holds_s19 h3
  obtain ⟨ts, ht⟩ := A2lRun.tokens_exist (F.input A2lRun.twice.text)
  obtain ⟨os, r, h⟩ := A2lRun.C84_completes (I := F.input A2lRun.twice.text) (by decide) (os := []) rfl
  have hr := (A2lRun.C84_results (I := F.input A2lRun.twice.text) (by decide) ht r).1 ⟨os, h⟩
  refine ⟨F, ts, r, m, by decide, hr, h2, fun i v hv => ?_⟩
  exact (C85_results (by decide) _).2 ⟨.ok (Link.objOf v), .ok m, ⟨ts, i, v, false, ht, hv ▸ hr, rfl⟩, h2, fun a x ha hx => by cases ha; cases hx; rfl,
    fun h => by rcases h with ⟨e, h⟩ | ⟨e, h⟩ <;> cases h⟩

end Verif.Conc.Whole
