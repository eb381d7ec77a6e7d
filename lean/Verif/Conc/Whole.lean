import Verif.Conc.EndToEnd
import Verif.Conc.HexRunProps
import Verif.Conc.A2lRunProps

/-!
`ReadCalibration` (calib_data.go:45-98) with everything it starts: `readA2L` with the A2L parser and all goroutines of that
parser (`Conc/A2lRun.lean`), `readHex` with the parser for the format and all its goroutines (`Conc/HexRun.lean`), the channels
and the wait group between them and the main goroutine (`Conc/ReadCal.lean`). All steps of all these goroutines interleave.
-/

namespace Verif.Conc.Whole

/-! ### A program inside another one -/

/-- A transition system that gives a result at some time. -/
structure Sys (Out : Type) where
  S : Type
  O : Type
  start : S
  step : S → O → Option S
  out : S → Option Out
  crashed : S → Bool

/-- It never panics, gives a result in the end, which has the property `P`, and keeps it. -/
structure Law {Out : Type} (M : Sys Out) (Inv : M.S → Prop) (P : Out → Prop) : Prop where
  start : Inv M.start
  step : ∀ {s o s'}, Inv s → M.step s o = some s' → Inv s'
  safe : ∀ {s}, Inv s → M.crashed s = false
  progress : ∀ {s}, Inv s → M.out s = none → ∃ o s', M.step s o = some s'
  wf : WellFounded fun s' s => Inv s ∧ ∃ o, M.step s o = some s'
  keeps : ∀ {s o s' r}, Inv s → M.out s = some r → M.step s o = some s' → M.out s' = some r
  good : ∀ {s r}, Inv s → M.out s = some r → P r

/-- A call that returns at once. -/
def fixed {Out : Type} (r : Out) : Sys Out := ⟨Unit, Empty, (), fun _ _ => none, fun _ => some r, fun _ => false⟩

theorem fixed_law {Out : Type} (r : Out) : Law (fixed r) (fun _ => True) (· = r) where
  start := trivial
  step := fun _ _ => trivial
  safe := fun _ => rfl
  progress := fun _ h => nomatch h
  wf := ⟨fun _ => ⟨_, fun _ ⟨_, _, h⟩ => nomatch h⟩⟩
  keeps := fun _ h _ => h
  good := fun _ h => (Option.some.inj h).symm

/-! ### The whole call -/

section
variable {A H E : Type}

structure State (MA : Sys (Except E A)) (MH : Sys (Except E H)) where
  a : MA.S
  h : MH.S
  m : ReadCal.State A H E

inductive Op (MA : Sys (Except E A)) (MH : Sys (Except E H))
  /-- a step inside the A2L parser -/
  | a2l (o : MA.O)
  /-- a step inside the hex parser -/
  | hex (o : MH.O)
  /-- a step of `readA2L` after its parser has returned -/
  | readA2L
  /-- a step of `readHex` after its parser has returned -/
  | readHex
  | main

/-- calib_data.go:66-98. -/
def start (MA : Sys (Except E A)) (MH : Sys (Except E H)) : State MA MH := ⟨MA.start, MH.start, ReadCal.init A H E⟩

def step {MA : Sys (Except E A)} {MH : Sys (Except E H)} (s : State MA MH) : Op MA MH → Option (State MA MH)
  | .a2l o => (MA.step s.a o).map fun a => { s with a := a }
  | .hex o => (MH.step s.h o).map fun h => { s with h := h }
  | .readA2L => (MA.out s.a).bind fun r => (ReadCal.stepA r s.m).map fun m => { s with m := m }
  | .readHex => (MH.out s.h).bind fun r => (ReadCal.stepH r s.m).map fun m => { s with m := m }
  | .main => (ReadCal.stepM s.m).map fun m => { s with m := m }

def run {MA : Sys (Except E A)} {MH : Sys (Except E H)} (s : State MA MH) : List (Op MA MH) → Option (State MA MH)
  | [] => some s
  | o :: os => (step s o).bind fun s' => run s' os

/-- A goroutine has panicked. -/
def crashed {MA : Sys (Except E A)} {MH : Sys (Except E H)} (s : State MA MH) : Prop :=
  MA.crashed s.a = true ∨ MH.crashed s.h = true ∨ s.m.main = .panicked

/-- The result `r` is `o`, if there is one already. -/
def Agrees {R : Type} (o : Option R) (r : R) : Prop := ∀ r', o = some r' → r = r'

structure Inv {MA : Sys (Except E A)} {MH : Sys (Except E H)} (IA : MA.S → Prop) (IH : MH.S → Prop) (s : State MA MH) : Prop where
  a : IA s.a
  h : IH s.h
  m : ∀ ra rh, Agrees (MA.out s.a) ra → Agrees (MH.out s.h) rh → ∃ ws, ReadCal.run ra rh (ReadCal.init A H E) ws = some s.m
  early : MA.out s.a = none → s.m.pcA = 0
  earlyH : MH.out s.h = none → s.m.pcH = 0

variable {MA : Sys (Except E A)} {MH : Sys (Except E H)} {IA : MA.S → Prop} {IH : MH.S → Prop} {PA : Except E A → Prop} {PH : Except E H → Prop}

theorem start_inv (la : Law MA IA PA) (lh : Law MH IH PH) : Inv IA IH (start MA MH) :=
  ⟨la.start, lh.start, fun _ _ _ _ => ⟨[], rfl⟩, fun _ => rfl, fun _ => rfl⟩

theorem run_snoc {ra : Except E A} {rh : Except E H} {s s' s'' : ReadCal.State A H E} {ws : List ReadCal.Who} {w : ReadCal.Who}
    (h : ReadCal.run ra rh s ws = some s') (hw : ReadCal.step ra rh s' w = some s'') : ReadCal.run ra rh s (ws ++ [w]) = some s'' := by
  induction ws generalizing s with
  | nil => cases h; simp [ReadCal.run, hw]
  | cons v ws ih =>
    obtain ⟨s1, h1, h2⟩ := Option.bind_eq_some_iff.1 h
    simp only [List.cons_append, ReadCal.run, h1, Option.bind_some]
    exact ih h2

theorem agrees_keeps {MA : Sys (Except E A)} {IA : MA.S → Prop} {PA : Except E A → Prop} (la : Law MA IA PA) {s s' : MA.S} {o : MA.O}
    (hi : IA s) (hs : MA.step s o = some s') {r : Except E A} (h : Agrees (MA.out s') r) : Agrees (MA.out s) r :=
  fun r' hr => h r' (la.keeps hi hr hs)

theorem none_keeps {MA : Sys (Except E A)} {IA : MA.S → Prop} {PA : Except E A → Prop} (la : Law MA IA PA) {s s' : MA.S} {o : MA.O}
    (hi : IA s) (hs : MA.step s o = some s') (h : MA.out s' = none) : MA.out s = none := by
  cases hr : MA.out s with
  | none => rfl
  | some r => rw [la.keeps hi hr hs] at h; cases h

theorem stepA_pcH {r : Except E A} {s s' : ReadCal.State A H E} (h : ReadCal.stepA r s = some s') : s'.pcH = s.pcH := by
  unfold ReadCal.stepA at h
  split at h
  · split at h
    · obtain ⟨t, h1, rfl⟩ := Option.map_eq_some_iff.1 h
      unfold ReadCal.sendErr at h1
      split at h1
      · cases h1; rfl
      · split at h1
        · cases h1; rfl
        · cases h1
    · split at h
      · cases h; rfl
      · split at h
        · cases h; rfl
        · cases h
  · split at h <;> cases h <;> rfl
  · cases h
    unfold ReadCal.wgDone
    split <;> rfl
  · cases h

theorem stepH_pcA {r : Except E H} {s s' : ReadCal.State A H E} (h : ReadCal.stepH r s = some s') : s'.pcA = s.pcA := by
  unfold ReadCal.stepH at h
  split at h
  · split at h
    · obtain ⟨t, h1, rfl⟩ := Option.map_eq_some_iff.1 h
      unfold ReadCal.sendErr at h1
      split at h1
      · cases h1; rfl
      · split at h1
        · cases h1; rfl
        · cases h1
    · split at h
      · cases h; rfl
      · split at h
        · cases h; rfl
        · cases h
  · split at h <;> cases h <;> rfl
  · cases h
    unfold ReadCal.wgDone
    split <;> rfl
  · cases h

theorem stepM_pcs {s s' : ReadCal.State A H E} (h : ReadCal.stepM s = some s') : s'.pcA = s.pcA ∧ s'.pcH = s.pcH := by
  unfold ReadCal.stepM at h
  split at h
  all_goals first
    | (cases h; done)
    | (cases h; exact ⟨rfl, rfl⟩)
    | (split at h <;> first
        | (cases h; done)
        | (cases h; exact ⟨rfl, rfl⟩)
        | (split at h <;> first | (cases h; done) | (cases h; exact ⟨rfl, rfl⟩)))

theorem step_inv (la : Law MA IA PA) (lh : Law MH IH PH) {s s' : State MA MH} {o : Op MA MH} (hi : Inv IA IH s)
    (hs : step s o = some s') : Inv IA IH s' := by
  cases o with
  | a2l o =>
    obtain ⟨a, h1, rfl⟩ := Option.map_eq_some_iff.1 hs
    exact ⟨la.step hi.a h1, hi.h, fun ra rh ga gh => hi.m ra rh (agrees_keeps la hi.a h1 ga) gh,
      fun h => hi.early (none_keeps la hi.a h1 h), hi.earlyH⟩
  | hex o =>
    obtain ⟨h, h1, rfl⟩ := Option.map_eq_some_iff.1 hs
    exact ⟨hi.a, lh.step hi.h h1, fun ra rh ga gh => hi.m ra rh ga (agrees_keeps lh hi.h h1 gh), hi.early,
      fun h => hi.earlyH (none_keeps lh hi.h h1 h)⟩
  | readA2L =>
    obtain ⟨r, hr, h0⟩ := Option.bind_eq_some_iff.1 hs
    obtain ⟨m, h1, rfl⟩ := Option.map_eq_some_iff.1 h0
    refine ⟨hi.a, hi.h, fun ra rh ga gh => ?_, fun h => (by rw [hr] at h; cases h), fun h => (stepA_pcH h1).trans (hi.earlyH h)⟩
    obtain ⟨ws, hw⟩ := hi.m ra rh ga gh
    obtain rfl := ga r hr
    exact ⟨ws ++ [.a], run_snoc (w := .a) hw h1⟩
  | readHex =>
    obtain ⟨r, hr, h0⟩ := Option.bind_eq_some_iff.1 hs
    obtain ⟨m, h1, rfl⟩ := Option.map_eq_some_iff.1 h0
    refine ⟨hi.a, hi.h, fun ra rh ga gh => ?_, fun h => (stepH_pcA h1).trans (hi.early h), fun h => (by rw [hr] at h; cases h)⟩
    obtain ⟨ws, hw⟩ := hi.m ra rh ga gh
    obtain rfl := gh r hr
    exact ⟨ws ++ [.h], run_snoc (w := .h) hw h1⟩
  | main =>
    obtain ⟨m, h1, rfl⟩ := Option.map_eq_some_iff.1 hs
    refine ⟨hi.a, hi.h, fun ra rh ga gh => ?_, fun h => (stepM_pcs h1).1.trans (hi.early h), fun h => (stepM_pcs h1).2.trans (hi.earlyH h)⟩
    obtain ⟨ws, hw⟩ := hi.m ra rh ga gh
    exact ⟨ws ++ [.m], run_snoc (w := .m) hw h1⟩

theorem run_inv (la : Law MA IA PA) (lh : Law MH IH PH) {s s' : State MA MH} {os : List (Op MA MH)} (hi : Inv IA IH s)
    (hr : run s os = some s') : Inv IA IH s' := by
  induction os generalizing s with
  | nil => cases hr; exact hi
  | cons o os ih =>
    obtain ⟨s1, h1, h2⟩ := Option.bind_eq_some_iff.1 hr
    exact ih (step_inv la lh hi h1) h2

/-- A result that agrees. -/
theorem agrees_some {R : Type} [Nonempty R] (o : Option R) : ∃ r, Agrees o r := by
  cases o with
  | none => exact ⟨Classical.choice inferInstance, fun _ h => nomatch h⟩
  | some r => exact ⟨r, fun _ h => Option.some.inj h⟩

theorem not_crashed [Nonempty E] (la : Law MA IA PA) (lh : Law MH IH PH) {s : State MA MH} (hi : Inv IA IH s) : ¬ crashed s := by
  haveI : Nonempty (Except E A) := ⟨.error (Classical.choice inferInstance)⟩
  haveI : Nonempty (Except E H) := ⟨.error (Classical.choice inferInstance)⟩
  rintro (h | h | h)
  · rw [la.safe hi.a] at h; cases h
  · rw [lh.safe hi.h] at h; cases h
  · obtain ⟨ra, ga⟩ := agrees_some (MA.out s.a)
    obtain ⟨rh, gh⟩ := agrees_some (MH.out s.h)
    obtain ⟨ws, hw⟩ := hi.m ra rh ga gh
    exact C21_no_panic ra rh hw h

theorem progress (la : Law MA IA PA) (lh : Law MH IH PH) {s : State MA MH} (hi : Inv IA IH s) :
    (∃ o s', step s o = some s') ∨ ∃ r, s.m.main = .ret r := by
  cases ha : MA.out s.a with
  | none =>
    obtain ⟨o, a, h⟩ := la.progress hi.a ha
    exact Or.inl ⟨.a2l o, _, by simp only [step, h, Option.map_some]; rfl⟩
  | some ra =>
    cases hh : MH.out s.h with
    | none =>
      obtain ⟨o, x, h⟩ := lh.progress hi.h hh
      exact Or.inl ⟨.hex o, _, by simp only [step, h, Option.map_some]; rfl⟩
    | some rh =>
      obtain ⟨ws, hw⟩ := hi.m ra rh (fun _ h => Option.some.inj (ha.symm.trans h)) (fun _ h => Option.some.inj (hh.symm.trans h))
      by_cases hst : ∀ w, ReadCal.step ra rh s.m w = none
      · exact Or.inr ((C21_terminates ra rh hw).2 hst).1
      · left
        simp only [Classical.not_forall] at hst
        obtain ⟨w, hw'⟩ := hst
        obtain ⟨m, hm⟩ := Option.ne_none_iff_exists'.1 hw'
        cases w with
        | a => exact ⟨.readA2L, { s with m := m }, by simp only [step, ha, Option.bind_some, show ReadCal.stepA ra s.m = some m from hm, Option.map_some]⟩
        | h => exact ⟨.readHex, { s with m := m }, by simp only [step, hh, Option.bind_some, show ReadCal.stepH rh s.m = some m from hm, Option.map_some]⟩
        | m => exact ⟨.main, { s with m := m }, by simp only [step, show ReadCal.stepM s.m = some m from hm, Option.map_some]⟩

/-- The order that every step goes down. -/
theorem wf [Nonempty E] (la : Law MA IA PA) (lh : Law MH IH PH) :
    WellFounded fun s' s : State MA MH => Inv IA IH s ∧ ∃ o, step s o = some s' := by
  haveI : Nonempty (Except E A) := ⟨.error (Classical.choice inferInstance)⟩
  haveI : Nonempty (Except E H) := ⟨.error (Classical.choice inferInstance)⟩
  have hlex := (Prod.lex ⟨_, la.wf⟩ (Prod.lex ⟨_, lh.wf⟩ ⟨_, Nat.lt_wfRel.wf⟩)).wf
  refine Subrelation.wf (fun {s' s} h => ?_) (InvImage.wf (fun s : State MA MH => (s.a, s.h, s.m.work)) hlex)
  obtain ⟨hi, o, hs⟩ := h
  have hwork : ∀ ra rh w m, Agrees (MA.out s.a) ra → Agrees (MH.out s.h) rh → ReadCal.step ra rh s.m w = some m → m.work < s.m.work := by
    intro ra rh w m ga gh hm
    obtain ⟨ws, hw⟩ := hi.m ra rh ga gh
    have := ReadCal.step_work (ReadCal.inv_run (ReadCal.inv_init ra rh) hw) hm
    omega
  cases o with
  | a2l o =>
    obtain ⟨a, h1, rfl⟩ := Option.map_eq_some_iff.1 hs
    exact .left _ _ ⟨hi.a, o, h1⟩
  | hex o =>
    obtain ⟨h, h1, rfl⟩ := Option.map_eq_some_iff.1 hs
    exact .right _ (.left _ _ ⟨hi.h, o, h1⟩)
  | readA2L =>
    obtain ⟨r, hr, h0⟩ := Option.bind_eq_some_iff.1 hs
    obtain ⟨m, h1, rfl⟩ := Option.map_eq_some_iff.1 h0
    obtain ⟨rh, gh⟩ := agrees_some (MH.out s.h)
    exact .right _ (.right _ (hwork r rh .a m (fun _ h => Option.some.inj (hr.symm.trans h)) gh h1))
  | readHex =>
    obtain ⟨r, hr, h0⟩ := Option.bind_eq_some_iff.1 hs
    obtain ⟨m, h1, rfl⟩ := Option.map_eq_some_iff.1 h0
    obtain ⟨ra, ga⟩ := agrees_some (MA.out s.a)
    exact .right _ (.right _ (hwork ra r .h m ga (fun _ h => Option.some.inj (hr.symm.trans h)) h1))
  | main =>
    obtain ⟨m, h1, rfl⟩ := Option.map_eq_some_iff.1 hs
    obtain ⟨ra, ga⟩ := agrees_some (MA.out s.a)
    obtain ⟨rh, gh⟩ := agrees_some (MH.out s.h)
    exact .right _ (.right _ (hwork ra rh .m m ga gh h1))

theorem no_infinite [Nonempty E] (la : Law MA IA PA) (lh : Law MH IH PH) (f : Nat → State MA MH) (h0 : f 0 = start MA MH)
    (hf : ∀ i, ∃ o, step (f i) o = some (f (i + 1))) : False := by
  have hinv : ∀ i, Inv IA IH (f i) := by
    intro i
    induction i with
    | zero => rw [h0]; exact start_inv la lh
    | succ i ih => obtain ⟨o, ho⟩ := hf i; exact step_inv la lh ih ho
  have key : ∀ s, ∀ i, f i = s → False := by
    intro s
    induction s using (wf la lh).induction with
    | _ s ih =>
      intro i hi
      obtain ⟨o, ho⟩ := hf i
      exact ih _ ⟨hi ▸ hinv i, o, hi ▸ ho⟩ (i + 1) rfl
  exact key _ 0 rfl

theorem exists_maximal [Nonempty E] (la : Law MA IA PA) (lh : Law MH IH PH) {s : State MA MH} (hi : Inv IA IH s) :
    ∃ os s', run s os = some s' ∧ ∀ o, step s' o = none := by
  induction s using (wf la lh).induction with
  | _ s ih =>
    by_cases hst : ∀ o, step s o = none
    · exact ⟨[], s, rfl, hst⟩
    · simp only [Classical.not_forall] at hst
      obtain ⟨o, ho⟩ := hst
      obtain ⟨s1, ho⟩ := Option.ne_none_iff_exists'.1 ho
      obtain ⟨os, s', h1, h2⟩ := ih s1 ⟨hi, o, ho⟩ (step_inv la lh hi ho)
      exact ⟨o :: os, s', by simp only [run, ho, Option.bind_some]; exact h1, h2⟩

/-- How the answers of the two readers make the result: an error if there is one, and then no data; otherwise the data. -/
def Combines (ra : Except E A) (rh : Except E H) (r : ReadCal.Result A H E) : Prop :=
  (∀ a x, ra = .ok a → rh = .ok x → r = ⟨some a, some x, none⟩) ∧
  ((∃ e, ra = .error e) ∨ (∃ e, rh = .error e) → r.a2l = none ∧ r.hex = none ∧ ∃ e, r.err = some e ∧ (ra = .error e ∨ rh = .error e))

theorem result_out [Nonempty E] {s : State MA MH} (hi : Inv IA IH s) {r : ReadCal.Result A H E} (hr : s.m.main = .ret r) :
    ∃ ra rh, MA.out s.a = some ra ∧ MH.out s.h = some rh ∧ s.m.pcA = 3 ∧ s.m.pcH = 3 ∧ Combines ra rh r := by
  haveI : Nonempty (Except E A) := ⟨.error (Classical.choice inferInstance)⟩
  haveI : Nonempty (Except E H) := ⟨.error (Classical.choice inferInstance)⟩
  obtain ⟨ra, ga⟩ := agrees_some (MA.out s.a)
  obtain ⟨rh, gh⟩ := agrees_some (MH.out s.h)
  obtain ⟨ws, hw⟩ := hi.m ra rh ga gh
  have hinv := ReadCal.inv_run (ReadCal.inv_init ra rh) hw
  have hpc : ¬ (s.m.pcA ≠ 3 ∨ s.m.pcH ≠ 3) := by
    intro h
    have := ReadCal.main_wait hinv h
    rw [hr] at this
    cases this
  have ha : MA.out s.a = some ra := by
    cases ha : MA.out s.a with
    | none => have := hi.early ha; omega
    | some ra' => rw [ga ra' ha]
  have hh : MH.out s.h = some rh := by
    cases hh : MH.out s.h with
    | none => have := hi.earlyH hh; omega
    | some rh' => rw [gh rh' hh]
  refine ⟨ra, rh, ha, hh, by omega, by omega, ?_⟩
  obtain ⟨g1, g2, g3, g4⟩ := C21_result ra rh hw hr
  refine ⟨g3, fun h => ?_⟩
  cases he : r.err with
  | none =>
    obtain ⟨⟨a, rfl⟩, x, rfl⟩ := g1.1 he
    rcases h with ⟨_, h⟩ | ⟨_, h⟩ <;> cases h
  | some e =>
    obtain ⟨h1, h2⟩ := g4 (by simp [he])
    exact ⟨h1, h2, e, rfl, g2 e he⟩

theorem result [Nonempty E] (la : Law MA IA PA) (lh : Law MH IH PH) {s : State MA MH} (hi : Inv IA IH s) {r : ReadCal.Result A H E}
    (hr : s.m.main = .ret r) : ∃ ra rh, PA ra ∧ PH rh ∧ Combines ra rh r := by
  obtain ⟨ra, rh, ha, hh, _, _, hc⟩ := result_out hi hr
  exact ⟨ra, rh, la.good hi.a ha, lh.good hi.h hh, hc⟩

end

/-! ### The two parsers -/

open Verif.Go Verif.A2l Lang Write Decl EndToEnd
open Verif.Ihex (Mem Outcome)

/-- calib_data.go:102-114, with a2l/a2l.go:54-85. -/
def a2lSys (I : A2lRun.Input) : Sys (Except Err Lang.Obj) where
  S := A2lRun.State
  O := A2lRun.Op
  start := A2lRun.init I
  step := A2lRun.step I
  out
    | .returned (.ok _ v e) => some (if e then .error .a2l else .ok (Link.objOf v))
    | _ => none
  crashed
    | .crashed => true
    | _ => false

/-- What the A2L parser may answer. -/
def A2lAnswer (I : A2lRun.Input) (ra : Except Err Lang.Obj) : Prop :=
  ∃ ts i v e, tokensOfFile I.graphic I.np I.text = some ts ∧ A2lRun.Result I ts (.ok i v e) ∧
    ra = if e then .error .a2l else .ok (Link.objOf v)

theorem a2l_law {I : A2lRun.Input} (hn : 0 < I.np) {ts : List Str} (ht : A2lRun.Tokens I ts) :
    Law (a2lSys I) (A2lRun.Inv I ts) (A2lAnswer I) where
  start := A2lRun.init_inv ht
  step := fun hi hs => A2lRun.step_inv hn ht hi hs
  safe := fun {s} hi => by cases hi <;> rfl
  progress := fun {s} hi ho => by
    rcases A2lRun.progress hn ht hi with h | ⟨r, rfl⟩
    · exact h
    · cases hi with
      | returned h => cases ho
  wf := Subrelation.wf (fun {_ _} ⟨hi, _, hs⟩ => A2lRun.step_less hn ht hi hs) (InvImage.wf A2lRun.State.rank A2lRun.less_wf)
  keeps := fun {s o s' r} hi ho hs => by
    cases hi with
    | returned h => cases o <;> cases hs
    | _ => cases ho
  good := fun {s r} hi ho => by
    cases hi with
    | returned h => exact ⟨ts, _, _, _, ht, h, (Option.some.inj ho).symm⟩
    | _ => cases ho

/-- calib_data.go:118-155, with `parseHex` of a format. -/
def hexSys {R : Type} (P : HexRun.Prog R) (n : Nat) (lines : List Str) : Sys (Except Err Mem) where
  S := HexRun.State P
  O := HexRun.Op
  start := HexRun.init P n lines
  step := HexRun.step P n
  out
    | .returned o _ => some (ofOutcome o)
    | _ => none
  crashed
    | .crashed => true
    | _ => false

theorem hex_law {R : Type} {P : HexRun.Prog R} {n : Nat} (hn : 0 < n) {lines : List Str} {recs : List R} (ht : HexRun.Total P n lines recs)
    (hsh : ∀ ks s, P.shared.run (P.shared.start recs) ks = some s → P.shared.done s = false → ∃ k s', P.shared.step s k = some s')
    (w : P.shared.S → Nat) (hw : ∀ ks s k s', P.shared.run (P.shared.start recs) ks = some s → P.shared.step s k = some s' → w s' < w s) :
    Law (hexSys P n lines) (HexRun.Inv P n lines recs) (fun rh => ∃ o, HexRun.Result P n recs o ∧ rh = ofOutcome o) where
  start := HexRun.init_inv ht
  step := fun hi hs => HexRun.step_inv hn ht hi hs
  safe := fun {s} hi => by cases hi <;> rfl
  progress := fun {s} hi ho => by
    rcases HexRun.progress hsh hi with h | ⟨o, rest, rfl⟩
    · exact h
    · cases ho
  wf := by
    refine Subrelation.wf (fun {s' s} h => ?_) (InvImage.wf (fun s : HexRun.State P => (s.phase, s.work w))
      (Prod.lex ⟨_, Nat.lt_wfRel.wf⟩ ⟨_, Nat.lt_wfRel.wf⟩).wf)
    obtain ⟨hi, o, hs⟩ := h
    rcases HexRun.step_less w hw hi hs with h | ⟨h1, h2⟩
    · exact .left _ _ h
    · show Prod.Lex _ _ (s'.phase, s'.work w) (s.phase, s.work w)
      rw [h1]
      exact .right _ h2
  keeps := fun {s o s' r} hi ho hs => by
    cases hi with
    | @returned o' rest h hr =>
      cases o with
      | chan o =>
        cases rest with
        | offsets t => cases hs
        | data p =>
          have hs : HexRun.step P n (.returned o' (.data p)) (.chan o) = some s' := hs
          cases o <;> first | (cases hs; done) | (obtain ⟨_, _, rfl⟩ := Option.map_eq_some_iff.1 hs; exact ho)
      | check o => cases rest <;> cases hs
      | off k =>
        cases rest with
        | offsets t =>
          have hs : HexRun.step P n (.returned o' (.offsets t)) (.off k) = some s' := hs
          obtain ⟨_, _, rfl⟩ := Option.map_eq_some_iff.1 hs
          exact ho
        | data p => cases hs
      | main => cases rest <;> cases hs
    | _ => cases ho
  good := fun {s r} hi ho => by
    cases hi with
    | returned h _ => exact ⟨_, h, (Option.some.inj ho).symm⟩
    | _ => cases ho

end Verif.Conc.Whole
