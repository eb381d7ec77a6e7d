import Verif.Conc.WholeProps

/-!
Property C91: goroutines that are left over when `ReadCalibration` returns. (That the main goroutine of the A2L parser waits for
all goroutines it has started is `C84_no_leak`.)
-/

namespace Verif.Conc.Whole
open Verif.Go Verif.A2l Lang Write Decl EndToEnd ReadCal

/-- A part of a run of the whole call, seen by the hex parser. -/
theorem hex_part {A H E : Type} {MA : Sys (Except E A)} {MH : Sys (Except E H)} {s s' : State MA MH} {os : List (Op MA MH)} (h : run s os = some s')
    (Q : MH.S → Prop) (hq : ∀ x o x', Q x → MH.step x o = some x' → Q x') (h0 : Q s.h) : Q s'.h := by
  induction os generalizing s with
  | nil => cases h; exact h0
  | cons o os ih =>
    obtain ⟨s1, h1, h2⟩ := Option.bind_eq_some_iff.1 h
    refine ih h2 ?_
    cases o <;> simp only [step] at h1
    · obtain ⟨_, _, rfl⟩ := Option.map_eq_some_iff.1 h1; exact h0
    · obtain ⟨_, hx, rfl⟩ := Option.map_eq_some_iff.1 h1; exact hq _ _ _ h0 hx
    · obtain ⟨_, _, h1⟩ := Option.bind_eq_some_iff.1 h1
      obtain ⟨_, _, rfl⟩ := Option.map_eq_some_iff.1 h1; exact h0
    · obtain ⟨_, _, h1⟩ := Option.bind_eq_some_iff.1 h1
      obtain ⟨_, _, rfl⟩ := Option.map_eq_some_iff.1 h1; exact h0
    · obtain ⟨_, _, rfl⟩ := Option.map_eq_some_iff.1 h1; exact h0

theorem hexRun_snoc {R : Type} {P : HexRun.Prog R} {n : Nat} {s s' s'' : HexRun.State P} {os : List HexRun.Op} {o : HexRun.Op}
    (h : HexRun.run P n s os = some s') (h' : HexRun.step P n s' o = some s'') : HexRun.run P n s (os ++ [o]) = some s'' := by
  induction os generalizing s with
  | nil => cases h; simp [HexRun.run, h']
  | cons j os ih =>
    obtain ⟨s1, h1, h2⟩ := Option.bind_eq_some_iff.1 h
    rw [List.cons_append, HexRun.run, h1]
    exact ih h2

/-- The steps of the hex parser in a run of the whole call are a run of the hex parser. -/
theorem hex_steps {R : Type} {P : HexRun.Prog R} {n : Nat} {lines : List Str} {MA : Sys (Except Err Lang.Obj)} {s : State MA (hexSys P n lines)}
    {os : List (Op MA (hexSys P n lines))} (h : run (start MA (hexSys P n lines)) os = some s) :
    ∃ os', HexRun.run P n (HexRun.init P n lines) os' = some s.h :=
  hex_part h (fun x => ∃ os', HexRun.run P n (HexRun.init P n lines) os' = some x) (fun _ _ _ ⟨os', h⟩ hs => ⟨_, hexRun_snoc h hs⟩) ⟨[], rfl⟩

theorem a2l_out {I : A2lRun.Input} {s : A2lRun.State} {r : Except Err Lang.Obj} (h : (a2lSys I).out s = some r) :
    ∃ v, s = .returned v := by
  cases s <;> first | exact ⟨_, rfl⟩ | cases h

theorem hex_out {R : Type} {P : HexRun.Prog R} {n : Nat} {lines : List Str} {s : HexRun.State P} {r : Except Err Ihex.Mem}
    (h : (hexSys P n lines).out s = some r) : ∃ o rest, s = .returned o rest ∧ r = ofOutcome o := by
  cases s <;> first | exact ⟨_, _, rfl, (Option.some.inj h).symm⟩ | cases h

/-- `ReadCalibration` for a readable A2L file and a readable hex file. -/
abbrev Call {R : Type} (I : A2lRun.Input) (P : HexRun.Prog R) (n : Nat) (lines : List Str) : Type := State (a2lSys I) (hexSys P n lines)

/-- No goroutine that the call has started is left: `readA2L` and `readHex` have returned, both parsers have, and so have the
goroutines for which the hex parser does not wait. -/
def Quiet {R : Type} {I : A2lRun.Input} {P : HexRun.Prog R} {n : Nat} {lines : List Str} (s : Call I P n lines) : Prop :=
  s.m.pcA = 3 ∧ s.m.pcH = 3 ∧ (∃ v, s.a = .returned v) ∧ ∃ o rest, s.h = .returned o rest ∧ rest.ended

theorem call_ret {R : Type} {I : A2lRun.Input} (hI : 0 < I.np) {P : HexRun.Prog R} {n : Nat} (hn : 0 < n) {lines : List Str} {recs : List R}
    (ht : HexRun.Total P n lines recs)
    (hsh : ∀ ks s, P.shared.run (P.shared.start recs) ks = some s → P.shared.done s = false → ∃ k s', P.shared.step s k = some s')
    (w : P.shared.S → Nat) (hw : ∀ ks s k s', P.shared.run (P.shared.start recs) ks = some s → P.shared.step s k = some s' → w s' < w s)
    {s : Call I P n lines} {os} (h : run (start _ _) os = some s) {r} (hr : s.m.main = .ret r) :
    s.m.pcA = 3 ∧ s.m.pcH = 3 ∧ (∃ v, s.a = .returned v) ∧ ∃ o rest, s.h = .returned o rest ∧ (r.err = none → o.err = none) := by
  obtain ⟨ts, hts⟩ := A2lRun.tokens_exist I
  have la := a2l_law hI hts
  have lh := hex_law hn ht hsh w hw
  obtain ⟨ra, rh, ha, hh, h1, h2, hc⟩ := result_out (run_inv la lh (start_inv la lh) h) hr
  obtain ⟨o, rest, ho, rfl⟩ := hex_out hh
  refine ⟨h1, h2, a2l_out ha, o, rest, ho, fun he => ?_⟩
  cases hoe : o.err with
  | none => rfl
  | some e =>
    obtain ⟨_, _, e', he', _⟩ := hc.2 (Or.inr ⟨.hex e, by simp [ofOutcome, hoe]⟩)
    rw [he] at he'
    cases he'

/-- C91: when `ReadCalibration` returns without an error, every goroutine that it or one of the parsers has started has ended
already. Intel HEX. -/
theorem C91_success_ihex {I : A2lRun.Input} (hI : 0 < I.np) {n : Nat} (hn : 0 < n) {lines : List Str} {s : Call I (HexRun.ihex n) n lines} {os}
    (h : run (start _ _) os = some s) {r} (hr : s.m.main = .ret r) (he : r.err = none) : Quiet s := by
  obtain ⟨h1, h2, h3, o, rest, ho, hoe⟩ := call_ret hI hn (HexRun.ihex_total hn lines) HexRun.ihex_shared_progress _ HexRun.ihex_shared_work h hr
  obtain ⟨os', h'⟩ := hex_steps h
  rw [ho] at h'
  exact ⟨h1, h2, h3, o, rest, ho, HexRun.C83_success_ihex hn h' (hoe he)⟩

/-- C91: S19; whether there is an error or not, in the end nothing is left. -/
theorem C91_srec {I : A2lRun.Input} (hI : 0 < I.np) {n : Nat} (hn : 0 < n) {lines : List Str} {s : Call I HexRun.srec n lines} {os}
    (h : run (start _ _) os = some s) {r} (hr : s.m.main = .ret r) (he : r.err = none ∨ ∀ o, step s o = none) : Quiet s := by
  obtain ⟨h1, h2, h3, o, rest, ho, hoe⟩ := call_ret hI hn (HexRun.srec_total hn lines) HexRun.srec_shared_progress (fun _ => 0) HexRun.srec_shared_work h hr
  obtain ⟨os', h'⟩ := hex_steps h
  rw [ho] at h'
  refine ⟨h1, h2, h3, o, rest, ho, ?_⟩
  rcases he with he | he
  · exact HexRun.C83_success_srec hn h' (hoe he)
  · refine HexRun.C83_srec hn h' fun op => ?_
    have := he (.hex op)
    simp only [step, Option.map_eq_none_iff, ho] at this
    exact this

/-- Full statement of C91 for Intel HEX (false: `C91_false`): when the call has returned and nothing can move any more, no
goroutine is left. -/
def C91_full : Prop :=
  ∀ (I : A2lRun.Input) (n : Nat) (lines : List Str) (s : Call I (HexRun.ihex n) n lines) (os : List (Op _ _)), 0 < I.np → 0 < n →
    run (start _ _) os = some s → (∀ o, step s o = none) → Quiet s

/-- C91 for Intel HEX. Missing from `C91_full`: calls whose hex file gives two values to one address. -/
theorem C91_partial {I : A2lRun.Input} (hI : 0 < I.np) {n : Nat} (hn : 0 < n) {lines : List Str} {s : Call I (HexRun.ihex n) n lines} {os}
    (h : run (start _ _) os = some s) (hst : ∀ o, step s o = none) :
    Quiet s ∨ s.m.pcA = 3 ∧ s.m.pcH = 3 ∧ (∃ v, s.a = .returned v) ∧ ∃ o rest a x y, s.h = .returned o rest ∧ o.err = some (.collision a x y) := by
  obtain ⟨ts, hts⟩ := A2lRun.tokens_exist I
  have la := a2l_law hI hts
  have lh := hex_law hn (HexRun.ihex_total hn lines) HexRun.ihex_shared_progress _ HexRun.ihex_shared_work
  rcases progress la lh (run_inv la lh (start_inv la lh) h) with ⟨o, s', ho⟩ | ⟨r, hr⟩
  · rw [hst o] at ho; cases ho
  obtain ⟨h1, h2, h3, o, rest, ho, hoe⟩ := call_ret hI hn (HexRun.ihex_total hn lines) HexRun.ihex_shared_progress _ HexRun.ihex_shared_work h hr
  obtain ⟨os', h'⟩ := hex_steps h
  rw [ho] at h'
  by_cases hend : rest.ended
  · exact Or.inl ⟨h1, h2, h3, o, rest, ho, hend⟩
  · obtain ⟨a, x, y, hc⟩ := HexRun.C83_leak hn h' (fun op => by
      have := hst (.hex op)
      simp only [step, Option.map_eq_none_iff, ho] at this
      exact this) hend
    exact Or.inr ⟨h1, h2, h3, o, rest, a, x, y, ho, hc⟩

theorem run_append {A H E : Type} {MA : Sys (Except E A)} {MH : Sys (Except E H)} {s s' : State MA MH} {os : List (Op MA MH)}
    (h : run s os = some s') (os' : List (Op MA MH)) : run s (os ++ os') = run s' os' := by
  induction os generalizing s with
  | nil => cases h; rfl
  | cons o os ih =>
    obtain ⟨s1, h1, h2⟩ := Option.bind_eq_some_iff.1 h
    rw [List.cons_append, run, h1]
    exact ih h2

theorem hex_lift {R : Type} {P : HexRun.Prog R} {n : Nat} {lines : List Str} {MA : Sys (Except Err Lang.Obj)} {s : State MA (hexSys P n lines)}
    {os : List HexRun.Op} {x : HexRun.State P} (h : HexRun.run P n s.h os = some x) : run s (os.map .hex) = some { s with h := x } := by
  induction os generalizing s with
  | nil => cases h; rfl
  | cons o os ih =>
    obtain ⟨s1, h1, h2⟩ := Option.bind_eq_some_iff.1 h
    have : step s (.hex o) = some { s with h := s1 } := by
      show ((HexRun.step P n s.h o).map fun h => ({ s with h := h } : State MA (hexSys P n lines))) = _
      rw [h1]; rfl
    show ((step s (.hex o)).bind fun s' => run s' (os.map .hex)) = _
    rw [this]
    exact ih (s := { s with h := s1 }) h2

/-- With the Intel HEX file of `C83_false`, and any A2L file, a call can come to its end and leave a goroutine that is blocked
for ever. -/
theorem C91_leak {I : A2lRun.Input} (hI : 0 < I.np) : ∃ (os : List (Op _ _)) (s : Call I (HexRun.ihex 2) 2 HexRun.leakLines),
    run (start _ _) os = some s ∧ (∃ r, s.m.main = .ret r) ∧ (∀ o, step s o = none) ∧ ¬ Quiet s := by
  obtain ⟨o, rest, h, hst, hl⟩ := HexRun.leak_stuck
  obtain ⟨ts, hts⟩ := A2lRun.tokens_exist I
  have la := a2l_law hI hts
  have lh := hex_law (by omega) (HexRun.ihex_total (n := 2) (by omega) HexRun.leakLines) HexRun.ihex_shared_progress _ HexRun.ihex_shared_work
  have h0 := hex_lift (MA := a2lSys I) (s := start (a2lSys I) (hexSys (HexRun.ihex 2) 2 HexRun.leakLines)) h
  have hi := run_inv la lh (start_inv la lh) h0
  obtain ⟨os', s', h1, h2⟩ := exists_maximal la lh hi
  refine ⟨_, s', (run_append h0 os').trans h1, ?_, h2, ?_⟩
  · rcases progress la lh (run_inv la lh hi h1) with ⟨op, s'', ho⟩ | h
    · rw [h2 op] at ho; cases ho
    · exact h
  · rintro ⟨_, _, _, o', rest', h3, h4⟩
    have : s'.h = .returned o rest := hex_part h1 (· = .returned o rest) (fun x op x' hx hs => by subst hx; cases (hst op).symm.trans hs) rfl
    cases this.symm.trans h3
    exact hl h4

theorem C91_false : ¬ C91_full := by
  intro hall
  obtain ⟨os, s, h, _, hst, hq⟩ := C91_leak (I := ⟨1, fun _ => true, fun _ => true, []⟩) (by decide)
  exact hq (hall _ _ _ s os (by decide) (by decide) h hst)

/-- A project without a module. -/
def smallA2l : A2lRun.Input := ⟨2, fun _ => true, fun _ => true, "ASAP2_VERSION 1 60 /begin PROJECT p \"\" /end PROJECT".toList⟩

def smallCall : List (Op (a2lSys smallA2l) (hexSys (HexRun.ihex 1) 1 [":0400000001020304F2".toList])) :=
  let a (o : A2lRun.Op) : Op (a2lSys smallA2l) (hexSys (HexRun.ihex 1) 1 [":0400000001020304F2".toList]) := .a2l o
  let h (o : HexRun.Op) : Op (a2lSys smallA2l) (hexSys (HexRun.ihex 1) 1 [":0400000001020304F2".toList]) := .hex o
  [h (.chan (.send 0)), h (.chan .recv), h (.chan (.close 0)), h (.chan .advance), h .main,
    h (.off 0), h (.off 0), h (.off 0), h (.off 0), h (.check (.work 0)), h (.check (.work 0)), h (.check .main), h .main,
    h .main, h (.chan (.send 0)), h (.chan .recv), h (.chan (.close 0)), h (.chan .advance), h .main, .readHex, .readHex, .readHex,
    a (.chan (.send 0)), a (.chan .recv), a (.chan (.close 0)), a (.chan .advance), a (.chan (.send 1)), a (.chan .recv),
    a (.chan (.close 1)), a (.chan .advance), a .main, a .main, .readA2L, .readA2L, .readA2L, .main, .main, .main, .main, .main]

-- a call that returns without an error
example : ((run (start (a2lSys smallA2l) (hexSys (HexRun.ihex 1) 1 [":0400000001020304F2".toList])) smallCall).any fun s =>
    match s.m.main with
    | .ret r => r.err.isNone && r.hex.isSome
    | _ => false) = true := by decide +kernel

end Verif.Conc.Whole
