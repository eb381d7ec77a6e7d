import Verif.Conc.WholeExact

/-!
Property C93: `ReadCalibration` and the files of the computer. The call first creates its log file `calibReader.log` in the current
directory (calib_data.go:58-63, 158-175) and only then starts the readers. Modelled: which file a path denotes (relative paths, links:
a parameter), the content of every file, creating the log file (which empties a file that is already there), writing to the log at any
moment, and the readers as in C85. Simplified: what is written to the log is any text at any time; both readers see the content of
their files at one moment after the log was created (the only file that changes from then on is the log file).
-/

namespace Verif.Conc.Whole
open Verif.Go Verif.A2l ReadCal
open Verif.Ihex (Mem joinLines)

namespace Log

/-- The file of each place, `none`: there is no file that can be read. -/
abbrev Disk := Nat → Option Str

/-- calib_data.go:159. -/
def logName : Str := "calibReader.log".toList

/-- The surroundings of a call: CPUs, functions of the Go library as in C85, the place a path denotes, whether the log file can be
created (the current directory may be read-only), and the two paths. -/
structure Env where
  cpus : Nat
  graphic : Char → Bool
  floatOk : Str → Bool
  place : Str → Nat
  canCreate : Bool
  a2lPath : Str
  hexPath : Str

def Disk.set (d : Disk) (p : Nat) (t : Str) : Disk := fun q => if q = p then some t else d q

/-- os.Create, calib_data.go:159: an existing file is emptied. -/
def create (e : Env) (d : Disk) : Disk := Disk.set d (e.place logName) []

/-- A message is added to the log (zerolog with the file as its writer, calib_data.go:164-173). -/
def append (e : Env) (d : Disk) (t : Str) : Disk := Disk.set d (e.place logName) ((d (e.place logName)).getD [] ++ t)

/-- What the readers find (os.ReadFile in a2l/a2l.go:135, ihex32/hex.go:206, srec19/hex.go:195). -/
def files (e : Env) (d : Disk) : Files := ⟨e.cpus, e.graphic, e.floatOk, d (e.place e.a2lPath), e.hexPath, d (e.place e.hexPath)⟩

/-- The call: not begun; ended because there is no log file; log file created; readers at work. -/
inductive Call
  | idle (d : Disk)
  | failed (d : Disk)
  | ready (d : Disk)
  | running (d : Disk) (F : Files) (s : State F.readA2L F.readHex)

def Call.disk : Call → Disk
  | .idle d => d
  | .failed d => d
  | .ready d => d
  | .running d _ _ => d

/-- What is returned to the caller: the error of the log file (calib_data.go:59-63), or the result of C85. -/
inductive Returned
  | logError
  | result (r : Result Lang.Obj Mem Err)

def Call.returned : Call → Option Returned
  | .failed _ => some .logError
  | .running _ _ s => match s.m.main with
    | .ret r => some (.result r)
    | _ => none
  | _ => none

inductive Step (e : Env) : Call → Call → Prop
  /-- calib_data.go:59-63 -/
  | noLog {d} : e.canCreate = false → Step e (.idle d) (.failed d)
  | create {d} : e.canCreate = true → Step e (.idle d) (.ready (create e d))
  | logEarly {d t} : Step e (.ready d) (.ready (append e d t))
  /-- calib_data.go:70-72 -/
  | begin {d} : Step e (.ready d) (.running d (files e d) (start _ _))
  | log {d F s t} : Step e (.running d F s) (.running (append e d t) F s)
  | go {d F s s' o} : step s o = some s' → Step e (.running d F s) (.running d F s')

inductive Steps (e : Env) : Call → Call → Prop
  | refl {s} : Steps e s s
  | tail {s s' s''} : Steps e s s' → Step e s' s'' → Steps e s s''

theorem set_ne {d : Disk} {p q : Nat} {t : Str} (h : q ≠ p) : Disk.set d p t q = d q := if_neg h
theorem set_eq {d : Disk} {p : Nat} {t : Str} : Disk.set d p t p = some t := if_pos rfl

/-- **C93, the files:** whatever the files are, a call changes no file except its log file. -/
theorem C93_untouched {e : Env} {d : Disk} {s : Call} (h : Steps e (.idle d) s) {p : Nat} (hp : p ≠ e.place logName) : s.disk p = d p := by
  generalize hi : Call.idle d = s0 at h
  induction h with
  | refl => subst hi; rfl
  | tail _ h2 ih =>
    cases h2 with
    | noLog _ => exact ih
    | create _ => exact (set_ne hp).trans ih
    | logEarly => exact (set_ne hp).trans ih
    | begin => exact ih
    | log => exact (set_ne hp).trans ih
    | go _ => exact ih

/-- Where a call that could create its log file can be. -/
def Inv (e : Env) (d : Disk) : Call → Prop
  | .idle d' => d' = d
  | .failed d' => d' = d ∧ e.canCreate = false
  | .ready _ => e.canCreate = true
  | .running _ F s => e.canCreate = true ∧ Reaches F s ∧ (e.place e.a2lPath ≠ e.place logName → F.a2l = d (e.place e.a2lPath)) ∧
      (e.place e.hexPath ≠ e.place logName → F.hex = d (e.place e.hexPath)) ∧ F.cpus = e.cpus ∧ F.graphic = e.graphic ∧ F.floatOk = e.floatOk ∧
      F.path = e.hexPath

theorem reaches_step {F : Files} {s s' : State F.readA2L F.readHex} (h : Reaches F s) {o} (ho : step s o = some s') : Reaches F s' := by
  obtain ⟨os, h⟩ := h
  exact ⟨os ++ [o], by rw [run_then h]; simp only [run, ho, Option.bind_some]⟩

theorem inv {e : Env} {d : Disk} {s : Call} (h : Steps e (.idle d) s) : Inv e d s := by
  generalize hi : Call.idle d = s0 at h
  induction h with
  | refl => subst hi; rfl
  | tail h1 h2 ih =>
    subst hi
    cases h2 with
    | noLog hc => exact ⟨ih, hc⟩
    | create hc => exact hc
    | logEarly => exact ih
    | begin => exact ⟨ih, ⟨[], rfl⟩, fun hp => C93_untouched h1 hp, fun hp => C93_untouched h1 hp, rfl, rfl, rfl, rfl⟩
    | log => exact ih
    | go ho => exact ⟨ih.1, reaches_step ih.2.1 ho, ih.2.2⟩

theorem Steps.trans {e : Env} {a b c : Call} (h : Steps e a b) (h' : Steps e b c) : Steps e a c := by
  induction h' with
  | refl => exact h
  | tail _ h2 ih => exact .tail ih h2

theorem steps_run {e : Env} {d : Disk} {F : Files} {s s' : State F.readA2L F.readHex} {os} (h : run s os = some s') :
    Steps e (.running d F s) (.running d F s') := by
  induction os generalizing s with
  | nil => cases h; exact .refl
  | cons o os ih =>
    obtain ⟨s1, h1, h2⟩ := Option.bind_eq_some_iff.1 h
    exact (Steps.tail .refl (.go h1)).trans (ih h2)

/-- Full statement of C93 (false, see `C93_false`): a call changes neither of the two files it is given, and what it returns is put
together from what the two files gave before the call. -/
def C93_full : Prop := ∀ (e : Env) (d : Disk) (s : Call), 0 < e.cpus → Steps e (.idle d) s →
  s.disk (e.place e.a2lPath) = d (e.place e.a2lPath) ∧ s.disk (e.place e.hexPath) = d (e.place e.hexPath) ∧
  ∀ r, s.returned = some r → ∃ x, r = .result x ∧ ∃ ra rh, (files e d).A2lGives ra ∧ (files e d).HexGives rh ∧ Combines ra rh x

/-- **C93:** if the log file can be created and is neither of the two files, both stay as they are and the results are exactly those of
C85 for the files as they were before the call. Missing: calls for which one of the two paths denotes the log file, and calls that
cannot create it. -/
theorem C93_partial {e : Env} (hn : 0 < e.cpus) (hc : e.canCreate = true) (ha : e.place e.a2lPath ≠ e.place logName)
    (hh : e.place e.hexPath ≠ e.place logName) (d : Disk) :
    (∀ s, Steps e (.idle d) s → s.disk (e.place e.a2lPath) = d (e.place e.a2lPath) ∧ s.disk (e.place e.hexPath) = d (e.place e.hexPath)) ∧
    ∀ r, (∃ s, Steps e (.idle d) s ∧ s.returned = some r) ↔
      ∃ x, r = .result x ∧ ∃ ra rh, (files e d).A2lGives ra ∧ (files e d).HexGives rh ∧ Combines ra rh x := by
  refine ⟨fun s hs => ⟨C93_untouched hs ha, C93_untouched hs hh⟩, fun r => ⟨?_, ?_⟩⟩
  · rintro ⟨s, hs, hr⟩
    have hi := inv hs
    cases s with
    | idle d' => cases hr
    | ready d' => cases hr
    | failed d' => rw [hi.2] at hc; cases hc
    | running d' F s =>
      obtain ⟨_, h1, h2, h3, h4, h5, h6, h7⟩ := hi
      have : F = files e d := by
        cases F
        simp only at h2 h3 h4 h5 h6 h7
        simp only [files, h2 ha, h3 hh, h4, h5, h6, h7]
      subst this
      simp only [Call.returned] at hr
      split at hr
      · rename_i x hx
        exact ⟨x, (Option.some.inj hr).symm, (C85_results hn x).1 ⟨s, h1, hx⟩⟩
      · cases hr
  · rintro ⟨x, rfl, h⟩
    obtain ⟨s, ⟨os, hs⟩, hx⟩ := (C85_results (F := files e d) hn x).2 h
    have hf : files e (create e d) = files e d := by
      simp only [files, create, set_ne ha, set_ne hh]
    have h1 : Steps e (.idle d) (.running (create e d) (files e (create e d)) (start _ _)) := .tail (.tail .refl (.create hc)) .begin
    rw [hf] at h1
    exact ⟨_, h1.trans (steps_run hs), by simp only [Call.returned, hx]⟩

/-- **C93, no log file:** if the log file cannot be created the call returns that error, whatever the two files are, and changes nothing. -/
theorem C93_no_log {e : Env} (hc : e.canCreate = false) (d : Disk) :
    (∃ s, Steps e (.idle d) s ∧ s.returned = some .logError) ∧
    ∀ s, Steps e (.idle d) s → s.disk = d ∧ ∀ r, s.returned = some r → r = .logError := by
  refine ⟨⟨.failed d, .tail .refl (.noLog hc), rfl⟩, fun s hs => ?_⟩
  have hi := inv hs
  cases s with
  | idle d' => exact ⟨hi, fun r hr => by cases hr⟩
  | failed d' => exact ⟨hi.1, fun r hr => by cases hr; rfl⟩
  | ready d' => exact absurd (hc.symm.trans hi) (by decide)
  | running d' F s => exact absurd (hc.symm.trans hi.1) (by decide)

/-- **C93, the log file as input:** if the path of the A2L file denotes the log file, its content is lost: whatever was in it, the call
goes on as for an empty file. -/
theorem C93_emptied {e : Env} (hc : e.canCreate = true) (ha : e.place e.a2lPath = e.place logName) (d : Disk) :
    ∃ F : Files, F.a2l = some [] ∧ Steps e (.idle d) (.running (create e d) F (start _ _)) ∧ create e d (e.place e.a2lPath) = some [] := by
  refine ⟨files e (create e d), ?_, .tail (.tail .refl (.create hc)) .begin, ?_⟩
  · show Disk.set d (e.place logName) [] (e.place e.a2lPath) = some []
    rw [ha, set_eq]
  · show Disk.set d (e.place logName) [] (e.place e.a2lPath) = some []
    rw [ha, set_eq]

theorem after_create {e : Env} (hc : e.canCreate = true) {d : Disk} {s : Call} (h : Steps e (.idle d) s) :
    s = .idle d ∨ Steps e (.ready (create e d)) s := by
  generalize hi : Call.idle d = s0 at h
  induction h with
  | refl => subst hi; exact Or.inl rfl
  | tail _ h2 ih =>
    subst hi
    rcases ih with rfl | ih
    · cases h2 with
      | noLog hc' => rw [hc] at hc'; cases hc'
      | create _ => exact Or.inr .refl
    · exact Or.inr (.tail ih h2)

/-- C93: what was in the log file before has no effect: from two disks that differ only there, the same results are reached with the
same disks, whether or not one of the two paths denotes that file. -/
theorem C93_overwritten {e : Env} (hc : e.canCreate = true) {d d' : Disk} (hd : ∀ p, p ≠ e.place logName → d p = d' p) {s : Call}
    (h : Steps e (.idle d) s) (hs : s ≠ .idle d) : Steps e (.idle d') s := by
  have : create e d = create e d' := by
    funext p
    unfold create Disk.set
    split
    · rfl
    · next hp => exact hd p hp
  rcases after_create hc h with h1 | h1
  · exact absurd h1 hs
  · rw [this] at h1
    exact (Steps.tail .refl (.create hc)).trans h1

/-- **C93, exactly:** for given paths and given files, C93 holds in every run if and only if the log file can be created and is
neither of the two files. -/
theorem C93_iff {e : Env} (hn : 0 < e.cpus) (d : Disk) :
    (∀ s, Steps e (.idle d) s →
      s.disk (e.place e.a2lPath) = d (e.place e.a2lPath) ∧ s.disk (e.place e.hexPath) = d (e.place e.hexPath) ∧
      ∀ r, s.returned = some r → ∃ x, r = .result x ∧ ∃ ra rh, (files e d).A2lGives ra ∧ (files e d).HexGives rh ∧ Combines ra rh x) ↔
    e.canCreate = true ∧ e.place e.a2lPath ≠ e.place logName ∧ e.place e.hexPath ≠ e.place logName := by
  constructor
  · intro h
    cases hc : e.canCreate with
    | false =>
      obtain ⟨x, hx, _⟩ := (h _ (.tail .refl (.noLog hc))).2.2 _ rfl
      cases hx
    | true =>
      have h1 : Steps e (.idle d) (.ready (create e d)) := .tail .refl (.create hc)
      have h2 : Steps e (.idle d) (.ready (append e (create e d) ['x'])) := .tail h1 .logEarly
      have hk : ∀ p, create e d p = d p → append e (create e d) ['x'] p = d p → p ≠ e.place logName := by
        rintro p h3 h4 rfl
        have h5 := h3.trans h4.symm
        simp [append, create, set_eq] at h5
      exact ⟨rfl, hk _ (h _ h1).1 (h _ h2).1, hk _ (h _ h1).2.1 (h _ h2).2.1⟩
  · rintro ⟨hc, ha, hh⟩ s hs
    obtain ⟨h1, h2⟩ := C93_partial hn hc ha hh d
    exact ⟨(h1 s hs).1, (h1 s hs).2, fun r hr => (h2 r).1 ⟨s, hs, hr⟩⟩

theorem C93_false : ¬ C93_full := by
  intro h
  let e : Env := ⟨1, fun _ => true, fun _ => true, fun _ => 0, true, "./calibReader.log".toList, "a.hex".toList⟩
  obtain ⟨F, _, hs, he⟩ := C93_emptied (e := e) rfl rfl (fun _ => some ['x'])
  have := (h e (fun _ => some ['x']) _ Nat.one_pos hs).1
  rw [show (Call.running (create e fun _ => some ['x']) F (start _ _)).disk (e.place e.a2lPath) = some [] from he] at this
  exact absurd this (by decide)

/-! ### Examples -/

/-- Three files in one directory. -/
def dir (p : Str) : Nat := if p = logName then 0 else if p = "m.a2l".toList then 1 else 2

-- a call meeting the hypotheses of `C93_partial`
example : (⟨2, fun _ => true, Props.natB, dir, true, "m.a2l".toList, "m.hex".toList⟩ : Env).place "m.a2l".toList ≠ dir logName ∧
    dir "m.hex".toList ≠ dir logName := by decide +kernel

-- both files missing: the call returns an error
example : ∃ s, Steps ⟨2, fun _ => true, Props.natB, dir, true, "m.a2l".toList, "m.hex".toList⟩ (.idle fun _ => none) s ∧
    s.returned = some (.result ⟨none, none, some EndToEnd.Err.unreadable⟩) :=
  ((C93_partial (e := ⟨2, fun _ => true, Props.natB, dir, true, "m.a2l".toList, "m.hex".toList⟩) (by decide) rfl (by decide +kernel)
    (by decide +kernel) fun _ => none).2 _).2 ⟨_, rfl, .error EndToEnd.Err.unreadable, .error EndToEnd.Err.unreadable, rfl, (by
      unfold Files.HexGives files
      have : format "m.hex".toList = some .intelHex := by decide +kernel
      simp only [this]), ⟨fun _ _ h => (nomatch h), fun _ => ⟨rfl, rfl, _, rfl, Or.inl rfl⟩⟩⟩

end Log
end Verif.Conc.Whole
