import Verif.Conc.Whole

/-!
Property C85: `ReadCalibration` with all goroutines of all parsers.
-/

namespace Verif.Conc.Whole
open Verif.Go Verif.A2l Lang Write Decl EndToEnd ReadCal
open Verif.Ihex (Mem Outcome splitLines joinLines)

/-- What a call works on: number of CPUs, the two files (`none`: cannot be read), the name of the hex file. `graphic` is
`unicode.IsGraphic`, `floatOk` tells which texts `strconv.ParseFloat` accepts. -/
structure Files where
  cpus : Nat
  graphic : Char → Bool
  floatOk : Str → Bool
  a2l : Option Str
  path : Str
  hex : Option Str

/-- a2l/a2l.go:25: two workers for each CPU. -/
def Files.input (F : Files) (text : Str) : A2lRun.Input := ⟨F.cpus * 2, F.graphic, F.floatOk, text⟩

/-- calib_data.go:102-114, a2l/a2l.go:60-66. -/
def Files.readA2L (F : Files) : Sys (Except Err Lang.Obj) :=
  match F.a2l with
  | none => fixed (.error .unreadable)
  | some t => a2lSys (F.input t)

/-- calib_data.go:118-155, ihex32/hex.go:222-244, srec19/hex.go:205-227. -/
def Files.readHex (F : Files) : Sys (Except Err Mem) :=
  match format F.path, F.hex with
  | none, _ => fixed (.error .unsupported)
  | some _, none => fixed (.error .unreadable)
  | some .intelHex, some t => hexSys (HexRun.ihex F.cpus) F.cpus (splitLines t)
  | some .s19, some t => hexSys HexRun.srec F.cpus (splitLines t)

/-- A run of the whole call up to the state `s`. -/
def Reaches (F : Files) (s : State F.readA2L F.readHex) : Prop := ∃ os, run (start F.readA2L F.readHex) os = some s

/-- What the A2L file may give. -/
def Files.A2lGives (F : Files) (ra : Except Err Lang.Obj) : Prop :=
  match F.a2l with
  | none => ra = .error .unreadable
  | some t => A2lAnswer (F.input t) ra

/-- What the hex file gives: for a file of a known format the answer of C82. -/
def Files.HexGives (F : Files) (rh : Except Err Mem) : Prop :=
  match format F.path, F.hex with
  | none, _ => rh = .error .unsupported
  | some _, none => rh = .error .unreadable
  | some .intelHex, some t => ∃ o, rh = ofOutcome o ∧
      HexRun.Answer (∀ l ∈ Ihex.Spec.recognised F.cpus (splitLines t), Ihex.Spec.LineSumOk l) (Ihex.Spec.textBytes F.cpus (splitLines t)) o
  | some .s19, some t => ∃ o, rh = ofOutcome o ∧
      HexRun.Answer (∀ l ∈ Srec.Spec.recognised F.cpus (splitLines t), Srec.Spec.LineSumOk l) (Srec.Spec.textBytes F.cpus (splitLines t)) o

/-- What the sequential model of the hex parsers gives under some schedule. -/
def Files.HexSent (F : Files) (rh : Except Err Mem) : Prop :=
  match F.hex with
  | none => True
  | some t => ∃ sched, hexSent ⟨F.cpus, A2lRun.setup (F.input []) fun _ => [], 0, [], [], F.path, t, sched⟩ = some rh

theorem a2l_laws {F : Files} (hn : 0 < F.cpus) : ∃ I, Law F.readA2L I F.A2lGives := by
  unfold Files.readA2L Files.A2lGives
  cases F.a2l with
  | none => exact ⟨_, fixed_law _⟩
  | some t =>
    obtain ⟨ts, ht⟩ := A2lRun.tokens_exist (F.input t)
    exact ⟨_, a2l_law (by unfold Files.input; dsimp only; omega) ht⟩

theorem Law.mono {Out : Type} {M : Sys Out} {I : M.S → Prop} {P Q : Out → Prop} (h : Law M I P) (hpq : ∀ r, P r → Q r) : Law M I Q :=
  ⟨h.start, h.step, h.safe, h.progress, h.wf, h.keeps, fun hi ho => hpq _ (h.good hi ho)⟩

theorem hex_laws {F : Files} (hn : 0 < F.cpus) : ∃ I, Law F.readHex I fun rh => F.HexGives rh ∧ F.HexSent rh := by
  unfold Files.readHex Files.HexGives Files.HexSent hexSent
  cases hf : format F.path with
  | none =>
    refine ⟨_, (fixed_law _).mono fun r hr => ⟨hr, ?_⟩⟩
    subst hr
    cases F.hex <;> simp [hf]
  | some f =>
    cases F.hex with
    | none => exact ⟨_, (fixed_law _).mono fun r hr => ⟨hr, trivial⟩⟩
    | some t =>
      cases f with
      | intelHex =>
        refine ⟨_, (hex_law hn (HexRun.ihex_total hn _) HexRun.ihex_shared_progress _ HexRun.ihex_shared_work).mono ?_⟩
        rintro r ⟨o, ho, rfl⟩
        obtain ⟨sched, hp⟩ := HexRun.ihex_result hn ho
        obtain ⟨h1, h2⟩ := Ihex.C77_ihex hn (splitLines t) hp
        exact ⟨⟨o, rfl, fun hs => h1 (by simpa only [Classical.not_forall, exists_prop] using hs), h2⟩, sched, by
          simp only [hf, Ihex.parseFromText, hp]⟩
      | s19 =>
        refine ⟨_, (hex_law hn (HexRun.srec_total hn _) HexRun.srec_shared_progress (fun _ => 0) HexRun.srec_shared_work).mono ?_⟩
        rintro r ⟨o, ho, rfl⟩
        have hp := HexRun.srec_result hn ho
        obtain ⟨o', ho', h1, h2⟩ := Srec.C77_srec hn (splitLines t)
        cases hp.symm.trans ho'
        exact ⟨⟨o, rfl, fun hs => h1 (by simpa only [Classical.not_forall, exists_prop] using hs), h2⟩, [], by
          simp only [hf, Srec.parseFromText, hp, Option.map_some]⟩

instance : Nonempty Err := ⟨.a2l⟩

/-- C85: whatever is in the two files, whatever the number of CPUs and the interleaving of all goroutines: nothing panics, and
if the call has returned, the result is put together from what the A2L file and the hex file give. -/
theorem C85_safe {F : Files} (hn : 0 < F.cpus) {s : State F.readA2L F.readHex} (h : Reaches F s) :
    ¬ crashed s ∧ ∀ r, s.m.main = .ret r → ∃ ra rh, F.A2lGives ra ∧ F.HexGives rh ∧ Combines ra rh r := by
  obtain ⟨os, h⟩ := h
  obtain ⟨IA, la⟩ := a2l_laws hn
  obtain ⟨IH, lh⟩ := hex_laws hn
  have hi := run_inv la lh (start_inv la lh) h
  refine ⟨not_crashed la lh hi, fun r hr => ?_⟩
  obtain ⟨ra, rh, h1, h2, h3⟩ := result la lh hi hr
  exact ⟨ra, rh, h1, h2.1, h3⟩

/-- What `crashed` in `C85_safe` covers: a panic in any goroutine of either reader, or in the caller, is one of the whole call. -/
theorem crashed_sees {I : A2lRun.Input} {R : Type} {P : HexRun.Prog R} {n : Nat} {lines : List Str} (s : State (a2lSys I) (hexSys P n lines)) :
    crashed s ↔ s.a = A2lRun.State.crashed ∨ s.h = HexRun.State.crashed ∨ s.m.main = .panicked := by
  obtain ⟨a, h, m⟩ := s
  unfold crashed a2lSys hexSys
  cases a <;> cases h <;> simp

/-- A goroutine of the S19 parser panics while the A2L parser is about to start. -/
example (I : A2lRun.Input) : crashed (MA := a2lSys I) (MH := hexSys HexRun.srec 2 []) ⟨A2lRun.init I, HexRun.State.crashed, ReadCal.init _ _ _⟩ :=
  (crashed_sees _).2 (.inr (.inl rfl))

/-- C85: there is no deadlock. -/
theorem C85_returns {F : Files} (hn : 0 < F.cpus) {s : State F.readA2L F.readHex} (h : Reaches F s) (hst : ∀ o, step s o = none) :
    ∃ r, s.m.main = .ret r := by
  obtain ⟨os, h⟩ := h
  obtain ⟨IA, la⟩ := a2l_laws hn
  obtain ⟨IH, lh⟩ := hex_laws hn
  rcases progress la lh (run_inv la lh (start_inv la lh) h) with ⟨o, s', ho⟩ | h
  · rw [hst o] at ho; cases ho
  · exact h

/-- C85: no run goes on for ever, not even the goroutines that the caller does not wait for. -/
theorem C85_terminates {F : Files} (hn : 0 < F.cpus) : ¬ ∃ f : Nat → State F.readA2L F.readHex, f 0 = start _ _ ∧
    ∀ i, ∃ o, step (f i) o = some (f (i + 1)) := by
  rintro ⟨f, h0, hf⟩
  obtain ⟨IA, la⟩ := a2l_laws hn
  obtain ⟨IH, lh⟩ := hex_laws hn
  exact no_infinite la lh f h0 hf

/-- C85: every partial run can be completed. -/
theorem C85_completes {F : Files} (hn : 0 < F.cpus) {s : State F.readA2L F.readHex} (h : Reaches F s) :
    ∃ os s' r, run s os = some s' ∧ s'.m.main = .ret r := by
  obtain ⟨os, h⟩ := h
  obtain ⟨IA, la⟩ := a2l_laws hn
  obtain ⟨IH, lh⟩ := hex_laws hn
  have hi := run_inv la lh (start_inv la lh) h
  obtain ⟨os', s', h1, h2⟩ := exists_maximal la lh hi
  rcases progress la lh (run_inv la lh hi h1) with ⟨o, s'', ho⟩ | ⟨r, hr⟩
  · rw [h2 o] at ho; cases ho
  · exact ⟨os', s', r, h1, hr⟩

/-- C85: an A2L file that consists of the objects `ns` and a hex file that holds `bytes` are read to exactly that, under every
interleaving. Missing: the files outside `Written` and `Holds`, on which the parsers go wrong (C34, C80; C01, C02, C23). -/
theorem C85_content_partial {F : Files} (hn : 0 < F.cpus) (hfl : F.floatOk [] = false) {text : Str} (ht : F.a2l = some text) {ns : List Node}
    (ha : A2lRun.Written (F.input text) ns) {content : Str} (hc : F.hex = some content) {bytes : List (Nat × Nat)}
    (hh : Holds F.path content bytes) {s : State F.readA2L F.readHex} (h : Reaches F s) {r : Result Lang.Obj Mem Err} (hr : s.m.main = .ret r) :
    ∃ m, r = ⟨some (fileStruct ns), some m, none⟩ ∧ ∀ a v, m a = some v ↔ (a, v) ∈ bytes := by
  obtain ⟨os, h⟩ := h
  obtain ⟨IA, la⟩ := a2l_laws hn
  obtain ⟨IH, lh⟩ := hex_laws hn
  obtain ⟨ra, rh, h1, ⟨_, h2⟩, h3, _⟩ := result la lh (run_inv la lh (start_inv la lh) h) hr
  unfold Files.A2lGives at h1
  rw [ht] at h1
  obtain ⟨ts, i, v, e, k1, k2, rfl⟩ := h1
  have k3 := A2lRun.written_result (I := F.input text) (by unfold Files.input; dsimp only; omega) hfl ha k1 k2
  cases k3
  unfold Files.HexSent at h2
  rw [hc] at h2
  obtain ⟨sched, h2⟩ := h2
  obtain ⟨m, rfl, hm⟩ := sent_hex (by exact hn) hh h2
  exact ⟨m, h3 _ _ rfl rfl, hm⟩

/-- C85: files in, answers out. -/
theorem C85_answers_partial {F : Files} (hn : 0 < F.cpus) (hfl : F.floatOk [] = false) {text : Str} (ht : F.a2l = some text)
    {top parts : List Node} {pn pt : Str} (ha : A2lRun.Written (F.input text) (top ++ [project pn pt parts])) {content : Str}
    (hc : F.hex = some content) {bytes : List (Nat × Nat)} (hh : Holds F.path content bytes) {s : State F.readA2L F.readHex} (h : Reaches F s)
    {r : Result Lang.Obj Mem Err} (hr : s.m.main = .ret r) : ∃ o m, r = ⟨some o, some m, none⟩ ∧
      (∀ a v, m a = some v ↔ (a, v) ∈ bytes) ∧ ∀ fv mi objs, InModule parts mi objs → ∀ ident,
        ∃ l, Calib.getObjectByIdent (Link.calData fv o mi m) ident = .ok l ∧ ∀ x, x ∈ l ↔ IsCalled fv objs ident x := by
  obtain ⟨m, h1, h2⟩ := C85_content_partial hn hfl ht ha hc hh h hr
  exact ⟨_, m, h1, h2, fun fv mi objs hm ident => C81_lookup fv hm m ident⟩

/-- An error of the hex file leaves no data. -/
theorem no_data {F : Files} (hn : 0 < F.cpus) (hbad : ∀ rh, F.HexGives rh → ∃ e, rh = .error e) {s : State F.readA2L F.readHex}
    (h : Reaches F s) {r : Result Lang.Obj Mem Err} (hr : s.m.main = .ret r) : r.a2l = none ∧ r.hex = none ∧ r.err ≠ none := by
  obtain ⟨ra, rh, h1, h2, h3⟩ := (C85_safe hn h).2 r hr
  obtain ⟨k1, k2, e, k3, _⟩ := h3.2 (Or.inr (hbad rh h2))
  exact ⟨k1, k2, by simp [k3]⟩

/-- C85: a hex file with a line whose sum is wrong never gives data, whatever the A2L file is. -/
theorem C85_bad_sum {F : Files} (hn : 0 < F.cpus) {content : Str} (hc : F.hex = some content)
    (hbad : (format F.path = some .intelHex ∧ ∃ l ∈ Ihex.Spec.recognised F.cpus (splitLines content), ¬ Ihex.Spec.LineSumOk l) ∨
      (format F.path = some .s19 ∧ ∃ l ∈ Srec.Spec.recognised F.cpus (splitLines content), ¬ Srec.Spec.LineSumOk l))
    {s : State F.readA2L F.readHex} (h : Reaches F s) {r : Result Lang.Obj Mem Err} (hr : s.m.main = .ret r) :
    r.a2l = none ∧ r.hex = none ∧ r.err ≠ none := by
  refine no_data hn (fun rh hg => ?_) h hr
  unfold Files.HexGives at hg
  rcases hbad with ⟨hf, l, hl, hs⟩ | ⟨hf, l, hl, hs⟩ <;> rw [hf, hc] at hg <;> obtain ⟨o, rfl, ho, _⟩ := hg <;>
    exact ⟨_, by unfold ofOutcome; rw [(ho fun h => hs (h l hl)).1]⟩

/-- C85: a hex file that gives one address two bytes never gives data. -/
theorem C85_collision {F : Files} (hn : 0 < F.cpus) {content : Str} (hc : F.hex = some content)
    (hbad : (format F.path = some .intelHex ∧ ¬ ((Ihex.Spec.textBytes F.cpus (splitLines content)).map Prod.fst).Nodup) ∨
      (format F.path = some .s19 ∧ ¬ ((Srec.Spec.textBytes F.cpus (splitLines content)).map Prod.fst).Nodup))
    {s : State F.readA2L F.readHex} (h : Reaches F s) {r : Result Lang.Obj Mem Err} (hr : s.m.main = .ret r) :
    r.a2l = none ∧ r.hex = none ∧ r.err ≠ none := by
  refine no_data hn (fun rh hg => ?_) h hr
  have key : ∀ (sums : Prop) ps (o : Outcome), HexRun.Answer sums ps o → ¬ (ps.map Prod.fst).Nodup → ∃ e, ofOutcome o = .error e := by
    intro sums ps o ho hnd
    by_cases hs : sums
    · rcases Ihex.clash_or ps with h | ⟨pre, a, v, w, hcl⟩
      · exact absurd h hnd
      · exact ⟨_, by unfold ofOutcome; rw [((ho.2 hs).2 pre a v w hcl).1]⟩
    · exact ⟨_, by unfold ofOutcome; rw [(ho.1 hs).1]⟩
  unfold Files.HexGives at hg
  rcases hbad with ⟨hf, hnd⟩ | ⟨hf, hnd⟩ <;> rw [hf, hc] at hg <;> obtain ⟨o, rfl, ho⟩ := hg <;> exact key _ _ _ ho hnd

/-! ### Examples -/

/-- An A2L file with one module, a hex file of three bytes, one CPU. -/
def exampleFiles : Files := ⟨1, fun _ => true, Props.natB, some (unlines (written Props.singleFile)), "Data.S19".toList,
  some (joinLines ['\r', '\n'] (Srec.Spec.encode .upper someBlocks))⟩

-- the call can return, and whenever it does, it returns the objects and the bytes
example : (∃ s r, Reaches exampleFiles s ∧ s.m.main = .ret r) ∧ ∀ s r, Reaches exampleFiles s → s.m.main = .ret r →
    ∃ m, r = ⟨some (fileStruct Props.singleFile), some m, none⟩ ∧ ∀ a v, m a = some v ↔ (a, v) ∈ Srec.Spec.imageBytes someBlocks := by
  constructor
  · obtain ⟨os, s, r, h1, h2⟩ := C85_completes (F := exampleFiles) (by decide) ⟨[], rfl⟩
    exact ⟨s, r, ⟨os, h1⟩, h2⟩
  · exact fun s r h hr => C85_content_partial (F := exampleFiles) (by decide) (by decide) rfl
      (show A2lRun.Written A2lRun.oneModule Props.singleFile from A2lRun.oneModule_written) rfl holds_s19 h hr

-- by name: the measurement of the file and nothing else
example (fv : Str → Rat) {s : State exampleFiles.readA2L exampleFiles.readHex} (h : Reaches exampleFiles s) {r : Result Lang.Obj Mem Err}
    (hr : s.m.main = .ret r) : ∃ o m l, r = ⟨some o, some m, none⟩ ∧
      Calib.getObjectByIdent (Link.calData fv o 0 m) (Props.mixedMeasurement.value.strField "name") = .ok l ∧
      ∀ x, x ∈ l ↔ IsCalled fv [Props.mixedTable, Props.mixedMeasurement] (Props.mixedMeasurement.value.strField "name") x := by
  obtain ⟨o, m, h1, _, h2⟩ := C85_answers_partial (F := exampleFiles) (top := []) (by decide) (by decide) rfl
    (show A2lRun.Written A2lRun.oneModule Props.singleFile from A2lRun.oneModule_written) rfl holds_s19 h hr
  obtain ⟨l, h3, h4⟩ := h2 fv 0 [Props.mixedTable, Props.mixedMeasurement] ⟨_, _, rfl⟩ (Props.mixedMeasurement.value.strField "name")
  exact ⟨o, m, l, h1, h3, h4⟩

-- a wrong sum in the hex file, and an A2L file that cannot be read
example {s : State _ _} (h : Reaches ⟨2, fun _ => true, Props.natB, none, "a.hex".toList, some (str! ":0100000001FF")⟩ s)
    {r : Result Lang.Obj Mem Err} (hr : s.m.main = .ret r) : r.a2l = none ∧ r.hex = none ∧ r.err ≠ none :=
  C85_bad_sum (by decide) rfl (Or.inl ⟨by decide +kernel, (str! ":0100000001FF"), by decide +kernel, by
    rintro ⟨bs, h1, h2⟩
    have : (Ihex.Spec.fields (str! ":0100000001FF")).mapM Hex.Spec.specByte = some [1, 0, 0, 0, 1, 255] := by decide +kernel
    cases this.symm.trans h1
    exact absurd h2 (by decide)⟩) h hr

-- one address twice
example {s : State _ _} (h : Reaches ⟨1, fun _ => true, Props.natB, none, "a.hex".toList, some (str! ":0100000001FE\n:0100000002FD")⟩ s)
    {r : Result Lang.Obj Mem Err} (hr : s.m.main = .ret r) : r.a2l = none ∧ r.hex = none ∧ r.err ≠ none :=
  C85_collision (by decide) rfl (Or.inl ⟨by decide +kernel, by decide +kernel⟩) h hr

end Verif.Conc.Whole
