import Verif.Conc.WholeExact
import Verif.A2l.Truncated
import Verif.Ihex.Cut

/-!
Property C113: `ReadCalibration` (calib_data.go:45-98) on files that are cut off, over all interleavings of all goroutines.
-/

namespace Verif.Conc.Whole
open Verif.Go Verif.A2l EndToEnd ReadCal
open Verif.Ihex (Mem Outcome splitLines joinLines)

theorem memory_given {F : Files} (hn : 0 < F.cpus) {s : State F.readA2L F.readHex} (h : Reaches F s) {r : Result Lang.Obj Mem Err}
    (hr : s.m.main = .ret r) {m : Mem} (hm : r.hex = some m) : F.HexGives (.ok m) := by
  obtain ⟨ra, rh, _, h2, h3⟩ := (C85_safe hn h).2 r hr
  cases rh with
  | error e => rw [(h3.2 (Or.inr ⟨e, rfl⟩)).2.1] at hm; cases hm
  | ok x =>
    cases ra with
    | error e => rw [(h3.2 (Or.inl ⟨e, rfl⟩)).2.1] at hm; cases hm
    | ok a => rw [h3.1 a x rfl rfl] at hm; cases hm; exact h2

theorem ofOutcome_ok {o : Outcome} {m : Mem} (h : ofOutcome o = .ok m) : o.err = none ∧ o.map = m := by
  unfold ofOutcome at h
  split at h
  · next he => cases h; exact ⟨he, rfl⟩
  · cases h

/-- The memory returned for an S19 file is that of the S19 reader by itself. -/
theorem memory_srec {F : Files} (hn : 0 < F.cpus) (hf : format F.path = some .s19) {t : Str} (ht : F.hex = some t) {m : Mem}
    (h : F.HexGives (.ok m)) : ∃ o, Srec.parseFromText F.cpus t = some o ∧ o.err = none ∧ o.map = m := by
  unfold Files.HexGives at h
  rw [hf, ht] at h
  obtain ⟨o, h1, h2⟩ := h
  obtain ⟨o', h3, h4, h5⟩ := Srec.C77_srec_text hn t
  have : o = o' := HexRun.answer_unique h2 ⟨fun hs => h4 (by simpa [Classical.not_forall] using hs), h5⟩
  subst this
  exact ⟨o, h3, ofOutcome_ok h1.symm⟩

/-- The memory returned for an Intel HEX file is that of the Intel HEX reader by itself. -/
theorem memory_ihex {F : Files} (hn : 0 < F.cpus) (hf : format F.path = some .intelHex) {t : Str} (ht : F.hex = some t) {m : Mem}
    (h : F.HexGives (.ok m)) : ∃ sched o, Ihex.parseFromText F.cpus sched t = some (some o) ∧ o.err = none ∧ o.map = m := by
  unfold Files.HexGives at h
  rw [hf, ht] at h
  obtain ⟨o, h1, h2⟩ := h
  obtain ⟨sched, o', h3⟩ := Ihex.Cut.returns hn (splitLines t)
  obtain ⟨h4, h5⟩ := Ihex.C77_text hn t (sched := sched) h3
  have : o = o' := HexRun.answer_unique h2 ⟨fun hs => h4 (by simpa [Classical.not_forall] using hs), h5⟩
  subst this
  exact ⟨sched, o, h3, ofOutcome_ok h1.symm⟩

/-- C113: no call returns data if the A2L file opens a project that it does not close, whatever the hex file is. -/
theorem C113_a2l {F : Files} (hn : 0 < F.cpus) {text : Str} (ht : F.a2l = some text) {ts : List Str}
    (hts : tokensOfFile F.graphic (F.cpus * 2) text = some ts) (hu : Truncated.Unclosed ts) {s : State F.readA2L F.readHex} (h : Reaches F s)
    {r : Result Lang.Obj Mem Err} (hr : s.m.main = .ret r) : r.a2l = none ∧ r.hex = none ∧ r.err ≠ none := by
  obtain ⟨ra, rh, h1, h2, h3⟩ := (C85_safe hn h).2 r hr
  have hra : ∃ e, ra = .error e := by
    unfold Files.A2lGives at h1
    rw [ht] at h1
    obtain ⟨ts', i, v, e, g1, g2, rfl⟩ := h1
    have hnp : 0 < (F.input text).np := by unfold Files.input; dsimp only; omega
    obtain ⟨os, hos⟩ := A2lRun.C84_every_result hnp g1 g2
    cases (show tokensOfFile F.graphic (F.cpus * 2) text = some ts' from g1).symm.trans hts
    obtain ⟨_, _, g3⟩ := A2lRun.C112_runs hnp g1 hu hos
    cases g3
    exact ⟨_, if_pos rfl⟩
  obtain ⟨k1, k2, e, k3, _⟩ := h3.2 (Or.inl hra)
  exact ⟨k1, k2, by simp [k3]⟩

/-- C113 for S19: if a call on the whole hex file returns a memory, and a call with the hex file cut off after `k` characters returns one, the latter
holds nothing but bytes of the former. The A2L files, the names of the files and the numbers of CPUs may differ. -/
theorem C113_srec {F F' : Files} (hn : 0 < F.cpus) (hn' : 0 < F'.cpus) (hf : format F.path = some .s19) (hf' : format F'.path = some .s19)
    {ls : List Str} (hne : ls ≠ []) (hl : ∀ l ∈ ls, ¬ Srec.Spec.Malformed l) (hcr : ∀ l ∈ ls, '\r' ∉ l ∧ '\n' ∉ l) {sep : Str}
    (hs : sep = ['\r', '\n'] ∨ sep = ['\n']) (k : Nat) (ht : F.hex = some (joinLines sep ls)) (ht' : F'.hex = some ((joinLines sep ls).take k))
    {s : State F.readA2L F.readHex} {s' : State F'.readA2L F'.readHex} (h : Reaches F s) (h' : Reaches F' s') {r r' : Result Lang.Obj Mem Err}
    (hr : s.m.main = .ret r) (hr' : s'.m.main = .ret r') {m m' : Mem} (hm : r.hex = some m) (hm' : r'.hex = some m') {a v : Nat}
    (hv : m' a = some v) : m a = some v := by
  obtain ⟨o, g1, g2, rfl⟩ := memory_srec hn hf ht (memory_given hn h hr hm)
  obtain ⟨o', g3, _, rfl⟩ := memory_srec hn' hf' ht' (memory_given hn' h' hr' hm')
  exact Srec.Cut.C111_srec hn hn' hne hl hcr hs k g1 g2 g3 hv

/-- C113 for Intel HEX. Missing: files in which a used explicit segment 0 is followed by data elsewhere, for which it is false (C111). -/
theorem C113_ihex_partial {F F' : Files} (hn : 0 < F.cpus) (hn' : 0 < F'.cpus) (hf : format F.path = some .intelHex)
    (hf' : format F'.path = some .intelHex) {ls : List Str} (hne : ls ≠ []) (hwf : Ihex.Spec.WellFormed ls)
    (hz : Ihex.Spec.ZeroSegmentLast (Ihex.Spec.recs ls)) (hcr : ∀ l ∈ ls, '\r' ∉ l ∧ '\n' ∉ l) {sep : Str}
    (hs : sep = ['\r', '\n'] ∨ sep = ['\n']) (k : Nat) (ht : F.hex = some (joinLines sep ls)) (ht' : F'.hex = some ((joinLines sep ls).take k))
    {s : State F.readA2L F.readHex} {s' : State F'.readA2L F'.readHex} (h : Reaches F s) (h' : Reaches F' s') {r r' : Result Lang.Obj Mem Err}
    (hr : s.m.main = .ret r) (hr' : s'.m.main = .ret r') {m m' : Mem} (hm : r.hex = some m) (hm' : r'.hex = some m') {a v : Nat}
    (hv : m' a = some v) : m a = some v := by
  obtain ⟨sc, o, g1, g2, rfl⟩ := memory_ihex hn hf ht (memory_given hn h hr hm)
  obtain ⟨sc', o', g3, _, rfl⟩ := memory_ihex hn' hf' ht' (memory_given hn' h' hr' hm')
  exact Ihex.Cut.C111_ihex_partial hn hn' hne hwf hz hcr hs k g1 g2 g3 hv

/-! ### Calls that return -/

/-- An A2L file without a token is accepted (C56). -/
theorem empty_a2l {F : Files} (hn : 0 < F.cpus) {text : Str} (ht : F.a2l = some text) {ts : List Str}
    (hts : tokensOfFile F.graphic (F.cpus * 2) text = some ts) (h0 : ts = [[]]) : ∃ o, F.A2lGives (.ok o) := by
  have hnp : 0 < (F.input text).np := by unfold Files.input; dsimp only; omega
  obtain ⟨os, r, h⟩ := A2lRun.C84_completes hnp (os := []) (s := A2lRun.init (F.input text)) rfl
  have hres := (A2lRun.C84_results hnp hts r).1 ⟨os, h⟩
  obtain ⟨sched, hs, hr⟩ := hres
  have key : ∀ E : Lang.Env, Analysis.Wf E → Props.MtGood E → E.toks = ts → r = parse E .parseA2l 0 → ∃ v, r = .ok 0 v false := by
    intro E hw hmt hE hrE
    have h1 := Props.C56_words_accepted hw hmt (ws := []) (hE.trans h0) (by simp)
    obtain ⟨i', v', e', h2, h3, _⟩ := Props.parse_ok hw hmt .parseA2l (by decide) 0 (by rw [hE, h0]; decide)
    cases h1.unique h3
    exact ⟨_, hrE.trans h2⟩
  have : ∃ v, r = .ok 0 v false := by
    cases hm : A2lRun.multi ts with
    | false =>
      rw [hm, if_neg (by decide)] at hr
      exact key (A2lRun.workerEnv (F.input text) ts) (A2lRun.tokens_wf (I := F.input text) hts _ _ _) (Props.mtGood_seq rfl) rfl hr
    | true =>
      rw [hm, if_pos rfl] at hr
      exact key (mtEnv (A2lRun.workerEnv (F.input text) ts) (F.input text).np sched) (A2lRun.tokens_wf (I := F.input text) hts _ _ _)
        (fun _ i hi => A2lRun.good_answers (I := F.input text) hnp hts hs (fun _ => .panic) i hi) rfl hr
  obtain ⟨v, hv⟩ := this
  refine ⟨Link.objOf v, ?_⟩
  unfold Files.A2lGives
  rw [ht]
  exact ⟨_, 0, v, false, hts, ⟨sched, hs, hv ▸ hr⟩, rfl⟩

/-- A hex file that the Intel HEX reader accepts and an empty A2L file: a call that returns the memory. -/
theorem returns_ihex {F : Files} (hn : 0 < F.cpus) (ha : F.a2l = some []) (hts : tokensOfFile F.graphic (F.cpus * 2) [] = some [[]])
    (hf : format F.path = some .intelHex) {t : Str} (ht : F.hex = some t) {sched : List Nat} {o : Outcome}
    (h : Ihex.parseFromText F.cpus sched t = some (some o)) (he : o.err = none) :
    ∃ s r, Reaches F s ∧ s.m.main = .ret r ∧ r.hex = some o.map := by
  obtain ⟨x, hx⟩ := empty_a2l hn ha hts rfl
  have hh : F.HexGives (.ok o.map) := by
    unfold Files.HexGives
    rw [hf, ht]
    obtain ⟨h4, h5⟩ := Ihex.C77_text hn t (sched := sched) h
    exact ⟨o, by unfold ofOutcome; rw [he], ⟨fun hs => h4 (by simpa [Classical.not_forall] using hs), h5⟩⟩
  obtain ⟨s, h1, h2⟩ := (C85_results hn ⟨some x, some o.map, none⟩).2 ⟨_, _, hx, hh, ⟨fun _ _ g1 g2 => by cases g1; cases g2; rfl, by rintro (⟨_, g⟩ | ⟨_, g⟩) <;> cases g⟩⟩
  exact ⟨s, _, h1, h2, rfl⟩

/-- The same for S19. -/
theorem returns_srec {F : Files} (hn : 0 < F.cpus) (ha : F.a2l = some []) (hts : tokensOfFile F.graphic (F.cpus * 2) [] = some [[]])
    (hf : format F.path = some .s19) {t : Str} (ht : F.hex = some t) {o : Outcome}
    (h : Srec.parseFromText F.cpus t = some o) (he : o.err = none) : ∃ s r, Reaches F s ∧ s.m.main = .ret r ∧ r.hex = some o.map := by
  obtain ⟨x, hx⟩ := empty_a2l hn ha hts rfl
  have hh : F.HexGives (.ok o.map) := by
    unfold Files.HexGives
    rw [hf, ht]
    obtain ⟨o', h3, h4, h5⟩ := Srec.C77_srec_text hn t
    obtain rfl := Option.some.inj (h3.symm.trans h)
    exact ⟨o', by unfold ofOutcome; rw [he], ⟨fun hs => h4 (by simpa [Classical.not_forall] using hs), h5⟩⟩
  obtain ⟨s, h1, h2⟩ := (C85_results hn ⟨some x, some o.map, none⟩).2 ⟨_, _, hx, hh, ⟨fun _ _ g1 g2 => by cases g1; cases g2; rfl, by rintro (⟨_, g⟩ | ⟨_, g⟩) <;> cases g⟩⟩
  exact ⟨s, _, h1, h2, rfl⟩

/-- C113 of Intel HEX in full. -/
def C113_ihex_full : Prop := ∀ (F F' : Files), 0 < F.cpus → 0 < F'.cpus → format F.path = some .intelHex → format F'.path = some .intelHex →
  ∀ ls : List Str, ls ≠ [] → Ihex.Spec.WellFormed ls → (∀ l ∈ ls, '\r' ∉ l ∧ '\n' ∉ l) → ∀ sep : Str, sep = ['\r', '\n'] ∨ sep = ['\n'] → ∀ k : Nat,
  F.hex = some (joinLines sep ls) → F'.hex = some ((joinLines sep ls).take k) → ∀ (s : State F.readA2L F.readHex) (s' : State F'.readA2L F'.readHex),
  Reaches F s → Reaches F' s' → ∀ r r' : Result Lang.Obj Mem Err, s.m.main = .ret r → s'.m.main = .ret r' → ∀ m m' : Mem, r.hex = some m →
  r'.hex = some m' → ∀ a v : Nat, m' a = some v → m a = some v

open Ihex.Chunks (up)

/-- C113 is false of Intel HEX: one CPU stores a byte of the whole file in a wrong segment, two CPUs store it rightly when the end of the file is
cut off (C111). -/
theorem C113_ihex_false : ¬ C113_ihex_full := by
  intro hfull
  have l0 : Ihex.Reloc.look (Ihex.parseFromText 1 (List.replicate 9 0) (joinLines ['\n'] up)) 16 65552 = some (true, some 3, none) := by decide +kernel
  have l1 : Ihex.Reloc.look (Ihex.parseFromText 2 ((List.replicate 9 [0, 1]).flatten) ((joinLines ['\n'] up).take 60)) 16 65552 = some (true, none, some 3) := by
    decide +kernel
  cases r0 : Ihex.parseFromText 1 (List.replicate 9 0) (joinLines ['\n'] up) with
  | none => rw [r0] at l0; cases l0
  | some oo =>
    cases oo with
    | none => rw [r0] at l0; cases l0
    | some o =>
      cases r1 : Ihex.parseFromText 2 ((List.replicate 9 [0, 1]).flatten) ((joinLines ['\n'] up).take 60) with
      | none => rw [r1] at l1; cases l1
      | some oo' =>
        cases oo' with
        | none => rw [r1] at l1; cases l1
        | some o' =>
          rw [r0] at l0
          rw [r1] at l1
          simp only [Ihex.Reloc.look, Option.some.injEq, Prod.mk.injEq] at l0 l1
          obtain ⟨s, r, h1, h2, h3⟩ := returns_ihex (F := ⟨1, fun _ => true, fun _ => true, some [], "a.hex".toList, some (joinLines ['\n'] up)⟩)
            (by decide) rfl (by decide +kernel) (by decide +kernel) rfl r0 (by simpa using l0.1)
          obtain ⟨s', r', h1', h2', h3'⟩ := returns_ihex
            (F := ⟨2, fun _ => true, fun _ => true, some [], "a.hex".toList, some ((joinLines ['\n'] up).take 60)⟩)
            (by decide) rfl (by decide +kernel) (by decide +kernel) rfl r1 (by simpa using l1.1)
          have := hfull _ _ (by decide) (by decide) (by decide +kernel) (by decide +kernel) up (by decide)
            (Ihex.Chunks.wf_of (by decide +kernel) (by decide +kernel)) (by decide +kernel) _ (.inr rfl) 60 rfl rfl s s' h1 h1' r r' h2 h2' _ _ h3 h3'
            65552 3 l1.2.2
          rw [l0.2.2] at this
          cases this

/-! ### Examples -/

-- a file that ends inside its module: the hypotheses of `C113_a2l`, and a call that returns
example : ∃ ts, tokensOfFile A2lRun.broken.graphic (1 * 2) A2lRun.broken.text = some ts ∧ Truncated.Unclosed ts ∧
    ∃ s r, Reaches ⟨1, A2lRun.broken.graphic, fun _ => true, some A2lRun.broken.text, "a.hex".toList, some (str! ":0100000001FE")⟩ s ∧ s.m.main = .ret r := by
  have h : (tokensOfFile A2lRun.broken.graphic (1 * 2) A2lRun.broken.text).map
    (fun ts => (ts[0]?, (ts.drop 1).contains "/end PROJECT".toList)) = some (some "/begin PROJECT".toList, false) := by decide +kernel
  obtain ⟨ts, ht, h⟩ := Option.map_eq_some_iff.1 h
  simp only [Prod.mk.injEq] at h
  obtain ⟨os, s, r, h1, h2⟩ := C85_completes
    (F := ⟨1, A2lRun.broken.graphic, fun _ => true, some A2lRun.broken.text, "a.hex".toList, some (str! ":0100000001FE")⟩) (by decide) ⟨[], rfl⟩
  exact ⟨ts, ht, ⟨0, h.1, fun hm => by rw [List.contains_iff_mem.2 hm] at h; exact absurd h.2 (by decide)⟩, s, r, ⟨os, h1⟩, h2⟩

-- a hex file as in `C113_ihex_partial`, and calls for the whole file and for its first 26 characters that return a memory
example : Ihex.Spec.WellFormed Ihex.Chunks.down ∧ Ihex.Spec.ZeroSegmentLast (Ihex.Spec.recs Ihex.Chunks.down) ∧
    (∀ l ∈ Ihex.Chunks.down, '\r' ∉ l ∧ '\n' ∉ l) ∧
    ∀ t ∈ [joinLines ['\n'] Ihex.Chunks.down, (joinLines ['\n'] Ihex.Chunks.down).take 26],
      ∃ s r m, Reaches ⟨1, fun _ => true, fun _ => true, some [], "a.hex".toList, some t⟩ s ∧ s.m.main = .ret r ∧ r.hex = some m := by
  refine ⟨Ihex.Chunks.wf_of (by decide +kernel) (by decide +kernel), by decide +kernel, by decide +kernel, fun t ht => ?_⟩
  have hacc : ∃ o, Ihex.parseFromText 1 (List.replicate 9 0) t = some (some o) ∧ o.err = none := by
    have : ∀ t ∈ [joinLines ['\n'] Ihex.Chunks.down, (joinLines ['\n'] Ihex.Chunks.down).take 26],
      (Ihex.Reloc.look (Ihex.parseFromText 1 (List.replicate 9 0) t) 16 16).map (·.1) = some true := by decide +kernel
    have := this t ht
    cases r0 : Ihex.parseFromText 1 (List.replicate 9 0) t with
    | none => rw [r0] at this; cases this
    | some oo =>
      cases oo with
      | none => rw [r0] at this; cases this
      | some o =>
        rw [r0] at this
        simp only [Ihex.Reloc.look, Option.map_some, Option.some.injEq] at this
        exact ⟨o, rfl, by simpa using this⟩
  obtain ⟨o, h1, h2⟩ := hacc
  obtain ⟨s, r, h3, h4, h5⟩ := returns_ihex (F := ⟨1, fun _ => true, fun _ => true, some [], "a.hex".toList, some t⟩)
    Nat.one_pos rfl (show tokensOfFile (fun _ => true) 2 [] = some [[]] by decide +kernel) (show format "a.hex".toList = some .intelHex by decide +kernel)
    rfl h1 h2
  exact ⟨s, r, _, h3, h4, h5⟩

-- two S19 lines as in `C113_srec`, and calls for the whole file and for its first line that return a memory
example : (∀ l ∈ Srec.Cut.two, ¬ Srec.Spec.Malformed l) ∧ (∀ l ∈ Srec.Cut.two, '\r' ∉ l ∧ '\n' ∉ l) ∧
    ∀ t ∈ [joinLines ['\n'] Srec.Cut.two, (joinLines ['\n'] Srec.Cut.two).take 17],
      ∃ s r m, Reaches ⟨1, fun _ => true, fun _ => true, some [], "a.s19".toList, some t⟩ s ∧ s.m.main = .ret r ∧ r.hex = some m := by
  refine ⟨by decide +kernel, by decide +kernel, fun t ht => ?_⟩
  have : ∀ t ∈ [joinLines ['\n'] Srec.Cut.two, (joinLines ['\n'] Srec.Cut.two).take 17],
    (Srec.parseFromText 1 t).map (·.err) = some none := by decide +kernel
  obtain ⟨o, h1, h2⟩ := Option.map_eq_some_iff.1 (this t ht)
  obtain ⟨s, r, h3, h4, h5⟩ := returns_srec (F := ⟨1, fun _ => true, fun _ => true, some [], "a.s19".toList, some t⟩)
    Nat.one_pos rfl (show tokensOfFile (fun _ => true) 2 [] = some [[]] by decide +kernel) (show format "a.s19".toList = some .s19 by decide +kernel)
    rfl h1 h2
  exact ⟨s, r, _, h3, h4, h5⟩

end Verif.Conc.Whole
