import Verif.Conc.Leftover
import Verif.Conc.LeakIff

/-!
C91 exactly: with which files a call of `ReadCalibration` leaves a goroutine behind.
-/

namespace Verif.Conc.Whole
open Verif.Go Verif.A2l Lang Write Decl EndToEnd ReadCal

/-- **C91, exactly when it holds:** when a call with an Intel HEX file has come to its end, no goroutine is left just if the text of the hex file is
none of those in `Leaks`. The A2L file and the interleaving make no difference. -/
theorem C91_iff {I : A2lRun.Input} (hI : 0 < I.np) {n : Nat} (hn : 0 < n) {lines : List Str} {s : Call I (HexRun.ihex n) n lines} {os}
    (h : run (start _ _) os = some s) (hst : ∀ o, step s o = none) : Quiet s ↔ ¬ HexRun.Leaks n lines := by
  obtain ⟨ts, hts⟩ := A2lRun.tokens_exist I
  have la := a2l_law hI hts
  have lh := hex_law hn (HexRun.ihex_total hn lines) HexRun.ihex_shared_progress _ HexRun.ihex_shared_work
  rcases progress la lh (run_inv la lh (start_inv la lh) h) with ⟨o, s', ho⟩ | ⟨r, hr⟩
  · rw [hst o] at ho; cases ho
  obtain ⟨h1, h2, h3, o, rest, ho, hoe⟩ := call_ret hI hn (HexRun.ihex_total hn lines) HexRun.ihex_shared_progress _ HexRun.ihex_shared_work h hr
  obtain ⟨os', h'⟩ := hex_steps h
  rw [ho] at h'
  rw [← HexRun.C83_iff hn h' (fun op => by
      have := hst (.hex op)
      simp only [step, Option.map_eq_none_iff, ho] at this
      exact this), Classical.not_not]
  constructor
  · rintro ⟨_, _, _, o', rest', ho', he⟩
    cases ho.symm.trans ho'
    exact he
  · exact fun he => ⟨h1, h2, h3, o, rest, ho, he⟩

/-- C91 is false on every number of CPUs but one, with every A2L file: every call with the text `leakText n` leaves a goroutine behind, and every
call comes to its end. -/
theorem C91_false_everywhere {I : A2lRun.Input} (hI : 0 < I.np) {n : Nat} (hn : 2 ≤ n) :
    (∀ (os : List (Op _ _)) (s : Call I (HexRun.ihex n) n (HexRun.leakText n)), run (start _ _) os = some s → (∀ o, step s o = none) → ¬ Quiet s) ∧
    ∃ (os : List (Op _ _)) (s : Call I (HexRun.ihex n) n (HexRun.leakText n)), run (start _ _) os = some s ∧ (∀ o, step s o = none) ∧
      ∃ r, s.m.main = .ret r := by
  have hpos : 0 < n := by omega
  refine ⟨fun os s h hst hq => (C91_iff hI hpos h hst).1 hq (HexRun.leakText_leaks hn), ?_⟩
  obtain ⟨ts, hts⟩ := A2lRun.tokens_exist I
  have la := a2l_law hI hts
  have lh := hex_law hpos (HexRun.ihex_total hpos (HexRun.leakText n)) HexRun.ihex_shared_progress _ HexRun.ihex_shared_work
  obtain ⟨os, s, h1, h2⟩ := exists_maximal la lh (start_inv la lh)
  refine ⟨os, s, h1, h2, ?_⟩
  rcases progress la lh (run_inv la lh (start_inv la lh) h1) with ⟨op, s', ho⟩ | h
  · rw [h2 op] at ho; cases ho
  · exact h

/-- On one CPU a call leaves nothing behind, whatever the files. -/
theorem C91_one_cpu {I : A2lRun.Input} (hI : 0 < I.np) {lines : List Str} {s : Call I (HexRun.ihex 1) 1 lines} {os}
    (h : run (start _ _) os = some s) (hst : ∀ o, step s o = none) : Quiet s := by
  rw [C91_iff hI (by decide) h hst]
  rintro ⟨_, k, hk, hdup, _⟩
  have : k = 0 := by omega
  subst this
  exact hdup (by simp [HexRun.pairsBefore])

example : ∃ (os : List (Op _ _)) (s : Call smallA2l (HexRun.ihex 4) 4 (HexRun.leakText 4)), run (start _ _) os = some s ∧ ¬ Quiet s := by
  obtain ⟨h1, os, s, h2, h3, _⟩ := C91_false_everywhere (I := smallA2l) (by decide) (n := 4) (by decide)
  exact ⟨os, s, h2, h1 os s h2 h3⟩

end Verif.Conc.Whole
