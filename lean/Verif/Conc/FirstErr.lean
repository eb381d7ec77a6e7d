import Verif.Conc.Props

/-!
Property C22: exactly when the first error is the one that is returned.
-/

namespace Verif.Conc

open ReadCal

/-- C22, exactly: a call returns the first error reported if and only if the two readers do not fail with different errors. -/
theorem C22_iff {A H E : Type} (ra : Except E A) (rh : Except E H) {os : List Who} {s : State A H E}
    (h : run ra rh (init A H E) os = some s) {r : Result A H E} (hr : s.main = .ret r) :
    r.err = s.log.head? ↔ ∀ e1 e2, ra = .error e1 → rh = .error e2 → e1 = e2 := by
  have hi := inv_run (inv_init ra rh) h
  have hm := hi.main
  unfold MainOk at hm
  rw [hr] at hm
  obtain ⟨⟨hA, hH⟩, -, -, -⟩ := hm
  have hlog := hi.readers.log
  simp only [LogOk, hA, hH, Nat.succ_ne_zero, if_false] at hlog
  cases ra with
  | ok a => exact iff_of_true (C22_partial _ _ (Or.inl ⟨a, rfl⟩) h hr) (by rintro _ _ ⟨⟩)
  | error e1 =>
    cases rh with
    | ok x => exact iff_of_true (C22_partial _ _ (Or.inr ⟨x, rfl⟩) h hr) (by rintro _ _ _ ⟨⟩)
    | error e2 =>
      rw [C22_last _ _ h hr]
      have hl : s.log = [e1, e2] ∨ s.log = [e2, e1] := by simpa [errOf] using hlog
      constructor
      · intro he f1 f2 h1 h2
        cases h1
        cases h2
        rcases hl with hl | hl
        · rw [hl] at he
          simpa using he.symm
        · rw [hl] at he
          simpa using he
      · intro he
        have := he e1 e2 rfl rfl
        subst this
        rcases hl with hl | hl <;> rw [hl] <;> rfl

/-- C22 fails for every two readers that fail with different errors, in every schedule: the error reported first is never the one
that is returned. -/
theorem C22_false_everywhere {A H E : Type} {e1 e2 : E} (hne : e1 ≠ e2) {os : List Who} {s : State A H E}
    (h : run (.error e1) (.error e2) (init A H E) os = some s) {r : Result A H E} (hr : s.main = .ret r) :
    r.err ≠ s.log.head? :=
  fun he => hne ((C22_iff _ _ h hr).1 he e1 e2 rfl rfl)

example : ∃ s r, run (.error 1 : Except Nat Nat) (.error 2 : Except Nat Nat) (init Nat Nat Nat)
    [.a, .h, .a, .a, .h, .h, .m, .m, .m, .m, .m, .m] = some s ∧ s.main = .ret r ∧ s.log = [1, 2] ∧ r.err = some 2 :=
  ⟨_, _, rfl, rfl, rfl, rfl⟩

end Verif.Conc
