import Verif.Conc.Props

/-!
C23 exactly: for which paths the format is the one the name says.
-/

namespace Verif.Conc
open Verif.Go ReadCal

/-- What the code does with a path: `.hex` anywhere, otherwise `.s19` anywhere. -/
theorem C23_exact (path : Str) :
    (format path = some .intelHex ↔ extHex <:+: inSmall path) ∧
    (format path = some .s19 ↔ extS19 <:+: inSmall path ∧ ¬ extHex <:+: inSmall path) ∧
    (format path = none ↔ ¬ extHex <:+: inSmall path ∧ ¬ extS19 <:+: inSmall path) := by
  rw [format_small]
  by_cases h1 : extHex <:+: inSmall path
  · rw [if_pos ((contains_iff _ _).mpr h1)]
    simp [h1]
  · rw [if_neg (by rw [contains_iff]; exact h1)]
    by_cases h2 : extS19 <:+: inSmall path
    · rw [if_pos ((contains_iff _ _).mpr h2)]
      simp [h1, h2]
    · rw [if_neg (by rw [contains_iff]; exact h2)]
      simp [h1, h2]

/-- **C23, exactly when it holds:** the format is the one the name says just if `.hex` stands at the end or nowhere in the path, and, in the
latter case, `.s19` stands at the end or nowhere. -/
theorem C23_iff (path : Str) : format path = nameFormat path ↔
    extHex <:+ inSmall path ∨ (¬ extHex <:+: inSmall path ∧ (extS19 <:+ inSmall path ∨ ¬ extS19 <:+: inSmall path)) := by
  obtain ⟨h1, h2, h3⟩ := C23_exact path
  unfold nameFormat
  by_cases a : extHex <:+ inSmall path
  · simp [a, h1.2 a.isInfix]
  · rw [if_neg a]
    by_cases b : extS19 <:+ inSmall path
    · rw [if_pos b, h2]
      simp [a, b, b.isInfix]
    · rw [if_neg b, h3]
      simp [a, b]

example : ¬ (extHex <:+ inSmall "cal.hex.s19".toList ∨ (¬ extHex <:+: inSmall "cal.hex.s19".toList ∧
    (extS19 <:+ inSmall "cal.hex.s19".toList ∨ ¬ extS19 <:+: inSmall "cal.hex.s19".toList))) := by decide +kernel
example : format "a.S19".toList = nameFormat "a.S19".toList := (C23_iff _).2 (by decide +kernel)
example : format "a.s19.txt".toList ≠ nameFormat "a.s19.txt".toList := fun h => by
  have := (C23_iff _).1 h
  revert this
  decide +kernel

end Verif.Conc
