import Verif.Calib.Props3

/-!
C45, rational functions: exactly when the value the code computes is right
(compu_methods.go:124-162), in exact arithmetic.
-/

namespace Verif.Calib.Props

open Verif.Go Verif.Calib.Spec

instance (a b c d e f x p : Rat) : Decidable (RatSolution a b c d e f x p) := by unfold RatSolution; infer_instance

/-- A value that solves the equation and at which the quadratic form touches zero: the only root of the equation. -/
def DoubleSolution (a b c d e f x p : Rat) : Prop :=
  RatSolution a b c d e f x p ∧ 2 * (a - d * x) * p = e * x - b

/-- C45, exactly: the conversion of `x` by a rational function that has a solution gives a solution iff the equation is
quadratic and either its solution is a double one, or `2 (a - d x)` or its negative happens to be a solution (and
`e x` is not `b`). All other rational functions are converted wrongly. -/
def C45_right (a b c d e f x : Rat) : Prop :=
  a ≠ d * x ∧ ((∃ p, DoubleSolution a b c d e f x p) ∨
    (e * x ≠ b ∧ (RatSolution a b c d e f x (2 * (a - d * x)) ∨ RatSolution a b c d e f x (-(2 * (a - d * x))))))

theorem div_mul_self {u s : Rat} (h : u ≠ 0) : s / u * u = s := Rat.div_mul_cancel h

/-- The quadratic form of a solution, with `u = 2 (a - d x)` and `w = e x - b`. -/
theorem solution_form {a b c d e f x p : Rat} (h : RatSolution a b c d e f x p) :
    (2 * (a - d * x)) * p * p - 2 * (e * x - b) * p + 2 * (c - f * x) = 0 := by
  have := h.2
  grind

/-- The discriminant is the square of `u p - w` for each solution. -/
theorem disc_square {a b c d e f x p : Rat} (h : RatSolution a b c d e f x p) :
    (e * x - b) * (e * x - b) - 4 * (d * x - a) * (f * x - c) =
      (2 * (a - d * x) * p - (e * x - b)) * (2 * (a - d * x) * p - (e * x - b)) := by
  have := solution_form h
  grind

theorem eq_or_neg {r s : Rat} (h : r * r = s * s) : r = s ∨ r = -s := by
  have h3 : (r - s) * (r + s) = 0 := by grind
  rcases Rat.mul_eq_zero.mp h3 with h4 | h4
  · left; grind
  · right; grind

theorem sq_nonneg (r : Rat) : 0 ≤ r * r := by
  rcases Rat.le_total (a := 0) (b := r) with h3 | h3
  · exact Rat.mul_nonneg h3 h3
  · have := Rat.mul_nonneg (show 0 ≤ -r by grind) (show 0 ≤ -r by grind)
    grind

theorem sq_pos {r : Rat} (h : r ≠ 0) : 0 < r * r := by
  have h1 := sq_nonneg r
  have h2 : r * r ≠ 0 := fun h0 => by
    rcases Rat.mul_eq_zero.mp h0 with h4 | h4 <;> exact h h4
  grind

theorem pos_ne {u s : Rat} (hu : u ≠ 0) (hs : 0 ≤ s) : u + s / u ≠ 0 := by
  intro h
  have h1 := div_mul_self (s := s) hu
  have h2 := sq_pos hu
  have h3 : u * u + s = (u + s / u) * u := by rw [← h1]; grind
  rw [h] at h3
  grind

/-- The quotient the code computes, without the inner division. -/
theorem quotient {u w t : Rat} (hu : u ≠ 0) (ht : u + t / u ≠ 0) : w / (u + t / u) * (u * u + t) = w * u := by
  have h1 : (u + t / u) * u = u * u + t := by
    have := div_mul_self (s := t) hu
    grind
  have h2 : w / (u + t / u) * (u + t / u) = w := div_mul_self ht
  rw [← h1]
  grind

/-- When the value computed with `t` (the root or its negative) solves the equation. -/
theorem value_right {a b c d e f x t : Rat} (hu : 2 * (a - d * x) ≠ 0)
    (ht2 : t * t = (e * x - b) * (e * x - b) - 4 * (d * x - a) * (f * x - c))
    (ht : 2 * (a - d * x) + t / (2 * (a - d * x)) ≠ 0)
    (h : RatSolution a b c d e f x ((e * x - b) / (2 * (a - d * x) + t / (2 * (a - d * x))))) :
    (∃ p, DoubleSolution a b c d e f x p) ∨
      (e * x ≠ b ∧ (RatSolution a b c d e f x (2 * (a - d * x)) ∨ RatSolution a b c d e f x (-(2 * (a - d * x))))) := by
  have hq := quotient (w := e * x - b) hu ht
  have hd := disc_square h
  rw [← ht2] at hd
  have hne : 2 * (a - d * x) * (2 * (a - d * x)) + t ≠ 0 := by
    intro h0
    have := div_mul_self (s := t) hu
    apply ht
    have h1 : (2 * (a - d * x) + t / (2 * (a - d * x))) * (2 * (a - d * x)) = 0 := by grind
    rcases Rat.mul_eq_zero.mp h1 with h4 | h4
    · exact h4
    · exact absurd h4 hu
  generalize hp : (e * x - b) / (2 * (a - d * x) + t / (2 * (a - d * x))) = p at *
  generalize hU : 2 * (a - d * x) = u at *
  generalize hW : e * x - b = w at *
  -- `u p - w` is `t` or `-t`
  by_cases ht0 : t = 0
  · left
    refine ⟨p, h, ?_⟩
    rw [hU, hW]
    subst ht0
    rcases eq_or_neg hd with h1 | h1 <;> grind
  · right
    -- p = u or p = -u
    have hpu : p = u ∨ p = -u := by
      rcases eq_or_neg hd with h1 | h1
      · -- t = u p - w
        have : t * (p + u) = 0 := by grind
        rcases Rat.mul_eq_zero.mp this with h4 | h4
        · exact absurd h4 ht0
        · right; grind
      · have : t * (p - u) = 0 := by grind
        rcases Rat.mul_eq_zero.mp this with h4 | h4
        · exact absurd h4 ht0
        · left; grind
    have hw : w ≠ 0 := by
      intro h0
      rw [h0] at hq
      have h1 : p * (u * u + t) = 0 := by grind
      rcases Rat.mul_eq_zero.mp h1 with h4 | h4
      · rcases hpu with h5 | h5 <;> grind
      · exact hne h4
    refine ⟨by grind, ?_⟩
    rcases hpu with h5 | h5
    · left; rw [← h5]; exact h
    · right; rw [← h5]; exact h

/-- C45, exactly (see `C45_right`). -/
theorem C45_exact {sqrt : Rat → Option Rat} (hs : IsSqrt sqrt) {a b c d e f x : Rat}
    (hsol : ∃ p, RatSolution a b c d e f x p) :
    (∃ p, calcRatFunc sqrt a b c d e f x = .ok (some p) ∧ RatSolution a b c d e f x p) ↔
      C45_right a b c d e f x := by
  by_cases hu : 2 * (a - d * x) = 0
  · constructor
    · rintro ⟨p, h, -⟩
      unfold calcRatFunc at h
      simp [hu] at h
    · rintro ⟨h, -⟩
      exact absurd (by grind) h
  obtain ⟨p0, h0⟩ := hsol
  -- the square root
  obtain ⟨s, hs0, hss, hsq⟩ : ∃ s : Rat, 0 ≤ s ∧ s * s = (e * x - b) * (e * x - b) - 4 * (d * x - a) * (f * x - c) ∧
      sqrt ((e * x - b) * (e * x - b) - 4 * (d * x - a) * (f * x - c)) = some s := by
    have hd := disc_square h0
    rw [hd]
    rcases Rat.le_total (a := 0) (b := 2 * (a - d * x) * p0 - (e * x - b)) with h | h
    · exact ⟨_, h, rfl, hs.square _ h⟩
    · refine ⟨-(2 * (a - d * x) * p0 - (e * x - b)), by grind, by grind, ?_⟩
      have := hs.square (-(2 * (a - d * x) * p0 - (e * x - b))) (by grind)
      rw [← this]
      congr 1
      grind
  have huu := sq_pos hu
  have hpos : 2 * (a - d * x) + s / (2 * (a - d * x)) ≠ 0 := pos_ne hu hs0
  have hneg : 2 * (a - d * x) - s / (2 * (a - d * x)) = 2 * (a - d * x) + (-s) / (2 * (a - d * x)) := by
    have h1 := div_mul_self (s := s) hu
    have h2 := div_mul_self (s := -s) hu
    have h3 : (s / (2 * (a - d * x)) + -s / (2 * (a - d * x))) * (2 * (a - d * x)) = 0 := by grind
    rcases Rat.mul_eq_zero.mp h3 with h4 | h4
    · grind
    · exact absurd h4 hu
  have hval : calcRatFunc sqrt a b c d e f x =
      if 2 * (a - d * x) + (-s) / (2 * (a - d * x)) ≠ 0 ∧
          ¬ RatSolution a b c d e f x ((e * x - b) / (2 * (a - d * x) + s / (2 * (a - d * x)))) then
        .ok (some ((e * x - b) / (2 * (a - d * x) + (-s) / (2 * (a - d * x)))))
      else .ok (some ((e * x - b) / (2 * (a - d * x) + s / (2 * (a - d * x))))) := by
    unfold calcRatFunc
    simp only [if_neg hu, hsq, hneg]
    by_cases hn : 2 * (a - d * x) + (-s) / (2 * (a - d * x)) = 0
    · rw [if_neg (by simp [hn]), if_pos hpos, if_neg (by simp [hn])]
    · rw [if_pos ⟨hpos, hn⟩]
      generalize (e * x - b) / (2 * (a - d * x) + s / (2 * (a - d * x))) = p
      by_cases hr : RatSolution a b c d e f x p
      · rw [if_pos ⟨hr.1, by rw [hr.2]; exact Rat.mul_div_cancel hr.1⟩, if_neg (by simp [hr])]
      · rw [if_neg, if_pos ⟨hn, hr⟩]
        rintro ⟨h1, h2⟩
        refine hr ⟨h1, ?_⟩
        rw [← h2]
        exact (Rat.div_mul_cancel h1).symm
  rw [hval]
  constructor
  · rintro ⟨p, h1, h2⟩
    refine ⟨by grind, ?_⟩
    split at h1
    · rename_i hc
      injection h1 with h1; injection h1 with h1
      subst h1
      exact value_right hu (by rw [← hss]; grind) hc.1 h2
    · injection h1 with h1; injection h1 with h1
      subst h1
      exact value_right hu hss hpos h2
  · rintro ⟨-, h⟩
    by_cases hplus : RatSolution a b c d e f x ((e * x - b) / (2 * (a - d * x) + s / (2 * (a - d * x))))
    · rw [if_neg (by simp [hplus])]
      exact ⟨_, rfl, hplus⟩
    · have hq := quotient (w := e * x - b) hu hpos
      rcases h with ⟨p, hp, hdbl⟩ | ⟨hne, hr⟩
      · -- the double solution is the value with `+`
        exfalso
        apply hplus
        have hd := disc_square hp
        rw [hdbl] at hd
        have hs00 : s = 0 := by
          have : s * s = 0 := by rw [hss, hd]; grind
          rcases Rat.mul_eq_zero.mp this with h4 | h4 <;> exact h4
        have : (e * x - b) / (2 * (a - d * x) + s / (2 * (a - d * x))) = p := by
          have h1 : ((e * x - b) / (2 * (a - d * x) + s / (2 * (a - d * x))) - p) * (2 * (a - d * x)) * (2 * (a - d * x)) = 0 := by
            rw [hs00] at hq ⊢
            grind
          rcases Rat.mul_eq_zero.mp h1 with h4 | h4
          · rcases Rat.mul_eq_zero.mp h4 with h5 | h5
            · grind
            · exact absurd h5 hu
          · exact absurd h4 hu
        rw [this]; exact hp
      · -- a solution `r` with `r r = u u`
        obtain ⟨r, hr, hru⟩ : ∃ r, RatSolution a b c d e f x r ∧ (r = 2 * (a - d * x) ∨ r = -(2 * (a - d * x))) := by
          rcases hr with h | h
          · exact ⟨_, h, .inl rfl⟩
          · exact ⟨_, h, .inr rfl⟩
        have hd := disc_square hr
        rw [← hss] at hd
        -- it is the value with `t`, where `t (r u) = ...`
        have key : ∀ t, t * t = s * s → (2 * (a - d * x) * r - (e * x - b) = if r = 2 * (a - d * x) then -t else t) →
            2 * (a - d * x) * (2 * (a - d * x)) + t ≠ 0 →
            2 * (a - d * x) + t / (2 * (a - d * x)) ≠ 0 → (e * x - b) / (2 * (a - d * x) + t / (2 * (a - d * x))) = r := by
          intro t _ h2 h3 h4
          have hq := quotient (w := e * x - b) hu h4
          have h5 : ((e * x - b) / (2 * (a - d * x) + t / (2 * (a - d * x))) - r) * (2 * (a - d * x) * (2 * (a - d * x)) + t) = 0 := by
            generalize (e * x - b) / (2 * (a - d * x) + t / (2 * (a - d * x))) = v at *
            rcases hru with h | h
            · rw [if_pos h] at h2
              grind
            · rw [if_neg (by grind)] at h2
              grind
          rcases Rat.mul_eq_zero.mp h5 with h6 | h6
          · grind
          · exact absurd h6 h3
        have hcase : (2 * (a - d * x) * r - (e * x - b) = if r = 2 * (a - d * x) then -s else s) ∨
            (2 * (a - d * x) * r - (e * x - b) = if r = 2 * (a - d * x) then - -s else -s) := by
          rcases eq_or_neg hd.symm with h | h
          · by_cases hc : r = 2 * (a - d * x)
            · right; rw [if_pos hc]; grind
            · left; rw [if_neg hc]; exact h
          · by_cases hc : r = 2 * (a - d * x)
            · left; rw [if_pos hc]; exact h
            · right; rw [if_neg hc]; exact h
        rcases hcase with h | h
        · exfalso
          apply hplus
          rw [key s rfl h (by grind) hpos]
          exact hr
        · have hn3 : 2 * (a - d * x) * (2 * (a - d * x)) + -s ≠ 0 := by
            intro h7
            rcases hru with h8 | h8
            · rw [if_pos h8] at h
              grind
            · rw [if_neg (by grind)] at h
              grind
          have hn4 : 2 * (a - d * x) + -s / (2 * (a - d * x)) ≠ 0 := by
            intro h7
            have := div_mul_self (s := -s) hu
            grind
          rw [if_pos ⟨hn4, hplus⟩]
          refine ⟨_, rfl, ?_⟩
          rw [key (-s) (by grind) h hn3 hn4]
          exact hr

/-- The criterion is met by `(p^2 - 8p + 12)/1` at `x = 0` (`2` is a solution), where the code is right, and not by
`p^2` at `x = 4`, where it is wrong. -/
example : C45_right 1 (-8) 12 0 0 1 0 := by
  refine ⟨by decide +kernel, .inr ⟨by decide +kernel, .inl ?_⟩⟩
  unfold RatSolution; decide +kernel

example : ¬ C45_right 1 0 0 0 0 1 4 := by
  rintro ⟨_, ⟨p, ⟨h1, h2⟩, h3⟩ | ⟨h, -⟩⟩
  · grind
  · exact h (by decide +kernel)

/-- C45: an error is reported exactly if the equation is not quadratic: also if a linear equation has a solution, and not
if a quadratic equation has none. -/
theorem C45_error_iff {sqrt : Rat → Option Rat} (hs : ∀ y s, sqrt y = some s → 0 ≤ s) (a b c d e f x : Rat) :
    calcRatFunc sqrt a b c d e f x = .err ↔ a = d * x := by
  by_cases hu : 2 * (a - d * x) = 0
  · unfold calcRatFunc
    simp only [hu, if_true, true_iff]
    grind
  · constructor
    · intro h
      exfalso
      unfold calcRatFunc at h
      simp only [if_neg hu] at h
      split at h
      · cases h
      · rename_i s hsq
        have hpos : 2 * (a - d * x) + s / (2 * (a - d * x)) ≠ 0 := pos_ne hu (hs _ _ hsq)
        by_cases hn : 2 * (a - d * x) - s / (2 * (a - d * x)) = 0
        · rw [if_neg (by simp [hn]), if_pos hpos] at h
          cases h
        · rw [if_pos ⟨hpos, hn⟩] at h
          split at h <;> cases h
    · intro h
      exact absurd (by grind) hu

/-- A quadratic equation without solution that is not reported: `(p^2 + 1)/1` at `x = 0`; a linear one that is. -/
example : ¬ ((1 : Rat) = 0 * 0) ∧ (0 : Rat) = 0 * 5 := by decide +kernel

end Verif.Calib.Props
