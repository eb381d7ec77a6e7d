import Verif.Calib.Float64Conv

/-! # C87: `math.Sqrt` -/

namespace Verif.Calib.Props
open Verif.Go Spec F64

seal F64.ofQuot

theorem isqrt_spec : ∀ (n m : Nat), m < 4 ^ n → isqrt n m * isqrt n m ≤ m ∧ m < (isqrt n m + 1) * (isqrt n m + 1)
  | 0, m, h => by simp at h; subst h; simp [isqrt]
  | n + 1, m, h => by
    have h4 : m / 4 < 4 ^ n := by rw [Nat.pow_succ] at h; omega
    obtain ⟨a, b⟩ := isqrt_spec n (m / 4) h4
    unfold isqrt
    generalize isqrt n (m / 4) = t at *
    have hm : 4 * (m / 4) ≤ m ∧ m < 4 * (m / 4) + 4 := by omega
    have e1 : 2 * t * (2 * t) = 4 * (t * t) := by grind
    have e2 : (2 * t + 2) * (2 * t + 2) = 4 * ((t + 1) * (t + 1)) := by grind
    simp only
    split
    · rename_i hle
      refine ⟨hle, ?_⟩
      rw [show 2 * t + 1 + 1 = 2 * t + 2 by omega, e2]; omega
    · rename_i hle
      refine ⟨by rw [e1]; omega, by omega⟩

theorem root_fuel (m : Nat) : m < 4 ^ (m.log2 + 1) := by
  refine Nat.lt_of_lt_of_le Nat.lt_log2_self ?_
  exact Nat.pow_le_pow_left (by decide) _

/-- The sum of the rounded root and another number, compared with the integral root: the step between the numbers is
even there, so the added half does not matter. -/
theorem root_sides (P t : Nat) (ht : 2 ^ 54 ≤ t) (h1 : 2 * t ≤ P) (h2 : P ≤ 2 * t + 1) :
    (∀ Y : Int, IsDouble Y → Y < (rnd P 2 : Nat) → ((rnd P 2 : Nat) : Int) + Y ≤ 2 * t) ∧
    (∀ Y : Int, IsDouble Y → ((rnd P 2 : Nat) : Int) < Y → (P : Int) ≤ ((rnd P 2 : Nat) : Int) + Y ∧
      (P = 2 * t + 1 → 2 * (t : Int) + 2 ≤ ((rnd P 2 : Nat) : Int) + Y)) := by
  obtain ⟨k, e, r, c1, c2, c3, c4, c5⟩ := rnd_cases P (q := 2) (by decide)
  have he : e ≠ 0 := by
    rintro rfl
    simp only [Nat.pow_zero, Nat.mul_one] at c3 c4
    omega
  have hk : 2 ^ 52 ≤ k := by rcases c2 with h | h; exact absurd h he; exact h
  have hb : ∀ y : Int, IsDouble y → y ≤ ((k * 2 ^ e : Nat) : Int) ∨ (((k + 1) * 2 ^ e : Nat) : Int) ≤ y :=
    fun y hy => no_double_between hk hy
  obtain ⟨j, rfl⟩ : ∃ j, e = j + 1 := ⟨e - 1, by omega⟩
  have hw : (2 : Nat) ^ (j + 1) = 2 * 2 ^ j := by rw [Nat.pow_succ, Nat.mul_comm]
  rw [hw] at c3 c4 c5 hb
  have hp : 0 < 2 ^ j := Nat.pow_pos (by decide)
  generalize 2 ^ j = w at *
  have e1 : k * (2 * (2 * w)) = 4 * (k * w) := by grind
  have e2 : k * (2 * w) = 2 * (k * w) := by grind
  have e3 : (k + 1) * (2 * w) = 2 * (k * w) + 2 * w := by grind
  rw [e1] at c4
  rw [e2, e3] at c5
  simp only [e2, e3] at hb
  generalize k * w = K at *
  rcases c5 with ⟨g, hr⟩ | ⟨g, hr⟩ <;> rw [g]
  · refine ⟨fun Y hY hl => ?_, fun Y hY hl => ?_⟩
    · omega
    · have := hb Y hY; omega
  · refine ⟨fun Y hY hl => ?_, fun Y hY hl => ?_⟩
    · have := hb Y hY; omega
    · omega

/-- The integral root of the number of squared units, and whether it is exact. -/
theorem sqrt_form {n m : Nat} (hn : n ≠ 0) (hm : n * 2 ^ 1074 = m) : ∃ t P, t * t ≤ m ∧ m < (t + 1) * (t + 1) ∧
    (P = 2 * t ∧ t * t = m ∨ P = 2 * t + 1) ∧ F64.sqrt (.fin false n) = ofQuot false P 2 := by
  have hs := isqrt_spec (m.log2 + 1) m (root_fuel m)
  simp only [F64.sqrt]
  rw [if_neg hn, hm]
  generalize isqrt (m.log2 + 1) m = t at hs ⊢
  refine ⟨t, 2 * t + (if t * t = m then 0 else 1), hs.1, hs.2, ?_, rfl⟩
  by_cases h : t * t = m
  · left; exact ⟨by rw [if_pos h, Nat.add_zero], h⟩
  · right; rw [if_neg h]

theorem root_large {t m : Nat} (h1 : 2 ^ 1074 ≤ m) (h2 : m < (t + 1) * (t + 1)) : 2 ^ 54 ≤ t := by
  refine Nat.le_of_not_lt (fun h => ?_)
  have a : (t + 1) * (t + 1) ≤ 2 ^ 54 * 2 ^ 54 := Nat.mul_le_mul h h
  have b : (2 : Nat) ^ 54 * 2 ^ 54 ≤ 2 ^ 1074 := by rw [← Nat.pow_add]; exact Nat.pow_le_pow_right (by decide) (by decide)
  exact Nat.lt_irrefl _ (Nat.lt_of_lt_of_le h2 (Nat.le_trans a (Nat.le_trans b h1)))

theorem root_bounded {t m : Nat} (h1 : m < 2 ^ 2098 * 2 ^ 1074) (h2 : t * t ≤ m) : t < 2 ^ 1586 := by
  refine Nat.lt_of_not_le (fun h => ?_)
  have a : 2 ^ 1586 * 2 ^ 1586 ≤ t * t := Nat.mul_le_mul h h
  rw [← Nat.pow_add] at a h1
  exact Nat.lt_irrefl _ (Nat.lt_of_lt_of_le h1 (Nat.le_trans a h2))

theorem small_root {A B t P : Nat} (h : B ≤ A) (ht : t < B) (hP : P ≤ 2 * t + 1) : P < (2 ^ 54 - 1) * A * 2 := by omega

/-- `math.Sqrt` of a positive number is the correctly rounded root. -/
theorem sqrt_rounds {n : Nat} {x : Rat} (hn : n ≠ 0) (hx : number (.fin false n) = some x) (hlt : n < 2 ^ 2098) :
    ∃ r, number (F64.sqrt (.fin false n)) = some r ∧ RoundsRoot x r := by
  have hxu := number_units hx
  obtain ⟨m, hm⟩ : ∃ m, n * 2 ^ 1074 = m := ⟨_, rfl⟩
  obtain ⟨t, P, ht1, ht2, hPc, hsq⟩ := sqrt_form hn hm
  have htb : 2 ^ 54 ≤ t := root_large (by rw [← hm]; exact Nat.le_mul_of_pos_left _ (Nat.pos_of_ne_zero hn)) ht2
  have htt : t < 2 ^ 1586 := root_bounded (by rw [← hm]; exact Nat.mul_lt_mul_of_pos_right hlt (Nat.pow_pos (by decide))) ht1
  have hP : 2 * t ≤ P ∧ P ≤ 2 * t + 1 ∧ (P = 2 * t ∧ t * t = m ∨ P = 2 * t + 1) := by
    refine ⟨?_, ?_, hPc⟩
    · rcases hPc with ⟨h, _⟩ | h <;> rw [h]
      · exact Nat.le_refl _
      · exact Nat.le_succ _
    · rcases hPc with ⟨h, _⟩ | h <;> rw [h]
      · exact Nat.le_succ _
      · exact Nat.le_refl _
  have hsmall : rnd P 2 < 2 ^ 2098 := by
    rw [rnd_lt P (by decide)]
    have h1 : (2 : Nat) ^ 1586 ≤ 2 ^ 2044 := Nat.pow_le_pow_right (by decide) (by decide)
    exact small_root h1 htt hP.2.1
  have hfin : F64.sqrt (.fin false n) = .fin false (rnd P 2) := by
    rw [hsq]
    rcases ofQuot_cases false P 2 with ⟨_, h⟩ | ⟨h, _⟩
    · exact h
    · exact absurd hsmall h
  obtain ⟨hbelow, habove⟩ := root_sides P t htb hP.1 hP.2.1
  have hR := rnd_near P (q := 2) (by decide)
  refine ⟨_, by rw [hfin]; exact number_fin _ _, ?_⟩
  have hr := number_units (number_fin false (rnd P 2))
  generalize ((signed false (rnd P 2) : Int) : Rat) / 2 ^ 1074 = r at hr ⊢
  have hR0 : signed false (rnd P 2) = ((rnd P 2 : Nat) : Int) := rfl
  rw [hR0] at hr
  generalize hRR : rnd P 2 = R at *
  have hdbl : IsF64 r := isF64_of hr hR.double (by rw [Int.natAbs_natCast]; exact hsmall)
  clear hsmall htt hlt hsq hfin
  have hU := unit_pos
  have hUU : (0 : Rat) < 4 * (2 ^ 1074 * 2 ^ 1074) := Rat.mul_pos (by decide) (Rat.mul_pos hU hU)
  -- the number under the root in squared units
  have hxm : x * (4 * (2 ^ 1074 * 2 ^ 1074)) = ((4 * (m : Int) : Int) : Rat) := by
    have e1 : ((m : Nat) : Rat) = (n : Rat) * 2 ^ 1074 := by
      rw [← hm]
      generalize 1074 = j
      push_cast; rfl
    have e2 : x * 2 ^ 1074 = (n : Rat) := hxu
    push_cast
    rw [e1, ← e2]
    generalize (2 : Rat) ^ 1074 = U
    grind
  have hmid : ∀ (y : Rat) (Y : Int), y * 2 ^ 1074 = Y →
      ((r + y) / 2) * ((r + y) / 2) * (4 * (2 ^ 1074 * 2 ^ 1074)) = ((((R : Int) + Y) * ((R : Int) + Y) : Int) : Rat) := by
    intro y Y hy
    push_cast
    have hr' : r * 2 ^ 1074 = (R : Rat) := hr
    rw [← hr', ← hy]
    generalize (2 : Rat) ^ 1074 = U
    grind
  have hlt' : ∀ (y : Rat) (Y : Int), y * 2 ^ 1074 = Y → (y < r → Y < R) ∧ (r < y → (R : Int) < Y) ∧ (0 ≤ y → 0 ≤ Y) := by
    intro y Y hy
    refine ⟨fun h => ?_, fun h => ?_, fun h => ?_⟩
    · have := (Rat.mul_lt_mul_right hU).2 h
      rw [hy, hr] at this; exact_mod_cast this
    · have := (Rat.mul_lt_mul_right hU).2 h
      rw [hy, hr] at this; exact_mod_cast this
    · have := Rat.mul_nonneg h (Rat.le_of_lt hU)
      rw [hy] at this; exact_mod_cast this
  refine ⟨hdbl, ?_, fun y hy h0 hyr => ?_, fun y hy hyr => ?_⟩
  · refine Rat.not_lt.1 (fun h => ?_)
    have := (Rat.mul_lt_mul_right hU).2 h
    rw [hr, Rat.zero_mul] at this
    have h2 : (R : Int) < 0 := by exact_mod_cast this
    omega
  · obtain ⟨Y, y1, y2⟩ := isF64_units hy
    obtain ⟨g1, g2, g3⟩ := hlt' y Y y1
    have hs := hbelow Y y2 (g1 hyr)
    have hY0 := g3 h0
    refine Rat.le_of_mul_le_mul_right (c := 4 * (2 ^ 1074 * 2 ^ 1074)) ?_ hUU
    rw [hmid y Y y1, hxm]
    have h1 : ((R : Int) + Y) * ((R : Int) + Y) ≤ (2 * (t : Int)) * (2 * (t : Int)) :=
      Int.mul_le_mul hs hs (by omega) (by omega)
    have h2 : (t : Int) * t ≤ m := by exact_mod_cast ht1
    have h3 : ((R : Int) + Y) * ((R : Int) + Y) ≤ 4 * (m : Int) := by
      have : (2 * (t : Int)) * (2 * (t : Int)) = 4 * ((t : Int) * t) := by grind
      omega
    exact_mod_cast h3
  · obtain ⟨Y, y1, y2⟩ := isF64_units hy
    obtain ⟨g1, g2, g3⟩ := hlt' y Y y1
    have hs := habove Y y2 (g2 hyr)
    refine Rat.le_of_mul_le_mul_right (c := 4 * (2 ^ 1074 * 2 ^ 1074)) ?_ hUU
    rw [hmid y Y y1, hxm]
    have h3 : 4 * (m : Int) ≤ ((R : Int) + Y) * ((R : Int) + Y) := by
      rcases hP.2.2 with ⟨hp, he⟩ | hp
      · have h1 : (2 * (t : Int)) * (2 * (t : Int)) ≤ ((R : Int) + Y) * ((R : Int) + Y) :=
          Int.mul_le_mul (by omega) (by omega) (by omega) (by omega)
        have h2 : (t : Int) * t = m := by exact_mod_cast he
        have : (2 * (t : Int)) * (2 * (t : Int)) = 4 * ((t : Int) * t) := by grind
        omega
      · have h1 : (2 * (t : Int) + 2) * (2 * (t : Int) + 2) ≤ ((R : Int) + Y) * ((R : Int) + Y) :=
          Int.mul_le_mul (by omega) (by omega) (by omega) (by omega)
        have h2 : (m : Int) < ((t : Int) + 1) * (t + 1) := by exact_mod_cast ht2
        have : (2 * (t : Int) + 2) * (2 * (t : Int) + 2) = 4 * (((t : Int) + 1) * (t + 1)) := by grind
        omega
    exact_mod_cast h3

end Verif.Calib.Props
