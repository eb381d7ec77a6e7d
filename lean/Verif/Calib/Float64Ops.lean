import Verif.Calib.Float64Props

/-! # C87: the operations of `float64` are correctly rounded, and the result is determined by that -/

namespace Verif.Calib.Props
open Verif.Go Spec F64

seal F64.ofQuot

theorem int_nat (n : Nat) : ((n : Int) : Rat) = (n : Rat) := rfl

theorem unit_ne : (2 : Rat) ^ 1074 ≠ 0 := fun e => by have := unit_pos; grind

theorem signed_add_same (s : Bool) (a b : Nat) : signed s (a + b) = signed s a + signed s b := by
  cases s <;> simp [signed] <;> omega

theorem signed_mul (s t : Bool) (a b : Nat) : signed (s != t) (a * b) = signed s a * signed t b := by
  cases s <;> cases t <;> simp [signed] <;> grind

theorem signed_cast_mul (s t : Bool) (a b : Nat) : ((signed (s != t) (a * b) : Int) : Rat) = (signed s a : Rat) * (signed t b : Rat) := by
  rw [signed_mul, Rat.intCast_mul]

theorem rnd_zero (q : Nat) : rnd 0 q = 0 := by simp [rnd]

theorem ofQuot_zero (s : Bool) (q : Nat) : ofQuot s 0 q = .fin s 0 := by
  rcases ofQuot_cases s 0 q with h
  generalize ofQuot s 0 q = z at h ⊢
  generalize hT : (2 : Nat) ^ 2098 = T at h
  have hT0 : 0 < T := by rw [← hT]; exact Nat.pow_pos (by decide)
  rw [rnd_zero] at h
  rcases h with ⟨_, rfl⟩ | ⟨h, _⟩
  · rfl
  · exact absurd hT0 h

/-- The sum of two finite numbers is the exact sum, rounded. -/
theorem add_rounds {s t : Bool} {a b : Nat} {x y : Rat} (hx : number (.fin s a) = some x) (hy : number (.fin t b) = some y) :
    Rounds (x + y) (add (.fin s a) (.fin t b)) := by
  have h1 := number_units hx
  have h2 := number_units hy
  have key : (x + y) * (((1 : Nat) : Rat) * 2 ^ 1074) = ((signed s a + signed t b : Int) : Rat) := by
    push_cast
    rw [← h1, ← h2]; grind
  by_cases hst : s = t
  · subst hst
    have : add (.fin s a) (.fin s b) = ofQuot s (a + b) 1 := by simp [add]
    rw [this]
    exact ofQuot_rounds s (a + b) (by decide) (by rw [key, signed_add_same])
  · rcases Nat.lt_trichotomy a b with h | h | h
    · have : add (.fin s a) (.fin t b) = ofQuot t (b - a) 1 := by
        unfold add; simp only [hst, if_false]; rw [if_neg (by omega), if_pos h]
      rw [this]
      refine ofQuot_rounds t (b - a) (by decide) ?_
      rw [key]; congr 1
      cases s <;> cases t <;> simp [signed] at hst ⊢ <;> omega
    · subst h
      have : add (.fin s a) (.fin t a) = ofQuot false 0 1 := by
        rw [ofQuot_zero]; unfold add; simp [hst]
      rw [this]
      refine ofQuot_rounds false 0 (by decide) ?_
      rw [key]; congr 1
      cases s <;> cases t <;> simp [signed] at hst ⊢ <;> omega
    · have : add (.fin s a) (.fin t b) = ofQuot s (a - b) 1 := by
        unfold add; simp only [hst, if_false]; rw [if_pos h]
      rw [this]
      refine ofQuot_rounds s (a - b) (by decide) ?_
      rw [key]; congr 1
      cases s <;> cases t <;> simp [signed] at hst ⊢ <;> omega

theorem number_neg {x : F64} {v : Rat} (h : number x = some v) : number (neg x) = some (-v) := by
  cases x with
  | nan => cases h
  | inf s => cases h
  | fin s n =>
    simp only [neg, number] at h ⊢
    injection h with h
    rw [← h]; cases s <;> simp <;> grind

theorem sub_rounds {s t : Bool} {a b : Nat} {x y : Rat} (hx : number (.fin s a) = some x) (hy : number (.fin t b) = some y) :
    Rounds (x - y) (sub (.fin s a) (.fin t b)) := by
  rw [show x - y = x + -y by grind]
  exact add_rounds hx (number_neg hy)

/-- The product of two finite numbers is the exact product, rounded. -/
theorem mul_rounds {s t : Bool} {a b : Nat} {x y : Rat} (hx : number (.fin s a) = some x) (hy : number (.fin t b) = some y) :
    Rounds (x * y) (mul (.fin s a) (.fin t b)) := by
  have h1 := number_units hx
  have h2 := number_units hy
  refine ofQuot_rounds (s != t) (a * b) (q := 2 ^ 1074) (Nat.pow_pos (by decide)) ?_
  rw [signed_cast_mul, ← h1, ← h2]
  have : (((2 : Nat) ^ 1074 : Nat) : Rat) = 2 ^ 1074 := by rw [Rat.natCast_pow]; rfl
  rw [this]
  generalize (2 : Rat) ^ 1074 = U
  grind

/-- The quotient of two finite numbers, the second not zero, is the exact quotient, rounded. -/
theorem div_rounds {s t : Bool} {a b : Nat} {x y : Rat} (hx : number (.fin s a) = some x) (hy : number (.fin t b) = some y)
    (hb : y ≠ 0) : Rounds (x / y) (div (.fin s a) (.fin t b)) := by
  have h1 := number_units hx
  have h2 := number_units hy
  have hb0 : b ≠ 0 := by
    rintro rfl
    apply hb
    have : number (.fin t 0) = some 0 := by cases t <;> simp [number] <;> grind
    rw [this] at hy; injection hy with hy; exact hy.symm
  have hd : div (.fin s a) (.fin t b) = ofQuot (s != t) (a * 2 ^ 1074) b := by
    simp only [div]; rw [if_neg hb0]
  rw [hd]
  refine ofQuot_rounds (s != t) (a * 2 ^ 1074) (by omega) ?_
  have hU : (((2 : Nat) ^ 1074 : Nat) : Rat) = 2 ^ 1074 := by rw [Rat.natCast_pow]; rfl
  have e1 : ((signed (s != t) (a * 2 ^ 1074) : Int) : Rat) = (signed s a : Rat) * ((if t then -1 else 1) * 2 ^ 1074) := by
    rw [← hU]
    generalize (2 : Nat) ^ 1074 = u
    cases s <;> cases t <;> simp [signed, Rat.intCast_neg, Rat.intCast_mul, int_nat] <;> grind
  have e2 : ((b : Nat) : Rat) = (signed t b : Rat) * (if t then -1 else 1) := by
    cases t <;> simp [signed, Rat.intCast_neg, int_nat] <;> grind
  rw [e1, e2, ← h1, ← h2]
  generalize (2 : Rat) ^ 1074 = U
  have : x / y * y = x := Rat.div_mul_cancel hb
  grind

/-! ### The standard determines the result -/

theorem odd_pow {m n : Int} {k l : Nat} (h : (2 * m + 1) * 2 ^ k = n * 2 ^ l) : l ≤ k := by
  rcases Nat.lt_or_ge k l with hl | hl
  · exfalso
    obtain ⟨j, rfl⟩ : ∃ j, l = k + 1 + j := ⟨l - (k + 1), by omega⟩
    rw [Int.pow_add, Int.pow_succ] at h
    have hp : (2 : Int) ^ k ≠ 0 := Int.pow_ne_zero (by decide)
    have : (2 * m + 1) * 2 ^ k = (2 * (n * 2 ^ j)) * 2 ^ k := by rw [h]; grind
    have := Int.eq_of_mul_eq_mul_right hp this
    omega
  · exact hl

theorem nearest_unique {x r r' : Rat} (h : NearestF64 x r) (h' : NearestF64 x r') : r = r' := by
  by_cases hne : r = r'
  · exact hne
  · exfalso
    have he : (r - x).abs = (r' - x).abs := Rat.le_antisymm (h.near r' h'.double) (h'.near r h.double)
    obtain ⟨m, k, a1, a2⟩ := h.even r' h'.double he (fun e => hne e.symm)
    obtain ⟨n, l, b1, b2⟩ := h'.even r h.double he.symm hne
    have c : ∀ (i : Int) (j : Nat), ((i : Rat) * 2 ^ j) = ((i * 2 ^ j : Int) : Rat) := fun i j => (cast_mul_pow i j).symm
    have d1 : ∃ m' : Int, (2 * m' + 1) * 2 ^ k = (2 * n) * 2 ^ l := by
      rcases a2 with a2 | a2
      · refine ⟨m, ?_⟩
        have : (((2 * m + 1) * 2 ^ k : Int) : Rat) = ((2 * n * 2 ^ l : Int) : Rat) := by
          push_cast; rw [← a2, ← b1]
        exact_mod_cast this
      · refine ⟨m - 1, ?_⟩
        have : (((2 * (m - 1) + 1) * 2 ^ k : Int) : Rat) = ((2 * n * 2 ^ l : Int) : Rat) := by
          rw [show (2 * (m - 1) + 1) = 2 * m - 1 by omega]
          push_cast; rw [← a2, ← b1]
        exact_mod_cast this
    have d2 : ∃ n' : Int, (2 * n' + 1) * 2 ^ l = (2 * m) * 2 ^ k := by
      rcases b2 with b2 | b2
      · refine ⟨n, ?_⟩
        have : (((2 * n + 1) * 2 ^ l : Int) : Rat) = ((2 * m * 2 ^ k : Int) : Rat) := by
          push_cast; rw [← b2, ← a1]
        exact_mod_cast this
      · refine ⟨n - 1, ?_⟩
        have : (((2 * (n - 1) + 1) * 2 ^ l : Int) : Rat) = ((2 * m * 2 ^ k : Int) : Rat) := by
          rw [show (2 * (n - 1) + 1) = 2 * n - 1 by omega]
          push_cast; rw [← b2, ← a1]
        exact_mod_cast this
    obtain ⟨m', d1⟩ := d1
    obtain ⟨n', d2⟩ := d2
    have f1 : l + 1 ≤ k := odd_pow (m := m') (n := n) (by rw [d1, Int.pow_succ]; grind)
    have f2 : k + 1 ≤ l := odd_pow (m := n') (n := m) (by rw [d2, Int.pow_succ]; grind)
    omega

/-- Two results that the standard allows for the same exact number are equal, except that a zero may have either sign
if the exact result is zero. -/
theorem rounds_unique {x : Rat} {r r' : F64} (hx : x ≠ 0) (h : Rounds x r) (h' : Rounds x r') : r = r' := by
  have hsgn : x < 0 ∨ 0 < x := by grind
  cases r with
  | nan => exact h.elim
  | inf s =>
    cases r' with
    | nan => exact h'.elim
    | inf t =>
      congr 1
      cases s <;> cases t <;> grind [Rounds]
    | fin t n =>
      exfalso
      have a := h.1
      have b := h'.1
      grind
  | fin s m =>
    cases r' with
    | nan => exact h'.elim
    | inf t =>
      exfalso
      have a := h.1
      have b := h'.1
      grind
    | fin t n =>
      obtain ⟨_, ⟨v, v1, v2⟩, v3, v4⟩ := h
      obtain ⟨_, ⟨w, w1, w2⟩, w3, w4⟩ := h'
      have hst : s = t := by
        rcases hsgn with g | g
        · rw [v3 g, w3 g]
        · rw [v4 g, w4 g]
      subst hst
      have hvw := nearest_unique v2 w2
      subst hvw
      have e1 := number_units v1
      have e2 := number_units w1
      rw [e1] at e2
      have e3 : signed s m = signed s n := by exact_mod_cast e2
      have : m = n := by rw [← signed_abs s m, e3, signed_abs]
      rw [this]

/-- A number that a `float64` can have is not changed by rounding. -/
theorem rounds_exact {x : Rat} {r : F64} (h : Rounds x r) (hx : IsF64 x) : number r = some x := by
  have hself : (x - x).abs = 0 := by rw [show x - x = 0 by grind]; exact Rat.abs_zero
  cases r with
  | nan => exact h.elim
  | inf s =>
    exfalso
    have h1 := h.1
    obtain ⟨m, k, a, b, c⟩ := hx
    have hab := abs_cast unit_pos (A := m * 2 ^ k) (by rw [c, cast_mul_pow])
    rw [Int.natAbs_mul, Int.natAbs_pow] at hab
    have h2 := Rat.mul_le_mul_of_nonneg_right h1 (Rat.le_of_lt unit_pos)
    rw [hab] at h2
    have e1 : overflow * 2 ^ 1074 = (((2 ^ 54 - 1) * 2 ^ 2044 : Nat) : Rat) := by
      have : (2 : Rat) ^ 970 * 2 ^ 1074 = 2 ^ 2044 := by rw [← rat_pow_add]
      unfold overflow
      push_cast
      rw [← this]
      generalize (2 : Rat) ^ 970 = A
      generalize (2 : Rat) ^ 1074 = B
      grind
    rw [e1] at h2
    have h3 : (2 ^ 54 - 1) * 2 ^ 2044 ≤ m.natAbs * Int.natAbs 2 ^ k := by exact_mod_cast h2
    have h4 : m.natAbs * Int.natAbs 2 ^ k ≤ (2 ^ 53 - 1) * 2 ^ 2045 :=
      Nat.mul_le_mul (by omega) (Nat.pow_le_pow_right (by decide) b)
    have h5 : (2 : Nat) ^ 2045 = 2 * 2 ^ 2044 := by rw [← Nat.pow_succ']
    have hU : 0 < (2 : Nat) ^ 2044 := Nat.pow_pos (by decide)
    rw [h5] at h4
    generalize (2 : Nat) ^ 2044 = U at *
    omega
  | fin s n =>
    obtain ⟨_, ⟨v, v1, v2⟩, _, _⟩ := h
    rw [v1]; congr 1
    refine nearest_unique v2 ⟨hx, fun y _ => ?_, fun y _ he hne => ?_⟩
    · rw [hself]; exact Rat.abs_nonneg
    · exfalso
      rw [hself] at he
      apply hne
      rcases (Rat.le_total : 0 ≤ y - x ∨ y - x ≤ 0) with g | g
      · rw [Rat.abs_of_nonneg g] at he; grind
      · rw [Rat.abs_of_nonpos g] at he; grind

end Verif.Calib.Props
