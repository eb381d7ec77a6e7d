import Verif.Calib.Float64Claims

/-!
C119: LINEAR keeps the order of the values, in spite of its two roundings. Rounding to the nearest `float64` never turns two numbers round;
so neither the product nor the sum does, also if one of them is too large for a `float64`.
-/

namespace Verif.Calib.Mono
open Verif.Go Verif.Calib Verif.Calib.Spec Verif.Calib.Props F64

seal F64.ofQuot

/-- The order of `float64` values; what is not a number is not ordered. -/
def Le (x y : F64) : Prop :=
  x ≠ .nan ∧ y ≠ .nan ∧ (x = .inf true ∨ y = .inf false ∨ ∃ X Y, number x = some X ∧ number y = some Y ∧ X ≤ Y)

theorem abs_cases (x : Rat) : 0 ≤ x ∧ x.abs = x ∨ x ≤ 0 ∧ x.abs = -x := by
  rcases Rat.le_total (a := 0) (b := x) with h | h
  · exact .inl ⟨h, Rat.abs_of_nonneg h⟩
  · exact .inr ⟨h, Rat.abs_of_nonpos h⟩

theorem nearest_mono {x y r s : Rat} (hxy : x ≤ y) (hr : NearestF64 x r) (hs : NearestF64 y s) : r ≤ s := by
  apply Classical.byContradiction
  intro hlt
  have h1 := hr.near s hs.double
  have h2 := hs.near r hr.double
  have hxe : x = y := by
    rcases abs_cases (r - x) with ⟨a1, a2⟩ | ⟨a1, a2⟩ <;> rcases abs_cases (s - x) with ⟨b1, b2⟩ | ⟨b1, b2⟩ <;>
    rcases abs_cases (s - y) with ⟨c1, c2⟩ | ⟨c1, c2⟩ <;> rcases abs_cases (r - y) with ⟨d1, d2⟩ | ⟨d1, d2⟩ <;>
    rw [a2, b2] at h1 <;> rw [c2, d2] at h2 <;> grind
  subst hxe
  have := nearest_unique hr hs
  grind

/-- Rounding keeps the order, also where a result is infinite. -/
theorem rounds_mono {x y : Rat} {r s : F64} (hxy : x ≤ y) (hr : Rounds x r) (hs : Rounds y s) : Le r s := by
  have ho : (0 : Rat) < overflow := by decide +kernel
  generalize hov : overflow = V at ho
  cases r with
  | nan => exact hr.elim
  | inf a =>
    cases s with
    | nan => exact hs.elim
    | inf b =>
      refine ⟨by simp, by simp, ?_⟩
      obtain ⟨h1, h2⟩ := hr
      obtain ⟨h3, h4⟩ := hs
      cases a with
      | true => exact .inl rfl
      | false =>
        cases b with
        | false => exact .inr (.inl rfl)
        | true =>
          have := h4.1 rfl
          have : ¬ x < 0 := fun h => by cases h2.2 h
          grind
    | fin b m =>
      refine ⟨by simp, by simp, ?_⟩
      obtain ⟨h1, h2⟩ := hr
      obtain ⟨h3, _⟩ := hs
      cases a with
      | true => exact .inl rfl
      | false =>
        have : ¬ x < 0 := fun h => by cases h2.2 h
        rw [hov] at h1 h3
        rcases abs_cases x with ⟨a1, a2⟩ | ⟨a1, a2⟩ <;> rcases abs_cases y with ⟨b1, b2⟩ | ⟨b1, b2⟩ <;>
          rw [a2] at h1 <;> rw [b2] at h3 <;> grind
  | fin a n =>
    cases s with
    | nan => exact hs.elim
    | inf b =>
      refine ⟨by simp, by simp, ?_⟩
      obtain ⟨h1, _⟩ := hr
      obtain ⟨h3, h4⟩ := hs
      cases b with
      | false => exact .inr (.inl rfl)
      | true =>
        have := h4.1 rfl
        rw [hov] at h1 h3
        rcases abs_cases x with ⟨a1, a2⟩ | ⟨a1, a2⟩ <;> rcases abs_cases y with ⟨b1, b2⟩ | ⟨b1, b2⟩ <;>
          rw [a2] at h1 <;> rw [b2] at h3 <;> grind
    | fin b m =>
      obtain ⟨_, ⟨X, hX, hnX⟩, _⟩ := hr
      obtain ⟨_, ⟨Y, hY, hnY⟩, _⟩ := hs
      exact ⟨by simp, by simp, .inr (.inr ⟨X, Y, hX, hY, nearest_mono hxy hnX hnY⟩)⟩

/-- Adding a number keeps the order. -/
theorem sum_mono {u u' r r' : F64} {B : Rat} (h : Le u u') (h1 : ∀ U, number u = some U → Rounds (U + B) r) (h2 : ∀ s, u = .inf s → r = .inf s)
    (h1' : ∀ U, number u' = some U → Rounds (U + B) r') (h2' : ∀ s, u' = .inf s → r' = .inf s) : Le r r' := by
  have hnn : ∀ {v q : F64}, v ≠ .nan → (∀ U, number v = some U → Rounds (U + B) q) → (∀ s, v = .inf s → q = .inf s) → q ≠ .nan := by
    intro v q hv a1 a2 hq
    subst hq
    cases v with
    | nan => exact hv rfl
    | inf s => cases a2 s rfl
    | fin s n => exact a1 _ rfl
  refine ⟨hnn h.1 h1 h2, hnn h.2.1 h1' h2', ?_⟩
  rcases h.2.2 with hu | hu | ⟨U, V, hU, hV, hle⟩
  · exact .inl (h2 _ hu)
  · exact .inr (.inl (h2' _ hu))
  · exact (rounds_mono (by grind) (h1 U hU) (h1' V hV)).2.2

/-- C119: with a factor that is not negative LINEAR keeps the order of the raw values. -/
theorem C119_rising (found : Option Tab64) (cm : Method64) {a b x y : F64} {A B X Y : Rat}
    (ht : cm.conversionType = .linear) (ha : cm.linA = some a) (hb : cm.linB = some b)
    (hA : number a = some A) (hB : number b = some B) (hX : number x = some X) (hY : number y = some Y) (h0 : 0 ≤ A) (hxy : X ≤ Y) :
    ∃ r s, convDecToPhy64 found x cm = .ok r ∧ convDecToPhy64 found y cm = .ok s ∧ Le r s := by
  obtain ⟨u, r, hr, hu, h1, h2⟩ := C87_linear_partial found cm ht ha hb hA hB hX
  obtain ⟨v, s, hs, hv, h3, h4⟩ := C87_linear_partial found cm ht ha hb hA hB hY
  exact ⟨r, s, hr, hs, sum_mono (rounds_mono (Rat.mul_le_mul_of_nonneg_left hxy h0) hu hv) h1 h2 h3 h4⟩

/-- C119: with a factor that is not positive it turns the order round. -/
theorem C119_falling (found : Option Tab64) (cm : Method64) {a b x y : F64} {A B X Y : Rat}
    (ht : cm.conversionType = .linear) (ha : cm.linA = some a) (hb : cm.linB = some b)
    (hA : number a = some A) (hB : number b = some B) (hX : number x = some X) (hY : number y = some Y) (h0 : A ≤ 0) (hxy : X ≤ Y) :
    ∃ r s, convDecToPhy64 found x cm = .ok r ∧ convDecToPhy64 found y cm = .ok s ∧ Le s r := by
  obtain ⟨u, r, hr, hu, h1, h2⟩ := C87_linear_partial found cm ht ha hb hA hB hX
  obtain ⟨v, s, hs, hv, h3, h4⟩ := C87_linear_partial found cm ht ha hb hA hB hY
  have hle : A * Y ≤ A * X := by
    have := Rat.mul_le_mul_of_nonneg_left hxy (c := -A) (by grind)
    grind
  exact ⟨r, s, hr, hs, sum_mono (rounds_mono hle hv hu) h3 h4 h1 h2⟩

theorem ofInt_rounds (i : Int) : Rounds (i : Rat) (ofInt i) := by
  unfold ofInt
  refine ofQuot_rounds (decide (i < 0)) (i.natAbs * 2 ^ 1074) (q := 1) (by decide) ?_
  have hi : signed (decide (i < 0)) (i.natAbs * 2 ^ 1074) = i * 2 ^ 1074 := by
    unfold signed
    by_cases h : i < 0
    · have : (i.natAbs : Int) = -i := by omega
      simp only [h, decide_true, if_true, Int.natCast_mul, this, Int.natCast_pow]
      generalize ((2 : Nat) : Int) ^ 1074 = U
      grind
    · have : (i.natAbs : Int) = i := by omega
      simp only [h, decide_false, Bool.false_eq_true, if_false, Int.natCast_mul, this, Int.natCast_pow]
      generalize ((2 : Nat) : Int) ^ 1074 = U
      rfl
  rw [hi, cast_mul_pow]
  generalize (2 : Rat) ^ 1074 = U
  grind

theorem ofInt_finite {i : Int} (h : i.natAbs ≤ 2 ^ 64) : ∃ X, number (ofInt i) = some X := by
  have hr := ofInt_rounds i
  cases hi : ofInt i with
  | nan => rw [hi] at hr; exact hr.elim
  | fin s n => exact ⟨_, rfl⟩
  | inf s =>
    rw [hi] at hr
    exfalso
    have h1 : overflow ≤ (i : Rat).abs := hr.1
    have h2 : (i : Rat).abs ≤ ((2 ^ 64 : Int) : Rat) := by
      rcases abs_cases (i : Rat) with ⟨_, e⟩ | ⟨_, e⟩
      · rw [e]; exact Rat.intCast_le_intCast.2 (by omega)
      · rw [e, ← Rat.intCast_neg]; exact Rat.intCast_le_intCast.2 (by omega)
    have h3 := Rat.le_trans h1 h2
    revert h3
    decide +kernel

/-- C119 for the integers that a characteristic can hold, rounded to `float64` before they are converted. -/
theorem C119_integers (found : Option Tab64) (cm : Method64) {a b : F64} {A B : Rat} {i j : Int}
    (ht : cm.conversionType = .linear) (ha : cm.linA = some a) (hb : cm.linB = some b) (hA : number a = some A) (hB : number b = some B)
    (hi : i.natAbs ≤ 2 ^ 64) (hj : j.natAbs ≤ 2 ^ 64) (h0 : 0 ≤ A) (hij : i ≤ j) :
    ∃ r s, convDecToPhy64 found (ofInt i) cm = .ok r ∧ convDecToPhy64 found (ofInt j) cm = .ok s ∧ Le r s := by
  obtain ⟨X, hX⟩ := ofInt_finite hi
  obtain ⟨Y, hY⟩ := ofInt_finite hj
  refine C119_rising found cm ht ha hb hA hB hX hY h0 ?_
  rcases (rounds_mono (Rat.intCast_le_intCast.2 hij) (ofInt_rounds i) (ofInt_rounds j)).2.2 with h | h | ⟨U, V, hU, hV, h⟩
  · rw [h] at hX; cases hX
  · rw [h] at hY; cases hY
  · rw [hX] at hU; rw [hY] at hV
    cases hU; cases hV
    exact h

/-- a = 0.1, b = -40, as `float64`. -/
def tenth : Method64 := { conversionType := .linear, linA := some (ofBits 0x3fb999999999999a), linB := some (ofBits 0xc044000000000000) }

-- a method whose factor, products and sums have to be rounded
example : ∃ r s, convDecToPhy64 none (ofInt 3) tenth = .ok r ∧ convDecToPhy64 none (ofInt 4) tenth = .ok s ∧ Le r s :=
  C119_rising none tenth (a := ofBits 0x3fb999999999999a) (b := ofBits 0xc044000000000000) (A := 3602879701896397 / 2 ^ 55) (B := -40)
    (X := 3) (Y := 4) rfl rfl rfl (by decide +kernel) (by decide +kernel) (by decide +kernel) (by decide +kernel) (by decide +kernel) (by decide +kernel)

-- two large integers, the first of which has to be rounded up to the second
example : ∃ r s, convDecToPhy64 none (ofInt (2 ^ 64 - 1)) tenth = .ok r ∧ convDecToPhy64 none (ofInt (2 ^ 64)) tenth = .ok s ∧ Le r s :=
  C119_integers none tenth (a := ofBits 0x3fb999999999999a) (b := ofBits 0xc044000000000000) (A := 3602879701896397 / 2 ^ 55) (B := -40)
    rfl rfl rfl (by decide +kernel) (by decide +kernel) (by decide) (by decide) (by decide +kernel) (by decide)

-- a product that is too large: the greater value is infinite
example : ∃ r s, convDecToPhy64 none (ofInt 1) { conversionType := .linear, linA := some (ofBits 0xffe0000000000000), linB := some (ofInt 1) } = .ok r ∧
    convDecToPhy64 none (ofInt 2) { conversionType := .linear, linA := some (ofBits 0xffe0000000000000), linB := some (ofInt 1) } = .ok s ∧ Le s r :=
  C119_falling none _ (a := ofBits 0xffe0000000000000) (b := ofInt 1) (A := -(2 ^ 1023)) (B := 1)
    (X := 1) (Y := 2) rfl rfl rfl (by decide +kernel) (by decide +kernel) (by decide +kernel) (by decide +kernel) (by decide +kernel) (by decide +kernel)

/-- Different raw values can have the same physical value: with b = 2^60 those of 1 and 2 are both 2^60. -/
theorem C119_strict_false : convDecToPhy64 none (ofInt 1) { conversionType := .linear, linA := some (ofInt 1), linB := some (ofInt (2 ^ 60)) } =
    convDecToPhy64 none (ofInt 2) { conversionType := .linear, linA := some (ofInt 1), linB := some (ofInt (2 ^ 60)) } := by
  decide +kernel

/-- C119 where the compiler fuses product and sum. -/
theorem C119_fused {a b x y : F64} {A B X Y : Rat} (hA : number a = some A) (hB : number b = some B) (hX : number x = some X) (hY : number y = some Y)
    (h0 : 0 ≤ A) (hxy : X ≤ Y) : Le (fusedLinear a b x) (fusedLinear a b y) :=
  rounds_mono (by have := Rat.mul_le_mul_of_nonneg_left hxy h0; grind) (C87_fused hA hB hX) (C87_fused hA hB hY)

end Verif.Calib.Mono
