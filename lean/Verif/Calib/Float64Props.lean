import Verif.Calib.Float64
import Verif.Calib.Props5

/-! # C87: conversions in `float64` arithmetic: rounding -/

namespace Verif.Calib.Spec
open Verif.Go

/-- `r` is an integer with at most 53 binary digits (times a power of two) nearest to `p / q`, halves to the even one. -/
structure NearQuot (p q : Int) (r : Int) : Prop where
  double : IsDouble r
  near : ∀ y, IsDouble y → (r * q - p).natAbs ≤ (y * q - p).natAbs
  even : ∀ y, IsDouble y → (r * q - p).natAbs = (y * q - p).natAbs → y ≠ r →
    ∃ (m : Int) (k : Nat), r = 2 * m * 2 ^ k ∧ (y = (2 * m + 1) * 2 ^ k ∨ y = (2 * m - 1) * 2 ^ k)

/-- The numbers that a finite `float64` can have. -/
def IsF64 (y : Rat) : Prop := ∃ (m : Int) (k : Nat), m.natAbs < 2 ^ 53 ∧ k ≤ 2045 ∧ y * 2 ^ 1074 = m * 2 ^ k

/-- `r` is the number of a `float64` nearest to `x`; of two equally near ones it is the one with an even significand. -/
structure NearestF64 (x r : Rat) : Prop where
  double : IsF64 r
  near : ∀ y, IsF64 y → (r - x).abs ≤ (y - x).abs
  even : ∀ y, IsF64 y → (r - x).abs = (y - x).abs → y ≠ r →
    ∃ (m : Int) (k : Nat), r * 2 ^ 1074 = 2 * m * 2 ^ k ∧
      (y * 2 ^ 1074 = (2 * m + 1) * 2 ^ k ∨ y * 2 ^ 1074 = (2 * m - 1) * 2 ^ k)

/-- The number a finite `float64` stands for. -/
def number : F64 → Option Rat
  | .nan => none
  | .inf _ => none
  | .fin s n => some ((if s then -(n : Rat) else n) / 2 ^ 1074)

/-- From this absolute value on (half a step above the largest `float64`) a result is infinite. -/
def overflow : Rat := (2 ^ 54 - 1) * 2 ^ 970

/-- What the standard (IEEE 754, round to nearest) demands of the result of an operation whose exact result is `x`. -/
def Rounds (x : Rat) : F64 → Prop
  | .nan => False
  | .inf s => overflow ≤ x.abs ∧ (s = true ↔ x < 0)
  | .fin s n => x.abs < overflow ∧ (∃ r, number (.fin s n) = some r ∧ NearestF64 x r) ∧
      (x < 0 → s = true) ∧ (0 < x → s = false)

end Verif.Calib.Spec

namespace Verif.Calib.Props
open Verif.Go Spec F64

/-- The cases of `rnd`: quotient and remainder in units of the last kept binary digit. -/
theorem rnd_cases (p : Nat) {q : Nat} (hq : 0 < q) : ∃ k e r, k < 2 ^ 53 ∧ (e = 0 ∨ 2 ^ 52 ≤ k) ∧
    r < q * 2 ^ e ∧ p = k * (q * 2 ^ e) + r ∧
    ((rnd p q = k * 2 ^ e ∧ (2 * r < q * 2 ^ e ∨ 2 * r = q * 2 ^ e ∧ k % 2 = 0)) ∨
      (rnd p q = (k + 1) * 2 ^ e ∧ (q * 2 ^ e < 2 * r ∨ 2 * r = q * 2 ^ e ∧ k % 2 = 1))) := by
  let e := (p / q).log2 + 1 - 53
  have he : e = (p / q).log2 + 1 - 53 := rfl
  have hp : 0 < 2 ^ e := Nat.pow_pos (by decide)
  have hd : 0 < q * 2 ^ e := Nat.mul_pos hq hp
  have hk : p / (q * 2 ^ e) = p / q / 2 ^ e := by rw [Nat.div_div_eq_div_mul]
  have hlt : p / q < 2 ^ ((p / q).log2 + 1) := Nat.lt_log2_self
  refine ⟨p / (q * 2 ^ e), e, p % (q * 2 ^ e), ?_, ?_, Nat.mod_lt _ hd, ?_, ?_⟩
  · rw [hk, Nat.div_lt_iff_lt_mul hp, ← Nat.pow_add]
    exact Nat.lt_of_lt_of_le hlt (Nat.pow_le_pow_right (by decide) (by omega))
  · by_cases h0 : e = 0
    · exact Or.inl h0
    · right
      have hn : p / q ≠ 0 := by
        intro h; rw [h] at he; simp at he; omega
      rw [hk, Nat.le_div_iff_mul_le hp, ← Nat.pow_add]
      exact Nat.le_trans (Nat.pow_le_pow_right (by decide) (by omega)) (Nat.log2_self_le hn)
  · rw [Nat.mul_comm]; exact (Nat.div_add_mod _ _).symm
  · have hr : rnd p q = (if (decide (q * 2 ^ e < 2 * (p % (q * 2 ^ e))) ||
        (decide (2 * (p % (q * 2 ^ e)) = q * 2 ^ e) && decide (p / (q * 2 ^ e) % 2 = 1)))
        then p / (q * 2 ^ e) + 1 else p / (q * 2 ^ e)) * 2 ^ e := rfl
    rw [hr]
    by_cases h1 : q * 2 ^ e < 2 * (p % (q * 2 ^ e))
    · right; simp [h1]
    · by_cases h2 : 2 * (p % (q * 2 ^ e)) = q * 2 ^ e
      · by_cases h3 : p / (q * 2 ^ e) % 2 = 1
        · right; simp [h2, h3]
        · left; refine ⟨by simp [h2, h3], Or.inr ⟨h2, by omega⟩⟩
      · left; refine ⟨by simp [h1, h2], Or.inl (by omega)⟩

theorem rnd_near (p : Nat) {q : Nat} (hq : 0 < q) : NearQuot p q (rnd p q) := by
  obtain ⟨k, e, r, h1, h2, h3, h4, h5⟩ := rnd_cases p hq
  have hs : (k + 1) * 2 ^ e = k * 2 ^ e + 2 ^ e := by rw [Nat.add_mul, Nat.one_mul]
  have hp : 0 < 2 ^ e := Nat.pow_pos (by decide)
  have hb : ∀ y : Int, IsDouble y → y ≤ ((k * 2 ^ e : Nat) : Int) ∨ ((k * 2 ^ e : Nat) : Int) + ((2 ^ e : Nat) : Int) ≤ y := by
    intro y hy
    rcases h2 with rfl | h2
    · simp only [Nat.pow_zero]; omega
    · have := no_double_between h2 (e := e) hy
      rw [hs] at this; omega
  have hq' : (0 : Int) < q := by omega
  -- the same after multiplication with the divisor
  have hkd : ((k * 2 ^ e : Nat) : Int) * q = ((k * (q * 2 ^ e) : Nat) : Int) := by
    push_cast; rw [Int.mul_assoc, Int.mul_comm (2 ^ e) (q : Int)]
  have hd : ((2 ^ e : Nat) : Int) * q = ((q * 2 ^ e : Nat) : Int) := by push_cast; rw [Int.mul_comm]
  have hbq : ∀ y : Int, IsDouble y → y * q ≤ ((k * (q * 2 ^ e) : Nat) : Int) ∨
      ((k * (q * 2 ^ e) : Nat) : Int) + ((q * 2 ^ e : Nat) : Int) ≤ y * q := by
    intro y hy
    rcases hb y hy with h | h
    · left; rw [← hkd]; exact Int.mul_le_mul_of_nonneg_right h (Int.le_of_lt hq')
    · right; rw [← hkd, ← hd, ← Int.add_mul]; exact Int.mul_le_mul_of_nonneg_right h (Int.le_of_lt hq')
  have hinj : ∀ y z : Int, y * q = z * q → y = z := fun y z h => Int.eq_of_mul_eq_mul_right (by omega) h
  have d0 : IsDouble ((k * 2 ^ e : Nat) : Int) := ⟨k, e, by omega, by push_cast; rfl⟩
  have d1 : IsDouble (((k + 1) * 2 ^ e : Nat) : Int) := ⟨(k + 1 : Nat), e, by simp only [Int.natAbs_natCast]; omega, by push_cast; rfl⟩
  have hk1 : (((k + 1) * 2 ^ e : Nat) : Int) * q = ((k * (q * 2 ^ e) : Nat) : Int) + ((q * 2 ^ e : Nat) : Int) := by
    rw [hs, Int.natCast_add, Int.add_mul, hkd, hd]
  have c1 : ((k * 2 ^ e : Nat) : Int) = (k : Int) * 2 ^ e := by push_cast; rfl
  have c2 : (((k + 1) * 2 ^ e : Nat) : Int) = ((k : Int) + 1) * 2 ^ e := by push_cast; rfl
  generalize hD : q * 2 ^ e = D at *
  generalize hK : k * D = K at *
  rcases h5 with ⟨g, hr⟩ | ⟨g, hr⟩
  · rw [g]
    refine ⟨d0, fun y hy => ?_, fun y hy hyd hne => ?_⟩
    · have := hbq y hy; rw [hkd]; omega
    · have h := hbq y hy
      rw [hkd] at hyd
      have hyq : y * q ≠ K := fun h => hne (hinj _ _ (h.trans hkd.symm))
      have : k % 2 = 0 ∧ y * q = (K : Int) + D := by omega
      have hy1 : y = (((k + 1) * 2 ^ e : Nat) : Int) := hinj _ _ (this.2.trans hk1.symm)
      refine ⟨(k / 2 : Nat), e, ?_, Or.inl ?_⟩
      · rw [c1, show 2 * ((k / 2 : Nat) : Int) = k by omega]
      · rw [hy1, c2, show 2 * ((k / 2 : Nat) : Int) = k by omega]
  · rw [g]
    refine ⟨d1, fun y hy => ?_, fun y hy hyd hne => ?_⟩
    · have := hbq y hy; rw [hk1]; omega
    · have h := hbq y hy
      rw [hk1] at hyd
      have hyq : y * q ≠ (K : Int) + D := fun h => hne (hinj _ _ (h.trans hk1.symm))
      have : k % 2 = 1 ∧ y * q = (K : Int) := by omega
      have hy1 : y = ((k * 2 ^ e : Nat) : Int) := hinj _ _ (this.2.trans hkd.symm)
      refine ⟨((k + 1) / 2 : Nat), e, ?_, Or.inr ?_⟩
      · rw [c2, show 2 * (((k + 1) / 2 : Nat) : Int) = k + 1 by omega]
      · rw [hy1, c1, show 2 * (((k + 1) / 2 : Nat) : Int) = k + 1 by omega]; congr 1; omega

/-- When the rounded number is below 2^2098 units, that is 2^1024. -/
theorem rnd_lt (p : Nat) {q : Nat} (hq : 0 < q) : rnd p q < 2 ^ 2098 ↔ p < (2 ^ 54 - 1) * 2 ^ 2044 * q := by
  obtain ⟨k, e, r, h1, h2, h3, h4, h5⟩ := rnd_cases p hq
  have hT : (2 : Nat) ^ 2098 = 2 ^ 54 * 2 ^ 2044 := by rw [← Nat.pow_add]
  have hU : 0 < (2 : Nat) ^ 2044 := Nat.pow_pos (by decide)
  rw [hT]
  generalize hu : (2 : Nat) ^ 2044 = U at *
  have hle : rnd p q ≤ (k + 1) * 2 ^ e := by
    rcases h5 with ⟨g, _⟩ | ⟨g, _⟩ <;> rw [g]
    · exact Nat.mul_le_mul_right _ (by omega)
    · exact Nat.le_refl _
  have hge : k * 2 ^ e ≤ rnd p q := by
    rcases h5 with ⟨g, _⟩ | ⟨g, _⟩ <;> rw [g]
    · exact Nat.le_refl _
    · exact Nat.mul_le_mul_right _ (by omega)
  rcases Nat.lt_trichotomy e 2045 with he | he | he
  · have hE : 2 ^ e ≤ U := by rw [← hu]; exact Nat.pow_le_pow_right (by decide) (by omega)
    have a1 : (k + 1) * 2 ^ e ≤ 2 ^ 53 * U := Nat.mul_le_mul (by omega) hE
    have a2 : p < (2 ^ 54 - 1) * U * q := by
      have : p < (k + 1) * (q * 2 ^ e) := by rw [Nat.add_mul, Nat.one_mul]; omega
      refine Nat.lt_of_lt_of_le this ?_
      rw [Nat.mul_comm q, ← Nat.mul_assoc]
      exact Nat.mul_le_mul_right _ (Nat.le_trans a1 (Nat.mul_le_mul_right _ (by decide)))
    exact ⟨fun _ => a2, fun _ => by omega⟩
  · have hk : 2 ^ 52 ≤ k := by rcases h2 with h | h; omega; exact h
    have hE : 2 ^ e = 2 * U := by rw [he, ← hu, ← Nat.pow_succ']
    rw [hE] at h3 h4 h5
    have hq2 : q * (2 * U) = 2 * (U * q) := by rw [Nat.mul_comm, Nat.mul_assoc]
    rw [hq2] at h3 h4 h5
    have hl : (2 ^ 54 - 1) * U * q = (2 ^ 54 - 1) * (U * q) := Nat.mul_assoc _ _ _
    rw [hl]
    have hV : 0 < U * q := Nat.mul_pos hU hq
    generalize U * q = V at *
    by_cases hkm : k = 2 ^ 53 - 1
    · subst hkm
      rcases h5 with ⟨g, hr⟩ | ⟨g, hr⟩ <;> rw [g] <;> omega
    · have b1 : (k + 1) * (2 * U) ≤ (2 ^ 53 - 1) * (2 * U) := Nat.mul_le_mul_right _ (by omega)
      have b2 : k * (2 * V) ≤ (2 ^ 53 - 2) * (2 * V) := Nat.mul_le_mul_right _ (by omega)
      rw [hE] at hle
      exact ⟨fun _ => by omega, fun _ => by omega⟩
  · have hk : 2 ^ 52 ≤ k := by rcases h2 with h | h; omega; exact h
    have hE : 4 * U ≤ 2 ^ e := by
      rw [← hu, show (4 : Nat) = 2 ^ 2 from rfl, ← Nat.pow_add]; exact Nat.pow_le_pow_right (by decide) (by omega)
    have a1 : 2 ^ 52 * (4 * U) ≤ k * 2 ^ e := Nat.mul_le_mul hk hE
    have a2 : (2 ^ 54 - 1) * U * q ≤ p := by
      have : (2 ^ 54 - 1) * U * q ≤ k * 2 ^ e * q := Nat.mul_le_mul_right _ (by omega)
      have e1 : k * (q * 2 ^ e) = k * 2 ^ e * q := by rw [Nat.mul_comm q, Nat.mul_assoc]
      omega
    exact ⟨fun h => by omega, fun h => by omega⟩


/-! ### From integral numbers of units to rational numbers -/

theorem abs_cast {a D : Rat} {A : Int} (hD : 0 < D) (h : a * D = A) : a.abs * D = (A.natAbs : Rat) := by
  rcases (Rat.le_total : 0 ≤ a ∨ a ≤ 0) with ha | ha
  · rw [Rat.abs_of_nonneg ha, h]
    have : (0 : Rat) ≤ A := by rw [← h]; exact Rat.mul_nonneg ha (Rat.le_of_lt hD)
    have hA : 0 ≤ A := by exact_mod_cast this
    rw [show (A.natAbs : Rat) = ((A.natAbs : Int) : Rat) from rfl, Int.natAbs_of_nonneg hA]
  · rw [Rat.abs_of_nonpos ha, Rat.neg_mul, h]
    have : (0 : Rat) ≤ ((-A : Int) : Rat) := by
      rw [Rat.intCast_neg, ← h, ← Rat.neg_mul]; exact Rat.mul_nonneg (by grind) (Rat.le_of_lt hD)
    have hA : 0 ≤ -A := by exact_mod_cast this
    rw [show (A.natAbs : Rat) = ((A.natAbs : Int) : Rat) from rfl, show (A.natAbs : Int) = -A by omega, Rat.intCast_neg]

theorem abs_le_cast {a b D : Rat} {A B : Int} (hD : 0 < D) (ha : a * D = A) (hb : b * D = B) :
    a.abs ≤ b.abs ↔ A.natAbs ≤ B.natAbs := by
  have h1 := abs_cast hD ha
  have h2 := abs_cast hD hb
  constructor
  · intro h
    have := Rat.mul_le_mul_of_nonneg_right h (Rat.le_of_lt hD)
    rw [h1, h2] at this; exact_mod_cast this
  · intro h
    refine Rat.le_of_mul_le_mul_right (c := D) ?_ hD
    rw [h1, h2]; exact_mod_cast h

theorem nearQuot_neg {p q r : Int} (h : NearQuot p q r) : NearQuot (-p) q (-r) := by
  obtain ⟨a, b, c⟩ := h
  have hn : ∀ y : Int, (-y * q - -p).natAbs = (y * q - p).natAbs := fun y => by rw [Int.neg_mul]; omega
  refine ⟨isDouble_neg a, fun y hy => ?_, fun y hy h1 h2 => ?_⟩
  · have := b (-y) (isDouble_neg hy)
    rw [hn]; have e := hn (-y); rw [Int.neg_neg] at e; omega
  · have e := hn (-y); rw [Int.neg_neg] at e
    rw [hn] at h1
    obtain ⟨m, k, m1, m2⟩ := c (-y) (isDouble_neg hy) (by omega) (by omega)
    refine ⟨-m, k, ?_, ?_⟩
    · rw [m1, Int.mul_neg, Int.neg_mul]
    · rcases m2 with m2 | m2
      · right
        rw [show y = -((2 * m + 1) * 2 ^ k) by omega, ← Int.neg_mul]; congr 1; omega
      · left
        rw [show y = -((2 * m - 1) * 2 ^ k) by omega, ← Int.neg_mul]; congr 1; omega

theorem cast_mul_pow (m : Int) (k : Nat) : ((m * 2 ^ k : Int) : Rat) = m * 2 ^ k := by push_cast; rfl

theorem rat_pow_add (a : Rat) (n m : Nat) : a ^ (n + m) = a ^ n * a ^ m := by
  induction m with
  | zero => simp
  | succ m ih => rw [← Nat.add_assoc, Rat.pow_succ, ih, Rat.pow_succ, Rat.mul_assoc]

theorem pow_split (m : Int) {k n : Nat} (h : n ≤ k) : m * 2 ^ k = m * 2 ^ (k - n) * 2 ^ n := by
  rw [Int.mul_assoc, ← Int.pow_add, Nat.sub_add_cancel h]

theorem halve {m : Int} (h : m.natAbs = 2 ^ 53) (k : Nat) : m * 2 ^ k = m / 2 * 2 ^ (k + 1) := by
  rw [Int.pow_succ, Int.mul_comm (2 ^ k) 2, ← Int.mul_assoc]; congr 1; omega

theorem unit_pos : (0 : Rat) < 2 ^ 1074 := Rat.pow_pos (by decide)

theorem isF64_units {y : Rat} (h : IsF64 y) : ∃ Y : Int, y * 2 ^ 1074 = Y ∧ IsDouble Y := by
  obtain ⟨m, k, h1, _, h3⟩ := h
  exact ⟨m * 2 ^ k, by rw [h3]; push_cast; rfl, m, k, by omega, rfl⟩

/-- An integer below 2^2098 with 53 significant digits is a finite number. -/
theorem isF64_of {y : Rat} {Y : Int} (h : y * 2 ^ 1074 = Y) (hd : IsDouble Y) (hl : Y.natAbs < 2 ^ 2098) : IsF64 y := by
  obtain ⟨m, k, h1, rfl⟩ := hd
  have hT : (2 : Nat) ^ 2098 = 2 ^ 53 * 2 ^ 2045 := by rw [← Nat.pow_add]
  have habs : (m * 2 ^ k).natAbs = m.natAbs * 2 ^ k := by rw [Int.natAbs_mul, Int.natAbs_pow]; rfl
  rw [habs, hT] at hl
  have hU : 0 < (2 : Nat) ^ 2045 := Nat.pow_pos (by decide)
  by_cases hk : k ≤ 2045
  · by_cases hm : m.natAbs < 2 ^ 53
    · exact ⟨m, k, hm, hk, by rw [h]; push_cast; rfl⟩
    · have hm' : m.natAbs = 2 ^ 53 := by omega
      rw [hm'] at hl
      have hlt : (2 : Nat) ^ k < 2 ^ 2045 := Nat.lt_of_mul_lt_mul_left hl
      have hkl : k < 2045 := (Nat.pow_lt_pow_iff_right (by decide)).1 hlt
      refine ⟨m / 2, k + 1, by omega, by omega, ?_⟩
      rw [h, halve hm']; exact cast_mul_pow _ _
  · have hs : k = (k - 2045) + 2045 := by omega
    refine ⟨m * 2 ^ (k - 2045), 2045, ?_, Nat.le_refl _, ?_⟩
    · rw [Int.natAbs_mul, Int.natAbs_pow]
      rw [hs, Nat.pow_add, ← Nat.mul_assoc] at hl
      exact Nat.lt_of_mul_lt_mul_right hl
    · rw [h, pow_split m (n := 2045) (by omega)]; exact cast_mul_pow _ _

/-- A signed number of units. -/
def signed (s : Bool) (n : Nat) : Int := if s then -(n : Int) else n

theorem number_fin (s : Bool) (n : Nat) : number (.fin s n) = some ((signed s n : Rat) / 2 ^ 1074) := by
  cases s <;> simp [number, signed, Rat.intCast_neg] <;> rfl

theorem number_units {s : Bool} {n : Nat} {r : Rat} (h : number (.fin s n) = some r) : r * 2 ^ 1074 = (signed s n : Int) := by
  rw [number_fin] at h; injection h with h
  rw [← h, Rat.div_mul_cancel (fun e => by have := unit_pos; grind)]

theorem signed_abs (s : Bool) (n : Nat) : (signed s n).natAbs = n := by cases s <;> simp [signed]

theorem ofQuot_cases (s : Bool) (p q : Nat) :
    (rnd p q < 2 ^ 2098 ∧ ofQuot s p q = .fin s (rnd p q)) ∨ (¬ rnd p q < 2 ^ 2098 ∧ ofQuot s p q = .inf s) := by
  unfold ofQuot
  split
  · exact Or.inl ⟨by assumption, rfl⟩
  · exact Or.inr ⟨by assumption, rfl⟩

/-- The rounding of a quotient is as the standard demands. -/
theorem ofQuot_rounds (s : Bool) (p : Nat) {q : Nat} (hq : 0 < q) {x : Rat} (hx : x * (q * 2 ^ 1074) = (signed s p : Int)) :
    Rounds x (ofQuot s p q) := by
  have hU := unit_pos
  have hq' : (0 : Rat) < q := by exact_mod_cast hq
  have hD : (0 : Rat) < q * 2 ^ 1074 := Rat.mul_pos hq' hU
  have hab := abs_cast hD hx
  rw [signed_abs] at hab
  have hov : x.abs < overflow ↔ p < (2 ^ 54 - 1) * 2 ^ 2044 * q := by
    have e1 : overflow * (q * 2 ^ 1074) = (((2 ^ 54 - 1) * 2 ^ 2044 * q : Nat) : Rat) := by
      have : (2 : Rat) ^ 970 * 2 ^ 1074 = 2 ^ 2044 := by rw [← rat_pow_add]
      unfold overflow
      push_cast
      rw [← this]
      generalize (2 : Rat) ^ 970 = A
      generalize (2 : Rat) ^ 1074 = B
      grind
    rw [← Rat.mul_lt_mul_right hD, hab, e1]
    exact_mod_cast Iff.rfl
  have hneg : x < 0 → s = true := by
    intro h
    cases s
    · exfalso
      have : (0 : Rat) ≤ ((signed false p : Int) : Rat) := by simp [signed]; exact Rat.natCast_nonneg
      rw [← hx] at this
      have h2 := (Rat.mul_lt_mul_right hD).2 h
      grind
    · rfl
  have hpos : 0 < x → s = false := by
    intro h
    cases s
    · rfl
    · exfalso
      have : ((signed true p : Int) : Rat) ≤ 0 := by
        have : (signed true p : Int) ≤ 0 := by simp [signed]
        exact_mod_cast this
      rw [← hx] at this
      have h2 := (Rat.mul_lt_mul_right hD).2 h
      grind
  have hcs := ofQuot_cases s p q
  generalize ofQuot s p q = z at hcs ⊢
  generalize hT : (2 : Nat) ^ 2098 = T at hcs
  rcases hcs with ⟨hl, rfl⟩ | ⟨hl, rfl⟩
  · subst hT
    have hn : NearQuot (signed s p) q (signed s (rnd p q)) := by
      have := rnd_near p hq
      cases s
      · simpa [signed] using this
      · simpa [signed] using nearQuot_neg this
    refine ⟨hov.2 ((rnd_lt p hq).1 hl), ⟨_, number_fin _ _, ?_⟩, hneg, hpos⟩
    have hr := number_units (number_fin s (rnd p q))
    generalize hR : ((signed s (rnd p q) : Int) : Rat) / 2 ^ 1074 = r at hr
    have hdiff : ∀ (y : Rat) (Y : Int), y * 2 ^ 1074 = Y → (y - x) * (q * 2 ^ 1074) = ((Y * q - signed s p : Int) : Rat) := by
      intro y Y hy
      push_cast
      rw [← hx, ← hy]; grind
    refine ⟨isF64_of hr hn.double (by rw [signed_abs]; exact hl), fun y hy => ?_, fun y hy hye hne => ?_⟩
    · obtain ⟨Y, y1, y2⟩ := isF64_units hy
      exact (abs_le_cast hD (hdiff _ _ hr) (hdiff _ _ y1)).2 (hn.near Y y2)
    · obtain ⟨Y, y1, y2⟩ := isF64_units hy
      have l1 := (abs_le_cast hD (hdiff _ _ hr) (hdiff _ _ y1)).1 (by rw [hye]; exact Rat.le_refl)
      have l2 := (abs_le_cast hD (hdiff _ _ y1) (hdiff _ _ hr)).1 (by rw [hye]; exact Rat.le_refl)
      have hYR : Y ≠ signed s (rnd p q) := by
        intro h
        apply hne
        rw [h, ← hr] at y1
        have h0 : (2 : Rat) ^ 1074 ≠ 0 := fun e => by grind
        rw [← Rat.mul_div_cancel (a := y) h0, y1, Rat.mul_div_cancel h0]
      obtain ⟨m, k, m1, m2⟩ := hn.even Y y2 (by omega) hYR
      refine ⟨m, k, ?_, ?_⟩
      · rw [hr, m1]; push_cast; rfl
      · rw [y1]
        rcases m2 with m2 | m2
        · left; rw [m2]; push_cast; rfl
        · right; rw [m2]; push_cast; rfl
  · subst hT
    have hge : overflow ≤ x.abs := Rat.not_lt.1 (fun h => hl ((rnd_lt p hq).2 (hov.1 h)))
    refine ⟨hge, fun h => ?_, hneg⟩
    have hov0 : (0 : Rat) < overflow := by
      unfold overflow; exact Rat.mul_pos (by grind) (Rat.pow_pos (by decide))
    rcases (Rat.le_total : 0 ≤ x ∨ x ≤ 0) with h0 | h0
    · rw [Rat.abs_of_nonneg h0] at hge
      have := hpos (by grind)
      rw [h] at this; cases this
    · rw [Rat.abs_of_nonpos h0] at hge
      grind

end Verif.Calib.Props
