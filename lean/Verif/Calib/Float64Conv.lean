import Verif.Calib.Float64Ops

/-! # C87: the conversion methods in `float64` arithmetic -/

namespace Verif.Calib.Spec
open Verif.Go

/-- `r` is the `float64` nearest to the square root of `x`: the middle between `r` and any other number lies on the other
side of the root (stated with squares, the root need not be rational). -/
structure RoundsRoot (x r : Rat) : Prop where
  double : IsF64 r
  nonneg : 0 ≤ r
  below : ∀ y, IsF64 y → 0 ≤ y → y < r → ((r + y) / 2) * ((r + y) / 2) ≤ x
  above : ∀ y, IsF64 y → r < y → x ≤ ((r + y) / 2) * ((r + y) / 2)

/-- The columns and the default value of a table of `float64` are the given rational numbers. -/
structure TableIs (t : Tab64) (c : CompuTab) : Prop where
  inVal : t.inVal.map number = c.inVal.map some
  outVal : t.outVal.map number = c.outVal.map some
  dflt : t.defaultValue.map number = c.defaultValue.map some
  inSet : t.inValSet = c.inValSet
  outSet : t.outValSet = c.outValSet

end Verif.Calib.Spec

namespace Verif.Calib.Props
open Verif.Go Spec F64

seal F64.ofQuot

/-! ### The error of one rounding -/

theorem rnd_error (p : Nat) {q : Nat} (hq : 0 < q) :
    2 ^ 53 * (((rnd p q : Nat) : Int) * q - p).natAbs ≤ p + 2 ^ 52 * q := by
  obtain ⟨k, e, r, h1, h2, h3, h4, h5⟩ := rnd_cases p hq
  have hkd : ((k * 2 ^ e : Nat) : Int) * q = ((k * (q * 2 ^ e) : Nat) : Int) := by
    push_cast; rw [Int.mul_assoc, Int.mul_comm (2 ^ e) (q : Int)]
  have hk1 : (((k + 1) * 2 ^ e : Nat) : Int) * q = ((k * (q * 2 ^ e) : Nat) : Int) + ((q * 2 ^ e : Nat) : Int) := by
    rw [← hkd]; push_cast; grind
  have hbig : 2 ^ 52 * (q * 2 ^ e) ≤ p + 2 ^ 52 * q := by
    rcases h2 with rfl | h2
    · simp only [Nat.pow_zero, Nat.mul_one]; omega
    · have := Nat.mul_le_mul_right (q * 2 ^ e) h2
      omega
  generalize q * 2 ^ e = D at *
  generalize k * D = K at *
  rcases h5 with ⟨g, hr⟩ | ⟨g, hr⟩
  · rw [g, hkd]; omega
  · rw [g, hk1]; omega

/-- A rounded number is off by at most the 2^53-th part, or half a unit if it is very small. -/
theorem rounds_error {x v : Rat} {r : F64} (h : Rounds x r) (hv : number r = some v) :
    2 ^ 53 * 2 ^ 1074 * (v - x).abs ≤ 2 ^ 1074 * x.abs + 2 ^ 52 := by
  by_cases hx : x = 0
  · subst hx
    have h0 : IsF64 0 := ⟨0, 0, by decide, by omega, by rw [Rat.zero_mul]; simp⟩
    rw [rounds_exact h h0] at hv; injection hv with hv
    subst hv
    have : ((0 : Rat) - 0).abs = 0 := by rw [show (0 : Rat) - 0 = 0 by grind]; exact Rat.abs_zero
    rw [this, Rat.abs_zero]
    generalize (2 : Rat) ^ 1074 = U
    grind
  · have hden : 0 < x.den := x.den_pos
    have hden' : (0 : Rat) < (x.den : Rat) := by exact_mod_cast hden
    have hxd : x * (x.den : Rat) = (x.num : Rat) := by
      have h0 : (x.den : Rat) ≠ 0 := fun e => by grind
      have e : x = (x.num : Rat) / (x.den : Rat) := by rw [← Rat.mkRat_eq_div, Rat.mkRat_self]
      have := Rat.div_mul_cancel (a := (x.num : Rat)) h0
      rw [← e] at this; exact this
    -- the sign and the number of units of `x`
    let s := decide (x.num < 0)
    let p := x.num.natAbs * 2 ^ 1074
    have hs : signed s p = x.num * 2 ^ 1074 := by
      show signed (decide (x.num < 0)) (x.num.natAbs * 2 ^ 1074) = _
      generalize 1074 = n
      unfold signed
      have e : ((x.num.natAbs * 2 ^ n : Nat) : Int) = (x.num.natAbs : Int) * 2 ^ n := by push_cast; rfl
      rw [e]
      by_cases hn : x.num < 0
      · rw [if_pos (by simpa using hn), show (x.num.natAbs : Int) = -x.num by omega, Int.neg_mul, Int.neg_neg]
      · rw [if_neg (by simpa using hn), show (x.num.natAbs : Int) = x.num by omega]
    have hu : x * (x.den * 2 ^ 1074) = (signed s p : Int) := by
      rw [hs, cast_mul_pow, ← hxd]
      generalize (2 : Rat) ^ 1074 = U
      grind
    have hr : r = ofQuot s p x.den := rounds_unique hx h (ofQuot_rounds s p hden hu)
    have hfin : r = .fin s (rnd p x.den) := by
      have hc := ofQuot_cases s p x.den
      rw [← hr] at hc
      rcases hc with ⟨_, hc⟩ | ⟨_, hc⟩
      · exact hc
      · rw [hc] at hv; cases hv
    subst hfin
    have hvu := number_units hv
    have hD : (0 : Rat) < x.den * 2 ^ 1074 := Rat.mul_pos hden' unit_pos
    have h1 := abs_cast (a := v - x) (A := signed s (rnd p x.den) * x.den - signed s p) hD (by
      push_cast
      rw [← hu, ← hvu]
      show _ = v * 2 ^ 1074 * (((x.den : Nat) : Int) : Rat) - _
      rw [int_nat]
      generalize (2 : Rat) ^ 1074 = U
      grind)
    have h2 := abs_cast hD hu
    have h3 : (signed s (rnd p x.den) * x.den - signed s p).natAbs = (((rnd p x.den : Nat) : Int) * x.den - p).natAbs := by
      unfold signed
      cases s
      · rfl
      · simp only [if_true]; rw [Int.neg_mul]; omega
    rw [h3] at h1
    rw [signed_abs] at h2
    have h4 := rnd_error p hden
    have h5 : (2 : Rat) ^ 53 * ((((rnd p x.den : Nat) : Int) * x.den - p).natAbs : Rat) ≤ p + 2 ^ 52 * (x.den : Rat) := by
      exact_mod_cast h4
    rw [← h1, ← h2] at h5
    refine Rat.le_of_mul_le_mul_right (c := (x.den : Rat)) ?_ hden'
    generalize (2 : Rat) ^ 1074 = U at *
    grind

end Verif.Calib.Props
