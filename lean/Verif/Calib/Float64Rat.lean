import Verif.Calib.Float64More
import Verif.Calib.Float64Claims

/-! # C87: the roundings of RAT_FUNC -/

namespace Verif.Calib.Spec
open Verif.Go

/-- The steps of RAT_FUNC with a rounding after each: `top` is `e*x - b`, `first` the first divisor `2*(a - d*x)` and `root` the root
of `(e*x - b)^2 - 4*(d*x - a)*(f*x - c)`. The square is only described if it is not smaller than the smallest normal number. -/
def RatSteps (A B C D E F X top first root : Rat) : Prop :=
  ∃ dx diff ex square diff' four fx fc product disc,
    NearestF64 (D * X) dx ∧ NearestF64 (A - dx) diff ∧ NearestF64 (2 * diff) first ∧
    NearestF64 (E * X) ex ∧ NearestF64 (ex - B) top ∧ (1 / 2 ^ 1022 ≤ top * top → NearestF64 (top * top) square) ∧
    NearestF64 (dx - A) diff' ∧ NearestF64 (4 * diff') four ∧ NearestF64 (F * X) fx ∧ NearestF64 (fx - C) fc ∧
    NearestF64 (four * fc) product ∧ NearestF64 (square - product) disc ∧
    0 ≤ disc ∧ (disc = 0 → root = 0) ∧ (disc ≠ 0 → RoundsRoot disc root)

end Verif.Calib.Spec

namespace Verif.Calib.Props
open Verif.Go Spec F64

seal F64.ofQuot

theorem nearest_of_rounds {x R : Rat} {z : F64} (h : Rounds x z) (hz : number z = some R) : NearestF64 x R := by
  obtain ⟨s, n, rfl⟩ := finite_form hz
  obtain ⟨-, ⟨r, hr, hn⟩, -⟩ := h
  rw [hz] at hr
  cases hr
  exact hn

/-- A finite sum has finite summands. -/
theorem add_finite {x y : F64} {R : Rat} (h : number (add x y) = some R) :
    ∃ X Y, number x = some X ∧ number y = some Y ∧ NearestF64 (X + Y) R := by
  cases x with
  | nan => simp [add, number] at h
  | inf s =>
    cases y with
    | nan => simp [add, number] at h
    | inf t =>
      simp only [add] at h
      split at h <;> simp [number] at h
    | fin t b => simp [add, number] at h
  | fin s a =>
    cases y with
    | nan => simp [add, number] at h
    | inf t => simp [add, number] at h
    | fin t b =>
      obtain ⟨X, hX⟩ : ∃ X, number (.fin s a) = some X := ⟨_, rfl⟩
      obtain ⟨Y, hY⟩ : ∃ Y, number (.fin t b) = some Y := ⟨_, rfl⟩
      have h1 := add_rounds hX hY
      exact ⟨X, Y, hX, hY, nearest_of_rounds h1 h⟩

theorem neg_finite {y : F64} {R : Rat} (h : number (neg y) = some R) : number y = some (-R) := by
  cases y with
  | nan => cases h
  | inf s => cases h
  | fin s n =>
    have h1 := number_neg h
    simpa [neg] using h1

theorem sub_finite {x y : F64} {R : Rat} (h : number (sub x y) = some R) :
    ∃ X Y, number x = some X ∧ number y = some Y ∧ NearestF64 (X - Y) R := by
  obtain ⟨X, Y, hx, hy, hn⟩ := add_finite h
  exact ⟨X, -Y, hx, neg_finite hy, by rw [show X - -Y = X + Y by grind]; exact hn⟩

theorem mul_finite {x y : F64} {R : Rat} (h : number (mul x y) = some R) :
    ∃ X Y, number x = some X ∧ number y = some Y ∧ NearestF64 (X * Y) R := by
  cases x with
  | nan => simp [mul, number] at h
  | inf s =>
    cases y with
    | nan => simp [mul, number] at h
    | inf t => simp [mul, number] at h
    | fin t b =>
      simp only [mul] at h
      split at h <;> simp [number] at h
  | fin s a =>
    cases y with
    | nan => simp [mul, number] at h
    | inf t =>
      simp only [mul] at h
      split at h <;> simp [number] at h
    | fin t b =>
      obtain ⟨X, hX⟩ : ∃ X, number (.fin s a) = some X := ⟨_, rfl⟩
      obtain ⟨Y, hY⟩ : ∃ Y, number (.fin t b) = some Y := ⟨_, rfl⟩
      have h1 : Rounds (X * Y) (mul (.fin s a) (.fin t b)) := @mul_rounds s t a b X Y hX hY
      generalize mul (.fin s a) (.fin t b) = z at h h1
      exact ⟨X, Y, hX, hY, nearest_of_rounds h1 h⟩

/-- A finite quotient has a finite dividend; if the divisor is finite it is not zero. -/
theorem div_finite {x y : F64} {R : Rat} (h : number (div x y) = some R) :
    ∃ X, number x = some X ∧ (∀ Y, number y = some Y → Y ≠ 0 ∧ NearestF64 (X / Y) R) ∧ (number y = none → R = 0) := by
  cases x with
  | nan => simp [div, number] at h
  | inf s =>
    cases y with
    | nan => simp [div, number] at h
    | inf t => simp [div, number] at h
    | fin t b => simp [div, number] at h
  | fin s a =>
    cases y with
    | nan => simp [div, number] at h
    | inf t =>
      refine ⟨_, rfl, (by intro Y hY; cases hY), ?_⟩
      intro _
      simp only [div, number, Option.some.injEq] at h
      rw [← h]
      split <;> simp <;> grind
    | fin t b =>
      obtain ⟨X, hX⟩ : ∃ X, number (.fin s a) = some X := ⟨_, rfl⟩
      refine ⟨X, hX, ?_, (by intro hY; cases hY)⟩
      intro Y hY
      have h0 : Y ≠ 0 := by
        rintro rfl
        have hb : b = 0 := by
          have := number_units hY
          rw [Rat.zero_mul] at this
          have h0 : signed t b = 0 := by exact_mod_cast this.symm
          cases t <;> simp [signed] at h0 <;> omega
        subst hb
        simp only [div, if_true] at h
        split at h <;> simp [number] at h
      exact ⟨h0, nearest_of_rounds (div_rounds hX hY h0) h⟩

theorem pow2_finite {x : F64} {R : Rat} (h : number (pow2 x) = some R) :
    ∃ X, number x = some X ∧ (1 / 2 ^ 1022 ≤ X * X → NearestF64 (X * X) R) := by
  cases x with
  | nan => simp [pow2, number] at h
  | inf s => simp [pow2, number] at h
  | fin s n =>
    obtain ⟨X, hX⟩ : ∃ X, number (.fin s n) = some X := ⟨_, rfl⟩
    refine ⟨X, hX, fun hx => ?_⟩
    have h1 : Rounds (X * X) (pow2 (.fin s n)) := @pow2_rounds (.fin s n) X hX (Or.inr hx)
    generalize pow2 (.fin s n) = z at h h1
    exact nearest_of_rounds h1 h

theorem sqrt_finite {x : F64} {R : Rat} (h : number (F64.sqrt x) = some R) :
    ∃ X, number x = some X ∧ (IsF64 X → 0 ≤ X ∧ (X = 0 → R = 0) ∧ (X ≠ 0 → RoundsRoot X R)) := by
  cases x with
  | nan => simp [F64.sqrt, number] at h
  | inf s =>
    simp only [F64.sqrt] at h
    split at h <;> simp [number] at h
  | fin s n =>
    refine ⟨_, rfl, ?_⟩
    intro hF
    by_cases hn : n = 0
    · subst hn
      have hz : number (.fin s 0) = some 0 := by cases s <;> decide +kernel
      have hR : R = 0 := by
        have : F64.sqrt (.fin s 0) = .fin s 0 := by simp [F64.sqrt]
        rw [this, hz] at h
        exact (Option.some.inj h).symm
      have hX : ((if s then -((0 : Nat) : Rat) else ((0 : Nat) : Rat)) / 2 ^ 1074) = 0 := Option.some.inj hz
      rw [hX]
      exact ⟨Rat.le_refl, fun _ => hR, fun h => absurd rfl h⟩
    · cases s with
      | true =>
        simp [F64.sqrt, hn, number] at h
      | false =>
        obtain ⟨r, hr, hrr⟩ := sqrt_rounds hn (x := (n : Rat) / 2 ^ 1074) rfl (fin_bound (s := false) (v := (n : Rat) / 2 ^ 1074) rfl hF)
        rw [hr] at h
        cases h
        have hpos : (0 : Rat) < (n : Rat) / 2 ^ 1074 := by
          rw [Rat.div_def]
          exact Rat.mul_pos (by exact_mod_cast Nat.pos_of_ne_zero hn) (Rat.inv_pos.2 (Rat.pow_pos (by decide)))
        refine ⟨Rat.le_of_lt hpos, fun h0 => ?_, fun _ => hrr⟩
        exact absurd h0 (Rat.ne_of_gt hpos)

theorem number_unique {x : F64} {X Y : Rat} (h : number x = some X) (h' : number x = some Y) : X = Y := by
  rw [h] at h'
  exact Option.some.inj h'

/-- The divisor of a finite result of RAT_FUNC other than zero: all steps before it are finite too. -/
theorem rat_value {a b c d e f x v : F64} {A B C D E F X V : Rat}
    (ha : number a = some A) (hb : number b = some B) (hc : number c = some C) (hd : number d = some D)
    (he : number e = some E) (hf : number f = some F) (hx : number x = some X) (plus : Bool)
    (hv : v = (let first := mul (ofInt 2) (sub a (mul d x))
      let root := F64.sqrt (sub (pow2 (sub (mul e x) b)) (mul (mul (ofInt 4) (sub (mul d x) a)) (sub (mul f x) c)))
      div (sub (mul e x) b) (if plus then add first (div root first) else sub first (div root first))))
    (hV : number v = some V) (h0 : V ≠ 0) :
    ∃ top first root ratio divisor, RatSteps A B C D E F X top first root ∧ first ≠ 0 ∧ NearestF64 (root / first) ratio ∧
      NearestF64 (if plus then first + ratio else first - ratio) divisor ∧ divisor ≠ 0 ∧ NearestF64 (top / divisor) V := by
  have n2 : number (ofInt 2) = some 2 := by decide +kernel
  have n4 : number (ofInt 4) = some 4 := by decide +kernel
  subst hv
  obtain ⟨top, htop, hq, hinf⟩ := div_finite hV
  obtain ⟨first64, hfirst64⟩ : ∃ z, mul (ofInt 2) (sub a (mul d x)) = z := ⟨_, rfl⟩
  obtain ⟨disc64, hdisc64⟩ : ∃ z, sub (pow2 (sub (mul e x) b)) (mul (mul (ofInt 4) (sub (mul d x) a)) (sub (mul f x) c)) = z := ⟨_, rfl⟩
  rw [hfirst64, hdisc64] at hq hinf
  cases hdiv : number (if plus then add first64 (div (F64.sqrt disc64) first64) else sub first64 (div (F64.sqrt disc64) first64)) with
  | none => exact absurd (hinf hdiv) h0
  | some divisor =>
    obtain ⟨hne, hnear⟩ := hq _ hdiv
    have key : ∃ first ratio, number first64 = some first ∧ number (div (F64.sqrt disc64) first64) = some ratio ∧
        NearestF64 (if plus then first + ratio else first - ratio) divisor := by
      cases plus with
      | true =>
        rw [if_pos rfl] at hdiv
        obtain ⟨p, q, hp, hq, hn⟩ := add_finite hdiv
        exact ⟨p, q, hp, hq, hn⟩
      | false =>
        rw [if_neg (by decide)] at hdiv
        obtain ⟨p, q, hp, hq, hn⟩ := sub_finite hdiv
        exact ⟨p, q, hp, hq, hn⟩
    obtain ⟨first, ratio, hfirst, hratio, hdn⟩ := key
    obtain ⟨root, hroot, hr, -⟩ := div_finite hratio
    obtain ⟨hf0, hrn⟩ := hr _ hfirst
    obtain ⟨disc, hdisc, hsq⟩ := sqrt_finite hroot
    rw [← hdisc64] at hdisc
    rw [← hfirst64] at hfirst
    obtain ⟨square, product, hs1, hp1, hdiscn⟩ := sub_finite hdisc
    obtain ⟨h1, h2, h3⟩ := hsq hdiscn.double
    obtain ⟨top', ht', hsquare⟩ := pow2_finite hs1
    have := number_unique ht' htop
    subst this
    obtain ⟨four, fc, hfour, hfc, hprodn⟩ := mul_finite hp1
    obtain ⟨four', diff', h4, hdiff', hfourn⟩ := mul_finite hfour
    have := number_unique h4 n4
    subst this
    obtain ⟨dx', A', hdx', hA', hdiffn'⟩ := sub_finite hdiff'
    have := number_unique hA' ha
    subst this
    obtain ⟨fx, C', hfx, hC', hfcn⟩ := sub_finite hfc
    have := number_unique hC' hc
    subst this
    obtain ⟨F', X', hF', hX', hfxn⟩ := mul_finite hfx
    have := number_unique hF' hf
    subst this
    have := number_unique hX' hx
    subst this
    obtain ⟨two, diff, h2', hdiff, hfirstn⟩ := mul_finite hfirst
    have := number_unique h2' n2
    subst this
    obtain ⟨A'', dx, hA'', hdx, hdiffn⟩ := sub_finite hdiff
    have := number_unique hA'' ha
    subst this
    have := number_unique hdx' hdx
    subst this
    obtain ⟨D', X'', hD', hX'', hdxn⟩ := mul_finite hdx
    have := number_unique hD' hd
    subst this
    have := number_unique hX'' hx
    subst this
    obtain ⟨ex, B', hex, hB', htopn⟩ := sub_finite htop
    have := number_unique hB' hb
    subst this
    obtain ⟨E', X3, hE', hX3, hexn⟩ := mul_finite hex
    have := number_unique hE' he
    subst this
    have := number_unique hX3 hx
    subst this
    exact ⟨_, first, root, ratio, divisor,
      ⟨_, diff, ex, square, diff', four, fx, fc, product, disc, hdxn, hdiffn, hfirstn, hexn, htopn, hsquare, hdiffn', hfourn,
        hfxn, hfcn, hprodn, hdiscn, h1, h2, h3⟩, hf0, hrn, hdn, hne, hnear⟩

/-- RAT_FUNC with finite coefficients: a value it delivers, if it is finite and not zero, comes from the formula of the code with the
result of every step rounded to the nearest `float64`; no intermediate result was infinite or NaN, the number under the root was not
negative. Missing: how far this is from the solution of the equation (C45 says for exact arithmetic when the formula is right at all),
and squares below the smallest normal number, which `math.Pow` rounds twice. -/
theorem C87_ratfunc_partial (found : Option Tab64) (cm : Method64) {a b c d e f x r : F64} {A B C D E F X V : Rat}
    (ht : cm.conversionType = .ratFunc) (h1 : cm.a = some a) (h2 : cm.b = some b) (h3 : cm.c = some c) (h4 : cm.d = some d)
    (h5 : cm.e = some e) (h6 : cm.f = some f)
    (ha : number a = some A) (hb : number b = some B) (hc : number c = some C) (hd : number d = some D)
    (he : number e = some E) (hf : number f = some F) (hx : number x = some X)
    (hr : convDecToPhy64 found x cm = .ok r) (hV : number r = some V) (h0 : V ≠ 0) :
    ∃ top first root ratio divisor, RatSteps A B C D E F X top first root ∧ first ≠ 0 ∧ NearestF64 (root / first) ratio ∧
      (NearestF64 (first + ratio) divisor ∨ NearestF64 (first - ratio) divisor) ∧ divisor ≠ 0 ∧
      NearestF64 (top / divisor) V := by
  have key : ∀ plus : Bool, r = (let first := mul (ofInt 2) (sub a (mul d x))
      let root := F64.sqrt (sub (pow2 (sub (mul e x) b)) (mul (mul (ofInt 4) (sub (mul d x) a)) (sub (mul f x) c)))
      div (sub (mul e x) b) (if plus then add first (div root first) else sub first (div root first))) →
      ∃ top first root ratio divisor, RatSteps A B C D E F X top first root ∧ first ≠ 0 ∧ NearestF64 (root / first) ratio ∧
        (NearestF64 (first + ratio) divisor ∨ NearestF64 (first - ratio) divisor) ∧ divisor ≠ 0 ∧
        NearestF64 (top / divisor) V := by
    intro plus hv
    obtain ⟨top, first, root, ratio, divisor, g1, g2, g3, g4, g5, g6⟩ := rat_value ha hb hc hd he hf hx plus hv hV h0
    refine ⟨top, first, root, ratio, divisor, g1, g2, g3, ?_, g5, g6⟩
    cases plus with
    | true => exact Or.inl g4
    | false => exact Or.inr g4
  unfold convDecToPhy64 at hr
  simp only [ht, h1, h2, h3, h4, h5, h6] at hr
  unfold calcRatFunc64 at hr
  simp only at hr
  split at hr
  · cases hr
  · split at hr
    · split at hr
      · exact key true (by dsimp only; rw [if_pos rfl]; exact (Res.ok.inj hr).symm)
      · exact key false (by dsimp only; rw [if_neg (by decide)]; exact (Res.ok.inj hr).symm)
    · split at hr
      · exact key true (by dsimp only; rw [if_pos rfl]; exact (Res.ok.inj hr).symm)
      · split at hr
        · exact key false (by dsimp only; rw [if_neg (by decide)]; exact (Res.ok.inj hr).symm)
        · cases hr

/-- A conversion with such a value: `x = p^2 + 2*p + 1` and the raw value 0 give -1. -/
example : ∃ r V, convDecToPhy64 none (ofInt 0)
    { conversionType := .ratFunc, a := some (ofInt 1), b := some (ofInt 2), c := some (ofInt 1), d := some (ofInt 0), e := some (ofInt 0), f := some (ofInt 1) } = .ok r ∧
    number r = some V ∧ V ≠ 0 := ⟨ofInt (-1), -1, by decide +kernel, by decide +kernel, by decide⟩

end Verif.Calib.Props
