import Verif.Calib.Float64Sqrt

/-! # C87: what the conversion methods deliver in `float64` arithmetic -/

namespace Verif.Calib.Props
open Verif.Go Spec F64

seal F64.ofQuot

/-! ### LINEAR -/

theorem finite_form {x : F64} {v : Rat} (h : number x = some v) : ∃ s n, x = .fin s n := by
  cases x with
  | nan => cases h
  | inf s => cases h
  | fin s n => exact ⟨s, n, rfl⟩

/-- LINEAR is rounded twice: first the product, then the sum. An infinite product is delivered as it is, without an error. -/
theorem C87_linear_partial (found : Option Tab64) (cm : Method64) {a b x : F64} {A B X : Rat}
    (ht : cm.conversionType = .linear) (ha : cm.linA = some a) (hb : cm.linB = some b)
    (hA : number a = some A) (hB : number b = some B) (hX : number x = some X) :
    ∃ u r, convDecToPhy64 found x cm = .ok r ∧ Rounds (A * X) u ∧
      (∀ U, number u = some U → Rounds (U + B) r) ∧ (∀ s, u = .inf s → r = .inf s) := by
  obtain ⟨sa, na, rfl⟩ := finite_form hA
  obtain ⟨sb, nb, rfl⟩ := finite_form hB
  obtain ⟨sx, nx, rfl⟩ := finite_form hX
  refine ⟨mul (.fin sa na) (.fin sx nx), add (mul (.fin sa na) (.fin sx nx)) (.fin sb nb), ?_, mul_rounds hA hX, ?_, ?_⟩
  · simp only [convDecToPhy64, ht, ha, hb]
  · intro U hU
    obtain ⟨su, nu, hu⟩ := finite_form hU
    rw [hu] at hU ⊢
    exact add_rounds hU hB
  · intro s hs
    rw [hs]; rfl

/-- If neither the product nor the sum needs rounding, LINEAR delivers the exact physical value: the model with
rational numbers (`convDecToPhy`, C45) and the one with `float64` agree. -/
theorem C87_exact_partial {P : Type} (sqrt : Rat → Option Rat) (cd : CalData P) (found : Option Tab64) (cm : Method64) (cm' : CompuMethod)
    {a b x : F64} {A B X : Rat}
    (ht : cm.conversionType = .linear) (ha : cm.linA = some a) (hb : cm.linB = some b)
    (ht' : cm'.conversionType = .linear) (ha' : cm'.linA = some A) (hb' : cm'.linB = some B)
    (hA : number a = some A) (hB : number b = some B) (hX : number x = some X)
    (h1 : IsF64 (A * X)) (h2 : IsF64 (A * X + B)) :
    ∃ r, convDecToPhy64 found x cm = .ok r ∧ number r = some (A * X + B) ∧ convDecToPhy sqrt X cm' cd = .ok (number r) := by
  obtain ⟨u, r, e1, e2, e3, _⟩ := C87_linear_partial found cm ht ha hb hA hB hX
  have hu := rounds_exact e2 h1
  have hr := rounds_exact (e3 _ hu) h2
  refine ⟨r, e1, hr, ?_⟩
  rw [hr]
  simp only [convDecToPhy, ht', ha', hb']

/-- Integers up to 2^53 are `float64` numbers. -/
theorem isF64_int {i : Int} (h : i.natAbs ≤ 2 ^ 53) : IsF64 (i : Rat) := by
  have hb : i.natAbs * 2 ^ 1074 < 2 ^ 2098 := by
    refine Nat.lt_of_le_of_lt (Nat.mul_le_mul_right _ h) ?_
    rw [← Nat.pow_add]
    exact Nat.pow_lt_pow_right (by decide) (by decide)
  refine isF64_of (Y := i * 2 ^ 1074) (by rw [cast_mul_pow]) ⟨i, 1074, h, rfl⟩ ?_
  rw [Int.natAbs_mul, Int.natAbs_pow]; exact hb

/-- In particular LINEAR is exact for integral coefficients and values as long as product and sum do not exceed 2^53. -/
theorem C87_integers_partial (found : Option Tab64) (cm : Method64) {a b x : F64} {i j k : Int}
    (ht : cm.conversionType = .linear) (ha : cm.linA = some a) (hb : cm.linB = some b)
    (hA : number a = some (i : Rat)) (hB : number b = some (j : Rat)) (hX : number x = some (k : Rat))
    (h1 : (i * k).natAbs ≤ 2 ^ 53) (h2 : (i * k + j).natAbs ≤ 2 ^ 53) :
    ∃ r, convDecToPhy64 found x cm = .ok r ∧ number r = some ((i * k + j : Int) : Rat) := by
  have e1 : ((i : Rat) * k) = ((i * k : Int) : Rat) := (Rat.intCast_mul _ _).symm
  have e2 : ((i : Rat) * k + j) = ((i * k + j : Int) : Rat) := by rw [e1, ← Rat.intCast_add]
  obtain ⟨r, r1, r2, _⟩ := C87_exact_partial (P := Unit) (fun _ => none) {} found cm { conversionType := .linear, linA := some (i : Rat), linB := some (j : Rat) }
    ht ha hb rfl rfl rfl hA hB hX (by rw [e1]; exact isF64_int h1) (by rw [e2]; exact isF64_int h2)
  exact ⟨r, r1, by rw [r2, e2]⟩

/-- The error of LINEAR: both roundings together. -/
theorem C87_error_partial (found : Option Tab64) (cm : Method64) {a b x r : F64} {A B X V : Rat}
    (ht : cm.conversionType = .linear) (ha : cm.linA = some a) (hb : cm.linB = some b)
    (hA : number a = some A) (hB : number b = some B) (hX : number x = some X)
    (hr : convDecToPhy64 found x cm = .ok r) (hV : number r = some V) :
    ∃ U, 2 ^ 53 * 2 ^ 1074 * (U - A * X).abs ≤ 2 ^ 1074 * (A * X).abs + 2 ^ 52 ∧
      2 ^ 53 * 2 ^ 1074 * (V - (U + B)).abs ≤ 2 ^ 1074 * (U + B).abs + 2 ^ 52 := by
  obtain ⟨u, r', e1, e2, e3, e4⟩ := C87_linear_partial found cm ht ha hb hA hB hX
  rw [hr] at e1; injection e1 with e1
  subst e1
  cases hu : u with
  | nan => rw [hu] at e2; exact e2.elim
  | inf s => rw [e4 s hu] at hV; cases hV
  | fin s n =>
    obtain ⟨U, hU⟩ : ∃ U, number u = some U := by rw [hu]; exact ⟨_, number_fin _ _⟩
    exact ⟨U, rounds_error e2 hU, rounds_error (e3 U hU) hV⟩

/-- 3 * 7 - 1 = 20. -/
example : ∃ r, convDecToPhy64 none (ofBits 0x401c000000000000) { conversionType := .linear, linA := some (ofBits 0x4008000000000000), linB := some (ofBits 0xbff0000000000000) } = .ok r
    ∧ number r = some ((3 * 7 + -1 : Int) : Rat) :=
  C87_integers_partial none _ (i := 3) (j := -1) (k := 7) rfl rfl rfl (by decide +kernel) (by decide +kernel) (by decide +kernel) (by decide) (by decide)

theorem signed_sub {s t : Bool} {a b : Nat} (h : b < a) (hst : s ≠ t) : signed s (a - b) = signed s a + signed t b := by
  cases s <;> cases t <;> simp [signed] at hst ⊢ <;> omega

theorem signed_cancel {s t : Bool} {a : Nat} (hst : s ≠ t) : signed s a + signed t a = signed false 0 := by
  cases s <;> cases t <;> simp [signed] at hst ⊢ <;> omega

/-- LINEAR as demanded: the `float64` nearest to `a x + b`. -/
def LinearNearest : Prop :=
  ∀ (found : Option Tab64) (cm : Method64) (a b x : F64) (A B X : Rat),
    cm.conversionType = .linear → cm.linA = some a → cm.linB = some b →
    number a = some A → number b = some B → number x = some X →
    ∃ r, convDecToPhy64 found x cm = .ok r ∧ Rounds (A * X + B) r

/-- Full claim, false: with a = x = 1 + 2^-52 and b = -(1 + 2^-51) the physical value is 2^-104, a number that a
`float64` can have, but the value delivered is 0. -/
theorem C87_false : ¬ LinearNearest := by
  intro h
  obtain ⟨r, h1, h2⟩ := h none
    { conversionType := .linear, linA := some (ofBits 0x3ff0000000000001), linB := some (ofBits 0xbff0000000000002) }
    (ofBits 0x3ff0000000000001) (ofBits 0xbff0000000000002) (ofBits 0x3ff0000000000001)
    (1 + 1 / 2 ^ 52) (-(1 + 1 / 2 ^ 51)) (1 + 1 / 2 ^ 52) rfl rfl rfl (by decide +kernel) (by decide +kernel) (by decide +kernel)
  have e : convDecToPhy64 none (ofBits 0x3ff0000000000001)
      { conversionType := .linear, linA := some (ofBits 0x3ff0000000000001), linB := some (ofBits 0xbff0000000000002) } = .ok (.fin false 0) := by
    decide +kernel
  rw [e] at h1; injection h1 with h1
  subst h1
  have hf : IsF64 ((1 + 1 / 2 ^ 52) * (1 + 1 / 2 ^ 52) + -(1 + 1 / 2 ^ 51)) := ⟨1, 970, by decide, by decide, by decide +kernel⟩
  have h3 := rounds_exact h2 hf
  exact absurd h3 (by decide +kernel)

/-- If product and sum are fused, which the language allows and the compiler does on some processors, the value is rounded
once only and the full claim holds. -/
theorem C87_fused {a b x : F64} {A B X : Rat} (hA : number a = some A) (hB : number b = some B) (hX : number x = some X) :
    Rounds (A * X + B) (fusedLinear a b x) := by
  obtain ⟨sa, na, rfl⟩ := finite_form hA
  obtain ⟨sb, nb, rfl⟩ := finite_form hB
  obtain ⟨sx, nx, rfl⟩ := finite_form hX
  have h1 := number_units hA
  have h2 := number_units hB
  have h3 := number_units hX
  have hU : (((2 : Nat) ^ 1074 : Nat) : Rat) = 2 ^ 1074 := by rw [Rat.natCast_pow]; rfl
  have hpos : 0 < (2 : Nat) ^ 1074 := Nat.pow_pos (by decide)
  have key : (A * X + B) * (((2 ^ 1074 : Nat) : Rat) * 2 ^ 1074) =
      ((signed (sa != sx) (na * nx) + signed sb (nb * 2 ^ 1074) : Int) : Rat) := by
    have e : ((signed sb (nb * 2 ^ 1074) : Int) : Rat) = (signed sb nb : Rat) * 2 ^ 1074 := by
      rw [← hU]
      generalize (2 : Nat) ^ 1074 = u
      cases sb <;> simp [signed, Rat.intCast_neg, Rat.intCast_mul, int_nat] <;> grind
    rw [Rat.intCast_add, signed_cast_mul, e, ← h1, ← h2, ← h3, hU]
    generalize (2 : Rat) ^ 1074 = U
    grind
  unfold fusedLinear
  simp only
  generalize na * nx = p at *
  generalize nb * 2 ^ 1074 = q at *
  generalize (sa != sx) = s at *
  by_cases hst : s = sb
  · rw [if_pos hst]
    subst hst
    exact ofQuot_rounds s (p + q) hpos (by rw [key, signed_add_same])
  · rw [if_neg hst]
    rcases Nat.lt_trichotomy p q with h | h | h
    · rw [if_neg (Nat.lt_asymm h), if_pos h]
      refine ofQuot_rounds sb (q - p) hpos ?_
      rw [key]; congr 1
      rw [Int.add_comm]; exact (signed_sub h (fun e => hst e.symm)).symm
    · subst h
      rw [if_neg (Nat.lt_irrefl _), if_neg (Nat.lt_irrefl _), ← ofQuot_zero false (2 ^ 1074)]
      refine ofQuot_rounds false 0 hpos ?_
      rw [key]; congr 1
      exact signed_cancel hst
    · rw [if_pos h]
      refine ofQuot_rounds s (p - q) hpos ?_
      rw [key]; congr 1
      exact (signed_sub h hst).symm

/-- So the value depends on the processor the program was compiled for. -/
theorem C87_processor_false : ¬ ∀ (a b x : F64) (A B X : Rat), number a = some A → number b = some B → number x = some X →
    convDecToPhy64 none x { conversionType := .linear, linA := some a, linB := some b } = .ok (fusedLinear a b x) := by
  intro h
  have := h (ofBits 0x3ff0000000000001) (ofBits 0xbff0000000000002) (ofBits 0x3ff0000000000001)
    (1 + 1 / 2 ^ 52) (-(1 + 1 / 2 ^ 51)) (1 + 1 / 2 ^ 52) (by decide +kernel) (by decide +kernel) (by decide +kernel)
  exact absurd this (by decide +kernel)

/-- The conversion of a finite value by finite coefficients can be infinite, and no error is reported: 2^1023 * 2. -/
theorem C87_overflow_false : ¬ ∀ (a b x r : F64) (A B X : Rat), number a = some A → number b = some B → number x = some X →
    convDecToPhy64 none x { conversionType := .linear, linA := some a, linB := some b } = .ok r → ∃ V, number r = some V := by
  intro h
  obtain ⟨V, hV⟩ := h (ofBits 0x7fe0000000000000) (ofBits 0) (ofBits 0x4000000000000000) (.inf false) (2 ^ 1023) 0 2
    (by decide +kernel) (by decide +kernel) (by decide +kernel) (by decide +kernel)
  cases hV

/-! ### Tables -/

/-- `==` of finite numbers compares the numbers (`-0 == 0`). -/
theorem eq_number {x y : F64} {X Y : Rat} (hX : number x = some X) (hY : number y = some Y) : F64.eq x y = true ↔ X = Y := by
  obtain ⟨s, a, rfl⟩ := finite_form hX
  obtain ⟨t, b, rfl⟩ := finite_form hY
  have h1 := number_units hX
  have h2 := number_units hY
  have hiff : X = Y ↔ signed s a = signed t b := by
    constructor
    · rintro rfl
      rw [h1] at h2; exact_mod_cast h2
    · intro h
      rw [h, ← h2] at h1
      rw [← Rat.mul_div_cancel (a := X) unit_ne, h1, Rat.mul_div_cancel unit_ne]
  rw [hiff]
  cases s <;> cases t <;> simp [F64.eq, signed] <;> omega

theorem lookup_number {x : F64} {X : Rat} (hX : number x = some X) (outs : List F64) (outs' : List Rat)
    (ho : outs.map number = outs'.map some) : ∀ (ins : List F64) (ins' : List Rat) (i : Nat), ins.map number = ins'.map some →
    (lookupLoop64 x outs ins i).map (fun r => r.bind fun v => .ok (number v)) =
      (lookupLoop X outs' ins' i).map (fun r => r.bind fun v => .ok (some v))
  | [], [], _, _ => rfl
  | [], _ :: _, _, h => by simp at h
  | _ :: _, [], _, h => by simp at h
  | k :: ks, k' :: ks', i, h => by
    simp only [List.map_cons, List.cons.injEq] at h
    have he := eq_number hX h.1
    unfold lookupLoop64 lookupLoop
    by_cases hk : X = k'
    · rw [if_pos hk, if_pos (he.2 hk)]
      have hget : (outs[i]?).map number = (outs'[i]?).map some := by
        rw [← List.getElem?_map, ← List.getElem?_map, ho]
      simp only [Option.map_some, index?]
      cases h1 : outs[i]? <;> cases h2 : outs'[i]? <;> rw [h1, h2] at hget <;> simp at hget
      · rfl
      · simp [orPanic, Res.bind, hget]
    · rw [if_neg hk, if_neg (fun e => hk (he.1 e))]
      exact lookup_number hX outs outs' ho ks ks' (i + 1) h.2

/-- TAB_NOINTP does not calculate, so nothing is rounded: the model with `float64` and the one with rational numbers
(`calcTabNoIntp`) agree for every table, also in errors and panics. -/
theorem C87_table {P : Type} (cd : CalData P) (m : Module P) (cm : CompuMethod) (found : Option Tab64) {x : F64} {X : Rat}
    (hm : cd.module? = some m) (hX : number x = some X)
    (ht : TableIs (found.getD {}) ((m.compuTabs cm.compuTabRef).getD {})) :
    ((calcTabNoIntp64 x found).bind fun v => .ok (number v)) = ((calcTabNoIntp X cm cd).bind fun v => .ok (some v)) := by
  unfold calcTabNoIntp64 calcTabNoIntp
  rw [hm]
  simp only
  generalize found.getD {} = t at ht ⊢
  generalize (m.compuTabs cm.compuTabRef).getD {} = c at ht ⊢
  obtain ⟨h1, h2, h3, h4, h5⟩ := ht
  have hl := lookup_number hX t.outVal c.outVal h2 t.inVal c.inVal 0 h1
  have hd : ∀ (d : Option F64) (d' : Option Rat), d.map number = d'.map some →
      (d = none ∧ d' = none) ∨ ∃ v w, d = some v ∧ d' = some w ∧ number v = some w := by
    intro d d' h
    cases d <;> cases d' <;> simp at h
    · exact Or.inl ⟨rfl, rfl⟩
    · exact Or.inr ⟨_, _, rfl, rfl, h⟩
  rw [h4, h5]
  split
  · cases e1 : lookupLoop64 x t.outVal t.inVal 0 <;> cases e2 : lookupLoop X c.outVal c.inVal 0 <;> rw [e1, e2] at hl <;> simp at hl
    · rcases hd _ _ h3 with ⟨a, b⟩ | ⟨v, w, a, b, g⟩ <;> rw [a, b] <;> simp [Res.bind, *]
    · exact hl
  · rcases hd _ _ h3 with ⟨a, b⟩ | ⟨v, w, a, b, g⟩ <;> rw [a, b] <;> simp [Res.bind, *]

/-! ### RAT_FUNC -/

theorem zero_mul_fin (s t : Bool) (n : Nat) : mul (.fin s 0) (.fin t n) = .fin (s != t) 0 := by
  simp only [mul, Nat.zero_mul]; exact ofQuot_zero _ _

theorem sub_zero_zero (s t : Bool) : ∃ u, sub (.fin s 0) (.fin t 0) = .fin u 0 := by
  unfold sub neg add
  simp only [Nat.lt_irrefl, if_false, Nat.add_zero]
  split
  · exact ⟨_, ofQuot_zero _ _⟩
  · exact ⟨_, rfl⟩

/-- The usual RAT_FUNC with a = d = 0 (a linear function) is refused for every finite value, in `float64` too. -/
theorem C87_ratfunc_refused (b c e f : F64) (s t : Bool) {x : F64} {X : Rat} (hX : number x = some X) :
    calcRatFunc64 (.fin s 0) b c (.fin t 0) e f x = .err := by
  obtain ⟨u, n, rfl⟩ := finite_form hX
  have h2 : ∃ k, ofInt 2 = .fin false k := ⟨2 * 2 ^ 1074, by decide +kernel⟩
  have h0 : ofInt 0 = .fin false 0 := by decide +kernel
  obtain ⟨k, hk⟩ := h2
  unfold calcRatFunc64
  simp only
  rw [zero_mul_fin]
  obtain ⟨w, hw⟩ := sub_zero_zero s (t != u)
  rw [hw, hk, h0]
  have : mul (.fin false k) (.fin w 0) = .fin (false != w) 0 := by
    simp only [mul, Nat.mul_zero]; exact ofQuot_zero _ _
  rw [this]
  simp [F64.eq]

theorem eq_nan (x : F64) : F64.eq .nan x = false := by cases x <;> rfl
theorem add_nan (x : F64) : add x .nan = .nan := by cases x <;> rfl
theorem div_nan (x : F64) : div x .nan = .nan := by cases x <;> rfl
theorem mul_nan (x : F64) : mul x .nan = .nan := by cases x <;> rfl
theorem nan_add (x : F64) : add .nan x = .nan := by cases x <;> rfl
theorem nan_div (x : F64) : div .nan x = .nan := by cases x <;> rfl

/-- If the number under the root comes out negative, RAT_FUNC returns NaN as if it were a value. -/
theorem C87_ratfunc_nan (a b c d e f x : F64) (n : Nat)
    (hdiv : F64.eq (mul (ofInt 2) (sub a (mul d x))) (ofInt 0) = false)
    (hneg : sub (pow2 (sub (mul e x) b)) (mul (mul (ofInt 4) (sub (mul d x) a)) (sub (mul f x) c)) = .fin true (n + 1)) :
    calcRatFunc64 a b c d e f x = .ok .nan := by
  have hs : F64.sqrt (.fin true (n + 1)) = .nan := by simp [F64.sqrt]
  unfold calcRatFunc64
  simp only
  rw [hdiv, hneg, hs]
  simp only [nan_div, add_nan, sub, neg, eq_nan, div_nan, mul_nan, Bool.not_false, Bool.and_self, if_true, nan_add]
  simp [eq_nan]

/-! ### From the bytes to the physical value -/

theorem isDouble_shift {i : Int} (h : IsDouble i) (n : Nat) : IsDouble (i * 2 ^ n) := by
  obtain ⟨m, k, h1, rfl⟩ := h
  exact ⟨m, k + n, h1, by rw [Int.pow_add, Int.mul_assoc]⟩

/-- An integer with at most 53 significant digits is a `float64` with that value. -/
theorem ofInt_number {i : Int} (hd : IsDouble i) (hl : i.natAbs < 2 ^ 1024) : number (ofInt i) = some (i : Rat) := by
  have hr : Rounds (i : Rat) (ofInt i) := by
    refine ofQuot_rounds (decide (i < 0)) (i.natAbs * 2 ^ 1074) (by decide) ?_
    have e : signed (decide (i < 0)) (i.natAbs * 2 ^ 1074) = i * 2 ^ 1074 := by
      generalize 1074 = n
      unfold signed
      have e : ((i.natAbs * 2 ^ n : Nat) : Int) = (i.natAbs : Int) * 2 ^ n := by push_cast; rfl
      rw [e]
      by_cases hn : i < 0
      · rw [if_pos (by simpa using hn), show (i.natAbs : Int) = -i by omega, Int.neg_mul, Int.neg_neg]
      · rw [if_neg (by simpa using hn), show (i.natAbs : Int) = i by omega]
    rw [e, cast_mul_pow]
    generalize (2 : Rat) ^ 1074 = U
    grind
  refine rounds_exact hr (isF64_of (Y := i * 2 ^ 1074) (by rw [cast_mul_pow]) ?_ ?_)
  · exact isDouble_shift hd _
  · rw [Int.natAbs_mul, Int.natAbs_pow]
    have : (2 : Nat) ^ 2098 = 2 ^ 1024 * 2 ^ 1074 := by rw [← Nat.pow_add]
    have hp : 0 < (2 : Nat) ^ 1074 := Nat.pow_pos (by decide)
    rw [this, show Int.natAbs 2 = 2 from rfl]
    generalize (2 : Nat) ^ 1074 = u at hp ⊢
    exact Nat.mul_lt_mul_of_pos_right hl hp

/-- An unsigned value of at most four bytes, converted by LINEAR: the integer written in the bytes is the raw value, without
rounding, and the physical value is `a * n + b` with product and sum rounded. -/
theorem C87_bytes_partial {P : Type} (cd : CalData P) (m : Module P) (d : DataType) (bs : List Nat) (e : Endian)
    (hm : cd.modules[cd.moduleIndex]? = some m) (hw : OrderWf m.modCommon) (he : endianOf m.modCommon = some e)
    (hd : d = .ubyte ∨ d = .uword) (hl : taken d ≤ bs.length) (hbytes : e.number (bs.take (taken d)) < 2 ^ 32)
    (found : Option Tab64) (cm : Method64) {a b : F64} {A B : Rat}
    (ht : cm.conversionType = .linear) (ha : cm.linA = some a) (hb : cm.linB = some b)
    (hA : number a = some A) (hB : number b = some B) :
    ∃ v u r, convertByteSliceToDatatype cd bs d = .ok v ∧ convDecToPhy64 found v.toFloat cm = .ok r ∧
      Rounds (A * (e.number (bs.take (taken d)) : Nat)) u ∧
      (∀ U, number u = some U → Rounds (U + B) r) ∧ (∀ s, u = .inf s → r = .inf s) := by
  have hne : d ≠ .undefined := by rcases hd with rfl | rfl <;> decide
  have hask : asked d ≤ bs.length := by rcases hd with rfl | rfl <;> exact hl
  obtain ⟨v, hv, hdec⟩ := ((C42_exact cd m d bs hm hw).2 e he hne hask).2 hl
  generalize e.number (bs.take (taken d)) = n at *
  have hnum : number v.toFloat = some ((n : Nat) : Rat) := by
    obtain ⟨r, rfl, hr⟩ : ∃ r, v = .num r ∧ IsNearest n r := by rcases hd with rfl | rfl <;> exact hdec
    have hself : IsDouble (n : Int) := isDouble_small (by omega)
    have h0 := hr.near n hself
    have hrn : r = n := by omega
    subst hrn
    have hlt : ((n : Nat) : Int).natAbs < 2 ^ 1024 := by
      rw [Int.natAbs_natCast]
      exact Nat.lt_of_lt_of_le hbytes (Nat.pow_le_pow_right (by decide) (by decide))
    exact ofInt_number hself hlt
  obtain ⟨u, r, h1, h2, h3, h4⟩ := C87_linear_partial found cm ht ha hb hA hB hnum
  exact ⟨v, u, r, hv, h1, h2, h3, h4⟩

/-- The byte 7 with the factor 0.1 and the offset 0. -/
example : ∃ v u r, convertByteSliceToDatatype (P := Unit) { modules := [{}] } [7] .ubyte = .ok v ∧
    convDecToPhy64 none v.toFloat { conversionType := .linear, linA := some (ofBits 0x3fb999999999999a), linB := some (ofBits 0) } = .ok r ∧
    Rounds (3602879701896397 / 2 ^ 55 * ((Endian.big.number ([7].take (taken .ubyte)) : Nat) : Rat)) u ∧
    (∀ U, number u = some U → Rounds (U + 0) r) ∧ (∀ s, u = .inf s → r = .inf s) :=
  C87_bytes_partial _ {} .ubyte [7] .big rfl (by decide) rfl (Or.inl rfl) (by decide) (by decide) none _ rfl rfl rfl (by decide +kernel) (by decide +kernel)

/-- 0.1 * 3 + 0.2 is rounded twice, and fused once. -/
example : ∃ u r, convDecToPhy64 none (ofInt 3) { conversionType := .linear, linA := some (ofBits 0x3fb999999999999a), linB := some (ofBits 0x3fc999999999999a) } = .ok r ∧
    Rounds (3602879701896397 / 2 ^ 55 * 3) u ∧ (∀ U, number u = some U → Rounds (U + 3602879701896397 / 2 ^ 54) r) ∧ (∀ s, u = .inf s → r = .inf s) :=
  C87_linear_partial none _ rfl rfl rfl (by decide +kernel) (by decide +kernel) (by decide +kernel)

example : Rounds (3602879701896397 / 2 ^ 55 * 3 + 3602879701896397 / 2 ^ 54)
    (fusedLinear (ofBits 0x3fb999999999999a) (ofBits 0x3fc999999999999a) (ofInt 3)) :=
  C87_fused (by decide +kernel) (by decide +kernel) (by decide +kernel)

/-- The error bound for the same numbers; the value delivered is 0.5. -/
example : ∃ A B : Rat, number (ofBits 0x3fb999999999999a) = some A ∧ number (ofBits 0x3fc999999999999a) = some B ∧
    ∃ U, 2 ^ 53 * 2 ^ 1074 * (U - A * 3).abs ≤ 2 ^ 1074 * (A * 3).abs + 2 ^ 52 ∧
      2 ^ 53 * 2 ^ 1074 * ((1 / 2 : Rat) - (U + B)).abs ≤ 2 ^ 1074 * (U + B).abs + 2 ^ 52 := by
  have hA : number (ofBits 0x3fb999999999999a) = some ((3602879701896397 : Rat) / (2 : Rat) ^ 55) := by decide +kernel
  have hB : number (ofBits 0x3fc999999999999a) = some ((3602879701896397 : Rat) / (2 : Rat) ^ 54) := by decide +kernel
  have hX : number (ofInt 3) = some 3 := by decide +kernel
  have hV : number (ofBits 0x3fe0000000000000) = some (1 / 2) := by decide +kernel
  have hr : convDecToPhy64 none (ofInt 3) { conversionType := .linear, linA := some (ofBits 0x3fb999999999999a), linB := some (ofBits 0x3fc999999999999a) }
      = .ok (ofBits 0x3fe0000000000000) := by decide +kernel
  exact ⟨_, _, hA, hB, C87_error_partial none _ rfl rfl rfl hA hB hX hr hV⟩

/-- The root of 2. -/
example : ∃ n x r, number (.fin false n) = some x ∧ x = 2 ∧ number (F64.sqrt (.fin false n)) = some r ∧ RoundsRoot x r := by
  have hx : number (.fin false (2 * 2 ^ 1074)) = some 2 := by decide +kernel
  obtain ⟨r, h1, h2⟩ := sqrt_rounds (n := 2 * 2 ^ 1074) (by decide +kernel) hx (by decide +kernel)
  exact ⟨_, _, r, hx, rfl, h1, h2⟩

/-- 1 / 3 is rounded as the standard demands, and there is only one such result. -/
example : ∃ r, Rounds (1 / 3) r ∧ ∀ r', Rounds (1 / 3) r' → r' = r := by
  have hn : number (ofInt 1) = some 1 := by decide +kernel
  have hm : number (ofInt 3) = some 3 := by decide +kernel
  obtain ⟨_, _, e1⟩ := finite_form hn
  obtain ⟨_, _, e3⟩ := finite_form hm
  rw [e1] at hn
  rw [e3] at hm
  have h := div_rounds hn hm (by decide +kernel)
  exact ⟨_, h, fun r' h' => rounds_unique (by decide +kernel) h' h⟩

/-- 0.5 * 3 + 0.25 = 1.75 without any rounding, in both models. -/
example : ∃ r, convDecToPhy64 none (ofInt 3) { conversionType := .linear, linA := some (ofBits 0x3fe0000000000000), linB := some (ofBits 0x3fd0000000000000) } = .ok r ∧
    number r = some ((1 / 2 : Rat) * 3 + 1 / 4) ∧
    convDecToPhy (P := Unit) (fun _ => none) 3 { conversionType := .linear, linA := some (1 / 2), linB := some (1 / 4) } {} = .ok (number r) := by
  have hA : number (ofBits 0x3fe0000000000000) = some (1 / 2) := by decide +kernel
  have hB : number (ofBits 0x3fd0000000000000) = some (1 / 4) := by decide +kernel
  have hX : number (ofInt 3) = some 3 := by decide +kernel
  exact C87_exact_partial _ _ none _ _ rfl rfl rfl rfl rfl rfl hA hB hX
    ⟨3, 1073, by decide, by decide, by decide +kernel⟩ ⟨7, 1072, by decide, by decide, by decide +kernel⟩

/-- y = x² + 1 has no solution for y = 0. -/
example : calcRatFunc64 (ofInt 1) (ofInt 0) (ofInt 1) (ofInt 0) (ofInt 0) (ofInt 1) (ofInt 0) = .ok .nan :=
  C87_ratfunc_nan _ _ _ _ _ _ _ (4 * 2 ^ 1074 - 1) (by decide +kernel) (by decide +kernel)

/-- y = (2 x) / 1, raw value 5. -/
example : calcRatFunc64 (ofInt 0) (ofInt 2) (ofInt 0) (ofInt 0) (ofInt 0) (ofInt 1) (ofInt 5) = .err := by
  rw [show ofInt 0 = .fin false 0 by decide +kernel]
  exact C87_ratfunc_refused _ _ _ _ false false (x := ofInt 5) (X := 5) (by decide +kernel)

/-- A table with the rows 0 → 0.5 and 1 → 0.25. -/
example : ((calcTabNoIntp64 (ofInt 1) (some { inVal := [ofInt 0, ofInt 1], inValSet := true, outVal := [ofBits 0x3fe0000000000000, ofBits 0x3fd0000000000000], outValSet := true })).bind
    fun v => .ok (number v)) = .ok (some (1 / 4)) := by
  rw [C87_table (P := Unit) { modules := [{ compuTabs := fun _ => some { inVal := [0, 1], inValSet := true, outVal := [1 / 2, 1 / 4], outValSet := true } }] } _ {} _
    rfl (X := 1) (by decide +kernel) ⟨by decide +kernel, by decide +kernel, rfl, rfl, rfl⟩]
  decide +kernel

end Verif.Calib.Props
