import Verif.Calib.Float64Claims

/-! # C87: bit patterns, special values, all data types, and the agreement with the exact arithmetic for every method -/

namespace Verif.Calib.Spec
open Verif.Go F64

/-- The `float64` with the bit pattern `b`: sign, 11 bits of exponent, 52 bits of fraction (IEEE 754, 3.4). -/
def IsBits64 (b : Nat) (x : F64) : Prop :=
  ∃ (s : Bool) (e m : Nat), e < 2 ^ 11 ∧ m < 2 ^ 52 ∧ b = s.toNat * 2 ^ 63 + e * 2 ^ 52 + m ∧
    (e = 2047 → x = if m = 0 then .inf s else .nan) ∧
    (e ≠ 2047 → ∃ n v, x = .fin s n ∧ number x = some v ∧
      v = (if s then -1 else 1) * (if e = 0 then (m : Rat) / 2 ^ 1074 else (1 + (m : Rat) / 2 ^ 52) * 2 ^ e / 2 ^ 1023))

/-- The number with the bit pattern `b` of a `float32`: sign, 8 bits of exponent, 23 bits of fraction. -/
def IsBits32 (b : Nat) (x : F64) : Prop :=
  ∃ (s : Bool) (e m : Nat), e < 2 ^ 8 ∧ m < 2 ^ 23 ∧ b = s.toNat * 2 ^ 31 + e * 2 ^ 23 + m ∧
    (e = 255 → x = if m = 0 then .inf s else .nan) ∧
    (e ≠ 255 → ∃ n v, x = .fin s n ∧ number x = some v ∧
      v = (if s then -1 else 1) * (if e = 0 then (m : Rat) / 2 ^ 149 else (1 + (m : Rat) / 2 ^ 23) * 2 ^ e / 2 ^ 127))

/-- What the bytes of a value of the type `d`, read as the number `n`, stand for as a `float64`. -/
def RawIs (d : DataType) (n : Nat) (x : F64) : Prop :=
  match d with
  | .ubyte | .uword | .ulong | .aUint64 | .float16 => ∃ r : Int, number x = some (r : Rat) ∧ IsNearest n r
  | .sbyte | .sword | .slong | .aInt64 => ∃ r : Int, number x = some (r : Rat) ∧ IsNearest (twosComplement (Props.taken d) n) r
  | .float32 => IsBits32 n x
  | .float64 => IsBits64 n x
  | .undefined => False

/-- No step of the calculation of RAT_FUNC has to be rounded; `s` is the root, if the number under it is not negative. -/
structure ExactSteps (a b c d e f x : Rat) (s : Option Rat) : Prop where
  dx : IsF64 (d * x)
  adx : IsF64 (a - d * x)
  first : IsF64 (2 * (a - d * x))
  ex : IsF64 (e * x)
  exb : IsF64 (e * x - b)
  square : IsF64 ((e * x - b) * (e * x - b))
  dxa : IsF64 (d * x - a)
  four : IsF64 (4 * (d * x - a))
  fx : IsF64 (f * x)
  fxc : IsF64 (f * x - c)
  prod : IsF64 (4 * (d * x - a) * (f * x - c))
  disc : IsF64 ((e * x - b) * (e * x - b) - 4 * (d * x - a) * (f * x - c))
  negative : s = none → (e * x - b) * (e * x - b) - 4 * (d * x - a) * (f * x - c) < 0
  root : ∀ r, s = some r → 0 ≤ r ∧ IsF64 r ∧ r * r = (e * x - b) * (e * x - b) - 4 * (d * x - a) * (f * x - c) ∧
    IsF64 (r / (2 * (a - d * x))) ∧
    IsF64 (2 * (a - d * x) + r / (2 * (a - d * x))) ∧ IsF64 (2 * (a - d * x) - r / (2 * (a - d * x))) ∧
    ∀ p q, p = (e * x - b) / (2 * (a - d * x) + r / (2 * (a - d * x))) →
      q = (e * x - b) / (2 * (a - d * x) - r / (2 * (a - d * x))) →
      IsF64 p ∧ IsF64 q ∧
      (2 * (a - d * x) + r / (2 * (a - d * x)) ≠ 0 → 2 * (a - d * x) - r / (2 * (a - d * x)) ≠ 0 →
        IsF64 (a * p) ∧ IsF64 (a * p * p) ∧ IsF64 (b * p) ∧ IsF64 (a * p * p + b * p) ∧ IsF64 (a * p * p + b * p + c) ∧
        IsF64 (d * p) ∧ IsF64 (d * p * p) ∧ IsF64 (e * p) ∧ IsF64 (d * p * p + e * p) ∧ IsF64 (d * p * p + e * p + f) ∧
        IsF64 ((a * p * p + b * p + c) / (d * p * p + e * p + f)))

/-- The numbers and infinities of the standard without the operations: `sgn` is the sign, zero has one too. -/
inductive Kind | nan | inf | zero | number
  deriving DecidableEq

def kind : F64 → Kind
  | .nan => .nan
  | .inf _ => .inf
  | .fin _ n => if n = 0 then .zero else .number

def sgn : F64 → Bool
  | .nan => false
  | .inf s => s
  | .fin s _ => s

/-- The results of the operations that are no rounded numbers (IEEE 754, sections 6 and 7.2, 7.3): `none` where the operands are numbers and
the result is rounded. -/
def addKind (x y : F64) : Option F64 :=
  match kind x, kind y with
  | .nan, _ | _, .nan => some .nan
  | .inf, .inf => some (if sgn x = sgn y then .inf (sgn x) else .nan)
  | .inf, _ => some (.inf (sgn x))
  | _, .inf => some (.inf (sgn y))
  | .zero, .zero => some (.fin (sgn x && sgn y) 0)
  | _, _ => none

def mulKind (x y : F64) : Option F64 :=
  match kind x, kind y with
  | .nan, _ | _, .nan | .inf, .zero | .zero, .inf => some .nan
  | .inf, _ | _, .inf => some (.inf (sgn x != sgn y))
  | .zero, _ | _, .zero => some (.fin (sgn x != sgn y) 0)
  | .number, .number => none

def divKind (x y : F64) : Option F64 :=
  match kind x, kind y with
  | .nan, _ | _, .nan | .inf, .inf | .zero, .zero => some .nan
  | .inf, _ | _, .zero => some (.inf (sgn x != sgn y))
  | .zero, _ | _, .inf => some (.fin (sgn x != sgn y) 0)
  | .number, .number => none

def sqrtKind (x : F64) : Option F64 :=
  match kind x, sgn x with
  | .nan, _ => some .nan
  | .zero, s => some (.fin s 0)
  | .inf, false => some (.inf false)
  | .number, false => none
  | _, true => some .nan

/-- The method with `float64` coefficients and the one with rational coefficients are the same. -/
structure MethodIs (m : Method64) (k : CompuMethod) : Prop where
  type : m.conversionType = k.conversionType
  a : m.a.map number = k.coeffs.a.map some
  b : m.b.map number = k.coeffs.b.map some
  c : m.c.map number = k.coeffs.c.map some
  d : m.d.map number = k.coeffs.d.map some
  e : m.e.map number = k.coeffs.e.map some
  f : m.f.map number = k.coeffs.f.map some
  linA : m.linA.map number = k.linA.map some
  linB : m.linB.map number = k.linB.map some

end Verif.Calib.Spec

namespace Verif.Calib.Props
open Verif.Go Spec F64

seal F64.ofQuot

/-! ### Bit patterns -/

theorem number_fin_eq (s : Bool) (n : Nat) : number (.fin s n) = some ((if s then -1 else 1) * ((n : Rat) / 2 ^ 1074)) := by
  unfold number
  generalize (2 : Rat) ^ 1074 = U
  congr 1
  cases s <;> simp <;> grind

theorem two_pow_add (a b : Nat) : (2 : Rat) ^ (a + b) = 2 ^ a * 2 ^ b := by
  induction b with
  | zero => simp
  | succ n ih => rw [← Nat.add_assoc, Rat.pow_succ, Rat.pow_succ, ih, Rat.mul_assoc]

theorem pow2_ne (n : Nat) : (2 : Rat) ^ n ≠ 0 := by
  have : (0 : Rat) < 2 ^ n := Rat.pow_pos (by decide)
  grind

theorem nat_pow_cast (n : Nat) : (((2 : Nat) ^ n : Nat) : Rat) = 2 ^ n := by rw [Rat.natCast_pow]; rfl

theorem unit_split (j k : Nat) (h : j + k = 1074) : (2 : Rat) ^ 1074 = 2 ^ j * 2 ^ k := by rw [← h, two_pow_add]

/-- Every bit pattern of 64 bits is the number the standard says. -/
theorem C87_bits64 {b : Nat} (hb : b < 2 ^ 64) : IsBits64 b (ofBits b) := by
  refine ⟨decide (b / 2 ^ 63 % 2 = 1), b / 2 ^ 52 % 2 ^ 11, b % 2 ^ 52, Nat.mod_lt _ (by decide), Nat.mod_lt _ (by decide), ?_, ?_, ?_⟩
  · by_cases h : b / 2 ^ 63 % 2 = 1
    · simp only [h, decide_true, Bool.toNat_true]; omega
    · simp only [h, decide_false, Bool.toNat_false]; omega
  · intro h
    unfold ofBits
    simp only [h, if_true]
  · intro h
    unfold ofBits
    simp only [if_neg h]
    generalize decide (b / 2 ^ 63 % 2 = 1) = s
    generalize b % 2 ^ 52 = m
    generalize b / 2 ^ 52 % 2 ^ 11 = e at *
    by_cases h0 : e = 0
    · simp only [if_pos h0]
      exact ⟨_, _, rfl, number_fin_eq s m, rfl⟩
    · simp only [if_neg h0]
      refine ⟨_, _, rfl, number_fin_eq s _, ?_⟩
      refine congrArg (fun z : Rat => (if s then (-1 : Rat) else 1) * z) ?_
      rw [Rat.natCast_mul, Rat.natCast_add, nat_pow_cast, nat_pow_cast, unit_split 1023 51 rfl,
        show e = (e - 1) + 1 by omega, two_pow_add (e - 1) 1, Nat.add_sub_cancel]
      have hU := pow2_ne 1023
      generalize (2 : Rat) ^ 1023 = U at *
      generalize (2 : Rat) ^ (e - 1) = P at *
      grind

/-- Every bit pattern of 32 bits is the number the standard says. -/
theorem C87_bits32 {b : Nat} (hb : b < 2 ^ 32) : IsBits32 b (ofBits32 b) := by
  refine ⟨decide (b / 2 ^ 31 % 2 = 1), b / 2 ^ 23 % 2 ^ 8, b % 2 ^ 23, Nat.mod_lt _ (by decide), Nat.mod_lt _ (by decide), ?_, ?_, ?_⟩
  · by_cases h : b / 2 ^ 31 % 2 = 1
    · simp only [h, decide_true, Bool.toNat_true]; omega
    · simp only [h, decide_false, Bool.toNat_false]; omega
  · intro h
    unfold ofBits32
    simp only [h, if_true]
  · intro h
    unfold ofBits32
    simp only [if_neg h]
    generalize decide (b / 2 ^ 31 % 2 = 1) = s
    generalize b % 2 ^ 23 = m
    generalize b / 2 ^ 23 % 2 ^ 8 = e at *
    by_cases h0 : e = 0
    · simp only [if_pos h0]
      refine ⟨_, _, rfl, number_fin_eq s _, ?_⟩
      refine congrArg (fun z : Rat => (if s then (-1 : Rat) else 1) * z) ?_
      rw [Rat.natCast_mul, nat_pow_cast, unit_split 925 149 rfl]
      have hU := pow2_ne 925
      have hV := pow2_ne 149
      generalize (2 : Rat) ^ 925 = U at *
      generalize (2 : Rat) ^ 149 = V at *
      grind
    · simp only [if_neg h0]
      refine ⟨_, _, rfl, number_fin_eq s _, ?_⟩
      refine congrArg (fun z : Rat => (if s then (-1 : Rat) else 1) * z) ?_
      rw [Rat.natCast_mul, Rat.natCast_add, nat_pow_cast, nat_pow_cast, unit_split 925 149 rfl, two_pow_add (e - 1) 925,
        show (2 : Rat) ^ e = 2 ^ (e - 1 + 1) by rw [Nat.sub_add_cancel (by omega)], two_pow_add (e - 1) 1,
        show (2 : Rat) ^ 149 = 2 ^ 127 * 2 ^ 22 from two_pow_add 127 22]
      have hU := pow2_ne 925
      have hV := pow2_ne 127
      generalize (2 : Rat) ^ 127 = V at *
      generalize (2 : Rat) ^ 925 = U at *
      generalize (2 : Rat) ^ (e - 1) = P at *
      grind

/-! ### The raw value of every data type -/

theorem nearest_bound {x r : Int} (h : IsNearest x r) : r.natAbs ≤ 2 * x.natAbs := by
  have := h.near 0 ⟨0, 0, by decide, by decide⟩
  omega

theorem raw_int {x r : Int} (h : IsNearest x r) (hx : x.natAbs ≤ 2 ^ 64) : number (ofInt r) = some (r : Rat) := by
  refine ofInt_number h.double ?_
  refine Nat.lt_of_le_of_lt (nearest_bound h) (Nat.lt_of_le_of_lt (Nat.mul_le_mul_left 2 hx) ?_)
  rw [← Nat.pow_succ']
  exact Nat.pow_lt_pow_right (by decide) (by decide)

theorem big_lt : ∀ (bs : List Nat), (∀ b ∈ bs, b < 256) → bigEndian bs < 256 ^ bs.length
  | [], _ => by decide
  | b :: bs, h => by
    have h1 := big_lt bs (fun x hx => h x (List.mem_cons_of_mem _ hx))
    have h2 := h b List.mem_cons_self
    simp only [bigEndian, List.length_cons, Nat.pow_succ]
    have h3 : b * 256 ^ bs.length ≤ 255 * 256 ^ bs.length := Nat.mul_le_mul_right _ (by omega)
    omega

theorem little_lt : ∀ (bs : List Nat), (∀ b ∈ bs, b < 256) → littleEndian bs < 256 ^ bs.length
  | [], _ => by decide
  | b :: bs, h => by
    have h1 := little_lt bs (fun x hx => h x (List.mem_cons_of_mem _ hx))
    have h2 := h b List.mem_cons_self
    simp only [littleEndian, List.length_cons, Nat.pow_succ]
    omega

theorem number_bound (e : Endian) (bs : List Nat) (k : Nat) (h : ∀ b ∈ bs, b < 256) (hk : k ≤ bs.length) :
    e.number (bs.take k) < 256 ^ k := by
  have h1 : ∀ b ∈ bs.take k, b < 256 := fun b hb => h b (List.mem_of_mem_take hb)
  have h2 : (bs.take k).length = k := by rw [List.length_take]; omega
  cases e
  · have := big_lt _ h1
    rw [h2] at this; exact this
  · have := little_lt _ h1
    rw [h2] at this; exact this

/-- The raw value of every data type: integers are the nearest `float64`, floating point numbers are exact. (ULONG and
SLONG are read from 8 bytes, see C42; FLOAT16 is taken as an integer.) -/
theorem C87_raw {P : Type} (cd : CalData P) (m : Module P) (d : DataType) (bs : List Nat) (e : Endian)
    (hm : cd.modules[cd.moduleIndex]? = some m) (hw : OrderWf m.modCommon) (he : endianOf m.modCommon = some e)
    (hd : d ≠ .undefined) (hl : taken d ≤ bs.length) (hb : ∀ b ∈ bs, b < 256) :
    ∃ v, convertByteSliceToDatatype cd bs d = .ok v ∧ RawIs d (e.number (bs.take (taken d))) v.toFloat := by
  have hask : asked d ≤ bs.length := Nat.le_trans (by cases d <;> decide) hl
  obtain ⟨v, hv, hdec⟩ := ((C42_exact cd m d bs hm hw).2 e he hd hask).2 hl
  have hn := number_bound e bs (taken d) hb hl
  refine ⟨v, hv, ?_⟩
  generalize e.number (bs.take (taken d)) = n at *
  have hun : n ≤ 2 ^ 64 → ∀ r, IsNearest n r → number (ofInt r) = some (r : Rat) := fun h r hr => raw_int hr (by omega)
  cases d <;> simp only [taken, DecodesTo, RawIs] at *
  case float32 => rw [hdec]; exact C87_bits32 hn
  case float64 => rw [hdec]; exact C87_bits64 hn
  all_goals
    obtain ⟨r, rfl, hr⟩ := hdec
    refine ⟨r, raw_int hr ?_, hr⟩
    try simp only [twosComplement]
    omega

/-! ### Exact steps -/

theorem mul_exact {x y : F64} {X Y : Rat} (hx : number x = some X) (hy : number y = some Y) (h : IsF64 (X * Y)) :
    number (mul x y) = some (X * Y) := by
  obtain ⟨_, _, rfl⟩ := finite_form hx
  obtain ⟨_, _, rfl⟩ := finite_form hy
  exact rounds_exact (mul_rounds hx hy) h

theorem add_exact {x y : F64} {X Y : Rat} (hx : number x = some X) (hy : number y = some Y) (h : IsF64 (X + Y)) :
    number (add x y) = some (X + Y) := by
  obtain ⟨_, _, rfl⟩ := finite_form hx
  obtain ⟨_, _, rfl⟩ := finite_form hy
  exact rounds_exact (add_rounds hx hy) h

theorem sub_exact {x y : F64} {X Y : Rat} (hx : number x = some X) (hy : number y = some Y) (h : IsF64 (X - Y)) :
    number (sub x y) = some (X - Y) := by
  obtain ⟨_, _, rfl⟩ := finite_form hx
  obtain ⟨_, _, rfl⟩ := finite_form hy
  exact rounds_exact (sub_rounds hx hy) h

theorem div_exact {x y : F64} {X Y : Rat} (hx : number x = some X) (hy : number y = some Y) (h0 : Y ≠ 0) (h : IsF64 (X / Y)) :
    number (div x y) = some (X / Y) := by
  obtain ⟨_, _, rfl⟩ := finite_form hx
  obtain ⟨_, _, rfl⟩ := finite_form hy
  exact rounds_exact (div_rounds hx hy h0) h

/-- A quotient with the divisor zero is no number and equals no number. -/
theorem div_zero_eq {x y z : F64} {X Z : Rat} (hx : number x = some X) (hy : number y = some 0) (hz : number z = some Z) :
    F64.eq (div x y) z = false := by
  obtain ⟨s, a, rfl⟩ := finite_form hx
  obtain ⟨t, b, rfl⟩ := finite_form hy
  obtain ⟨u, c, rfl⟩ := finite_form hz
  have hb : b = 0 := by
    have := number_units hy
    rw [Rat.zero_mul] at this
    have h0 : signed t b = 0 := by exact_mod_cast this.symm
    cases t <;> simp [signed] at h0 <;> omega
  subst hb
  unfold div
  simp only [if_true]
  split <;> rfl

theorem fin_bound {s : Bool} {n : Nat} {v : Rat} (h : number (.fin s n) = some v) (hv : IsF64 v) : n < 2 ^ 2098 := by
  obtain ⟨m, k, h1, h2, h3⟩ := hv
  rw [number_units h] at h3
  have h4 : signed s n = m * 2 ^ k := by
    have : ((m * 2 ^ k : Int) : Rat) = (m : Rat) * 2 ^ k := cast_mul_pow m k
    rw [← this] at h3
    exact_mod_cast h3
  have h5 : n = m.natAbs * 2 ^ k := by
    have : (signed s n).natAbs = n := by cases s <;> simp [signed]
    rw [← this, h4, Int.natAbs_mul, Int.natAbs_pow]; rfl
  rw [h5]
  refine Nat.lt_of_lt_of_le (Nat.mul_lt_mul_of_pos_right h1 (Nat.pow_pos (by decide))) ?_
  rw [← Nat.pow_add]
  exact Nat.pow_le_pow_right (by decide) (by omega)

/-- The root of a square. -/
theorem sqrt_exact {x : F64} {X r : Rat} (hx : number x = some X) (hX : IsF64 X) (h0 : 0 ≤ r) (hr : IsF64 r) (h : r * r = X) :
    number (F64.sqrt x) = some r := by
  obtain ⟨s, n, rfl⟩ := finite_form hx
  have hn := fin_bound hx hX
  have hu := number_units hx
  by_cases hz : n = 0
  · subst hz
    have hX0 : X = 0 := by
      have : X * 2 ^ 1074 = 0 := by rw [hu]; cases s <;> rfl
      rcases Rat.mul_eq_zero.1 this with h | h
      · exact h
      · exact absurd h unit_ne
    have hr0 : r = 0 := by
      rw [hX0] at h
      rcases Rat.mul_eq_zero.1 h with h | h <;> exact h
    have : F64.sqrt (.fin s 0) = .fin s 0 := by simp [F64.sqrt]
    rw [this, hx, hX0, hr0]
  · cases s with
    | true =>
      exfalso
      have h1 : 0 ≤ X := by rw [← h]; exact Rat.mul_nonneg h0 h0
      have h2 : 0 ≤ X * 2 ^ 1074 := Rat.mul_nonneg h1 (Rat.le_of_lt unit_pos)
      rw [hu] at h2
      have h3 : (0 : Int) ≤ signed true n := by exact_mod_cast h2
      simp [signed] at h3; omega
    | false =>
      obtain ⟨r', e1, e2⟩ := sqrt_rounds hz hx hn
      rw [e1]
      congr 1
      rcases (by grind : r < r' ∨ r = r' ∨ r' < r) with hl | hl | hl
      · exfalso
        have g := e2.below r hr h0 hl
        rw [← h] at g
        have a : r < (r' + r) / 2 := by grind
        have b : r * r ≤ r * ((r' + r) / 2) := Rat.mul_le_mul_of_nonneg_left (Rat.le_of_lt a) h0
        have c : r * ((r' + r) / 2) < ((r' + r) / 2) * ((r' + r) / 2) := by
          exact (Rat.mul_lt_mul_right (by grind)).2 a
        grind
      · exact hl.symm
      · exfalso
        have g := e2.above r hr hl
        rw [← h] at g
        have hn' := e2.nonneg
        have a : (r' + r) / 2 < r := by grind
        have b : ((r' + r) / 2) * ((r' + r) / 2) ≤ ((r' + r) / 2) * r := Rat.mul_le_mul_of_nonneg_left (Rat.le_of_lt a) (by grind)
        have c : ((r' + r) / 2) * r < r * r := (Rat.mul_lt_mul_right (by grind)).2 a
        grind

theorem sqrt_negative {x : F64} {X : Rat} (hx : number x = some X) (h : X < 0) : F64.sqrt x = .nan := by
  obtain ⟨s, n, rfl⟩ := finite_form hx
  have hu := number_units hx
  have h2 : X * 2 ^ 1074 < 0 := by
    have := (Rat.mul_lt_mul_right unit_pos).2 h
    rw [Rat.zero_mul] at this; exact this
  rw [hu] at h2
  have h3 : signed s n < 0 := by exact_mod_cast h2
  cases s with
  | false => simp [signed] at h3; omega
  | true =>
    have : n ≠ 0 := by rintro rfl; simp [signed] at h3
    simp [F64.sqrt, this]

/-! ### `math.Pow(x, 2)` -/

theorem rnd_of_double {r q : Nat} (hq : 0 < q) (h : IsDouble (r : Int)) : rnd (r * q) q = r := by
  have := (rnd_near (r * q) hq).near r h
  rw [show ((r : Int) * q - ((r * q : Nat) : Int)) = 0 by push_cast; omega] at this
  have h0 : ((rnd (r * q) q : Nat) : Int) * q = (r : Int) * q := by push_cast at this; omega
  have := Int.eq_of_mul_eq_mul_right (by omega) h0
  exact_mod_cast this

theorem same_exponent {a b k l p : Nat} (h1 : 2 ^ 52 ≤ k) (h2 : k < 2 ^ 53) (h3 : 2 ^ 52 ≤ l) (h4 : l < 2 ^ 53)
    (h5 : k * 2 ^ a ≤ p) (h6 : p < (k + 1) * 2 ^ a) (h7 : l * 2 ^ b ≤ p) (h8 : p < (l + 1) * 2 ^ b) : a = b ∧ k = l := by
  have key : ∀ {a b k l : Nat}, k < 2 ^ 53 → 2 ^ 52 ≤ l → p < (k + 1) * 2 ^ a → l * 2 ^ b ≤ p → b ≤ a := by
    intro a b k l g1 g2 g3 g4
    refine Nat.le_of_not_lt (fun h => ?_)
    have e1 : 2 ^ 52 * 2 ^ (a + 1) ≤ l * 2 ^ b := Nat.mul_le_mul g2 (Nat.pow_le_pow_right (by decide) h)
    have e2 : (k + 1) * 2 ^ a ≤ 2 ^ 53 * 2 ^ a := Nat.mul_le_mul_right _ g1
    rw [Nat.pow_succ] at e1
    omega
  have hab : a = b := Nat.le_antisymm (key h4 h1 h8 h5) (key h2 h3 h6 h7)
  subst hab
  refine ⟨rfl, ?_⟩
  have hp : 0 < 2 ^ a := Nat.pow_pos (by decide)
  have e1 : k < l + 1 := Nat.lt_of_mul_lt_mul_right (Nat.lt_of_le_of_lt h5 h8)
  have e2 : l < k + 1 := Nat.lt_of_mul_lt_mul_right (Nat.lt_of_le_of_lt h7 h6)
  omega

/-- Scaling down a number by a power of two before or after the rounding is the same, if the result is large enough. -/
theorem rnd_scale {p j : Nat} (h : 2 ^ 52 * 2 ^ j ≤ p) : rnd p 1 = rnd p (2 ^ j) * 2 ^ j := by
  have hj : 0 < 2 ^ j := Nat.pow_pos (by decide)
  obtain ⟨k, e, r, a1, a2, a3, a4, a5⟩ := rnd_cases p (q := 1) (by decide)
  obtain ⟨l, f, t, b1, b2, b3, b4, b5⟩ := rnd_cases p hj
  rw [Nat.one_mul] at a3 a4 a5
  have hjf : 2 ^ j * 2 ^ f = 2 ^ (j + f) := (Nat.pow_add 2 j f).symm
  rw [hjf] at b3 b4 b5
  have hk : 2 ^ 52 ≤ k := by
    rcases a2 with rfl | a2
    · rw [Nat.pow_zero] at a3 a4
      have : 2 ^ 52 * 1 ≤ 2 ^ 52 * 2 ^ j := Nat.mul_le_mul_left _ hj
      omega
    · exact a2
  have hl : 2 ^ 52 ≤ l := by
    rcases b2 with rfl | b2
    · rw [Nat.add_zero] at b3 b4
      refine Nat.le_of_not_lt (fun hlt => ?_)
      have : (l + 1) * 2 ^ j ≤ 2 ^ 52 * 2 ^ j := Nat.mul_le_mul_right _ hlt
      rw [Nat.add_mul] at this
      omega
    · exact b2
  obtain ⟨rfl, rfl⟩ := same_exponent (a := e) (b := j + f) (p := p) hk a1 hl b1 (by omega) (by rw [Nat.add_mul]; omega)
    (by omega) (by rw [Nat.add_mul]; omega)
  have hrt : r = t := by omega
  subst hrt
  have hs : ∀ z : Nat, z * 2 ^ f * 2 ^ j = z * 2 ^ (j + f) := by
    intro z; rw [Nat.mul_assoc, ← Nat.pow_add, Nat.add_comm f j]
  rcases a5 with ⟨c1, c2⟩ | ⟨c1, c2⟩ <;> rcases b5 with ⟨d1, d2⟩ | ⟨d1, d2⟩ <;> rw [c1, d1, hs] <;> omega

/-- `math.Pow(x, 2)` is the square, rounded once, unless the square is smaller than the smallest normal number. -/
theorem pow2_rounds {x : F64} {X : Rat} (hx : number x = some X) (h : IsF64 (X * X) ∨ 1 / 2 ^ 1022 ≤ X * X) : Rounds (X * X) (pow2 x) := by
  obtain ⟨s, n, rfl⟩ := finite_form hx
  have hu := number_units hx
  have hpos : 0 < (2 : Nat) ^ 1074 := Nat.pow_pos (by decide)
  have hnn : X * X * (2 ^ 1074 * 2 ^ 1074) = ((n * n : Nat) : Rat) := by
    have : (X * 2 ^ 1074) * (X * 2 ^ 1074) = ((n * n : Nat) : Rat) := by
      rw [hu]
      cases s <;> simp [signed, Rat.intCast_neg, Rat.natCast_mul, int_nat] <;> grind
    rw [← this]
    generalize (2 : Rat) ^ 1074 = U
    grind
  have hform : rnd (rnd (n * n) 1) (2 ^ 1074) = rnd (n * n) (2 ^ 1074) := by
    rcases h with ⟨m, k, h1, h2, h3⟩ | h
    · have hd : IsDouble ((n * n : Nat) : Int) := by
        refine ⟨m, k + 1074, by omega, ?_⟩
        have e : ((n * n : Nat) : Rat) = ((m * 2 ^ (k + 1074) : Int) : Rat) := by
          rw [cast_mul_pow, ← hnn, two_pow_add, ← Rat.mul_assoc, ← Rat.mul_assoc, ← h3]
        rw [← int_nat] at e
        exact_mod_cast e
      have := rnd_of_double (q := 1) (by decide) hd
      rw [Nat.mul_one] at this
      rw [this]
    · have hl : 2 ^ 52 * 2 ^ 1074 ≤ n * n := by
        have e : (((2 ^ 52 * 2 ^ 1074 : Nat)) : Rat) ≤ ((n * n : Nat) : Rat) := by
          rw [← hnn, Rat.natCast_mul, nat_pow_cast, nat_pow_cast]
          have := Rat.mul_le_mul_of_nonneg_right h (c := 2 ^ 1074 * 2 ^ 1074) (Rat.le_of_lt (Rat.mul_pos unit_pos unit_pos))
          have e0 : (2 : Rat) ^ 52 * 2 ^ 1074 = 1 / 2 ^ 1022 * (2 ^ 1074 * 2 ^ 1074) := by
            have hV := pow2_ne 1022
            rw [show (2 : Rat) ^ 1074 = 2 ^ 1022 * 2 ^ 52 from two_pow_add 1022 52]
            generalize (2 : Rat) ^ 1022 = V at *
            generalize (2 : Rat) ^ 52 = W at *
            grind
          rw [e0]; exact this
        exact_mod_cast e
      have e := rnd_scale hl
      generalize (2 : Nat) ^ 1074 = U at *
      rw [e]
      exact rnd_of_double hpos (rnd_near _ hpos).double
  have hp : pow2 (.fin s n) = ofQuot false (n * n) (2 ^ 1074) := by
    unfold pow2
    simp only
    rcases ofQuot_cases false (rnd (n * n) 1) (2 ^ 1074) with ⟨a, b⟩ | ⟨a, b⟩ <;>
      rcases ofQuot_cases false (n * n) (2 ^ 1074) with ⟨c, d⟩ | ⟨c, d⟩ <;> rw [b, d] <;> rw [hform] at *
    · exact absurd a c
    · exact absurd c a
  rw [hp]
  refine ofQuot_rounds false (n * n) hpos ?_
  rw [nat_pow_cast, hnn]; rfl

theorem pow2_exact {x : F64} {X : Rat} (hx : number x = some X) (h : IsF64 (X * X)) : number (pow2 x) = some (X * X) :=
  rounds_exact (pow2_rounds hx (Or.inl h)) h

/-! ### All methods without rounding -/

theorem eq_zero_iff {x : F64} {X : Rat} (hx : number x = some X) : F64.eq x (ofInt 0) = decide (X = 0) := by
  have h0 : number (ofInt 0) = some 0 := by decide +kernel
  have := eq_number hx h0
  by_cases h : X = 0
  · simp only [h, decide_true]; exact this.2 h
  · simp only [h, decide_false]
    cases he : F64.eq x (ofInt 0)
    · rfl
    · exact absurd (this.1 he) h

/-- If no step has to be rounded, RAT_FUNC in `float64` delivers what it delivers in exact arithmetic: the same value,
NaN or error. -/
theorem ratfunc_exact {a b c d e f x : F64} {A B C D E F X : Rat} (sqrt : Rat → Option Rat)
    (ha : number a = some A) (hb : number b = some B) (hc : number c = some C) (hd : number d = some D)
    (he : number e = some E) (hf : number f = some F) (hx : number x = some X)
    (h : ExactSteps A B C D E F X (sqrt ((E * X - B) * (E * X - B) - 4 * (D * X - A) * (F * X - C)))) :
    ((calcRatFunc64 a b c d e f x).bind fun v => .ok (number v)) = calcRatFunc sqrt A B C D E F X := by
  have n2 : number (ofInt 2) = some 2 := by decide +kernel
  have n4 : number (ofInt 4) = some 4 := by decide +kernel
  have ndx := mul_exact hd hx h.dx
  have nadx := sub_exact ha ndx h.adx
  have nfirst := mul_exact n2 nadx h.first
  have nexb := sub_exact (mul_exact he hx h.ex) hb h.exb
  have nsq := pow2_exact nexb h.square
  have ndxa := sub_exact ndx ha h.dxa
  have nprod := mul_exact (mul_exact n4 ndxa h.four) (sub_exact (mul_exact hf hx h.fx) hc h.fxc) h.prod
  have ndisc := sub_exact nsq nprod h.disc
  unfold calcRatFunc64 calcRatFunc
  simp only [eq_zero_iff nfirst]
  by_cases h0 : 2 * (A - D * X) = 0
  · simp only [h0, decide_true, if_true, Res.bind]
  · simp only [h0, decide_false, if_false, Bool.false_eq_true]
    have hroot := h.root
    have hneg := h.negative
    have hdbl := h.disc
    generalize sub (pow2 (sub (mul e x) b)) (mul (mul (ofInt 4) (sub (mul d x) a)) (sub (mul f x) c)) = disc at *
    generalize mul (ofInt 2) (sub a (mul d x)) = first at *
    generalize sub (mul e x) b = top at *
    generalize hdisc : (E * X - B) * (E * X - B) - 4 * (D * X - A) * (F * X - C) = DISC at *
    generalize 2 * (A - D * X) = FIRST at *
    generalize E * X - B = TOP at *
    cases hs : sqrt DISC with
    | none =>
      rw [sqrt_negative ndisc (hneg hs)]
      simp only [nan_div, add_nan, sub, neg, eq_nan, div_nan, mul_nan, Bool.not_false, Bool.and_self, if_true, nan_add]
      simp [eq_nan, Res.bind, number]
    | some r =>
      obtain ⟨r0, r1, r2, r3, r4, r5, r6⟩ := hroot r hs
      have nroot := sqrt_exact ndisc hdbl r0 r1 r2
      have nq := div_exact nroot nfirst h0 r3
      have npos := add_exact nfirst nq r4
      have nneg := sub_exact nfirst nq r5
      obtain ⟨t1, t2, t3⟩ := r6 _ _ rfl rfl
      simp only [eq_zero_iff npos, eq_zero_iff nneg]
      generalize add first (div (F64.sqrt disc) first) = pos at *
      generalize sub first (div (F64.sqrt disc) first) = ngt at *
      generalize FIRST + r / FIRST = POS at *
      generalize FIRST - r / FIRST = NEG at *
      by_cases hp : POS = 0
      · by_cases hn : NEG = 0
        · simp [hp, hn, Res.bind]
        · simp [hp, hn, Res.bind, div_exact nexb nneg hn t2]
      · have nplus := div_exact nexb npos hp t1
        by_cases hn : NEG = 0
        · simp [hp, hn, Res.bind, nplus]
        · have nminus := div_exact nexb nneg hn t2
          obtain ⟨u1, u2, u3, u4, u5, u6, u7, u8, u9, u10, u11⟩ := t3 hp hn
          simp only [hp, hn, decide_false, Bool.not_false, Bool.and_self, if_true, ne_eq, not_false_eq_true, and_self]
          generalize div top pos = plus at *
          generalize div top ngt = minus at *
          generalize TOP / POS = p at *
          have nnum := add_exact (add_exact (mul_exact (mul_exact ha nplus u1) nplus u2) (mul_exact hb nplus u3) u4) hc u5
          have nden := add_exact (add_exact (mul_exact (mul_exact hd nplus u6) nplus u7) (mul_exact he nplus u8) u9) hf u10
          generalize add (add (mul (mul a plus) plus) (mul b plus)) c = num at *
          generalize add (add (mul (mul d plus) plus) (mul e plus)) f = den at *
          by_cases hden : D * p * p + E * p + F = 0
          · rw [hden] at nden
            rw [div_zero_eq nnum nden hx]
            simp [hden, Res.bind, nminus]
          · have := eq_number (div_exact nnum nden hden u11) hx
            by_cases ht : (A * p * p + B * p + C) / (D * p * p + E * p + F) = X
            · rw [if_pos (this.2 ht), if_pos ⟨hden, ht⟩]
              simp [Res.bind, nplus]
            · rw [if_neg (fun e => ht (this.1 e)), if_neg (fun e => ht e.2)]
              simp [Res.bind, nminus]

theorem map_some {o : Option F64} {o' : Option Rat} (h : o.map number = o'.map some) :
    (o = none ∧ o' = none) ∨ ∃ v w, o = some v ∧ o' = some w ∧ number v = some w := by
  cases o <;> cases o' <;> simp at h
  · exact Or.inl ⟨rfl, rfl⟩
  · exact Or.inr ⟨_, _, rfl, rfl, h⟩

/-- For every conversion method: if no step has to be rounded, `convDecToPhy` delivers in `float64` what it delivers in exact
arithmetic, as value, NaN, error or panic. The values of C44 to C46 are delivered by the machine under this condition. -/
theorem C87_refines_partial {P : Type} (sqrt : Rat → Option Rat) (cd : CalData P) (m : Module P) (found : Option Tab64)
    (cm : Method64) (k : CompuMethod) {x : F64} {X : Rat}
    (hm : cd.module? = some m) (hx : number x = some X) (hk : MethodIs cm k)
    (htab : TableIs (found.getD {}) ((m.compuTabs k.compuTabRef).getD {}))
    (hlin : k.conversionType = .linear → ∀ a b, k.linA = some a → k.linB = some b → IsF64 (a * X) ∧ IsF64 (a * X + b))
    (hrat : k.conversionType = .ratFunc → ∀ a b c d e f, k.coeffs.a = some a → k.coeffs.b = some b → k.coeffs.c = some c →
      k.coeffs.d = some d → k.coeffs.e = some e → k.coeffs.f = some f →
      ExactSteps a b c d e f X (sqrt ((e * X - b) * (e * X - b) - 4 * (d * X - a) * (f * X - c)))) :
    ((convDecToPhy64 found x cm).bind fun v => .ok (number v)) = convDecToPhy sqrt X k cd := by
  unfold convDecToPhy64 convDecToPhy
  rw [hk.type]
  cases hct : k.conversionType with
  | identical => simp [Res.bind, hx]
  | form => rfl
  | linear =>
    have h := hlin hct
    have h1 := map_some hk.linA
    have h2 := map_some hk.linB
    generalize cm.linA = la at *; generalize k.linA = la' at *
    generalize cm.linB = lb at *; generalize k.linB = lb' at *
    rcases h1 with ⟨rfl, rfl⟩ | ⟨v, w, rfl, rfl, h1⟩
    · rfl
    · rcases h2 with ⟨rfl, rfl⟩ | ⟨v', w', rfl, rfl, h2⟩
      · rfl
      · obtain ⟨g1, g2⟩ := h _ _ rfl rfl
        simp only [Res.bind]
        rw [add_exact (mul_exact h1 hx g1) h2 g2]
  | ratFunc =>
    have h := hrat hct
    have h1 := map_some hk.a
    have h2 := map_some hk.b
    have h3 := map_some hk.c
    have h4 := map_some hk.d
    have h5 := map_some hk.e
    have h6 := map_some hk.f
    generalize cm.a = o1 at *; generalize k.coeffs.a = p1 at *
    generalize cm.b = o2 at *; generalize k.coeffs.b = p2 at *
    generalize cm.c = o3 at *; generalize k.coeffs.c = p3 at *
    generalize cm.d = o4 at *; generalize k.coeffs.d = p4 at *
    generalize cm.e = o5 at *; generalize k.coeffs.e = p5 at *
    generalize cm.f = o6 at *; generalize k.coeffs.f = p6 at *
    rcases h1 with ⟨rfl, rfl⟩ | ⟨v1, w1, rfl, rfl, h1⟩
    · rfl
    rcases h2 with ⟨rfl, rfl⟩ | ⟨v2, w2, rfl, rfl, h2⟩
    · rfl
    rcases h3 with ⟨rfl, rfl⟩ | ⟨v3, w3, rfl, rfl, h3⟩
    · rfl
    rcases h4 with ⟨rfl, rfl⟩ | ⟨v4, w4, rfl, rfl, h4⟩
    · rfl
    rcases h5 with ⟨rfl, rfl⟩ | ⟨v5, w5, rfl, rfl, h5⟩
    · rfl
    rcases h6 with ⟨rfl, rfl⟩ | ⟨v6, w6, rfl, rfl, h6⟩
    · rfl
    exact ratfunc_exact sqrt h1 h2 h3 h4 h5 h6 hx (h _ _ _ _ _ _ rfl rfl rfl rfl rfl rfl)
  | tabIntp => simp only [Res.bind]; decide +kernel
  | tabNointp => exact C87_table cd m k found hm hx htab
  | tabVerb => rfl
  | undefined => rfl

/-! ### Infinities and NaN -/

theorem number_not_zero {n : Nat} (h : n ≠ 0) (s : Bool) : kind (.fin s n) = .number := by simp [kind, h]

/-- The results that are no rounded numbers are those of the standard; a sum of opposite numbers is `+0`. -/
theorem C87_special (x y : F64) :
    (∀ z, addKind x y = some z → add x y = z) ∧ (∀ z, mulKind x y = some z → mul x y = z) ∧
    (∀ z, divKind x y = some z → div x y = z) ∧ (∀ z, sqrtKind x = some z → F64.sqrt x = z) ∧
    (∀ s n, add (.fin s n) (.fin (!s) n) = .fin false 0) := by
  refine ⟨?_, ?_, ?_, ?_, ?_⟩
  · intro z h
    cases x with
    | nan => simp [addKind, kind] at h; rw [← h]; cases y <;> rfl
    | inf s =>
      cases y with
      | nan => simp [addKind, kind] at h; rw [← h]; rfl
      | inf t => simp [addKind, kind, sgn] at h; rw [← h]; rfl
      | fin t b =>
        by_cases hb : b = 0 <;> simp [addKind, kind, sgn, hb] at h <;> rw [← h] <;> rfl
    | fin s a =>
      cases y with
      | nan => by_cases ha : a = 0 <;> simp [addKind, kind, ha] at h <;> rw [← h] <;> rfl
      | inf t =>
        by_cases ha : a = 0 <;> simp [addKind, kind, sgn, ha] at h <;> rw [← h] <;> rfl
      | fin t b =>
        by_cases ha : a = 0 <;> by_cases hb : b = 0 <;> simp [addKind, kind, sgn, ha, hb] at h
        subst ha; subst hb
        rw [← h]
        cases s <;> cases t <;> simp [add, ofQuot_zero]
  · intro z h
    cases x with
    | nan => simp [mulKind, kind] at h; rw [← h]; cases y <;> rfl
    | inf s =>
      cases y with
      | nan => simp [mulKind, kind] at h; rw [← h]; rfl
      | inf t => simp [mulKind, kind, sgn] at h; rw [← h]; rfl
      | fin t b =>
        by_cases hb : b = 0 <;> simp [mulKind, kind, sgn, hb] at h <;> rw [← h] <;> simp [mul, hb]
    | fin s a =>
      cases y with
      | nan => by_cases ha : a = 0 <;> simp [mulKind, kind, ha] at h <;> rw [← h] <;> rfl
      | inf t =>
        by_cases ha : a = 0 <;> simp [mulKind, kind, sgn, ha] at h <;> rw [← h] <;> simp [mul, ha]
      | fin t b =>
        by_cases ha : a = 0 <;> by_cases hb : b = 0 <;> simp [mulKind, kind, sgn, ha, hb] at h <;> rw [← h] <;>
          simp only [mul, ha, hb, Nat.zero_mul, Nat.mul_zero] <;> exact ofQuot_zero _ _
  · intro z h
    cases x with
    | nan => simp [divKind, kind] at h; rw [← h]; cases y <;> rfl
    | inf s =>
      cases y with
      | nan => simp [divKind, kind] at h; rw [← h]; rfl
      | inf t => simp [divKind, kind, sgn] at h; rw [← h]; rfl
      | fin t b =>
        by_cases hb : b = 0 <;> simp [divKind, kind, sgn, hb] at h <;> rw [← h] <;> simp [div]
    | fin s a =>
      cases y with
      | nan => by_cases ha : a = 0 <;> simp [divKind, kind, ha] at h <;> rw [← h] <;> rfl
      | inf t =>
        by_cases ha : a = 0 <;> simp [divKind, kind, sgn, ha] at h <;> rw [← h] <;> simp [div]
      | fin t b =>
        by_cases ha : a = 0 <;> by_cases hb : b = 0 <;> simp [divKind, kind, sgn, ha, hb] at h <;> rw [← h]
        · simp [div, ha, hb]
        · simp only [div, ha, if_neg hb, Nat.zero_mul]; exact ofQuot_zero _ _
        · simp [div, ha, hb]
  · intro z h
    cases x with
    | nan => simp [sqrtKind, kind] at h; rw [← h]; rfl
    | inf s => cases s <;> simp [sqrtKind, kind, sgn] at h <;> rw [← h] <;> rfl
    | fin s a =>
      by_cases ha : a = 0 <;> cases s <;> simp [sqrtKind, kind, sgn, ha] at h <;> rw [← h] <;> simp [F64.sqrt, ha]
  · intro s n
    cases s <;> simp [add]

/-- An infinite raw value (FLOAT32 and FLOAT64 values can be infinite) is converted without an error: LINEAR delivers an
infinity, or NaN if the factor is zero, and RAT_FUNC always NaN. -/
theorem C87_infinite (found : Option Tab64) (cm : Method64) (s : Bool) :
    (∀ a b A B, cm.conversionType = .linear → cm.linA = some a → cm.linB = some b → number a = some A → number b = some B →
      convDecToPhy64 found (.inf s) cm = .ok (if A = 0 then .nan else .inf (if A < 0 then !s else s))) ∧
    (∀ a b c d e f A B C D E F, cm.conversionType = .ratFunc → cm.a = some a → cm.b = some b → cm.c = some c → cm.d = some d →
      cm.e = some e → cm.f = some f → number a = some A → number b = some B → number c = some C → number d = some D →
      number e = some E → number f = some F → convDecToPhy64 found (.inf s) cm = .ok .nan) := by
  refine ⟨?_, ?_⟩
  · intro a b A B ht ha hb hA hB
    obtain ⟨t, n, rfl⟩ := finite_form hA
    obtain ⟨u, k, rfl⟩ := finite_form hB
    have hu := number_units hA
    simp only [convDecToPhy64, ht, ha, hb, mul]
    by_cases hn : n = 0
    · have h0 : A = 0 := by
        have : A * 2 ^ 1074 = 0 := by rw [hu, hn]; cases t <;> rfl
        rcases Rat.mul_eq_zero.1 this with h | h
        · exact h
        · exact absurd h unit_ne
      simp only [if_pos hn, if_pos h0, add]
    · have h0 : A ≠ 0 := by
        rintro rfl
        rw [Rat.zero_mul] at hu
        have h0 : signed t n = 0 := by exact_mod_cast hu.symm
        cases t <;> simp [signed] at h0 <;> omega
      have hs : A < 0 ↔ t = true := by
        rw [← Rat.mul_lt_mul_right unit_pos, Rat.zero_mul, hu]
        have : ((signed t n : Int) : Rat) < 0 ↔ signed t n < 0 := by
          constructor <;> intro h <;> exact_mod_cast h
        rw [this]
        cases t <;> simp [signed] <;> omega
      simp only [if_neg hn, if_neg h0, add]
      cases t <;> simp [hs]
  · intro a b c d e f A B C D E F ht ha hb hc hd he hf hA hB hC hD hE hF
    obtain ⟨sa, na, rfl⟩ := finite_form hA
    obtain ⟨sb, nb, rfl⟩ := finite_form hB
    obtain ⟨sc, nc, rfl⟩ := finite_form hC
    obtain ⟨sd, nd, rfl⟩ := finite_form hD
    obtain ⟨se, ne, rfl⟩ := finite_form hE
    obtain ⟨sf, nf, rfl⟩ := finite_form hF
    simp only [convDecToPhy64, ht, ha, hb, hc, hd, he, hf]
    obtain ⟨k, hk⟩ : ∃ k, ofInt 2 = .fin false (k + 1) := ⟨2 * 2 ^ 1074 - 1, by decide +kernel⟩
    have h4 : ∃ k, ofInt 4 = .fin false (k + 1) := ⟨4 * 2 ^ 1074 - 1, by decide +kernel⟩
    obtain ⟨l, hl⟩ := h4
    have h0 : ofInt 0 = .fin false 0 := by decide +kernel
    unfold calcRatFunc64
    rw [hk, hl, h0]
    by_cases hnd : nd = 0 <;> by_cases hne : ne = 0 <;> by_cases hnf : nf = 0 <;> cases s <;> cases sd <;> cases se <;> cases sf <;>
      simp [mul, hnd, hne, hnf, sub, neg, add, pow2, F64.sqrt, div, F64.eq]

/-! ### Examples -/

/-- The FLOAT32 value 0.1, most significant byte first. -/
example : ∃ v, convertByteSliceToDatatype (P := Unit) { modules := [{}] } [0x3d, 0xcc, 0xcc, 0xcd] .float32 = .ok v ∧
    RawIs .float32 (Endian.big.number ([0x3d, 0xcc, 0xcc, 0xcd].take (taken .float32))) v.toFloat :=
  C87_raw _ {} .float32 _ .big rfl (by decide) rfl (by decide) (by decide) (by decide)

/-- The smallest positive number, a negative infinity and NaN. -/
example : IsBits64 1 (ofBits 1) ∧ IsBits64 0xfff0000000000000 (ofBits 0xfff0000000000000) ∧ IsBits32 0x7fc00000 (ofBits32 0x7fc00000) ∧
    ofBits 0xfff0000000000000 = .inf true ∧ ofBits32 0x7fc00000 = .nan :=
  ⟨C87_bits64 (by decide), C87_bits64 (by decide), C87_bits32 (by decide), by decide +kernel, by decide +kernel⟩

theorem isF64_half (i : Int) (h : i.natAbs < 2 ^ 53) : IsF64 ((i : Rat) / 2) := by
  refine ⟨i, 1073, h, by decide, ?_⟩
  rw [show (2 : Rat) ^ 1074 = 2 ^ 1073 * 2 ^ 1 from two_pow_add 1073 1]
  generalize (2 : Rat) ^ 1073 = U
  grind

/-- y = 0.5 x² - 4 x + 4 for the raw value 0.5: the result is 1, and no step is rounded. -/
example : ((convDecToPhy64 none (ofBits 0x3fe0000000000000)
      { conversionType := .ratFunc, a := some (ofBits 0x3fe0000000000000), b := some (ofInt (-4)), c := some (ofInt 4), d := some (ofInt 0),
        e := some (ofInt 0), f := some (ofInt 1) }).bind fun v => .ok (number v)) = .ok (some 1) := by
  have h : ExactSteps (1 / 2) (-4) 4 0 0 1 (1 / 2) (some 3) := by
    have half : ∀ (v : Rat) (i : Int), i.natAbs < 2 ^ 53 → v = (i : Rat) / 2 → IsF64 v := fun v i h e => e ▸ isF64_half i h
    refine ⟨half _ 0 (by decide +kernel) (by decide +kernel), half _ 1 (by decide +kernel) (by decide +kernel), half _ 2 (by decide +kernel) (by decide +kernel),
      half _ 0 (by decide +kernel) (by decide +kernel), half _ 8 (by decide +kernel) (by decide +kernel), half _ 32 (by decide +kernel) (by decide +kernel), half _ (-1) (by decide +kernel) (by decide +kernel),
      half _ (-4) (by decide +kernel) (by decide +kernel), half _ 1 (by decide +kernel) (by decide +kernel), half _ (-7) (by decide +kernel) (by decide +kernel), half _ 14 (by decide +kernel) (by decide +kernel),
      half _ 18 (by decide +kernel) (by decide +kernel), fun h => (by cases h), ?_⟩
    intro r hr
    injection hr with hr
    subst hr
    refine ⟨by decide +kernel, half _ 6 (by decide +kernel) (by decide +kernel), by decide +kernel, half _ 6 (by decide +kernel) (by decide +kernel), half _ 8 (by decide +kernel) (by decide +kernel),
      half _ (-4) (by decide +kernel) (by decide +kernel), ?_⟩
    intro p q hp hq
    have hp : p = 1 := by rw [hp]; decide +kernel
    have hq : q = -2 := by rw [hq]; decide +kernel
    subst hp; subst hq
    refine ⟨half _ 2 (by decide +kernel) (by decide +kernel), half _ (-4) (by decide +kernel) (by decide +kernel), fun _ _ => ⟨half _ 1 (by decide +kernel) (by decide +kernel),
      half _ 1 (by decide +kernel) (by decide +kernel), half _ (-8) (by decide +kernel) (by decide +kernel), half _ (-7) (by decide +kernel) (by decide +kernel), half _ 1 (by decide +kernel) (by decide +kernel),
      half _ 0 (by decide +kernel) (by decide +kernel), half _ 0 (by decide +kernel) (by decide +kernel), half _ 0 (by decide +kernel) (by decide +kernel), half _ 0 (by decide +kernel) (by decide +kernel),
      half _ 2 (by decide +kernel) (by decide +kernel), half _ 1 (by decide +kernel) (by decide +kernel)⟩⟩
  rw [C87_refines_partial (P := Unit) (fun v => if v = 9 then some 3 else none) { modules := [{}] } {} none _
    { conversionType := .ratFunc, coeffs := { a := some (1 / 2), b := some (-4), c := some 4, d := some 0, e := some 0, f := some 1 } }
    (X := 1 / 2) rfl (by decide +kernel) ⟨rfl, by decide +kernel, by decide +kernel, by decide +kernel, by decide +kernel, by decide +kernel, by decide +kernel, rfl, rfl⟩
    ⟨rfl, rfl, rfl, rfl, rfl⟩ (fun h => (by cases h)) ?_]
  · decide +kernel
  · intro _ a b c d e f ha hb hc hd he hf
    injection ha with ha; injection hb with hb; injection hc with hc; injection hd with hd; injection he with he; injection hf with hf
    subst ha; subst hb; subst hc; subst hd; subst he; subst hf
    rw [if_pos (by decide +kernel)]
    exact h

/-- -3 * infinity + 1. -/
example : convDecToPhy64 none (.inf false) { conversionType := .linear, linA := some (ofInt (-3)), linB := some (ofInt 1) } = .ok (.inf true) := by
  rw [(C87_infinite none _ false).1 _ _ (-3) 1 rfl rfl rfl (by decide +kernel) (by decide +kernel)]
  decide +kernel

/-- The square of 0.1, rounded. -/
example : ∃ X, number (ofBits 0x3fb999999999999a) = some X ∧ Rounds (X * X) (pow2 (ofBits 0x3fb999999999999a)) := by
  have h : number (ofBits 0x3fb999999999999a) = some ((3602879701896397 : Rat) / (2 : Rat) ^ 55) := by decide +kernel
  exact ⟨_, h, pow2_rounds h (Or.inr (by decide +kernel))⟩

end Verif.Calib.Props
