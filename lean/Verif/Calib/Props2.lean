import Verif.Calib.Spec

/-!
Properties C41 and C42: address strings and raw values.
-/

namespace Verif.Calib.Props

open Verif.Go Verif.Calib.Spec

/-- What the A2L parser delivers as byte order: BYTE_ORDER is either absent or one of the
six known words. -/
def OrderWf (mc : ModCommon) : Prop := mc.byteOrderSet = true ↔ mc.byteOrder ≠ .undefined

instance (mc : ModCommon) : Decidable (OrderWf mc) := by unfold OrderWf; infer_instance

/-- The tests of the byte order in the code, by the byte order they stand for. -/
theorem order_cases (mc : ModCommon) (hw : OrderWf mc) :
    (endianOf mc = some .big
      ∧ ¬ (mc.byteOrder = .msbFirstMswLast ∨ mc.byteOrder = .msbLastMswFirst)
      ∧ (mc.byteOrderSet = false ∨ mc.byteOrder = .bigEndian ∨ mc.byteOrder = .msbFirst))
    ∨ (endianOf mc = some .little
      ∧ ¬ (mc.byteOrder = .msbFirstMswLast ∨ mc.byteOrder = .msbLastMswFirst)
      ∧ ¬ (mc.byteOrderSet = false ∨ mc.byteOrder = .bigEndian ∨ mc.byteOrder = .msbFirst)
      ∧ (mc.byteOrder = .littleEndian ∨ mc.byteOrder = .msbLast))
    ∨ (endianOf mc = none
      ∧ (mc.byteOrder = .msbFirstMswLast ∨ mc.byteOrder = .msbLastMswFirst)) := by
  obtain ⟨al, o, t⟩ := mc
  unfold OrderWf at hw
  cases t <;> cases o <;> simp_all [endianOf]

/-! ### C41 Address strings -/

/-- C41 in full: eight hex digits, with or without `0x`, are read in the byte order of
the module, an unsupported order is an error, and no string crashes. -/
def C41_full : Prop :=
  ∀ (P : Type) (cd : CalData P) (m : Module P), cd.modules[cd.moduleIndex]? = some m →
    OrderWf m.modCommon →
    (∀ s digits bytes, (s = digits ∨ s = '0' :: 'x' :: digits) →
      eightDigits digits = some bytes →
      convertStringToUint32Address cd s =
        match endianOf m.modCommon with
        | some e => .ok (e.number bytes)
        | none => .err)
    ∧ ∀ s, convertStringToUint32Address cd s ≠ .panic

theorem fromHexChar_eq (c : Char) : fromHexChar c = Hex.Spec.digitVal c := by
  by_cases hc : c ∈ Hex.Spec.upperDigits ++ Hex.Spec.lowerDigits
  · revert c
    decide +kernel
  · have h1 : c ∉ Hex.Spec.upperDigits := fun h => hc (List.mem_append_left _ h)
    have h2 : c ∉ Hex.Spec.lowerDigits := fun h => hc (List.mem_append_right _ h)
    have e : Hex.Spec.digitVal c = none := by
      unfold Hex.Spec.digitVal
      rw [List.findIdx?_eq_none_iff.mpr, List.findIdx?_eq_none_iff.mpr]
      · intro x hx; simp; rintro rfl; exact h2 hx
      · intro x hx; simp; rintro rfl; exact h1 hx
    rw [e]
    have hr : ∀ n, c.toNat = n → c = Char.ofNat n := by
      rintro n rfl; exact (Char.ofNat_toNat c).symm
    have h48 : ∀ n : Nat, n < 128 → Char.ofNat n ∉ Hex.Spec.upperDigits ++ Hex.Spec.lowerDigits →
        fromHexChar (Char.ofNat n) = none := by decide +kernel
    by_cases hn : c.toNat < 128
    · have := h48 c.toNat hn
      rw [← hr _ rfl] at this
      exact this hc
    · have e9 : ¬ c ≤ '9' := by
        intro h; have : c.toNat ≤ '9'.toNat := h; simp at this; omega
      have ef : ¬ c ≤ 'f' := by
        intro h; have : c.toNat ≤ 'f'.toNat := h; simp at this; omega
      have eF : ¬ c ≤ 'F' := by
        intro h; have : c.toNat ≤ 'F'.toNat := h; simp at this; omega
      simp [fromHexChar, e9, ef, eF]

theorem x_not_digit {c : Char} {v : Nat} (h : Hex.Spec.digitVal c = some v) : c ≠ 'x' := by
  rintro rfl
  exact absurd h (by rw [show Hex.Spec.digitVal 'x' = none by decide +kernel]; simp)

theorem removeAll0x_digits (s : Str) (h : 'x' ∉ s) : removeAll0x s = s := by
  induction s with
  | nil => rfl
  | cons c r ih =>
    have hr : 'x' ∉ r := fun h' => h (List.mem_cons_of_mem _ h')
    unfold removeAll0x
    split
    · rename_i e; injection e with _ e; subst e; simp at hr
    · rename_i e; injection e with e1 e2; subst e1 e2; rw [ih hr]
    · contradiction

theorem byteVal_pair {a b : Char} {v : Nat} (h : Hex.Spec.byteVal [a, b] = some v) :
    ∃ x y, Hex.Spec.digitVal a = some x ∧ Hex.Spec.digitVal b = some y ∧ v = 16 * x + y := by
  simp only [Hex.Spec.byteVal] at h
  split at h
  · rename_i x y h1 h2
    injection h with h
    exact ⟨x, y, h1, h2, h.symm⟩
  · contradiction

theorem decode_eight {digits : Str} {bytes : List Nat} (h : eightDigits digits = some bytes) :
    'x' ∉ digits ∧ hexToByteSlice digits = some bytes ∧
      ∃ w x y z, bytes = [w, x, y, z] := by
  unfold eightDigits at h
  split at h
  · rename_i a b c d e f g i
    split at h
    · rename_i w x y z h1 h2 h3 h4
      injection h with h
      subst h
      obtain ⟨_, _, a1, a2, rfl⟩ := byteVal_pair h1
      obtain ⟨_, _, b1, b2, rfl⟩ := byteVal_pair h2
      obtain ⟨_, _, c1, c2, rfl⟩ := byteVal_pair h3
      obtain ⟨_, _, d1, d2, rfl⟩ := byteVal_pair h4
      refine ⟨?_, ?_, _, _, _, _, rfl⟩
      · simp only [List.mem_cons, List.not_mem_nil, or_false, not_or]
        exact ⟨(x_not_digit a1).symm, (x_not_digit a2).symm, (x_not_digit b1).symm,
          (x_not_digit b2).symm, (x_not_digit c1).symm, (x_not_digit c2).symm,
          (x_not_digit d1).symm, (x_not_digit d2).symm⟩
      · simp [hexToByteSlice, fromHexChar_eq, a1, a2, b1, b2, c1, c2, d1, d2]
    · contradiction
  · contradiction

theorem be32_eq {bs : List Nat} (h : bs.length = 4) : be32 bs = some (bigEndian bs) := by
  match bs, h with
  | [a, b, c, d], _ => simp [be32, bigEndian]; omega

theorem le32_eq {bs : List Nat} (h : bs.length = 4) : le32 bs = some (littleEndian bs) := by
  match bs, h with
  | [a, b, c, d], _ => simp [le32, littleEndian]; omega

/-- C41 for strings of eight digits. Missing: that no other string crashes; see
`C41_crash_iff`. -/
theorem C41_partial {P : Type} (cd : CalData P) (m : Module P)
    (hm : cd.modules[cd.moduleIndex]? = some m) (hw : OrderWf m.modCommon)
    (s digits : Str) (bytes : List Nat) (hs : s = digits ∨ s = '0' :: 'x' :: digits)
    (hd : eightDigits digits = some bytes) :
    convertStringToUint32Address cd s =
      match endianOf m.modCommon with
      | some e => .ok (e.number bytes)
      | none => .err := by
  obtain ⟨hx, hdec, w, x, y, z, rfl⟩ := decode_eight hd
  have hrem : removeAll0x s = digits := by
    rcases hs with rfl | rfl
    · exact removeAll0x_digits _ hx
    · rw [removeAll0x, removeAll0x_digits _ hx]
  unfold convertStringToUint32Address CalData.module? index?
  rw [hrem, hdec, hm]
  simp only
  rcases order_cases m.modCommon hw with ⟨h1, h2, h3⟩ | ⟨h1, h2, h3, h4⟩ | ⟨h1, h2⟩
  · rw [h1, if_neg h2, if_pos h3]
    rw [be32_eq rfl]; rfl
  · rw [h1, if_neg h2, if_neg h3]
    rw [le32_eq rfl]; rfl
  · rw [h1, if_pos h2]

example : convertStringToUint32Address (P := Unit)
    { modules := [{ modCommon := { byteOrder := .msbLast, byteOrderSet := true } }] }
    "0x8000aBcD".toList = .ok 0xcdab0080 := by decide +kernel

example : eightDigits "8000aBcD".toList = some [0x80, 0, 0xab, 0xcd] := by decide +kernel

/-- Specification: `t` is `s` without its occurrences of `0x`. -/
inductive Without0x : Str → Str → Prop
  | nil : Without0x [] []
  | drop {s t} (h : Without0x s t) : Without0x ('0' :: 'x' :: s) t
  | keep {c s t} (hc : ¬ ['0', 'x'] <+: c :: s) (h : Without0x s t) : Without0x (c :: s) (c :: t)

/-- Specification: `t` is a sequence of hexadecimal bytes, two digits each. -/
inductive HexBytes : Str → List Nat → Prop
  | nil : HexBytes [] []
  | cons {a b v t bs} (hv : Hex.Spec.byteVal [a, b] = some v) (h : HexBytes t bs) : HexBytes (a :: b :: t) (v :: bs)

theorem without0x_iff {s t : Str} : Without0x s t ↔ t = removeAll0x s := by
  constructor
  · intro h
    induction h with
    | nil => rfl
    | drop _ ih => rw [removeAll0x, ih]
    | @keep c s t hc _ ih =>
      unfold removeAll0x
      split
      · rename_i e; injection e with e1 e2; subst e1 e2; exact absurd ⟨_, rfl⟩ hc
      · rename_i e; injection e with e1 e2; subst e1 e2; rw [ih]
      · contradiction
  · rintro rfl
    induction s using removeAll0x.induct with
    | case1 r ih => rw [removeAll0x]; exact .drop ih
    | case2 c r hc ih =>
      rw [removeAll0x]
      · refine .keep ?_ ih
        rintro ⟨u, hu⟩
        simp only [List.cons_append, List.nil_append, List.cons.injEq] at hu
        exact hc u hu.1.symm hu.2.symm
      · exact hc
    | case3 => exact .nil

theorem hexBytes_iff {t : Str} {bs : List Nat} : HexBytes t bs ↔ hexToByteSlice t = some bs := by
  constructor
  · intro h
    induction h with
    | nil => rfl
    | cons hv _ ih =>
      obtain ⟨x, y, h1, h2, rfl⟩ := byteVal_pair hv
      simp [hexToByteSlice, fromHexChar_eq, h1, h2, ih]
  · induction t using hexToByteSlice.induct generalizing bs with
    | case1 => intro h; rw [hexToByteSlice] at h; cases h; exact .nil
    | case2 => intro h; simp [hexToByteSlice] at h
    | case3 a b r x y hx hy ih =>
      intro h
      rw [hexToByteSlice, hx, hy] at h
      simp only [Option.map_eq_some_iff] at h
      obtain ⟨cs, h1, rfl⟩ := h
      rw [fromHexChar_eq] at hx hy
      exact .cons (by simp [Hex.Spec.byteVal, hx, hy]) (ih h1)
    | case4 a b r hn =>
      intro h
      rw [hexToByteSlice] at h
      split at h
      · rename_i x y hx hy; exact absurd hy (hn x y hx)
      · cases h

/-- **C41, exactly**, for every string, of which `t` is what remains without `0x`: an error if `t` is no sequence of hexadecimal bytes or the byte
order is not supported; a crash if there are fewer than four bytes; otherwise the number that the first four bytes are. -/
theorem C41_exact {P : Type} (cd : CalData P) (m : Module P)
    (hm : cd.modules[cd.moduleIndex]? = some m) (hw : OrderWf m.modCommon) {s t : Str} (hs : Without0x s t) :
    ((∀ bs, ¬ HexBytes t bs) → convertStringToUint32Address cd s = .err) ∧
    (endianOf m.modCommon = none → convertStringToUint32Address cd s = .err) ∧
    ∀ bs e, HexBytes t bs → endianOf m.modCommon = some e →
      (bs.length < 4 → convertStringToUint32Address cd s = .panic) ∧
      (4 ≤ bs.length → convertStringToUint32Address cd s = .ok (e.number (bs.take 4))) := by
  obtain rfl := without0x_iff.1 hs
  simp only [hexBytes_iff]
  unfold convertStringToUint32Address CalData.module? index?
  rw [hm]
  cases hdec : hexToByteSlice (removeAll0x s) with
  | none => simp
  | some bs =>
    refine ⟨fun h => absurd rfl (h bs), fun h => ?_, ?_⟩
    · simp only
      rcases order_cases m.modCommon hw with ⟨h1, h2, h3⟩ | ⟨h1, h2, h3, h4⟩ | ⟨h1, h2⟩
      · rw [h1] at h; cases h
      · rw [h1] at h; cases h
      · rw [if_pos h2]
    · intro bs' e hb he
      cases hb
      simp only
      rcases order_cases m.modCommon hw with ⟨h1, h2, h3⟩ | ⟨h1, h2, h3, h4⟩ | ⟨h1, h2⟩
      · rw [h1] at he; cases he
        rw [if_neg h2, if_pos h3]
        match bs with
        | [] => simp [be32, orPanic]
        | [_] => simp [be32, orPanic]
        | [_, _] => simp [be32, orPanic]
        | [_, _, _] => simp [be32, orPanic]
        | a :: b :: c :: d :: r =>
          have : be32 (a :: b :: c :: d :: r) = be32 [a, b, c, d] := rfl
          rw [this, be32_eq rfl]
          simp [orPanic, Endian.number]
      · rw [h1] at he; cases he
        rw [if_neg h2, if_neg h3]
        match bs with
        | [] => simp [le32, orPanic]
        | [_] => simp [le32, orPanic]
        | [_, _] => simp [le32, orPanic]
        | [_, _, _] => simp [le32, orPanic]
        | a :: b :: c :: d :: r =>
          have : le32 (a :: b :: c :: d :: r) = le32 [a, b, c, d] := rfl
          rw [this, le32_eq rfl]
          simp [orPanic, Endian.number]
      · rw [h1] at he; cases he

/-- A string crashes exactly when it is a valid hex string of fewer than four bytes, apart from `0x` anywhere, and the
byte order is a supported one. -/
theorem C41_crash_iff {P : Type} (cd : CalData P) (m : Module P)
    (hm : cd.modules[cd.moduleIndex]? = some m) (hw : OrderWf m.modCommon) (s : Str) :
    convertStringToUint32Address cd s = .panic ↔
      (∃ t bs, Without0x s t ∧ HexBytes t bs ∧ bs.length < 4)
        ∧ endianOf m.modCommon ≠ none := by
  obtain ⟨g1, g2, g3⟩ := C41_exact cd m hm hw (without0x_iff.2 (rfl : removeAll0x s = removeAll0x s))
  constructor
  · intro h
    cases he : endianOf m.modCommon with
    | none => rw [g2 he] at h; cases h
    | some e =>
      refine ⟨?_, by simp⟩
      by_cases hb : ∃ bs, HexBytes (removeAll0x s) bs
      · obtain ⟨bs, hb⟩ := hb
        refine ⟨_, bs, without0x_iff.2 rfl, hb, ?_⟩
        by_cases hl : bs.length < 4
        · exact hl
        · rw [(g3 bs e hb he).2 (by omega)] at h; cases h
      · rw [g1 (fun bs hbs => hb ⟨bs, hbs⟩)] at h; cases h
  · rintro ⟨⟨t, bs, h1, h2, h3⟩, he⟩
    obtain rfl := without0x_iff.1 h1
    cases hee : endianOf m.modCommon with
    | none => exact absurd hee he
    | some e => exact (g3 bs e h2 hee).1 h3

/-- `0x` may stand anywhere, also several times. -/
example : Without0x "0x120x34".toList "1234".toList :=
  .drop (.keep (by decide) (.keep (by decide) (.drop (.keep (by decide) (.keep (by decide) .nil)))))

example : HexBytes "1234".toList [0x12, 0x34] := .cons (by decide +kernel) (.cons (by decide +kernel) .nil)

/-- False: the address "0x12" crashes the reader. -/
theorem C41_false : ¬ C41_full := by
  intro h
  have := (h Unit { modules := [{}] } {} rfl (by decide)).2 "0x12".toList
  exact this (by decide +kernel)

/-- A string with more than eight digits is cut off silently: nine bytes of digits give the
address of the first four. -/
theorem C41_long_truncated :
    convertStringToUint32Address (P := Unit) { modules := [{}] } "0x000000018000".toList
      = .ok 1 := by decide +kernel

/-! ### C42 Raw values -/

/-- C42 in full: for every data type and every byte slice of its size the result is the
number the bytes represent, with too few bytes there is an error, an unsupported byte
order is an error, and nothing crashes. -/
def C42_full : Prop :=
  ∀ (P : Type) (cd : CalData P) (m : Module P) (d : DataType) (bs : List Nat),
    cd.modules[cd.moduleIndex]? = some m → OrderWf m.modCommon → d ≠ .undefined → IsBytes bs →
    (bs.length < size d → convertByteSliceToDatatype cd bs d = .err)
    ∧ (bs.length = size d → isInteger d = true →
        convertByteSliceToDatatype cd bs d =
          match endianOf m.modCommon with
          | some e => .ok (.num (intValue e d bs))
          | none => .err)
    ∧ convertByteSliceToDatatype cd bs d ≠ .panic

/-- False: two bytes are not enough to be read as UWORD. -/
theorem C42_false_uword : ¬ C42_full := by
  intro h
  have := (h Unit { modules := [{}] } {} .uword [1, 2] rfl (by decide) (by decide)
    (by intro b hb; simp at hb; omega)).2.1 rfl rfl
  exact absurd this (by decide +kernel)

/-- False: four bytes read as ULONG crash the reader. -/
theorem C42_false_ulong : ¬ C42_full := by
  intro h
  exact (h Unit { modules := [{}] } {} .ulong [1, 2, 3, 4] rfl (by decide) (by decide)
    (by intro b hb; simp at hb; omega)).2.2 (by decide +kernel)

/-- False: the 64-bit number 2^53 + 1 is reported as 2^53, because results are `float64`. -/
theorem C42_false_precision : ¬ C42_full := by
  intro h
  have := (h Unit { modules := [{}] } {} .aUint64 [0, 32, 0, 0, 0, 0, 0, 1] rfl (by decide)
    (by decide) (by intro b hb; simp at hb; omega)).2.1 rfl rfl
  exact absurd this (by decide +kernel)

/-- The half-precision number 1.0 (bits 3C00) is reported as 15360. -/
theorem C42_float16_wrong :
    convertByteSliceToDatatype (P := Unit) { modules := [{}] } [0x3c, 0x00] .float16
      = .ok (.num 15360) := by decide +kernel

/-- Whatever the byte order, ULONG and SLONG crash when four to seven bytes are given. -/
theorem C42_long_crashes {P : Type} (cd : CalData P) (m : Module P) (d : DataType)
    (bs : List Nat) (hm : cd.modules[cd.moduleIndex]? = some m) (hw : OrderWf m.modCommon)
    (hd : d = .ulong ∨ d = .slong) (h4 : 4 ≤ bs.length) (h8 : bs.length < 8)
    (he : endianOf m.modCommon ≠ none) :
    convertByteSliceToDatatype cd bs d = .panic := by
  have hb : be64 bs = none := by
    unfold be64; split
    · simp at h8; omega
    · rfl
  have hl : le64 bs = none := by
    unfold le64; split
    · simp at h8; omega
    · rfl
  have hlen : d.length = 32 := by rcases hd with rfl | rfl <;> rfl
  unfold convertByteSliceToDatatype CalData.module? index?
  rw [if_neg (by omega), hm]
  simp only
  rcases order_cases m.modCommon hw with ⟨h1, h2, h3⟩ | ⟨h1, h2, h3, h4⟩ | ⟨h1, h2⟩
  · rw [if_neg h2, if_pos h3]
    rcases hd with rfl | rfl <;> simp [decodeWith, orPanic, hb]
  · rw [if_neg h2, if_neg h3, if_pos h4]
    rcases hd with rfl | rfl <;> simp [decodeWith, orPanic, hl]
  · exact absurd h1 he

theorem natToF64_of_le {n : Nat} (h : n ≤ 2 ^ 53) : natToF64 n = n := by
  by_cases h' : n < 2 ^ 53
  · simp [natToF64, h']
  · have : n = 2 ^ 53 := by omega
    subst this
    decide +kernel

theorem toF64_of_le {i : Int} (h : i.natAbs ≤ 2 ^ 53) : toF64 i = i := by
  unfold toF64
  rw [natToF64_of_le h]
  split <;> omega

theorem isBytes_cons {b : Nat} {bs : List Nat} (h : IsBytes (b :: bs)) : b < 256 ∧ IsBytes bs :=
  ⟨h b (List.mem_cons_self ..), fun x hx => h x (List.mem_cons_of_mem _ hx)⟩

theorem be64_eq {bs : List Nat} (h : bs.length = 8) : be64 bs = some (bigEndian bs) := by
  match bs, h with
  | [a, b, c, d, e, f, g, i], _ => simp [be64, bigEndian]; omega

theorem le64_eq {bs : List Nat} (h : bs.length = 8) : le64 bs = some (littleEndian bs) := by
  match bs, h with
  | [a, b, c, d, e, f, g, i], _ => simp [le64, littleEndian]; omega

theorem toSigned_eq (k n : Nat) (hk : 0 < k) : toSigned (8 * k) n = twosComplement k n := by
  unfold toSigned twosComplement
  have h1 : (256 : Nat) ^ k = 2 ^ (8 * k) := by rw [Nat.pow_mul]
  have h2 : (256 : Int) ^ k = 2 ^ (8 * k) := by rw [Int.pow_mul]; rfl
  have h3 : 2 ^ (8 * k) = 2 * 2 ^ (8 * k - 1) := by
    rw [← Nat.pow_succ']; congr 1; omega
  rw [h1, h2, h3]
  by_cases h : n < 2 ^ (8 * k - 1)
  · rw [if_pos h, if_pos (by omega)]
  · rw [if_neg h, if_neg (by omega)]

/-- C42 for the data types that the code reads with their standard size: UBYTE, SBYTE,
A_UINT64, A_INT64, FLOAT32_IEEE, FLOAT64_IEEE. Too few bytes are an error, nothing
crashes, integers of absolute value up to 2^53 are exact, and the floating point types
are built from the bit pattern the bytes represent.
Missing: UWORD, SWORD (read as four bytes), ULONG, SLONG (read as eight), FLOAT16_IEEE
(bit pattern taken as an integer), and 64-bit integers above 2^53 (rounded). -/
theorem C42_partial {P : Type} (cd : CalData P) (m : Module P) (d : DataType) (bs : List Nat)
    (hm : cd.modules[cd.moduleIndex]? = some m) (hw : OrderWf m.modCommon)
    (hd : d ∈ [DataType.ubyte, .sbyte, .aUint64, .aInt64, .float32, .float64])
    (hbs : IsBytes bs) :
    (bs.length < size d → convertByteSliceToDatatype cd bs d = .err)
    ∧ (bs.length = size d → endianOf m.modCommon = none →
        convertByteSliceToDatatype cd bs d = .err)
    ∧ (∀ e, bs.length = size d → endianOf m.modCommon = some e → isInteger d = true →
        (intValue e d bs).natAbs ≤ 2 ^ 53 →
        convertByteSliceToDatatype cd bs d = .ok (.num (intValue e d bs)))
    ∧ (∀ e, bs.length = size d → endianOf m.modCommon = some e →
        (d = .float32 → convertByteSliceToDatatype cd bs d = .ok (.f32 (e.number bs)))
        ∧ (d = .float64 → convertByteSliceToDatatype cd bs d = .ok (.f64 (e.number bs))))
    ∧ convertByteSliceToDatatype cd bs d ≠ .panic := by
  have hlen : d.length = 8 * size d := by
    simp only [List.mem_cons, List.not_mem_nil, or_false] at hd
    rcases hd with rfl | rfl | rfl | rfl | rfl | rfl <;> rfl
  have hpos : 0 < size d := by
    simp only [List.mem_cons, List.not_mem_nil, or_false] at hd
    rcases hd with rfl | rfl | rfl | rfl | rfl | rfl <;> decide
  -- with enough bytes the result is that of the switch for the byte order
  have hconv : ∀ e, ¬ bs.length < size d → endianOf m.modCommon = some e →
      convertByteSliceToDatatype cd bs d =
        match e with
        | .big => decodeWith be16 be32 be64 bs d
        | .little => decodeWith le16 le32 le64 bs d := by
    intro e hn he
    unfold convertByteSliceToDatatype CalData.module? index?
    rw [if_neg (by omega), hm]
    simp only
    rcases order_cases m.modCommon hw with ⟨h1, h2, h3⟩ | ⟨h1, h2, h3, h4⟩ | ⟨h1, h2⟩
    · rw [if_neg h2, if_pos h3]
      rw [h1] at he; injection he with he; subst he; rfl
    · rw [if_neg h2, if_neg h3, if_pos h4]
      rw [h1] at he; injection he with he; subst he; rfl
    · rw [h1] at he; contradiction
  have hnone : ¬ bs.length < size d → endianOf m.modCommon = none →
      convertByteSliceToDatatype cd bs d = .err := by
    intro hn he
    unfold convertByteSliceToDatatype CalData.module? index?
    rw [if_neg (by omega), hm]
    simp only
    rcases order_cases m.modCommon hw with ⟨h1, h2, h3⟩ | ⟨h1, h2, h3, h4⟩ | ⟨h1, h2⟩
    · rw [h1] at he; contradiction
    · rw [h1] at he; contradiction
    · rw [if_pos h2]
  have hshort : bs.length < size d → convertByteSliceToDatatype cd bs d = .err := by
    intro h
    unfold convertByteSliceToDatatype
    rw [if_pos (by omega)]
  refine ⟨hshort, fun h => hnone (by omega), ?_, ?_, ?_⟩
  · intro e hl he hi hle
    rw [hconv e (by omega) he]
    simp only [List.mem_cons, List.not_mem_nil, or_false] at hd
    rcases hd with rfl | rfl | rfl | rfl | rfl | rfl
    · match bs, hl with
      | [b], _ =>
        cases e <;>
          simp [decodeWith, index?, orPanic, intValue, isSigned, Endian.number, bigEndian,
            littleEndian] at hle ⊢ <;> exact toF64_of_le (by omega)
    · match bs, hl with
      | [b], _ =>
        have e1 : toSigned 8 b = twosComplement 1 b := toSigned_eq 1 b (by decide)
        cases e <;>
          simp [decodeWith, index?, orPanic, intValue, isSigned, Endian.number, bigEndian,
            littleEndian, e1, size] at hle ⊢ <;> exact toF64_of_le hle
    · cases e
      · simp [decodeWith, be64_eq hl, orPanic, intValue, isSigned, Endian.number] at hle ⊢
        exact toF64_of_le (by omega)
      · simp [decodeWith, le64_eq hl, orPanic, intValue, isSigned, Endian.number] at hle ⊢
        exact toF64_of_le (by omega)
    · have e1 : ∀ n, toSigned 64 n = twosComplement 8 n := fun n => toSigned_eq 8 n (by decide)
      cases e
      · simp [decodeWith, be64_eq hl, orPanic, intValue, isSigned, Endian.number, e1, size]
          at hle ⊢
        exact toF64_of_le hle
      · simp [decodeWith, le64_eq hl, orPanic, intValue, isSigned, Endian.number, e1, size]
          at hle ⊢
        exact toF64_of_le hle
    · simp [isInteger] at hi
    · simp [isInteger] at hi
  · intro e hl he
    rw [hconv e (by omega) he]
    constructor
    · rintro rfl
      cases e
      · simp [decodeWith, be32_eq hl, orPanic, Endian.number]
      · simp [decodeWith, le32_eq hl, orPanic, Endian.number]
    · rintro rfl
      cases e
      · simp [decodeWith, be64_eq hl, orPanic, Endian.number]
      · simp [decodeWith, le64_eq hl, orPanic, Endian.number]
  · by_cases h : bs.length < size d
    · rw [hshort h]; simp
    · cases he : endianOf m.modCommon with
      | none => rw [hnone h he]; simp
      | some e =>
        rw [hconv e h he]
        have h1 : 1 ≤ size d → index? bs 0 ≠ none := by
          intro _; unfold index?; rw [Ne, List.getElem?_eq_none_iff]; omega
        have b32 : 4 ≤ bs.length → be32 bs ≠ none ∧ le32 bs ≠ none := by
          intro h
          match bs, h with
          | _ :: _ :: _ :: _ :: _, _ => simp [be32, le32]
        have b64 : 8 ≤ bs.length → be64 bs ≠ none ∧ le64 bs ≠ none := by
          intro h
          match bs, h with
          | _ :: _ :: _ :: _ :: _ :: _ :: _ :: _ :: _, _ => simp [be64, le64]
        have ho : ∀ {α : Type} (o : Option Nat) (f : Nat → α), o ≠ none → orPanic o f ≠ .panic := by
          intro α o f ho; cases o
          · contradiction
          · simp [orPanic]
        simp only [List.mem_cons, List.not_mem_nil, or_false] at hd
        rcases hd with rfl | rfl | rfl | rfl | rfl | rfl <;> cases e <;> simp only [size] at h <;>
          simp only [decodeWith] <;> apply ho <;> first
            | exact h1 (by decide)
            | exact (b64 (by omega)).1
            | exact (b64 (by omega)).2
            | exact (b32 (by omega)).1
            | exact (b32 (by omega)).2

/-- The hypotheses of `C42_partial` are met by a negative 64-bit number, least significant
byte first. -/
example : convertByteSliceToDatatype (P := Unit)
    { modules := [{ modCommon := { byteOrder := .littleEndian, byteOrderSet := true } }] }
    [0xfe, 0xff, 0xff, 0xff, 0xff, 0xff, 0xff, 0xff] .aInt64 = .ok (.num (-2)) := by
  decide +kernel

example : intValue .little .aInt64 [0xfe, 0xff, 0xff, 0xff, 0xff, 0xff, 0xff, 0xff] = -2 := by
  decide +kernel

/-- UWORD and SWORD are decoded correctly as the 32-bit types the code takes them for. -/
theorem C42_word_as_32_bits {P : Type} (cd : CalData P) (m : Module P) (bs : List Nat)
    (e : Endian) (hm : cd.modules[cd.moduleIndex]? = some m) (hw : OrderWf m.modCommon)
    (he : endianOf m.modCommon = some e) (hl : bs.length = 4) (hbs : IsBytes bs) :
    convertByteSliceToDatatype cd bs .uword = .ok (.num (e.number bs))
    ∧ convertByteSliceToDatatype cd bs .sword = .ok (.num (twosComplement 4 (e.number bs))) := by
  have e1 : ∀ n, toSigned 32 n = twosComplement 4 n := fun n => toSigned_eq 4 n (by decide)
  have hsmall : e.number bs < 256 ^ 4 := by
    match bs, hl with
    | [a, b, c, d], _ =>
      obtain ⟨ha, hbs⟩ := isBytes_cons hbs
      obtain ⟨hb, hbs⟩ := isBytes_cons hbs
      obtain ⟨hc, hbs⟩ := isBytes_cons hbs
      obtain ⟨hd, hbs⟩ := isBytes_cons hbs
      cases e <;> simp [Endian.number, bigEndian, littleEndian] <;> omega
  have hconv : ∀ d, d.length = 32 → convertByteSliceToDatatype cd bs d =
        match e with
        | .big => decodeWith be16 be32 be64 bs d
        | .little => decodeWith le16 le32 le64 bs d := by
    intro d hd
    unfold convertByteSliceToDatatype CalData.module? index?
    rw [if_neg (by omega), hm]
    simp only
    rcases order_cases m.modCommon hw with ⟨h1, h2, h3⟩ | ⟨h1, h2, h3, h4⟩ | ⟨h1, h2⟩
    · rw [if_neg h2, if_pos h3]
      rw [h1] at he; injection he with he; subst he; rfl
    · rw [if_neg h2, if_neg h3, if_pos h4]
      rw [h1] at he; injection he with he; subst he; rfl
    · rw [h1] at he; contradiction
  have f1 : toF64 (e.number bs : Int) = e.number bs := toF64_of_le (by omega)
  have f2 : toF64 (twosComplement 4 (e.number bs)) = twosComplement 4 (e.number bs) := by
    apply toF64_of_le
    unfold twosComplement
    split <;> omega
  rw [hconv _ rfl, hconv _ rfl]
  cases e
  · simp [decodeWith, be32_eq hl, orPanic, Endian.number, e1] at f1 f2 ⊢
    exact ⟨f1, f2⟩
  · simp [decodeWith, le32_eq hl, orPanic, Endian.number, e1] at f1 f2 ⊢
    exact ⟨f1, f2⟩

example : convertByteSliceToDatatype (P := Unit) { modules := [{}] } [0xff, 0xff, 0xff, 0xfe] .sword
    = .ok (.num (-2)) := by decide +kernel

end Verif.Calib.Props
