import Verif.Calib.Spec

/-!
Properties C38 to C42, C49, C50: lookup by name, alignment, byte extraction, addresses and
raw values, system constants, data type sizes.
-/

namespace Verif.Calib.Props

open Verif.Go Verif.Calib.Spec

/-! ### C38 Lookup by name -/

/-- The object of category number `i` (in the order of the ASAP2 keywords searched: axis
points, characteristics, conversion methods, numeric tables, verbal tables, verbal range
tables, functions, groups, measurements, record layouts, system constants, units) with
the given name. -/
def categoryObject {P : Type} (m : Module P) (name : Str) : Fin 12 → Option (Obj P)
  | 0 => (m.axisPts name).map .axisPts
  | 1 => (m.characteristics name).map .characteristic
  | 2 => (m.compuMethods name).map .compuMethod
  | 3 => (m.compuTabs name).map .compuTab
  | 4 => (m.compuVTabs name).map .compuVTab
  | 5 => (m.compuVTabRanges name).map .compuVTabRange
  | 6 => (m.functions name).map .function
  | 7 => (m.groups name).map .group
  | 8 => (m.measurements name).map .measurement
  | 9 => (m.recordLayouts name).map .recordLayout
  | 10 => (m.systemConstants name).map .systemConstant
  | 11 => (m.units name).map .unit

/-- C38 in full: for every database and name the lookup delivers exactly the objects of
that name in the order of the categories, and does not crash. -/
def C38_full : Prop :=
  ∀ (P : Type) (cd : CalData P) (name : Str),
    ∃ objs, getObjectByIdent cd name = .ok objs ∧
      ∀ m, cd.modules[cd.moduleIndex]? = some m →
        objs = (List.finRange 12).filterMap (categoryObject m name)

/-- False: without a module (an A2L file without MODULE parses without error) the lookup
crashes. -/
theorem C38_false : ¬ C38_full := by
  intro h
  obtain ⟨objs, h1, -⟩ := h Unit {} []
  simp [getObjectByIdent, CalData.module?, index?] at h1

/-- The crash happens exactly when the selected module does not exist. -/
theorem C38_crash_iff {P : Type} (cd : CalData P) (name : Str) :
    getObjectByIdent cd name = .panic ↔ cd.modules.length ≤ cd.moduleIndex := by
  unfold getObjectByIdent CalData.module? index?
  cases h : cd.modules[cd.moduleIndex]? with
  | none => simpa using h
  | some m =>
    have := (List.getElem?_eq_some_iff.mp h).1
    simp only [reduceCtorEq, false_iff, Nat.not_le]
    exact this

/-- C38 for databases that have the selected module. Missing: databases without it. -/
theorem C38_partial {P : Type} (cd : CalData P) (name : Str) (m : Module P)
    (hm : cd.modules[cd.moduleIndex]? = some m) :
    getObjectByIdent cd name = .ok ((List.finRange 12).filterMap (categoryObject m name)) := by
  have h12 : List.finRange 12 = [0, 1, 2, 3, 4, 5, 6, 7, 8, 9, 10, 11] := by decide
  have key : ∀ (o : Option (Obj P)) (l : List (Fin 12)) (i : Fin 12),
      categoryObject m name i = o →
      (i :: l).filterMap (categoryObject m name) =
        o.toList ++ l.filterMap (categoryObject m name) := by
    intro o l i h
    cases o <;> simp [h]
  unfold getObjectByIdent CalData.module? index?
  rw [hm, h12]
  simp only [List.append_assoc]
  rw [key _ _ 0 rfl, key _ _ 1 rfl, key _ _ 2 rfl, key _ _ 3 rfl, key _ _ 4 rfl, key _ _ 5 rfl,
    key _ _ 6 rfl, key _ _ 7 rfl, key _ _ 8 rfl, key _ _ 9 rfl, key _ _ 10 rfl, key _ _ 11 rfl]
  simp only [List.filterMap_nil, List.append_nil]
  rfl

/-- The name "n" is a characteristic and a unit: both are delivered, in this order. -/
example : getObjectByIdent (P := Nat)
    { modules := [{ units := fun s => if s = ['n'] then some 2 else none,
                    characteristics := fun s => if s = ['n'] then some 1 else none }] } ['n']
    = .ok [.characteristic 1, .unit 2] := by rfl

/-! ### C49 System constants -/

/-- C49 in full: the value of a defined constant is returned, an undefined one is an
error. -/
def C49_full : Prop :=
  ∀ (P : Type) (cd : CalData P) (m : Module P) (name : Str),
    cd.modules[cd.moduleIndex]? = some m →
    getSystemConstantValue cd name =
      match m.systemConstants name with
      | some { value := some v, .. } => .ok v
      | _ => .err

/-- False: the constant `k` with value `1` is reported to be the empty string. -/
theorem C49_false : ¬ C49_full := by
  intro h
  have := h Unit
    { modules := [{ systemConstants := fun s =>
        if s = ['k'] then some { name := ['k'], value := some ['1'] } else none }] }
    { systemConstants := fun s =>
        if s = ['k'] then some { name := ['k'], value := some ['1'] } else none }
    ['k'] rfl
  exact absurd this (by decide +kernel)

/-- The value of a defined constant is always reported as the empty string. -/
theorem C49_value_lost {P : Type} (cd : CalData P) (m : Module P) (name : Str) (n v : Str)
    (hm : cd.modules[cd.moduleIndex]? = some m)
    (hs : m.systemConstants name = some { name := n, value := some v }) :
    getSystemConstantValue cd name = .ok [] := by
  simp [getSystemConstantValue, getSystemConstant, CalData.module?, index?, hm, hs, Res.bind]

/-- C49 restricted to what holds: undefined names and constants without a value are
errors, a defined constant is not an error, and the constant itself (name and value) is
found by `getSystemConstant`. Missing: the value is not returned. -/
theorem C49_partial {P : Type} (cd : CalData P) (m : Module P) (name : Str)
    (hm : cd.modules[cd.moduleIndex]? = some m) :
    (getSystemConstantValue cd name = .err ↔
      ∀ c v, m.systemConstants name = some c → c.value ≠ some v)
    ∧ (∀ c, m.systemConstants name = some c → getSystemConstant cd name = .ok c)
    ∧ (m.systemConstants name = none → getSystemConstant cd name = .err) := by
  refine ⟨?_, ?_, ?_⟩
  · unfold getSystemConstantValue getSystemConstant CalData.module? index?
    rw [hm]
    cases h : m.systemConstants name with
    | none => simp [h, Res.bind]
    | some c =>
      cases hv : c.value with
      | none =>
        simp only [h, Res.bind, hv, true_iff]
        rintro c' v h' hv'
        cases h'
        rw [hv] at hv'
        contradiction
      | some v => simp [h, Res.bind, hv]
  · intro c h; simp [getSystemConstant, CalData.module?, index?, hm, h]
  · intro h; simp [getSystemConstant, CalData.module?, index?, hm, h]

example : getSystemConstantValue (P := Unit) { modules := [{}] } ['k'] = .err := by decide +kernel

/-! ### C50 Data type sizes and names -/

/-- C50 in full. -/
def C50_full : Prop :=
  (∀ d : DataType, d.length = 8 * size d)
  ∧ (∀ d : DataType, d ≠ .undefined → parseDataType d.toStr = some d)
  ∧ (∀ t d, parseDataType t = some d → d.toStr = t ∧ d ≠ .undefined)

/-- False: UWORD is reported to have 32 bits. -/
theorem C50_false : ¬ C50_full := by
  intro h
  exact absurd (h.1 .uword) (by decide)

/-- C50 without the sizes of UWORD and SWORD (which the code takes for 32-bit types):
all other sizes are the standard ones, and names and types convert into each other
without loss. -/
theorem C50_partial :
    (∀ d : DataType, d ≠ .uword → d ≠ .sword → d.length = 8 * size d)
    ∧ DataType.uword.length ≠ 8 * size .uword ∧ DataType.sword.length ≠ 8 * size .sword
    ∧ (∀ d : DataType, d ≠ .undefined → parseDataType d.toStr = some d)
    ∧ (∀ t d, parseDataType t = some d → d.toStr = t ∧ d ≠ .undefined) := by
  refine ⟨?_, by decide, by decide, ?_, ?_⟩
  · intro d h1 h2; cases d <;> first | rfl | contradiction
  · intro d h; cases d <;> first | contradiction | decide +kernel
  · intro t d h
    unfold parseDataType at h
    repeat' split at h
    all_goals first
      | (injection h with h; subst h; rename_i ht; exact ⟨ht.symm, by decide⟩)
      | contradiction

example : parseDataType "A_INT64".toList = some .aInt64
    ∧ parseDataType "INT64".toList = none := by decide +kernel

/-! ### C39 Alignment -/

/-- C39 in full: for every 32-bit address that has an aligned successor among the 32-bit
addresses, the result is that successor. -/
def C39_full : Prop :=
  ∀ (P : Type) (cd : CalData P) (m : Module P) (a : Nat) (d : DataType) (rl : RecordLayout)
    (r : Nat), cd.modules[cd.moduleIndex]? = some m → d ≠ .undefined →
    IsNextAligned a (border rl m.modCommon d) r → r < 2 ^ 32 →
    getNextAlignedAddress cd a d rl = .ok r

/-- The switch over the data types selects the border in force. -/
theorem getNextAlignedAddress_eq {P : Type} (cd : CalData P) (m : Module P) (a : Nat)
    (d : DataType) (rl : RecordLayout) (hm : cd.modules[cd.moduleIndex]? = some m)
    (hd : d ≠ .undefined) :
    getNextAlignedAddress cd a d rl = addModulo a (border rl m.modCommon d) := by
  have key : ∀ (get : Align → Option Nat) (dflt : Nat),
      (∀ x, alignEntry d x = get x) → size d = dflt →
      alignCase cd rl a get dflt = addModulo a (border rl m.modCommon d) := by
    intro get dflt h1 h2
    unfold alignCase CalData.module? index? border
    rw [hm, h1, h1, h2]
    cases get rl.align with
    | some b => rfl
    | none =>
      cases h : get m.modCommon.align with
      | some b => simp [h]
      | none => simp [h]
  cases d
  case undefined => contradiction
  all_goals
    unfold getNextAlignedAddress
    apply key
    · intro x; rfl
    · rfl

/-- False: the address after 5 that is divisible by 4 is 8, the code says 6. -/
theorem C39_false : ¬ C39_full := by
  intro h
  have := h Unit { modules := [{}] } {} 5 .ulong {} 8 rfl (by decide)
    ⟨by decide, by decide, by
      intro r' h1 h2
      have h3 : (4 : Nat) ∣ r' := h2
      omega⟩ (by decide)
  exact absurd this (by decide +kernel)

/-- A border of 0, which the parser accepts, crashes. -/
theorem C39_zero_border_crash {P : Type} (cd : CalData P) (m : Module P) (a : Nat)
    (d : DataType) (rl : RecordLayout) (hm : cd.modules[cd.moduleIndex]? = some m)
    (hd : d ≠ .undefined) (hb : border rl m.modCommon d = 0) :
    getNextAlignedAddress cd a d rl = .panic := by
  rw [getNextAlignedAddress_eq cd m a d rl hm hd, hb]
  rfl

theorem isNextAligned_of_rem {a b r : Nat} (h : IsNextAligned a b r) (hb : 0 < b) :
    (a % b = 0 → r = a) ∧ (a % b ≠ 0 → r = a + (b - a % b)) := by
  obtain ⟨h1, h2, h3⟩ := h
  have hdm := Nat.div_add_mod a b
  have hlt := Nat.mod_lt a hb
  constructor
  · intro h0
    have := h3 a (Nat.le_refl _) (Nat.dvd_of_mod_eq_zero h0)
    omega
  · intro h0
    have hd : b ∣ a + (b - a % b) := by
      refine ⟨a / b + 1, ?_⟩
      rw [Nat.mul_add, Nat.mul_one]
      omega
    have hle := h3 _ (by omega) hd
    obtain ⟨k, hk⟩ := h2
    have hk1 : a / b < k := by
      apply Nat.lt_of_mul_lt_mul_left (a := b)
      omega
    have : b * (a / b + 1) ≤ b * k := Nat.mul_le_mul_left _ hk1
    rw [Nat.mul_add, Nat.mul_one] at this
    omega

/-- C39, exactly when it holds: the code adds the remainder instead of its complement, so
for a positive border the result is right iff the address is already aligned or lies
exactly halfway between two aligned addresses. In particular it is right for the borders
1 and 2. Missing: all other addresses. -/
theorem C39_partial {P : Type} (cd : CalData P) (m : Module P) (a : Nat)
    (d : DataType) (rl : RecordLayout) (r : Nat) (hm : cd.modules[cd.moduleIndex]? = some m)
    (hd : d ≠ .undefined) (hb : 0 < border rl m.modCommon d)
    (hr : IsNextAligned a (border rl m.modCommon d) r) (hr32 : r < 2 ^ 32) :
    getNextAlignedAddress cd a d rl = .ok r ↔
      (a % border rl m.modCommon d = 0
        ∨ 2 * (a % border rl m.modCommon d) = border rl m.modCommon d) := by
  rw [getNextAlignedAddress_eq cd m a d rl hm hd]
  have hlt := Nat.mod_lt a hb
  obtain ⟨ha, hb'⟩ := isNextAligned_of_rem hr hb
  have har : a ≤ r := hr.1
  generalize border rl m.modCommon d = b at *
  unfold addModulo
  rw [if_neg (by omega)]
  by_cases h0 : a % b = 0
  · simp [h0, ha h0]
  · simp only [ne_eq, h0, not_false_eq_true, if_true, false_or]
    have hrr := hb' h0
    constructor
    · intro h
      injection h with h
      have : a + a % b < 2 ^ 32 ∨ 2 ^ 32 ≤ a + a % b := by omega
      rcases this with h4 | h4
      · rw [Nat.mod_eq_of_lt h4] at h; omega
      · exfalso
        have h5 : (a + a % b) % 2 ^ 32 = a + a % b - 2 ^ 32 ∨ 2 ^ 32 ≤ a % b := by omega
        have hdm := Nat.div_add_mod a b
        have hle := Nat.mod_le a b
        omega
    · intro h
      have : a + a % b = r := by omega
      rw [this, Nat.mod_eq_of_lt hr32]

/-- Borders 1 and 2 are always handled correctly. -/
theorem C39_small_borders {P : Type} (cd : CalData P) (m : Module P) (a : Nat)
    (d : DataType) (rl : RecordLayout) (r : Nat) (hm : cd.modules[cd.moduleIndex]? = some m)
    (hd : d ≠ .undefined)
    (hb : border rl m.modCommon d = 1 ∨ border rl m.modCommon d = 2)
    (hr : IsNextAligned a (border rl m.modCommon d) r) (hr32 : r < 2 ^ 32) :
    getNextAlignedAddress cd a d rl = .ok r := by
  refine (C39_partial cd m a d rl r hm hd (by omega) hr hr32).mpr ?_
  rcases hb with h | h <;> rw [h] <;> omega

/-- Halfway between 4 and 8, with the default border of ULONG. -/
example : getNextAlignedAddress (P := Unit) { modules := [{}] } 6 .ulong {} = .ok 8 := by
  decide +kernel

example : IsNextAligned 6 4 8 :=
  ⟨by decide, by decide, fun r' _ _ => by omega⟩

/-! ### C40 Byte extraction -/

/-- C40 in full: `n` bits at an address are the `n/8` bytes there, with an error if `n`
is not a multiple of 8 or a byte is missing (addresses that do not wrap around). -/
def C40_full : Prop :=
  ∀ (P : Type) (cd : CalData P) (a n : Nat), a + n / 8 ≤ 2 ^ 32 →
    getBytes cd a n =
      if n % 8 ≠ 0 then .err
      else match bytesAt cd.hex a (n / 8) with
        | some bs => .ok bs
        | none => .err

/-- False: reading one byte that is there crashes. -/
theorem C40_false : ¬ C40_full := by
  intro h
  have := h Unit { hex := fun _ => some 7 } 0 8 (by decide)
  exact absurd this (by decide +kernel)

/-- Every read of at least one byte crashes, whatever is stored. -/
theorem C40_always_crashes {P : Type} (cd : CalData P) (a n : Nat) (hn : 8 ≤ n) :
    getBytes cd a n = .panic := by
  unfold getBytes
  have : n / 8 > 0 := Nat.div_pos hn (by decide)
  simp [this]

/-- C40 restricted to lengths below 8 bits. Missing: every length that asks for a byte. -/
theorem C40_partial {P : Type} (cd : CalData P) (a n : Nat) (hn : n < 8) :
    getBytes cd a n = if n = 0 then .ok [] else .err := by
  unfold getBytes
  have h0 : n / 8 = 0 := Nat.div_eq_of_lt hn
  have h1 : n % 8 = n := Nat.mod_eq_of_lt hn
  by_cases h : n = 0
  · subst h; rfl
  · simp [h0, h1, h]

example : getBytes (P := Unit) {} 5 7 = .err := by decide +kernel

/-- The loop that the crash makes unreachable is right: without the faulty allocation the
bytes from the address on are collected. (A statement about the code after line 488.) -/
theorem C40_loop (hex : Nat → Option Nat) (a : Nat) (n i : Nat) (acc : List Nat)
    (h : a + i + n ≤ 2 ^ 32) :
    getBytesLoop hex a n i acc =
      match bytesAt hex (a + i) n with
      | some bs => .ok (acc ++ bs)
      | none => .err := by
  induction n generalizing i acc with
  | zero => simp [getBytesLoop, bytesAt]
  | succ n ih =>
    unfold getBytesLoop bytesAt
    rw [Nat.mod_eq_of_lt (by omega)]
    cases hex (a + i) with
    | none => rfl
    | some b =>
      simp only
      rw [ih (i + 1) (acc ++ [b]) (by omega), show a + (i + 1) = a + i + 1 by omega]
      cases bytesAt hex (a + i + 1) n with
      | none => rfl
      | some bs => simp

example : getBytesLoop (fun x => if x < 12 then some x else none) 10 2 0 [] = .ok [10, 11]
    ∧ getBytesLoop (fun x => if x < 12 then some x else none) 10 3 0 [] = .err := by
  decide +kernel

end Verif.Calib.Props
