import Verif.Calib.Props5

/-!
C120: decoding loses nothing. The values that `convertByteSliceToDatatype` delivers are not always the right ones (C42), but up to four bytes, and for
the floating point types, different bytes always give different values. Integers of eight bytes are rounded, so some of them coincide.
-/

namespace Verif.Calib.Lossless
open Verif.Go Verif.Calib Verif.Calib.Spec Verif.Calib.Props

theorem big_bound : ∀ (bs : List Nat), IsBytes bs → bigEndian bs < 256 ^ bs.length
  | [], _ => by decide
  | b :: bs, h => by
    have h1 := big_bound bs fun x hx => h x (by simp [hx])
    have h2 := h b (by simp)
    rw [bigEndian, List.length_cons, Nat.pow_succ]
    have : b * 256 ^ bs.length ≤ 255 * 256 ^ bs.length := Nat.mul_le_mul_right _ (by omega)
    omega

theorem little_bound : ∀ (bs : List Nat), IsBytes bs → littleEndian bs < 256 ^ bs.length
  | [], _ => by decide
  | b :: bs, h => by
    have h1 := little_bound bs fun x hx => h x (by simp [hx])
    have h2 := h b (by simp)
    rw [littleEndian, List.length_cons, Nat.pow_succ]
    omega

theorem big_inj : ∀ (bs cs : List Nat), IsBytes bs → IsBytes cs → bs.length = cs.length → bigEndian bs = bigEndian cs → bs = cs
  | [], [], _, _, _, _ => rfl
  | b :: bs, c :: cs, hb, hc, hl, h => by
    have hl' : bs.length = cs.length := by simpa using hl
    have h1 := big_bound bs fun x hx => hb x (by simp [hx])
    have h2 := big_bound cs fun x hx => hc x (by simp [hx])
    rw [bigEndian, bigEndian, ← hl'] at h
    rw [← hl'] at h2
    have hbc : b = c := by
      have e1 : (b * 256 ^ bs.length + bigEndian bs) / 256 ^ bs.length = b := by
        rw [Nat.add_comm, Nat.add_mul_div_right _ _ (Nat.pow_pos (by decide)), Nat.div_eq_of_lt h1, Nat.zero_add]
      have e2 : (c * 256 ^ bs.length + bigEndian cs) / 256 ^ bs.length = c := by
        rw [Nat.add_comm, Nat.add_mul_div_right _ _ (Nat.pow_pos (by decide)), Nat.div_eq_of_lt h2, Nat.zero_add]
      rw [← e1, ← e2, h]
    subst hbc
    rw [big_inj bs cs (fun x hx => hb x (by simp [hx])) (fun x hx => hc x (by simp [hx])) hl' (by omega)]

theorem little_inj : ∀ (bs cs : List Nat), IsBytes bs → IsBytes cs → bs.length = cs.length → littleEndian bs = littleEndian cs → bs = cs
  | [], [], _, _, _, _ => rfl
  | b :: bs, c :: cs, hb, hc, hl, h => by
    have hl' : bs.length = cs.length := by simpa using hl
    have h1 := hb b (by simp)
    have h2 := hc c (by simp)
    rw [littleEndian, littleEndian] at h
    have hbc : b = c := by omega
    subst hbc
    rw [little_inj bs cs (fun x hx => hb x (by simp [hx])) (fun x hx => hc x (by simp [hx])) hl' (by omega)]

theorem number_inj (e : Endian) {bs cs : List Nat} (hb : IsBytes bs) (hc : IsBytes cs) (hl : bs.length = cs.length)
    (h : e.number bs = e.number cs) : bs = cs := by
  cases e with
  | big => exact big_inj bs cs hb hc hl h
  | little => exact little_inj bs cs hb hc hl h

theorem number_lt (e : Endian) {bs : List Nat} (hb : IsBytes bs) : e.number bs < 256 ^ bs.length := by
  cases e with
  | big => exact big_bound bs hb
  | little => exact little_bound bs hb

theorem nearest_self {x r : Int} (h : IsNearest x r) (hx : x.natAbs ≤ 2 ^ 53) : r = x := by
  have := h.near x ⟨x, 0, hx, by simp⟩
  omega

/-- The types whose values are integers of eight bytes. -/
def Wide (d : DataType) : Prop := d = .ulong ∨ d = .slong ∨ d = .aUint64 ∨ d = .aInt64

/-- The full C120 (false, see `C120_false`): equal values come from equal bytes. -/
def C120_full : Prop :=
  ∀ (P : Type) (cd : CalData P) (m : Module P) (d : DataType) (bs cs : List Nat) (v : Val), cd.modules[cd.moduleIndex]? = some m →
    OrderWf m.modCommon → IsBytes bs → IsBytes cs → bs.length = taken d → cs.length = taken d →
    convertByteSliceToDatatype cd bs d = .ok v → convertByteSliceToDatatype cd cs d = .ok v → bs = cs

theorem decode_inj {d : DataType} {n n' : Nat} {v : Val} (hw : ¬ Wide d) (hn : n < 256 ^ taken d) (hn' : n' < 256 ^ taken d)
    (h : DecodesTo d n v) (h' : DecodesTo d n' v) : n = n' := by
  have huns : ∀ {n n' : Nat} {v : Val}, n < 256 ^ 4 → n' < 256 ^ 4 → (∃ r, v = .num r ∧ IsNearest (n : Int) r) →
      (∃ r, v = .num r ∧ IsNearest (n' : Int) r) → n = n' := by
    rintro n n' v hn hn' ⟨r, rfl, hr⟩ ⟨r', hv, hr'⟩
    cases hv
    have h1 := nearest_self hr (by omega)
    have h2 := nearest_self hr' (by omega)
    omega
  have hsig : ∀ {k n n' : Nat} {v : Val}, k = 1 ∨ k = 4 → n < 256 ^ k → n' < 256 ^ k → (∃ r, v = .num r ∧ IsNearest (twosComplement k n) r) →
      (∃ r, v = .num r ∧ IsNearest (twosComplement k n') r) → n = n' := by
    rintro k n n' v hk hn hn' ⟨r, rfl, hr⟩ ⟨r', hv, hr'⟩
    cases hv
    unfold twosComplement at hr hr'
    rcases hk with rfl | rfl
    · have h1 := nearest_self hr (by split <;> omega)
      have h2 := nearest_self hr' (by split <;> omega)
      rw [h1] at h2
      split at h2 <;> split at h2 <;> omega
    · have h1 := nearest_self hr (by split <;> omega)
      have h2 := nearest_self hr' (by split <;> omega)
      rw [h1] at h2
      split at h2 <;> split at h2 <;> omega
  cases d with
  | ubyte => exact huns (Nat.lt_of_lt_of_le hn (by decide)) (Nat.lt_of_lt_of_le hn' (by decide)) h h'
  | sbyte => exact hsig (.inl rfl) hn hn' h h'
  | uword => exact huns hn hn' h h'
  | sword => exact hsig (.inr rfl) hn hn' h h'
  | float16 => exact huns (Nat.lt_of_lt_of_le hn (by decide)) (Nat.lt_of_lt_of_le hn' (by decide)) h h'
  | float32 => have h1 : v = .f32 n := h; have h2 : v = .f32 n' := h'; rw [h1] at h2; cases h2; rfl
  | float64 => have h1 : v = .f64 n := h; have h2 : v = .f64 n' := h'; rw [h1] at h2; cases h2; rfl
  | ulong => exact absurd (.inl rfl) hw
  | slong => exact absurd (.inr (.inl rfl)) hw
  | aUint64 => exact absurd (.inr (.inr (.inl rfl))) hw
  | aInt64 => exact absurd (.inr (.inr (.inr rfl))) hw
  | undefined => exact h.elim

/-- C120: equal values come from equal bytes, whatever the byte order. Missing: the integers of eight bytes. -/
theorem C120_partial {P : Type} (cd : CalData P) (m : Module P) {d : DataType} {bs cs : List Nat} {v : Val}
    (hm : cd.modules[cd.moduleIndex]? = some m) (hw : OrderWf m.modCommon) (hd : ¬ Wide d)
    (hb : IsBytes bs) (hc : IsBytes cs) (hlb : bs.length = taken d) (hlc : cs.length = taken d)
    (h : convertByteSliceToDatatype cd bs d = .ok v) (h' : convertByteSliceToDatatype cd cs d = .ok v) : bs = cs := by
  obtain ⟨h1, h2⟩ := C42_exact cd m d bs hm hw
  obtain ⟨_, h2'⟩ := C42_exact cd m d cs hm hw
  have hask : asked d ≤ taken d := by cases d <;> decide
  cases he : endianOf m.modCommon with
  | none => rw [h1 (.inr (.inr (.inl he)))] at h; cases h
  | some e =>
    by_cases hu : d = .undefined
    · rw [h1 (.inr (.inr (.inr hu)))] at h; cases h
    · obtain ⟨w, hw1, hw2⟩ := (h2 e he hu (by omega)).2 (by omega)
      obtain ⟨w', hw1', hw2'⟩ := (h2' e he hu (by omega)).2 (by omega)
      rw [h] at hw1; rw [h'] at hw1'
      cases hw1; cases hw1'
      rw [← hlb, List.take_length] at hw2
      rw [← hlc, List.take_length] at hw2'
      exact number_inj e hb hc (by omega) (decode_inj hd (by rw [← hlb]; exact number_lt e hb) (by rw [← hlc]; exact number_lt e hc) hw2 hw2')

-- a little endian module, two of the words that SWORD is taken from
example : convertByteSliceToDatatype (P := Unit) { modules := [{ modCommon := { byteOrderSet := true, byteOrder := .msbLast } }] } [255, 255, 255, 255] .sword ≠
    convertByteSliceToDatatype (P := Unit) { modules := [{ modCommon := { byteOrderSet := true, byteOrder := .msbLast } }] } [254, 255, 255, 255] .sword := by
  intro h
  have h1 : convertByteSliceToDatatype (P := Unit) { modules := [{ modCommon := { byteOrderSet := true, byteOrder := .msbLast } }] } [255, 255, 255, 255] .sword =
    .ok (.num (-1)) := by decide +kernel
  have := C120_partial (P := Unit) { modules := [{ modCommon := { byteOrderSet := true, byteOrder := .msbLast } }] } _ (d := .sword) rfl (by decide)
    (by simp [Wide]) (bs := [255, 255, 255, 255]) (cs := [254, 255, 255, 255]) (by unfold IsBytes; decide) (by unfold IsBytes; decide) rfl rfl h1 (h ▸ h1)
  exact absurd this (by decide)

/-- False for the integers of eight bytes: 2^53 and 2^53 + 1 are delivered as one value. -/
theorem C120_false : ¬ C120_full := by
  intro h
  have := h Unit { modules := [{}] } {} .aUint64 [0, 32, 0, 0, 0, 0, 0, 1] [0, 32, 0, 0, 0, 0, 0, 0] (.num (2 ^ 53)) rfl (by decide)
    (by unfold IsBytes; decide) (by unfold IsBytes; decide) rfl rfl (by decide +kernel) (by decide +kernel)
  exact absurd this (by decide)

end Verif.Calib.Lossless
