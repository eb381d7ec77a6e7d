import Verif.Hex.Table
import Verif.Hex.Spec

namespace Verif.Hex

open Verif.Go Verif.Hex.Spec

/-- All digit characters. -/
def digitChars : List Char :=
  ['0','1','2','3','4','5','6','7','8','9','A','B','C','D','E','F','a','b','c','d','e','f']

theorem digitVal_some_mem {c : Char} {v : Nat} (h : digitVal c = some v) : c ∈ digitChars := by
  unfold digitVal at h
  split at h
  · next i hi =>
    rw [List.findIdx?_eq_some_iff_getElem] at hi
    obtain ⟨hl, hp, _⟩ := hi
    have : upperDigits[i] ∈ upperDigits := List.getElem_mem hl
    simp only [beq_iff_eq] at hp
    rw [hp] at this
    revert this
    simp [upperDigits, digitChars]
    grind
  · rw [List.findIdx?_eq_some_iff_getElem] at h
    obtain ⟨hl, hp, _⟩ := h
    have : lowerDigits[v] ∈ lowerDigits := List.getElem_mem hl
    simp only [beq_iff_eq] at hp
    rw [hp] at this
    revert this
    simp [lowerDigits, digitChars]
    grind

theorem table_sound : ∀ e ∈ hexBytes, specByte e.1 = some e.2 := by
  decide +kernel

theorem table_complete :
    ∀ a ∈ digitChars, ∀ b ∈ digitChars, hexToByte [a, b] = specByte [a, b] := by
  decide +kernel

theorem lookup_mem {α β : Type _} [BEq α] [LawfulBEq α] {l : List (α × β)} {k : α} {v : β}
    (h : l.lookup k = some v) : (k, v) ∈ l := by
  induction l with
  | nil => simp at h
  | cons e l ih =>
    obtain ⟨k', v'⟩ := e
    rw [List.lookup_cons] at h
    split at h
    · next hk => simp only [beq_iff_eq] at hk; simp_all
    · simp [ih h]

theorem specByte_mem {s : Str} {v : Nat} (h : specByte s = some v) :
    ∃ a ∈ digitChars, ∃ b ∈ digitChars, s = [a, b] := by
  unfold specByte at h
  split at h
  · next a b =>
    split at h
    · unfold byteVal at h
      simp only at h
      split at h
      · next x y hx hy => exact ⟨a, digitVal_some_mem hx, b, digitVal_some_mem hy, rfl⟩
      · simp at h
    · simp at h
  · simp at h

/-- The table lookup is the specification, for every string. -/
theorem hexToByte_eq (s : Str) : hexToByte s = specByte s := by
  cases h : specByte s with
  | some v =>
    obtain ⟨a, ha, b, hb, rfl⟩ := specByte_mem h
    rw [table_complete a ha b hb, h]
  | none =>
    cases h2 : hexToByte s with
    | none => rfl
    | some v =>
      have := table_sound _ (lookup_mem h2)
      simp_all

theorem fromHexChar_digits : ∀ c ∈ digitChars, fromHexChar c = digitVal c := by decide +kernel

theorem hexToByte_pair {s : Str} {v : Nat} (h : hexToByte s = some v) :
    ∃ a b x y, s = [a, b] ∧ fromHexChar a = some x ∧ fromHexChar b = some y ∧ v = 16 * x + y ∧
      v < 256 := by
  rw [hexToByte_eq] at h
  obtain ⟨a, ha, b, hb, rfl⟩ := specByte_mem h
  have hlt : ∀ a ∈ digitChars, ∀ b ∈ digitChars, ∀ w, specByte [a, b] = some w → w < 256 := by
    intro a ha b hb
    have : ∀ a ∈ digitChars, ∀ b ∈ digitChars, (specByte [a, b]).all (· < 256) = true := by
      decide +kernel
    intro w hw
    have := this a ha b hb
    rw [hw] at this
    simpa using this
  have h' := h
  unfold specByte at h
  simp only at h
  split at h
  · unfold byteVal at h
    simp only at h
    split at h
    · next x y hx hy =>
      exact ⟨a, b, x, y, rfl, by rw [fromHexChar_digits a ha, hx], by rw [fromHexChar_digits b hb, hy],
        by simpa using h.symm, hlt a ha b hb v h'⟩
    · simp at h
  · simp at h

/-- Two checked bytes decode as a 16-bit field. -/
theorem decodeString_append_pair {s t : Str} {v : Nat} (h : hexToByte s = some v) :
    decodeString (s ++ t) = (decodeString t).map (v :: ·) := by
  obtain ⟨a, b, x, y, rfl, hx, hy, rfl, _⟩ := hexToByte_pair h
  simp only [List.cons_append, List.nil_append, decodeString, hx, hy]
  cases decodeString t <;> rfl

theorem hexToByte_length {s : Str} {v : Nat} (h : hexToByte s = some v) : s.length = 2 := by
  obtain ⟨a, b, x, y, rfl, _⟩ := hexToByte_pair h
  rfl

theorem hexToByte_printByte (c : Case) (b : Nat) (hb : b < 256) :
    hexToByte (printByte c b) = some b := by
  have h : ∀ c ∈ [Case.upper, Case.lower], ∀ b ∈ List.range 256,
      hexToByte (printByte c b) = some b := by decide +kernel
  exact h c (by cases c <;> simp) b (List.mem_range.mpr hb)

theorem printByte_length (c : Case) (b : Nat) : (printByte c b).length = 2 := rfl

end Verif.Hex
