import Verif.A2l.Decl

/-!
`strconv.ParseUint` and `strconv.ParseInt` as modelled in `Lang.lean` against the
specification of decimal numbers in `Decl.lean`.
-/

namespace Verif.A2l.Decl
open Verif.Go Verif.A2l Lang

theorem digit?_eq (c : Char) (d : Nat) : digit? c = some d ↔ IsDigit c ∧ c.toNat - 48 = d := by
  unfold digit? IsDigit
  have h0 : ('0' : Char).toNat = 48 := rfl
  have h9 : ('9' : Char).toNat = 57 := rfl
  have hle : ∀ a b : Char, a ≤ b ↔ a.toNat ≤ b.toNat := fun a b => Iff.rfl
  simp only [hle, h0, h9]
  split
  · simp_all
  · simp only [reduceCtorEq, false_iff]; omega

theorem digit?_none (c : Char) : digit? c = none ↔ ¬ IsDigit c := by
  constructor
  · intro h hd
    have := (digit?_eq c _).2 ⟨hd, rfl⟩
    rw [h] at this; cases this
  · intro h
    cases hc : digit? c with
    | none => rfl
    | some d => exact absurd ((digit?_eq c d).1 hc).1 h

theorem digits?_eq (s : Str) (a n : Nat) : digits? a s = some n ↔
    (∀ c ∈ s, IsDigit c) ∧ s.foldl (fun a c => 10 * a + (c.toNat - 48)) a = n := by
  induction s generalizing a with
  | nil => simp [digits?]
  | cons c s ih =>
    simp only [digits?]
    cases hc : digit? c with
    | none =>
      have := (digit?_none c).1 hc
      simp [this]
    | some d =>
      obtain ⟨h1, h2⟩ := (digit?_eq c d).1 hc
      simp only [ih, List.mem_cons, forall_eq_or_imp, h1, true_and, List.foldl_cons]
      rw [show a * 10 + d = 10 * a + (c.toNat - 48) by omega]

theorem isNat_iff (s : Str) (n : Nat) : IsNat s n ↔ s ≠ [] ∧ digits? 0 s = some n := by
  rw [digits?_eq]; rfl

theorem IsNat.unique {s : Str} {n m : Nat} (h : IsNat s n) (h' : IsNat s m) : n = m :=
  h.2.2.symm.trans h'.2.2

/-- `ParseUint` accepts exactly the decimal numbers in range, with their value. -/
theorem parseUint_ok (s : Str) (b n : Nat) : parseUint s b = (n, true) ↔ IsNat s n ∧ n < 2 ^ b := by
  rw [isNat_iff]
  unfold parseUint
  cases s with
  | nil => simp
  | cons c s =>
    simp only [ne_eq, reduceCtorEq, not_false_eq_true, true_and]
    cases h : digits? 0 (c :: s) with
    | none => simp
    | some k =>
      simp only [Option.some.injEq]
      split
      · rename_i hk
        simp only [Prod.mk.injEq, and_true]
        constructor
        · rintro rfl; exact ⟨rfl, hk⟩
        · exact fun hh => hh.1
      · rename_i hk
        simp only [Prod.mk.injEq, Bool.false_eq_true, and_false, false_iff, not_and]
        rintro rfl; exact hk

theorem not_digit_plus : ¬ IsDigit '+' := by unfold IsDigit; decide
theorem not_digit_minus : ¬ IsDigit '-' := by unfold IsDigit; decide

theorem IsNat.head {c : Char} {t : Str} {n : Nat} (h : IsNat (c :: t) n) : IsDigit c :=
  h.2.1 c (List.mem_cons_self ..)

/-- The part of `ParseInt` after the sign. -/
def intTail (neg : Bool) (d : Str) (bits : Nat) : Int × Bool :=
  match d with
  | [] => (0, false)
  | _ =>
    match digits? 0 d with
    | none => (0, false)
    | some n =>
      if neg then
        if n ≤ 2 ^ (bits - 1) then (-(n : Int), true) else (-((2 ^ (bits - 1) : Nat) : Int), false)
      else
        if n < 2 ^ (bits - 1) then ((n : Int), true) else (((2 ^ (bits - 1) : Nat) : Int) - 1, false)

theorem intTail_pos (d : Str) (b : Nat) (z : Int) : intTail false d b = (z, true) ↔
    ∃ n : Nat, IsNat d n ∧ n < 2 ^ (b - 1) ∧ z = n := by
  simp only [isNat_iff]
  unfold intTail
  cases d with
  | nil => simp
  | cons c s =>
    cases h : digits? 0 (c :: s) with
    | none => simp
    | some k =>
      simp only [Bool.false_eq_true, if_false, ne_eq, reduceCtorEq, not_false_eq_true, true_and,
        Option.some.injEq]
      constructor
      · intro hh
        split at hh
        · rename_i hk
          simp only [Prod.mk.injEq, and_true] at hh
          exact ⟨k, rfl, hk, hh.symm⟩
        · simp at hh
      · rintro ⟨n, rfl, hn, rfl⟩
        rw [if_pos hn]

theorem intTail_neg (d : Str) (b : Nat) (z : Int) : intTail true d b = (z, true) ↔
    ∃ n : Nat, IsNat d n ∧ n ≤ 2 ^ (b - 1) ∧ z = -(n : Int) := by
  simp only [isNat_iff]
  unfold intTail
  cases d with
  | nil => simp
  | cons c s =>
    cases h : digits? 0 (c :: s) with
    | none => simp
    | some k =>
      simp only [if_true, ne_eq, reduceCtorEq, not_false_eq_true, true_and, Option.some.injEq]
      constructor
      · intro hh
        split at hh
        · rename_i hk
          simp only [Prod.mk.injEq, and_true] at hh
          exact ⟨k, rfl, hk, hh.symm⟩
        · simp at hh
      · rintro ⟨n, rfl, hn, rfl⟩
        rw [if_pos hn]

theorem parseInt_plus (t : Str) (b : Nat) : parseInt ('+' :: t) b = intTail false t b := rfl
theorem parseInt_minus (t : Str) (b : Nat) : parseInt ('-' :: t) b = intTail true t b := rfl
theorem parseInt_other (s : Str) (b : Nat) (h1 : ∀ t, s ≠ '+' :: t) (h2 : ∀ t, s ≠ '-' :: t) :
    parseInt s b = intTail false s b := by
  unfold parseInt
  split
  rename_i neg d heq
  split at heq
  · exact absurd rfl (h1 _)
  · exact absurd rfl (h2 _)
  · simp only [Prod.mk.injEq] at heq; obtain ⟨rfl, rfl⟩ := heq; rfl

/-- `ParseInt` accepts exactly the signed decimal numbers in range, with their value. -/
theorem parseInt_ok (s : Str) (b : Nat) (z : Int) : parseInt s b = (z, true) ↔
    IsInt s z ∧ -(2 ^ (b - 1) : Nat) ≤ z ∧ z < (2 ^ (b - 1) : Nat) := by
  by_cases h1 : ∃ t, s = '+' :: t
  · obtain ⟨t, rfl⟩ := h1
    rw [parseInt_plus, intTail_pos]
    constructor
    · rintro ⟨n, h, hn, rfl⟩
      exact ⟨Or.inr (Or.inl ⟨n, t, rfl, h, rfl⟩), by omega, by omega⟩
    · rintro ⟨⟨n, h, rfl⟩ | ⟨n, t', ht, h, rfl⟩ | ⟨n, t', ht, h, rfl⟩, h2, h3⟩
      · exact absurd h.head not_digit_plus
      · simp only [List.cons.injEq, true_and] at ht; subst ht
        exact ⟨n, h, by omega, rfl⟩
      · simp at ht
  · by_cases h2 : ∃ t, s = '-' :: t
    · obtain ⟨t, rfl⟩ := h2
      rw [parseInt_minus, intTail_neg]
      have hpos : 0 < 2 ^ (b - 1) := Nat.two_pow_pos _
      constructor
      · rintro ⟨n, h, hn, rfl⟩
        exact ⟨Or.inr (Or.inr ⟨n, t, rfl, h, rfl⟩), by omega, by omega⟩
      · rintro ⟨⟨n, h, rfl⟩ | ⟨n, t', ht, h, rfl⟩ | ⟨n, t', ht, h, rfl⟩, h2, h3⟩
        · exact absurd h.head not_digit_minus
        · simp at ht
        · simp only [List.cons.injEq, true_and] at ht; subst ht
          exact ⟨n, h, by omega, rfl⟩
    · rw [parseInt_other s b (fun t ht => h1 ⟨t, ht⟩) (fun t ht => h2 ⟨t, ht⟩), intTail_pos]
      constructor
      · rintro ⟨n, h, hn, rfl⟩
        exact ⟨Or.inl ⟨n, h, rfl⟩, by omega, by omega⟩
      · rintro ⟨⟨n, h, rfl⟩ | ⟨n, t', ht, h, rfl⟩ | ⟨n, t', ht, h, rfl⟩, h4, h5⟩
        · exact ⟨n, h, by omega, rfl⟩
        · exact absurd ⟨t', ht⟩ h1
        · exact absurd ⟨t', ht⟩ h2

/-- Storing a value that was accepted does not change it. -/
theorem castInt_uint {b n : Nat} (h : n < 2 ^ b) : castInt (.uint b) (n : Int) = n := by
  unfold castInt
  exact Int.emod_eq_of_lt (by omega) (by omega)

theorem castInt_int {b : Nat} {z : Int} (hb : 0 < b) (h1 : -(2 ^ (b - 1) : Nat) ≤ z)
    (h2 : z < (2 ^ (b - 1) : Nat)) : castInt (.int b) z = z := by
  unfold castInt
  have hp : 2 ^ b = 2 * 2 ^ (b - 1) := by
    obtain ⟨k, rfl⟩ : ∃ k, b = k + 1 := ⟨b - 1, by omega⟩
    simp [Nat.pow_succ, Nat.mul_comm]
  simp only [hp]
  rw [Int.emod_eq_of_lt (by omega) (by omega)]
  omega

end Verif.A2l.Decl
