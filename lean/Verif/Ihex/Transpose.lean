import Verif.Ihex.Unread

/-!
Property C115: two neighbouring digits of a hex record in the wrong order (ihex32/record.go:100-150, srec19/record.go:62-118). The sum of a record
changes by 15 times the difference of the digits, which is no multiple of 256.
-/

namespace Verif.Hex.Transpose
open Verif.Go Verif.Hex.Spec

/-- The sum of the digits, each with its weight in its byte: 16 for the first one (`true`), 1 for the second. -/
def weighted : Bool → Str → Nat
  | _, [] => 0
  | hi, c :: cs => (if hi then 16 else 1) * (digitVal c).getD 0 + weighted (!hi) cs

theorem specByte_two {p : Str} {v : Nat} (h : specByte p = some v) : ∃ a b x y, p = [a, b] ∧ digitVal a = some x ∧ digitVal b = some y ∧ v = 16 * x + y := by
  match p with
  | [] => cases h
  | [_] => cases h
  | _ :: _ :: _ :: _ => cases h
  | [a, b] =>
    have h : (if sameCase a b then byteVal [a, b] else none) = some v := h
    split at h
    · have h : (match digitVal a, digitVal b with | some x, some y => some (16 * x + y) | _, _ => none) = some v := h
      cases ha : digitVal a with
      | none => rw [ha] at h; cases h
      | some x =>
        cases hb : digitVal b with
        | none => rw [ha, hb] at h; cases h
        | some y =>
          rw [ha, hb] at h
          exact ⟨a, b, x, y, rfl, ha, hb, (Option.some.inj h).symm⟩
    · cases h

/-- The sum of the bytes of a record is the weighted sum of its digits. -/
theorem sum_weighted : ∀ (ps : List Str) (bs : List Nat), ps.mapM specByte = some bs → bs.sum = weighted true ps.flatten
  | [], bs, h => by
    rw [List.mapM_nil] at h
    cases h
    rfl
  | p :: ps, bs, h => by
    rw [List.mapM_cons] at h
    cases hp : specByte p with
    | none => rw [hp] at h; cases h
    | some v =>
      cases hps : ps.mapM specByte with
      | none => rw [hp, hps] at h; cases h
      | some vs =>
        rw [hp, hps] at h
        cases h
        obtain ⟨a, b, x, y, rfl, ha, hb, rfl⟩ := specByte_two hp
        have := sum_weighted ps vs hps
        simp only [List.sum_cons, List.flatten_cons, List.cons_append, List.nil_append, weighted, ha, hb, Option.getD_some, Bool.not_true, Bool.not_false,
          if_true, Bool.false_eq_true, if_false, this]
        omega

theorem digit_lt {c : Char} {x : Nat} (h : digitVal c = some x) : x < 16 := by
  unfold digitVal at h
  split at h
  · next i hi =>
    cases h
    obtain ⟨hl, _⟩ := List.findIdx?_eq_some_iff_getElem.1 hi
    exact hl
  · obtain ⟨hl, _⟩ := List.findIdx?_eq_some_iff_getElem.1 h
    exact hl

/-- The sums of two texts that differ in the order of two neighbouring digits differ. -/
theorem weighted_swap (hi : Bool) (pre post : Str) {a b : Char} {x y : Nat} (ha : digitVal a = some x) (hb : digitVal b = some y) (hne : x ≠ y) :
    weighted hi (pre ++ a :: b :: post) % 256 ≠ weighted hi (pre ++ b :: a :: post) % 256 := by
  have hx := digit_lt ha
  have hy := digit_lt hb
  have key : ∀ (pre : Str) (hi : Bool), ∃ (k : Nat) (w : Bool), weighted hi (pre ++ a :: b :: post) = k + (if w then 16 * x + y else x + 16 * y) ∧
      weighted hi (pre ++ b :: a :: post) = k + (if w then 16 * y + x else y + 16 * x) := by
    intro pre
    induction pre with
    | nil =>
      intro hi
      refine ⟨weighted hi post, hi, ?_, ?_⟩ <;> cases hi <;>
        simp only [List.nil_append, weighted, ha, hb, Option.getD_some, Bool.not_true, Bool.not_false, if_true, Bool.false_eq_true, if_false] <;> omega
    | cons c pre ih =>
      intro hi
      obtain ⟨k, w, h1, h2⟩ := ih (!hi)
      exact ⟨(if hi then 16 else 1) * (digitVal c).getD 0 + k, w, by rw [List.cons_append, weighted, h1]; omega,
        by rw [List.cons_append, weighted, h2]; omega⟩
  obtain ⟨k, w, h1, h2⟩ := key pre hi
  rw [h1, h2]
  cases w <;> simp only [Bool.false_eq_true, if_false, if_true] <;> omega

/-- A text of even length is made of pairs. -/
theorem pairs : ∀ (k : Nat) (s : Str), s.length = 2 * k → ∃ ps : List Str, s = ps.flatten ∧ ps.length = k ∧ ∀ p ∈ ps, p.length = 2
  | 0, s, h => ⟨[], by simpa using List.length_eq_zero_iff.1 h, rfl, by simp⟩
  | k + 1, s, h => by
    match s, h with
    | a :: b :: s, h =>
      obtain ⟨ps, h1, h2, h3⟩ := pairs k s (by simp only [List.length_cons] at h; omega)
      refine ⟨[a, b] :: ps, by rw [h1]; rfl, by simp [h2], ?_⟩
      intro p hp
      rcases List.mem_cons.1 hp with rfl | hp
      · rfl
      · exact h3 p hp
    | [_], h => simp only [List.length_singleton] at h; omega
    | [], h => simp only [List.length_nil] at h; omega

/-- Digits of a record with a value: every character of a pair. -/
theorem digit_of {ps : List Str} {bs : List Nat} (h : ps.mapM specByte = some bs) {c : Char} (hc : c ∈ ps.flatten) : ∃ x, digitVal c = some x := by
  induction ps generalizing bs with
  | nil => simp at hc
  | cons p ps ih =>
    rw [List.mapM_cons] at h
    cases hp : specByte p with
    | none => rw [hp] at h; cases h
    | some v =>
      cases hps : ps.mapM specByte with
      | none => rw [hp, hps] at h; cases h
      | some vs =>
        obtain ⟨a, b, x, y, rfl, ha, hb, _⟩ := specByte_two hp
        simp only [List.flatten_cons, List.cons_append, List.nil_append, List.mem_cons] at hc
        rcases hc with rfl | rfl | hc
        · exact ⟨x, ha⟩
        · exact ⟨y, hb⟩
        · exact ih hps hc

/-- Of two lines of digits that differ in the order of two neighbours of different value, at most one has the right sum. -/
theorem not_both {ps ps' : List Str} {pre post : Str} {a b : Char} (h : ps.flatten = pre ++ a :: b :: post) (h' : ps'.flatten = pre ++ b :: a :: post)
    (hne : digitVal a ≠ digitVal b) {bs bs' : List Nat} (hs : ps.mapM specByte = some bs) (hs' : ps'.mapM specByte = some bs')
    (he : bs.sum % 256 = bs'.sum % 256) : False := by
  obtain ⟨x, hx⟩ := digit_of hs (c := a) (by rw [h]; simp)
  obtain ⟨y, hy⟩ := digit_of hs (c := b) (by rw [h]; simp)
  rw [sum_weighted _ _ hs, sum_weighted _ _ hs', h, h'] at he
  exact weighted_swap true pre post hx hy (fun hxy => hne (by rw [hx, hy, hxy])) he

end Verif.Hex.Transpose

namespace Verif.Ihex.Transpose
open Verif.Go Verif.Hex.Spec Spec Verif.Hex.Transpose

/-- C115 of Intel HEX in full: the file is an error. It is false, see `C115_ihex_false`. -/
def C115_ihex_full : Prop := ∀ (n m : Nat), 0 < n → 0 < m → ∀ (A : List Str) (j : Nat) (pre post : Str) (a b : Char), WellFormed A →
  A[j]? = some (':' :: (pre ++ a :: b :: post)) → 11 ≤ (':' :: (pre ++ a :: b :: post)).length → digitVal a ≠ digitVal b →
  ∀ (s s' : List Nat) (o o' : Outcome), parseHex n s A = some (some o) → o.err = none →
  parseHex m s' (A.set j (':' :: (pre ++ b :: a :: post))) = some (some o') → o'.err ≠ none

theorem sum_swap {pre post : Str} {a b : Char} (hlen : 11 ≤ (':' :: (pre ++ a :: b :: post)).length)
    (hodd : (':' :: (pre ++ a :: b :: post)).length % 2 = 1) (hne : digitVal a ≠ digitVal b) (h : LineSumOk (':' :: (pre ++ a :: b :: post))) :
    ¬ LineSumOk (':' :: (pre ++ b :: a :: post)) := by
  have hl : (pre ++ b :: a :: post).length = (pre ++ a :: b :: post).length := by simp
  have hk : (pre ++ a :: b :: post).length = 2 * ((pre ++ a :: b :: post).length / 2) := by rw [List.length_cons] at hodd; omega
  obtain ⟨ps, h1, h2, h3⟩ := pairs _ _ hk
  obtain ⟨ps', h1', h2', h3'⟩ := pairs _ _ (hl.trans hk)
  rw [List.length_cons] at hlen
  rintro ⟨bs', g1', g2'⟩
  obtain ⟨bs, g1, g2⟩ := h
  rw [h1, fields_pairs ps h3 (by omega)] at g1
  rw [h1', fields_pairs ps' h3' (by omega)] at g1'
  exact not_both h1.symm h1'.symm hne g1 g1' (g2.trans g2'.symm)

/-- C115 for Intel HEX: in an accepted file without unreadable lines, two neighbouring digits of different value in the wrong order, anywhere in a line
with at least one data byte, give an error and an empty image, on any numbers of CPUs and for all schedules. Missing: records without data, of which one
can become a line that is unreadable (`C115_ihex_false`). -/
theorem C115_ihex_partial {n m : Nat} (hn : 0 < n) (hm : 0 < m) {A : List Str} (hA : ∀ l ∈ A, ¬ Malformed l) {j : Nat} {pre post : Str} {a b : Char}
    (hj : A[j]? = some (':' :: (pre ++ a :: b :: post))) (hlen : 13 ≤ (':' :: (pre ++ a :: b :: post)).length)
    (hodd : (':' :: (pre ++ a :: b :: post)).length % 2 = 1) (hne : digitVal a ≠ digitVal b) {s s' : List Nat} {o o' : Outcome}
    (h : parseHex n s A = some (some o)) (he : o.err = none) (h' : parseHex m s' (A.set j (':' :: (pre ++ b :: a :: post))) = some (some o')) :
    o'.err = some .invalidChecksums ∧ ∀ x, o'.map x = none := by
  obtain ⟨hlt, _⟩ := List.getElem?_eq_some_iff.1 hj
  have hl : (':' :: (pre ++ b :: a :: post)).length = (':' :: (pre ++ a :: b :: post)).length := by simp
  have hok : LineSumOk (':' :: (pre ++ a :: b :: post)) := by
    refine C03_success hn s A h he _ ?_
    rw [recognised_eq hn hA]
    exact List.mem_filter.2 ⟨List.mem_of_getElem? hj, by simp only [decide_eq_true_eq]; omega⟩
  refine (C77_ihex hm _ h').1 ⟨_, ?_, sum_swap (by omega) hodd hne hok⟩
  rw [recognised_eq hm]
  · refine List.mem_filter.2 ⟨List.mem_iff_getElem?.2 ⟨j, by simp [hlt]⟩, ?_⟩
    simp only [decide_eq_true_eq]
    omega
  · intro x hx
    rcases List.mem_or_eq_of_mem_set hx with hx | rfl
    · exact hA x hx
    · rintro ⟨_, hx | ⟨_, hx⟩⟩
      · exact hx rfl
      · omega

-- the digits `1` and `0` of the address of a record, as in `C115_ihex_partial`
example : [":0100100001EE".toList][0]? = some (':' :: ("010".toList ++ '0' :: '1' :: "00001EE".toList)) ∧ digitVal '0' ≠ digitVal '1' ∧
    ¬ Malformed ":0100100001EE".toList ∧ Reloc.look (parseHex 1 (List.replicate 9 0) [":0100100001EE".toList]) 16 1 = some (true, some 1, none) ∧
    Reloc.look (parseHex 1 (List.replicate 9 0) [":0101000001EE".toList]) 16 1 = some (false, none, none) := by
  refine ⟨rfl, by decide +kernel, by decide +kernel, by decide +kernel, by decide +kernel⟩

/-- A record without data, and a byte. -/
def noData : List Str := [":00C0000040".toList, ":0100100001EE".toList]

/-- C115 is false of Intel HEX: the last digit of the type and the first digit of the sum of a record without data in the wrong order make it a segment
line that is too short; one CPU gives up on it, and on all lines behind it, without an error. -/
theorem C115_ihex_false : ¬ C115_ihex_full := by
  intro hfull
  have l0 : Reloc.look (parseHex 1 (List.replicate 9 0) noData) 16 1 = some (true, some 1, none) := by decide +kernel
  have l1 : Reloc.look (parseHex 1 (List.replicate 9 0) (noData.set 0 ":00C0000400".toList)) 16 1 = some (true, none, none) := by decide +kernel
  cases r0 : parseHex 1 (List.replicate 9 0) noData with
  | none => rw [r0] at l0; cases l0
  | some oo =>
    cases oo with
    | none => rw [r0] at l0; cases l0
    | some o =>
      cases r1 : parseHex 1 (List.replicate 9 0) (noData.set 0 ":00C0000400".toList) with
      | none => rw [r1] at l1; cases l1
      | some oo' =>
        cases oo' with
        | none => rw [r1] at l1; cases l1
        | some o' =>
          rw [r0] at l0
          rw [r1] at l1
          simp only [Reloc.look, Option.some.injEq, Prod.mk.injEq] at l0 l1
          exact hfull 1 1 (by decide) (by decide) noData 0 "00C0000".toList "0".toList '0' '4' (Chunks.wf_of (by decide +kernel) (by decide +kernel)) rfl
            (by decide) (by decide +kernel) _ _ o o' r0 (by simpa using l0.1) r1 (by simpa using l1.1)

end Verif.Ihex.Transpose

namespace Verif.Srec.Transpose
open Verif.Go Verif.Hex.Spec Spec Verif.Hex.Transpose
open Verif.Ihex (Outcome)

theorem sum_swap {pre post : Str} {a b : Char} (hlen : 14 ≤ ('S' :: '3' :: (pre ++ a :: b :: post)).length)
    (heven : ('S' :: '3' :: (pre ++ a :: b :: post)).length % 2 = 0) (hne : digitVal a ≠ digitVal b)
    (h : LineSumOk ('S' :: '3' :: (pre ++ a :: b :: post))) : ¬ LineSumOk ('S' :: '3' :: (pre ++ b :: a :: post)) := by
  have hl : (pre ++ b :: a :: post).length = (pre ++ a :: b :: post).length := by simp
  have hk : (pre ++ a :: b :: post).length = 2 * ((pre ++ a :: b :: post).length / 2) := by rw [List.length_cons, List.length_cons] at heven; omega
  obtain ⟨ps, h1, h2, h3⟩ := pairs _ _ hk
  obtain ⟨ps', h1', h2', h3'⟩ := pairs _ _ (hl.trans hk)
  rw [List.length_cons, List.length_cons] at hlen
  rintro ⟨bs', g1', g2'⟩
  obtain ⟨bs, g1, g2⟩ := h
  rw [h1, fields_pairs ps h3 (by omega)] at g1
  rw [h1', fields_pairs ps' h3' (by omega)] at g1'
  exact not_both h1.symm h1'.symm hne g1 g1' (g2.trans g2'.symm)

/-- C115 for S19: in an accepted file without unreadable lines, two neighbouring digits of different value in the wrong order, anywhere behind the `S3` of
a record, give an error and an empty image, on any numbers of CPUs. -/
theorem C115_srec {n m : Nat} (hn : 0 < n) (hm : 0 < m) {A : List Str} (hA : ∀ l ∈ A, ¬ Malformed l) {j : Nat} {pre post : Str} {a b : Char}
    (hj : A[j]? = some ('S' :: '3' :: (pre ++ a :: b :: post))) (hlen : 14 ≤ ('S' :: '3' :: (pre ++ a :: b :: post)).length)
    (heven : ('S' :: '3' :: (pre ++ a :: b :: post)).length % 2 = 0) (hne : digitVal a ≠ digitVal b) {o : Outcome}
    (h : parseHex n A = some o) (he : o.err = none) :
    ∃ o', parseHex m (A.set j ('S' :: '3' :: (pre ++ b :: a :: post))) = some o' ∧ o'.err = some .invalidChecksums ∧ ∀ x, o'.map x = none := by
  obtain ⟨hlt, _⟩ := List.getElem?_eq_some_iff.1 hj
  have hl : ('S' :: '3' :: (pre ++ b :: a :: post)).length = ('S' :: '3' :: (pre ++ a :: b :: post)).length := by simp
  have hok : LineSumOk ('S' :: '3' :: (pre ++ a :: b :: post)) := by
    refine C14_success hn h he _ ?_
    rw [recognised_eq hn hA]
    exact List.mem_filter.2 ⟨List.mem_of_getElem? hj, by simp only [decide_eq_true_eq]; omega⟩
  obtain ⟨o', h1, h2, _⟩ := C77_srec hm (A.set j ('S' :: '3' :: (pre ++ b :: a :: post)))
  refine ⟨o', h1, h2 ⟨_, ?_, sum_swap hlen heven hne hok⟩⟩
  rw [recognised_eq hm]
  · refine List.mem_filter.2 ⟨List.mem_iff_getElem?.2 ⟨j, by simp [hlt]⟩, ?_⟩
    simp only [decide_eq_true_eq]
    omega
  · intro x hx
    rcases List.mem_or_eq_of_mem_set hx with hx | rfl
    · exact hA x hx
    · exact fun hx => hx.2 ⟨rfl, by omega⟩

-- the digits `1` and `0` of the address of a record
example : Cut.two[0]? = some ('S' :: '3' :: ("0600000".toList ++ '0' :: '1' :: "00ADF".toList)) ∧ digitVal '0' ≠ digitVal '1' ∧
    (∀ l ∈ Cut.two, ¬ Malformed l) ∧ (parseHex 1 Cut.two).map (fun o => o.err.isNone) = some true ∧
    (parseHex 1 (Cut.two.set 0 "S306000001000ADF".toList)).map (fun o => o.err.isNone) = some false := by
  refine ⟨rfl, by decide +kernel, by decide +kernel, by decide +kernel, by decide +kernel⟩

end Verif.Srec.Transpose
