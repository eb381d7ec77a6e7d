import Verif.Ihex.Chunks
import Verif.Ihex.TextProps
import Verif.Srec.TextProps
import Verif.Srec.CountProps
import Verif.Go.Strings

/-!
C108: blanks in a hex file. A file with white space around a line or with blank lines should be read as the file without them, or rejected.
-/

namespace Verif.Hex.Blanks
open Verif.Go Verif.Hex.Spec

/-- White space only. -/
def Blank (w : Str) : Prop := ∀ c ∈ w, isSpace c = true

instance (w : Str) : Decidable (Blank w) := by unfold Blank; infer_instance

theorem blank_noDigit {c : Char} (h : isSpace c = true) : c ∉ upperDigits ∧ c ∉ lowerDigits := by
  have hu : ∀ d ∈ upperDigits, isSpace d = false := by decide
  have hl : ∀ d ∈ lowerDigits, isSpace d = false := by decide
  exact ⟨fun hm => (by rw [hu c hm] at h; cases h), fun hm => (by rw [hl c hm] at h; cases h)⟩

/-- What ends in white space is no byte. -/
theorem specByte_blank {w : Str} {c : Char} (h : isSpace c = true) : specByte (w ++ [c]) = none := by
  obtain ⟨h1, h2⟩ := blank_noDigit h
  match w with
  | [] => rfl
  | [a] =>
    simp only [List.cons_append, List.nil_append, specByte]
    rw [if_neg]
    rintro (⟨_, hb⟩ | ⟨_, hb⟩)
    · exact h1 hb
    · exact h2 hb
  | _ :: _ :: [] => rfl
  | _ :: _ :: _ :: _ => rfl

theorem mapM_last {fs : List Str} {f : Str} (h : specByte f = none) : (fs ++ [f]).mapM specByte = none := by
  induction fs with
  | nil => simp [h]
  | cons g fs ih =>
    rw [List.cons_append, List.mapM_cons, ih]
    cases specByte g <;> rfl

theorem blank_last {w : Str} (hw : w ≠ []) (hb : Blank w) : ∃ v c, w = v ++ [c] ∧ isSpace c = true :=
  ⟨w.dropLast, w.getLast hw, (List.dropLast_concat_getLast hw).symm, hb _ (List.getLast_mem hw)⟩

/-- The last two characters of a line of at least two that ends in white space. -/
theorem last_blank {l : Str} {c : Char} (h : 1 ≤ l.length) (hc : isSpace c = true) : specByte ((l ++ [c]).drop ((l ++ [c]).length - 2)) = none := by
  have : (l ++ [c]).drop ((l ++ [c]).length - 2) = l.drop (l.length - 1) ++ [c] := by
    rw [List.length_append, List.length_singleton, show l.length + 1 - 2 = l.length - 1 by omega]
    exact List.drop_append_of_le_length (by omega)
  rw [this]
  exact specByte_blank hc

end Verif.Hex.Blanks

namespace Verif.Ihex.Blanks
open Verif.Go Verif.Hex.Spec Spec Verif.Hex.Blanks

/-- C108 for Intel HEX as stated: white space before and behind a line of a well-formed file leaves the result as it is or makes it an error. -/
def C108_ihex_full : Prop := ∀ (n : Nat), 0 < n → ∀ (A : List Str) (j : Nat) (l p w : Str), WellFormed A → A[j]? = some l → Blank p → Blank w →
  ∀ (s s' : List Nat) (o o' : Outcome), parseHex n s A = some (some o) → parseHex n s' (A.set j (p ++ l ++ w)) = some (some o') →
  o' = o ∨ o'.err ≠ none

theorem lineSum_blank {l w : Str} (hl : 11 ≤ l.length) (hw : w ≠ []) (hb : Blank w) : ¬ LineSumOk (l ++ w) := by
  obtain ⟨v, c, rfl, hc⟩ := blank_last hw hb
  rintro ⟨bs, h, _⟩
  unfold Spec.fields at h
  rw [← List.append_assoc l v [c], mapM_last (last_blank (by rw [List.length_append]; omega) hc)] at h
  cases h

theorem not_malformed_append {l w : Str} (hl : 11 ≤ l.length) (h : ¬ Malformed l) : ¬ Malformed (l ++ w) := by
  rintro ⟨_, hm | ⟨h1, h2⟩⟩
  · refine h ⟨hl, .inl ?_⟩
    cases l with
    | nil => simp at hl
    | cons c l => exact hm
  · refine h ⟨hl, .inr ⟨?_, ?_⟩⟩
    · rw [List.drop_append_of_le_length (by omega), List.take_append_of_le_length (by rw [List.length_drop]; omega)] at h1
      exact h1
    · rw [List.length_append] at h2; omega

/-- C108, behind a line: white space behind any record makes the file an error with an empty image, on any number of CPUs and for all schedules. -/
theorem C108_ihex_behind {n : Nat} (hn : 0 < n) {A : List Str} (hA : ∀ l ∈ A, ¬ Malformed l) {j : Nat} {l w : Str} (hj : A[j]? = some l)
    (hl : 11 ≤ l.length) (hw : w ≠ []) (hb : Blank w) {s : List Nat} {o : Outcome} (h : parseHex n s (A.set j (l ++ w)) = some (some o)) :
    o.err = some .invalidChecksums ∧ ∀ a, o.map a = none := by
  obtain ⟨hlt, he⟩ := List.getElem?_eq_some_iff.1 hj
  refine (C77_ihex hn _ h).1 ⟨l ++ w, ?_, lineSum_blank hl hw hb⟩
  rw [recognised_eq hn]
  · unfold significant
    rw [List.mem_filter]
    exact ⟨List.mem_iff_getElem?.2 ⟨j, by simp [hlt]⟩, by simp; omega⟩
  · intro x hx
    rcases List.mem_or_eq_of_mem_set hx with hx | rfl
    · exact hA x hx
    · exact not_malformed_append hl (hA l (List.mem_of_getElem? hj))

/-- C108, blank lines: files with the same lines of at least 11 characters give the same result, on any numbers of CPUs and for all schedules. Missing:
blank lines of 11 characters and more (`C108_ihex_lost`) and files in which a used explicit segment 0 is followed by data elsewhere (C01). -/
theorem C108_ihex_lines_partial {n m : Nat} (hn : 0 < n) (hm : 0 < m) {A B : List Str} (hA : WellFormed A) (hz : Spec.ZeroSegmentLast (recs A))
    (hs : significant A = significant B) {s s' : List Nat} {o o' : Outcome} (h : parseHex n s A = some (some o))
    (h' : parseHex m s' B = some (some o')) : (o.err = none ↔ o'.err = none) ∧ (o.err = none → ∀ a, o'.map a = o.map a) := by
  have hr : recs A = recs B := by unfold recs; rw [hs]
  have hB : WellFormed B := fun l hl => hA l (by rw [hs]; exact hl)
  obtain ⟨h1, h2⟩ := C05_file_partial hn hA hz h
  obtain ⟨g1, g2⟩ := C05_file_partial hm hB (by rw [← hr]; exact hz) h'
  have hf : fileBytes A = fileBytes B := by unfold fileBytes; rw [hr]
  have hiff : o.err = none ↔ o'.err = none := by rw [h1, g1, hr, hf]
  refine ⟨hiff, fun he a => Option.ext fun v => ?_⟩
  rw [g2 (hiff.1 he), h2 he, hf]

/-- C108, before the first line: one CPU accepts the file whatever it holds, without an error and with an empty image, if there is white space, or
anything else that does not begin with a colon, before its first line or in a line of its own of at least 11 characters. -/
theorem C108_ihex_lost {p l : Str} {rest : List Str} (hp : p ≠ []) (hc : p.head? ≠ some ':') (hlen : 11 ≤ (p ++ l).length) {s : List Nat}
    {o : Outcome} (h : parseHex 1 s ((p ++ l) :: rest) = some (some o)) : o.err = none ∧ ∀ a, o.map a = none := by
  have hmal : Malformed (p ++ l) := by
    refine ⟨hlen, .inl ?_⟩
    cases p with
    | nil => exact absurd rfl hp
    | cons c p => exact hc
  have hrec : recognised 1 ((p ++ l) :: rest) = [] := by
    unfold recognised
    simp [workerLines, hmal, significant]
  have ht : textBytes 1 ((p ++ l) :: rest) = [] := by
    unfold textBytes
    rw [hrec]
    rfl
  obtain ⟨h1, h2⟩ := ((C77_ihex (by decide) _ h).2 (by rw [hrec]; simp)).1 (by rw [ht]; simp)
  refine ⟨h1, fun a => ?_⟩
  cases hv : o.map a with
  | none => rfl
  | some v => rw [h2, ht] at hv; cases hv

/-- One byte in one line, and the end of the file. -/
def small : List Str := encode .upper [⟨false, 0, 16, [10]⟩]

theorem small_wf : WellFormed small := Chunks.wf_of (by decide +kernel) (by decide +kernel)

-- the file alone; with a blank behind its first line; with short blank lines; with a blank, or a line of blanks, before its first line
example : small[0]? = some ":010010000AE5".toList ∧ Blank [' '] ∧ (∀ l ∈ small, ¬ Malformed l) ∧ significant small = significant ([] :: [' '] :: small) ∧
    Spec.ZeroSegmentLast (recs small) := by decide +kernel
example : Reloc.look (parseHex 1 (List.replicate 9 0) small) 16 17 = some (true, some 10, none) ∧
    Reloc.look (parseHex 1 (List.replicate 9 0) (small.set 0 ":010010000AE5 ".toList)) 16 17 = some (false, none, none) ∧
    Reloc.look (parseHex 1 (List.replicate 9 0) ([] :: [' '] :: small)) 16 17 = some (true, some 10, none) ∧
    Reloc.look (parseHex 1 (List.replicate 9 0) (small.set 0 " :010010000AE5".toList)) 16 17 = some (true, none, none) ∧
    Reloc.look (parseHex 1 (List.replicate 9 0) (List.replicate 11 ' ' :: small)) 16 17 = some (true, none, none) := by decide +kernel

/-- C108 is false of Intel HEX: with a blank before its first line a file is accepted as empty. -/
theorem C108_ihex_false : ¬ C108_ihex_full := by
  intro hfull
  have l0 : Reloc.look (parseHex 1 (List.replicate 9 0) small) 16 17 = some (true, some 10, none) := by decide +kernel
  have l1 : Reloc.look (parseHex 1 (List.replicate 9 0) (small.set 0 ([' '] ++ ":010010000AE5".toList ++ []))) 16 17 = some (true, none, none) := by decide +kernel
  cases r0 : parseHex 1 (List.replicate 9 0) small with
  | none => rw [r0] at l0; cases l0
  | some oo =>
    cases oo with
    | none => rw [r0] at l0; cases l0
    | some o =>
      cases r1 : parseHex 1 (List.replicate 9 0) (small.set 0 ([' '] ++ ":010010000AE5".toList ++ [])) with
      | none => rw [r1] at l1; cases l1
      | some oo' =>
        cases oo' with
        | none => rw [r1] at l1; cases l1
        | some o' =>
          rw [r0] at l0
          rw [r1] at l1
          simp only [Reloc.look, Option.some.injEq, Prod.mk.injEq] at l0 l1
          rcases hfull 1 (by decide) small 0 ":010010000AE5".toList [' '] [] small_wf (by decide +kernel) (by decide) (by decide) _ _ o o' r0 r1 with e | e
          · rw [e, l0.2.1] at l1
            cases l1.2.1
          · exact e (by simpa using l1.1)

end Verif.Ihex.Blanks

namespace Verif.Srec.Blanks
open Verif.Go Verif.Hex.Spec Spec Verif.Hex.Blanks
open Verif.Ihex.Spec (significant workerLines)
open Verif.Ihex (Outcome)

/-- C108 for S19 as stated. -/
def C108_srec_full : Prop := ∀ (n : Nat), 0 < n → ∀ (A : List Str) (j : Nat) (l p w : Str), (∀ x ∈ A, ¬ Malformed x) → A[j]? = some l → Blank p → Blank w →
  ∀ (o o' : Outcome), parseHex n A = some o → parseHex n (A.set j (p ++ l ++ w)) = some o' → o' = o ∨ o'.err ≠ none

theorem lineSum_blank {l w : Str} (hl : 11 ≤ l.length) (hw : w ≠ []) (hb : Blank w) : ¬ LineSumOk (l ++ w) := by
  obtain ⟨v, c, rfl, hc⟩ := blank_last hw hb
  rintro ⟨bs, h, _⟩
  unfold Spec.fields at h
  rw [← List.append_assoc l v [c], mapM_last (last_blank (by rw [List.length_append]; omega) hc)] at h
  cases h

theorem not_malformed_append {l w : Str} (hl : 11 ≤ l.length) (h : ¬ Malformed l) : ¬ Malformed (l ++ w) := by
  rintro ⟨_, hm⟩
  refine h ⟨hl, fun hh => hm ⟨?_, ?_⟩⟩
  · rw [List.take_append_of_le_length (by omega)]; exact hh.1
  · rw [List.length_append]; omega

/-- C108 for S19, behind a line. -/
theorem C108_srec_behind {n : Nat} (hn : 0 < n) {A : List Str} (hA : ∀ l ∈ A, ¬ Malformed l) {j : Nat} {l w : Str} (hj : A[j]? = some l)
    (hl : 11 ≤ l.length) (hw : w ≠ []) (hb : Blank w) :
    ∃ o, parseHex n (A.set j (l ++ w)) = some o ∧ o.err = some .invalidChecksums ∧ ∀ a, o.map a = none := by
  obtain ⟨hlt, he⟩ := List.getElem?_eq_some_iff.1 hj
  obtain ⟨o, ho, h1, _⟩ := C77_srec hn (A.set j (l ++ w))
  refine ⟨o, ho, h1 ⟨l ++ w, ?_, lineSum_blank hl hw hb⟩⟩
  rw [recognised_eq hn]
  · unfold significant
    rw [List.mem_filter]
    exact ⟨List.mem_iff_getElem?.2 ⟨j, by simp [hlt]⟩, by simp; omega⟩
  · intro x hx
    rcases List.mem_or_eq_of_mem_set hx with hx | rfl
    · exact hA x hx
    · exact not_malformed_append hl (hA l (List.mem_of_getElem? hj))

/-- C108 for S19, blank lines of fewer than 11 characters. -/
theorem C108_srec_lines_partial {n m : Nat} (hn : 0 < n) (hm : 0 < m) {A B : List Str} (hA : ∀ l ∈ A, ¬ Malformed l) (hB : ∀ l ∈ B, ¬ Malformed l)
    (hs : significant A = significant B) : parseHex n A = parseHex m B := by
  rw [parseHex_eq hn, parseHex_eq hm, recognised_eq hn hA, recognised_eq hm hB, hs]

/-- C108 for S19, before the first line: everything is lost on one CPU without an error. -/
theorem C108_srec_lost {p l : Str} {rest : List Str} (hp : p ≠ []) (hc : p.head? ≠ some 'S') (hlen : 11 ≤ (p ++ l).length) :
    ∃ o, parseHex 1 ((p ++ l) :: rest) = some o ∧ o.err = none ∧ ∀ a, o.map a = none := by
  have hmal : Malformed (p ++ l) := by
    refine ⟨hlen, fun hh => ?_⟩
    cases p with
    | nil => exact hp rfl
    | cons c p =>
      have := congrArg List.head? hh.1
      simp only [List.cons_append, List.take_succ_cons, List.head?_cons] at this
      exact hc this
  have hrec : recognised 1 ((p ++ l) :: rest) = [] := by
    unfold recognised
    simp [workerLines, hmal, significant]
  rw [parseHex_eq (by decide), hrec]
  exact ⟨_, rfl, rfl, fun _ => rfl⟩

/-- One byte in one line. -/
def small : List Str := encode .upper [⟨16, [10]⟩]

-- the file alone, a blank behind its line, short blank lines, and a blank before its line
example : small[0]? = some "S306000000100ADF".toList ∧ (∀ l ∈ small, ¬ Malformed l) ∧ (∀ l ∈ [] :: [' '] :: small, ¬ Malformed l) ∧
    significant small = significant ([] :: [' '] :: small) ∧
    (parseHex 1 small).map (fun o => (o.err.isNone, o.map 16)) = some (true, some 10) ∧
    (parseHex 1 ["S306000000100ADF ".toList]).map (fun o => (o.err.isNone, o.map 16)) = some (false, none) ∧
    (parseHex 1 [" S306000000100ADF".toList]).map (fun o => (o.err.isNone, o.map 16)) = some (true, none) := by decide +kernel

/-- C108 is false of S19: with a blank before its line a file is accepted as empty. -/
theorem C108_srec_false : ¬ C108_srec_full := by
  intro hfull
  have l0 : (parseHex 1 ["S306000000100ADF".toList]).map (fun o => (o.err.isNone, o.map 16)) = some (true, some 10) := by decide +kernel
  have l1 : (parseHex 1 (["S306000000100ADF".toList].set 0 ([' '] ++ "S306000000100ADF".toList ++ []))).map (fun o => (o.err.isNone, o.map 16)) = some (true, none) := by
    decide +kernel
  obtain ⟨o, ho, e0⟩ := Option.map_eq_some_iff.1 l0
  obtain ⟨o', ho', e1⟩ := Option.map_eq_some_iff.1 l1
  simp only [Prod.mk.injEq] at e0 e1
  rcases hfull 1 (by decide) _ 0 _ [' '] [] (by decide +kernel) rfl (by decide) (by decide) o o' ho ho' with e | e
  · rw [e, e0.2] at e1
    cases e1.2
  · exact e (by simpa using e1.1)

end Verif.Srec.Blanks
