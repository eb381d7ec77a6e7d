import Verif.Ihex.Cut

/-!
Property C114: lines of a hex file that cannot be read (ihex32/hex.go:241-256, ihex32/record.go:28-81, srec19/hex.go:230-245,
srec19/record.go:27-44). What is stored for the lines that are left: S19 never a wrong byte, Intel HEX bytes at wrong addresses.
-/

namespace Verif.Srec.Unread
open Verif.Go Verif.Hex.Spec Spec
open Verif.Ihex.Spec (significant)
open Verif.Ihex (Outcome)

/-- C114 for S19: a file all of whose lines are lines of an accepted file, unreadable or too short gives an error, or an image with nothing but bytes of
the accepted file, on any numbers of CPUs. -/
theorem C114_srec {n m : Nat} (hn : 0 < n) (hm : 0 < m) {A B : List Str} (hA : ∀ l ∈ A, ¬ Malformed l)
    (hB : ∀ l ∈ B, l ∈ A ∨ Malformed l ∨ l.length < 11) {o o' : Outcome} (h : parseHex n A = some o) (he : o.err = none)
    (h' : parseHex m B = some o') {a v : Nat} (hv : o'.map a = some v) : o.map a = some v := by
  obtain ⟨_, hmem⟩ := Cut.map_textBytes hm h' hv
  have hsub := recognised_sublist hm B
  have hwhole : (a, v) ∈ Spec.textBytes n A := by
    unfold Spec.textBytes at hmem ⊢
    rw [recognised_eq hn hA]
    obtain ⟨y, hy, hb⟩ := List.mem_flatMap.1 hmem
    obtain ⟨h1, h2⟩ := Cut.recognised_mem hy
    rcases hB y (hsub.subset hy) with hy' | hy' | hy'
    · exact List.mem_flatMap.2 ⟨y, List.mem_filter.2 ⟨hy', by simpa using h1⟩, hb⟩
    · exact absurd hy' h2
    · omega
  obtain ⟨o2, ho2, h1, h2⟩ := C77_srec hn A
  obtain rfl := Option.some.inj (ho2.symm.trans h)
  by_cases hok : ∀ l ∈ recognised n A, LineSumOk l
  · obtain ⟨h3, h4⟩ := h2 hok
    rcases Ihex.clash_or (Spec.textBytes n A) with hnd | ⟨pre, b, z, w, hc⟩
    · exact ((h3 hnd).2 a v).2 hwhole
    · rw [(h4 _ _ _ _ hc).1] at he; cases he
  · simp only [Classical.not_forall, ← exists_prop] at hok
    rw [(h1 (by simpa only [exists_prop] using hok)).1] at he
    cases he

-- the second of two lines has become unreadable; the rest is read without an error
example : (∀ l ∈ Cut.two, ¬ Malformed l) ∧ (∀ l ∈ Cut.two.set 1 "!!S306000000200BCE".toList, l ∈ Cut.two ∨ Malformed l ∨ l.length < 11) ∧
    (parseHex 1 Cut.two).map (fun o => (o.err.isNone, o.map 16, o.map 32)) = some (true, some 10, some 11) ∧
    (parseHex 1 (Cut.two.set 1 "!!S306000000200BCE".toList)).map (fun o => (o.err.isNone, o.map 16, o.map 32)) = some (true, some 10, none) := by
  decide +kernel

end Verif.Srec.Unread

namespace Verif.Ihex.Unread
open Verif.Go Verif.Hex.Spec Spec

/-- C114 of Intel HEX in full: an accepted file of well-formed records in which one line has become unreadable gives an error, or an image with nothing
but bytes of the accepted file. It is false, see `C114_ihex_false`. -/
def C114_ihex_full : Prop := ∀ (n : Nat), 0 < n → ∀ (A : List Str) (j : Nat) (x : Str), WellFormed A → Spec.ZeroSegmentLast (Spec.recs A) → Malformed x →
  ∀ (s s' : List Nat) (o o' : Outcome), parseHex n s A = some (some o) → o.err = none → parseHex n s' (A.set j x) = some (some o') →
  ∀ a v, o'.map a = some v → o.map a = some v

theorem selected_none {ls : List Str} (h : ∀ l ∈ ls, typeText l ≠ ['0', '4']) (a i : Nat) : selectedText ls a i = none := by
  unfold selectedText
  rw [List.filter_eq_nil_iff.2]
  · rfl
  · intro l hl
    simpa using h l (List.mem_of_mem_take (List.mem_of_mem_drop hl))

theorem used_zero {ls : List Str} (h : ∀ l ∈ ls, typeText l ≠ ['0', '4']) (starts : List Nat) (i : Nat) : usedText starts ls i = ['0', '0', '0', '0'] := by
  unfold usedText
  rw [selected_none h]
  split <;> rfl

/-- Without lines of type 04 every line is read by itself. -/
theorem linesBytes_mem {ls : List Str} (h : ∀ l ∈ ls, typeText l ≠ ['0', '4']) (starts : List Nat) (p : Nat × Nat) :
    p ∈ linesBytes starts ls ↔ ∃ l ∈ ls, typeText l = ['0', '0'] ∧ p ∈ lineBytes ['0', '0', '0', '0'] l := by
  unfold linesBytes
  simp only [used_zero h, List.mem_flatMap]
  constructor
  · rintro ⟨⟨l, i⟩, h1, h2⟩
    dsimp only at h2
    split at h2
    · next ht => exact ⟨l, (List.mem_zipIdx' h1).2 ▸ List.getElem_mem _, ht, h2⟩
    · cases h2
  · rintro ⟨l, h1, h2, h3⟩
    obtain ⟨i, hi, rfl⟩ := List.mem_iff_getElem.1 h1
    refine ⟨(ls[i], i), List.mk_mem_zipIdx_iff_getElem?.2 (List.getElem?_eq_getElem hi), ?_⟩
    dsimp only
    rw [if_pos h2]
    exact h3

/-- C114 for Intel HEX files without lines of type 04: a file all of whose lines are lines of the accepted file, unreadable or too short gives an error,
or an image with nothing but bytes of the accepted file, on any numbers of CPUs and for all schedules. Missing: files with such lines
(`C114_ihex_one`, `C114_ihex_false`). -/
theorem C114_ihex_partial {n m : Nat} (hn : 0 < n) (hm : 0 < m) {A B : List Str} (hA : ∀ l ∈ A, ¬ Malformed l) (h4 : ∀ l ∈ A, typeText l ≠ ['0', '4'])
    (hB : ∀ l ∈ B, l ∈ A ∨ Malformed l ∨ l.length < 11) {s s' : List Nat} {o o' : Outcome} (h : parseHex n s A = some (some o)) (he : o.err = none)
    (h' : parseHex m s' B = some (some o')) {a v : Nat} (hv : o'.map a = some v) : o.map a = some v := by
  obtain ⟨_, hmem⟩ := Cut.map_textBytes hm h' hv
  have hrec : ∀ l ∈ recognised m B, l ∈ A ∧ 11 ≤ l.length := by
    intro l hl
    obtain ⟨h1, h2⟩ := Cut.recognised_mem hl
    rcases hB l ((recognised_sublist hm B).subset hl) with hy | hy | hy
    · exact ⟨hy, h1⟩
    · exact absurd hy h2
    · omega
  refine Cut.textBytes_map hn h he ?_
  unfold textBytes at hmem ⊢
  rw [recognised_eq hn hA]
  obtain ⟨l, h1, h2, h3⟩ := (linesBytes_mem (fun l hl => h4 l (hrec l hl).1) _ _).1 hmem
  refine (linesBytes_mem (fun l hl => h4 l (List.mem_filter.1 hl).1) _ _).2 ⟨l, ?_, h2, h3⟩
  exact List.mem_filter.2 ⟨(hrec l h1).1, by simpa using (hrec l h1).2⟩

/-- C114 for Intel HEX on one CPU: whatever stands behind the unreadable line. -/
theorem C114_ihex_one {n : Nat} (hn : 0 < n) {A : List Str} (hwf : WellFormed A) (hz : Spec.ZeroSegmentLast (Spec.recs A)) (k : Nat) {x : Str}
    (hx : Malformed x) (rest : List Str) {s s' : List Nat} {o o' : Outcome} (h : parseHex n s A = some (some o)) (he : o.err = none)
    (h' : parseHex 1 s' (A.take k ++ x :: rest) = some (some o')) : o'.err = none ∧ ∀ a v, o'.map a = some v → o.map a = some v := by
  have hnm : ∀ l ∈ A.take k, ¬ Malformed l := fun l hl hmal =>
    wellFormed_not_malformed (hwf l (List.mem_filter.2 ⟨List.mem_of_mem_take hl, by simpa using hmal.1⟩)) hmal
  have hr : recognised 1 (A.take k ++ x :: rest) = recognised 1 (A.take k) := by
    rw [recognised_eq Nat.one_pos hnm]
    unfold recognised
    have hw : workerLines 1 (A.take k ++ x :: rest) 0 = A.take k ++ x :: rest := by simp [workerLines]
    simp only [List.range_one, List.flatMap_cons, List.flatMap_nil, List.append_nil, hw]
    rw [List.takeWhile_append_of_pos (fun l hl => by simpa using hnm l hl), List.takeWhile_cons_of_neg (by simpa using hx), List.append_nil]
  obtain ⟨s2, o2, h2⟩ := Cut.returns Nat.one_pos (A.take k)
  have : o' = o2 := C77_same Nat.one_pos Nat.one_pos h' h2 (by rw [hr]) (by unfold textBytes; rw [hr])
  subst this
  obtain ⟨e2, sub, _⟩ := C60_ihex_partial hn Nat.one_pos hwf hz k h he h2
  exact ⟨e2, sub⟩

/-- A byte in segment 0 and one in segment 1. -/
def segs : List Str := [":0100100001EE".toList, ":020000040001F9".toList, ":0100200005DA".toList, ":00000001FF".toList]

/-- The line that selects the segment, behind a blank. -/
def blankSeg : Str := " :020000040001F9".toList

theorem segs_wf : WellFormed segs := Chunks.wf_of (by decide +kernel) (by decide +kernel)

-- the hypotheses of `C114_ihex_one`
example : WellFormed segs ∧ Spec.ZeroSegmentLast (Spec.recs segs) ∧ Malformed blankSeg ∧
    Reloc.look (parseHex 1 (List.replicate 9 0) segs) 32 65568 = some (true, none, some 5) ∧
    Reloc.look (parseHex 1 (List.replicate 9 0) (segs.take 1 ++ blankSeg :: segs.drop 2)) 32 65568 = some (true, none, none) :=
  ⟨segs_wf, by decide +kernel, by decide +kernel, by decide +kernel, by decide +kernel⟩

-- the hypotheses of `C114_ihex_partial`: two bytes, the first line of which gets unreadable
example : let A : List Str := [":0100100001EE".toList, ":0100200005DA".toList]
    (∀ l ∈ A, ¬ Malformed l) ∧ (∀ l ∈ A, typeText l ≠ ['0', '4']) ∧ (∀ l ∈ A.set 0 blankSeg, l ∈ A ∨ Malformed l ∨ l.length < 11) ∧
    Reloc.look (parseHex 2 ((List.replicate 9 [0, 1]).flatten) (A.set 0 blankSeg)) 16 32 = some (true, none, some 5) := by
  decide +kernel

/-- C114 is false of Intel HEX: two CPUs accept the file with a blank before the line that selects segment 1, and the byte behind that line, which the
other worker reads, is stored in segment 0, where the file has none. -/
theorem C114_ihex_false : ¬ C114_ihex_full := by
  intro hfull
  have l0 : Reloc.look (parseHex 2 ((List.replicate 9 [0, 1]).flatten) segs) 32 65568 = some (true, none, some 5) := by decide +kernel
  have l1 : Reloc.look (parseHex 2 ((List.replicate 9 [0, 1]).flatten) (segs.set 1 blankSeg)) 32 65568 = some (true, some 5, none) := by decide +kernel
  cases r0 : parseHex 2 ((List.replicate 9 [0, 1]).flatten) segs with
  | none => rw [r0] at l0; cases l0
  | some oo =>
    cases oo with
    | none => rw [r0] at l0; cases l0
    | some o =>
      cases r1 : parseHex 2 ((List.replicate 9 [0, 1]).flatten) (segs.set 1 blankSeg) with
      | none => rw [r1] at l1; cases l1
      | some oo' =>
        cases oo' with
        | none => rw [r1] at l1; cases l1
        | some o' =>
          rw [r0] at l0
          rw [r1] at l1
          simp only [Reloc.look, Option.some.injEq, Prod.mk.injEq] at l0 l1
          have := hfull 2 (by decide) segs 1 blankSeg segs_wf (by decide +kernel) (by decide +kernel) _ _ o o' r0 (by simpa using l0.1) r1 32 5 l1.2.1
          rw [l0.2.1] at this
          cases this

end Verif.Ihex.Unread
