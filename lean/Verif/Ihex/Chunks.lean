import Verif.Ihex.Values
import Verif.Ihex.Relocate

/-!
C107: only the bytes and their addresses count, not how a file divides them among its lines.
-/

namespace Verif.Ihex.Chunks
open Verif.Go Verif.Hex.Spec Spec

/-- C107 for Intel HEX as stated: two files that define the same bytes, in any order and divided among lines in any way, give the same image. -/
def C107_ihex_full : Prop := ∀ (n m : Nat), 0 < n → 0 < m → ∀ (A B : List Str), WellFormed A → WellFormed B →
  (∀ r ∈ recs A, r.SumOk) → (∀ r ∈ recs B, r.SumOk) → List.Perm (fileBytes A) (fileBytes B) → ∀ (s s' : List Nat) (o o' : Outcome),
  parseHex n s A = some (some o) → parseHex m s' B = some (some o') → (o.err = none ↔ o'.err = none) ∧ (o.err = none → ∀ a, o'.map a = o.map a)

/-- C107 for Intel HEX, on any numbers of CPUs and for all schedules. Missing: files in which a used explicit segment 0 is followed by data elsewhere
(C01). -/
theorem C107_ihex_partial {n m : Nat} (hn : 0 < n) (hm : 0 < m) {A B : List Str} (hA : WellFormed A) (hB : WellFormed B)
    (hsA : ∀ r ∈ recs A, r.SumOk) (hsB : ∀ r ∈ recs B, r.SumOk) (hp : List.Perm (fileBytes A) (fileBytes B))
    (hzA : Spec.ZeroSegmentLast (recs A)) (hzB : Spec.ZeroSegmentLast (recs B)) {s s' : List Nat} {o o' : Outcome}
    (h : parseHex n s A = some (some o)) (h' : parseHex m s' B = some (some o')) :
    (o.err = none ↔ o'.err = none) ∧ (o.err = none → ∀ a, o'.map a = o.map a) := by
  obtain ⟨h1, h2⟩ := C05_file_partial hn hA hzA h
  obtain ⟨g1, g2⟩ := C05_file_partial hm hB hzB h'
  have hnd : ((fileBytes A).map Prod.fst).Nodup ↔ ((fileBytes B).map Prod.fst).Nodup := (hp.map Prod.fst).nodup_iff
  have hiff : o.err = none ↔ o'.err = none := by
    rw [h1, g1, hnd]
    exact ⟨fun e => ⟨hsB, e.2⟩, fun e => ⟨hsA, e.2⟩⟩
  refine ⟨hiff, fun he a => Option.ext fun v => ?_⟩
  rw [g2 (hiff.1 he), h2 he, hp.mem_iff]

/-- C107 for Intel HEX, exactly when it holds: a file with right sums and every address once gives the image of another one that defines the same
bytes, and in which a used segment 0 comes last, just if each of its lines with data is stored where it belongs. -/
theorem C107_ihex_iff {n m : Nat} (hn : 0 < n) (hm : 0 < m) {A B : List Str} (hA : WellFormed A) (hB : WellFormed B)
    (hsA : ∀ r ∈ recs A, r.SumOk) (hsB : ∀ r ∈ recs B, r.SumOk) (hp : List.Perm (fileBytes A) (fileBytes B))
    (hnd : ((fileBytes A).map Prod.fst).Nodup) (hzB : Spec.ZeroSegmentLast (recs B)) {s s' : List Nat} {o o' : Outcome}
    (h : parseHex n s A = some (some o)) (h' : parseHex m s' B = some (some o')) :
    ((o.err = none ↔ o'.err = none) ∧ ∀ a, o'.map a = o.map a) ↔
      ∀ i r, (recs A)[i]? = some r → r.typ = 0 → r.data ≠ [] → StoredRight (startsOf n (recs A).length) (recs A) i := by
  obtain ⟨g1, g2⟩ := C05_file_partial hm hB hzB h'
  have he' : o'.err = none := g1.2 ⟨hsB, (hp.map Prod.fst).nodup_iff.1 hnd⟩
  rw [← C05_iff hn hA hsA hnd h]
  constructor
  · intro ⟨k1, k2⟩
    refine ⟨k1.2 he', fun a v => ?_⟩
    rw [← k2, g2 he', hp.mem_iff]
  · intro ⟨k1, k2⟩
    refine ⟨⟨fun _ => he', fun _ => k1⟩, fun a => Option.ext fun v => ?_⟩
    rw [k2, g2 he', hp.mem_iff]

theorem wf_of {L : List Str} (h2 : ∀ r ∈ recs L, r.typ = 4 → 2 ≤ r.data.length) (h3 : ∀ l ∈ significant L, (decodeLine l).isSome = true) : WellFormed L := by
  intro l hl
  obtain ⟨r, hr⟩ := Option.isSome_iff_exists.1 (h3 l hl)
  exact ⟨r, hr, h2 r (List.mem_filterMap.2 ⟨l, hl, hr⟩)⟩

/-- Three bytes in one line; the same byte by byte, in another order, in lower case. -/
def oneLine : List Str := encode .upper [⟨true, 1, 16, [10, 11, 12]⟩]
def threeLines : List Str := encode .lower [⟨true, 1, 18, [12]⟩, ⟨true, 1, 16, [10]⟩, ⟨true, 1, 17, [11]⟩]

example : WellFormed oneLine ∧ WellFormed threeLines := ⟨wf_of (by decide +kernel) (by decide +kernel), wf_of (by decide +kernel) (by decide +kernel)⟩
example : (∀ r ∈ recs oneLine, r.SumOk) ∧ (∀ r ∈ recs threeLines, r.SumOk) ∧ Spec.ZeroSegmentLast (recs oneLine) ∧ Spec.ZeroSegmentLast (recs threeLines) ∧
    List.Perm (fileBytes oneLine) (fileBytes threeLines) ∧ ((fileBytes oneLine).map Prod.fst).Nodup ∧ fileBytes oneLine ≠ fileBytes threeLines := by decide +kernel
example : Reloc.look (parseHex 1 (List.replicate 9 0) oneLine) 65553 65554 = some (true, some 11, some 12) ∧
    Reloc.look (parseHex 1 (List.replicate 9 0) threeLines) 65553 65554 = some (true, some 11, some 12) := by decide +kernel

/-- A block in segment 0 and one in segment 1, in both orders. -/
def up : List Str := encode .upper [⟨true, 0, 0, [1]⟩, ⟨true, 1, 16, [3]⟩]
def down : List Str := encode .upper [⟨true, 1, 16, [3]⟩, ⟨true, 0, 0, [1]⟩]

-- the criterion: on one CPU not for `up`, on five CPUs for both
example : ¬ StoredRight (startsOf 1 5) (recs up) 3 ∧ StoredRight (startsOf 5 5) (recs up) 3 ∧ (recs up).length = 5 ∧ Spec.ZeroSegmentLast (recs down) := by
  decide +kernel

/-- C107 is false of Intel HEX: the same two blocks in the other order are not the same image. -/
theorem C107_ihex_false : ¬ C107_ihex_full := by
  intro hfull
  have l0 : Reloc.look (parseHex 1 (List.replicate 9 0) up) 16 65552 = some (true, some 3, none) := by decide +kernel
  have l1 : Reloc.look (parseHex 1 (List.replicate 9 0) down) 16 65552 = some (true, none, some 3) := by decide +kernel
  cases r0 : parseHex 1 (List.replicate 9 0) up with
  | none => rw [r0] at l0; cases l0
  | some oo =>
    cases oo with
    | none => rw [r0] at l0; cases l0
    | some o =>
      cases r1 : parseHex 1 (List.replicate 9 0) down with
      | none => rw [r1] at l1; cases l1
      | some oo' =>
        cases oo' with
        | none => rw [r1] at l1; cases l1
        | some o' =>
          rw [r0] at l0
          rw [r1] at l1
          simp only [Reloc.look, Option.some.injEq, Prod.mk.injEq] at l0 l1
          obtain ⟨_, h2⟩ := hfull 1 1 (by decide) (by decide) _ _ (wf_of (by decide +kernel) (by decide +kernel))
            (wf_of (by decide +kernel) (by decide +kernel)) (by decide +kernel) (by decide +kernel) (by decide +kernel) _ _ o o' r0 r1
          have := h2 (by simpa using l0.1) 16
          rw [l0.2.1, l1.2.1] at this
          cases this

end Verif.Ihex.Chunks

namespace Verif.Srec.Chunks
open Verif.Go Verif.Hex.Spec Spec
open Verif.Ihex.Spec (significant)

/-- C107 for S19: two files whose lines with right sums define the same bytes give the same image, on any numbers of CPUs. -/
theorem C107_srec {n m : Nat} (hn : 0 < n) (hm : 0 < m) {A B : List Str} (hA : ∀ l ∈ A, ¬ Malformed l) (hB : ∀ l ∈ B, ¬ Malformed l)
    {rs rs' : List Rec} (hr : (significant A).mapM decodeLine = some rs) (hr' : (significant B).mapM decodeLine = some rs')
    (hs : ∀ r ∈ rs, r.SumOk) (hs' : ∀ r ∈ rs', r.SumOk) (hp : List.Perm (bytesOf rs) (bytesOf rs')) :
    ∃ o o', parseHex n A = some o ∧ parseHex m B = some o' ∧ (o.err = none ↔ o'.err = none) ∧ (o.err = none → ∀ a, o'.map a = o.map a) := by
  obtain ⟨o, ho, h1, h2⟩ := parse_recognised (n := n) hn (lines := A) (rcs := rs) (by rw [recognised_eq hn hA]; exact hr)
  obtain ⟨o', ho', g1, g2⟩ := parse_recognised (n := m) hm (lines := B) (rcs := rs') (by rw [recognised_eq hm hB]; exact hr')
  have hiff : o.err = none ↔ o'.err = none := by
    rw [h1, g1, (hp.map Prod.fst).nodup_iff]
    exact ⟨fun e => ⟨hs', e.2⟩, fun e => ⟨hs, e.2⟩⟩
  refine ⟨o, o', ho, ho', hiff, fun he a => Option.ext fun v => ?_⟩
  rw [g2 (hiff.1 he), h2 he, hp.mem_iff]

-- two bytes at the end of the address space in one line and in two
example : (significant (encode .upper [⟨4294967295, [1, 2]⟩])).mapM decodeLine = some [⟨7, 4294967295, [1, 2], 249⟩] ∧
    (significant (encode .lower [⟨0, [2]⟩, ⟨4294967295, [1]⟩])).mapM decodeLine = some [⟨6, 0, [2], 247⟩, ⟨6, 4294967295, [1], 252⟩] := by decide +kernel
example : List.Perm (bytesOf [⟨7, 4294967295, [1, 2], 249⟩]) (bytesOf [⟨6, 0, [2], 247⟩, ⟨6, 4294967295, [1], 252⟩]) ∧
    (∀ r ∈ [(⟨7, 4294967295, [1, 2], 249⟩ : Rec), ⟨6, 0, [2], 247⟩, ⟨6, 4294967295, [1], 252⟩], r.SumOk) := by decide +kernel

end Verif.Srec.Chunks
