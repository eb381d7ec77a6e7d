import Verif.Ihex.Overlap

/-!
C118: where the bytes of an Intel HEX file can go. The reader can store data in a wrong segment (C01, C05), but the wrong segment is always the
first one; an image with nothing in the first 64 KiB is therefore exactly what the file says.
-/

namespace Verif.Ihex.Fate
open Verif.Go Verif.Ihex Verif.Ihex.Spec
open Verif.Ihex.Iff (lineBytes stored_idx file_idx mem_idx line_seg)

theorem storedSeg_or (starts : List Nat) (rs : List Rec) (i : Nat) :
    storedSeg starts rs i = (selected rs 0 i).getD 0 ∨ storedSeg starts rs i = 0 := by
  unfold storedSeg
  split
  · exact .inl rfl
  · exact .inr rfl

/-- The byte of a line in another segment. -/
theorem line_move {s t : Nat} {r : Rec} {a v : Nat} (h : (a, v) ∈ lineBytes s r) : (t * 65536 + a % 65536, v) ∈ lineBytes t r := by
  unfold Iff.lineBytes at h ⊢
  split at h
  · next h0 =>
    rw [if_pos h0]
    obtain ⟨⟨b, j⟩, hm, he⟩ := List.mem_map.1 h
    simp only [Prod.mk.injEq] at he
    obtain ⟨rfl, rfl⟩ := he
    refine List.mem_map.2 ⟨(b, j), hm, ?_⟩
    simp only [Prod.mk.injEq, and_true]
    omega
  · cases h

/-- C118: every byte of an accepted file is stored, at its address or at the same place of the first 64 KiB; and every stored byte
is a byte of the file at its address, or one of the first 64 KiB that the file gives for the same place of some segment. -/
theorem C118_fate {n : Nat} (hn : 0 < n) {lines : List Str} (hwf : WellFormed lines) {sched : List Nat} {o : Outcome}
    (h : parseHex n sched lines = some (some o)) (he : o.err = none) :
    (∀ a v, (a, v) ∈ fileBytes lines → o.map a = some v ∨ o.map (a % 65536) = some v) ∧
    (∀ a v, o.map a = some v → (a, v) ∈ fileBytes lines ∨ a < 65536 ∧ ∃ s, (s * 65536 + a, v) ∈ fileBytes lines) := by
  obtain ⟨_, h2⟩ := C05_exact hn hwf h
  have h2 := h2 he
  unfold storedFile at h2
  rw [file_idx]
  generalize recs lines = rs at *
  generalize startsOf n rs.length = starts at *
  rw [stored_idx] at h2
  refine ⟨fun a v hm => ?_, fun a v hm => ?_⟩
  · obtain ⟨i, r, hi, hr⟩ := (mem_idx (seg := fun i => (selected rs 0 i).getD 0)).1 hm
    rcases storedSeg_or starts rs i with hs | hs
    · exact .inl ((h2 a v).2 (mem_idx.2 ⟨i, r, hi, by rw [hs]; exact hr⟩))
    · refine .inr ((h2 _ v).2 (mem_idx.2 ⟨i, r, hi, ?_⟩))
      have := line_move (t := 0) hr
      rw [hs]
      simpa using this
  · obtain ⟨i, r, hi, hr⟩ := mem_idx.1 ((h2 a v).1 hm)
    rcases storedSeg_or starts rs i with hs | hs
    · exact .inl ((mem_idx (seg := fun i => (selected rs 0 i).getD 0)).2 ⟨i, r, hi, by rw [hs] at hr; exact hr⟩)
    · rw [hs] at hr
      have h0 := line_seg hr
      simp only at h0
      have hlt : a < 65536 := by omega
      refine .inr ⟨hlt, (selected rs 0 i).getD 0, (mem_idx (seg := fun i => (selected rs 0 i).getD 0)).2 ⟨i, r, hi, ?_⟩⟩
      have := line_move (t := (selected rs 0 i).getD 0) hr
      rwa [Nat.mod_eq_of_lt hlt] at this

/-- C118: if the image of an accepted file has nothing in the first 64 KiB, it is exactly what the file says. -/
theorem C118_high {n : Nat} (hn : 0 < n) {lines : List Str} (hwf : WellFormed lines) {sched : List Nat} {o : Outcome}
    (h : parseHex n sched lines = some (some o)) (he : o.err = none) (hz : ∀ a, a < 65536 → o.map a = none) (a v : Nat) :
    o.map a = some v ↔ (a, v) ∈ fileBytes lines := by
  obtain ⟨h1, h2⟩ := C118_fate hn hwf h he
  refine ⟨fun hm => ?_, fun hm => ?_⟩
  · rcases h2 a v hm with h3 | ⟨h3, _⟩
    · exact h3
    · rw [hz a h3] at hm; cases hm
  · rcases h1 a v hm with h3 | h3
    · exact h3
    · rw [hz _ (Nat.mod_lt _ (by omega))] at h3; cases h3

/-- C118: if the file itself has nothing in the first 64 KiB, a byte there is the sign of a misplaced one: the image has a byte
there, or it is exactly what the file says. -/
theorem C118_sign {n : Nat} (hn : 0 < n) {lines : List Str} (hwf : WellFormed lines) {sched : List Nat} {o : Outcome}
    (h : parseHex n sched lines = some (some o)) (he : o.err = none) (hfile : ∀ p ∈ fileBytes lines, 65536 ≤ p.1) :
    (∀ a v, o.map a = some v ↔ (a, v) ∈ fileBytes lines) ↔ ∀ a, a < 65536 → o.map a = none := by
  refine ⟨fun hall a ha => ?_, fun hz => C118_high hn hwf h he hz⟩
  cases hm : o.map a with
  | none => rfl
  | some v =>
    have := hfile _ ((hall a v).1 hm)
    simp only at this
    omega

-- a file in two segments, and its run on two CPUs
def highLines : List Str := [":020000040001F9".toList, ":0100010009F5".toList, ":020000040002F8".toList, ":01FFFF0007FA".toList]

theorem high_wellFormed : WellFormed highLines := by
  intro l hl
  have hl' : l ∈ highLines := (List.mem_filter.mp hl).1
  simp only [highLines, List.mem_cons, List.not_mem_nil, or_false] at hl'
  rcases hl' with rfl | rfl | rfl | rfl
  · exact ⟨⟨2, 0, 4, [0, 1], 249⟩, by decide +kernel, by decide⟩
  · exact ⟨⟨1, 1, 0, [9], 245⟩, by decide +kernel, by decide⟩
  · exact ⟨⟨2, 0, 4, [0, 2], 248⟩, by decide +kernel, by decide⟩
  · exact ⟨⟨1, 65535, 0, [7], 250⟩, by decide +kernel, by decide⟩

example : ∃ o, parseHex 2 (List.replicate 9 0 ++ List.replicate 9 1) highLines = some (some o) ∧ o.err = none ∧ (∀ a, a < 65536 → o.map a = none) ∧
    o.map 196607 = some 7 := by
  obtain ⟨o, ho⟩ := C02_returns (n := 2) (by omega) highLines (List.replicate 9 0 ++ List.replicate 9 1) (by decide)
  obtain ⟨h1, h2⟩ := C05_exact (by omega) high_wellFormed ho
  have e : storedFile 2 highLines = [(65537, 9), (196607, 7)] := by decide +kernel
  have he : o.err = none := h1.2 ⟨by decide +kernel, by rw [e]; decide⟩
  refine ⟨o, ho, he, fun a ha => ?_, (h2 he _ _).2 (by rw [e]; decide)⟩
  cases hm : o.map a with
  | none => rfl
  | some v =>
    have := (h2 he a v).1 hm
    rw [e] at this
    simp only [List.mem_cons, Prod.mk.injEq, List.not_mem_nil, or_false] at this
    omega

-- a byte of segment 1 that goes to the first 64 KiB (C05_missed)
example : ∃ o, parseHex 1 (List.replicate 8 0) missedLines = some (some o) ∧ o.err = none ∧ (65537, 8) ∈ fileBytes missedLines ∧
    o.map 65537 ≠ some 8 ∧ o.map 1 = some 8 := by
  obtain ⟨o, ho⟩ := C02_returns (n := 1) (by omega) missedLines (List.replicate 8 0) (by decide)
  obtain ⟨_, _, h8, _, hrun⟩ := C05_missed
  obtain ⟨h1, h2, h3⟩ := hrun _ o ho
  exact ⟨o, ho, h1, h8, by rw [h2]; decide, h3⟩

end Verif.Ihex.Fate
