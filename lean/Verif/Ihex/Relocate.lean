import Verif.Ihex.IffProps
import Verif.Srec.Props

/-!
C105: a hex file whose addresses are all moved by the same distance gives the same bytes, moved by that distance.
-/

namespace Verif.Ihex.Reloc
open Verif.Go Verif.Hex.Spec Spec

/-- The segment a segment line selects. -/
def segVal (r : Rec) : Nat := r.data.getD 0 0 * 256 + r.data.getD 1 0

/-- Line by line: a segment line selects the segment `k` further up, the other lines have the same address and data; the checksum is as right or as
wrong as it was. -/
def Moved (k : Nat) : List Rec → List Rec → Prop
  | [], [] => True
  | r :: rs, r' :: rs' => r'.typ = r.typ ∧ (if r.typ = 4 then segVal r' = segVal r + k else r'.addr = r.addr ∧ r'.data = r.data) ∧
      (r'.SumOk ↔ r.SumOk) ∧ Moved k rs rs'
  | _, _ => False

/-- Every data line comes after a segment line. -/
def AllInSegments (rs : List Rec) : Prop := none ∉ dataSegs none rs

instance (rs : List Rec) : Decidable (AllInSegments rs) := by unfold AllInSegments; infer_instance

/-- C105 for Intel HEX as stated. -/
def C105_ihex_full : Prop := ∀ (n m k : Nat), 0 < n → 0 < m → ∀ (A B : List Str), WellFormed A → WellFormed B → Moved k (recs A) (recs B) →
  AllInSegments (recs A) → ∀ (s s' : List Nat) (o o' : Outcome), parseHex n s A = some (some o) → parseHex m s' B = some (some o') →
  (o.err = none ↔ o'.err = none) ∧ (o.err = none → ∀ a v, o'.map (a + k * 65536) = some v ↔ o.map a = some v)

theorem moved_sums {k : Nat} : ∀ {rs rs' : List Rec}, Moved k rs rs' → ((∀ r ∈ rs', r.SumOk) ↔ ∀ r ∈ rs, r.SumOk)
  | [], [], _ => by simp
  | r :: rs, r' :: rs', h => by
    obtain ⟨_, _, h3, h4⟩ := h
    simp only [List.forall_mem_cons, h3, moved_sums h4]
  | [], _ :: _, h => h.elim
  | _ :: _, [], h => h.elim

theorem moved_segs {k : Nat} : ∀ {rs rs' : List Rec} (c : Option Nat), Moved k rs rs' →
    dataSegs (c.map (· + k)) rs' = (dataSegs c rs).map (Option.map (· + k))
  | [], [], _, _ => rfl
  | r :: rs, r' :: rs', c, h => by
    obtain ⟨h1, h2, _, h4⟩ := h
    simp only [dataSegs, h1]
    by_cases ht : r.typ = 4
    · rw [if_pos ht] at h2
      rw [if_pos ht, if_pos ht]
      have := moved_segs (some (segVal r)) h4
      simp only [Option.map_some, ← h2] at this
      exact this
    · rw [if_neg ht, if_neg ht]
      split
      · simp only [List.map_cons, moved_segs c h4]
      · exact moved_segs c h4
  | [], _ :: _, _, h => h.elim
  | _ :: _, [], _, h => h.elim

/-- The address `k` segments further up. -/
def up (k : Nat) (x : Nat × Nat) : Nat × Nat := (x.1 + k * 65536, x.2)

theorem moved_bytes {k : Nat} : ∀ {rs rs' : List Rec} (c : Option Nat), Moved k rs rs' → none ∉ dataSegs c rs →
    bytesFrom ((c.map (· + k)).getD 0) rs' = (bytesFrom (c.getD 0) rs).map (up k)
  | [], [], _, _, _ => rfl
  | r :: rs, r' :: rs', c, h, hn => by
    obtain ⟨h1, h2, _, h4⟩ := h
    simp only [dataSegs] at hn
    simp only [bytesFrom, h1]
    by_cases ht : r.typ = 4
    · rw [if_pos ht] at h2 hn
      rw [if_pos ht, if_pos ht]
      have := moved_bytes (some (segVal r)) h4 hn
      simp only [Option.map_some, Option.getD_some, ← h2] at this
      exact this
    · rw [if_neg ht] at h2 hn
      rw [if_neg ht, if_neg ht]
      by_cases hd : r.typ = 0
      · rw [if_pos hd] at hn
        rw [if_pos hd, if_pos hd]
        simp only [List.mem_cons, not_or] at hn
        obtain ⟨s, rfl⟩ : ∃ s, c = some s := by
          cases c with
          | none => exact absurd rfl hn.1
          | some s => exact ⟨s, rfl⟩
        rw [List.map_append, moved_bytes (some s) h4 hn.2, h2.1, h2.2, List.map_map]
        refine congrArg (· ++ _) ?_
        apply List.map_congr_left
        intro x _
        simp only [Function.comp, up, Option.map_some, Option.getD_some, Prod.mk.injEq, and_true, Nat.add_mul]
        omega
      · rw [if_neg hd] at hn
        rw [if_neg hd, if_neg hd]
        exact moved_bytes c h4 hn
  | [], _ :: _, _, h, _ => h.elim
  | _ :: _, [], _, h, _ => h.elim

theorem moved_zero {k : Nat} {rs rs' : List Rec} (h : Moved k rs rs') (hz : Spec.ZeroSegmentLast rs) : Spec.ZeroSegmentLast rs' := by
  unfold Spec.ZeroSegmentLast at hz ⊢
  have := moved_segs none h
  simp only [Option.map_none] at this
  rw [this, List.pairwise_map]
  refine hz.imp fun {a b} hab ha => ?_
  cases a with
  | none => cases ha
  | some a =>
    simp only [Option.map_some, Option.some.injEq] at ha
    obtain ⟨rfl, rfl⟩ : a = 0 ∧ k = 0 := by omega
    rw [hab rfl]
    rfl

theorem moved_nodup {k : Nat} {A B : List Str} (hb : fileBytes B = (fileBytes A).map (up k)) :
    ((fileBytes B).map Prod.fst).Nodup ↔ ((fileBytes A).map Prod.fst).Nodup := by
  have : (fileBytes B).map Prod.fst = ((fileBytes A).map Prod.fst).map (· + k * 65536) := by
    rw [hb, List.map_map, List.map_map]; rfl
  rw [this]
  unfold List.Nodup
  rw [List.pairwise_map]
  constructor
  · exact fun hp => hp.imp fun hne e => hne (by rw [e])
  · exact fun hp => hp.imp fun hne e => hne (by omega)

theorem moved_mem {k : Nat} {A B : List Str} (hb : fileBytes B = (fileBytes A).map (up k)) (a v : Nat) :
    (a + k * 65536, v) ∈ fileBytes B ↔ (a, v) ∈ fileBytes A := by
  rw [hb, List.mem_map]
  constructor
  · rintro ⟨⟨a', v'⟩, hm, e⟩
    simp only [up, Prod.mk.injEq] at e
    obtain ⟨e1, rfl⟩ := e
    have : a' = a := by omega
    rw [← this]; exact hm
  · exact fun hm => ⟨(a, v), hm, rfl⟩

/-- C105 for Intel HEX: a file moved by `k` segments gives the same bytes `k` segments further up and nothing else, on any numbers of CPUs and for
all schedules. Missing: files in which a used explicit segment 0 is followed by data elsewhere (C01). -/
theorem C105_ihex_partial {n m k : Nat} (hn : 0 < n) (hm : 0 < m) {A B : List Str} (hA : WellFormed A) (hB : WellFormed B)
    (hmv : Moved k (recs A) (recs B)) (hseg : AllInSegments (recs A)) (hz : Spec.ZeroSegmentLast (recs A)) {s s' : List Nat} {o o' : Outcome}
    (h : parseHex n s A = some (some o)) (h' : parseHex m s' B = some (some o')) :
    (o.err = none ↔ o'.err = none) ∧
    (o.err = none → (∀ a v, o'.map (a + k * 65536) = some v ↔ o.map a = some v) ∧ ∀ b, b < k * 65536 → o'.map b = none) := by
  obtain ⟨h1, h2⟩ := C05_file_partial hn hA hz h
  obtain ⟨g1, g2⟩ := C05_file_partial hm hB (moved_zero hmv hz) h'
  have hb : fileBytes B = (fileBytes A).map (up k) := moved_bytes none hmv hseg
  have hiff : o.err = none ↔ o'.err = none := by rw [h1, g1, moved_sums hmv, moved_nodup hb]
  refine ⟨hiff, fun he => ⟨fun a v => ?_, fun b hlt => ?_⟩⟩
  · rw [g2 (hiff.1 he), h2 he, moved_mem hb]
  · cases hv : o'.map b with
    | none => rfl
    | some v =>
      rw [g2 (hiff.1 he), hb, List.mem_map] at hv
      obtain ⟨⟨a', v'⟩, _, e⟩ := hv
      simp only [up, Prod.mk.injEq] at e
      omega

/-- C105 for Intel HEX, exactly when it holds: a file with right sums and every address once is read as the file moved up by at least one segment is,
just if each of its lines with data is stored where it belongs. -/
theorem C105_ihex_iff {n m k : Nat} (hn : 0 < n) (hm : 0 < m) (hk : 0 < k) {A B : List Str} (hA : WellFormed A) (hB : WellFormed B)
    (hmv : Moved k (recs A) (recs B)) (hseg : AllInSegments (recs A)) (hs : ∀ r ∈ recs A, r.SumOk) (hnd : ((fileBytes A).map Prod.fst).Nodup)
    {s s' : List Nat} {o o' : Outcome} (h : parseHex n s A = some (some o)) (h' : parseHex m s' B = some (some o')) :
    ((o.err = none ↔ o'.err = none) ∧ ∀ a v, o'.map (a + k * 65536) = some v ↔ o.map a = some v) ↔
      ∀ i r, (recs A)[i]? = some r → r.typ = 0 → r.data ≠ [] → StoredRight (startsOf n (recs A).length) (recs A) i := by
  have hb : fileBytes B = (fileBytes A).map (up k) := moved_bytes none hmv hseg
  have hz : Spec.ZeroSegmentLast (recs B) := by
    unfold Spec.ZeroSegmentLast
    have := moved_segs none hmv
    simp only [Option.map_none] at this
    rw [this, List.pairwise_map]
    refine List.pairwise_of_forall fun a b ha => ?_
    cases a with
    | none => cases ha
    | some a =>
      simp only [Option.map_some, Option.some.injEq] at ha
      omega
  obtain ⟨g1, g2⟩ := C05_file_partial hm hB hz h'
  have he' : o'.err = none := g1.2 ⟨(moved_sums hmv).2 hs, (moved_nodup hb).2 hnd⟩
  rw [← C05_iff hn hA hs hnd h]
  constructor
  · intro ⟨k1, k2⟩
    refine ⟨k1.2 he', fun a v => ?_⟩
    rw [← k2, g2 he', moved_mem hb]
  · intro ⟨k1, k2⟩
    refine ⟨⟨fun _ => he', fun _ => k1⟩, fun a v => ?_⟩
    rw [k2, g2 he', moved_mem hb]

/-- Two blocks in the segments `s` and `s + 1`. -/
def twoSegments (s : Nat) : List Str := encode .upper [⟨true, s, 0, [1, 2]⟩, ⟨true, s + 1, 16, [3]⟩]

example : Moved 3 (recs (twoSegments 1)) (recs (twoSegments 4)) := by
  have e1 : recs (twoSegments 1) = [⟨2, 0, 4, [0, 1], 249⟩, ⟨2, 0, 0, [1, 2], 251⟩, ⟨2, 0, 4, [0, 2], 248⟩, ⟨1, 16, 0, [3], 236⟩, ⟨0, 0, 1, [], 255⟩] := by decide +kernel
  have e2 : recs (twoSegments 4) = [⟨2, 0, 4, [0, 4], 246⟩, ⟨2, 0, 0, [1, 2], 251⟩, ⟨2, 0, 4, [0, 5], 245⟩, ⟨1, 16, 0, [3], 236⟩, ⟨0, 0, 1, [], 255⟩] := by decide +kernel
  rw [e1, e2]
  simp [Moved, segVal, Rec.SumOk]
example : AllInSegments (recs (twoSegments 1)) ∧ Spec.ZeroSegmentLast (recs (twoSegments 1)) := by decide +kernel

/-- The bytes at two addresses and whether there was an error. -/
def look (r : Option (Option Outcome)) (a b : Nat) : Option (Bool × Option Nat × Option Nat) :=
  match r with
  | some (some o) => some (o.err.isNone, o.map a, o.map b)
  | _ => none

-- the same file in the segments 1 and 2 and in the segments 4 and 5, on different numbers of CPUs
example : look (parseHex 1 (List.replicate 9 0) (twoSegments 1)) 65537 131088 = some (true, some 2, some 3) ∧
    look (parseHex 2 (List.replicate 9 0 ++ List.replicate 9 1) (twoSegments 4)) (65537 + 3 * 65536) (131088 + 3 * 65536) = some (true, some 2, some 3) := by
  decide +kernel

-- the criterion: one CPU misplaces the second block of the file with the segments 0 and 1, five CPUs do not
example : ¬ StoredRight (startsOf 1 5) (recs (twoSegments 0)) 3 ∧ StoredRight (startsOf 5 5) (recs (twoSegments 0)) 3 ∧
    (recs (twoSegments 0)).length = 5 ∧ (∀ r ∈ recs (twoSegments 0), r.SumOk) ∧ ((fileBytes (twoSegments 0)).map Prod.fst).Nodup := by decide +kernel

/-- C105 is false of Intel HEX: the file with the segments 0 and 1 is read with all its bytes in segment 0, the file moved by one segment is read
rightly. -/
theorem C105_ihex_false : ¬ C105_ihex_full := by
  intro hfull
  have l0 : look (parseHex 1 (List.replicate 9 0) (twoSegments 0)) 16 65552 = some (true, some 3, none) := by decide +kernel
  have l1 : look (parseHex 1 (List.replicate 9 0) (twoSegments 1)) 65552 131088 = some (true, none, some 3) := by decide +kernel
  have wf : ∀ s, (recs (twoSegments s)).length = (significant (twoSegments s)).length → (∀ r ∈ recs (twoSegments s), r.typ = 4 → 2 ≤ r.data.length) →
      (∀ l ∈ significant (twoSegments s), (decodeLine l).isSome = true) → WellFormed (twoSegments s) := by
    intro s _ h2 h3 l hl
    obtain ⟨r, hr⟩ := Option.isSome_iff_exists.1 (h3 l hl)
    exact ⟨r, hr, h2 r (List.mem_filterMap.2 ⟨l, hl, hr⟩)⟩
  have w0 : WellFormed (twoSegments 0) := wf 0 (by decide +kernel) (by decide +kernel) (by decide +kernel)
  have w1 : WellFormed (twoSegments 1) := wf 1 (by decide +kernel) (by decide +kernel) (by decide +kernel)
  have hmv : Moved 1 (recs (twoSegments 0)) (recs (twoSegments 1)) := by
    have e0 : recs (twoSegments 0) = [⟨2, 0, 4, [0, 0], 250⟩, ⟨2, 0, 0, [1, 2], 251⟩, ⟨2, 0, 4, [0, 1], 249⟩, ⟨1, 16, 0, [3], 236⟩, ⟨0, 0, 1, [], 255⟩] := by decide +kernel
    have e1 : recs (twoSegments 1) = [⟨2, 0, 4, [0, 1], 249⟩, ⟨2, 0, 0, [1, 2], 251⟩, ⟨2, 0, 4, [0, 2], 248⟩, ⟨1, 16, 0, [3], 236⟩, ⟨0, 0, 1, [], 255⟩] := by decide +kernel
    rw [e0, e1]
    simp [Moved, segVal, Rec.SumOk]
  cases r0 : parseHex 1 (List.replicate 9 0) (twoSegments 0) with
  | none => rw [r0] at l0; cases l0
  | some oo =>
    cases oo with
    | none => rw [r0] at l0; cases l0
    | some o =>
      cases r1 : parseHex 1 (List.replicate 9 0) (twoSegments 1) with
      | none => rw [r1] at l1; cases l1
      | some oo' =>
        cases oo' with
        | none => rw [r1] at l1; cases l1
        | some o' =>
          rw [r0] at l0
          rw [r1] at l1
          simp only [look, Option.some.injEq, Prod.mk.injEq] at l0 l1
          obtain ⟨_, h2⟩ := hfull 1 1 1 (by decide) (by decide) _ _ w0 w1 hmv (by decide +kernel) _ _ o o' r0 r1
          have := (h2 (by simpa using l0.1) 16 3).2 l0.2.1
          rw [show 16 + 1 * 65536 = 65552 from rfl, l1.2.1] at this
          cases this

end Verif.Ihex.Reloc

namespace Verif.Srec.Reloc
open Verif.Go Verif.Hex.Spec Spec
open Verif.Ihex.Spec (significant)

/-- Line by line: the address is `d` further up, at the end of the address space it goes on at 0; the data are the same, the checksum is as right or
as wrong as it was. -/
def Moved (d : Nat) : List Rec → List Rec → Prop
  | [], [] => True
  | r :: rs, r' :: rs' => r'.addr = (r.addr + d) % 4294967296 ∧ r'.data = r.data ∧ (r'.SumOk ↔ r.SumOk) ∧ Moved d rs rs'
  | _, _ => False

theorem moved_sums {d : Nat} : ∀ {rs rs' : List Rec}, Moved d rs rs' → ((∀ r ∈ rs', r.SumOk) ↔ ∀ r ∈ rs, r.SumOk)
  | [], [], _ => by simp
  | r :: rs, r' :: rs', h => by
    obtain ⟨_, _, h3, h4⟩ := h
    simp only [List.forall_mem_cons, h3, moved_sums h4]
  | [], _ :: _, h => h.elim
  | _ :: _, [], h => h.elim

def up (d : Nat) (x : Nat × Nat) : Nat × Nat := ((x.1 + d) % 4294967296, x.2)

theorem moved_bytes {d : Nat} : ∀ {rs rs' : List Rec}, Moved d rs rs' → bytesOf rs' = (bytesOf rs).map (up d)
  | [], [], _ => rfl
  | r :: rs, r' :: rs', h => by
    obtain ⟨h1, h2, _, h4⟩ := h
    have ih := moved_bytes h4
    unfold bytesOf at ih ⊢
    simp only [List.map_cons, List.flatten_cons, List.map_append, ih]
    congr 1
    simp only [Rec.bytes, h1, h2, List.map_map]
    apply List.map_congr_left
    intro x _
    simp only [Function.comp, up, Prod.mk.injEq, and_true]
    omega
  | [], _ :: _, h => h.elim
  | _ :: _, [], h => h.elim

theorem bytes_lt {rs : List Rec} {x : Nat × Nat} (h : x ∈ bytesOf rs) : x.1 < 4294967296 := by
  unfold bytesOf at h
  simp only [List.mem_flatten, List.mem_map] at h
  obtain ⟨_, ⟨r, _, rfl⟩, h⟩ := h
  simp only [Rec.bytes, List.mem_map] at h
  obtain ⟨_, _, rfl⟩ := h
  exact Nat.mod_lt _ (by decide)

/-- C105 for S19: a file moved by any distance, also around the end of the address space, gives the same bytes at the moved addresses. -/
theorem C105_srec {n m d : Nat} (hn : 0 < n) (hm : 0 < m) {A B : List Str} (hA : ∀ l ∈ A, ¬ Malformed l) (hB : ∀ l ∈ B, ¬ Malformed l)
    {rs rs' : List Rec} (hr : (significant A).mapM decodeLine = some rs) (hr' : (significant B).mapM decodeLine = some rs') (hmv : Moved d rs rs') :
    ∃ o o', parseHex n A = some o ∧ parseHex m B = some o' ∧ (o.err = none ↔ o'.err = none) ∧
      (o.err = none → ∀ a, a < 4294967296 → o'.map ((a + d) % 4294967296) = o.map a) := by
  obtain ⟨o, ho, h1, h2⟩ := parse_recognised (n := n) hn (lines := A) (rcs := rs) (by rw [recognised_eq hn hA]; exact hr)
  obtain ⟨o', ho', g1, g2⟩ := parse_recognised (n := m) hm (lines := B) (rcs := rs') (by rw [recognised_eq hm hB]; exact hr')
  have hb := moved_bytes hmv
  have hnd : ((bytesOf rs').map Prod.fst).Nodup ↔ ((bytesOf rs).map Prod.fst).Nodup := by
    rw [hb, List.map_map]
    unfold List.Nodup
    rw [List.pairwise_map, List.pairwise_map]
    constructor
    · exact fun hp => hp.imp fun hne e => hne (by simp only [Function.comp, up, e])
    · intro hp
      refine hp.imp_of_mem fun {x y} hx hy hne e => hne ?_
      have h1 := bytes_lt hx
      have h2 := bytes_lt hy
      simp only [Function.comp, up] at e
      omega
  have hiff : o.err = none ↔ o'.err = none := by rw [h1, g1, moved_sums hmv, hnd]
  refine ⟨o, o', ho, ho', hiff, fun he a ha => ?_⟩
  apply Option.ext
  intro v
  rw [g2 (hiff.1 he), h2 he, hb, List.mem_map]
  constructor
  · rintro ⟨⟨a', v'⟩, hm, e⟩
    have h1 := bytes_lt hm
    simp only [up, Prod.mk.injEq] at e h1
    obtain ⟨e1, rfl⟩ := e
    have : a' = a := by omega
    rw [← this]; exact hm
  · exact fun hm => ⟨(a, v), hm, rfl⟩

-- a file at the end of the address space and the same 8 further up
example : (significant (encode .upper [⟨4294967288, [1, 2]⟩, ⟨16, [3]⟩])).mapM decodeLine = some [⟨7, 4294967288, [1, 2], 0⟩, ⟨6, 16, [3], 230⟩] ∧
    (significant (encode .lower [⟨0, [1, 2]⟩, ⟨24, [3]⟩])).mapM decodeLine = some [⟨7, 0, [1, 2], 245⟩, ⟨6, 24, [3], 222⟩] := by decide +kernel
example : Moved 8 [⟨7, 4294967288, [1, 2], 0⟩, ⟨6, 16, [3], 230⟩] [⟨7, 0, [1, 2], 245⟩, ⟨6, 24, [3], 222⟩] := by simp [Moved, Rec.SumOk]

end Verif.Srec.Reloc
