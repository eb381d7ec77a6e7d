import Verif.Ihex.Props3

/-!
C63, joining two Intel HEX files: exactly when the joined file says what the two files say.
-/

namespace Verif.Ihex

open Verif.Go Verif.Ihex.Spec Verif.Hex.Spec

/-- The last segment a file selects is segment 0, or it selects none. -/
def EndsInZero (rs : List Rec) : Prop :=
  ∀ r, (rs.filter (fun r => r.typ = 4)).getLast? = some r → r.data.getD 0 0 * 256 + r.data.getD 1 0 = 0

/-- No data before the first line that selects a segment. -/
def BeginsWithSegment (rs : List Rec) : Prop := ∀ r ∈ rs.takeWhile (fun r => r.typ ≠ 4), r.typ = 0 → r.data = []

theorem segAfter_last (rs : List Rec) : ∀ seg, segAfter seg rs =
    (((rs.filter (fun r => r.typ = 4)).getLast?).map fun r => r.data.getD 0 0 * 256 + r.data.getD 1 0).getD seg := by
  induction rs with
  | nil => intro seg; rfl
  | cons r rs ih =>
    intro seg
    rw [segAfter, ih]
    by_cases h4 : r.typ = 4
    · rw [List.filter_cons_of_pos (by simpa using h4), if_pos h4, List.getLast?_cons]
      cases (rs.filter (fun r => r.typ = 4)).getLast? <;> simp
    · rw [List.filter_cons_of_neg (by simpa using h4), if_neg h4]

theorem endsInZero_iff (rs : List Rec) : EndsInZero rs ↔ segAfter 0 rs = 0 := by
  rw [segAfter_last]
  unfold EndsInZero
  cases (rs.filter (fun r => r.typ = 4)).getLast? <;> simp

/-- The bytes before the first segment line, in segment `seg`. -/
theorem bytesFrom_split (seg : Nat) (rs : List Rec) :
    bytesFrom seg rs = bytesFrom seg (rs.takeWhile (fun r => r.typ ≠ 4)) ++ bytesFrom 0 (rs.dropWhile (fun r => r.typ ≠ 4)) := by
  induction rs with
  | nil => rfl
  | cons r rs ih =>
    by_cases h4 : r.typ = 4
    · simp [h4, bytesFrom]
    · rw [List.takeWhile_cons_of_pos (by simpa using h4), List.dropWhile_cons_of_pos (by simpa using h4)]
      simp only [bytesFrom, if_neg h4]
      split
      · rw [ih, List.append_assoc]
      · exact ih

theorem bytesFrom_noSeg (seg : Nat) (rs : List Rec) (h : ∀ r ∈ rs, r.typ ≠ 4) :
    (∀ p ∈ bytesFrom seg rs, seg * 65536 ≤ p.1 ∧ p.1 < seg * 65536 + 65536) ∧ (bytesFrom seg rs = [] ↔ ∀ r ∈ rs, r.typ = 0 → r.data = []) := by
  induction rs with
  | nil => simp [bytesFrom]
  | cons r rs ih =>
    obtain ⟨h1, h2⟩ := ih (fun x hx => h x (by simp [hx]))
    simp only [bytesFrom, if_neg (h r (by simp))]
    split
    · next h0 =>
      refine ⟨?_, ?_⟩
      · intro p hp
        rcases List.mem_append.1 hp with hp | hp
        · obtain ⟨⟨b, i⟩, _, rfl⟩ := List.mem_map.1 hp
          have := Nat.mod_lt (r.addr + i) (show 0 < 65536 by decide)
          simp only
          omega
        · exact h1 p hp
      · rw [List.append_eq_nil_iff, h2]
        simp [h0]
    · next h0 =>
      refine ⟨h1, ?_⟩
      rw [h2]
      simp [h0]

theorem takeWhile_typ (rs : List Rec) : ∀ r ∈ rs.takeWhile (fun r => r.typ ≠ 4), r.typ ≠ 4 := by
  induction rs with
  | nil => simp
  | cons x rs ih =>
    intro r hr
    rw [List.takeWhile_cons] at hr
    split at hr
    · next hx =>
      rcases List.mem_cons.1 hr with rfl | hr
      · simpa using hx
      · exact ih r hr
    · simp at hr

theorem dataSegs_weaken (x : Option Nat) (rs : List Rec)
    (h : (dataSegs x rs).Pairwise fun a b => a = some 0 → b = some 0) : (dataSegs none rs).Pairwise fun a b => a = some 0 → b = some 0 := by
  induction rs with
  | nil => exact h
  | cons r rs ih =>
    simp only [dataSegs] at h ⊢
    split
    · next h4 => rw [if_pos h4] at h; exact h
    · next h4 =>
      rw [if_neg h4] at h
      split
      · next h0 =>
        rw [if_pos h0, List.pairwise_cons] at h
        exact List.pairwise_cons.2 ⟨(fun _ _ e => by simp at e), ih h.2⟩
      · next h0 =>
        rw [if_neg h0] at h
        exact ih h

/-- **C63, joining, exactly.** Two well-formed files that are read without error, joined: the joined file is read without error and says what the two
say together just if they define no common address and the first file ends in segment 0 or the second has no data before its first segment
line. The number of CPUs and the interleaving do not matter; the hypothesis is that of C01 for the joined file. -/
theorem C63_ihex_join_iff {n m k : Nat} (hn : 0 < n) (hm : 0 < m) (hk : 0 < k) {A B : List Str}
    (hA : WellFormed A) (hB : WellFormed B) (hz : Spec.ZeroSegmentLast (Spec.recs (A ++ B)))
    {s1 s2 s3 : List Nat} {o oA oB : Outcome}
    (h : parseHex n s1 (A ++ B) = some (some o)) (h1 : parseHex m s2 A = some (some oA))
    (h2 : parseHex k s3 B = some (some oB)) (eA : oA.err = none) (eB : oB.err = none) :
    (o.err = none ∧ ∀ a v, o.map a = some v ↔ oA.map a = some v ∨ oB.map a = some v) ↔
      (∀ a, oA.map a = none ∨ oB.map a = none) ∧ (EndsInZero (recs A) ∨ BeginsWithSegment (recs B)) := by
  have hz2 := hz
  unfold Spec.ZeroSegmentLast at hz2
  rw [recs_append, dataSegs_append, List.pairwise_append] at hz2
  obtain ⟨a1, a2⟩ := C05_file_partial hm hA hz2.1 h1
  obtain ⟨b1, b2⟩ := C05_file_partial hk hB (dataSegs_weaken _ _ hz2.2.1) h2
  obtain ⟨x1, x2⟩ := C05_file_partial hn (wf_append.mpr ⟨hA, hB⟩) hz h
  obtain ⟨sA, nA⟩ := a1.1 eA
  obtain ⟨sB, nB⟩ := b1.1 eB
  have a2 := a2 eA
  have b2 := b2 eB
  have hj : fileBytes (A ++ B) = fileBytes A ++ bytesFrom (segAfter 0 (recs A)) (recs B) := by
    unfold fileBytes
    rw [recs_append, bytesFrom_append]
  have hsums : ∀ r ∈ Spec.recs (A ++ B), r.SumOk := by
    rw [recs_append]
    intro r hr
    rcases List.mem_append.1 hr with hr | hr
    · exact sA r hr
    · exact sB r hr
  have hcommon : (∀ a, oA.map a = none ∨ oB.map a = none) ↔ ∀ p ∈ fileBytes A, ∀ q ∈ fileBytes B, p.1 ≠ q.1 := by
    constructor
    · intro hd p hp q hq e
      have g1 := (a2 p.1 p.2).2 hp
      have g2 := (b2 q.1 q.2).2 hq
      rw [← e] at g2
      rcases hd p.1 with g | g
      · rw [g] at g1; cases g1
      · rw [g] at g2; cases g2
    · intro hd a
      cases ha : oA.map a with
      | none => exact .inl rfl
      | some v =>
        cases hb : oB.map a with
        | none => exact .inr rfl
        | some u => exact absurd rfl (hd (a, v) ((a2 a v).1 ha) (a, u) ((b2 a u).1 hb))
  have hsplit : fileBytes B = bytesFrom 0 ((recs B).takeWhile (fun r => r.typ ≠ 4)) ++ bytesFrom 0 ((recs B).dropWhile (fun r => r.typ ≠ 4)) :=
    bytesFrom_split 0 (recs B)
  -- the joined file defines the bytes of both
  have hsame : EndsInZero (recs A) ∨ BeginsWithSegment (recs B) → fileBytes (A ++ B) = fileBytes A ++ fileBytes B := by
    rintro (he | hb)
    · rw [hj, (endsInZero_iff _).1 he]; rfl
    · have e : ∀ seg, bytesFrom seg ((recs B).takeWhile (fun r => r.typ ≠ 4)) = [] := fun seg =>
        (bytesFrom_noSeg seg _ (takeWhile_typ _)).2.2 hb
      rw [hj, bytesFrom_split (segAfter 0 (recs A)), e, hsplit, e]
  have hnodup : ∀ X Y : List (Nat × Nat), ((X ++ Y).map Prod.fst).Nodup ↔
      (X.map Prod.fst).Nodup ∧ (Y.map Prod.fst).Nodup ∧ ∀ p ∈ X, ∀ q ∈ Y, p.1 ≠ q.1 := by
    intro X Y
    rw [List.map_append, List.nodup_append]
    refine and_congr Iff.rfl (and_congr Iff.rfl ?_)
    constructor
    · intro hd p hp q hq
      exact hd p.1 (List.mem_map.2 ⟨p, hp, rfl⟩) q.1 (List.mem_map.2 ⟨q, hq, rfl⟩)
    · intro hd a ha b hb
      obtain ⟨p, hp, rfl⟩ := List.mem_map.1 ha
      obtain ⟨q, hq, rfl⟩ := List.mem_map.1 hb
      exact hd p hp q hq
  rw [hcommon]
  constructor
  · rintro ⟨e, hmap⟩
    have hnd := (x1.1 e).2
    have hseg : EndsInZero (recs A) ∨ BeginsWithSegment (recs B) := by
      refine Classical.byContradiction fun hno => ?_
      obtain ⟨hz0, hb0⟩ := not_or.1 hno
      have hs : segAfter 0 (recs A) ≠ 0 := fun hh => hz0 ((endsInZero_iff _).2 hh)
      have hne : bytesFrom (segAfter 0 (recs A)) ((recs B).takeWhile (fun r => r.typ ≠ 4)) ≠ [] := fun hh =>
        hb0 ((bytesFrom_noSeg _ _ (takeWhile_typ _)).2.1 hh)
      obtain ⟨p, hp⟩ := List.exists_mem_of_ne_nil _ hne
      have hlow := ((bytesFrom_noSeg _ _ (takeWhile_typ _)).1 p hp).1
      have hall : p ∈ fileBytes (A ++ B) := by
        rw [hj, bytesFrom_split (segAfter 0 (recs A))]
        exact List.mem_append_right _ (List.mem_append_left _ hp)
      rw [hj, bytesFrom_split (segAfter 0 (recs A)), hnodup, hnodup] at hnd
      rcases (hmap p.1 p.2).1 ((x2 e p.1 p.2).2 hall) with g | g
      · exact hnd.2.2 p ((a2 p.1 p.2).1 g) p (List.mem_append_left _ hp) rfl
      · have g := (b2 p.1 p.2).1 g
        rw [hsplit] at g
        rcases List.mem_append.1 g with g | g
        · have := ((bytesFrom_noSeg 0 _ (takeWhile_typ _)).1 _ g).2
          simp only at this
          omega
        · exact hnd.2.1.2.2 p hp p g rfl
    refine ⟨?_, hseg⟩
    rw [hsame hseg, hnodup] at hnd
    exact hnd.2.2
  · rintro ⟨hd, hseg⟩
    have e : o.err = none := by
      rw [x1, hsame hseg, hnodup]
      exact ⟨hsums, nA, nB, hd⟩
    refine ⟨e, fun a v => ?_⟩
    rw [x2 e, a2, b2, hsame hseg, List.mem_append]

/-- The files of `C63_ihex_join_false`: the first ends in segment 1, the second begins with data. Joined the other way round they mean what they say. -/
example : ¬ (EndsInZero (recs joinA) ∨ BeginsWithSegment (recs joinB)) ∧ (EndsInZero (recs joinB) ∨ BeginsWithSegment (recs joinA)) := by
  refine ⟨?_, .inl ?_⟩
  · rw [endsInZero_iff]
    unfold BeginsWithSegment
    decide +kernel
  · rw [endsInZero_iff]
    decide +kernel

/-- Joined the wrong way round, on two CPUs and whatever the interleavings. -/
example {s1 s2 s3 : List Nat} {o oA oB : Outcome} (h : parseHex 2 s1 (joinA ++ joinB) = some (some o)) (h1 : parseHex 1 s2 joinA = some (some oA))
    (h2 : parseHex 1 s3 joinB = some (some oB)) (eA : oA.err = none) (eB : oB.err = none) :
    ¬ (o.err = none ∧ ∀ a v, o.map a = some v ↔ oA.map a = some v ∨ oB.map a = some v) := by
  rw [C63_ihex_join_iff (by decide) (by decide) (by decide) joinA_wf joinB_wf (by decide +kernel) h h1 h2 eA eB, endsInZero_iff]
  rintro ⟨_, hh⟩
  revert hh
  unfold BeginsWithSegment
  decide +kernel

/-! ### C61: lines after the end-of-file record -/

theorem bytesFrom_nil (rs : List Rec) : ∀ seg, bytesFrom seg rs = [] ↔ ∀ r ∈ rs, r.typ = 0 → r.data = [] := by
  induction rs with
  | nil => simp [bytesFrom]
  | cons r rs ih =>
    intro seg
    simp only [bytesFrom]
    split
    · next h4 => rw [ih]; simp [h4]
    · split
      · next h0 => rw [List.append_eq_nil_iff, ih]; simp [h0]
      · next h0 => rw [ih]; simp [h0]

/-- **C61, exactly.** What follows the end-of-file record of a well-formed file that is read without error has no influence just if its sums are right
and it has no data line with a byte. -/
theorem C61_iff {n m : Nat} (hn : 0 < n) (hm : 0 < m) (c : Case) {A B : List Str}
    (hA : WellFormed A) (hB : WellFormed B) (hz : Spec.ZeroSegmentLast (Spec.recs (A ++ B)))
    {sched sched' : List Nat} {o o' : Outcome}
    (h : parseHex n sched (A ++ eofLine c :: B) = some (some o))
    (h' : parseHex m sched' (A ++ [eofLine c]) = some (some o')) (e' : o'.err = none) :
    (o.err = none ∧ o.map = o'.map) ↔ ∀ r ∈ recs B, r.SumOk ∧ (r.typ = 0 → r.data = []) := by
  have e : A ++ eofLine c :: B = (A ++ [eofLine c]) ++ B := by simp
  have hr0 : Spec.recs (A ++ [eofLine c]) = Spec.recs A ++ [⟨0, 0, 1, [], 255⟩] := by rw [recs_append, recs_eof]
  have hr : Spec.recs (A ++ eofLine c :: B) = Spec.recs (A ++ [eofLine c]) ++ Spec.recs B := by rw [e, recs_append]
  have hz1 : Spec.ZeroSegmentLast (Spec.recs (A ++ eofLine c :: B)) := by
    unfold Spec.ZeroSegmentLast at hz ⊢
    rw [recs_append, dataSegs_append] at hz
    rw [hr, hr0, List.append_assoc, dataSegs_append]
    simpa [dataSegs] using hz
  have hz0 : Spec.ZeroSegmentLast (Spec.recs (A ++ [eofLine c])) := by
    unfold Spec.ZeroSegmentLast at hz1 ⊢
    rw [hr, dataSegs_append, List.pairwise_append] at hz1
    exact hz1.1
  have hwf0 : WellFormed (A ++ [eofLine c]) := wf_append.mpr ⟨hA, wf_eof c⟩
  have hwf : WellFormed (A ++ eofLine c :: B) := by
    rw [e, wf_append]; exact ⟨hwf0, hB⟩
  obtain ⟨x1, x2⟩ := C05_file_partial hn hwf hz1 h
  obtain ⟨y1, y2⟩ := C05_file_partial hm hwf0 hz0 h'
  obtain ⟨s0, d0⟩ := y1.1 e'
  have y2 := y2 e'
  have hj : fileBytes (A ++ eofLine c :: B) = fileBytes (A ++ [eofLine c]) ++ bytesFrom (segAfter 0 (recs (A ++ [eofLine c]))) (recs B) := by
    unfold fileBytes
    rw [hr, bytesFrom_append]
  generalize segAfter 0 (recs (A ++ [eofLine c])) = seg at hj
  constructor
  · rintro ⟨ok, hmap⟩
    obtain ⟨s, d⟩ := x1.1 ok
    have hnil : bytesFrom seg (recs B) = [] := by
      refine Classical.byContradiction fun hne => ?_
      obtain ⟨p, hp⟩ := List.exists_mem_of_ne_nil _ hne
      have g := (x2 ok p.1 p.2).2 (by rw [hj]; exact List.mem_append_right _ hp)
      rw [hmap] at g
      have g := (y2 p.1 p.2).1 g
      rw [hj, List.map_append, List.nodup_append] at d
      exact d.2.2 p.1 (List.mem_map.2 ⟨p, g, rfl⟩) p.1 (List.mem_map.2 ⟨p, hp, rfl⟩) rfl
    intro r hrB
    exact ⟨s r (by rw [hr]; exact List.mem_append_right _ hrB), (bytesFrom_nil _ seg).1 hnil r hrB⟩
  · intro hB0
    have hb : fileBytes (A ++ eofLine c :: B) = fileBytes (A ++ [eofLine c]) := by
      rw [hj, (bytesFrom_nil _ seg).2 (fun r hrB => (hB0 r hrB).2), List.append_nil]
    have ok : o.err = none := by
      rw [x1, hb, hr]
      refine ⟨fun r hrr => ?_, d0⟩
      rcases List.mem_append.1 hrr with hrr | hrr
      · exact s0 r hrr
      · exact (hB0 r hrr).1
    refine ⟨ok, ?_⟩
    funext a
    apply Option.ext
    intro v
    rw [x2 ok, y2, hb]

/-- One byte after the end-of-file record, on four CPUs and whatever the interleaving. -/
example {s1 s2 : List Nat} {o o' : Outcome} (h : parseHex 4 s1 (joinA ++ eofLine .upper :: joinB) = some (some o))
    (h' : parseHex 2 s2 (joinA ++ [eofLine .upper]) = some (some o')) (e' : o'.err = none) : ¬ (o.err = none ∧ o.map = o'.map) := by
  rw [C61_iff (by decide) (by decide) .upper joinA_wf joinB_wf (by decide +kernel) h h' e']
  decide +kernel

end Verif.Ihex
