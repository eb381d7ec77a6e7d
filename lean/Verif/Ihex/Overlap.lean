import Verif.Ihex.IffProps
import Verif.Ihex.MixedEnds
import Verif.Srec.TextProps

/-!
C117: two data lines that give a byte for the same address. The general claim about Intel HEX files (C05) is false, since data of one
segment can be stored in another one. Here it is shown that this is never so of two lines with no segment line between
them, such as a line that stands twice in the file: whatever else is in the file, they are stored in the same segment.
-/

namespace Verif.Ihex.Overlap
open Verif.Go Verif.Ihex Verif.Ihex.Spec
open Verif.Ihex.Iff (lineBytes apart stored_idx)

/-- A line that is no segment line selects nothing. -/
theorem selected_succ {rs : List Rec} {i : Nat} (h : ∀ r, rs[i]? = some r → r.typ ≠ 4) (a : Nat) :
    selected rs a (i + 1) = selected rs a i := by
  unfold selected
  rw [List.take_add_one, List.drop_append, List.filter_append]
  have : ((rs[i]?.toList.drop (a - (rs.take i).length)).filter fun r => r.typ = 4) = [] := by
    rw [List.filter_eq_nil_iff]
    intro r hr
    have := h r (by simpa using List.mem_of_mem_drop hr)
    simpa using this
  rw [this, List.append_nil]

theorem selected_same {rs : List Rec} {i : Nat} (a : Nat) : ∀ d, (∀ k, i ≤ k → k < i + d → ∀ r, rs[k]? = some r → r.typ ≠ 4) →
    selected rs a (i + d) = selected rs a i := by
  intro d
  induction d with
  | zero => intro _; rfl
  | succ d ih =>
    intro h
    rw [← Nat.add_assoc, selected_succ (fun r hr => h (i + d) (by omega) (by omega) r hr),
      ih (fun k h1 h2 => h k h1 (by omega))]

/-- What is selected from line `a` on is selected from the first line on. -/
theorem selected_from {rs : List Rec} {a i s : Nat} (h : selected rs a i = some s) : selected rs 0 i = some s := by
  unfold selected at h ⊢
  rw [List.drop_zero, ← List.take_append_drop a (rs.take i), List.filter_append, List.getLast?_append]
  revert h
  cases (((rs.take i).drop a).filter fun r => r.typ = 4).getLast? with
  | none => intro h; cases h
  | some r => intro h; simpa using h

/-- Lines with no segment line between them are stored in the same segment. -/
theorem storedSeg_same (starts : List Nat) {rs : List Rec} {i d : Nat}
    (h : ∀ k, i ≤ k → k < i + d → ∀ r, rs[k]? = some r → r.typ ≠ 4) : storedSeg starts rs (i + d) = storedSeg starts rs i := by
  unfold storedSeg
  rw [selected_same 0 d h]
  by_cases hz : (selected rs 0 i).getD 0 = 0
  · rw [hz]; simp only [ite_self]
  · have : (∃ a ∈ starts, Arrives rs a (i + d)) ↔ ∃ a ∈ starts, Arrives rs a i := by
      refine ⟨fun ⟨a, ha, h1, h2⟩ => ⟨a, ha, by rwa [selected_same a d h] at h1, fun b hb => h2 b (by omega)⟩,
        fun ⟨a, ha, h1, h2⟩ => ⟨a, ha, by rwa [selected_same a d h], fun b hb hd => ?_⟩⟩
      by_cases hbi : b < i
      · exact h2 b hbi hd
      · intro h0
        obtain ⟨e, rfl⟩ : ∃ e, b = i + e := ⟨b - i, by omega⟩
        rw [selected_same a e (fun k hk hk' => h k hk (by omega))] at h0
        rw [selected_from h0] at hz
        exact hz rfl
    simp only [this]

theorem recs_append (xs ys : List Str) : recs (xs ++ ys) = recs xs ++ recs ys := by
  unfold recs significant
  rw [List.filter_append, List.filterMap_append]

theorem recs_cons {l : Str} {r : Rec} (h : decodeLine l = some r) (ls : List Str) : recs (l :: ls) = r :: recs ls := by
  have hl := (Ends.record_length h).1
  unfold recs significant
  rw [List.filter_cons_of_pos (by simpa using hl), List.filterMap_cons, h]

/-- The two lines give a byte for the same address of their segment. -/
def Overlap (r r' : Rec) : Prop :=
  ∃ j j', j < r.data.length ∧ j' < r'.data.length ∧ (r.addr + j) % 65536 = (r'.addr + j') % 65536

theorem lineBytes_at {r : Rec} (h0 : r.typ = 0) {j : Nat} (hj : j < r.data.length) (seg : Nat) :
    ∃ p ∈ lineBytes seg r, p.1 = seg * 65536 + (r.addr + j) % 65536 := by
  refine ⟨(seg * 65536 + (r.addr + j) % 65536, r.data[j]), ?_, rfl⟩
  unfold Iff.lineBytes
  rw [if_pos h0, List.mem_map]
  exact ⟨(r.data[j], j), List.mem_zipIdx_iff_getElem?.2 (List.getElem?_eq_getElem hj), rfl⟩

/-- The full C117 for Intel HEX (false, see `C117_ihex_false`): a file with two overlapping data lines and no segment line between
them is an error. -/
def C117_ihex_full : Prop :=
  ∀ (n : Nat) (pre mid post : List Str) (l l' : Str) (r r' : Rec) (sched : List Nat) (o : Outcome), 0 < n →
    decodeLine l = some r → decodeLine l' = some r' → r.typ = 0 → r'.typ = 0 → Overlap r r' →
    (∀ x ∈ mid, ∀ k, decodeLine x = some k → k.typ ≠ 4) →
    parseHex n sched (pre ++ l :: (mid ++ l' :: post)) = some (some o) → o.err ≠ none

/-- C117 for Intel HEX: a well-formed file with two overlapping data lines and no segment line between them is an error, whatever
else is in the file, on any number of CPUs and for every interleaving. No condition on segment 0 as in C05. Missing: files with
ill-formed lines. -/
theorem C117_ihex_partial {n : Nat} (hn : 0 < n) {pre mid post : List Str} {l l' : Str} {r r' : Rec}
    (hwf : WellFormed (pre ++ l :: (mid ++ l' :: post)))
    (hl : decodeLine l = some r) (hl' : decodeLine l' = some r') (h0 : r.typ = 0) (h0' : r'.typ = 0) (hov : Overlap r r')
    (hmid : ∀ x ∈ mid, ∀ k, decodeLine x = some k → k.typ ≠ 4) {sched : List Nat} {o : Outcome}
    (h : parseHex n sched (pre ++ l :: (mid ++ l' :: post)) = some (some o)) : o.err ≠ none := by
  intro he
  have hnd := ((C05_exact hn hwf h).1.mp he).2
  unfold storedFile at hnd
  rw [recs_append, recs_cons hl, recs_append, recs_cons hl'] at hnd
  generalize startsOf _ _ = starts at hnd
  generalize hP : recs pre = P at hnd
  generalize hQ : recs post = Q at hnd
  have hM : ∀ k ∈ recs mid, k.typ ≠ 4 := by
    intro k hk
    obtain ⟨x, hx, hk⟩ := List.mem_filterMap.1 hk
    exact hmid x (List.mem_filter.1 hx).1 k hk
  generalize recs mid = M at hnd hM
  rw [stored_idx] at hnd
  have hi : (P ++ r :: (M ++ r' :: Q))[P.length]? = some r := by simp
  have hi' : (P ++ r :: (M ++ r' :: Q))[P.length + (M.length + 1)]? = some r' := by
    rw [List.getElem?_append_right (by omega), Nat.add_sub_cancel_left, List.getElem?_cons_succ, List.getElem?_append_right (Nat.le_refl _)]
    simp
  have hsame : storedSeg starts (P ++ r :: (M ++ r' :: Q)) (P.length + (M.length + 1)) =
      storedSeg starts (P ++ r :: (M ++ r' :: Q)) P.length := by
    refine storedSeg_same starts fun k hk hk' x hx => ?_
    obtain ⟨e, rfl⟩ : ∃ e, k = P.length + e := ⟨k - P.length, by omega⟩
    rw [List.getElem?_append_right (by omega), Nat.add_sub_cancel_left] at hx
    cases e with
    | zero =>
      simp only [List.getElem?_cons_zero, Option.some.injEq] at hx
      subst hx
      omega
    | succ e =>
      rw [List.getElem?_cons_succ, List.getElem?_append_left (by omega)] at hx
      exact hM x (List.mem_of_getElem? hx)
  obtain ⟨j, j', hj, hj', heq⟩ := hov
  obtain ⟨p, hp, ep⟩ := lineBytes_at h0 hj (storedSeg starts (P ++ r :: (M ++ r' :: Q)) P.length)
  obtain ⟨p', hp', ep'⟩ := lineBytes_at h0' hj' (storedSeg starts (P ++ r :: (M ++ r' :: Q)) (P.length + (M.length + 1)))
  have := apart (seg := storedSeg starts (P ++ r :: (M ++ r' :: Q))) hnd hi hi' hp hp' (by rw [ep, ep', hsame, heq])
  omega

/-- C117 for a data line that stands twice. -/
theorem C117_ihex_twice_partial {n : Nat} (hn : 0 < n) {pre mid post : List Str} {l : Str} {r : Rec}
    (hwf : WellFormed (pre ++ l :: (mid ++ l :: post))) (hl : decodeLine l = some r) (h0 : r.typ = 0) (hne : r.data ≠ [])
    (hmid : ∀ x ∈ mid, ∀ k, decodeLine x = some k → k.typ ≠ 4) {sched : List Nat} {o : Outcome}
    (h : parseHex n sched (pre ++ l :: (mid ++ l :: post)) = some (some o)) : o.err ≠ none :=
  C117_ihex_partial hn hwf hl hl h0 h0 ⟨0, 0, List.length_pos_iff.2 hne, List.length_pos_iff.2 hne, rfl⟩ hmid h

/-- The files of `missedLines` (C05_missed) with the data line at the end written twice: the first collision is missed, this one is not. -/
def twiceLines : List Str := missedLines ++ [":0100010008F6".toList]

theorem twice_wellFormed : WellFormed twiceLines := by
  intro l hl
  unfold twiceLines significant at hl
  rw [List.filter_append] at hl
  rcases List.mem_append.1 hl with hl | hl
  · exact missed_wellFormed l hl
  · have := (List.mem_filter.1 hl).1
    rw [List.mem_singleton] at this
    subst this
    exact ⟨⟨1, 1, 0, [8], 246⟩, by decide +kernel, by decide⟩

-- a run of this file, which is not one of C05_file_partial, and its result
example : ¬ Spec.ZeroSegmentLast (recs twiceLines) ∧ ∃ o, parseHex 1 (List.replicate 9 0) twiceLines = some (some o) ∧ o.err ≠ none := by
  refine ⟨by decide +kernel, ?_⟩
  obtain ⟨o, ho⟩ := C02_returns (n := 1) (by omega) twiceLines (List.replicate 9 0) (by decide)
  have e : twiceLines = missedLines.take 5 ++ ":0100010008F6".toList :: ([] ++ ":0100010008F6".toList :: []) := by decide +kernel
  have hw := twice_wellFormed
  rw [e] at hw
  refine ⟨o, ho, C117_ihex_twice_partial (n := 1) (by omega) (l := ":0100010008F6".toList) (r := ⟨1, 1, 0, [8], 246⟩) (mid := []) hw
    (by decide +kernel) rfl (by decide) (fun x hx => by cases hx) (sched := List.replicate 9 0) (by rw [← e]; exact ho)⟩

/-- False when a line before is not a record: the reader leaves its share of the lines and reports nothing. -/
theorem C117_ihex_false : ¬ C117_ihex_full := by
  intro hfull
  obtain ⟨o, ho⟩ := C02_returns (n := 1) (by omega) [commentLine, ":0100000007F8".toList, ":0100000007F8".toList] (List.replicate 9 0) (by decide)
  have hne := hfull 1 [commentLine] [] [] ":0100000007F8".toList ":0100000007F8".toList ⟨1, 0, 0, [7], 248⟩ ⟨1, 0, 0, [7], 248⟩ _ o (by omega)
    (by decide +kernel) (by decide +kernel) rfl rfl ⟨0, 0, by decide, by decide, rfl⟩ (fun x hx => by cases hx) ho
  have hrec : recognised 1 [commentLine, ":0100000007F8".toList, ":0100000007F8".toList] = [] := by decide +kernel
  obtain ⟨_, h2⟩ := C77_ihex (by omega) _ ho
  have ht : textBytes 1 [commentLine, ":0100000007F8".toList, ":0100000007F8".toList] = [] := by
    unfold textBytes
    rw [hrec]
    rfl
  exact hne ((h2 (by rw [hrec]; intro l hl; cases hl)).1 (by rw [ht]; exact List.nodup_nil)).1

end Verif.Ihex.Overlap

namespace Verif.Srec.Overlap
open Verif.Go Verif.Hex.Spec Verif.Srec Verif.Srec.Spec
open Verif.Ihex.Spec (significant)

/-- The full C117 for S19 (false, see `C117_srec_false`): a file with two lines that give a byte for the same address is an error. -/
def C117_srec_full : Prop :=
  ∀ (n : Nat) (pre mid post : List Str) (l l' : Str) (a v w : Nat) (o : Ihex.Outcome), 0 < n → 11 ≤ l.length → 11 ≤ l'.length →
    (a, v) ∈ lineBytes l → (a, w) ∈ lineBytes l' → parseHex n (pre ++ l :: (mid ++ l' :: post)) = some o → o.err ≠ none

/-- C117 for S19: if no line is unreadable, two lines that give a byte for the same address are an error. -/
theorem C117_srec_partial {n : Nat} (hn : 0 < n) {pre mid post : List Str} {l l' : Str}
    (hgood : ∀ x ∈ pre ++ l :: (mid ++ l' :: post), ¬ Malformed x) (hs : 11 ≤ l.length) (hs' : 11 ≤ l'.length) {a v w : Nat}
    (hl : (a, v) ∈ lineBytes l) (hl' : (a, w) ∈ lineBytes l') {o : Ihex.Outcome}
    (h : parseHex n (pre ++ l :: (mid ++ l' :: post)) = some o) : o.err ≠ none := by
  obtain ⟨o', ho', h1, h2⟩ := C77_srec hn (pre ++ l :: (mid ++ l' :: post))
  rw [ho', Option.some.injEq] at h
  subst h
  by_cases hsum : ∀ x ∈ recognised n (pre ++ l :: (mid ++ l' :: post)), LineSumOk x
  · rcases Ihex.clash_or (textBytes n (pre ++ l :: (mid ++ l' :: post))) with hnd | ⟨p, a', v', w', hc⟩
    · exfalso
      unfold textBytes at hnd
      rw [recognised_eq hn hgood] at hnd
      unfold significant at hnd
      rw [List.filter_append, List.filter_cons_of_pos (by simpa using hs), List.filter_append,
        List.filter_cons_of_pos (by simpa using hs'), List.flatMap_append, List.flatMap_cons, List.flatMap_append, List.flatMap_cons,
        List.map_append, List.map_append] at hnd
      have h3 := (List.nodup_append.1 (List.nodup_append.1 hnd).2.1).2.2
      refine h3 a (List.mem_map.2 ⟨_, hl, rfl⟩) a ?_ rfl
      exact List.mem_map.2 ⟨(a, w), List.mem_append_right _ (List.mem_append_left _ hl'), rfl⟩
    · rw [((h2 hsum).2 p a' v' w' hc).1]
      simp
  · have : ∃ x ∈ recognised n (pre ++ l :: (mid ++ l' :: post)), ¬ LineSumOk x := by
      apply Classical.byContradiction
      intro hno
      exact hsum fun x hx => Classical.byContradiction fun hx' => hno ⟨x, hx, hx'⟩
    rw [(h1 this).1]
    simp

-- one line twice, another line between them, on two CPUs
example : ∀ o, parseHex 2 (["S3060000000509EB".toList] ++ "S3060000000107F1".toList :: (["S3060000000209EE".toList] ++ "S3060000000107F1".toList :: [])) = some o →
    o.err ≠ none := fun _ h =>
  C117_srec_partial (by omega) (by decide +kernel) (by decide) (by decide) (a := 1) (v := 7) (w := 7) (by decide +kernel) (by decide +kernel) h

/-- False when a line before is not an S3 record, as the usual S0 header: nothing of the share is read and no error is reported. -/
theorem C117_srec_false : ¬ C117_srec_full := by
  intro hfull
  obtain ⟨o, ho, _, h2⟩ := C77_srec (n := 1) (by omega) ["S00600004844521B".toList, "S3060000000107F1".toList, "S3060000000107F1".toList]
  have hne := hfull 1 ["S00600004844521B".toList] [] [] "S3060000000107F1".toList "S3060000000107F1".toList 1 7 7 o (by omega)
    (by decide) (by decide) (by decide +kernel) (by decide +kernel) ho
  have hrec : recognised 1 ["S00600004844521B".toList, "S3060000000107F1".toList, "S3060000000107F1".toList] = [] := by decide +kernel
  have ht : textBytes 1 ["S00600004844521B".toList, "S3060000000107F1".toList, "S3060000000107F1".toList] = [] := by
    unfold textBytes
    rw [hrec]
    rfl
  exact hne ((h2 (by rw [hrec]; intro l hl; cases hl)).1 (by rw [ht]; exact List.nodup_nil)).1

end Verif.Srec.Overlap
