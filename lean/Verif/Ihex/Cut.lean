import Verif.Ihex.Stray
import Verif.Srec.SizeProps

/-!
C111: hex files cut off at any character, also inside a line.
-/

namespace Verif.Hex.Cut
open Verif.Go Verif.Hex.Spec
open Verif.Ihex.Spec (payloadPairs)
open Verif.Ihex (joinLines)

/-- A text of lines cut off somewhere: whole lines, and a part of the next one, or all of it with a part of the line end. -/
theorem cut_join (sep : Str) : ∀ (ls : List Str) (k : Nat), ls ≠ [] → ∃ i l x, ls[i]? = some l ∧ (joinLines sep ls).take k = joinLines sep (ls.take i ++ [x]) ∧
    ((∃ j, x = l.take j) ∨ ∃ j, 0 < j ∧ j < sep.length ∧ x = l ++ sep.take j)
  | [], _, h => absurd rfl h
  | [l], k, _ => ⟨0, l, l.take k, rfl, by simp [joinLines], .inl ⟨k, rfl⟩⟩
  | l :: l' :: ls, k, _ => by
    have hj : joinLines sep (l :: l' :: ls) = l ++ (sep ++ joinLines sep (l' :: ls)) := by
      rw [joinLines]
      · rw [List.append_assoc]
      · simp
    rw [hj]
    by_cases h1 : k ≤ l.length
    · exact ⟨0, l, l.take k, rfl, by rw [List.take_append_of_le_length h1]; simp [joinLines], .inl ⟨k, rfl⟩⟩
    · obtain ⟨m, rfl⟩ : ∃ m, k = l.length + m := ⟨k - l.length, by omega⟩
      rw [List.take_length_add_append]
      by_cases h2 : m < sep.length
      · refine ⟨0, l, l ++ sep.take m, rfl, ?_, .inr ⟨m, by omega, h2, rfl⟩⟩
        rw [List.take_append_of_le_length (by omega)]
        simp [joinLines]
      · obtain ⟨q, rfl⟩ : ∃ q, m = sep.length + q := ⟨m - sep.length, by omega⟩
        rw [List.take_length_add_append]
        obtain ⟨i, y, x, hi, ht, hx⟩ := cut_join sep (l' :: ls) q (by simp)
        refine ⟨i + 1, y, x, by simpa using hi, ?_, hx⟩
        rw [ht, List.take_succ_cons, List.cons_append, Ihex.joinLines_cons (by simp), List.append_assoc]

theorem splitOn2_cut {c d : Char} {x : Str} (hx : d ∉ x) : ∀ (ls : List Str), (∀ l ∈ ls, c ∉ l) → Ihex.splitOn2 c d (joinLines [c, d] (ls ++ [x])) = ls ++ [x]
  | [], _ => by simpa [joinLines] using Hex.Ends.splitOn2_noSecond x hx
  | l :: ls, h => by
    rw [List.cons_append, Ihex.joinLines_cons (by simp), List.append_assoc]
    show Ihex.splitOn2 c d (l ++ c :: d :: joinLines [c, d] (ls ++ [x])) = _
    rw [Ihex.splitOn2_append _ _ (h l (by simp)), splitOn2_cut hx ls fun l' hl => h l' (by simp [hl])]

theorem splitLines_cut {x : Str} (hx : '\n' ∉ x) {ls : List Str} (h : ∀ l ∈ ls, '\r' ∉ l) :
    Ihex.splitLines (joinLines ['\r', '\n'] (ls ++ [x])) = ls ++ [x] := by
  unfold Ihex.splitLines
  rw [splitOn2_cut hx ls h]
  simp only
  split
  · next h1 =>
    have : ls = [] := List.length_eq_zero_iff.1 (by simpa using h1)
    subst this
    exact Ihex.splitOn1_none x hx
  · rfl

/-- The lines of a text with CRLF or LF between its lines that is cut off after `k` characters. -/
theorem splitLines_take {ls : List Str} (hne : ls ≠ []) (h : ∀ l ∈ ls, '\r' ∉ l ∧ '\n' ∉ l) {sep : Str} (hs : sep = ['\r', '\n'] ∨ sep = ['\n']) (k : Nat) :
    ∃ i l x, ls[i]? = some l ∧ Ihex.splitLines ((joinLines sep ls).take k) = ls.take i ++ [x] ∧ ((∃ j, x = l.take j) ∨ x = l ++ ['\r']) := by
  obtain ⟨i, l, x, hi, ht, hx⟩ := cut_join sep ls k hne
  have hl := h l (List.mem_of_getElem? hi)
  rw [ht]
  rcases hs with rfl | rfl
  · have hx' : (∃ j, x = l.take j) ∨ x = l ++ ['\r'] := by
      rcases hx with hx | ⟨j, h1, h2, hx⟩
      · exact .inl hx
      · obtain rfl : j = 1 := by simp at h2; omega
        exact .inr hx
    refine ⟨i, l, x, hi, splitLines_cut ?_ (fun y hy => (h y (List.mem_of_mem_take hy)).1), hx'⟩
    rcases hx' with ⟨j, rfl⟩ | rfl
    · exact fun hm => hl.2 (List.mem_of_mem_take hm)
    · intro hm
      rcases List.mem_append.1 hm with hm | hm
      · exact hl.2 hm
      · simp at hm
  · rcases hx with ⟨j, rfl⟩ | ⟨j, h1, h2, _⟩
    · refine ⟨i, l, _, hi, Ihex.splitLines_lf (by simp) ?_, .inl ⟨j, rfl⟩⟩
      intro y hy
      rcases List.mem_append.1 hy with hy | hy
      · exact h y (List.mem_of_mem_take hy)
      · rw [List.mem_singleton.1 hy]
        exact ⟨fun hm => hl.1 (List.mem_of_mem_take hm), fun hm => hl.2 (List.mem_of_mem_take hm)⟩
    · simp at h2; omega

theorem payload_take : ∀ (s : Str) (j : Nat), payloadPairs (s.take j) <+: payloadPairs s
  | a :: b :: c :: d :: r, j => by
    match j with
    | 0 => exact List.nil_prefix
    | 1 => exact List.nil_prefix
    | 2 => exact List.nil_prefix
    | 3 => exact List.nil_prefix
    | j + 4 =>
      have ih := payload_take (c :: d :: r) (j + 2)
      rw [payloadPairs]
      simp only [List.take_succ_cons] at ih ⊢
      rw [payloadPairs]
      exact (List.prefix_cons_inj _).2 ih
  | [], j => by simp [payloadPairs]
  | [_], j => by match j with | 0 => simp [payloadPairs] | j + 1 => simp [payloadPairs]
  | [_, _], j => by match j with | 0 => simp [payloadPairs] | 1 => simp [payloadPairs] | j + 2 => simp [payloadPairs]
  | [_, _, _], j => by match j with | 0 => simp [payloadPairs] | 1 => simp [payloadPairs] | 2 => simp [payloadPairs] | j + 3 => simp [payloadPairs]

theorem drop_take {l : Str} {a b j : Nat} (h : a + b ≤ j) : ((l.take j).drop a).take b = (l.drop a).take b := by
  rw [List.drop_take, List.take_take, Nat.min_eq_left (by omega)]

end Verif.Hex.Cut

namespace Verif.Srec.Cut
open Verif.Go Verif.Hex.Spec Spec Verif.Hex.Cut
open Verif.Ihex.Spec (significant payloadPairs)
open Verif.Ihex (Outcome joinLines)

theorem lineBytes_take {l : Str} {j : Nat} (h : 12 ≤ (l.take j).length) {p : Nat × Nat} (hp : p ∈ Spec.lineBytes (l.take j)) : p ∈ Spec.lineBytes l := by
  have hj : 12 ≤ j := by rw [List.length_take] at h; omega
  unfold Spec.lineBytes at hp ⊢
  rw [drop_take (by omega), drop_take (by omega)] at hp
  split at hp
  · next h1 h2 =>
    obtain ⟨t, ht⟩ := payload_take (l.drop 12) (j - 12)
    rw [← ht, List.filterMap_append, List.zipIdx_append, List.map_append]
    rw [List.drop_take] at hp
    exact List.mem_append_left _ hp
  · cases hp

theorem recognised_mem {n : Nat} {lines : List Str} {l : Str} (h : l ∈ recognised n lines) : 11 ≤ l.length ∧ ¬ Malformed l := by
  unfold recognised at h
  obtain ⟨i, _, h⟩ := List.mem_flatMap.1 h
  obtain ⟨h1, h2⟩ := List.mem_filter.1 (show l ∈ List.filter _ _ from h)
  exact ⟨by simpa using h2, by simpa using (mem_takeWhile h1).2⟩

/-- Whatever the outcome, what is in the image comes from the bytes of the text, and then all sums are right. -/
theorem map_textBytes {n : Nat} (hn : 0 < n) {lines : List Str} {o : Outcome} (h : parseHex n lines = some o) {a v : Nat} (hv : o.map a = some v) :
    (∀ l ∈ recognised n lines, LineSumOk l) ∧ (a, v) ∈ Spec.textBytes n lines := by
  obtain ⟨o', ho', h1, h2⟩ := C77_srec hn lines
  obtain rfl := Option.some.inj (ho'.symm.trans h)
  by_cases hall : ∀ l ∈ recognised n lines, LineSumOk l
  · refine ⟨hall, ?_⟩
    obtain ⟨h3, h4⟩ := h2 hall
    rcases Ihex.clash_or (Spec.textBytes n lines) with hnd | ⟨pre, b, x, w, hc⟩
    · exact ((h3 hnd).2 a v).1 hv
    · have hm := ((h4 _ _ _ _ hc).2 a v).1 hv
      obtain ⟨_, _, post, hs⟩ := hc
      rw [hs]
      exact List.mem_append_left _ hm
  · simp only [Classical.not_forall, ← exists_prop] at hall
    rw [(h1 (by simpa only [exists_prop] using hall)).2] at hv
    cases hv

/-- C111 for S19: a file without unreadable lines that is accepted, cut off after any number of characters, gives an error or an image with nothing but
bytes of the whole file, on any numbers of CPUs. -/
theorem C111_srec {n m : Nat} (hn : 0 < n) (hm : 0 < m) {ls : List Str} (hne : ls ≠ []) (hl : ∀ l ∈ ls, ¬ Malformed l) (hcr : ∀ l ∈ ls, '\r' ∉ l ∧ '\n' ∉ l)
    {sep : Str} (hs : sep = ['\r', '\n'] ∨ sep = ['\n']) (k : Nat) {o o' : Outcome} (h : parseFromText n (joinLines sep ls) = some o) (he : o.err = none)
    (h' : parseFromText m ((joinLines sep ls).take k) = some o') {a v : Nat} (hv : o'.map a = some v) : o.map a = some v := by
  have hsp : Ihex.splitLines (joinLines sep ls) = ls := by
    rcases hs with rfl | rfl
    · exact Ihex.splitLines_crlf hne hcr
    · exact Ihex.splitLines_lf hne hcr
  obtain ⟨i, l, x, hi, ht, hx⟩ := splitLines_take hne hcr hs k
  change parseHex n (Ihex.splitLines _) = _ at h
  change parseHex m (Ihex.splitLines _) = _ at h'
  rw [hsp] at h
  rw [ht] at h'
  have hlm := List.mem_of_getElem? hi
  obtain ⟨hall, hmem⟩ := map_textBytes hm h' hv
  have hsub := recognised_sublist hm (ls.take i ++ [x])
  have hwhole : (a, v) ∈ Spec.textBytes n ls := by
    unfold Spec.textBytes at hmem ⊢
    rw [recognised_eq hn hl]
    obtain ⟨y, hy, hb⟩ := List.mem_flatMap.1 hmem
    have hsig := recognised_mem hy
    rcases List.mem_append.1 (hsub.subset hy) with hy' | hy'
    · exact List.mem_flatMap.2 ⟨y, List.mem_filter.2 ⟨List.mem_of_mem_take hy', by simpa using hsig.1⟩, hb⟩
    · have := List.mem_singleton.1 hy'
      subst this
      have h12 : 12 ≤ y.length := Decidable.byContradiction fun hc => hsig.2 ⟨hsig.1, fun hh => hc hh.2⟩
      have hlen : 11 ≤ l.length := by
        rcases hx with ⟨j, rfl⟩ | rfl
        · rw [List.length_take] at h12; omega
        · simp at h12; omega
      refine List.mem_flatMap.2 ⟨l, List.mem_filter.2 ⟨hlm, by simpa using hlen⟩, ?_⟩
      rcases hx with ⟨j, rfl⟩ | rfl
      · exact lineBytes_take h12 hb
      · exact absurd (hall _ hy) (Blanks.lineSum_blank hlen (by simp) (by decide))
  obtain ⟨o2, ho2, h1, h2⟩ := C77_srec hn ls
  obtain rfl := Option.some.inj (ho2.symm.trans h)
  by_cases hok : ∀ l ∈ recognised n ls, LineSumOk l
  · obtain ⟨h3, h4⟩ := h2 hok
    rcases Ihex.clash_or (Spec.textBytes n ls) with hnd | ⟨pre, b, z, w, hc⟩
    · exact ((h3 hnd).2 a v).2 hwhole
    · rw [(h4 _ _ _ _ hc).1] at he; cases he
  · simp only [Classical.not_forall, ← exists_prop] at hok
    rw [(h1 (by simpa only [exists_prop] using hok)).1] at he
    cases he

/-- Two lines. -/
def two : List Str := ["S306000000100ADF".toList, "S306000000200BCE".toList]

-- the whole text; cut inside the second line: an error; cut after ten characters of it: accepted
example : (∀ l ∈ two, ¬ Malformed l) ∧ (∀ l ∈ two, '\r' ∉ l ∧ '\n' ∉ l) := by decide +kernel
example : ((parseFromText 1 (joinLines ['\r', '\n'] two)).map fun o => (o.err.isNone, o.map 16, o.map 32)) = some (true, some 10, some 11) ∧
    ((parseFromText 1 ((joinLines ['\r', '\n'] two).take 32)).map fun o => (o.err.isNone, o.map 16, o.map 32)) = some (false, none, none) ∧
    ((parseFromText 1 ((joinLines ['\r', '\n'] two).take 28)).map fun o => (o.err.isNone, o.map 16, o.map 32)) = some (true, some 10, none) := by
  decide +kernel

end Verif.Srec.Cut

namespace Verif.Ihex.Cut
open Verif.Go Verif.Hex.Spec Spec Verif.Hex.Cut

theorem recognised_mem {n : Nat} {lines : List Str} {l : Str} (h : l ∈ recognised n lines) : 11 ≤ l.length ∧ ¬ Malformed l := by
  unfold recognised at h
  obtain ⟨i, _, h⟩ := List.mem_flatMap.1 h
  obtain ⟨h1, h2⟩ := List.mem_filter.1 (show l ∈ List.filter _ _ from h)
  exact ⟨by simpa using h2, by simpa using (Srec.mem_takeWhile h1).2⟩

/-- The shares of two lists that differ in the last line only. -/
theorem workerLines_last (n : Nat) (A : List Str) (x y : Str) (i : Nat) : ∃ B, (∀ l ∈ B, l ∈ A) ∧
    ((workerLines n (A ++ [x]) i = B ∧ workerLines n (A ++ [y]) i = B) ∨ (workerLines n (A ++ [x]) i = B ++ [x] ∧ workerLines n (A ++ [y]) i = B ++ [y])) := by
  have hd : ∀ (a : Nat) (z : Str), a ≤ A.length → (A ++ [z]).drop a = A.drop a ++ [z] := fun a z h => List.drop_append_of_le_length h
  have hd' : ∀ (a : Nat) (z : Str), ¬ a ≤ A.length → (A ++ [z]).drop a = [] := fun a z h => List.drop_eq_nil_of_le (by simp; omega)
  have ht : ∀ (B : List Str) (b : Nat) (z : Str), ¬ B.length < b → (B ++ [z]).take b = B.take b := fun B b z h => List.take_append_of_le_length (by omega)
  have ht' : ∀ (B : List Str) (b : Nat) (z : Str), B.length < b → (B ++ [z]).take b = B ++ [z] := fun B b z h => List.take_of_length_le (by simp; omega)
  unfold workerLines
  simp only [List.length_append, List.length_singleton]
  by_cases ha : (A.length + 1) / n * i ≤ A.length
  · rw [hd _ x ha, hd _ y ha]
    split
    · exact ⟨_, fun l hl => List.mem_of_mem_drop hl, .inr ⟨rfl, rfl⟩⟩
    · by_cases hb : (A.drop ((A.length + 1) / n * i)).length < (A.length + 1) / n
      · rw [ht' _ _ x hb, ht' _ _ y hb]
        exact ⟨_, fun l hl => List.mem_of_mem_drop hl, .inr ⟨rfl, rfl⟩⟩
      · rw [ht _ _ x hb, ht _ _ y hb]
        exact ⟨_, fun l hl => List.mem_of_mem_drop (List.mem_of_mem_take hl), .inl ⟨rfl, rfl⟩⟩
  · rw [hd' _ x ha, hd' _ y ha]
    exact ⟨[], by simp, .inl (by split <;> simp)⟩

/-- A last line that is too short or unreadable is as none. -/
theorem recognised_last {n : Nat} (hn : 0 < n) {A : List Str} (hA : ∀ l ∈ A, ¬ Malformed l) {x : Str} (hx : ¬ (11 ≤ x.length ∧ ¬ Malformed x)) :
    recognised n (A ++ [x]) = recognised n A := by
  have key : recognised n (A ++ [x]) = recognised n (A ++ [[]]) := by
    unfold recognised
    congr 1
    funext i
    obtain ⟨B, hB, h⟩ := workerLines_last n A x [] i
    have hB' : ∀ l ∈ B, (decide ¬ Malformed l) = true := fun l hl => by simpa using hA l (hB l hl)
    rcases h with ⟨h1, h2⟩ | ⟨h1, h2⟩
    · rw [h1, h2]
    · rw [h1, h2, List.takeWhile_append_of_pos hB', List.takeWhile_append_of_pos hB']
      unfold significant
      rw [List.filter_append, List.filter_append]
      congr 1
      have e : List.filter (fun l => decide (11 ≤ List.length l)) (List.takeWhile (fun l => decide ¬ Malformed l) [([] : Str)]) = [] := by decide
      by_cases h11 : 11 ≤ x.length
      · have hm : Malformed x := Decidable.byContradiction fun hc => hx ⟨h11, hc⟩
        rw [e, List.takeWhile_cons_of_neg (by simpa using hm)]
        rfl
      · have hm : ¬ Malformed x := fun hc => h11 hc.1
        rw [e, List.takeWhile_cons_of_pos (by simpa using hm)]
        simp
        omega
  rw [key, recognised_eq hn hA, recognised_eq hn]
  · unfold significant; simp
  · intro l hl
    rcases List.mem_append.1 hl with hl | hl
    · exact hA l hl
    · rw [List.mem_singleton.1 hl]
      rintro ⟨h, _⟩
      simp at h

theorem lineBytes_take {l s : Str} {j : Nat} (h : 11 ≤ (l.take j).length) {p : Nat × Nat} (hp : p ∈ lineBytes s (l.take j)) : p ∈ lineBytes s l := by
  have hj : 11 ≤ j := by rw [List.length_take] at h; omega
  unfold lineBytes at hp ⊢
  rw [drop_take (by omega)] at hp
  split at hp
  · next h1 h2 =>
    obtain ⟨t, ht⟩ := payload_take (l.drop 9) (j - 9)
    rw [← ht, List.filterMap_append, List.zipIdx_append, List.map_append]
    rw [List.drop_take] at hp
    exact List.mem_append_left _ hp
  · cases hp

theorem selected_append (A B : List Str) (a i : Nat) (h : i ≤ A.length) : selectedText (A ++ B) a i = selectedText A a i := by
  unfold selectedText
  rw [List.take_append_of_le_length h]

theorem used_append (starts : List Nat) (A B : List Str) (i : Nat) (h : i ≤ A.length) : usedText starts (A ++ B) i = usedText starts A i := by
  have ha : ∀ a, ArrivesText (A ++ B) a i ↔ ArrivesText A a i := by
    intro a
    unfold ArrivesText
    rw [selected_append _ _ _ _ h]
    constructor
    · rintro ⟨h1, h2⟩
      refine ⟨h1, fun b hb hT => ?_⟩
      have := h2 b hb (by rw [List.getElem?_append_left (by omega)]; exact hT)
      rwa [selected_append _ _ _ _ (by omega)] at this
    · rintro ⟨h1, h2⟩
      refine ⟨h1, fun b hb hT => ?_⟩
      rw [selected_append _ _ _ _ (by omega)]
      exact h2 b hb (by rw [List.getElem?_append_left (by omega)] at hT; exact hT)
  unfold usedText
  simp only [ha, selected_append _ _ _ _ h]

/-- The bytes of lines whose last one is cut off. -/
theorem linesBytes_cut (starts : List Nat) (S : List Str) {l : Str} {j : Nat} (h : 11 ≤ (l.take j).length) {p : Nat × Nat}
    (hp : p ∈ linesBytes starts (S ++ [l.take j])) : p ∈ linesBytes starts (S ++ [l]) := by
  have hj : 11 ≤ j := by rw [List.length_take] at h; omega
  unfold linesBytes at hp ⊢
  obtain ⟨⟨y, i⟩, hy, hb⟩ := List.mem_flatMap.1 hp
  rw [List.zipIdx_append, List.mem_append] at hy
  have ht : typeText (l.take j) = typeText l := drop_take (by omega)
  rcases hy with hy | hy
  · refine List.mem_flatMap.2 ⟨(y, i), by rw [List.zipIdx_append]; exact List.mem_append_left _ hy, ?_⟩
    have hi : i < S.length := by have := List.snd_lt_of_mem_zipIdx hy; omega
    simp only [used_append starts S [l.take j] i (by omega)] at hb
    simp only [used_append starts S [l] i (by omega)]
    exact hb
  · simp only [List.zipIdx_cons, List.zipIdx_nil, List.mem_singleton, Prod.mk.injEq] at hy
    obtain ⟨rfl, rfl⟩ := hy
    refine List.mem_flatMap.2 ⟨(l, 0 + S.length), by rw [List.zipIdx_append]; exact List.mem_append_right _ (by simp), ?_⟩
    simp only [used_append starts S [l.take j] (0 + S.length) (by omega), ht] at hb
    simp only [used_append starts S [l] (0 + S.length) (by omega)]
    split at hb
    · next h0 => rw [if_pos h0]; exact lineBytes_take h hb
    · cases hb

theorem map_textBytes {n : Nat} (hn : 0 < n) {lines : List Str} {s : List Nat} {o : Outcome} (h : parseHex n s lines = some (some o)) {a v : Nat}
    (hv : o.map a = some v) : (∀ l ∈ recognised n lines, LineSumOk l) ∧ (a, v) ∈ textBytes n lines := by
  obtain ⟨h1, h2⟩ := C77_ihex hn lines h
  by_cases hall : ∀ l ∈ recognised n lines, LineSumOk l
  · refine ⟨hall, ?_⟩
    obtain ⟨h3, h4⟩ := h2 hall
    rcases clash_or (textBytes n lines) with hnd | ⟨pre, b, x, w, hc⟩
    · exact ((h3 hnd).2 a v).1 hv
    · have hm := ((h4 _ _ _ _ hc).2 a v).1 hv
      obtain ⟨_, _, post, hs⟩ := hc
      rw [hs]
      exact List.mem_append_left _ hm
  · simp only [Classical.not_forall, ← exists_prop] at hall
    rw [(h1 (by simpa only [exists_prop] using hall)).2] at hv
    cases hv

theorem textBytes_map {n : Nat} (hn : 0 < n) {lines : List Str} {s : List Nat} {o : Outcome} (h : parseHex n s lines = some (some o)) (he : o.err = none)
    {a v : Nat} (hv : (a, v) ∈ textBytes n lines) : o.map a = some v := by
  obtain ⟨h1, h2⟩ := C77_ihex hn lines h
  by_cases hok : ∀ l ∈ recognised n lines, LineSumOk l
  · obtain ⟨h3, h4⟩ := h2 hok
    rcases clash_or (textBytes n lines) with hnd | ⟨pre, b, z, w, hc⟩
    · exact ((h3 hnd).2 a v).2 hv
    · rw [(h4 _ _ _ _ hc).1] at he; cases he
  · simp only [Classical.not_forall, ← exists_prop] at hok
    rw [(h1 (by simpa only [exists_prop] using hok)).1] at he
    cases he

theorem returns {n : Nat} (hn : 0 < n) (lines : List Str) : ∃ s o, parseHex n s lines = some (some o) := by
  obtain ⟨o, ho⟩ := C02_returns hn lines (List.replicate (lines.length + 1) (List.range n)).flatten (by
    intro i hi
    have : ∀ k, ((List.replicate k (List.range n)).flatten).count i = k := by
      intro k
      induction k with
      | zero => simp
      | succ k ih => rw [List.replicate_succ, List.flatten_cons, List.count_append, ih, List.count_range, if_pos hi]; omega
    rw [this]
    omega)
  exact ⟨_, o, ho⟩

theorem lineSum_cr {l : Str} (hl : 1 ≤ l.length) : ¬ LineSumOk (l ++ ['\r']) := by
  rintro ⟨bs, h, _⟩
  unfold Spec.fields at h
  rw [Hex.Blanks.mapM_last (Hex.Blanks.last_blank hl (by decide))] at h
  cases h

/-- C111 for Intel HEX as stated: any accepted file of well-formed records. -/
def C111_ihex_full : Prop := ∀ (n m : Nat), 0 < n → 0 < m → ∀ (ls : List Str), ls ≠ [] → WellFormed ls → (∀ l ∈ ls, '\r' ∉ l ∧ '\n' ∉ l) →
  ∀ (sep : Str), sep = ['\r', '\n'] ∨ sep = ['\n'] → ∀ (k : Nat) (s s' : List Nat) (o o' : Outcome), parseFromText n s (joinLines sep ls) = some (some o) →
  o.err = none → parseFromText m s' ((joinLines sep ls).take k) = some (some o') → ∀ a v, o'.map a = some v → o.map a = some v

/-- C111 for Intel HEX: an accepted file of well-formed records, cut off after any number of characters, gives an error or an image with nothing but
bytes of the whole file, on any numbers of CPUs and for all schedules. Missing: files in which a used explicit segment 0 is followed by data elsewhere
(C01). -/
theorem C111_ihex_partial {n m : Nat} (hn : 0 < n) (hm : 0 < m) {ls : List Str} (hne : ls ≠ []) (hwf : WellFormed ls) (hz : Spec.ZeroSegmentLast (Spec.recs ls))
    (hcr : ∀ l ∈ ls, '\r' ∉ l ∧ '\n' ∉ l) {sep : Str} (hs : sep = ['\r', '\n'] ∨ sep = ['\n']) (k : Nat) {s s' : List Nat} {o o' : Outcome}
    (h : parseFromText n s (joinLines sep ls) = some (some o)) (he : o.err = none)
    (h' : parseFromText m s' ((joinLines sep ls).take k) = some (some o')) {a v : Nat} (hv : o'.map a = some v) : o.map a = some v := by
  have hsp : splitLines (joinLines sep ls) = ls := by
    rcases hs with rfl | rfl
    · exact splitLines_crlf hne hcr
    · exact splitLines_lf hne hcr
  obtain ⟨i, l, x, hi, ht, hx⟩ := splitLines_take hne hcr hs k
  unfold parseFromText at h h'
  rw [hsp] at h
  rw [ht] at h'
  have hnm : ∀ l ∈ ls, ¬ Malformed l := fun l hl hmal => wellFormed_not_malformed (hwf l (List.mem_filter.2 ⟨hl, by simpa using hmal.1⟩)) hmal
  have hA : ∀ l ∈ ls.take i, ¬ Malformed l := fun l hl => hnm l (List.mem_of_mem_take hl)
  obtain ⟨hall, hmem⟩ := map_textBytes hm h' hv
  -- the bytes are those of the file cut after a line
  have key : ∃ q, (a, v) ∈ textBytes m (ls.take q) := by
    by_cases hrec : 11 ≤ x.length ∧ ¬ Malformed x
    · refine ⟨i + 1, ?_⟩
      have hi' : ls.take (i + 1) = ls.take i ++ [l] := by rw [List.take_add_one, hi]; rfl
      have hc : ∀ y ∈ ls.take i ++ [x], ¬ Malformed y := by
        intro y hy
        rcases List.mem_append.1 hy with hy | hy
        · exact hA y hy
        · rw [List.mem_singleton.1 hy]; exact hrec.2
      have hd : ∀ y ∈ ls.take i ++ [l], ¬ Malformed y := by
        intro y hy
        rcases List.mem_append.1 hy with hy | hy
        · exact hA y hy
        · rw [List.mem_singleton.1 hy]; exact hnm l (List.mem_of_getElem? hi)
      have hsig : ∀ y : Str, 11 ≤ y.length → significant (ls.take i ++ [y]) = significant (ls.take i) ++ [y] := by
        intro y hy
        unfold significant
        rw [List.filter_append]
        simp [hy]
      rw [hi']
      unfold textBytes at hmem ⊢
      rw [recognised_eq hm hc, hsig x hrec.1] at hmem hall
      rcases hx with ⟨j, rfl⟩ | rfl
      · have hl11 : 11 ≤ l.length := by have := hrec.1; rw [List.length_take] at this; omega
        rw [recognised_eq hm hd, hsig l hl11]
        have := linesBytes_cut _ _ hrec.1 hmem
        simpa using this
      · exact absurd (hall (l ++ ['\r']) (by simp)) (lineSum_cr (by have := hrec.1; simp at this; omega))
    · refine ⟨i, ?_⟩
      unfold textBytes at hmem ⊢
      rwa [recognised_last hm hA hrec] at hmem
  obtain ⟨q, hq⟩ := key
  obtain ⟨s2, o2, h2⟩ := returns hm (ls.take q)
  obtain ⟨e2, sub, _⟩ := C60_ihex_partial hn hm hwf hz q h he h2
  exact sub a v (textBytes_map hm h2 e2 hq)

open Chunks (up down)

-- a file that meets the hypotheses; the whole text; cut inside its second line: an error; cut after ten characters of that line: accepted
example : WellFormed down ∧ Spec.ZeroSegmentLast (Spec.recs down) ∧ ∀ l ∈ down, '\r' ∉ l ∧ '\n' ∉ l :=
  ⟨Chunks.wf_of (by decide +kernel) (by decide +kernel), by decide +kernel, by decide +kernel⟩
example : Reloc.look (parseFromText 1 (List.replicate 9 0) (joinLines ['\n'] down)) 16 65552 = some (true, none, some 3) ∧
    Reloc.look (parseFromText 1 (List.replicate 9 0) ((joinLines ['\n'] down).take 28)) 16 65552 = some (false, none, none) ∧
    Reloc.look (parseFromText 1 (List.replicate 9 0) ((joinLines ['\n'] down).take 26)) 16 65552 = some (true, none, none) := by decide +kernel

/-- C111 is false of Intel HEX: one CPU stores a byte of the whole file in a wrong segment, two CPUs store it rightly when the end of the file is cut off. -/
theorem C111_ihex_false : ¬ C111_ihex_full := by
  intro hfull
  have l0 : Reloc.look (parseFromText 1 (List.replicate 9 0) (joinLines ['\n'] up)) 16 65552 = some (true, some 3, none) := by decide +kernel
  have l1 : Reloc.look (parseFromText 2 ((List.replicate 9 [0, 1]).flatten) ((joinLines ['\n'] up).take 60)) 16 65552 = some (true, none, some 3) := by
    decide +kernel
  cases r0 : parseFromText 1 (List.replicate 9 0) (joinLines ['\n'] up) with
  | none => rw [r0] at l0; cases l0
  | some oo =>
    cases oo with
    | none => rw [r0] at l0; cases l0
    | some o =>
      cases r1 : parseFromText 2 ((List.replicate 9 [0, 1]).flatten) ((joinLines ['\n'] up).take 60) with
      | none => rw [r1] at l1; cases l1
      | some oo' =>
        cases oo' with
        | none => rw [r1] at l1; cases l1
        | some o' =>
          rw [r0] at l0
          rw [r1] at l1
          simp only [Reloc.look, Option.some.injEq, Prod.mk.injEq] at l0 l1
          have := hfull 1 2 (by decide) (by decide) up (by decide) (Chunks.wf_of (by decide +kernel) (by decide +kernel)) (by decide +kernel) _ (.inr rfl) 60
            _ _ o o' r0 (by simpa using l0.1) r1 65552 3 l1.2.2
          rw [l0.2.2] at this
          cases this

end Verif.Ihex.Cut
