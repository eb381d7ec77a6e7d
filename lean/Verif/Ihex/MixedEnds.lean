import Verif.Ihex.Blanks

/-!
C109: hex files with line ends of several kinds. The reader splits at CRLF, or at LF if there is no CRLF, so lines that end otherwise are glued together.
-/

namespace Verif.Hex.Ends
open Verif.Go Verif.Hex.Spec Verif.Hex.Blanks
open Verif.Ihex.Spec (payloadPairs)

theorem specByte_first {c d : Char} (h : isSpace c = true) : specByte [c, d] = none := by
  obtain ⟨h1, h2⟩ := blank_noDigit h
  simp only [specByte]
  rw [if_neg]
  rintro (⟨ha, _⟩ | ⟨ha, _⟩)
  · exact h1 ha
  · exact h2 ha

theorem mapM_pair_none {fs : List Str} {f : Str} (hf : f ∈ fs) (h : specByte f = none) : fs.mapM specByte = none := by
  induction fs with
  | nil => cases hf
  | cons g fs ih =>
    rw [List.mapM_cons]
    rcases List.mem_cons.1 hf with rfl | hf
    · rw [h]; rfl
    · rw [ih hf]
      cases specByte g <;> rfl

/-- Behind an even number of characters, and with two more to come, two characters are a pair of the payload. -/
theorem mem_payload {c d e f : Char} {v : Str} : ∀ (k : Nat) (u : Str), u.length = 2 * k → [c, d] ∈ payloadPairs (u ++ c :: d :: e :: f :: v)
  | 0, u, h => by
    rw [List.length_eq_zero_iff.1 (by omega : u.length = 0)]
    simp [payloadPairs]
  | k + 1, [], h => by simp at h
  | k + 1, [_], h => by simp at h; omega
  | k + 1, a :: b :: u, h => by
    have ih := mem_payload (c := c) (d := d) (e := e) (f := f) (v := v) k u (by simp at h; omega)
    match u, ih with
    | [], ih => exact List.mem_cons_of_mem _ ih
    | [_], ih => exact List.mem_cons_of_mem _ ih
    | _ :: _ :: _, ih => exact List.mem_cons_of_mem _ ih

/-- Lines that end in LF, as they stand between two CRLF; `t` tells whether the last one has its LF too. -/
def group (g : List Str × Bool) : Str := Ihex.joinLines ['\n'] g.1 ++ if g.2 then ['\n'] else []

/-- A text in which the groups end in CRLF. -/
def mixed (gs : List (List Str × Bool)) : Str := Ihex.joinLines ['\r', '\n'] (gs.map group)

/-- A group with a line that ends in LF. -/
def HasLf (g : List Str × Bool) : Prop := g.1 ≠ [] ∧ (2 ≤ g.1.length ∨ g.2 = true)

theorem splitOn2_noSecond {c d : Char} : ∀ l : Str, d ∉ l → Ihex.splitOn2 c d l = [l]
  | [], _ => rfl
  | [_], _ => rfl
  | x :: y :: l, h => by
    have hy : ¬ (x = c ∧ y = d) := fun hh => h (by rw [hh.2]; simp)
    rw [Ihex.splitOn2, if_neg hy, splitOn2_noSecond (y :: l) (fun hm => h (List.mem_cons_of_mem _ hm))]

/-- The beginning of a group with a line. -/
theorem group_cons (l : Str) (ls : List Str) (t : Bool) : ∃ w, group (l :: ls, t) = l ++ w ∧
    (HasLf (l :: ls, t) → ∃ r, w = '\n' :: r ∧ (r = [] ∨ ∃ l' w', r = l' ++ w' ∧ l' ∈ ls)) := by
  cases ls with
  | nil =>
    cases t with
    | false => exact ⟨[], by simp [group, Ihex.joinLines], by simp [HasLf]⟩
    | true => exact ⟨['\n'], by simp [group, Ihex.joinLines], fun _ => ⟨[], rfl, .inl rfl⟩⟩
  | cons l' ls =>
    obtain ⟨x, hx⟩ : ∃ x, Ihex.joinLines ['\n'] (l' :: ls) = l' ++ x := by
      cases ls with
      | nil => exact ⟨[], by simp [Ihex.joinLines]⟩
      | cons l'' ls => exact ⟨_, by rw [Ihex.joinLines, List.append_assoc]; simp⟩
    refine ⟨'\n' :: (l' ++ (x ++ if t then ['\n'] else [])), ?_, fun _ => ⟨_, rfl, .inr ⟨l', _, rfl, by simp⟩⟩⟩
    simp only [group]
    rw [Ihex.joinLines, hx]
    · simp [List.append_assoc]
    · simp

theorem group_noCr {g : List Str × Bool} (h : ∀ l ∈ g.1, '\r' ∉ l) : '\r' ∉ group g := by
  unfold group
  rw [List.mem_append]
  rintro (hm | hm)
  · exact Ihex.joinLines_not_mem (by decide) g.1 h hm
  · split at hm
    · simp at hm
    · cases hm

/-- The lines of a mixed text are its groups. -/
theorem splitLines_mixed {gs : List (List Str × Bool)} (h2 : 2 ≤ gs.length) (h : ∀ g ∈ gs, ∀ l ∈ g.1, '\r' ∉ l) :
    Ihex.splitLines (mixed gs) = gs.map group := by
  unfold Ihex.splitLines mixed
  rw [Ihex.splitOn2_join]
  · simp only [List.length_map]
    rw [if_neg (by omega)]
  · intro e
    rw [List.map_eq_nil_iff] at e
    rw [e] at h2
    cases h2
  · intro l hl
    obtain ⟨g, hg, rfl⟩ := List.mem_map.1 hl
    exact group_noCr (h g hg)

/-- Lines that end in CR only are one line. -/
theorem splitLines_cr {ls : List Str} (h : ∀ l ∈ ls, '\n' ∉ l) : Ihex.splitLines (Ihex.joinLines ['\r'] ls) = [Ihex.joinLines ['\r'] ls] := by
  have hn := Ihex.joinLines_not_mem (sep := ['\r']) (by decide) ls h
  unfold Ihex.splitLines
  rw [splitOn2_noSecond _ hn]
  simp only [List.length_singleton, if_true]
  exact Ihex.splitOn1_none _ hn

end Verif.Hex.Ends

namespace Verif.Ihex.Ends
open Verif.Go Verif.Hex.Spec Spec Verif.Hex.Blanks Verif.Hex.Ends

theorem record_length {l : Str} {r : Rec} (h : decodeLine l = some r) : 11 ≤ l.length ∧ l.length % 2 = 1 ∧ l.head? = some ':' := by
  unfold decodeLine at h
  split at h
  · next body =>
    split at h
    · next hp =>
      have := pairBytes_length _ _ hp
      simp only [List.length_cons] at this ⊢
      exact ⟨by omega, by omega, rfl⟩
    · cases h
  · cases h

/-- A record with white space and the beginning of another one behind it. -/
theorem glued {l w : Str} {c : Char} {r : Rec} (h : decodeLine l = some r) (hc : isSpace c = true) (hw : w = [] ∨ 3 ≤ w.length) :
    ¬ LineSumOk (l ++ c :: w) := by
  obtain ⟨h1, h2, _⟩ := record_length h
  rcases hw with rfl | hw
  · exact Blanks.lineSum_blank h1 (by simp) (fun x hx => by rw [List.mem_singleton.1 hx]; exact hc)
  · rintro ⟨bs, hb, _⟩
    obtain ⟨d, e, f, v, rfl⟩ : ∃ d e f v, w = d :: e :: f :: v := by
      match w, hw with
      | d :: e :: f :: v, _ => exact ⟨d, e, f, v, rfl⟩
    have hm : [c, d] ∈ Spec.fields (l ++ c :: d :: e :: f :: v) := by
      unfold Spec.fields
      rw [List.mem_append, List.mem_append]
      refine .inl (.inr ?_)
      rw [List.drop_append_of_le_length (by omega)]
      exact mem_payload ((l.length - 9) / 2) _ (by rw [List.length_drop]; omega)
    rw [mapM_pair_none hm (specByte_first hc)] at hb
    cases hb

theorem record_append {l w : Str} {r : Rec} (h : decodeLine l = some r) (hr : r.typ = 4 → 2 ≤ r.data.length) : ¬ Malformed (l ++ w) :=
  Blanks.not_malformed_append (record_length h).1 (wellFormed_not_malformed ⟨r, h, hr⟩)

/-- C109 for Intel HEX: a file of records some of which end in CRLF and some in LF only is an error, never a wrong image. -/
theorem C109_ihex_mixed {n : Nat} (hn : 0 < n) {gs : List (List Str × Bool)} (h2 : 2 ≤ gs.length)
    (hg : ∀ g ∈ gs, (g.1 = [] → g.2 = false) ∧ ∀ l ∈ g.1, WellFormedLine l ∧ '\r' ∉ l) (hlf : ∃ g ∈ gs, HasLf g) {s : List Nat} {o : Outcome}
    (h : parseFromText n s (mixed gs) = some (some o)) : o.err = some .invalidChecksums ∧ ∀ a, o.map a = none := by
  refine (C77_text hn _ h).1 ?_
  rw [splitLines_mixed h2 fun g hg' l hl => ((hg g hg').2 l hl).2]
  have hnm : ∀ x ∈ gs.map group, ¬ Malformed x := by
    intro x hx
    obtain ⟨⟨ls, t⟩, hg', rfl⟩ := List.mem_map.1 hx
    cases ls with
    | nil =>
      have ht : t = false := (hg _ hg').1 rfl
      subst ht
      rintro ⟨hlen, _⟩
      simp [group, joinLines] at hlen
    | cons l ls =>
      obtain ⟨w, hw, _⟩ := group_cons l ls t
      obtain ⟨⟨r, hr, h4⟩, _⟩ := (hg _ hg').2 l (by simp)
      rw [hw]
      exact record_append hr h4
  rw [recognised_eq hn hnm]
  obtain ⟨⟨ls, t⟩, hg', hl⟩ := hlf
  cases ls with
  | nil => exact absurd rfl hl.1
  | cons l ls =>
    obtain ⟨w, hw, hr⟩ := group_cons l ls t
    obtain ⟨x, rfl, hx⟩ := hr hl
    obtain ⟨⟨r, hr, h4⟩, _⟩ := (hg _ hg').2 l (by simp)
    refine ⟨group (l :: ls, t), ?_, ?_⟩
    · unfold significant
      rw [List.mem_filter]
      refine ⟨List.mem_map.2 ⟨_, hg', rfl⟩, ?_⟩
      have := (record_length hr).1
      rw [hw]
      simp
      omega
    · rw [hw]
      refine glued hr (by decide) ?_
      rcases hx with rfl | ⟨l', w', rfl, hm⟩
      · exact .inl rfl
      · obtain ⟨⟨r', hr', _⟩, _⟩ := (hg _ hg').2 l' (List.mem_cons_of_mem _ hm)
        have := (record_length hr').1
        exact .inr (by rw [List.length_append]; omega)

/-- C109 for Intel HEX, lines that end in CR only: a file of at least two records is an error. -/
theorem C109_ihex_cr {n : Nat} (hn : 0 < n) {l l' : Str} {ls : List Str} (hl : ∀ x ∈ l :: l' :: ls, WellFormedLine x ∧ '\n' ∉ x) {s : List Nat}
    {o : Outcome} (h : parseFromText n s (joinLines ['\r'] (l :: l' :: ls)) = some (some o)) :
    o.err = some .invalidChecksums ∧ ∀ a, o.map a = none := by
  refine (C77_text hn _ h).1 ?_
  rw [splitLines_cr fun x hx => (hl x hx).2]
  obtain ⟨⟨r, hr, h4⟩, _⟩ := hl l (by simp)
  obtain ⟨⟨r', hr', _⟩, _⟩ := hl l' (by simp)
  obtain ⟨w, hw, h3⟩ : ∃ w, joinLines ['\r'] (l :: l' :: ls) = l ++ '\r' :: w ∧ 3 ≤ w.length := by
    have := (record_length hr').1
    refine ⟨joinLines ['\r'] (l' :: ls), by rw [joinLines]; · simp
                                            · simp, ?_⟩
    cases ls with
    | nil => simp only [joinLines]; omega
    | cons l'' ls => rw [joinLines]; · simp only [List.length_append]; omega
                     · simp
  rw [hw, recognised_eq hn]
  · refine ⟨_, ?_, glued (c := '\r') hr (by decide) (.inr h3)⟩
    unfold significant
    have := (record_length hr).1
    simp
    omega
  · intro x hx
    rw [List.mem_singleton.1 hx]
    exact record_append hr h4

-- three records, the first with LF, the others with CRLF; and with CR only
example : WellFormedLine ":010010000AE5".toList ∧ WellFormedLine ":00000001FF".toList :=
  ⟨⟨⟨1, 16, 0, [10], 229⟩, by decide +kernel, by decide⟩, ⟨⟨0, 0, 1, [], 255⟩, by decide +kernel, by decide⟩⟩
example : HasLf ([":010010000AE5".toList, ":010020000BD4".toList], false) ∧
    mixed [([":010010000AE5".toList, ":010020000BD4".toList], false), ([":00000001FF".toList], false), ([], false)] =
      ":010010000AE5\n:010020000BD4\r\n:00000001FF\r\n".toList := by
  exact ⟨⟨by simp, .inl (by simp)⟩, by decide +kernel⟩
example : Reloc.look (parseFromText 1 (List.replicate 9 0) ":010010000AE5\n:010020000BD4\r\n:00000001FF\r\n".toList) 16 32 = some (false, none, none) ∧
    Reloc.look (parseFromText 1 (List.replicate 9 0) ":010010000AE5\r:00000001FF".toList) 16 32 = some (false, none, none) ∧
    Reloc.look (parseFromText 1 (List.replicate 9 0) ":010010000AE5\r\n:010020000BD4\r\n:00000001FF\r\n".toList) 16 32 = some (true, some 10, some 11) := by
  decide +kernel

end Verif.Ihex.Ends

namespace Verif.Srec.Ends
open Verif.Go Verif.Hex.Spec Spec Verif.Hex.Blanks Verif.Hex.Ends
open Verif.Ihex.Spec (significant)
open Verif.Ihex (Outcome joinLines)

theorem record_length {l : Str} {r : Rec} (h : decodeLine l = some r) : 14 ≤ l.length ∧ l.length % 2 = 0 ∧ l.take 2 = ['S', '3'] := by
  unfold decodeLine at h
  split at h
  · next body =>
    split at h
    · next hp =>
      have := Ihex.pairBytes_length _ _ hp
      simp only [List.length_cons] at this ⊢
      exact ⟨by omega, by omega, rfl⟩
    · cases h
  · cases h

theorem glued {l w : Str} {c : Char} {r : Rec} (h : decodeLine l = some r) (hc : isSpace c = true) (hw : w = [] ∨ 3 ≤ w.length) :
    ¬ LineSumOk (l ++ c :: w) := by
  obtain ⟨h1, h2, _⟩ := record_length h
  rcases hw with rfl | hw
  · exact Blanks.lineSum_blank (by omega) (by simp) (fun x hx => by rw [List.mem_singleton.1 hx]; exact hc)
  · rintro ⟨bs, hb, _⟩
    obtain ⟨d, e, f, v, rfl⟩ : ∃ d e f v, w = d :: e :: f :: v := by
      match w, hw with
      | d :: e :: f :: v, _ => exact ⟨d, e, f, v, rfl⟩
    have hm : [c, d] ∈ Spec.fields (l ++ c :: d :: e :: f :: v) := by
      unfold Spec.fields
      rw [List.mem_append, List.mem_append]
      refine .inl (.inr ?_)
      rw [List.drop_append_of_le_length (by omega)]
      exact mem_payload ((l.length - 12) / 2) _ (by rw [List.length_drop]; omega)
    rw [mapM_pair_none hm (specByte_first hc)] at hb
    cases hb

theorem record_append {l w : Str} {r : Rec} (h : decodeLine l = some r) : ¬ Malformed (l ++ w) := by
  obtain ⟨h1, _, h3⟩ := record_length h
  exact Blanks.not_malformed_append (by omega) fun hm => hm.2 ⟨h3, by omega⟩

/-- C109 for S19. -/
theorem C109_srec_mixed {n : Nat} (hn : 0 < n) {gs : List (List Str × Bool)} (h2 : 2 ≤ gs.length)
    (hg : ∀ g ∈ gs, (g.1 = [] → g.2 = false) ∧ ∀ l ∈ g.1, (∃ r, decodeLine l = some r) ∧ '\r' ∉ l) (hlf : ∃ g ∈ gs, HasLf g) :
    ∃ o, parseFromText n (mixed gs) = some o ∧ o.err = some .invalidChecksums ∧ ∀ a, o.map a = none := by
  obtain ⟨o, ho, h1, _⟩ := C77_srec_text hn (mixed gs)
  refine ⟨o, ho, h1 ?_⟩
  rw [splitLines_mixed h2 fun g hg' l hl => ((hg g hg').2 l hl).2]
  have hnm : ∀ x ∈ gs.map group, ¬ Malformed x := by
    intro x hx
    obtain ⟨⟨ls, t⟩, hg', rfl⟩ := List.mem_map.1 hx
    cases ls with
    | nil =>
      have ht : t = false := (hg _ hg').1 rfl
      subst ht
      rintro ⟨hlen, _⟩
      simp [group, joinLines] at hlen
    | cons l ls =>
      obtain ⟨w, hw, _⟩ := group_cons l ls t
      obtain ⟨⟨r, hr⟩, _⟩ := (hg _ hg').2 l (by simp)
      rw [hw]
      exact record_append hr
  rw [recognised_eq hn hnm]
  obtain ⟨⟨ls, t⟩, hg', hl⟩ := hlf
  cases ls with
  | nil => exact absurd rfl hl.1
  | cons l ls =>
    obtain ⟨w, hw, hr⟩ := group_cons l ls t
    obtain ⟨x, rfl, hx⟩ := hr hl
    obtain ⟨⟨r, hr⟩, _⟩ := (hg _ hg').2 l (by simp)
    refine ⟨group (l :: ls, t), ?_, ?_⟩
    · unfold significant
      rw [List.mem_filter]
      refine ⟨List.mem_map.2 ⟨_, hg', rfl⟩, ?_⟩
      have := (record_length hr).1
      rw [hw]
      simp
      omega
    · rw [hw]
      refine glued hr (by decide) ?_
      rcases hx with rfl | ⟨l', w', rfl, hm⟩
      · exact .inl rfl
      · obtain ⟨⟨r', hr'⟩, _⟩ := (hg _ hg').2 l' (List.mem_cons_of_mem _ hm)
        have := (record_length hr').1
        exact .inr (by rw [List.length_append]; omega)

/-- C109 for S19, lines that end in CR only. -/
theorem C109_srec_cr {n : Nat} (hn : 0 < n) {l l' : Str} {ls : List Str} (hl : ∀ x ∈ l :: l' :: ls, (∃ r, decodeLine x = some r) ∧ '\n' ∉ x) :
    ∃ o, parseFromText n (joinLines ['\r'] (l :: l' :: ls)) = some o ∧ o.err = some .invalidChecksums ∧ ∀ a, o.map a = none := by
  obtain ⟨o, ho, h1, _⟩ := C77_srec_text hn (joinLines ['\r'] (l :: l' :: ls))
  refine ⟨o, ho, h1 ?_⟩
  rw [splitLines_cr fun x hx => (hl x hx).2]
  obtain ⟨⟨r, hr⟩, _⟩ := hl l (by simp)
  obtain ⟨⟨r', hr'⟩, _⟩ := hl l' (by simp)
  obtain ⟨w, hw, h3⟩ : ∃ w, joinLines ['\r'] (l :: l' :: ls) = l ++ '\r' :: w ∧ 3 ≤ w.length := by
    have := (record_length hr').1
    refine ⟨joinLines ['\r'] (l' :: ls), by rw [joinLines]; · simp
                                            · simp, ?_⟩
    cases ls with
    | nil => simp only [joinLines]; omega
    | cons l'' ls => rw [joinLines]; · simp only [List.length_append]; omega
                     · simp
  rw [hw, recognised_eq hn]
  · refine ⟨_, ?_, glued (c := '\r') hr (by decide) (.inr h3)⟩
    unfold significant
    have := (record_length hr).1
    simp
    omega
  · intro x hx
    rw [List.mem_singleton.1 hx]
    exact record_append hr

example : decodeLine "S306000000100ADF".toList = some ⟨6, 16, [10], 223⟩ ∧ decodeLine "S306000000200BCE".toList = some ⟨6, 32, [11], 206⟩ := by decide +kernel
example : mixed [(["S306000000100ADF".toList], true), (["S306000000200BCE".toList], false)] = "S306000000100ADF\n\r\nS306000000200BCE".toList ∧
    (parseFromText 1 "S306000000100ADF\n\r\nS306000000200BCE".toList).map (fun o => (o.err.isNone, o.map 16)) = some (false, none) ∧
    (parseFromText 1 "S306000000100ADF\rS306000000200BCE".toList).map (fun o => (o.err.isNone, o.map 16)) = some (false, none) ∧
    (parseFromText 1 "S306000000100ADF\r\nS306000000200BCE".toList).map (fun o => (o.err.isNone, o.map 16)) = some (true, some 10) := by decide +kernel

end Verif.Srec.Ends
