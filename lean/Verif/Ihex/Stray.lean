import Verif.Ihex.MixedEnds

/-!
C110: characters in a record that are no hexadecimal digits. A file with one should be an error; but the readers take pairs while more than three
characters are left, and then the last two, so that of a line with one character too many the third from the end is not looked at.
-/

namespace Verif.Hex.Stray
open Verif.Go Verif.Hex.Spec
open Verif.Ihex.Spec (payloadPairs)

/-- A hexadecimal digit, in either case. -/
def Digit (c : Char) : Prop := c ∈ upperDigits ∨ c ∈ lowerDigits

instance (c : Char) : Decidable (Digit c) := by unfold Digit; infer_instance

theorem specByte_digits {f : Str} {b : Nat} (h : specByte f = some b) : ∀ c ∈ f, Digit c := by
  match f, h with
  | [x, y], h =>
    simp only [specByte] at h
    split at h
    · next hc =>
      intro c hm
      simp only [List.mem_cons, List.not_mem_nil, or_false] at hm
      rcases hc with ⟨h1, h2⟩ | ⟨h1, h2⟩ <;> rcases hm with rfl | rfl
      · exact .inl h1
      · exact .inl h2
      · exact .inr h1
      · exact .inr h2
    · cases h

/-- Every pair with two characters behind it is a pair of the payload. -/
theorem payload_pair : ∀ (j : Nat) (s : Str), 2 * j + 4 ≤ s.length → (s.drop (2 * j)).take 2 ∈ payloadPairs s
  | 0, a :: b :: c :: d :: r, _ => by simp [payloadPairs]
  | j + 1, a :: b :: c :: d :: r, h => by
    have ih := payload_pair j (c :: d :: r) (by simp only [List.length_cons] at h ⊢; omega)
    rw [payloadPairs, show 2 * (j + 1) = 2 * j + 2 by omega, List.drop_succ_cons, List.drop_succ_cons]
    exact List.mem_cons_of_mem _ ih
  | _, [], h => by simp at h
  | _, [_], h => by simp at h
  | _, [_, _], h => by simp at h
  | _, [_, _, _], h => by simp at h

/-- With one character more before the last two, behind an even number of characters, the pairs stay the same. -/
theorem payload_stray (c y z : Char) : ∀ (k : Nat) (v : Str), v.length = 2 * k → payloadPairs (v ++ [c, y, z]) = payloadPairs (v ++ [y, z])
  | 0, v, h => by
    rw [List.length_eq_zero_iff.1 (by omega : v.length = 0)]
    rfl
  | k + 1, [], h => by simp at h
  | k + 1, [_], h => by simp at h; omega
  | k + 1, a :: b :: v, h => by
    have ih := payload_stray c y z k v (by simp at h; omega)
    match v, ih with
    | [], _ => rfl
    | [_], ih => simp at h; omega
    | _ :: _ :: _, ih => simp only [List.cons_append, payloadPairs] at ih ⊢; rw [ih]

theorem mem_two {l : Str} {i k : Nat} {c : Char} (h : l[i]? = some c) (h1 : k ≤ i) (h2 : i < k + 2) : c ∈ (l.drop k).take 2 := by
  apply List.mem_iff_getElem?.2
  refine ⟨i - k, ?_⟩
  rw [List.getElem?_take_of_lt (by omega), List.getElem?_drop, show k + (i - k) = i by omega, h]

theorem mem_drop {l : Str} {i k : Nat} {c : Char} (h : l[i]? = some c) (h1 : k ≤ i) : c ∈ l.drop k := by
  apply List.mem_iff_getElem?.2
  exact ⟨i - k, by rw [List.getElem?_drop, show k + (i - k) = i by omega, h]⟩

end Verif.Hex.Stray

namespace Verif.Ihex.Stray
open Verif.Go Verif.Hex.Spec Spec Verif.Hex.Stray

/-- C110 for Intel HEX as stated: in an accepted file without unreadable lines all characters behind the colons are digits. -/
def C110_ihex_full : Prop := ∀ (n : Nat), 0 < n → ∀ (lines : List Str), (∀ l ∈ lines, ¬ Malformed l) → ∀ (s : List Nat) (o : Outcome),
  parseHex n s lines = some (some o) → o.err = none → ∀ l ∈ significant lines, ∀ i c, l[i]? = some c → i ≠ 0 → Digit c

/-- The characters that the checksum test has seen. -/
theorem digits {l : Str} (h11 : 11 ≤ l.length) (h : LineSumOk l) {i : Nat} {c : Char} (hi : l[i]? = some c) (h0 : i ≠ 0)
    (h3 : i + 3 = l.length → l.length % 2 = 1) : Digit c := by
  obtain ⟨bs, hb, _⟩ := h
  have key : ∀ f ∈ Spec.fields l, c ∈ f → Digit c := by
    intro f hf hc
    cases hs : specByte f with
    | none => rw [Hex.Ends.mapM_pair_none hf hs] at hb; cases hb
    | some b => exact specByte_digits hs c hc
  have hlt : i < l.length := (List.getElem?_eq_some_iff.1 hi).1
  unfold Spec.fields at key
  by_cases a1 : i < 3
  · exact key _ (by simp) (mem_two hi (k := 1) (by omega) (by omega))
  by_cases a2 : i < 5
  · exact key ((l.drop 3).take 2) (by simp) (mem_two hi (by omega) (by omega))
  by_cases a3 : i < 7
  · exact key ((l.drop 5).take 2) (by simp) (mem_two hi (by omega) (by omega))
  by_cases a4 : i < 9
  · exact key ((l.drop 7).take 2) (by simp) (mem_two hi (by omega) (by omega))
  by_cases a5 : l.length - 2 ≤ i
  · exact key (l.drop (l.length - 2)) (by simp) (mem_drop hi a5)
  · refine key ((l.drop (9 + 2 * ((i - 9) / 2))).take 2) ?_ (mem_two hi (by omega) (by omega))
    rw [List.mem_append, List.mem_append, ← List.drop_drop]
    refine .inl (.inr (payload_pair _ _ ?_))
    rw [List.length_drop]
    omega

/-- C110 for Intel HEX: in an accepted file every character of every record behind the colon is a digit, on any number of CPUs and for all
schedules. Missing: the third character from the end of a line of even length, which nobody looks at. -/
theorem C110_ihex_partial {n : Nat} (hn : 0 < n) {lines : List Str} (hl : ∀ l ∈ lines, ¬ Malformed l) {s : List Nat} {o : Outcome}
    (h : parseHex n s lines = some (some o)) (he : o.err = none) : ∀ l ∈ significant lines, ∀ i c, l[i]? = some c → i ≠ 0 →
    (i + 3 = l.length → l.length % 2 = 1) → Digit c := by
  intro l hm i c hi h0 h3
  have h11 : 11 ≤ l.length := by unfold significant at hm; simpa using (List.mem_filter.1 hm).2
  by_cases hs : LineSumOk l
  · exact digits h11 hs hi h0 h3
  · have := ((C77_ihex hn lines h).1 ⟨l, by rw [recognised_eq hn hl]; exact hm, hs⟩).1
    rw [this] at he
    cases he

theorem said_stray {u : Str} {c y z : Char} (h9 : 9 ≤ u.length) (hodd : u.length % 2 = 1) (hu : (u.drop 7).take 2 = ['0', '4'] → 13 ≤ u.length) :
    said (u ++ [c, y, z]) = said (u ++ [y, z]) := by
  have hp : payloadPairs ((u ++ [c, y, z]).drop 9) = payloadPairs ((u ++ [y, z]).drop 9) := by
    rw [List.drop_append_of_le_length h9, List.drop_append_of_le_length h9]
    exact payload_stray c y z ((u.length - 9) / 2) _ (by rw [List.length_drop]; omega)
  have ht : ∀ (w : Str) (a : Nat), a + 2 ≤ 9 → ((u ++ w).drop a).take 2 = (u.drop a).take 2 := by
    intro w a ha
    rw [List.drop_append_of_le_length (by omega), List.take_append_of_le_length (by rw [List.length_drop]; omega)]
  have h4 : ∀ w : Str, ((u ++ w).drop 3).take 4 = (u.drop 3).take 4 := by
    intro w
    rw [List.drop_append_of_le_length (by omega), List.take_append_of_le_length (by rw [List.length_drop]; omega)]
  have hk : (u ++ [c, y, z]).drop ((u ++ [c, y, z]).length - 2) = (u ++ [y, z]).drop ((u ++ [y, z]).length - 2) := by
    have e : u ++ [c, y, z] = (u ++ [c]) ++ [y, z] := by simp
    rw [e]
    simp only [List.length_append (as := u ++ [c]), List.length_append (bs := [y, z]), List.length_cons, List.length_nil, Nat.add_sub_cancel]
    rw [List.drop_left' rfl, List.drop_left' rfl]
  have hf : Spec.fields (u ++ [c, y, z]) = Spec.fields (u ++ [y, z]) := by
    unfold Spec.fields
    rw [hp, hk, ht _ 1 (by omega), ht _ 3 (by omega), ht _ 5 (by omega), ht _ 7 (by omega), ht _ 1 (by omega), ht _ 3 (by omega), ht _ 5 (by omega), ht _ 7 (by omega)]
  have hh : ∀ w : Str, (u ++ w).head? = u.head? := by
    intro w
    cases u with
    | nil => simp at h9
    | cons a u => rfl
  have hm : Malformed (u ++ [c, y, z]) ↔ Malformed (u ++ [y, z]) := by
    unfold Malformed
    rw [hh, hh, ht _ 7 (by omega), ht _ 7 (by omega)]
    simp only [List.length_append, List.length_cons, List.length_nil]
    constructor
    · rintro ⟨_, h | ⟨h, hlt⟩⟩
      · exact ⟨by omega, .inl h⟩
      · exact ⟨by omega, .inr ⟨h, by omega⟩⟩
    · rintro ⟨_, h | ⟨h, hlt⟩⟩
      · exact ⟨by omega, .inl h⟩
      · exact ⟨by omega, .inr ⟨h, by omega⟩⟩
  have h1 : decide (11 ≤ (u ++ [c, y, z]).length) = decide (11 ≤ (u ++ [y, z]).length) := by
    simp only [List.length_append, List.length_cons, List.length_nil]
    rw [decide_eq_decide]
    omega
  have hb : ∀ s : Str, lineBytes s (u ++ [c, y, z]) = lineBytes s (u ++ [y, z]) := by
    intro s
    unfold lineBytes
    rw [hp, h4, h4]
  unfold said
  have hT : ∀ w, typeText (u ++ w) = (u.drop 7).take 2 := fun w => ht w 7 (by omega)
  simp only [h1, hm, hT, hb, LineSumOk, hf]
  congr 1
  split
  · next h =>
    have h13 := hu h
    unfold upperText
    rw [List.drop_append_of_le_length h9, List.drop_append_of_le_length h9, List.take_append_of_le_length (by rw [List.length_drop]; omega),
      List.take_append_of_le_length (by rw [List.length_drop]; omega)]
  · rfl

/-- **C110 fails everywhere:** in any file, whatever its outcome, any character can be written before the checksum of any line without any effect on
the outcome, on any number of CPUs and for all schedules. (A segment line must have its two bytes.) -/
theorem C110_ihex_ignored {n : Nat} (hn : 0 < n) {lines : List Str} {j : Nat} {u : Str} {y z : Char} (hj : lines[j]? = some (u ++ [y, z]))
    (h9 : 9 ≤ u.length) (hodd : u.length % 2 = 1) (hu : (u.drop 7).take 2 = ['0', '4'] → 13 ≤ u.length) (c : Char) {s s' : List Nat} {o o' : Outcome}
    (h : parseHex n s lines = some (some o)) (h' : parseHex n s' (lines.set j (u ++ [c, y, z])) = some (some o')) : o' = o := by
  refine Said.same hn ?_ h' h
  rw [List.map_set, said_stray h9 hodd hu]
  congr 1
  obtain ⟨hlt, he⟩ := List.getElem?_eq_some_iff.1 hj
  rw [← he, ← List.getElem_map said (h := by simpa using hlt)]
  exact List.set_getElem_self _

-- `u` of a data line, the file with and without a stray character, and with one at another place
example : ":010010000A".toList.length = 11 ∧ ":010010000AE5".toList = ":010010000A".toList ++ ['E', '5'] ∧ (":010010000A".toList.drop 7).take 2 = ['0', '0'] ∧
    (∀ l ∈ [":010010000A?E5".toList, ":00000001FF".toList], ¬ Malformed l) := by decide +kernel
example : Reloc.look (parseHex 1 (List.replicate 9 0) [":010010000AE5".toList, ":00000001FF".toList]) 16 17 = some (true, some 10, none) ∧
    Reloc.look (parseHex 1 (List.replicate 9 0) [":010010000A?E5".toList, ":00000001FF".toList]) 16 17 = some (true, some 10, none) ∧
    Reloc.look (parseHex 1 (List.replicate 9 0) [":0100100?00AE5".toList, ":00000001FF".toList]) 16 17 = some (false, none, none) := by decide +kernel

/-- C110 is false of Intel HEX. -/
theorem C110_ihex_false : ¬ C110_ihex_full := by
  intro hf
  have hr : Reloc.look (parseHex 1 (List.replicate 9 0) [":010010000A?E5".toList]) 16 17 = some (true, some 10, none) := by decide +kernel
  cases hp : parseHex 1 (List.replicate 9 0) [":010010000A?E5".toList] with
  | none => rw [hp] at hr; cases hr
  | some x =>
    cases x with
    | none => rw [hp] at hr; cases hr
    | some o =>
      rw [hp] at hr
      have he : o.err = none := by
        have : o.err.isNone = true := congrArg Prod.fst (Option.some.inj hr)
        exact Option.isNone_iff_eq_none.1 this
      exact absurd (hf 1 (by decide) _ (by decide +kernel) _ o hp he ":010010000A?E5".toList (by decide +kernel) 11 '?' (by decide +kernel) (by decide))
        (by decide)

end Verif.Ihex.Stray

namespace Verif.Srec.Stray
open Verif.Go Verif.Hex.Spec Spec Verif.Hex.Stray
open Verif.Ihex.Spec (significant payloadPairs)
open Verif.Ihex (Outcome)

/-- C110 for S19 as stated: in an accepted file without unreadable lines all characters behind `S3` are digits. -/
def C110_srec_full : Prop := ∀ (n : Nat), 0 < n → ∀ (lines : List Str), (∀ l ∈ lines, ¬ Malformed l) → ∀ (o : Outcome),
  parseHex n lines = some o → o.err = none → ∀ l ∈ significant lines, ∀ i c, l[i]? = some c → 2 ≤ i → Digit c

theorem digits {l : Str} (h12 : 12 ≤ l.length) (h : LineSumOk l) {i : Nat} {c : Char} (hi : l[i]? = some c) (h0 : 2 ≤ i)
    (h3 : i + 3 = l.length → l.length % 2 = 0) : Digit c := by
  obtain ⟨bs, hb, _⟩ := h
  have key : ∀ f ∈ Spec.fields l, c ∈ f → Digit c := by
    intro f hf hc
    cases hs : specByte f with
    | none => rw [Hex.Ends.mapM_pair_none hf hs] at hb; cases hb
    | some b => exact specByte_digits hs c hc
  have hlt : i < l.length := (List.getElem?_eq_some_iff.1 hi).1
  unfold Spec.fields at key
  by_cases a1 : i < 4
  · exact key _ (by simp) (mem_two hi (k := 2) (by omega) (by omega))
  by_cases a2 : i < 6
  · exact key ((l.drop 4).take 2) (by simp) (mem_two hi (by omega) (by omega))
  by_cases a3 : i < 8
  · exact key ((l.drop 6).take 2) (by simp) (mem_two hi (by omega) (by omega))
  by_cases a4 : i < 10
  · exact key ((l.drop 8).take 2) (by simp) (mem_two hi (by omega) (by omega))
  by_cases a6 : i < 12
  · exact key ((l.drop 10).take 2) (by simp) (mem_two hi (by omega) (by omega))
  by_cases a5 : l.length - 2 ≤ i
  · exact key (l.drop (l.length - 2)) (by simp) (mem_drop hi a5)
  · refine key ((l.drop (12 + 2 * ((i - 12) / 2))).take 2) ?_ (mem_two hi (by omega) (by omega))
    rw [List.mem_append, List.mem_append, ← List.drop_drop]
    refine .inl (.inr (payload_pair _ _ ?_))
    rw [List.length_drop]
    omega

/-- C110 for S19. Missing: the third character from the end of a line of odd length. -/
theorem C110_srec_partial {n : Nat} (hn : 0 < n) {lines : List Str} (hl : ∀ l ∈ lines, ¬ Malformed l) {o : Outcome}
    (h : parseHex n lines = some o) (he : o.err = none) : ∀ l ∈ significant lines, ∀ i c, l[i]? = some c → 2 ≤ i →
    (i + 3 = l.length → l.length % 2 = 0) → Digit c := by
  intro l hm i c hi h0 h3
  obtain ⟨hm', hlen⟩ := List.mem_filter.1 (show l ∈ lines.filter _ from hm)
  have h12 : 12 ≤ l.length := by
    refine Decidable.byContradiction fun hc => hl l hm' ⟨by simpa using hlen, fun hh => hc hh.2⟩
  by_cases hs : LineSumOk l
  · exact digits h12 hs hi h0 h3
  · obtain ⟨o', ho', h1, _⟩ := C77_srec hn lines
    obtain rfl := Option.some.inj (ho'.symm.trans h)
    have := (h1 ⟨l, by rw [recognised_eq hn hl]; exact hm, hs⟩).1
    rw [this] at he
    cases he

theorem said_stray {u : Str} {c y z : Char} (h12 : 12 ≤ u.length) (heven : u.length % 2 = 0) : said (u ++ [c, y, z]) = said (u ++ [y, z]) := by
  have hp : payloadPairs ((u ++ [c, y, z]).drop 12) = payloadPairs ((u ++ [y, z]).drop 12) := by
    rw [List.drop_append_of_le_length h12, List.drop_append_of_le_length h12]
    exact payload_stray c y z ((u.length - 12) / 2) _ (by rw [List.length_drop]; omega)
  have ht : ∀ (w : Str) (a b : Nat), a + b ≤ 12 → ((u ++ w).drop a).take b = (u.drop a).take b := by
    intro w a b ha
    rw [List.drop_append_of_le_length (by omega), List.take_append_of_le_length (by rw [List.length_drop]; omega)]
  have hk : (u ++ [c, y, z]).drop ((u ++ [c, y, z]).length - 2) = (u ++ [y, z]).drop ((u ++ [y, z]).length - 2) := by
    have e : u ++ [c, y, z] = (u ++ [c]) ++ [y, z] := by simp
    rw [e]
    simp only [List.length_append (as := u ++ [c]), List.length_append (bs := [y, z]), List.length_cons, List.length_nil, Nat.add_sub_cancel]
    rw [List.drop_left' rfl, List.drop_left' rfl]
  have hT : ∀ w : Str, (u ++ w).take 2 = u.take 2 := fun w => List.take_append_of_le_length (by omega)
  unfold said Malformed LineSumOk Spec.fields Spec.lineBytes
  simp only [hp, hk, hT, ht _ 2 2 (by omega), ht _ 4 2 (by omega), ht _ 6 2 (by omega), ht _ 8 2 (by omega), ht _ 10 2 (by omega), ht _ 4 4 (by omega),
    ht _ 8 4 (by omega), List.length_append, List.length_cons, List.length_nil]
  congr 1
  · rw [decide_eq_decide]; omega
  · rw [decide_eq_decide]
    have h1 : 11 ≤ u.length + (0 + 1 + 1 + 1) := by omega
    have h2 : 11 ≤ u.length + (0 + 1 + 1) := by omega
    have h3 : 12 ≤ u.length + (0 + 1 + 1 + 1) := by omega
    have h4 : 12 ≤ u.length + (0 + 1 + 1) := by omega
    simp only [h1, h2, h3, h4]
  · simp only [List.length_append, List.length_cons, List.length_nil] at hk
    rw [hk]

/-- **C110 fails everywhere in S19 files too.** -/
theorem C110_srec_ignored {n : Nat} (hn : 0 < n) {lines : List Str} {j : Nat} {u : Str} {y z : Char} (hj : lines[j]? = some (u ++ [y, z]))
    (h12 : 12 ≤ u.length) (heven : u.length % 2 = 0) (c : Char) : parseHex n (lines.set j (u ++ [c, y, z])) = parseHex n lines := by
  refine Said.same hn ?_
  rw [Said.seen_eq, Said.seen_eq, List.map_set, said_stray h12 heven]
  congr 1
  obtain ⟨hlt, he⟩ := List.getElem?_eq_some_iff.1 hj
  rw [← he, ← List.getElem_map said (h := by simpa using hlt)]
  exact List.set_getElem_self _

example : "S306000000100A".toList.length = 14 ∧ "S306000000100ADF".toList = "S306000000100A".toList ++ ['D', 'F'] ∧
    ((parseHex 1 ["S306000000100A?DF".toList]).map fun o => (o.err.isNone, o.map 16)) = some (true, some 10) ∧
    ((parseHex 1 ["S30600000010?0ADF".toList]).map fun o => (o.err.isNone, o.map 16)) = some (false, none) ∧
    ¬ Malformed "S306000000100A?DF".toList := by decide +kernel

/-- C110 is false of S19. -/
theorem C110_srec_false : ¬ C110_srec_full := by
  intro hf
  have hr : ((parseHex 1 ["S306000000100A?DF".toList]).map fun o => o.err.isNone) = some true := by decide +kernel
  cases hp : parseHex 1 ["S306000000100A?DF".toList] with
  | none => rw [hp] at hr; cases hr
  | some o =>
    rw [hp] at hr
    have he : o.err = none := Option.isNone_iff_eq_none.1 (Option.some.inj hr)
    exact absurd (hf 1 (by decide) _ (by decide +kernel) o hp he "S306000000100A?DF".toList (by decide +kernel) 14 '?' (by decide +kernel) (by decide))
      (by decide)

end Verif.Srec.Stray
