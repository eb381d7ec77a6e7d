import Verif.Ihex.TextProps
import Verif.Ihex.IffProps

/-!
Properties C12 and C07: what has no influence on the result. The declared number of bytes of a line can be changed to any other, with
the checksum that belongs to it, without any effect (C12); and the lines behind an unreadable line in the share of a worker can be
changed to anything (C07).
-/

namespace Verif.Ihex
open Verif.Go Verif.Hex.Spec Spec

/-- All that the result takes from a line. -/
structure Said where
  long : Bool
  bad : Bool
  typ : Str
  upper : Str
  bytes : Str → List (Nat × Nat)
  sum : Prop

def said (l : Str) : Said :=
  ⟨decide (11 ≤ l.length), decide (Malformed l), typeText l, if typeText l = ['0', '4'] then upperText l else [], fun s => lineBytes s l,
    LineSumOk l⟩

namespace Said

def part {α : Type} (n : Nat) (L : List α) (i : Nat) : List α :=
  if i + 1 = n then L.drop (L.length / n * i) else (L.drop (L.length / n * i)).take (L.length / n)

theorem part_map {α β : Type} (f : α → β) (n : Nat) (L : List α) (i : Nat) : (part n L i).map f = part n (L.map f) i := by
  unfold part
  split <;> simp

def seen (n : Nat) (L : List Said) : List Said :=
  (List.range n).flatMap fun i => ((part n L i).takeWhile fun k => !k.bad).filter fun k => k.long

theorem seen_eq (n : Nat) (lines : List Str) : (recognised n lines).map said = seen n (lines.map said) := by
  unfold recognised seen
  rw [List.map_flatMap]
  congr 1
  funext i
  rw [← part_map, List.takeWhile_map, List.filter_map]
  unfold significant
  congr 2
  show List.takeWhile _ (part n lines i) = _
  congr 1
  funext l
  simp [said]

def selected (L : List Said) (a i : Nat) : Option Str :=
  (((L.take i).drop a).filter (fun k => k.typ = ['0', '4'])).getLast?.map (·.upper)

theorem selected_eq (ls : List Str) (a i : Nat) : selectedText ls a i = selected (ls.map said) a i := by
  unfold selectedText selected
  rw [← List.map_take, ← List.map_drop, List.filter_map, List.getLast?_map, Option.map_map]
  show _ = Option.map _ (List.getLast? (List.filter (fun l => decide (typeText l = ['0', '4'])) _))
  cases h : (List.filter (fun l => decide (typeText l = ['0', '4'])) ((ls.take i).drop a)).getLast? with
  | none => rfl
  | some l =>
    have := (List.mem_filter.1 (List.mem_of_getLast? h)).2
    simp only [Option.map_some, Function.comp_apply, said, if_pos (of_decide_eq_true this)]

theorem arrives_eq (ls : List Str) (a i : Nat) : ArrivesText ls a i ↔ (selected (ls.map said) a i).isSome = true ∧
    ∀ b, b < i → (ls.map said)[b]?.map (·.typ) = some ['0', '0'] → selected (ls.map said) a b ≠ some ['0', '0', '0', '0'] := by
  unfold ArrivesText
  simp only [selected_eq, List.getElem?_map, Option.map_map]
  rfl

theorem linesBytes_eq {ls ls' : List Str} (h : ls.map said = ls'.map said) (starts : List Nat) : linesBytes starts ls = linesBytes starts ls' := by
  have hu : ∀ i, usedText starts ls i = usedText starts ls' i := by
    intro i
    unfold usedText
    simp only [selected_eq, arrives_eq, h]
  have hl : ls.zipIdx.map (fun p => (said p.1, p.2)) = ls'.zipIdx.map (fun p => (said p.1, p.2)) := by
    have := congrArg List.zipIdx h
    rw [List.zipIdx_map, List.zipIdx_map] at this
    exact this
  have hf : ∀ xs : List Str, linesBytes starts xs = (xs.zipIdx.map (fun p => (said p.1, p.2))).flatMap
      fun p => if p.1.typ = ['0', '0'] then p.1.bytes (usedText starts xs p.2) else [] := by
    intro xs
    unfold linesBytes
    rw [List.flatMap_map]
    rfl
  rw [hf, hf, hl]
  simp only [hu]

/-- Files whose lines say the same have the same result. -/
theorem same {n : Nat} (hn : 0 < n) {lines lines' : List Str} (h : seen n (lines.map said) = seen n (lines'.map said)) {sched sched' : List Nat}
    {o o' : Outcome} (ho : parseHex n sched lines = some (some o)) (ho' : parseHex n sched' lines' = some (some o')) : o = o' := by
  rw [← seen_eq, ← seen_eq] at h
  have hs : ∀ xs : List Str, (∀ l ∈ recognised n xs, LineSumOk l) ↔ ∀ k ∈ (recognised n xs).map said, k.sum := by
    intro xs
    simp only [List.mem_map, forall_exists_index, and_imp, forall_apply_eq_imp_iff₂]
    rfl
  refine C77_same hn hn ho ho' ?_ ?_
  · rw [hs, hs, h]
  · unfold textBytes
    rw [linesBytes_eq h]
    have := congrArg List.length h
    simp only [List.length_map] at this
    rw [this]

end Said

/-! ## C12 -/

theorem payloadPairs_end (y z y' z' : Char) : ∀ u : Str, payloadPairs (u ++ [y, z]) = payloadPairs (u ++ [y', z'])
  | [] => rfl
  | [_] => rfl
  | a :: b :: u => by
    have ih := payloadPairs_end y z y' z' u
    match u, ih with
    | [], _ => rfl
    | [_], _ => rfl
    | _ :: _ :: _, ih =>
      simp only [List.cons_append, payloadPairs] at ih ⊢
      rw [ih]

/-- The pairs a line is made of, without the first and the last. -/
def inner (mid : Str) : List Str := [mid.take 2, (mid.drop 2).take 2, (mid.drop 4).take 2] ++ payloadPairs (mid.drop 6 ++ ['0', '0'])

theorem fields_line {a b y z : Char} {mid : Str} (h6 : 6 ≤ mid.length) :
    fields (':' :: a :: b :: (mid ++ [y, z])) = [a, b] :: (inner mid ++ [[y, z]]) := by
  unfold fields inner
  have h1 : (':' :: a :: b :: (mid ++ [y, z])).length - 2 = mid.length + 3 := by simp
  rw [h1]
  simp only [List.drop_succ_cons, List.drop_zero, List.take_succ_cons, List.take_zero, List.drop_append, List.drop_length, Nat.sub_self,
    List.nil_append]
  rw [show 2 - List.length mid = 0 by omega, show 4 - List.length mid = 0 by omega, show 6 - List.length mid = 0 by omega, Nat.zero_sub]
  simp only [List.drop_zero]
  rw [payloadPairs_end y z '0' '0', List.take_append_of_le_length (by omega), List.take_append_of_le_length (by simp only [List.length_drop]; omega), List.take_append_of_le_length (by simp only [List.length_drop]; omega)]
  rfl

theorem said_line {a b y z a' b' y' z' : Char} {mid : Str} (h6 : 6 ≤ mid.length) (hu : (mid.drop 4).take 2 = ['0', '4'] → 10 ≤ mid.length)
    (hs : LineSumOk (':' :: a :: b :: (mid ++ [y, z])) ↔ LineSumOk (':' :: a' :: b' :: (mid ++ [y', z']))) :
    said (':' :: a :: b :: (mid ++ [y, z])) = said (':' :: a' :: b' :: (mid ++ [y', z'])) := by
  have ht : ∀ a b y z : Char, typeText (':' :: a :: b :: (mid ++ [y, z])) = (mid.drop 4).take 2 := by
    intro a b y z
    unfold typeText
    simp only [List.drop_succ_cons]
    rw [List.drop_append_of_le_length (by omega), List.take_append_of_le_length (by simp only [List.length_drop]; omega)]
  have hup : (mid.drop 4).take 2 = ['0', '4'] → ∀ a b y z : Char, upperText (':' :: a :: b :: (mid ++ [y, z])) = (mid.drop 6).take 4 := by
    intro h a b y z
    have := hu h
    unfold upperText
    simp only [List.drop_succ_cons]
    rw [List.drop_append_of_le_length (by omega), List.take_append_of_le_length (by simp only [List.length_drop]; omega)]
  have hb : ∀ (s : Str) (a b y z : Char), lineBytes s (':' :: a :: b :: (mid ++ [y, z])) =
      lineBytes s (':' :: '0' :: '0' :: (mid ++ ['0', '0'])) := by
    intro s a b y z
    unfold lineBytes
    simp only [List.drop_succ_cons, List.drop_zero]
    rw [List.take_append_of_le_length (by omega), List.take_append_of_le_length (by omega), List.drop_append_of_le_length (by omega),
      List.drop_append_of_le_length (by omega), payloadPairs_end y z '0' '0']
  have hm : ∀ a b y z : Char, Malformed (':' :: a :: b :: (mid ++ [y, z])) ↔ Malformed (':' :: '0' :: '0' :: (mid ++ ['0', '0'])) := by
    intro a b y z
    have h1 := ht a b y z
    have h2 := ht '0' '0' '0' '0'
    unfold typeText at h1 h2
    unfold Malformed
    rw [h1, h2]
    simp
  unfold said
  simp only [ht, hb _ a b y z, hb _ a' b' y' z', hm a b y z, hm a' b' y' z', List.length_cons, List.length_append, List.length_nil, hs]
  split
  · next h => rw [hup h, hup h]
  · rfl

theorem sum_line {a b y z : Char} {mid : Str} (h6 : 6 ≤ mid.length) : LineSumOk (':' :: a :: b :: (mid ++ [y, z])) ↔
    ∃ c fs k, specByte [a, b] = some c ∧ (inner mid).mapM specByte = some fs ∧ specByte [y, z] = some k ∧ (c + fs.sum + k) % 256 = 0 := by
  unfold LineSumOk
  rw [fields_line h6]
  simp only [List.mapM_cons, List.mapM_append, List.mapM_nil, Option.bind_eq_bind, Option.pure_def]
  constructor
  · rintro ⟨bs, h, hz⟩
    cases h1 : specByte [a, b] with
    | none => simp [h1] at h
    | some c =>
      cases h2 : (inner mid).mapM specByte with
      | none => simp [h1, h2] at h
      | some fs =>
        cases h3 : specByte [y, z] with
        | none => simp [h1, h2, h3] at h
        | some k =>
          simp [h1, h2, h3] at h
          subst h
          refine ⟨c, fs, k, rfl, rfl, rfl, ?_⟩
          simp only [List.sum_cons, List.sum_append, List.sum_nil] at hz
          omega
  · rintro ⟨c, fs, k, h1, h2, h3, hz⟩
    refine ⟨c :: (fs ++ [k]), by simp [h1, h2, h3], ?_⟩
    simp only [List.sum_cons, List.sum_append, List.sum_nil]
    omega

/-- **C12 fails everywhere:** in any file, whatever its outcome, the declared number of bytes of any line can be changed to any other
number, with the checksum that belongs to it, without any effect on the outcome. (Of a segment line it must have its two bytes.) -/
theorem C12_ihex_everywhere {n : Nat} (hn : 0 < n) {lines : List Str} {j : Nat} {a b : Char} {mid : Str} {y z : Char}
    (hj : lines[j]? = some (':' :: a :: b :: (mid ++ [y, z]))) (h6 : 6 ≤ mid.length)
    (hu : (mid.drop 4).take 2 = ['0', '4'] → 10 ≤ mid.length) {count : Nat} (hc : count < 256) :
    ∃ y' z', ∀ sched sched' o o', parseHex n sched lines = some (some o) →
      parseHex n sched' (lines.set j (':' :: (printByte .upper count ++ (mid ++ [y', z'])))) = some (some o') → o' = o := by
  have key : ∃ y' z', LineSumOk (':' :: (printByte .upper count ++ (mid ++ [y', z']))) ↔ LineSumOk (':' :: a :: b :: (mid ++ [y, z])) := by
    have hp := specByte_printByte .upper hc
    unfold printByte at hp ⊢
    by_cases hs : LineSumOk (':' :: a :: b :: (mid ++ [y, z]))
    · obtain ⟨c, fs, k, _, h2, _, _⟩ := (sum_line h6).1 hs
      have hq := specByte_printByte .upper (show (256 - (count + fs.sum) % 256) % 256 < 256 from Nat.mod_lt _ (by decide))
      unfold printByte at hq
      refine ⟨_, _, fun _ => hs, fun _ => (sum_line h6).2 ⟨count, fs, _, hp, h2, hq, ?_⟩⟩
      omega
    · refine ⟨'?', '?', fun h => ?_, fun h => absurd h hs⟩
      obtain ⟨_, _, _, _, _, h3, _⟩ := (sum_line h6).1 h
      exact absurd h3 (by simp [show specByte ['?', '?'] = none by decide])
  obtain ⟨y', z', hk⟩ := key
  refine ⟨y', z', fun sched sched' o o' ho ho' => Said.same hn ?_ ho' ho⟩
  have : said (':' :: (printByte .upper count ++ (mid ++ [y', z']))) = said (':' :: a :: b :: (mid ++ [y, z])) := said_line h6 hu hk
  rw [List.map_set, this]
  congr 1
  have hl := (List.getElem?_eq_some_iff.1 hj)
  obtain ⟨hlt, he⟩ := hl
  apply List.ext_getElem?
  intro i
  rw [List.getElem?_set]
  split
  · next h =>
    subst h
    rw [if_pos (by simpa using hlt), List.getElem?_map, hj]
    rfl
  · rfl

/-! ## C07 -/

theorem takeWhile_set_after {α : Type} {p : α → Bool} (x : α) {l : List α} {k j : Nat} (hkj : k < j) {y : α} (hk : l[k]? = some y)
    (hy : p y = false) : (l.set j x).takeWhile p = l.takeWhile p := by
  induction l generalizing k j with
  | nil => rfl
  | cons w l ih =>
    obtain ⟨j, rfl⟩ : ∃ j', j = j' + 1 := ⟨j - 1, by omega⟩
    rw [List.set_cons_succ, List.takeWhile_cons, List.takeWhile_cons]
    cases k with
    | zero =>
      obtain rfl := Option.some.inj hk
      rw [hy]
      rfl
    | succ k => rw [ih (k := k) (by omega) (by simpa using hk)]

/-- What a worker keeps does not depend on the lines behind the first one at which it stops. -/
theorem kept_set {p : Str → Bool} {n : Nat} {lines : List Str} {i k j : Nat} {l : Str} (hi : i < n) (h1 : lines.length / n * i ≤ k) (hkj : k < j)
    (h2 : j < lines.length / n * i + lines.length / n ∨ i + 1 = n) (hk : lines[k]? = some l) (hl : p l = false) (x : Str) :
    ((List.range n).flatMap fun i => significant ((workerLines n (lines.set j x) i).takeWhile p)) =
      (List.range n).flatMap fun i => significant ((workerLines n lines i).takeWhile p) := by
  rw [List.flatMap_def, List.flatMap_def]
  congr 1
  apply List.map_congr_left
  intro i' hi'
  have hi' := List.mem_range.1 hi'
  congr 1
  by_cases he : i' = i
  · subst he
    unfold workerLines
    rw [List.length_set, List.drop_set, if_neg (show ¬ j < lines.length / n * i' by omega)]
    split
    · exact takeWhile_set_after (p := p) x (k := k - lines.length / n * i') (y := l) (by omega)
        (by rw [List.getElem?_drop, Nat.add_sub_cancel' h1]; exact hk) hl
    · next hx =>
      have h2 := h2.resolve_right hx
      rw [List.take_set]
      exact takeWhile_set_after (p := p) x (k := k - lines.length / n * i') (y := l) (by omega)
        (by rw [List.getElem?_take, if_pos (by omega), List.getElem?_drop, Nat.add_sub_cancel' h1]; exact hk) hl
  · congr 1
    unfold workerLines
    rw [List.length_set, List.drop_set]
    split
    · next hx =>
      split
      · rfl
      · next hge =>
        have h3 : lines.length / n * (i + 1) ≤ lines.length / n * i' := Nat.mul_le_mul_left _ (by omega)
        rw [Nat.mul_succ] at h3
        omega
    · next hx =>
      split
      · rfl
      · next hge =>
        rw [List.take_set]
        apply List.set_eq_of_length_le
        rw [List.length_take]
        rcases Nat.lt_or_gt_of_ne he with hlt | hlt
        · have h3 : lines.length / n * (i' + 1) ≤ lines.length / n * i := Nat.mul_le_mul_left _ (by omega)
          rw [Nat.mul_succ] at h3
          omega
        · have h3 : lines.length / n * (i + 1) ≤ lines.length / n * i' := Nat.mul_le_mul_left _ (by omega)
          rw [Nat.mul_succ] at h3
          omega

/-- **C07, the lines that are lost:** a line that stands behind an unreadable one in the share of its worker has no influence on the
outcome at all; anything can stand there, also a valid data record. -/
theorem C07_lost {n : Nat} (hn : 0 < n) {lines : List Str} {i k j : Nat} {l : Str} (hi : i < n) (h1 : lines.length / n * i ≤ k) (hkj : k < j)
    (h2 : j < lines.length / n * i + lines.length / n ∨ i + 1 = n) (hk : lines[k]? = some l) (hl : Malformed l) (x : Str)
    {sched sched' : List Nat} {o o' : Outcome} (ho : parseHex n sched lines = some (some o))
    (ho' : parseHex n sched' (lines.set j x) = some (some o')) : o' = o := by
  have hr : recognised n (lines.set j x) = recognised n lines := kept_set hi h1 hkj h2 hk (by simpa using hl) x
  refine C77_same hn hn ho' ho ?_ ?_
  · rw [hr]
  · unfold textBytes
    rw [hr]

-- a data line that declares 1 byte, with 05 and the checksum for it; and an unreadable line before a data line
example : [":0100000007F8".toList][0]? = some (':' :: '0' :: '1' :: ("00000007".toList ++ ['F', '8'])) ∧ 6 ≤ "00000007".toList.length ∧
    LineSumOk ":0500000007F4".toList :=
  ⟨rfl, by decide, [5, 0, 0, 0, 7, 244], by decide +kernel, by decide⟩
example : Malformed "this is not a record".toList ∧ ["this is not a record".toList, ":0100000007F8".toList][0]? =
    some "this is not a record".toList := ⟨by decide +kernel, rfl⟩

end Verif.Ihex
