import Verif.Srec.TextProps
import Verif.Ihex.CountProps

/-!
C12 and C62 for S19: the declared number of bytes of a line has no effect, and neither have the lines behind a line that is not an S3
record in the share of a worker.
-/

namespace Verif.Srec
open Verif.Go Verif.Hex.Spec Verif.Srec.Spec
open Verif.Ihex (Outcome)
open Verif.Ihex.Spec (payloadPairs significant workerLines)

/-- All that the result takes from a line. -/
structure Said where
  long : Bool
  bad : Bool
  bytes : List (Nat × Nat)
  sum : Prop

def said (l : Str) : Said := ⟨decide (11 ≤ l.length), decide (Malformed l), Spec.lineBytes l, LineSumOk l⟩

namespace Said

def seen (n : Nat) (L : List Said) : List Said :=
  (List.range n).flatMap fun i => ((Ihex.Said.part n L i).takeWhile fun k => !k.bad).filter fun k => k.long

theorem seen_eq (n : Nat) (lines : List Str) : (recognised n lines).map said = seen n (lines.map said) := by
  unfold recognised seen
  rw [List.map_flatMap]
  congr 1
  funext i
  rw [← Ihex.Said.part_map, List.takeWhile_map, List.filter_map]
  unfold significant
  congr 2
  show List.takeWhile _ (Ihex.Said.part n lines i) = _
  congr 1
  funext l
  simp [said]

/-- Files whose lines say the same have the same result. -/
theorem same {n : Nat} (hn : 0 < n) {lines lines' : List Str} (h : (recognised n lines).map said = (recognised n lines').map said) :
    parseHex n lines = parseHex n lines' := by
  have hs : ∀ xs : List Str, (∀ l ∈ recognised n xs, LineSumOk l) ↔ ∀ k ∈ (recognised n xs).map said, k.sum := by
    intro xs
    simp only [List.mem_map, forall_exists_index, and_imp, forall_apply_eq_imp_iff₂]
    rfl
  have hs : (∀ l ∈ recognised n lines, LineSumOk l) ↔ ∀ l ∈ recognised n lines', LineSumOk l := by rw [hs, hs, h]
  have hb : Spec.textBytes n lines = Spec.textBytes n lines' := by
    have : ∀ xs : List Str, Spec.textBytes n xs = ((recognised n xs).map said).flatMap (·.bytes) := by
      intro xs
      rw [List.flatMap_map]
      rfl
    rw [this, this, h]
  obtain ⟨o, ho, a1, a2⟩ := C77_srec hn lines
  obtain ⟨o', ho', b1, b2⟩ := C77_srec hn lines'
  rw [ho, ho']
  congr 1
  by_cases hall : ∀ l ∈ recognised n lines, LineSumOk l
  · obtain ⟨a3, a4⟩ := a2 hall
    obtain ⟨b3, b4⟩ := b2 (hs.mp hall)
    rw [← hb] at b3 b4
    rcases Ihex.clash_or (Spec.textBytes n lines) with hnd | ⟨pre, a, v, w, hc⟩
    · exact Ihex.outcome_eq ((a3 hnd).1.trans (b3 hnd).1.symm) (a3 hnd).2 (b3 hnd).2
    · exact Ihex.outcome_eq ((a4 _ _ _ _ hc).1.trans (b4 _ _ _ _ hc).1.symm) (a4 _ _ _ _ hc).2 (b4 _ _ _ _ hc).2
  · have hall' : ¬ ∀ l ∈ recognised n lines', LineSumOk l := fun hh => hall (hs.mpr hh)
    simp only [Classical.not_forall, ← exists_prop] at hall hall'
    obtain ⟨a3, a4⟩ := a1 (by simpa only [exists_prop] using hall)
    obtain ⟨b3, b4⟩ := b1 (by simpa only [exists_prop] using hall')
    exact Ihex.outcome_eq (ps := []) (a3.trans b3.symm) (by simp [a4]) (by simp [b4])

end Said

/-- The pairs a line is made of, without the first and the last. -/
def inner (mid : Str) : List Str :=
  [mid.take 2, (mid.drop 2).take 2, (mid.drop 4).take 2, (mid.drop 6).take 2] ++ payloadPairs (mid.drop 8 ++ ['0', '0'])

theorem fields_line {a b y z : Char} {mid : Str} (h8 : 8 ≤ mid.length) :
    fields ('S' :: '3' :: a :: b :: (mid ++ [y, z])) = [a, b] :: (inner mid ++ [[y, z]]) := by
  unfold fields inner
  have h1 : ('S' :: '3' :: a :: b :: (mid ++ [y, z])).length - 2 = mid.length + 4 := by simp
  rw [h1]
  simp only [List.drop_succ_cons, List.drop_zero, List.take_succ_cons, List.take_zero, List.drop_append, List.drop_length, Nat.sub_self,
    List.nil_append]
  rw [show 2 - List.length mid = 0 by omega, show 4 - List.length mid = 0 by omega, show 6 - List.length mid = 0 by omega,
    show 8 - List.length mid = 0 by omega, Nat.zero_sub]
  simp only [List.drop_zero]
  rw [Ihex.payloadPairs_end y z '0' '0', List.take_append_of_le_length (by omega),
    List.take_append_of_le_length (by simp only [List.length_drop]; omega), List.take_append_of_le_length (by simp only [List.length_drop]; omega),
    List.take_append_of_le_length (by simp only [List.length_drop]; omega)]
  rfl

theorem said_line {a b y z a' b' y' z' : Char} {mid : Str} (h8 : 8 ≤ mid.length)
    (hs : LineSumOk ('S' :: '3' :: a :: b :: (mid ++ [y, z])) ↔ LineSumOk ('S' :: '3' :: a' :: b' :: (mid ++ [y', z']))) :
    said ('S' :: '3' :: a :: b :: (mid ++ [y, z])) = said ('S' :: '3' :: a' :: b' :: (mid ++ [y', z'])) := by
  have hb : ∀ a b y z : Char, Spec.lineBytes ('S' :: '3' :: a :: b :: (mid ++ [y, z])) =
      Spec.lineBytes ('S' :: '3' :: '0' :: '0' :: (mid ++ ['0', '0'])) := by
    intro a b y z
    unfold Spec.lineBytes
    simp only [List.drop_succ_cons, List.drop_zero]
    rw [List.take_append_of_le_length (by omega), List.take_append_of_le_length (by omega), List.drop_append_of_le_length (by omega),
      List.drop_append_of_le_length (by omega), List.drop_append_of_le_length (by omega), List.drop_append_of_le_length (by omega),
      List.take_append_of_le_length (by simp only [List.length_drop]; omega), List.take_append_of_le_length (by simp only [List.length_drop]; omega),
      Ihex.payloadPairs_end y z '0' '0']
  unfold said Malformed
  simp only [hb a b y z, hb a' b' y' z', List.length_cons, List.length_append, List.length_nil, hs, List.take_succ_cons, List.take_zero]

theorem sum_line {a b y z : Char} {mid : Str} (h8 : 8 ≤ mid.length) : LineSumOk ('S' :: '3' :: a :: b :: (mid ++ [y, z])) ↔
    ∃ c fs k, specByte [a, b] = some c ∧ (inner mid).mapM specByte = some fs ∧ specByte [y, z] = some k ∧ (c + fs.sum + k) % 256 = 255 := by
  unfold LineSumOk
  rw [fields_line h8]
  simp only [List.mapM_cons, List.mapM_append, List.mapM_nil, Option.bind_eq_bind, Option.pure_def]
  constructor
  · rintro ⟨bs, h, hz⟩
    cases h1 : specByte [a, b] with
    | none => simp [h1] at h
    | some c =>
      cases h2 : (inner mid).mapM specByte with
      | none => simp [h1, h2] at h
      | some fs =>
        cases h3 : specByte [y, z] with
        | none => simp [h1, h2, h3] at h
        | some k =>
          simp [h1, h2, h3] at h
          subst h
          refine ⟨c, fs, k, rfl, rfl, rfl, ?_⟩
          simp only [List.sum_cons, List.sum_append, List.sum_nil] at hz
          omega
  · rintro ⟨c, fs, k, h1, h2, h3, hz⟩
    refine ⟨c :: (fs ++ [k]), by simp [h1, h2, h3], ?_⟩
    simp only [List.sum_cons, List.sum_append, List.sum_nil]
    omega

/-- **C12 fails everywhere in S19 files too:** in any file, whatever its outcome, the declared number of bytes of any S3 line can be
changed to any other number, with the checksum that belongs to it, without any effect on the outcome. -/
theorem C12_srec_everywhere {n : Nat} (hn : 0 < n) {lines : List Str} {j : Nat} {a b : Char} {mid : Str} {y z : Char}
    (hj : lines[j]? = some ('S' :: '3' :: a :: b :: (mid ++ [y, z]))) (h8 : 8 ≤ mid.length) {count : Nat} (hc : count < 256) :
    ∃ y' z', parseHex n (lines.set j ('S' :: '3' :: (printByte .upper count ++ (mid ++ [y', z'])))) = parseHex n lines := by
  have key : ∃ y' z', LineSumOk ('S' :: '3' :: (printByte .upper count ++ (mid ++ [y', z']))) ↔
      LineSumOk ('S' :: '3' :: a :: b :: (mid ++ [y, z])) := by
    have hp := Ihex.specByte_printByte .upper hc
    unfold printByte at hp ⊢
    by_cases hs : LineSumOk ('S' :: '3' :: a :: b :: (mid ++ [y, z]))
    · obtain ⟨c, fs, k, _, h2, _, _⟩ := (sum_line h8).1 hs
      have hq := Ihex.specByte_printByte .upper (show 255 - (count + fs.sum) % 256 < 256 by omega)
      unfold printByte at hq
      refine ⟨_, _, fun _ => hs, fun _ => (sum_line h8).2 ⟨count, fs, _, hp, h2, hq, ?_⟩⟩
      omega
    · refine ⟨'?', '?', fun h => ?_, fun h => absurd h hs⟩
      obtain ⟨_, _, _, _, _, h3, _⟩ := (sum_line h8).1 h
      exact absurd h3 (by simp [show specByte ['?', '?'] = none by decide])
  obtain ⟨y', z', hk⟩ := key
  refine ⟨y', z', Said.same hn ?_⟩
  rw [Said.seen_eq, Said.seen_eq]
  have : said ('S' :: '3' :: (printByte .upper count ++ (mid ++ [y', z']))) = said ('S' :: '3' :: a :: b :: (mid ++ [y, z])) := said_line h8 hk
  rw [List.map_set, this]
  congr 1
  obtain ⟨hlt, he⟩ := List.getElem?_eq_some_iff.1 hj
  apply List.ext_getElem?
  intro i
  rw [List.getElem?_set]
  split
  · next h =>
    subst h
    rw [if_pos (by simpa using hlt), List.getElem?_map, hj]
    rfl
  · rfl

/-- **C62, the lines that are lost:** a line behind one that is not an S3 record in the share of its worker has no influence on the
outcome at all, whatever it is. -/
theorem C62_srec_lost {n : Nat} (hn : 0 < n) {lines : List Str} {i k j : Nat} {l : Str} (hi : i < n) (h1 : lines.length / n * i ≤ k) (hkj : k < j)
    (h2 : j < lines.length / n * i + lines.length / n ∨ i + 1 = n) (hk : lines[k]? = some l) (hl : Malformed l) (x : Str) :
    parseHex n (lines.set j x) = parseHex n lines := by
  have hr : recognised n (lines.set j x) = recognised n lines := Ihex.kept_set hi h1 hkj h2 hk (by simpa using hl) x
  exact Said.same hn (by rw [hr])

-- a line that declares 6 bytes, with 9 and the checksum for it; and an S1 line, behind which nothing is read
example : ["S3060000000107F1".toList][0]? = some ('S' :: '3' :: '0' :: '6' :: ("0000000107".toList ++ ['F', '1'])) ∧
    8 ≤ "0000000107".toList.length ∧ LineSumOk "S3090000000107EE".toList :=
  ⟨rfl, by decide, [9, 0, 0, 0, 1, 7, 238], by decide +kernel, by decide⟩
example : Malformed "S1040001ABCDEF".toList := by decide +kernel

end Verif.Srec
