import Verif.Srec.Props
import Verif.Ihex.TextProps

/-!
C08 and C51: for every two different numbers of CPUs there is a file that gives different
results, in both hex formats.
-/

namespace Verif.Hex

open Verif.Go Verif.Ihex.Spec

/-- An unreadable line, blank lines, the line `d` at position `n` of `n * m` lines: it is in the share of the first of `n`
workers and in that of the second of `m` workers. -/
def splitLines (n m : Nat) (h d : Str) : List Str :=
  h :: (List.replicate (n - 1) [] ++ d :: List.replicate (n * m - n - 1) [])

theorem significant_blank (k : Nat) : significant (List.replicate k []) = [] := by
  simp [significant, List.filter_replicate]

theorem takeWhile_blank {p : Str → Bool} (hp : p [] = true) (k : Nat) :
    (List.replicate k []).takeWhile p = List.replicate k [] := by
  induction k with
  | zero => rfl
  | succ k ih => rw [List.replicate_succ, List.takeWhile_cons, hp, ih]; rfl

section
variable {n m : Nat} (hn : 0 < n) (hnm : n < m) {h d : Str} {p : Str → Bool}

include hn hnm

theorem prod_big : n * 2 ≤ n * m := Nat.mul_le_mul_left n (by omega)

theorem split_length : (splitLines n m h d).length = n * m := by
  have := prod_big hn hnm
  simp [splitLines]
  omega

theorem split_drop : (splitLines n m h d).drop n = d :: List.replicate (n * m - n - 1) [] := by
  unfold splitLines
  obtain ⟨k, rfl⟩ : ∃ k, n = k + 1 := ⟨n - 1, by omega⟩
  rw [List.drop_succ_cons, show k + 1 - 1 = k from rfl, List.drop_append, List.drop_eq_nil_of_le (by simp)]
  simp

theorem split_drop_more (j : Nat) :
    (splitLines n m h d).drop (n + 1 + j) = List.replicate (n * m - n - 1 - j) [] := by
  rw [show n + 1 + j = n + (1 + j) by omega, ← List.drop_drop, split_drop hn hnm, Nat.add_comm 1 j, List.drop_succ_cons,
    List.drop_replicate]

/-- A worker that starts behind the line `d` recognises nothing. -/
theorem share_behind (hp : p [] = true) {w : Nat} {i : Nat} (hi : n + 1 ≤ n * m / w * i) :
    significant ((workerLines w (splitLines n m h d) i).takeWhile p) = [] := by
  unfold workerLines
  rw [split_length hn hnm, show n * m / w * i = n + 1 + (n * m / w * i - (n + 1)) by omega, split_drop_more hn hnm]
  split
  · rw [takeWhile_blank hp, significant_blank]
  · rw [List.take_replicate, takeWhile_blank hp, significant_blank]

omit hn hnm in
/-- The first worker stops at once. -/
theorem share_first (hh : p h = false) {w : Nat} :
    significant ((workerLines w (splitLines n m h d) 0).takeWhile p) = [] := by
  unfold workerLines
  have hk : (∃ k, (splitLines n m h d).length / w = k + 1) ∨ (splitLines n m h d).length / w = 0 := by
    cases (splitLines n m h d).length / w with
    | zero => exact .inr rfl
    | succ k => exact .inl ⟨k, rfl⟩
  split
  · simp [splitLines, hh, significant]
  · rw [Nat.mul_zero, List.drop_zero]
    rcases hk with ⟨k, hk⟩ | hk
    · rw [hk]
      simp [splitLines, hh, significant]
    · rw [hk]
      simp [significant]

/-- On `n` CPUs nothing is recognised. -/
theorem recognised_none (hp : p [] = true) (hh : p h = false) :
    (List.range n).flatMap (fun i => significant ((workerLines n (splitLines n m h d) i).takeWhile p)) = [] := by
  have hq : n * m / n = m := Nat.mul_div_cancel_left m hn
  rw [List.flatMap_eq_nil_iff]
  intro i _
  by_cases h0 : i = 0
  · subst h0
    exact share_first hh
  · refine share_behind hn hnm hp ?_
    rw [hq]
    have := Nat.mul_le_mul_left m (show 1 ≤ i by omega)
    omega

/-- On `m` CPUs the line `d` is recognised. -/
theorem recognised_one (hp : p [] = true) (hh : p h = false) (hd : p d = true) (hl : 11 ≤ d.length) :
    (List.range m).flatMap (fun i => significant ((workerLines m (splitLines n m h d) i).takeWhile p)) = [d] := by
  have hq : n * m / m = n := Nat.mul_div_cancel n (by omega)
  obtain ⟨k, rfl⟩ : ∃ k, m = k + 2 := ⟨m - 2, by omega⟩
  rw [List.range_succ_eq_map, List.flatMap_cons, share_first hh, List.nil_append, List.range_succ_eq_map]
  simp only [List.map_cons, List.map_map, List.flatMap_cons, List.flatMap_map]
  have h2 : List.flatMap (fun i => significant ((workerLines (k + 2) (splitLines n (k + 2) h d) ((Nat.succ ∘ Nat.succ) i)).takeWhile p))
      (List.range k) = [] := by
    rw [List.flatMap_eq_nil_iff]
    intro i _
    refine share_behind hn hnm hp ?_
    rw [hq]
    have := Nat.mul_le_mul_left n (show 2 ≤ (Nat.succ ∘ Nat.succ) i by simp [Function.comp])
    omega
  rw [h2, List.append_nil]
  unfold workerLines
  rw [split_length hn hnm, hq, show n * Nat.succ 0 = n by simp, split_drop hn hnm]
  have hfin : ∀ j, significant ((d :: List.replicate j []).takeWhile p) = [d] := by
    intro j
    rw [List.takeWhile_cons, if_pos hd, takeWhile_blank hp]
    have := significant_blank j
    unfold significant at this ⊢
    rw [List.filter_cons_of_pos (by simpa using hl), this]
  split
  · exact hfin _
  · obtain ⟨j, hj⟩ : ∃ j, n = j + 1 := ⟨n - 1, by omega⟩
    rw [hj, List.take_succ_cons, List.take_replicate]
    exact hfin _

end

theorem one_line (starts : List Nat) : linesBytes starts [":0100000007F8".toList] = [(0, 7)] := by
  have hu : usedText starts [":0100000007F8".toList] 0 = ['0', '0', '0', '0'] := by
    unfold usedText
    rw [if_neg]
    rintro ⟨a, -, h, -⟩
    unfold selectedText at h
    rw [List.take_zero, List.drop_nil] at h
    cases h
  have h1 : linesBytes starts [":0100000007F8".toList] =
      (if typeText ":0100000007F8".toList = ['0', '0'] then
        lineBytes (usedText starts [":0100000007F8".toList] 0) ":0100000007F8".toList else []) ++ [] := rfl
  rw [h1, hu]
  decide +kernel

/-- C08 fails for every two numbers of CPUs: in a file of a comment line, blank lines and one data line, the data line is
lost on `n` CPUs and read on `m > n`, without an error in either case. -/
theorem C08_false_everywhere {n m : Nat} (hn : 0 < n) (hnm : n < m) {sched sched' : List Nat} {o o' : Ihex.Outcome}
    (h : Ihex.parseHex n sched (splitLines n m Ihex.commentLine ":0100000007F8".toList) = some (some o))
    (h' : Ihex.parseHex m sched' (splitLines n m Ihex.commentLine ":0100000007F8".toList) = some (some o')) :
    o.err = none ∧ o'.err = none ∧ (∀ a, o.map a = none) ∧ ∀ a v, o'.map a = some v ↔ a = 0 ∧ v = 7 := by
  have e1 : recognised n (splitLines n m Ihex.commentLine ":0100000007F8".toList) = [] :=
    recognised_none hn hnm (p := fun l => ¬ Malformed l) (by decide +kernel) (by decide +kernel)
  have e2 : recognised m (splitLines n m Ihex.commentLine ":0100000007F8".toList) = [":0100000007F8".toList] :=
    recognised_one hn hnm (p := fun l => ¬ Malformed l) (by decide +kernel) (by decide +kernel) (by decide +kernel) (by decide)
  obtain ⟨-, a2⟩ := Ihex.C77_ihex hn _ h
  obtain ⟨-, b2⟩ := Ihex.C77_ihex (by omega) _ h'
  have t1 : textBytes n (splitLines n m Ihex.commentLine ":0100000007F8".toList) = [] := by
    unfold textBytes
    rw [e1]
    rfl
  have t2 : textBytes m (splitLines n m Ihex.commentLine ":0100000007F8".toList) = [(0, 7)] := by
    unfold textBytes
    rw [e2]
    exact one_line _
  rw [e1, t1] at a2
  rw [e2, t2] at b2
  obtain ⟨⟨a3, a4⟩, -⟩ := And.imp_left (fun f => f (by simp)) (a2 (by simp))
  obtain ⟨⟨b3, b4⟩, -⟩ := And.imp_left (fun f => f (by simp)) (b2 (by
    intro l hl
    simp only [List.mem_cons, List.not_mem_nil, or_false] at hl
    subst hl
    exact ⟨[1, 0, 0, 0, 7, 248], by decide +kernel, by decide⟩))
  refine ⟨a3, b3, fun a => ?_, fun a v => ?_⟩
  · cases hv : o.map a with
    | none => rfl
    | some v => exact absurd ((a4 a v).mp hv) (by simp)
  · rw [b4]
    simp

/-- Such runs exist. -/
example : ∃ o o', Ihex.parseHex 1 (List.replicate 9 0) (splitLines 1 2 Ihex.commentLine ":0100000007F8".toList) = some (some o) ∧
    Ihex.parseHex 2 [0, 1, 0, 1, 0, 1] (splitLines 1 2 Ihex.commentLine ":0100000007F8".toList) = some (some o') := by
  obtain ⟨o, ho⟩ := Ihex.C02_returns (n := 1) (by omega) (splitLines 1 2 Ihex.commentLine ":0100000007F8".toList)
    (List.replicate 9 0) (by decide +kernel)
  obtain ⟨o', ho'⟩ := Ihex.C02_returns (n := 2) (by omega) (splitLines 1 2 Ihex.commentLine ":0100000007F8".toList)
    [0, 1, 0, 1, 0, 1] (by decide +kernel)
  exact ⟨o, o', ho, ho'⟩

/-- C51 fails for every two numbers of CPUs: in a file of a header line, blank lines and one data line, the data line is
lost on `n` CPUs and read on `m > n`, without an error in either case. -/
theorem C51_false_everywhere {n m : Nat} (hn : 0 < n) (hnm : n < m) (c : Verif.Hex.Spec.Case) {text : List Nat} (ht : text ≠ [])
    {b : Srec.Spec.Block} (hb : b.Fits)
    (hnd : ((Srec.Spec.imageBytes [b]).map Prod.fst).Nodup) :
    ∃ o o', Srec.parseHex n (splitLines n m (Srec.Spec.headerLine c text) (Srec.Spec.dataLine c b)) = some o ∧
      Srec.parseHex m (splitLines n m (Srec.Spec.headerLine c text) (Srec.Spec.dataLine c b)) = some o' ∧
      o.err = none ∧ o'.err = none ∧ (∀ a, o.map a = none) ∧ ∀ a v, o'.map a = some v ↔ (a, v) ∈ Srec.Spec.imageBytes [b] := by
  have hm := Srec.headerLine_malformed c ht
  have hd := Srec.encode_not_malformed c (bs := [b]) (by simpa using hb) (Srec.Spec.dataLine c b) (by simp [Srec.Spec.encode])
  have e1 : Srec.Spec.recognised n (splitLines n m (Srec.Spec.headerLine c text) (Srec.Spec.dataLine c b)) = [] :=
    recognised_none hn hnm (p := fun l => ¬ Srec.Spec.Malformed l) (by decide +kernel) (by simp [hm])
  have e2 : Srec.Spec.recognised m (splitLines n m (Srec.Spec.headerLine c text) (Srec.Spec.dataLine c b)) = [Srec.Spec.dataLine c b] :=
    recognised_one hn hnm (p := fun l => ¬ Srec.Spec.Malformed l) (by decide +kernel) (by simp [hm]) (by simp [hd.1]) hd.2
  obtain ⟨rcs, h1, h2, h3⟩ := Srec.encode_decode c (bs := [b]) (by simpa using hb)
  obtain ⟨o, ho, r1, r2⟩ := Srec.parse_recognised (n := n) hn (rcs := []) (by rw [e1]; rfl)
  obtain ⟨o', ho', r1', r2'⟩ := Srec.parse_recognised (n := m) (by omega) (rcs := rcs) (by rw [e2]; exact h1)
  rw [h3] at r1' r2'
  have hok := r1.mpr (by simp [Srec.Spec.bytesOf])
  have hok' := r1'.mpr ⟨h2, hnd⟩
  refine ⟨o, o', ho, ho', hok, hok', fun a => ?_, r2' hok'⟩
  cases hv : o.map a with
  | none => rfl
  | some v => exact absurd ((r2 hok a v).mp hv) (by simp [Srec.Spec.bytesOf])

example : (⟨0, [7]⟩ : Srec.Spec.Block).Fits ∧ ((Srec.Spec.imageBytes [⟨0, [7]⟩]).map Prod.fst).Nodup := by
  constructor <;> decide

end Verif.Hex
