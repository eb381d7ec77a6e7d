import Verif.A2l.TokExact

/-!
C24 fails for every two numbers of workers.
-/

namespace Verif.A2l.Props

open Verif.Go Verif.A2l.Spec Reading

/-- A line with a stray slash, then the same word on every line: `k` lines in all. -/
def slashLines (k : Nat) : List Str := "a/b".toList :: List.replicate (k - 1) "y".toList

/-- The share of worker `i` if the lines can be given out evenly. -/
theorem workLines_even (lines : List Str) (n m i : Nat) (hm : 0 < n) (hl : lines.length = n * m) (hi : i < n) :
    workLines lines n i = (lines.drop (i * m)).take m := by
  unfold workLines
  rw [hl, Nat.mul_div_cancel_left m hm]
  split
  · rename_i h
    symm
    apply List.take_of_length_le
    rw [List.length_drop, hl, ← h, Nat.succ_mul]
    omega
  · rfl

theorem stray_ab : Stray "a/b".toList := by
  have no {m w : Str} (h : contains m w = false) : ¬ m <:+: w := fun hi => by rw [(contains_iff m w).2 hi] at h; cases h
  exact ⟨⟨by decide, no rfl, no rfl⟩, no rfl, by decide, fun h => h.elim (no rfl) (no rfl)⟩

theorem plain_y : Reading.Plain "y".toList := by
  have no {m w : Str} (h : contains m w = false) : ¬ m <:+: w := fun hi => by rw [(contains_iff m w).2 hi] at h; cases h
  exact ⟨⟨by decide, no rfl, no rfl⟩, .inl (by decide)⟩

theorem reads_ys (k : Nat) : Reads (pieces (List.replicate k "y".toList)) (List.replicate k "y".toList) true := by
  induction k with
  | zero => exact .done
  | succ k ih => exact .plain plain_y (.lineEnd ih)

theorem sum_shares (n m : Nat) (hn : 0 < n) :
    ((List.range n).map fun i => if i = 0 then ([] : List Str) else List.replicate m "y".toList).flatten = List.replicate ((n - 1) * m) "y".toList := by
  obtain ⟨k, rfl⟩ : ∃ k, n = k + 1 := ⟨n - 1, by omega⟩
  clear hn
  induction k with
  | zero => simp [show List.range 1 = [0] from rfl]
  | succ k ih =>
    rw [List.range_succ, List.map_append, List.flatten_append, ih]
    simp only [List.map_cons, List.map_nil, List.flatten_cons, List.flatten_nil, List.append_nil, Nat.add_sub_cancel]
    rw [if_neg (by omega), List.replicate_append_replicate, ← Nat.succ_mul]

/-- The worker with the slash finds nothing in its share, the others find the word on each of their lines. -/
theorem slash_tokens (graphic : Char → Bool) (s : Str) (n m : Nat) (hn : 0 < n) (hm : 0 < m) (hl : Lines graphic s (slashLines (n * m))) :
    HasTokens graphic n s (List.replicate ((n - 1) * m) "y".toList) := by
  have hpos : 0 < n * m := Nat.mul_pos hn hm
  have hlen : (slashLines (n * m)).length = n * m := by simp [slashLines]; omega
  refine ⟨_, hl, fun i => if i = 0 then [] else List.replicate m "y".toList, fun i => i ≠ 0, ?_, (sum_shares n m hn).symm⟩
  intro i hi
  rw [workLines_even _ n m i hn hlen hi]
  by_cases h0 : i = 0
  · subst h0
    obtain ⟨k, rfl⟩ : ∃ k, m = k + 1 := ⟨m - 1, by omega⟩
    have : ((slashLines (n * (k + 1))).drop (0 * (k + 1))).take (k + 1) = "a/b".toList :: (List.replicate (n * (k + 1) - 1) "y".toList).take k := by
      rw [Nat.zero_mul]; rfl
    rw [this]
    exact Reads.stray stray_ab
  · obtain ⟨j, rfl⟩ : ∃ j, i = j + 1 := ⟨i - 1, by omega⟩
    have hle : (j + 1) * m + m ≤ n * m := by rw [← Nat.succ_mul]; exact Nat.mul_le_mul_right m hi
    have : ((slashLines (n * m)).drop ((j + 1) * m)).take m = List.replicate m "y".toList := by
      obtain ⟨d, hd⟩ : ∃ d, (j + 1) * m = d + 1 := ⟨(j + 1) * m - 1, by have : 0 < (j + 1) * m := Nat.mul_pos (Nat.succ_pos j) hm; omega⟩
      rw [hd] at hle ⊢
      unfold slashLines
      rw [List.drop_succ_cons, List.drop_replicate, List.take_replicate]
      congr 1
      omega
    rw [this]
    simpa using reads_ys m

theorem slash_lines (graphic : Char → Bool) (ha : graphic 'a' = true) (hb : graphic 'b' = true) (hy : graphic 'y' = true) (k : Nat) :
    Lines graphic (unlines (slashLines k)) (slashLines k) := by
  have hall : ∀ k, ∀ c ∈ unlines (List.replicate k "y".toList), c = 'y' ∨ c = '\n' := by
    intro k
    induction k with
    | zero => intro c hc; cases hc
    | succ k ih =>
      intro c hc
      cases k with
      | zero => exact .inl (by simpa [List.replicate, unlines] using hc)
      | succ k =>
        have hc' : c ∈ 'y' :: '\n' :: unlines (List.replicate (k + 1) "y".toList) := hc
        simp only [List.mem_cons] at hc'
        rcases hc' with h | h | h
        · exact .inl h
        · exact .inr h
        · exact ih c h
  have hlast : ∀ k c, (unlines (List.replicate (k + 1) "y".toList)).getLast? = some c → c = 'y' := by
    intro k
    induction k with
    | zero => intro c hc; simpa [List.replicate, unlines] using hc.symm
    | succ k ih =>
      intro c hc
      have hc' : ('y' :: '\n' :: unlines (List.replicate (k + 1) "y".toList)).getLast? = some c := hc
      apply ih
      cases hu : unlines (List.replicate (k + 1) "y".toList) with
      | nil => cases k <;> simp [List.replicate, unlines] at hu
      | cons a b => rw [hu] at hc'; simpa [List.getLast?_cons_cons] using hc'
  have hclean : Clean graphic (unlines (slashLines k)) := by
    unfold slashLines
    cases hk : k - 1 with
    | zero =>
      refine ⟨by decide, ?_, ?_⟩
      · intro c hc
        obtain rfl : 'a' = c := by simpa [List.replicate, unlines] using hc
        exact ha
      · intro c hc
        obtain rfl : 'b' = c := by simpa [List.replicate, unlines] using hc
        exact hb
    | succ d =>
      have hu : unlines ("a/b".toList :: List.replicate (d + 1) "y".toList) = 'a' :: '/' :: 'b' :: '\n' :: unlines (List.replicate (d + 1) "y".toList) := rfl
      rw [hu]
      refine ⟨?_, ?_, ?_⟩
      · intro h
        simp only [List.mem_cons] at h
        rcases h with h | h | h | h | h
        · exact absurd h (by decide)
        · exact absurd h (by decide)
        · exact absurd h (by decide)
        · exact absurd h (by decide)
        · rcases hall _ _ h with h | h
          · exact absurd h (by decide)
          · exact absurd h (by decide)
      · intro c hc
        obtain rfl : 'a' = c := by simpa using hc
        exact ha
      · intro c hc
        cases hv : unlines (List.replicate (d + 1) "y".toList) with
        | nil => cases d <;> simp [List.replicate, unlines] at hv
        | cons a b =>
          rw [hv] at hc
          rw [hlast d c (by rw [hv]; simpa [List.getLast?_cons_cons] using hc)]
          exact hy
  rw [lines_iff, cleanString_id hclean]
  apply split_unlines (by simp [slashLines])
  intro l hl
  rcases List.mem_cons.1 hl with rfl | h
  · decide
  · rw [List.eq_of_mem_replicate h]; decide

/-- **C24 fails for every two numbers of workers**: there is a text that they do not cut alike. -/
theorem C24_false_everywhere (graphic : Char → Bool) (ha : graphic 'a' = true) (hb : graphic 'b' = true) (hy : graphic 'y' = true)
    (n m : Nat) (hn : 0 < n) (hm : 0 < m) (hne : n ≠ m) : ∃ s, tokensOfFile graphic n s ≠ tokensOfFile graphic m s := by
  have hl := slash_lines graphic ha hb hy (n * m)
  refine ⟨unlines (slashLines (n * m)), fun he => hne ?_⟩
  rw [(C86_tokens _ _ _ _).2 (slash_tokens graphic _ n m hn hm hl),
    (C86_tokens _ _ _ _).2 (slash_tokens graphic _ m n hm hn (Nat.mul_comm n m ▸ hl))] at he
  have h := congrArg List.length (List.append_cancel_right (Option.some.inj he))
  simp only [List.length_replicate] at h
  obtain ⟨a, rfl⟩ : ∃ a, n = a + 1 := ⟨n - 1, by omega⟩
  obtain ⟨b, rfl⟩ : ∃ b, m = b + 1 := ⟨m - 1, by omega⟩
  simp only [Nat.add_sub_cancel] at h
  rw [Nat.mul_succ, Nat.mul_succ, Nat.mul_comm] at h
  omega

/-- With two workers three of the words are found, with three workers four. -/
example : tokensOfFile (fun _ => true) 2 "a/b\ny\ny\ny\ny\ny".toList = some (List.replicate 3 "y".toList ++ [[]]) ∧
    tokensOfFile (fun _ => true) 3 "a/b\ny\ny\ny\ny\ny".toList = some (List.replicate 4 "y".toList ++ [[]]) := by
  constructor <;> decide +kernel

example : ∃ s, tokensOfFile (fun _ => true) 7 s ≠ tokensOfFile (fun _ => true) 16 s :=
  C24_false_everywhere _ rfl rfl rfl 7 16 (by omega) (by omega) (by omega)

end Verif.A2l.Props
