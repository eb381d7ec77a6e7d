/-!
Go values used by the models: strings, slicing, splitting work over workers.
-/

namespace Verif.Go

/-- A Go string. For the hex parsers one `Char` stands for one byte, for the A2L
tokenizer one `Char` stands for one rune. -/
abbrev Str := List Char

/-- Go slice expression `s[i:j]`; `none` is the run-time panic "slice bounds out of
range". -/
def slice? {α : Type _} (s : List α) (i j : Nat) : Option (List α) :=
  if i ≤ j ∧ j ≤ s.length then some ((s.drop i).take (j - i)) else none

/-- Go index expression `s[i]`; `none` is the run-time panic. -/
def index? {α : Type _} (s : List α) (i : Nat) : Option α := s[i]?

/-- Start of worker `i`'s share of a list of length `len` when `n` workers are used:
`start := (len(lines) / numProc) * i` (ihex32/hex.go:115,136,147,176;
srec19/hex.go:115,139,165; a2l/token_generator.go:58-63 uses the same formula). -/
def shareStart (len n i : Nat) : Nat := (len / n) * i

/-- End of worker `i`'s share: `start + len/numProc`, and `len` for the last worker
(ihex32/hex.go:116-120). -/
def shareEnd (len n i : Nat) : Nat :=
  if i + 1 = n then len else shareStart len n i + len / n

/-- The slice worker `i` of `n` is given, `xs[start:end]`. -/
def share? {α : Type _} (xs : List α) (n i : Nat) : Option (List α) :=
  slice? xs (shareStart xs.length n i) (shareEnd xs.length n i)

/-- The slices of all `n` workers in worker order; `none` if one of the slice
expressions would panic. -/
def shares? {α : Type _} (xs : List α) (n : Nat) : Option (List (List α)) :=
  (List.range n).mapM (share? xs n)

/-! ### Lemmas -/

theorem slice?_eq_some {α : Type _} {s : List α} {i j : Nat} (h1 : i ≤ j) (h2 : j ≤ s.length) :
    slice? s i j = some ((s.drop i).take (j - i)) := by simp [slice?, h1, h2]

theorem shareStart_le_shareEnd (len n i : Nat) (_hi : i < n) :
    shareStart len n i ≤ shareEnd len n i := by
  unfold shareEnd
  split
  · unfold shareStart
    calc len / n * i ≤ len / n * n := Nat.mul_le_mul_left _ (by omega)
      _ ≤ len := Nat.div_mul_le_self _ _
  · exact Nat.le_add_right _ _

theorem shareEnd_le (len n i : Nat) (hi : i < n) : shareEnd len n i ≤ len := by
  unfold shareEnd
  split
  · omega
  · unfold shareStart
    calc len / n * i + len / n = len / n * (i + 1) := by rw [Nat.mul_succ]
      _ ≤ len / n * n := Nat.mul_le_mul_left _ (by omega)
      _ ≤ len := Nat.div_mul_le_self _ _

/-- The share as a plain list (no panic possible for `i < n`). -/
def share {α : Type _} (xs : List α) (n i : Nat) : List α :=
  (xs.drop (shareStart xs.length n i)).take (shareEnd xs.length n i - shareStart xs.length n i)

theorem share?_eq {α : Type _} (xs : List α) {n i : Nat} (hi : i < n) :
    share? xs n i = some (share xs n i) :=
  slice?_eq_some (shareStart_le_shareEnd _ _ _ hi) (shareEnd_le _ _ _ hi)

theorem mapM_option_eq_some {α β : Type _} (f : α → Option β) (g : α → β) (l : List α)
    (h : ∀ a ∈ l, f a = some (g a)) : l.mapM f = some (l.map g) := by
  induction l with
  | nil => rfl
  | cons a l ih =>
    rw [List.mapM_cons, h a (by simp), ih (fun b hb => h b (by simp [hb]))]
    rfl

theorem shares?_eq {α : Type _} (xs : List α) (n : Nat) :
    shares? xs n = some ((List.range n).map (share xs n)) := by
  unfold shares?
  apply mapM_option_eq_some
  intro i hi
  exact share?_eq xs (List.mem_range.mp hi)

theorem flatten_shares_prefix {α : Type _} (xs : List α) (n : Nat) :
    ∀ k, k < n → ((List.range k).map (share xs n)).flatten = xs.take (shareStart xs.length n k) := by
  intro k
  induction k with
  | zero => intro _; simp [shareStart]
  | succ k ih =>
    intro hk
    rw [List.range_succ, List.map_append, List.flatten_append, ih (by omega)]
    have h : ¬ (k + 1 = n) := by omega
    simp only [List.map_cons, List.map_nil, List.flatten_cons, List.flatten_nil, List.append_nil,
      share, shareEnd, h, if_false]
    rw [Nat.add_sub_cancel_left]
    have h2 : shareStart xs.length n (k + 1) = shareStart xs.length n k + xs.length / n := by
      simp [shareStart, Nat.mul_succ]
    rw [h2, List.take_add]

/-- Splitting and concatenating in worker order gives back the whole list. -/
theorem flatten_shares {α : Type _} (xs : List α) (n : Nat) (hn : 0 < n) :
    ((List.range n).map (share xs n)).flatten = xs := by
  obtain ⟨m, rfl⟩ : ∃ m, n = m + 1 := ⟨n - 1, by omega⟩
  rw [List.range_succ, List.map_append, List.flatten_append,
    flatten_shares_prefix xs (m + 1) m (by omega)]
  have hs : shareStart xs.length (m + 1) m ≤ xs.length :=
    Nat.le_trans (shareStart_le_shareEnd _ _ _ (by omega)) (shareEnd_le _ _ _ (by omega))
  simp only [List.map_cons, List.map_nil, List.flatten_cons, List.flatten_nil, List.append_nil,
    share, shareEnd, if_true]
  rw [← List.length_drop, List.take_length, List.take_append_drop]

end Verif.Go
