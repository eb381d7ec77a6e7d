import Verif.A2l.Run

/-!
The bounds of `run` (loop rounds and call depth) are an artefact of the model: a result
other than `timeout` does not depend on them.
-/

namespace Verif.A2l
open Verif.Go Lang

/-- `r` is `timeout`, or `r'` is the same result. -/
def PLe (r r' : PRes) : Prop := r = .timeout ∨ r' = r

def OLe (r r' : Out) : Prop := r = .timeout ∨ r' = r

theorem iter_mono {f g : St → Out} (h : ∀ s, OLe (f s) (g s)) :
    ∀ n m s, n ≤ m → OLe (iter f n s) (iter g m s) := by
  intro n
  induction n with
  | zero => intro m s _; exact Or.inl rfl
  | succ n ih =>
    intro m s hm
    obtain ⟨k, rfl⟩ : ∃ k, m = k + 1 := ⟨m - 1, by omega⟩
    rcases h s with hs | hs
    · exact Or.inl (by simp only [iter, hs])
    · cases hf : f s with
      | ok s' c =>
        rw [hf] at hs
        cases c with
        | cont => simp only [iter, hf, hs]; exact ih k s' (by omega)
        | brk => exact Or.inr (by simp only [iter, hf, hs])
      | panic => rw [hf] at hs; exact Or.inr (by simp only [iter, hf, hs])
      | timeout => exact Or.inl (by simp only [iter, hf])

theorem exec_mono {E : Env} {K K' : PName → Nat → PRes} {n n' : Nat}
    (hK : ∀ p i, PLe (K p i) (K' p i)) (hn : n ≤ n') (st : Stmt) :
    ∀ s, OLe (exec E K n st s) (exec E K' n' st s) := by
  induction st with
  | seq a b ha hb =>
    intro s
    rcases ha s with h | h
    · exact Or.inl (by simp only [exec, h])
    · cases hf : exec E K n a s with
      | ok s' c =>
        rw [hf] at h
        cases c with
        | cont => simp only [exec, hf, h]; exact hb s'
        | brk => exact Or.inr (by simp only [exec, hf, h])
      | panic => rw [hf] at h; exact Or.inr (by simp only [exec, hf, h])
      | timeout => exact Or.inl (by simp only [exec, hf])
  | ite c a b ha hb =>
    intro s
    simp only [exec]
    split
    · exact ha s
    · exact hb s
  | loop b hb => intro s; exact iter_mono hb n n' s hn
  | callBuf p =>
    intro s
    rcases hK p s.idx with h | h
    · exact Or.inl (by simp only [exec, h])
    · exact Or.inr (by simp only [exec, h])
  | callField f p =>
    intro s
    rcases hK p s.idx with h | h
    · exact Or.inl (by simp only [exec, h])
    · exact Or.inr (by simp only [exec, h])
  | _ => intro s; exact Or.inr rfl

theorem run_mono {E : Env} {n n' : Nat} (hn : n ≤ n') :
    ∀ d d', d ≤ d' → ∀ p i, PLe (run E n d p i) (run E n' d' p i) := by
  intro d
  induction d with
  | zero => intro d' _ p i; exact Or.inl rfl
  | succ d ih =>
    intro d' hd p i
    obtain ⟨k, rfl⟩ : ∃ k, d' = k + 1 := ⟨d' - 1, by omega⟩
    simp only [run]
    split
    · exact Or.inr rfl
    · rcases exec_mono (E := E) (ih k (by omega)) hn (body p) (St.init i) with h | h
      · exact Or.inl (by rw [h]; rfl)
      · exact Or.inr (by rw [h])

/-- The call `parseP(tok)` at position `i` returns with result `r`: from some bounds on the
model answers `r`, which is not `timeout`. -/
def Returns (E : Env) (p : PName) (i : Nat) (r : PRes) : Prop :=
  r ≠ .timeout ∧ ∃ n₀ d₀, ∀ n d, n₀ ≤ n → d₀ ≤ d → run E n d p i = r

theorem returns_of_run {E : Env} {p : PName} {i n d : Nat} {r : PRes} (h : run E n d p i = r)
    (hr : r ≠ .timeout) : Returns E p i r := by
  refine ⟨hr, n, d, fun n' d' hn hd => ?_⟩
  rcases run_mono hn d d' hd p i with h' | h'
  · exact absurd (h'.symm.trans h).symm hr
  · rw [h', h]

theorem Returns.unique {E : Env} {p : PName} {i : Nat} {r r' : PRes} (h : Returns E p i r)
    (h' : Returns E p i r') : r = r' := by
  obtain ⟨_, n1, d1, h1⟩ := h
  obtain ⟨_, n2, d2, h2⟩ := h'
  rw [← h1 (max n1 n2) (max d1 d2) (by omega) (by omega),
    ← h2 (max n1 n2) (max d1 d2) (by omega) (by omega)]

end Verif.A2l
