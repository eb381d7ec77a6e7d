import Verif.Go.Basic

/-! The functions of Go's `strings` package that the code uses, on lists of characters. -/

namespace Verif.Go

/-- `strings.Contains(s, sub)`. -/
def contains (sub : Str) : Str → Bool
  | [] => sub.isPrefixOf []
  | c :: cs => sub.isPrefixOf (c :: cs) || contains sub cs

/-- `strings.Index(s, sub)`, `none` for -1. -/
def indexOf (sub : Str) : Str → Option Nat
  | [] => if sub.isPrefixOf [] then some 0 else none
  | c :: cs => if sub.isPrefixOf (c :: cs) then some 0 else (indexOf sub cs).map (· + 1)

/-- `strings.Count(s, c)` for a one-character `c`. -/
def countChar (c : Char) (s : Str) : Nat := s.count c

/-- `unicode.IsSpace`. -/
def isSpace (c : Char) : Bool :=
  c = '\t' || c = '\n' || c.toNat = 0x0B || c.toNat = 0x0C || c = '\r' || c = ' ' ||
  c.toNat = 0x85 || c.toNat = 0xA0 || c.toNat = 0x1680 ||
  (0x2000 ≤ c.toNat && c.toNat ≤ 0x200a) || c.toNat = 0x2028 || c.toNat = 0x2029 ||
  c.toNat = 0x202f || c.toNat = 0x205f || c.toNat = 0x3000

/-- `strings.Fields`: the maximal runs of non-space characters. `acc` is the word being read,
reversed. -/
def fieldsAux (acc : Str) : Str → List Str
  | [] => if acc.isEmpty then [] else [acc.reverse]
  | c :: cs =>
    if isSpace c then (if acc.isEmpty then fieldsAux [] cs else acc.reverse :: fieldsAux [] cs)
    else fieldsAux (c :: acc) cs

def fields (s : Str) : List Str := fieldsAux [] s

/-- `strings.TrimFunc(s, f)`. -/
def trimFunc (f : Char → Bool) (s : Str) : Str := ((s.dropWhile f).reverse.dropWhile f).reverse

/-- `strings.TrimSpace`. -/
def trimSpace (s : Str) : Str := trimFunc isSpace s

/-- `strings.Split(s, c)` for a one-character separator. -/
def splitChar (c : Char) : Str → List Str
  | [] => [[]]
  | x :: xs =>
    if x = c then [] :: splitChar c xs
    else match splitChar c xs with
      | [] => [[x]]
      | l :: ls => (x :: l) :: ls

theorem contains_iff (sub s : Str) : contains sub s = true ↔ sub <:+: s := by
  induction s with
  | nil =>
    rw [contains]
    cases sub with
    | nil => simp
    | cons c cs => simp [List.isPrefixOf]
  | cons c cs ih =>
    rw [contains, Bool.or_eq_true, ih, List.isPrefixOf_iff_prefix, List.infix_cons_iff]

theorem fieldsAux_ne_nil {acc s w : Str} (h : w ∈ fieldsAux acc s) : w ≠ [] := by
  induction s generalizing acc with
  | nil =>
    simp only [fieldsAux] at h
    split at h
    · simp at h
    · next ha =>
      simp at h
      subst h
      simpa using ha
  | cons c cs ih =>
    simp only [fieldsAux] at h
    split at h
    · split at h
      · exact ih h
      · next ha =>
        rcases List.mem_cons.mp h with rfl | h
        · simpa using ha
        · exact ih h
    · exact ih h

/-- A word of `Fields` is not empty. -/
theorem fields_ne_nil {s w : Str} (h : w ∈ fields s) : w ≠ [] := fieldsAux_ne_nil h

theorem fieldsAux_no_space {acc s w : Str} (hacc : ∀ c ∈ acc, isSpace c = false) (h : w ∈ fieldsAux acc s) :
    ∀ c ∈ w, isSpace c = false := by
  induction s generalizing acc with
  | nil =>
    simp only [fieldsAux] at h
    split at h
    · simp at h
    · simp at h; subst h; intro c hc; exact hacc c (by simpa using hc)
  | cons x xs ih =>
    simp only [fieldsAux] at h
    split at h
    · split at h
      · exact ih (by simp) h
      · rcases List.mem_cons.mp h with rfl | h
        · intro c hc; exact hacc c (by simpa using hc)
        · exact ih (by simp) h
    · next hx =>
      refine ih ?_ h
      intro c hc
      rcases List.mem_cons.mp hc with rfl | hc
      · simpa using hx
      · exact hacc c hc

theorem fields_no_space {s w : Str} (h : w ∈ fields s) : ∀ c ∈ w, isSpace c = false :=
  fieldsAux_no_space (by simp) h

theorem fieldsAux_eq_nil {acc s : Str} : fieldsAux acc s = [] ↔ acc = [] ∧ ∀ c ∈ s, isSpace c = true := by
  induction s generalizing acc with
  | nil => simp [fieldsAux]
  | cons c cs ih =>
    simp only [fieldsAux]
    split
    · next hc =>
      split
      · next ha => rw [ih]; simp at ha; simp [ha, hc]
      · next ha => simp at ha; simp [ha]
    · next hc => rw [ih]; simp [hc]

theorem dropWhile_eq_nil {f : Char → Bool} {s : Str} : s.dropWhile f = [] ↔ ∀ c ∈ s, f c = true := by
  induction s with
  | nil => simp
  | cons c cs ih =>
    rw [List.dropWhile_cons]
    split
    · next h => rw [ih]; simp [h]
    · next h => simp [h]

theorem trimFunc_eq_nil {f : Char → Bool} {s : Str} : trimFunc f s = [] ↔ ∀ c ∈ s, f c = true := by
  unfold trimFunc
  rw [List.reverse_eq_nil_iff, dropWhile_eq_nil]
  constructor
  · intro h
    have h2 : ∀ c ∈ s.dropWhile f, f c = true := fun c hc => h c (by simpa using hc)
    have h3 : s.dropWhile f = [] := by
      cases hd : s.dropWhile f with
      | nil => rfl
      | cons a l =>
        exfalso
        have h4 := List.head_dropWhile_not f (l := s) (by rw [hd]; simp)
        simp only [hd, List.head_cons] at h4
        rw [h2 a (by rw [hd]; simp)] at h4
        simp at h4
    exact dropWhile_eq_nil.mp h3
  · intro h c hc
    have : s.dropWhile f = [] := dropWhile_eq_nil.mpr h
    rw [this] at hc
    simp at hc

/-- `TrimSpace(l) != ""` iff `Fields(l)` is not empty. -/
theorem trimSpace_eq_nil_iff (s : Str) : trimSpace s = [] ↔ fields s = [] := by
  unfold trimSpace fields
  rw [trimFunc_eq_nil, fieldsAux_eq_nil]
  simp

theorem splitChar_ne_nil (c : Char) (s : Str) : splitChar c s ≠ [] := by
  cases s with
  | nil => simp [splitChar]
  | cons x xs =>
    simp only [splitChar]
    split
    · simp
    · split <;> simp

end Verif.Go
