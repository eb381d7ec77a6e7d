import Verif.Srec.Props

/-!
C17 exactly: which bytes of a standard S19 file with a header text are read.
-/

namespace Verif.Srec
open Verif.Go Verif.Hex Verif.Hex.Spec Spec
open Verif.Ihex.Spec (significant workerLines)
open Verif.Ihex (Outcome)

/-- The number of blocks that stand in the share of the worker that meets the header: all if there is one worker or fewer lines than
workers (the last worker gets all lines), otherwise those beside the header in the first share of the `k + 2` lines. -/
def hidden (n k : Nat) : Nat := if n = 1 ∨ k + 2 < n then k else (k + 2) / n - 1

theorem recognised_header {n : Nat} (hn : 0 < n) {h e : Str} (hh : Malformed h) (he : Malformed e) {A : List Str}
    (hA : ∀ l ∈ A, ¬ Malformed l ∧ 11 ≤ l.length) : recognised n (h :: A ++ [e]) = A.drop (hidden n A.length) := by
  have hlen : (h :: A ++ [e]).length = A.length + 2 := by simp
  unfold hidden
  by_cases hc : n = 1 ∨ A.length + 2 < n
  · rw [if_pos hc, List.drop_length]
    unfold recognised
    rw [List.flatMap_eq_nil_iff]
    intro i hi
    have hi := List.mem_range.1 hi
    unfold workerLines
    rw [hlen]
    by_cases h1 : n = 1
    · subst h1
      have : i = 0 := by omega
      subst this
      simp [hh, significant]
    · have h0 : (A.length + 2) / n = 0 := Nat.div_eq_of_lt (by omega)
      rw [h0]
      split
      · simp [hh, significant]
      · simp [significant]
  · rw [if_neg hc]
    obtain ⟨k, rfl⟩ : ∃ k, n = k + 1 := ⟨n - 1, by omega⟩
    have hk : k ≠ 0 := by omega
    generalize hd : (A.length + 2) / (k + 1) = d
    have hd1 : 1 ≤ d := by rw [← hd]; exact (Nat.le_div_iff_mul_le (by omega)).2 (by omega)
    have hd2 : d < A.length + 2 := by rw [← hd]; exact Nat.div_lt_self (by omega) (by omega)
    -- the same file with an empty line in place of the header
    have hall : recognised (k + 1) ([] :: A ++ [e]) = A := by
      rw [recognised_tail hn (A := [] :: A) (B := [e])]
      · unfold significant
        rw [List.filter_cons, if_neg (by simp), List.filter_eq_self]
        intro l hl
        simpa using (hA l hl).2
      · intro l hl
        rcases List.mem_cons.1 hl with rfl | hl
        · rintro ⟨h1, _⟩
          simp at h1
        · exact (hA l hl).1
      · intro l hl
        simp only [List.mem_cons, List.not_mem_nil, or_false] at hl
        exact Or.inl (hl ▸ he)
    have hlen' : ([] :: A ++ [e]).length = A.length + 2 := by simp
    have hfirst : significant ((workerLines (k + 1) ([] :: A ++ [e]) 0).takeWhile fun l => ¬ Malformed l) = A.take (d - 1) := by
      unfold workerLines
      rw [if_neg (by omega), hlen', hd]
      obtain ⟨d', rfl⟩ : ∃ d', d = d' + 1 := ⟨d - 1, by omega⟩
      have e1 : (([] : Str) :: A ++ [e]).take (d' + 1) = [] :: A.take d' := by
        rw [List.cons_append, List.take_succ_cons, List.take_append_of_le_length (by omega)]
      rw [Nat.mul_zero, List.drop_zero, e1, Nat.add_sub_cancel]
      have e2 : (([] : Str) :: A.take d').takeWhile (fun l => decide (¬ Malformed l)) = [] :: A.take d' := by
        have : ∀ ls : List Str, (∀ l ∈ ls, ¬ Malformed l) → ls.takeWhile (fun l => decide (¬ Malformed l)) = ls := by
          intro ls
          induction ls with
          | nil => intro _; rfl
          | cons l ls ih =>
            intro h
            rw [List.takeWhile_cons, if_pos (by simpa using h l (by simp)), ih (fun l' hl' => h l' (by simp [hl']))]
        apply this
        intro l hl
        rcases List.mem_cons.1 hl with rfl | hl
        · rintro ⟨h1, _⟩
          simp at h1
        · exact (hA l (List.mem_of_mem_take hl)).1
      rw [e2]
      unfold significant
      rw [List.filter_cons, if_neg (by simp), List.filter_eq_self]
      intro l hl
      simpa using (hA l (List.mem_of_mem_take hl)).2
    have hrest : ∀ i, workerLines (k + 1) (h :: A ++ [e]) (i + 1) = workerLines (k + 1) ([] :: A ++ [e]) (i + 1) := by
      intro i
      unfold workerLines
      rw [hlen, hlen', hd]
      obtain ⟨d', rfl⟩ : ∃ d', d = d' + 1 := ⟨d - 1, by omega⟩
      have : (d' + 1) * (i + 1) = ((d' + 1) * i + d') + 1 := by rw [Nat.mul_add]; omega
      rw [this]
      rfl
    have hfirst' : significant ((workerLines (k + 1) (h :: A ++ [e]) 0).takeWhile fun l => ¬ Malformed l) = [] := by
      unfold workerLines
      rw [if_neg (by omega), hlen, hd]
      obtain ⟨d', rfl⟩ : ∃ d', d = d' + 1 := ⟨d - 1, by omega⟩
      simp [hh, significant]
    unfold recognised at hall ⊢
    rw [List.range_succ_eq_map, List.flatMap_cons] at hall ⊢
    rw [hfirst] at hall
    rw [hfirst', List.nil_append]
    simp only [List.flatMap_map, Nat.succ_eq_add_one, hrest] at hall ⊢
    refine List.append_cancel_left (as := A.take (d - 1)) ?_
    rw [hall, List.take_append_drop]

/-- **C17 exactly.** A standard file with a header text is always accepted; what is read is the data of all blocks but those that stand in one
share with the header. -/
theorem C17_exact {n : Nat} (hn : 0 < n) (c : Case) {text : List Nat} (ht : text ≠ []) {bs : List Block} (start : Nat)
    (hfit : ∀ b ∈ bs, b.Fits) (hnd : ((imageBytes bs).map Prod.fst).Nodup) :
    ∃ o, parseHex n (standardFile c text bs start) = some o ∧ o.err = none ∧
      ∀ a v, o.map a = some v ↔ (a, v) ∈ imageBytes (bs.drop (hidden n bs.length)) := by
  have hrec : recognised n (standardFile c text bs start) = encode c (bs.drop (hidden n bs.length)) := by
    have := recognised_header hn (headerLine_malformed c ht) (endLine_malformed c start) (A := encode c bs) (encode_not_malformed c hfit)
    unfold standardFile
    rw [this]
    unfold encode
    rw [List.length_map, List.map_drop]
  have himg : imageBytes bs = imageBytes (bs.take (hidden n bs.length)) ++ imageBytes (bs.drop (hidden n bs.length)) := by
    unfold imageBytes
    rw [← List.flatten_append, ← List.map_append, List.take_append_drop]
  obtain ⟨rcs, h1, h2, h3⟩ := encode_decode c (bs := bs.drop (hidden n bs.length)) (fun b hb => hfit b (List.mem_of_mem_drop hb))
  obtain ⟨o, ho, r1, r2⟩ := parse_recognised (n := n) hn (rcs := rcs) (lines := standardFile c text bs start) (by rw [hrec]; exact h1)
  rw [h3] at r1 r2
  rw [himg, List.map_append] at hnd
  have hok := r1.mpr ⟨h2, (List.nodup_append.1 hnd).2.1⟩
  exact ⟨o, ho, hok, r2 hok⟩

/-- **C17, exactly when it holds:** a standard file with a header text is read rightly just if there are no data bytes beside the header in its
share. -/
theorem C17_iff {n : Nat} (hn : 0 < n) (c : Case) {text : List Nat} (ht : text ≠ []) {bs : List Block} (start : Nat)
    (hfit : ∀ b ∈ bs, b.Fits) (hnd : ((imageBytes bs).map Prod.fst).Nodup) {o : Outcome}
    (h : parseHex n (standardFile c text bs start) = some o) :
    (o.err = none ∧ ∀ a v, o.map a = some v ↔ (a, v) ∈ imageBytes bs) ↔ ∀ b ∈ bs.take (hidden n bs.length), b.bytes = [] := by
  obtain ⟨o', ho, hok, hm⟩ := C17_exact hn c ht start hfit hnd
  rw [h] at ho
  cases ho
  have himg : imageBytes bs = imageBytes (bs.take (hidden n bs.length)) ++ imageBytes (bs.drop (hidden n bs.length)) := by
    unfold imageBytes
    rw [← List.flatten_append, ← List.map_append, List.take_append_drop]
  have hempty : (∀ b ∈ bs.take (hidden n bs.length), b.bytes = []) ↔ imageBytes (bs.take (hidden n bs.length)) = [] := by
    unfold imageBytes
    rw [List.flatten_eq_nil_iff]
    constructor
    · intro hb l hl
      obtain ⟨b, h1, rfl⟩ := List.mem_map.1 hl
      rw [hb b h1]
      rfl
    · intro hb b h1
      have := hb _ (List.mem_map_of_mem h1)
      simpa using this
  rw [hempty]
  constructor
  · rintro ⟨_, h1⟩
    cases hi : imageBytes (bs.take (hidden n bs.length)) with
    | nil => rfl
    | cons p ps =>
      exfalso
      have hp : p ∈ imageBytes bs := by rw [himg, hi]; simp
      have h2 := (hm p.1 p.2).1 ((h1 p.1 p.2).2 hp)
      rw [himg, hi, List.map_append] at hnd
      exact (List.nodup_append.1 hnd).2.2 p.1 (by simp) p.1 (List.mem_map_of_mem (f := Prod.fst) h2) rfl
  · intro h1
    rw [himg, h1, List.nil_append]
    exact ⟨hok, hm⟩

/-- On one CPU nothing of a file with a header text is read. -/
theorem C17_one_cpu (c : Case) {text : List Nat} (ht : text ≠ []) {bs : List Block} (start : Nat)
    (hfit : ∀ b ∈ bs, b.Fits) (hnd : ((imageBytes bs).map Prod.fst).Nodup) :
    ∃ o, parseHex 1 (standardFile c text bs start) = some o ∧ o.err = none ∧ ∀ a, o.map a = none := by
  obtain ⟨o, ho, hok, hm⟩ := C17_exact (n := 1) (by decide) c ht start hfit hnd
  refine ⟨o, ho, hok, fun a => ?_⟩
  cases hx : o.map a with
  | none => rfl
  | some v =>
    have := (hm a v).1 hx
    simp [hidden, imageBytes] at this

-- two blocks, two CPUs: the first one stands beside the header and is lost
example : ∃ o, parseHex 2 (standardFile .upper [72, 68, 82] [⟨0, [7]⟩, ⟨16, [8, 9]⟩] 0) = some o ∧ o.err = none ∧
    ∀ a v, o.map a = some v ↔ (a, v) ∈ [(16, 8), (17, 9)] :=
  C17_exact (bs := [⟨0, [7]⟩, ⟨16, [8, 9]⟩]) (by decide) .upper (by decide) 0 (by decide) (by decide)
-- three CPUs: the header is alone in its share, all is read
example : ∀ b ∈ ([⟨0, [7]⟩, ⟨16, [8, 9]⟩] : List Block).take (hidden 3 2), b.bytes = [] := by decide
example : ¬ ∀ b ∈ ([⟨0, [7]⟩, ⟨16, [8, 9]⟩] : List Block).take (hidden 2 2), b.bytes = [] := by decide
-- more CPUs than lines: all is lost
example : hidden 8 2 = 2 := by decide
example : (∀ b ∈ ([⟨0, [7]⟩, ⟨16, [8, 9]⟩] : List Block), b.Fits) ∧ ((imageBytes [⟨0, [7]⟩, ⟨16, [8, 9]⟩]).map Prod.fst).Nodup ∧ [72, 68, 82] ≠ ([] : List Nat) := by
  decide

end Verif.Srec
