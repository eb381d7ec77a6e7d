import Verif.A2l.TokExact

/-!
C86: what separates the words of a line.
-/

namespace Verif.A2l.Spec
open Verif.Go

/-- The characters with the property White_Space of the Unicode standard (PropList.txt). -/
def whiteSpace : List Nat :=
  [0x9, 0xA, 0xB, 0xC, 0xD, 0x20, 0x85, 0xA0, 0x1680, 0x2000, 0x2001, 0x2002, 0x2003, 0x2004, 0x2005, 0x2006, 0x2007, 0x2008, 0x2009, 0x200A,
    0x2028, 0x2029, 0x202F, 0x205F, 0x3000]

abbrev White (c : Char) : Prop := c.toNat ∈ whiteSpace

/-- `ws` are the words of a text: runs of characters that are not white, separated by white ones. -/
inductive WordsOf : Str → List Str → Prop
  | none {gap : Str} : (∀ c ∈ gap, White c) → WordsOf gap []
  | last {gap w : Str} : (∀ c ∈ gap, White c) → w ≠ [] → (∀ c ∈ w, ¬ White c) → WordsOf (gap ++ w) [w]
  | word {gap w rest : Str} {b : Char} {ws : List Str} : (∀ c ∈ gap, White c) → w ≠ [] → (∀ c ∈ w, ¬ White c) → White b → WordsOf rest ws →
      WordsOf (gap ++ w ++ b :: rest) (w :: ws)

end Verif.A2l.Spec

namespace Verif.A2l.Props
open Verif.Go Verif.A2l.Spec

theorem isSpace_iff (c : Char) : isSpace c = true ↔ White c := by
  have h : ∀ d : Char, c = d ↔ c.toNat = d.toNat := fun d => ⟨fun h => by rw [h], fun h => Char.toNat_inj.1 h⟩
  unfold isSpace
  simp only [White, whiteSpace, Bool.or_eq_true, Bool.and_eq_true, decide_eq_true_eq, List.mem_cons, List.not_mem_nil, or_false, h]
  have e : ('\t').toNat = 9 ∧ ('\n').toNat = 10 ∧ ('\r').toNat = 13 ∧ (' ').toNat = 32 := by decide
  obtain ⟨e1, e2, e3, e4⟩ := e
  rw [e1, e2, e3, e4]
  omega

theorem fields_gap {gap : Str} (h : ∀ c ∈ gap, White c) (s : Str) : fieldsAux [] (gap ++ s) = fieldsAux [] s := by
  induction gap with
  | nil => rfl
  | cons c gap ih =>
    rw [List.cons_append, fieldsAux, if_pos ((isSpace_iff c).2 (h c (List.mem_cons_self ..)))]
    exact ih fun d hd => h d (List.mem_cons_of_mem _ hd)

theorem fields_word {w : Str} (h : ∀ c ∈ w, ¬ White c) (acc s : Str) : fieldsAux acc (w ++ s) = fieldsAux (w.reverse ++ acc) s := by
  induction w generalizing acc with
  | nil => rfl
  | cons c w ih =>
    rw [List.cons_append, fieldsAux, if_neg (fun h' => h c (List.mem_cons_self ..) ((isSpace_iff c).1 h')),
      ih (fun d hd => h d (List.mem_cons_of_mem _ hd))]
    simp

theorem words_fields {s : Str} {ws : List Str} (h : WordsOf s ws) : fieldsAux [] s = ws := by
  induction h with
  | @none gap hg =>
    have := fields_gap hg []
    rw [List.append_nil] at this
    rw [this]
    rfl
  | @last gap w hg hne hw =>
    rw [fields_gap hg]
    have := fields_word hw [] []
    rw [List.append_nil, List.append_nil] at this
    rw [this, fieldsAux, if_neg (by simpa using hne), List.reverse_reverse]
  | @word gap w rest b ws hg hne hw hb _ ih =>
    rw [List.append_assoc, fields_gap hg, fields_word hw, List.append_nil, fieldsAux, if_pos ((isSpace_iff b).2 hb), if_neg (by simpa using hne),
      List.reverse_reverse, ih]

theorem words_exist : ∀ (n : Nat) (s : Str), s.length ≤ n → ∃ ws, WordsOf s ws
  | 0, s, h => by
    cases s with
    | nil => exact ⟨[], .none (by simp)⟩
    | cons c s => simp at h
  | n + 1, s, h => by
    have hs : s = s.takeWhile (fun c => decide (White c)) ++ s.dropWhile (fun c => decide (White c)) := (List.takeWhile_append_dropWhile ..).symm
    generalize hg : s.takeWhile (fun c => decide (White c)) = gap at hs
    generalize hr : s.dropWhile (fun c => decide (White c)) = r at hs
    have hgap : ∀ c ∈ gap, White c := by
      intro c hc
      rw [← hg] at hc
      exact of_decide_eq_true (List.all_eq_true.1 (List.all_takeWhile (p := fun c => decide (White c)) (l := s)) c hc)
    cases r with
    | nil => rw [hs, List.append_nil]; exact ⟨[], .none hgap⟩
    | cons d r =>
      have hd : ¬ White d := by
        have := List.head?_dropWhile_not (fun c => decide (White c)) s
        rw [hr] at this
        simpa using this
      have hr2 : r = r.takeWhile (fun c => !decide (White c)) ++ r.dropWhile (fun c => !decide (White c)) := (List.takeWhile_append_dropWhile ..).symm
      generalize hw : r.takeWhile (fun c => !decide (White c)) = w at hr2
      generalize ht : r.dropWhile (fun c => !decide (White c)) = t at hr2
      have hword : ∀ c ∈ d :: w, ¬ White c := by
        intro c hc
        rcases List.mem_cons.1 hc with rfl | hc
        · exact hd
        · rw [← hw] at hc
          have := List.all_eq_true.1 (List.all_takeWhile (p := fun c => !decide (White c)) (l := r)) c hc
          simpa using this
      cases t with
      | nil =>
        rw [hs, hr2, List.append_nil]
        exact ⟨_, .last hgap (by simp) hword⟩
      | cons b t =>
        have hb : White b := by
          have := List.head?_dropWhile_not (fun c => !decide (White c)) r
          rw [ht] at this
          simpa using this
        obtain ⟨ws, hws⟩ := words_exist n t (by
          have h1 := congrArg List.length hs
          have h2 := congrArg List.length hr2
          simp only [List.length_append, List.length_cons] at h1 h2
          omega)
        refine ⟨(d :: w) :: ws, ?_⟩
        rw [hs, hr2, show gap ++ d :: (w ++ b :: t) = gap ++ (d :: w) ++ b :: t by simp]
        exact .word hgap (by simp) hword hb hws

/-- C86: a line is split into words exactly at the characters that Unicode calls white space; a text has exactly one list of words. -/
theorem C86_words (s : Str) (ws : List Str) : fields s = ws ↔ WordsOf s ws := by
  constructor
  · rintro rfl
    obtain ⟨ws, h⟩ := words_exist _ s (Nat.le_refl _)
    rw [show fields s = ws from words_fields h]
    exact h
  · exact words_fields

-- a line separator and a no-break space separate words, a zero-width space does not
example : WordsOf ['a', Char.ofNat 0x2028, 'b', Char.ofNat 0xA0, Char.ofNat 0xA0, 'c', Char.ofNat 0x200B, 'd'] [['a'], ['b'], ['c', Char.ofNat 0x200B, 'd']] :=
  (C86_words _ _).1 (by decide +kernel)

end Verif.A2l.Props
