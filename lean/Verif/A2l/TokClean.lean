import Verif.A2l.TokProps

/-!
C76: the clean-up of a file before tokens are made of it (a2l/a2l.go:131-154), for every text.
-/

namespace Verif.A2l.Spec
open Verif.Go

/-- A text and the same text without escapes: a backslash is left out together with the character after it. A backslash at the end of a
line or of the text stays. -/
inductive Unescaped : Str → Str → Prop
  | done : Unescaped [] []
  | char {c s t} : c ≠ '\\' → Unescaped s t → Unescaped (c :: s) (c :: t)
  | escape {c s t} : c ≠ '\n' → Unescaped s t → Unescaped ('\\' :: c :: s) t
  | lineEnd {s t} : Unescaped s t → Unescaped ('\\' :: '\n' :: s) ('\\' :: '\n' :: t)
  | textEnd : Unescaped ['\\'] ['\\']

/-- `t` is `s` without the characters at both ends that are not graphic. -/
structure Trimmed (graphic : Char → Bool) (s t : Str) : Prop where
  parts : ∃ u v, s = u ++ t ++ v ∧ (∀ c ∈ u, graphic c = false) ∧ ∀ c ∈ v, graphic c = false
  first : ∀ c, t.head? = some c → graphic c = true
  last : ∀ c, t.getLast? = some c → graphic c = true

end Verif.A2l.Spec

namespace Verif.A2l
open Verif.Go Verif.A2l.Spec

theorem deleteEscapes_char {c : Char} (h : c ≠ '\\') (s : Str) : deleteEscapes (c :: s) = c :: deleteEscapes s := by
  rw [deleteEscapes]
  intro c' cs' h1 _; exact h h1

theorem unescaped_iff {s t : Str} : Unescaped s t ↔ deleteEscapes s = t := by
  constructor
  · intro h
    induction h with
    | done => rfl
    | char hc _ ih => rw [deleteEscapes_char hc, ih]
    | escape hc _ ih => rw [deleteEscapes, if_neg hc, ih]
    | lineEnd _ ih => rw [deleteEscapes, if_pos rfl, ih]
    | textEnd => decide
  · rintro rfl
    have main : ∀ n (s : Str), s.length ≤ n → Unescaped s (deleteEscapes s) := by
      intro n
      induction n with
      | zero => intro s hs; rw [List.length_eq_zero_iff.1 (Nat.le_zero.1 hs)]; exact .done
      | succ n ih =>
        intro s hs
        cases s with
        | nil => exact .done
        | cons c s =>
          simp only [List.length_cons] at hs
          by_cases hc : c = '\\'
          · subst hc
            cases s with
            | nil => exact .textEnd
            | cons d s =>
              simp only [List.length_cons] at hs
              by_cases hd : d = '\n'
              · subst hd
                rw [deleteEscapes, if_pos rfl]
                exact .lineEnd (ih s (by omega))
              · rw [deleteEscapes, if_neg hd]
                exact .escape hd (ih s (by omega))
          · rw [deleteEscapes_char hc]
            exact .char hc (ih s (by omega))
    exact main _ s (Nat.le_refl _)

theorem dropWhile_split (f : Char → Bool) (s : Str) : ∃ u, s = u ++ s.dropWhile f ∧ ∀ c ∈ u, f c = true := by
  induction s with
  | nil => exact ⟨[], rfl, by simp⟩
  | cons c s ih =>
    rw [List.dropWhile_cons]
    split
    · rename_i h
      obtain ⟨u, h1, h2⟩ := ih
      refine ⟨c :: u, by rw [List.cons_append, ← h1], fun d hd => ?_⟩
      rcases List.mem_cons.1 hd with rfl | hd
      · exact h
      · exact h2 d hd
    · exact ⟨[], rfl, by simp⟩

theorem dropWhile_head (f : Char → Bool) (s : Str) (c : Char) (h : (s.dropWhile f).head? = some c) : f c = false := by
  induction s with
  | nil => simp at h
  | cons d s ih =>
    rw [List.dropWhile_cons] at h
    split at h
    · exact ih h
    · rename_i hd
      simp only [List.head?_cons, Option.some.injEq] at h
      subst h
      simpa using hd

theorem trimmed_trim (graphic : Char → Bool) (s : Str) : Trimmed graphic s (trimFunc (fun c => !graphic c) s) := by
  unfold trimFunc
  obtain ⟨u, hu, hu'⟩ := dropWhile_split (fun c => !graphic c) s
  obtain ⟨v, hv, hv'⟩ := dropWhile_split (fun c => !graphic c) (s.dropWhile fun c => !graphic c).reverse
  have hv2 : s.dropWhile (fun c => !graphic c) =
      ((s.dropWhile fun c => !graphic c).reverse.dropWhile fun c => !graphic c).reverse ++ v.reverse := by
    conv => lhs; rw [← List.reverse_reverse (s.dropWhile _), hv]
    rw [List.reverse_append]
  refine ⟨⟨u, v.reverse, ?_, fun c hc => by simpa using hu' c hc, fun c hc => by simpa using hv' c (List.mem_reverse.1 hc)⟩, ?_, ?_⟩
  · rw [List.append_assoc, ← hv2]; exact hu
  · intro c hc
    have h1 : (s.dropWhile fun c => !graphic c).head? = some c := by
      rw [hv2, List.head?_append, hc]; rfl
    simpa using dropWhile_head _ _ _ h1
  · intro c hc
    rw [List.getLast?_reverse] at hc
    simpa using dropWhile_head _ _ _ hc

theorem trimmed_unique {graphic : Char → Bool} {s t t' : Str} (h : Trimmed graphic s t) (h' : Trimmed graphic s t') : t = t' := by
  have key : ∀ {a b : Str} {u u' : Str}, u ++ a = u' ++ b → (∀ c ∈ u, graphic c = false) → (∀ c ∈ u', graphic c = false) →
      (∀ c, a.head? = some c → graphic c = true) → (∀ c, b.head? = some c → graphic c = true) → a = b := by
    intro a b u
    induction u with
    | nil =>
      intro u' he _ hu' ha _
      cases u' with
      | nil => exact he
      | cons c u' =>
        have := ha c (by rw [List.nil_append] at he; rw [he]; rfl)
        rw [hu' c List.mem_cons_self] at this
        cases this
    | cons c u ih =>
      intro u' he hu hu' ha hb
      cases u' with
      | nil =>
        have := hb c (by rw [List.nil_append] at he; rw [← he]; rfl)
        rw [hu c List.mem_cons_self] at this
        cases this
      | cons c' u' =>
        injection he with _ he
        exact ih he (fun d hd => hu d (List.mem_cons_of_mem _ hd)) (fun d hd => hu' d (List.mem_cons_of_mem _ hd)) ha hb
  by_cases ht : t = []
  · subst ht
    by_cases ht' : t' = []
    · exact ht'.symm
    · exfalso
      obtain ⟨u, v, h1, h2, h3⟩ := h.parts
      obtain ⟨u', v', h1', _, _⟩ := h'.parts
      obtain ⟨c, r, rfl⟩ := List.exists_cons_of_ne_nil ht'
      have hc := h'.first c rfl
      have hm : c ∈ s := by rw [h1']; simp
      rw [h1] at hm
      simp only [List.append_nil, List.mem_append] at hm
      rcases hm with hm | hm
      · rw [h2 c hm] at hc; cases hc
      · rw [h3 c hm] at hc; cases hc
  · by_cases ht' : t' = []
    · exfalso
      subst ht'
      obtain ⟨u, v, h1, h2, h3⟩ := h'.parts
      obtain ⟨u', v', h1', _, _⟩ := h.parts
      obtain ⟨c, r, rfl⟩ := List.exists_cons_of_ne_nil ht
      have hc := h.first c rfl
      have hm : c ∈ s := by rw [h1']; simp
      rw [h1] at hm
      simp only [List.append_nil, List.mem_append] at hm
      rcases hm with hm | hm
      · rw [h2 c hm] at hc; cases hc
      · rw [h3 c hm] at hc; cases hc
    · obtain ⟨u, v, h1, h2, h3⟩ := h.parts
      obtain ⟨u', v', h1', h2', h3'⟩ := h'.parts
      have e1 : t ++ v = t' ++ v' := by
        refine key (u := u) (u' := u') (by rw [← List.append_assoc, ← List.append_assoc, ← h1, ← h1']) h2 h2' ?_ ?_
        · intro c hc
          obtain ⟨d, r, rfl⟩ := List.exists_cons_of_ne_nil ht
          exact h.first c (by simpa using hc)
        · intro c hc
          obtain ⟨d, r, rfl⟩ := List.exists_cons_of_ne_nil ht'
          exact h'.first c (by simpa using hc)
      have e2 : t.reverse = t'.reverse := by
        refine key (u := v.reverse) (u' := v'.reverse) (by rw [← List.reverse_append, ← List.reverse_append, e1])
          (fun c hc => h3 c (List.mem_reverse.1 hc)) (fun c hc => h3' c (List.mem_reverse.1 hc)) ?_ ?_
        · intro c hc; rw [List.head?_reverse] at hc; exact h.last c hc
        · intro c hc; rw [List.head?_reverse] at hc; exact h'.last c hc
      exact List.reverse_inj.1 e2

/-- C76: what is made of a file before it is cut into tokens, for every text: the escapes are left out, then the characters at both ends that
are not graphic; nothing else is changed. -/
theorem C76_clean_up (graphic : Char → Bool) (s t : Str) :
    cleanString graphic s = t ↔ ∃ r, Unescaped s r ∧ Trimmed graphic r t := by
  constructor
  · rintro rfl
    exact ⟨_, unescaped_iff.2 rfl, trimmed_trim _ _⟩
  · rintro ⟨r, h1, h2⟩
    rw [unescaped_iff] at h1
    subst h1
    exact trimmed_unique (trimmed_trim _ _) h2

/-- In a text a backslash is only at the end of a line or of the text. -/
def NoEscape (s : Str) : Prop := ∀ u c v, s = u ++ '\\' :: c :: v → c = '\n'

theorem unescaped_noEscape {s t : Str} (h : Unescaped s t) : NoEscape t := by
  induction h with
  | done => intro u c v h; simp at h
  | char hc _ ih =>
    intro u c v h
    cases u with
    | nil => injection h with h _; exact absurd h hc
    | cons d u => injection h with _ h; exact ih u c v h
  | escape _ _ ih => exact ih
  | lineEnd _ ih =>
    intro u c v h
    cases u with
    | nil => simp only [List.nil_append, List.cons.injEq] at h; exact h.2.1.symm
    | cons d u =>
      cases u with
      | nil => simp only [List.cons_append, List.nil_append, List.cons.injEq] at h; exact absurd h.2.1 (by decide)
      | cons e u =>
        simp only [List.cons_append, List.cons.injEq] at h
        exact ih u c v h.2.2
  | textEnd =>
    intro u c v h
    have := congrArg List.length h
    simp only [List.length_append, List.length_cons, List.length_nil] at this
    omega

theorem NoEscape.part {s u t v : Str} (h : NoEscape s) (hs : s = u ++ t ++ v) : NoEscape t := by
  intro a c b ht
  refine h (u ++ a) c (b ++ v) ?_
  rw [hs, ht]; simp

theorem noEscape_unescaped {s : Str} (h : NoEscape s) : deleteEscapes s = s := by
  have main : ∀ n (s : Str), s.length ≤ n → NoEscape s → deleteEscapes s = s := by
    intro n
    induction n with
    | zero => intro s hs _; rw [List.length_eq_zero_iff.1 (Nat.le_zero.1 hs)]; rfl
    | succ n ih =>
      intro s hs h
      cases s with
      | nil => rfl
      | cons c s =>
        simp only [List.length_cons] at hs
        by_cases hc : c = '\\'
        · subst hc
          cases s with
          | nil => rfl
          | cons d s =>
            simp only [List.length_cons] at hs
            obtain rfl := h [] d s rfl
            rw [deleteEscapes, if_pos rfl, ih s (by omega) (h.part (u := ['\\', '\n']) (v := []) (by simp))]
        · rw [deleteEscapes_char hc, ih s (by omega) (h.part (u := [c]) (v := []) (by simp))]
  exact main _ s (Nat.le_refl _) h

theorem noEscape_quotes {s : Str} (h : NoEscape s) : replaceEscapedQuotes s = s := by
  induction s with
  | nil => rfl
  | cons c s ih =>
    rw [replaceEscapedQuotes, ih (h.part (u := [c]) (v := []) (by simp))]
    rintro cs rfl rfl
    exact absurd (h [] '"' cs rfl) (by decide)

theorem clean_noEscape (graphic : Char → Bool) (s : Str) : NoEscape (cleanString graphic s) := by
  obtain ⟨r, h1, h2⟩ := (C76_clean_up graphic s _).1 rfl
  obtain ⟨u, v, h3, _⟩ := h2.parts
  exact (unescaped_noEscape h1).part h3

/-- The replacement of escaped quotation marks by apostrophes in `buildTokenGeneratorFromString` (token_generator.go:48) never has
an effect on a file: there are none left. -/
theorem C76_quotes_never (graphic : Char → Bool) (s : Str) :
    replaceEscapedQuotes (cleanString graphic s) = cleanString graphic s :=
  noEscape_quotes (clean_noEscape graphic s)

/-- The clean-up done twice gives nothing new. -/
theorem C76_once (graphic : Char → Bool) (s : Str) : cleanString graphic (cleanString graphic s) = cleanString graphic s := by
  rw [C76_clean_up]
  obtain ⟨r, _, h2⟩ := (C76_clean_up graphic s _).1 rfl
  exact ⟨_, unescaped_iff.2 (noEscape_unescaped (clean_noEscape graphic s)), ⟨[], [], by simp, by simp, by simp⟩, h2.first, h2.last⟩

/-- A file and its cleaned text have the same tokens, on every number of CPUs. -/
theorem C76_tokens (graphic : Char → Bool) (n : Nat) (s : Str) :
    tokensOfFile graphic n (cleanString graphic s) = tokensOfFile graphic n s := by
  unfold tokensOfFile
  rw [C76_once]

/-- What remains of a file in which every backslash is followed by another character of the line is a text to which C24 to C27 apply. -/
theorem C76_clean (graphic : Char → Bool) {s r : Str} (h : Unescaped s r) (hb : '\\' ∉ r) : Clean graphic (cleanString graphic s) := by
  obtain ⟨r', h1, h2⟩ := (C76_clean_up graphic s _).1 rfl
  have : r' = r := by rw [unescaped_iff] at h h1; rw [← h, ← h1]
  subst this
  obtain ⟨u, v, h3, _⟩ := h2.parts
  refine ⟨fun hm => hb ?_, h2.first, h2.last⟩
  rw [h3]; simp [hm]

/-- C27 for every file: the tokens are those of the cleaned text read as a document. -/
theorem C76_document (graphic : Char → Bool) {s r : Str} (h : Unescaped s r) (hb : '\\' ∉ r) {t : Str} (ht : Trimmed graphic r t)
    {d : Doc} (hd : IsText t d) : tokensOfFile graphic 1 s = some (d.tokens ++ [[]]) := by
  have hc : cleanString graphic s = t := (C76_clean_up graphic s t).2 ⟨r, h, ht⟩
  rw [← C76_tokens, hc]
  exact C27_partial graphic t (hc ▸ C76_clean graphic h hb) d hd

/-- Non-vacuity: a byte order mark, a path in a string and a line end: the escapes `\t` and `\"` are left out, with the closing
quotation mark. -/
example : ∃ r, Unescaped "\uFEFFA \"C:\\tmp\\\" B\n".toList r ∧ '\\' ∉ r ∧
    Trimmed (fun c => decide (32 ≤ c.toNat ∧ c ≠ '\uFEFF')) r "A \"C:mp B".toList := by
  refine ⟨"\uFEFFA \"C:mp B\n".toList, unescaped_iff.2 (by decide), by decide, ⟨['\uFEFF'], ['\n'], by decide, by decide, by decide⟩, ?_, ?_⟩
  · intro c hc; have : c = 'A' := by injection hc with hc; exact hc.symm
    subst this; decide
  · intro c hc; have : c = 'B' := by injection hc with hc; exact hc.symm
    subst this; decide

/-- Non-vacuity of `C76_document`: the example of C27 with an escape in front. -/
example : tokensOfFile (fun c => decide (32 ≤ c.toNat)) 1
    ("\\x".toList ++ "// a \"b\n/begin PROJECT p\n /* c // d\n e */ \"f  /g // /* \"\"h\"\" \"\n/end\nPROJECT".toList) =
      some (sampleDoc.tokens ++ [[]]) := by
  refine C76_document _ (r := "// a \"b\n/begin PROJECT p\n /* c // d\n e */ \"f  /g // /* \"\"h\"\" \"\n/end\nPROJECT".toList)
    (unescaped_iff.2 (by decide +kernel)) (by decide +kernel) ⟨⟨[], [], by simp, by simp, by simp⟩, ?_, ?_⟩ sampleDoc_text
  · intro c hc; have : c = '/' := by injection hc with hc; exact hc.symm
    subst this; decide
  · have hl : (("// a \"b\n/begin PROJECT p\n /* c // d\n e */ \"f  /g // /* \"\"h\"\" \"\n/end\nPROJECT".toList).getLast?).all
        (fun c => decide (32 ≤ c.toNat)) = true := by decide +kernel
    intro c hc
    rw [hc] at hl
    exact hl

end Verif.A2l
