import Verif.A2l.RenameProps
import Verif.A2l.TokProps

/-!
C104 from the text of the file on: exchanging two names in the text exchanges them in the tokens.
-/

namespace Verif.A2l.Rename
open Verif.Go Verif.A2l Lang Verif.Conc

/-- `g` applied to every word of a text; words are separated by white space, which stays. `w` is the beginning of the word before the text. -/
def everyField (g : Str → Str) (w : Str) : Str → Str
  | [] => g w
  | c :: t => if isSpace c then g w ++ c :: everyField g [] t else everyField g (w ++ [c]) t

/-- Both names exchanged in a text. -/
def swapText (x y s : Str) : Str := everyField (swap x y) [] s

/-- A name as it may stand in a file: graphic characters, no white space, quotation mark, slash or backslash. -/
structure TextName (graphic : Char → Bool) (x : Str) : Prop where
  nonempty : x ≠ []
  graphic : ∀ c ∈ x, graphic c = true
  plain : ∀ c ∈ x, isSpace c = false ∧ c ≠ '"' ∧ c ≠ '/' ∧ c ≠ '\\'

section
variable {graphic : Char → Bool} {x y : Str}

theorem swap_cases (x y w : Str) : swap x y w = w ∨ (w = x ∧ swap x y w = y) ∨ (w = y ∧ swap x y w = x) := by
  unfold swap
  split
  · next h => exact .inr (.inl ⟨h, rfl⟩)
  · split
    · next h => exact .inr (.inr ⟨h, rfl⟩)
    · exact .inl rfl

theorem swap_nil (hx : x ≠ []) (hy : y ≠ []) {w : Str} : swap x y w = [] ↔ w = [] := by
  rcases swap_cases x y w with h | ⟨rfl, h⟩ | ⟨rfl, h⟩ <;> rw [h]
  · exact ⟨fun e => absurd e hy, fun e => absurd e hx⟩
  · exact ⟨fun e => absurd e hx, fun e => absurd e hy⟩

theorem swap_noSpace (hx : TextName graphic x) (hy : TextName graphic y) {w : Str} (hw : ∀ c ∈ w, isSpace c = false) :
    ∀ c ∈ swap x y w, isSpace c = false := by
  rcases swap_cases x y w with h | ⟨_, h⟩ | ⟨_, h⟩ <;> rw [h]
  · exact hw
  · exact fun c hc => (hy.plain c hc).1
  · exact fun c hc => (hx.plain c hc).1

theorem noSpace_append {w : Str} {c : Char} (hw : ∀ c ∈ w, isSpace c = false) (hc : isSpace c = false) : ∀ d ∈ w ++ [c], isSpace d = false := by
  intro d hd
  rcases List.mem_append.1 hd with h | h
  · exact hw d h
  · rw [List.mem_singleton.1 h]; exact hc

/-! ### Words and lines -/

theorem fields_swap (hx : TextName graphic x) (hy : TextName graphic y) (t : Str) : ∀ w : Str, (∀ c ∈ w, isSpace c = false) →
    fieldsAux [] (everyField (swap x y) w t) = (fieldsAux w.reverse t).map (swap x y) := by
  have hnil := @swap_nil x y hx.nonempty hy.nonempty
  induction t with
  | nil =>
    intro w hw
    have := fieldsAux_word (swap_noSpace hx hy hw) [] []
    simp only [List.append_nil] at this
    simp only [everyField, this, fieldsAux, List.isEmpty_reverse, List.reverse_reverse]
    by_cases h : w = []
    · subst h; rw [hnil.2 rfl]; rfl
    · have h' : ¬ swap x y w = [] := fun e => h (hnil.1 e)
      have b1 : w.isEmpty = false := by simpa using h
      have b2 : (swap x y w).isEmpty = false := by simpa using h'
      rw [b1, b2]; rfl
  | cons c t ih =>
    intro w hw
    simp only [everyField]
    by_cases hc : isSpace c = true
    · rw [if_pos hc, fieldsAux_word (swap_noSpace hx hy hw)]
      simp only [fieldsAux, hc, if_true, List.append_nil, List.isEmpty_reverse, List.reverse_reverse]
      have := ih [] (by simp)
      simp only [List.reverse_nil] at this
      by_cases h : w = []
      · subst h; rw [hnil.2 rfl]; exact this
      · have h' : ¬ swap x y w = [] := fun e => h (hnil.1 e)
        have b1 : w.isEmpty = false := by simpa using h
        have b2 : (swap x y w).isEmpty = false := by simpa using h'
        rw [b1, b2, this]; rfl
    · have hc' : isSpace c = false := by simpa using hc
      rw [if_neg hc, ih _ (noSpace_append hw hc')]
      simp [fieldsAux, hc']

theorem newline_space {w : Str} (h : ∀ c ∈ w, isSpace c = false) : '\n' ∉ w := fun hm => by
  have := h _ hm
  revert this; decide

theorem split_prefix {u : Str} (h : '\n' ∉ u) {r l : Str} {ls : List Str} (hr : splitChar '\n' r = l :: ls) : splitChar '\n' (u ++ r) = (u ++ l) :: ls := by
  induction u with
  | nil => simpa using hr
  | cons c u ih =>
    simp only [List.mem_cons, not_or] at h
    rw [List.cons_append, splitChar, if_neg (fun e => h.1 e.symm), ih h.2]
    rfl

theorem lines_swap (hx : TextName graphic x) (hy : TextName graphic y) (t : Str) : ∀ (w : Str) (l : Str) (ls : List Str), (∀ c ∈ w, isSpace c = false) →
    splitChar '\n' t = l :: ls →
    splitChar '\n' (everyField (swap x y) w t) = everyField (swap x y) w l :: ls.map (everyField (swap x y) []) := by
  induction t with
  | nil =>
    intro w l ls hw h
    simp only [splitChar, List.cons.injEq] at h
    obtain ⟨rfl, rfl⟩ := h
    simp only [everyField, List.map_nil]
    exact splitChar_single (newline_space (swap_noSpace hx hy hw))
  | cons c t ih =>
    intro w l ls hw h
    obtain ⟨l', ls', hl⟩ : ∃ l' ls', splitChar '\n' t = l' :: ls' := by
      cases e : splitChar '\n' t with
      | nil => exact absurd e (splitChar_ne_nil _ _)
      | cons a b => exact ⟨a, b, rfl⟩
    simp only [splitChar, hl] at h
    simp only [everyField]
    have hn := newline_space (swap_noSpace hx hy hw)
    by_cases hcn : c = '\n'
    · subst hcn
      simp only [if_true, List.cons.injEq] at h
      obtain ⟨rfl, rfl⟩ := h
      rw [if_pos (by decide), splitChar_append hn, ih [] l' ls' (by simp) hl]
      simp [everyField]
    · rw [if_neg hcn] at h
      simp only [List.cons.injEq] at h
      obtain ⟨rfl, rfl⟩ := h
      by_cases hc : isSpace c = true
      · rw [if_pos hc]
        have hcons : swap x y w ++ c :: everyField (swap x y) [] t = (swap x y w ++ [c]) ++ everyField (swap x y) [] t := by simp
        rw [hcons, split_prefix (by simp [hn, Ne.symm hcn]) (ih [] l' ls' (by simp) hl)]
        simp [everyField, hc]
      · rw [if_neg hc, ih _ l' ls' (noSpace_append hw (by simpa using hc)) hl]
        simp [everyField, hc]

/-! ### Tokens -/

/-- `g` applied to the word of an event. -/
def mapEv (g : Str → Str) : Ev → Ev
  | .word w => .word (g w)
  | .nl => .nl

def mapMode (f : Str → Str) : Mode → Mode
  | .quote a => .quote (f a)
  | .tag t => .tag (f t)
  | m => m

theorem no_contains {sub w : Str} {c : Char} (hs : c ∈ sub) (hw : c ∉ w) : contains sub w = false := by
  cases h : contains sub w with
  | false => rfl
  | true =>
    obtain ⟨a, b, e⟩ := (contains_iff sub w).1 h
    exact absurd (by rw [← e]; simp [hs]) hw

theorem lexWord_plain {w : Str} (h1 : '"' ∉ w) (h2 : '/' ∉ w) : lexWord w = (.normal, [w]) := by
  unfold lexWord
  rw [no_contains (c := '"') (by decide) h1, no_contains (sub := beginLineComment) (c := '/') (by decide) h2,
    no_contains (sub := beginMultilineComment) (c := '/') (by decide) h2, no_contains (sub := slash) (c := '/') (by decide) h2]
  rfl

theorem swapWords_space (a t : Str) : swapWords x y (a ++ [' '] ++ t) = swapWords x y a ++ [' '] ++ swapWords x y t := by
  have := everyWord_blank (swap x y) a t []
  simpa [swapWords] using this

theorem swapWords_word {w : Str} (h : ' ' ∉ w) : swapWords x y w = swap x y w := by
  unfold swapWords
  rw [everyWord_word _ _ h]
  rfl

theorem count_swap (hx : '"' ∉ x) (hy : '"' ∉ y) (w : Str) : countChar '"' (swap x y w) = countChar '"' w := by
  have c0 : ∀ {u : Str}, '"' ∉ u → countChar '"' u = 0 := fun h => List.count_eq_zero.2 h
  rcases swap_cases x y w with h | ⟨rfl, h⟩ | ⟨rfl, h⟩ <;> rw [h]
  · rw [c0 hx, c0 hy]
  · rw [c0 hx, c0 hy]

theorem count_everyWord (hx : '"' ∉ x) (hy : '"' ∉ y) (t : Str) : ∀ w, countChar '"' (everyWord (swap x y) w t) = countChar '"' (w ++ t) := by
  induction t with
  | nil => intro w; simp only [everyWord, count_swap hx hy, List.append_nil]
  | cons c t ih =>
    intro w
    simp only [everyWord]
    split
    · next hc =>
      subst hc
      have h1 := count_swap hx hy w
      have h2 := ih []
      simp only [countChar, List.nil_append] at h1 h2 ⊢
      simp only [List.count_append, List.count_cons, h1, h2]
    · rw [ih]
      simp

theorem lexWord_swap (hx : TextName graphic x) (hy : TextName graphic y) {w : Str} (hw : ' ' ∉ w) :
    lexWord (swap x y w) = (mapMode (swapWords x y) (lexWord w).1, (lexWord w).2.map (swapWords x y)) := by
  have qx : '"' ∉ x := fun h => (hx.plain _ h).2.1 rfl
  have qy : '"' ∉ y := fun h => (hy.plain _ h).2.1 rfl
  have sx : '/' ∉ x := fun h => (hx.plain _ h).2.2.1 rfl
  have sy : '/' ∉ y := fun h => (hy.plain _ h).2.2.1 rfl
  rcases swap_cases x y w with h | ⟨rfl, h⟩ | ⟨rfl, h⟩
  · rw [h]
    have hf : swapWords x y w = w := by rw [swapWords_word hw, h]
    unfold lexWord
    repeat' split
    all_goals simp [mapMode, hf]
  · rw [h, lexWord_plain qy sy, lexWord_plain qx sx]
    simp [mapMode, swapWords_word hw, h]
  · rw [h, lexWord_plain qx sx, lexWord_plain qy sy]
    simp [mapMode, swapWords_word hw, h]

theorem end_swap (hx : TextName graphic x) (hy : TextName graphic y) (w : Str) :
    contains endMultilineComment (swap x y w) = contains endMultilineComment w := by
  have sx : '/' ∉ x := fun h => (hx.plain _ h).2.2.1 rfl
  have sy : '/' ∉ y := fun h => (hy.plain _ h).2.2.1 rfl
  rcases swap_cases x y w with h | ⟨rfl, h⟩ | ⟨rfl, h⟩ <;> rw [h]
  · rw [no_contains (c := '/') (by decide) sx, no_contains (c := '/') (by decide) sy]
  · rw [no_contains (c := '/') (by decide) sx, no_contains (c := '/') (by decide) sy]

theorem lexStep_swap (hx : TextName graphic x) (hy : TextName graphic y) (m : Mode) (e : Ev) (he : ∀ w, e = .word w → ' ' ∉ w) :
    lexStep (mapMode (swapWords x y) m) (mapEv (swap x y) e) = (mapMode (swapWords x y) (lexStep m e).1, (lexStep m e).2.map (swapWords x y)) := by
  have qx : '"' ∉ x := fun h => (hx.plain _ h).2.1 rfl
  have qy : '"' ∉ y := fun h => (hy.plain _ h).2.1 rfl
  cases e with
  | nl => cases m <;> rfl
  | word w =>
    have hw := he w rfl
    have hf := swapWords_word (x := x) (y := y) hw
    cases m with
    | normal => exact lexWord_swap hx hy hw
    | line => rfl
    | block =>
      simp only [mapEv, mapMode, lexStep, end_swap hx hy]
      split <;> simp
    | quote acc =>
      have hq : countChar quotationMark (swapWords x y acc ++ [' '] ++ swap x y w) = countChar quotationMark (acc ++ [' '] ++ w) := by
        rw [← hf, ← swapWords_space]
        exact count_everyWord qx qy _ []
      simp only [mapEv, mapMode, lexStep, hq]
      split
      · simp only [List.map_cons, List.map_nil, swapWords_space, hf]
      · simp only [List.map_nil, swapWords_space, hf]
    | tag t => simp only [mapEv, mapMode, lexStep, List.map_cons, List.map_nil, swapWords_space, hf]
    | dead => rfl

theorem lex_swap (hx : TextName graphic x) (hy : TextName graphic y) (es : List Ev) (he : ∀ w, .word w ∈ es → ' ' ∉ w) :
    ∀ m, lex (mapMode (swapWords x y) m) (es.map (mapEv (swap x y))) = (lex m es).map (swapWords x y) := by
  induction es with
  | nil => intro m; rfl
  | cons e es ih =>
    intro m
    simp only [List.map_cons, lex, lexStep_swap hx hy m e (fun w h => he w (by simp [h])), List.map_append,
      ih (fun w h => he w (by simp [h]))]

theorem stream_swap (hx : TextName graphic x) (hy : TextName graphic y) (lines : List Str) :
    textStream (lines.map (everyField (swap x y) [])) = (textStream lines).map (mapEv (swap x y)) := by
  have hf : ∀ l : Str, fields (everyField (swap x y) [] l) = (fields l).map (swap x y) := fun l => by
    simpa [fields] using fields_swap hx hy l [] (by simp)
  simp only [textStream, stream, List.map_map, List.map_flatten]
  congr 1
  apply List.map_congr_left
  intro l _
  simp [Function.comp, hf, lineEvs, mapEv]

theorem stream_words {lines : List Str} {w : Str} (h : .word w ∈ textStream lines) : ' ' ∉ w := by
  simp only [textStream, stream, List.mem_flatten, List.mem_map] at h
  obtain ⟨_, ⟨_, ⟨l, _, rfl⟩, rfl⟩, h⟩ := h
  simp only [lineEvs, List.mem_append, List.mem_map, List.mem_singleton, reduceCtorEq, or_false, Ev.word.injEq] at h
  obtain ⟨u, hu, rfl⟩ := h
  intro hs
  have := fields_no_space hu _ hs
  revert this; decide

theorem share_mapT {α β : Type} (f : α → β) (xs : List α) (n i : Nat) : share (xs.map f) n i = (share xs n i).map f := by
  simp [share, List.map_take, List.map_drop]

/-! ### The clean-up -/

theorem chars_swap (t : Str) : ∀ (w : Str) (c : Char), c ∈ everyField (swap x y) w t → c ∈ w ++ t ∨ c ∈ x ∨ c ∈ y := by
  have hs : ∀ (w : Str) (c : Char), c ∈ swap x y w → c ∈ w ∨ c ∈ x ∨ c ∈ y := by
    intro w c hc
    rcases swap_cases x y w with h | ⟨_, h⟩ | ⟨_, h⟩ <;> rw [h] at hc
    · exact .inl hc
    · exact .inr (.inr hc)
    · exact .inr (.inl hc)
  induction t with
  | nil => intro w c hc; simpa using hs w c hc
  | cons d t ih =>
    intro w c hc
    simp only [everyField] at hc
    split at hc
    · rcases List.mem_append.1 hc with h | h
      · rcases hs w c h with h | h
        · exact .inl (by simp [h])
        · exact .inr h
      · rcases List.mem_cons.1 h with rfl | h
        · exact .inl (by simp)
        · rcases ih [] c h with h | h
          · exact .inl (by simp only [List.nil_append] at h; simp [h])
          · exact .inr h
    · rcases ih _ c hc with h | h
      · exact .inl (by simpa using h)
      · exact .inr h

theorem head_swap (hx : TextName graphic x) (hy : TextName graphic y) (t : Str) : ∀ (w : Str) (c : Char),
    (everyField (swap x y) w t).head? = some c → (w ++ t).head? = some c ∨ graphic c = true := by
  have hs : ∀ (w : Str) (c : Char), (swap x y w).head? = some c → w.head? = some c ∨ graphic c = true := by
    intro w c hc
    rcases swap_cases x y w with h | ⟨_, h⟩ | ⟨_, h⟩ <;> rw [h] at hc
    · exact .inl hc
    · exact .inr (hy.graphic c (List.mem_of_head? hc))
    · exact .inr (hx.graphic c (List.mem_of_head? hc))
  induction t with
  | nil => intro w c hc; simpa using hs w c hc
  | cons d t ih =>
    intro w c hc
    simp only [everyField] at hc
    split at hc
    · by_cases h0 : w = []
      · subst h0
        rw [(swap_nil hx.nonempty hy.nonempty).2 rfl] at hc
        exact .inl hc
      · have h1 : swap x y w ≠ [] := fun e => h0 ((swap_nil hx.nonempty hy.nonempty).1 e)
        have e : ∀ {u v : Str}, u ≠ [] → (u ++ v).head? = u.head? := by
          intro u v hu
          cases u with
          | nil => exact absurd rfl hu
          | cons a u => rfl
        rw [e h1] at hc
        rw [e h0]
        exact hs w c hc
    · simpa using ih _ c hc

theorem field_nil (hx : x ≠ []) (hy : y ≠ []) (t : Str) : ∀ w, everyField (swap x y) w t = [] → w ++ t = [] := by
  induction t with
  | nil => intro w h; simpa using (swap_nil hx hy).1 h
  | cons d t ih =>
    intro w h
    simp only [everyField] at h
    split at h
    · simp at h
    · simpa using ih _ h

theorem last_swap (hx : TextName graphic x) (hy : TextName graphic y) (t : Str) : ∀ (w : Str) (c : Char),
    (everyField (swap x y) w t).getLast? = some c → (w ++ t).getLast? = some c ∨ graphic c = true := by
  induction t with
  | nil =>
    intro w c hc
    simp only [everyField] at hc
    rcases swap_cases x y w with h | ⟨_, h⟩ | ⟨_, h⟩ <;> rw [h] at hc
    · exact .inl (by simpa using hc)
    · exact .inr (hy.graphic c (List.mem_of_getLast? hc))
    · exact .inr (hx.graphic c (List.mem_of_getLast? hc))
  | cons d t ih =>
    intro w c hc
    simp only [everyField] at hc
    split at hc
    · rw [List.getLast?_append, List.getLast?_cons, Option.some_or, Option.some.injEq] at hc
      rw [List.getLast?_append, List.getLast?_cons, Option.some_or, Option.some.injEq]
      cases e : (everyField (swap x y) [] t).getLast? with
      | none =>
        have e1 := field_nil hx.nonempty hy.nonempty t [] (List.getLast?_eq_none_iff.1 e)
        simp only [List.nil_append] at e1
        subst e1
        rw [e] at hc
        exact .inl hc
      | some c' =>
        rw [e] at hc
        simp only [Option.getD_some] at hc
        subst hc
        rcases ih [] c' e with h | h
        · simp only [List.nil_append] at h
          rw [h]; exact .inl rfl
        · exact .inr h
    · simpa using ih _ c hc

theorem clean_swap (hx : TextName graphic x) (hy : TextName graphic y) {s : Str} (h : Clean graphic s) : Clean graphic (swapText x y s) := by
  obtain ⟨h1, h2, h3⟩ := h
  refine ⟨fun hm => ?_, fun c hc => ?_, fun c hc => ?_⟩
  · rcases chars_swap s [] _ hm with h | h | h
    · exact h1 (by simpa using h)
    · exact (hx.plain _ h).2.2.2 rfl
    · exact (hy.plain _ h).2.2.2 rfl
  · rcases head_swap hx hy s [] c hc with h | h
    · exact h2 c (by simpa using h)
    · exact h
  · rcases last_swap hx hy s [] c hc with h | h
    · exact h3 c (by simpa using h)
    · exact h

/-- C104, the tokens: exchanging two names in the text of a file, wherever one of them is a whole word, exchanges them in its tokens, on any number
of CPUs. For texts that the clean-up leaves alone (C76). -/
theorem C104_tokens (hx : TextName graphic x) (hy : TextName graphic y) {s : Str} (hc : Clean graphic s) (n : Nat) :
    tokensOfFile graphic n (swapText x y s) = (tokensOfFile graphic n s).map (List.map (swapWords x y)) := by
  have hc' := clean_swap hx hy hc
  obtain ⟨l, ls, hl⟩ : ∃ l ls, splitChar '\n' s = l :: ls := by
    cases e : splitChar '\n' s with
    | nil => exact absurd e (splitChar_ne_nil _ _)
    | cons a b => exact ⟨a, b, rfl⟩
  have hlines : splitChar '\n' (swapText x y s) = (splitChar '\n' s).map (everyField (swap x y) []) := by
    rw [hl]
    exact lines_swap hx hy s [] l ls (by simp) hl
  have h0 : swapWords x y [] = [] := by
    rw [swapWords_word (by simp)]; exact (swap_nil hx.nonempty hy.nonempty).2 rfl
  unfold tokensOfFile
  rw [cleanString_id hc, cleanString_id hc', tokensFromString_eq, tokensFromString_eq, replaceEscapedQuotes_id hc.1, replaceEscapedQuotes_id hc'.1, hlines]
  simp only [Option.map_some, List.map_append, List.map_cons, List.map_nil, h0, List.map_flatten, List.map_map]
  congr 3
  apply List.map_congr_left
  intro i _
  simp only [Function.comp, share_mapT, stream_swap hx hy]
  exact lex_swap hx hy _ (fun w h => stream_words h) .normal

/-- C104 for a whole file: the names exchanged in the text, the file cut into tokens by `n` workers and parsed with its modules in parallel by `np`
workers, is the result for the file itself with the names exchanged. `E` is the file itself. -/
theorem C104_file {E : Env} (hs : E.multi = false) (hx : TextName graphic x) (hy : TextName graphic y) (nx : Name E.floatOk x) (ny : Name E.floatOk y)
    {s : Str} (hc : Clean graphic s) {n : Nat} (ht : tokensOfFile graphic n s = some E.toks) {toks : List Str}
    (ht' : tokensOfFile graphic n (swapText x y s) = some toks) (np : Nat) (sched : Nat → List Collect.Op) :
    parse { E with toks := toks } .parseA2l 0 = renP (swapWords x y) (parse E .parseA2l 0) ∧
    parse (mtEnv { E with toks := toks } np sched) .parseA2l 0 = renP (swapWords x y) (parse (mtEnv E np sched) .parseA2l 0) := by
  rw [C104_tokens hx hy hc, ht, Option.map_some, Option.some.injEq] at ht'
  subst ht'
  exact ⟨C104_sequential hs nx ny (by decide) 0, C104_parallel hs nx ny np sched _ 0⟩

end

/-- A text in which `metre` is a name, a word of a text in quotation marks and part of other words. -/
def metreText : Str := (str! "/begin UNIT metre \"a metre long\" /end UNIT\n// metre\nx metres 1\n")

theorem metreText_clean : Clean (fun c => decide (32 ≤ c.toNat) || c == '\n') metreText := by
  refine ⟨by decide, ?_, ?_⟩
  · intro c h; cases h; rfl
  · intro c h
    have : metreText.getLast? = some '\n' := by decide
    rw [this] at h; cases h; rfl

example : TextName (fun c => decide (32 ≤ c.toNat) || c == '\n') (str! "metre") ∧ TextName (fun c => decide (32 ≤ c.toNat) || c == '\n') (str! "m1") :=
  ⟨⟨by decide, by decide, by decide⟩, ⟨by decide, by decide, by decide⟩⟩
example : swapText (str! "metre") (str! "m1") metreText = (str! "/begin UNIT m1 \"a m1 long\" /end UNIT\n// m1\nx metres 1\n") := by decide +kernel
example : tokensOfFile (fun c => decide (32 ≤ c.toNat) || c == '\n') 2 (swapText (str! "metre") (str! "m1") metreText) =
    some [str! "/begin UNIT", str! "m1", str! "\"a m1 long\"", str! "/end UNIT", str! "x", str! "metres", str! "1", []] := by decide +kernel

end Verif.A2l.Rename
