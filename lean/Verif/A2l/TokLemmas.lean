import Verif.A2l.Lexer
import Verif.A2l.TokSpec

/-! Lexing the documents of `Verif.A2l.Spec`. -/

namespace Verif.A2l

open Verif.Go
open Verif.A2l.Spec

/-- The word read so far (reversed), if any, as an event. -/
def flush (p : Str) : List Ev := if p.isEmpty then [] else [.word p.reverse]

/-- Events of a text, character by character. -/
def scan (p : Str) : Str → List Ev
  | [] => flush p ++ [.nl]
  | c :: cs =>
    if c = '\n' then flush p ++ .nl :: scan [] cs
    else if isSpace c then flush p ++ scan [] cs
    else scan (c :: p) cs

theorem isSpace_nl : isSpace '\n' = true := by decide

/-- The stream of the lines is the stream of the characters. -/
theorem scan_eq (s p : Str) :
    scan p s = match splitChar '\n' s with
      | [] => []
      | l :: ls => (fieldsAux p l).map Ev.word ++ [.nl] ++ textStream ls := by
  induction s generalizing p with
  | nil =>
    simp only [scan, splitChar, fieldsAux, flush, textStream, List.map_nil]
    split <;> rfl
  | cons c cs ih =>
    simp only [scan, splitChar]
    split
    · next hc =>
      rw [ih []]
      simp only [fieldsAux, flush]
      cases h : splitChar '\n' cs with
      | nil => exact absurd h (splitChar_ne_nil _ _)
      | cons l ls =>
        simp only [textStream, List.map_cons, stream_cons, lineEvs, fields]
        split <;> simp
    · next hc =>
      cases h : splitChar '\n' cs with
      | nil => exact absurd h (splitChar_ne_nil _ _)
      | cons l ls =>
        simp only [fieldsAux]
        split
        · next hs =>
          rw [ih [], h]
          simp only [flush]
          split <;> simp
        · next hs => rw [ih (c :: p), h]

theorem textStream_split (s : Str) : textStream (splitChar '\n' s) = scan [] s := by
  rw [scan_eq]
  cases h : splitChar '\n' s with
  | nil => exact absurd h (splitChar_ne_nil _ _)
  | cons l ls => rfl

/-- Events that are complete after `x`, and the word that is not. -/
def evsIn (p : Str) : Str → List Ev
  | [] => []
  | c :: cs =>
    if c = '\n' then flush p ++ .nl :: evsIn [] cs
    else if isSpace c then flush p ++ evsIn [] cs
    else evsIn (c :: p) cs

def pend (p : Str) : Str → Str
  | [] => p
  | c :: cs => if isSpace c then pend [] cs else pend (c :: p) cs

theorem scan_append (p x y : Str) : scan p (x ++ y) = evsIn p x ++ scan (pend p x) y := by
  induction x generalizing p with
  | nil => rfl
  | cons c cs ih =>
    simp only [List.cons_append, scan, evsIn, pend]
    by_cases h1 : c = '\n'
    · subst h1
      simp [isSpace_nl, ih]
    · by_cases h2 : isSpace c = true
      · simp [h1, h2, ih]
      · simp [h1, h2, ih]

/-- Line ends of white space. -/
def nls (sep : Str) : List Ev := List.replicate (sep.count '\n') .nl

theorem evsIn_blank {sep : Str} (hb : Blank sep) : evsIn [] sep = nls sep ∧ pend [] sep = [] := by
  induction sep with
  | nil => exact ⟨rfl, rfl⟩
  | cons c cs ih =>
    have hc : isSpace c = true := hb c (by simp)
    obtain ⟨i1, i2⟩ := ih (fun x hx => hb x (by simp [hx]))
    simp only [evsIn, pend, hc, if_true]
    refine ⟨?_, i2⟩
    by_cases h1 : c = '\n'
    · subst h1
      simp [flush, i1, nls, List.replicate_succ]
    · simp [h1, flush, i1, nls, List.count_cons_of_ne h1]

theorem evsIn_sep {sep : Str} (hb : Blank sep) (hne : sep ≠ []) (p : Str) :
    evsIn p sep = flush p ++ nls sep ∧ pend p sep = [] := by
  cases sep with
  | nil => exact absurd rfl hne
  | cons c cs =>
    have hc : isSpace c = true := hb c (by simp)
    obtain ⟨i1, i2⟩ := evsIn_blank (sep := cs) (fun x hx => hb x (by simp [hx]))
    simp only [evsIn, pend, hc, if_true]
    refine ⟨?_, i2⟩
    by_cases h1 : c = '\n'
    · subst h1
      simp [i1, nls, List.replicate_succ]
    · simp [h1, i1, nls, List.count_cons_of_ne h1]

theorem evsIn_append (p x y : Str) : evsIn p (x ++ y) = evsIn p x ++ evsIn (pend p x) y ∧
    pend p (x ++ y) = pend (pend p x) y := by
  induction x generalizing p with
  | nil => exact ⟨rfl, rfl⟩
  | cons c cs ih =>
    simp only [List.cons_append, evsIn, pend]
    by_cases h1 : c = '\n'
    · subst h1
      simp [isSpace_nl, ih]
    · by_cases h2 : isSpace c = true
      · simp [h1, h2, ih]
      · simp [h1, h2, ih]

theorem evsIn_word {w : Str} (hw : ∀ c ∈ w, isSpace c = false) (p : Str) :
    evsIn p w = [] ∧ pend p w = w.reverse ++ p := by
  induction w generalizing p with
  | nil => exact ⟨rfl, rfl⟩
  | cons c cs ih =>
    have hc := hw c (by simp)
    have h1 : c ≠ '\n' := by rintro rfl; rw [isSpace_nl] at hc; simp at hc
    simp only [evsIn, pend, hc, h1, if_false]
    have := ih (fun x hx => hw x (by simp [hx])) (c :: p)
    simpa using this

theorem lex_nls {m : Mode} (h : m ≠ .line) (k : Nat) :
    lex m (List.replicate k .nl) = [] ∧ lexMode m (List.replicate k .nl) = m := by
  induction k with
  | zero => exact ⟨rfl, rfl⟩
  | succ k ih =>
    rw [List.replicate_succ]
    refine ⟨by rw [lex_nl h]; exact ih.1, ?_⟩
    have : lexMode m (.nl :: List.replicate k .nl) = lexMode m (List.replicate k .nl) := by
      cases m <;> first | (exact absurd rfl h) | rfl
    rw [this]; exact ih.2

/-- The events `es` lead from normal mode to normal mode and give tokens `ts`. -/
def Gives (es : List Ev) (ts : List Str) : Prop := lex .normal es = ts ∧ lexMode .normal es = .normal

theorem Gives.append {a b : List Ev} {s t : List Str} (h1 : Gives a s) (h2 : Gives b t) : Gives (a ++ b) (s ++ t) := by
  refine ⟨?_, ?_⟩
  · rw [lex_append, h1.2, h1.1, h2.1]
  · rw [lexMode_append, h1.2, h2.2]

theorem gives_nls (sep : Str) : Gives (nls sep) [] := lex_nls (by simp) _

theorem not_contains_char {c : Char} {sub w : Str} (hc : c ∈ sub) (hw : c ∉ w) : contains sub w = false := by
  cases h : contains sub w with
  | false => rfl
  | true =>
    obtain ⟨a, b, rfl⟩ := (contains_iff _ _).mp h
    exact absurd (by simp [hc]) hw

theorem lexWord_plain {w : Str} (h : Plain w) : lexWord w = (.normal, [w]) := by
  have hq : '"' ∉ w := fun hm => (h.2 _ hm).2.1 rfl
  have hs : '/' ∉ w := fun hm => (h.2 _ hm).2.2 rfl
  unfold lexWord
  rw [not_contains_char (sub := [quotationMark]) (c := '"') (by simp [quotationMark]) hq,
    not_contains_char (sub := beginLineComment) (c := '/') (by simp [beginLineComment]) hs,
    not_contains_char (sub := beginMultilineComment) (c := '/') (by simp [beginMultilineComment]) hs,
    not_contains_char (sub := slash) (c := '/') (by simp [slash]) hs]
  rfl

/-- A word that ends in a separator. -/
theorem evsIn_word_sep {w sep : Str} (hw : ∀ c ∈ w, isSpace c = false) (hne : w ≠ []) (hb : Blank sep) (hsep : sep ≠ []) :
    evsIn [] (w ++ sep) = .word w :: nls sep ∧ pend [] (w ++ sep) = [] := by
  have h1 := evsIn_word hw []
  have h2 := evsIn_append [] w sep
  rw [h1.1, h1.2] at h2
  have h3 := evsIn_sep hb hsep (w.reverse ++ [])
  rw [h2.1, h2.2, h3.1, h3.2]
  refine ⟨?_, rfl⟩
  have : ¬ (w.reverse ++ []).isEmpty = true := by simpa using hne
  simp [flush, hne]

/-! ### Strings -/

theorem countChar_append (c : Char) (a b : Str) : countChar c (a ++ b) = countChar c a + countChar c b :=
  List.count_append

theorem countChar_reverse (c : Char) (a : Str) : countChar c a.reverse = countChar c a := List.count_reverse

theorem unwords_glue (a b : Str) (ws : List Str) : unwords (a :: b :: ws) = unwords ((a ++ [' '] ++ b) :: ws) := by
  cases ws with
  | nil => simp [unwords]
  | cons w ws => simp [unwords]

/-- The rest of a string: `acc` has been read in full words, `p` of the current word. -/
theorem quote_rest (c : Str) (hd : doubled c = true) : ∀ (acc p sep : Str),
    countChar '"' acc % 2 = 1 → countChar '"' p % 2 = 0 → Blank sep → sep ≠ [] →
    lex (.quote acc) (evsIn p (c ++ '"' :: sep)) = [unwords (acc :: fieldsAux p (c ++ ['"']))] ∧
    lexMode (.quote acc) (evsIn p (c ++ '"' :: sep)) = .normal ∧ pend p (c ++ '"' :: sep) = [] := by
  have hq : isSpace '"' = false := by decide
  have hqn : ('"' : Char) ≠ '\n' := by decide
  have push : ∀ (acc p : Str) (es : List Ev), countChar '"' acc % 2 = 1 → countChar '"' p % 2 = 0 → p ≠ [] →
      lex (.quote acc) (.word p.reverse :: es) = lex (.quote (acc ++ [' '] ++ p.reverse)) es ∧
      lexMode (.quote acc) (.word p.reverse :: es) = lexMode (.quote (acc ++ [' '] ++ p.reverse)) es := by
    intro acc p es ha hp _
    have : ¬ countChar quotationMark (acc ++ [' '] ++ p.reverse) % 2 = 0 := by
      rw [countChar_append, countChar_append, countChar_reverse]
      have : countChar quotationMark [' '] = 0 := rfl
      simp only [quotationMark] at *
      omega
    simp only [lex, lexMode, lexStep, this, if_false, List.nil_append, and_self]
  induction c using doubled.induct with
  | case1 cs ih =>
    intro acc p sep ha hp hb hne
    simp only [doubled] at hd
    have := ih hd acc ('"' :: '"' :: p) sep ha (by simp only [countChar, List.count_cons_self] at hp ⊢; omega) hb hne
    simpa [evsIn, pend, fieldsAux, hq] using this
  | case2 cs h =>
    intro acc p sep ha hp hb hne
    cases cs with
    | nil => simp [doubled] at hd
    | cons x xs =>
      have : x ≠ '"' := by rintro rfl; exact h xs rfl
      simp [doubled] at hd
  | case3 x cs h1 h2 ih =>
    intro acc p sep ha hp hb hne
    have hx : x ≠ '"' := by rintro rfl; exact h2 rfl
    have hd' : doubled cs = true := by
      have : doubled (x :: cs) = doubled cs := by
        rw [doubled]
        · exact h1
        · exact h2
      rw [this] at hd; exact hd
    by_cases hs : isSpace x = true
    · by_cases hp0 : p = []
      · subst hp0
        have := ih hd' acc [] sep ha (by simp [countChar]) hb hne
        by_cases hn : x = '\n'
        · subst hn
          simp only [List.cons_append, evsIn, pend, fieldsAux, isSpace_nl, if_true, flush, List.isEmpty_nil, List.nil_append,
            lex, lexMode, lexStep]
          exact this
        · simp only [List.cons_append, evsIn, pend, fieldsAux, hs, hn, if_true, if_false, flush, List.isEmpty_nil, List.nil_append]
          exact this
      · have hpe : p.isEmpty = false := by simpa using hp0
        have hodd : countChar '"' (acc ++ [' '] ++ p.reverse) % 2 = 1 := by
          rw [countChar_append, countChar_append, countChar_reverse]
          have : countChar '"' [' '] = 0 := rfl
          omega
        have := ih hd' (acc ++ [' '] ++ p.reverse) [] sep hodd (by simp [countChar]) hb hne
        rw [← unwords_glue] at this
        by_cases hn : x = '\n'
        · subst hn
          simp only [List.cons_append, evsIn, pend, fieldsAux, isSpace_nl, if_true, flush, hpe, Bool.false_eq_true, if_false,
            List.nil_append]
          rw [(push acc p _ ha hp hp0).1, (push acc p _ ha hp hp0).2]
          exact this
        · simp only [List.cons_append, evsIn, pend, fieldsAux, hs, hn, if_true, if_false, flush, hpe, Bool.false_eq_true,
            List.nil_append]
          rw [(push acc p _ ha hp hp0).1, (push acc p _ ha hp hp0).2]
          exact this
    · have hn : x ≠ '\n' := by rintro rfl; exact hs isSpace_nl
      have := ih hd' acc (x :: p) sep ha (by unfold countChar at *; rw [List.count_cons_of_ne hx]; exact hp) hb hne
      simpa [evsIn, pend, fieldsAux, hs, hn] using this
  | case4 =>
    intro acc p sep ha hp hb hne
    have h3 := evsIn_sep hb hne ('"' :: p)
    have e1 : evsIn p ([] ++ '"' :: sep) = evsIn ('"' :: p) sep := by simp [evsIn, hq]
    have e2 : pend p ([] ++ '"' :: sep) = pend ('"' :: p) sep := by simp [pend, hq]
    rw [e1, e2, h3.1, h3.2]
    have heven : countChar quotationMark (acc ++ [' '] ++ ('"' :: p).reverse) % 2 = 0 := by
      rw [countChar_append, countChar_append, countChar_reverse]
      have : countChar quotationMark [' '] = 0 := rfl
      have h4 : countChar quotationMark ('"' :: p) = countChar '"' p + 1 := by
        unfold countChar quotationMark; exact List.count_cons_self
      simp only [quotationMark] at *
      omega
    have hl := lex_nls (m := .normal) (by simp) (sep.count '\n')
    refine ⟨?_, ?_, rfl⟩
    · simp only [flush, List.isEmpty_cons, Bool.false_eq_true, if_false, List.cons_append, List.nil_append, lex, lexStep, heven,
        if_true, nls, hl.1, fieldsAux, hq]
      simp [unwords]
    · simp only [flush, List.isEmpty_cons, Bool.false_eq_true, if_false, List.cons_append, List.nil_append, lexMode, lexStep, heven,
        if_true, nls, hl.2]

theorem before_head (marker w : Str) : before marker ('"' :: w) = false := by
  unfold before
  cases indexOf marker ('"' :: w) with
  | none => rfl
  | some k => simp [indexOf, quotationMark]

theorem lexWord_string (w : Str) : lexWord ('"' :: w) =
    if countChar quotationMark ('"' :: w) % 2 = 0 then (.normal, ['"' :: w]) else (.quote ('"' :: w), []) := by
  have : contains [quotationMark] ('"' :: w) = true := (contains_char _ _).mpr (by simp [quotationMark])
  unfold lexWord
  rw [this, before_head, before_head]
  rfl

/-- The first word of a string: `p` (reversed) is what follows the opening mark. -/
theorem quote_first (c : Str) (hd : doubled c = true) : ∀ (p sep : Str),
    countChar '"' p % 2 = 0 → Blank sep → sep ≠ [] →
    Gives (evsIn (p ++ ['"']) (c ++ '"' :: sep)) [unwords (fieldsAux (p ++ ['"']) (c ++ ['"']))] ∧
    pend (p ++ ['"']) (c ++ '"' :: sep) = [] := by
  have hq : isSpace '"' = false := by decide
  have hqn : ('"' : Char) ≠ '\n' := by decide
  have hcnt : ∀ p : Str, countChar '"' ('"' :: p.reverse) = countChar '"' p + 1 := by
    intro p
    unfold countChar
    rw [List.count_cons_self, List.count_reverse]
  induction c using doubled.induct with
  | case1 cs ih =>
    intro p sep hp hb hne
    simp only [doubled] at hd
    have := ih hd ('"' :: '"' :: p) sep (by simp only [countChar, List.count_cons_self] at hp ⊢; omega) hb hne
    simpa [evsIn, pend, fieldsAux, hq] using this
  | case2 cs h =>
    intro p sep hp hb hne
    cases cs with
    | nil => simp [doubled] at hd
    | cons x xs =>
      have : x ≠ '"' := by rintro rfl; exact h xs rfl
      simp [doubled] at hd
  | case3 x cs h1 h2 ih =>
    intro p sep hp hb hne
    have hx : x ≠ '"' := by rintro rfl; exact h2 rfl
    have hd' : doubled cs = true := by
      have : doubled (x :: cs) = doubled cs := by
        rw [doubled]
        · exact h1
        · exact h2
      rw [this] at hd; exact hd
    by_cases hs : isSpace x = true
    · have hodd : countChar '"' ('"' :: p.reverse) % 2 = 1 := by rw [hcnt]; omega
      have hodd' : ¬ countChar quotationMark ('"' :: p.reverse) % 2 = 0 := by simp only [quotationMark]; omega
      have hr := quote_rest cs hd' ('"' :: p.reverse) [] sep hodd (by simp [countChar]) hb hne
      have hw : lexWord ('"' :: p.reverse) = (.quote ('"' :: p.reverse), []) := by
        rw [lexWord_string, if_neg hodd']
      have hpe : (p ++ ['"']).isEmpty = false := by simp
      have hrev : (p ++ ['"']).reverse = '"' :: p.reverse := by simp
      by_cases hn : x = '\n'
      · subst hn
        simp only [Gives, List.cons_append, evsIn, pend, fieldsAux, isSpace_nl, if_true, flush, hpe, Bool.false_eq_true, if_false,
          hrev, List.nil_append, lex, lexMode, lexStep, hw]
        exact ⟨⟨hr.1, hr.2.1⟩, hr.2.2⟩
      · simp only [Gives, List.cons_append, evsIn, pend, fieldsAux, hs, hn, if_true, if_false, flush, hpe, Bool.false_eq_true,
          hrev, List.nil_append, lex, lexMode, lexStep, hw]
        exact ⟨⟨hr.1, hr.2.1⟩, hr.2.2⟩
    · have hn : x ≠ '\n' := by rintro rfl; exact hs isSpace_nl
      have := ih hd' (x :: p) sep (by unfold countChar at *; rw [List.count_cons_of_ne hx]; exact hp) hb hne
      simpa [evsIn, pend, fieldsAux, hs, hn] using this
  | case4 =>
    intro p sep hp hb hne
    have h3 := evsIn_sep hb hne ('"' :: (p ++ ['"']))
    have e1 : evsIn (p ++ ['"']) ([] ++ '"' :: sep) = evsIn ('"' :: (p ++ ['"'])) sep := by simp [evsIn, hq]
    have e2 : pend (p ++ ['"']) ([] ++ '"' :: sep) = pend ('"' :: (p ++ ['"'])) sep := by simp [pend, hq]
    rw [e1, e2, h3.1, h3.2]
    have hrev : ('"' :: (p ++ ['"'])).reverse = '"' :: (p.reverse ++ ['"']) := by simp
    have heven : countChar quotationMark ('"' :: (p.reverse ++ ['"'])) % 2 = 0 := by
      rw [show ('"' :: (p.reverse ++ ['"']) : Str) = ('"' :: p.reverse) ++ ['"'] from rfl, countChar_append]
      have : countChar quotationMark ['"'] = 1 := rfl
      have := hcnt p
      simp only [quotationMark] at *
      omega
    have hw : lexWord ('"' :: (p.reverse ++ ['"'])) = (.normal, ['"' :: (p.reverse ++ ['"'])]) := by
      rw [lexWord_string, if_pos heven]
    have hl := lex_nls (m := .normal) (by simp) (sep.count '\n')
    refine ⟨⟨?_, ?_⟩, rfl⟩
    · simp only [flush, List.isEmpty_cons, Bool.false_eq_true, if_false, hrev, List.cons_append, List.nil_append, lex, lexStep, hw,
        nls, hl.1, fieldsAux, hq]
      simp [unwords]
    · simp only [flush, List.isEmpty_cons, Bool.false_eq_true, if_false, hrev, List.cons_append, List.nil_append, lexMode, lexStep,
        hw, nls, hl.2]

theorem gives_quoted {c sep : Str} (hd : doubled c = true) (hb : Blank sep) (hne : sep ≠ []) :
    Gives (evsIn [] (Item.text (.quoted c) ++ sep)) (Item.tokens (.quoted c)) ∧ pend [] (Item.text (.quoted c) ++ sep) = [] := by
  have := quote_first c hd [] sep (by simp [countChar]) hb hne
  have hq : isSpace '"' = false := by decide
  simpa [Item.text, Item.tokens, evsIn, pend, fields, fieldsAux, hq] using this

/-! ### Tags -/

theorem gives_tag {b : Bool} {gap kw sep : Str} (hg : Blank gap) (hg0 : gap ≠ []) (hk : Plain kw) (hb : Blank sep) (hne : sep ≠ []) :
    Gives (evsIn [] (Item.text (.tag b gap kw) ++ sep)) (Item.tokens (.tag b gap kw)) ∧
    pend [] (Item.text (.tag b gap kw) ++ sep) = [] := by
  have key : ∀ t : Str, t ≠ [] → (∀ c ∈ t, isSpace c = false) → lexWord t = (.tag t, []) →
      Gives (evsIn [] (t ++ gap ++ kw ++ sep)) [t ++ [' '] ++ kw] ∧ pend [] (t ++ gap ++ kw ++ sep) = [] := by
    intro t ht0 ht hw
    have htag : ∀ g : Str, lex (.tag t) (nls g) = [] ∧ lexMode (.tag t) (nls g) = .tag t :=
      fun g => lex_nls (m := .tag t) (by simp) _
    have h1 := evsIn_word_sep ht ht0 hg hg0
    have h2 := evsIn_word_sep (fun c hc => (hk.2 c hc).1) hk.1 hb hne
    have h3 := evsIn_append [] (t ++ gap) (kw ++ sep)
    rw [h1.1, h1.2, h2.1, h2.2] at h3
    rw [show t ++ gap ++ kw ++ sep = t ++ gap ++ (kw ++ sep) by simp, h3.1, h3.2]
    refine ⟨⟨?_, ?_⟩, rfl⟩
    · simp only [List.cons_append, lex, lexStep, hw, List.nil_append]
      rw [lex_append, (htag gap).1, (htag gap).2]
      simp only [lex, lexStep, List.nil_append]
      rw [(gives_nls sep).1]
      rfl
    · simp only [List.cons_append, lexMode, lexStep, hw]
      rw [lexMode_append, (htag gap).2]
      simp only [lexMode, lexStep]
      exact (gives_nls sep).2
  cases b with
  | true =>
    have := key "/begin".toList (by decide) (by decide +kernel) (by decide +kernel)
    simpa [Item.text, Item.tokens] using this
  | false =>
    have := key "/end".toList (by decide) (by decide +kernel) (by decide +kernel)
    simpa [Item.text, Item.tokens] using this

/-! ### Comments -/

/-- The complete words of a text that starts inside a word: the first one is what has been read
plus the text up to the first white space; or there is none and no white space. -/
theorem evsIn_first (x p : Str) (hp : p ≠ []) :
    (evsIn p x = [] ∧ pend p x = x.reverse ++ p ∧ (∀ c ∈ x, isSpace c = false) ∧ firstWord x = x) ∨
    (∃ es, evsIn p x = .word (p.reverse ++ firstWord x) :: es) := by
  induction x generalizing p with
  | nil => left; exact ⟨rfl, rfl, by simp, rfl⟩
  | cons c cs ih =>
    by_cases hs : isSpace c = true
    · right
      have hpe : p.isEmpty = false := by simpa using hp
      have hfw : firstWord (c :: cs) = [] := by simp [firstWord, hs]
      by_cases hn : c = '\n'
      · subst hn
        exact ⟨.nl :: evsIn [] cs, by simp [evsIn, flush, hp, hfw]⟩
      · exact ⟨evsIn [] cs, by simp [evsIn, hn, hs, flush, hp, hfw]⟩
    · have hn : c ≠ '\n' := by rintro rfl; exact hs isSpace_nl
      have hfw : firstWord (c :: cs) = c :: firstWord cs := by simp [firstWord, hs]
      rcases ih (c :: p) (by simp) with ⟨h1, h2, h3, h4⟩ | ⟨es, h⟩
      · left
        refine ⟨by simp [evsIn, hn, hs, h1], by simp [pend, hs, h2], ?_, by rw [hfw, h4]⟩
        intro d hd
        rcases List.mem_cons.mp hd with rfl | hd
        · simpa using hs
        · exact h3 d hd
      · right
        refine ⟨es, ?_⟩
        simp only [evsIn, hn, hs, if_false]
        rw [hfw]
        simpa using h

/-- Every complete word is part of the text. -/
theorem evsIn_infix (x p w : Str) (h : Ev.word w ∈ evsIn p x) : w <:+: p.reverse ++ x := by
  induction x generalizing p with
  | nil => simp [evsIn] at h
  | cons c cs ih =>
    have hfl : ∀ p : Str, Ev.word w ∈ flush p → w <:+: p.reverse ++ c :: cs := by
      intro p hp
      unfold flush at hp
      split at hp
      · simp at hp
      · simp at hp; subst hp; exact (List.prefix_append _ _).isInfix
    have hrest : w <:+: ([] : Str).reverse ++ cs → w <:+: p.reverse ++ c :: cs := by
      intro h
      refine List.IsInfix.trans h ?_
      exact ⟨p.reverse ++ [c], [], by simp⟩
    simp only [evsIn] at h
    split at h
    · rcases List.mem_append.mp h with h | h
      · exact hfl p h
      · rcases List.mem_cons.mp h with h | h
        · simp at h
        · exact hrest (ih [] h)
    · split at h
      · rcases List.mem_append.mp h with h | h
        · exact hfl p h
        · exact hrest (ih [] h)
      · have := ih (c :: p) h
        simpa using this

theorem evsIn_no_nl (x p : Str) (h : '\n' ∉ x) : Ev.nl ∉ evsIn p x := by
  induction x generalizing p with
  | nil => simp [evsIn]
  | cons c cs ih =>
    have hc : c ≠ '\n' := by rintro rfl; simp at h
    have h' : '\n' ∉ cs := fun hm => h (by simp [hm])
    simp only [evsIn, hc, if_false]
    split
    · intro hm
      rcases List.mem_append.mp hm with hm | hm
      · unfold flush at hm; split at hm <;> simp at hm
      · exact ih [] h' hm
    · exact ih _ h'

theorem lex_line_words (es : List Ev) (h : Ev.nl ∉ es) : lex .line es = [] ∧ lexMode .line es = .line := by
  induction es with
  | nil => exact ⟨rfl, rfl⟩
  | cons e es ih =>
    have := ih (fun hm => h (by simp [hm]))
    cases e with
    | nl => simp at h
    | word w => simpa [lex, lexMode, lexStep] using this

theorem lex_line_nls {k : Nat} (hk : 0 < k) :
    lex .line (List.replicate k .nl) = [] ∧ lexMode .line (List.replicate k .nl) = .normal := by
  obtain ⟨j, rfl⟩ : ∃ j, k = j + 1 := ⟨k - 1, by omega⟩
  rw [List.replicate_succ]
  exact lex_nls (m := .normal) (by simp) j

theorem lex_block_words (es : List Ev) (h : ∀ w, Ev.word w ∈ es → ¬ endMultilineComment <:+: w) :
    lex .block es = [] ∧ lexMode .block es = .block := by
  induction es with
  | nil => exact ⟨rfl, rfl⟩
  | cons e es ih =>
    have hi := ih (fun w hm => h w (by simp [hm]))
    cases e with
    | nl => simpa [lex, lexMode, lexStep] using hi
    | word w =>
      have : contains endMultilineComment w = false := by
        cases hc : contains endMultilineComment w with
        | false => rfl
        | true => exact absurd ((contains_iff _ _).mp hc) (h w (by simp))
      simpa [lex, lexMode, lexStep, this] using hi

theorem indexOf_char_cons {c x : Char} (hx : x ≠ c) (w : Str) : indexOf [c] (x :: w) = (indexOf [c] w).map (· + 1) := by
  have : (c == x) = false := by simpa using fun h : c = x => hx h.symm
  simp [indexOf, List.isPrefixOf, this]

theorem indexOf_none {sub w : Str} (h : ¬ sub <:+: w) : indexOf sub w = none := by
  cases hi : indexOf sub w with
  | none => rfl
  | some k => exact absurd ((contains_iff _ _).mp (indexOf_contains hi)) h

theorem indexOf_some_of_mem {c : Char} {w : Str} (h : c ∈ w) : ∃ k, indexOf [c] w = some k := by
  induction w with
  | nil => simp at h
  | cons x xs ih =>
    by_cases hx : x = c
    · subst hx; exact ⟨0, by simp [indexOf]⟩
    · rcases List.mem_cons.mp h with h | h
      · exact absurd h.symm hx
      · obtain ⟨k, hk⟩ := ih h
        exact ⟨k + 1, by rw [indexOf_char_cons hx, hk]; rfl⟩

/-- A word that begins like a block comment. -/
theorem lexWord_block {v : Str} (h : '"' ∈ v ∨ ¬ ['/', '/'] <:+: ('/' :: '*' :: v)) :
    lexWord ('/' :: '*' :: v) = (if contains endMultilineComment ('/' :: '*' :: v) then .normal else .block, []) := by
  have hb : contains beginMultilineComment ('/' :: '*' :: v) = true := by
    rw [contains_iff]; exact ⟨[], v, by simp [beginMultilineComment]⟩
  unfold lexWord
  by_cases hq : '"' ∈ v
  · have h1 : contains [quotationMark] ('/' :: '*' :: v) = true := (contains_char _ _).mpr (by simp [quotationMark, hq])
    have h2 : before beginMultilineComment ('/' :: '*' :: v) = true := by
      obtain ⟨k, hk⟩ := indexOf_some_of_mem hq
      unfold before
      have e1 : indexOf beginMultilineComment ('/' :: '*' :: v) = some 0 := by
        simp [indexOf, beginMultilineComment, List.isPrefixOf]
      have e2 : indexOf [quotationMark] ('/' :: '*' :: v) = some (k + 2) := by
        unfold quotationMark
        rw [indexOf_char_cons (by decide), indexOf_char_cons (by decide), hk]
        rfl
      rw [e1, e2]
      simp
    rw [h1, h2]
    rfl
  · have h1 : contains [quotationMark] ('/' :: '*' :: v) = false :=
      not_contains_char (c := '"') (by simp [quotationMark]) (by simp [hq])
    have h2 : contains beginLineComment ('/' :: '*' :: v) = false := by
      cases hc : contains beginLineComment ('/' :: '*' :: v) with
      | false => rfl
      | true =>
        rcases h with h | h
        · exact absurd h hq
        · exact absurd ((contains_iff _ _).mp hc) h
    rw [h1, h2, hb]
    rfl

/-- A word that begins like a line comment. -/
theorem lexWord_line {v : Str} (h : '"' ∉ v ∨ ¬ ['/', '*'] <:+: '/' :: '/' :: v) : lexWord ('/' :: '/' :: v) = (.line, []) := by
  have hb : contains beginLineComment ('/' :: '/' :: v) = true := by
    rw [contains_iff]; exact ⟨[], v, by simp [beginLineComment]⟩
  unfold lexWord
  by_cases hq : '"' ∈ v
  · have h0 : ¬ ['/', '*'] <:+: '/' :: '/' :: v := by
      rcases h with h | h
      · exact absurd hq h
      · exact h
    have h1 : contains [quotationMark] ('/' :: '/' :: v) = true := (contains_char _ _).mpr (by simp [quotationMark, hq])
    have h2 : before beginMultilineComment ('/' :: '/' :: v) = false := by
      unfold before
      rw [indexOf_none (sub := beginMultilineComment) h0]
    have h3 : before beginLineComment ('/' :: '/' :: v) = true := by
      obtain ⟨k, hk⟩ := indexOf_some_of_mem hq
      unfold before
      have e1 : indexOf beginLineComment ('/' :: '/' :: v) = some 0 := by
        simp [indexOf, beginLineComment, List.isPrefixOf]
      have e2 : indexOf [quotationMark] ('/' :: '/' :: v) = some (k + 2) := by
        unfold quotationMark
        rw [indexOf_char_cons (by decide), indexOf_char_cons (by decide), hk]
        rfl
      rw [e1, e2]
      simp
    rw [h1, h2, h3]
    rfl
  · have h1 : contains [quotationMark] ('/' :: '/' :: v) = false :=
      not_contains_char (c := '"') (by simp [quotationMark]) (by simp [hq])
    rw [h1, hb]
    rfl

theorem gives_line {c sep : Str} (hw : Item.Wf (.lineComment c)) (hb : Blank sep) (hnl : '\n' ∈ sep) :
    Gives (evsIn [] (Item.text (.lineComment c) ++ sep)) [] ∧ pend [] (Item.text (.lineComment c) ++ sep) = [] := by
  obtain ⟨hl, hf⟩ := hw
  have hs : isSpace '/' = false := by decide
  have hne : sep ≠ [] := by rintro rfl; simp at hnl
  have hlw : lexWord ('/' :: '/' :: firstWord c) = (.line, []) := by
    apply lexWord_line
    rcases hf with hf | hf
    · exact Or.inl hf
    · right
      intro h
      rcases List.infix_cons_iff.mp h with h | h
      · have := List.prefix_iff_eq_take.mp h
        simp at this
      · exact hf h
  have e : Item.text (.lineComment c) ++ sep = ['/', '/'] ++ (c ++ sep) := by simp [Item.text]
  have h1 := evsIn_append [] ['/', '/'] (c ++ sep)
  have h2 : evsIn [] ['/', '/'] = [] ∧ pend [] ['/', '/'] = ['/', '/'] := by simp [evsIn, pend, hs]
  rw [h2.1, h2.2] at h1
  have h3 := evsIn_append ['/', '/'] c sep
  have h4 := evsIn_sep hb hne (pend ['/', '/'] c)
  have hcnt : 0 < sep.count '\n' := List.count_pos_iff.mpr hnl
  have hend : lex .line (nls sep) = [] ∧ lexMode .line (nls sep) = .normal := lex_line_nls hcnt
  have hfl : ∀ p, lex .line (flush p) = [] ∧ lexMode .line (flush p) = .line := by
    intro p
    apply lex_line_words
    unfold flush
    split <;> simp
  rw [e, h1.1, h1.2, h3.1, h3.2, h4.1, h4.2]
  refine ⟨?_, rfl⟩
  rcases evsIn_first c ['/', '/'] (by simp) with ⟨g1, g2, g3, g4⟩ | ⟨es, g⟩
  · rw [g1, g2]
    have hfw : flush (c.reverse ++ ['/', '/']) = [.word ('/' :: '/' :: firstWord c)] := by
      rw [g4]; simp [flush]
    rw [hfw]
    refine ⟨?_, ?_⟩
    · simp only [List.nil_append, List.cons_append, lex, lexStep, hlw]
      exact hend.1
    · simp only [List.nil_append, List.cons_append, lexMode, lexStep, hlw]
      exact hend.2
  · have hnn := evsIn_no_nl c ['/', '/'] hl
    rw [g] at hnn ⊢
    have hes := lex_line_words es (fun hm => hnn (by simp [hm]))
    have hr : (['/', '/'] : Str).reverse ++ firstWord c = '/' :: '/' :: firstWord c := rfl
    rw [hr]
    refine ⟨?_, ?_⟩
    · simp only [List.nil_append, List.cons_append, lex, lexStep, hlw]
      rw [lex_append, lex_append, hes.1, hes.2, (hfl _).1, (hfl _).2, hend.1]
      rfl
    · simp only [List.nil_append, List.cons_append, lexMode, lexStep, hlw]
      rw [lexMode_append, lexMode_append, hes.2, (hfl _).2, hend.2]

theorem prefix_cons_cons {a b c d : Char} {w : Str} (h : [a, b] <+: c :: d :: w) : a = c ∧ b = d := by
  obtain ⟨t, ht⟩ := h
  simp at ht
  exact ⟨ht.1, ht.2.1⟩

theorem firstWord_infix (c : Str) : firstWord c <:+: c := (List.takeWhile_prefix _).isInfix

theorem firstWord_head (c : Str) (h : c.head? ≠ some '/') : (firstWord c).head? ≠ some '/' := by
  cases c with
  | nil => simp [firstWord]
  | cons x xs =>
    unfold firstWord
    rw [List.takeWhile_cons]
    split
    · simpa using h
    · simp

/-- No `*/` in `/*v` when there is none in `v` and `v` does not start with a slash. -/
theorem no_end {v : Str} (h1 : ¬ ['*', '/'] <:+: v) (h2 : v.head? ≠ some '/') : ¬ ['*', '/'] <:+: '/' :: '*' :: v := by
  intro h
  rcases List.infix_cons_iff.mp h with h | h
  · exact absurd (prefix_cons_cons h).1 (by decide)
  · rcases List.infix_cons_iff.mp h with h | h
    · cases v with
      | nil => obtain ⟨t, ht⟩ := h; simp at ht
      | cons x xs => simp at h2; exact h2 (prefix_cons_cons h).2.symm
    · exact h1 h

theorem gives_block {c sep : Str} (hw : Item.Wf (.blockComment c)) (hb : Blank sep) (hne : sep ≠ []) :
    Gives (evsIn [] (Item.text (.blockComment c) ++ sep)) [] ∧ pend [] (Item.text (.blockComment c) ++ sep) = [] := by
  obtain ⟨hbt, hhd, hf⟩ := hw
  have hs : isSpace '/' = false := by decide
  have hst : isSpace '*' = false := by decide
  have e : Item.text (.blockComment c) ++ sep = ['/', '*'] ++ (c ++ (['*', '/'] ++ sep)) := by simp [Item.text]
  have h1 := evsIn_append [] ['/', '*'] (c ++ (['*', '/'] ++ sep))
  have h2 : evsIn [] ['/', '*'] = [] ∧ pend [] ['/', '*'] = ['*', '/'] := by simp [evsIn, pend, hs, hst]
  rw [h2.1, h2.2] at h1
  have h3 := evsIn_append ['*', '/'] c (['*', '/'] ++ sep)
  have h4 := evsIn_append (pend ['*', '/'] c) ['*', '/'] sep
  have h5 : ∀ q, evsIn q ['*', '/'] = [] ∧ pend q ['*', '/'] = '/' :: '*' :: q := by
    intro q; simp [evsIn, pend, hs, hst]
  rw [(h5 _).1, (h5 _).2] at h4
  have h6 := evsIn_sep hb hne ('/' :: '*' :: pend ['*', '/'] c)
  have hfl : flush ('/' :: '*' :: pend ['*', '/'] c) = [.word ((pend ['*', '/'] c).reverse ++ ['*', '/'])] := by
    simp [flush]
  have hend : ∀ q : Str, contains endMultilineComment (q ++ ['*', '/']) = true := by
    intro q; rw [contains_iff]; exact ⟨q, [], by simp [endMultilineComment]⟩
  rw [e, h1.1, h1.2, h3.1, h3.2, h4.1, h4.2, h6.1, h6.2, hfl]
  refine ⟨?_, rfl⟩
  rcases evsIn_first c ['*', '/'] (by simp) with ⟨g1, g2, g3, g4⟩ | ⟨es, g⟩
  · rw [g1, g2]
    have hr : (c.reverse ++ ['*', '/']).reverse ++ ['*', '/'] = '/' :: '*' :: (c ++ ['*', '/']) := by simp
    have hlw : lexWord ('/' :: '*' :: (c ++ ['*', '/'])) = (.normal, []) := by
      rw [lexWord_block]
      · have := hend ('/' :: '*' :: c)
        rw [show ('/' :: '*' :: (c ++ ['*', '/']) : Str) = ('/' :: '*' :: c) ++ ['*', '/'] from rfl, this]
        rfl
      · rw [g4] at hf
        rcases hf with hf | hf
        · left; simp [hf]
        · right
          intro h
          rcases List.infix_cons_iff.mp h with h | h
          · exact absurd (prefix_cons_cons h).2 (by decide)
          · rcases List.infix_cons_iff.mp h with h | h
            · obtain ⟨t, ht⟩ := h; simp at ht
            · -- `//` in `c*/`
              rcases h with ⟨a, b, hab⟩
              have hlast : b ≠ [] := by
                rintro rfl
                have h7 := congrArg List.reverse hab
                simp at h7
              obtain ⟨b', z, rfl⟩ : ∃ b' z, b = b' ++ [z] := ⟨b.dropLast, b.getLast hlast, (List.dropLast_concat_getLast hlast).symm⟩
              have h8 : a ++ ['/', '/'] ++ b' = c ++ ['*'] := by
                have : (a ++ ['/', '/'] ++ b') ++ [z] = (c ++ ['*']) ++ ['/'] := by simpa using hab
                exact (List.append_inj' this rfl).1
              have hlast2 : b' ≠ [] := by
                rintro rfl
                have h7 := congrArg List.reverse h8
                simp at h7
              obtain ⟨b'', z', rfl⟩ : ∃ b'' z', b' = b'' ++ [z'] := ⟨b'.dropLast, b'.getLast hlast2, (List.dropLast_concat_getLast hlast2).symm⟩
              have h9 : a ++ ['/', '/'] ++ b'' = c := by
                have : (a ++ ['/', '/'] ++ b'') ++ [z'] = c ++ ['*'] := by simpa using h8
                exact (List.append_inj' this rfl).1
              exact hf ⟨a, b'', h9⟩
    rw [hr]
    have := gives_nls sep
    refine ⟨?_, ?_⟩
    · simp only [List.nil_append, List.cons_append, lex, lexStep, hlw]
      exact this.1
    · simp only [List.nil_append, List.cons_append, lexMode, lexStep, hlw]
      exact this.2
  · have hr : (['*', '/'] : Str).reverse ++ firstWord c = '/' :: '*' :: firstWord c := rfl
    have hnend : ¬ ['*', '/'] <:+: '/' :: '*' :: firstWord c :=
      no_end (fun h => hbt (h.trans (firstWord_infix c))) (firstWord_head c hhd)
    have hlw : lexWord ('/' :: '*' :: firstWord c) = (.block, []) := by
      rw [lexWord_block]
      · have : contains endMultilineComment ('/' :: '*' :: firstWord c) = false := by
          cases hc : contains endMultilineComment ('/' :: '*' :: firstWord c) with
          | false => rfl
          | true => exact absurd ((contains_iff _ _).mp hc) hnend
        rw [this]; rfl
      · rcases hf with hf | hf
        · exact Or.inl hf
        · right
          intro h
          rcases List.infix_cons_iff.mp h with h | h
          · exact absurd (prefix_cons_cons h).2 (by decide)
          · rcases List.infix_cons_iff.mp h with h | h
            · obtain ⟨t, ht⟩ := h; simp at ht
            · exact hf h
    have hall : ∀ w, Ev.word w ∈ evsIn ['*', '/'] c → ¬ endMultilineComment <:+: w := by
      intro w hm h
      have := evsIn_infix c ['*', '/'] w hm
      exact no_end hbt hhd (h.trans this)
    rw [g] at hall ⊢
    rw [hr]
    have hes := lex_block_words es (fun w hm => hall w (by simp [hm]))
    have hn := gives_nls sep
    refine ⟨?_, ?_⟩
    · simp only [List.nil_append, List.cons_append, lex, lexStep, hlw]
      rw [lex_append, hes.1, hes.2]
      simp only [lex, lexStep, hend, if_true]
      rw [hn.1]
      rfl
    · simp only [List.nil_append, List.cons_append, lexMode, lexStep, hlw]
      rw [lexMode_append, hes.2]
      simp only [lexMode, lexStep, hend, if_true]
      exact hn.2

/-! ### Documents -/

theorem gives_item {i : Item} {sep : Str} (hi : i.Wf) (hs : SepAfter i sep) :
    Gives (evsIn [] (i.text ++ sep)) i.tokens ∧ pend [] (i.text ++ sep) = [] := by
  obtain ⟨hb, hne, hnl⟩ := hs
  cases i with
  | word w =>
    have h := evsIn_word_sep (fun c hc => (hi.2 c hc).1) hi.1 hb hne
    simp only [Item.text, Item.tokens]
    rw [h.1, h.2]
    refine ⟨⟨?_, ?_⟩, rfl⟩
    · simp only [lex, lexStep, lexWord_plain hi]
      rw [(gives_nls sep).1]
      rfl
    · simp only [lexMode, lexStep, lexWord_plain hi]
      exact (gives_nls sep).2
  | quoted c => exact gives_quoted hi hb hne
  | tag b gap kw => exact gives_tag hi.1 hi.2.1 hi.2.2 hb hne
  | lineComment c => exact gives_line hi hb (hnl ⟨c, rfl⟩)
  | blockComment c => exact gives_block hi hb hne

theorem gives_doc {d : Doc} (hd : d.Wf) : Gives (evsIn [] d.text) d.tokens ∧ pend [] d.text = [] := by
  induction d with
  | nil => exact ⟨⟨rfl, rfl⟩, rfl⟩
  | cons p d ih =>
    obtain ⟨i, sep⟩ := p
    have h0 := hd (i, sep) (by simp)
    have h1 := gives_item h0.1 h0.2
    have h2 := ih (fun q hq => hd q (by simp [hq]))
    have h3 := evsIn_append [] (i.text ++ sep) (Doc.text d)
    rw [h1.2] at h3
    simp only [Doc.text]
    rw [h3.1, h3.2]
    exact ⟨h1.1.append h2.1, h2.2⟩

theorem scan_newline (p s : Str) : scan p (s ++ ['\n']) = scan p s ++ [.nl] := by
  induction s generalizing p with
  | nil => simp [scan, flush]
  | cons c cs ih =>
    simp only [List.cons_append, scan]
    split
    · rw [ih]; simp
    · split
      · rw [ih]; simp
      · rw [ih]

/-- The lexer on a document. -/
theorem gives_text {s : Str} {d : Doc} (h : IsText s d) : Gives (scan [] s) d.tokens := by
  obtain ⟨hd, lead, hl, h⟩ := h
  have h1 := gives_doc hd
  have h2 := evsIn_blank hl
  have h3 := evsIn_append [] lead d.text
  rw [h2.1, h2.2] at h3
  have h4 : scan [] (lead ++ d.text) = nls lead ++ evsIn [] d.text ++ [.nl] := by
    have := scan_append [] (lead ++ d.text) []
    rw [h3.1, h3.2, h1.2, List.append_nil] at this
    rw [this]
    rfl
  have h5 : Gives (nls lead ++ evsIn [] d.text) d.tokens := by
    have := (gives_nls lead).append h1.1
    simpa using this
  rcases h with h | h
  · rw [h, h4]
    have := h5.append (b := [.nl]) (t := []) ⟨rfl, rfl⟩
    simpa using this
  · have : scan [] s ++ [.nl] = nls lead ++ evsIn [] d.text ++ [.nl] := by rw [← scan_newline, h, h4]
    have := (List.append_inj' this rfl).1
    rw [this]
    exact h5

end Verif.A2l
