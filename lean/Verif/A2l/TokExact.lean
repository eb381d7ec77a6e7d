import Verif.A2l.TokReading
import Verif.A2l.TokClean

/-!
C86: the tokens of any text.
-/

namespace Verif.A2l.Spec

open Verif.Go Reading

/-- The lines of a file that was cleaned up as in C76. -/
def Lines (graphic : Char → Bool) (s : Str) (lines : List Str) : Prop :=
  ∃ r, Unescaped s r ∧ Trimmed graphic r (unlines lines) ∧ lines ≠ [] ∧ ∀ l ∈ lines, '\n' ∉ l

/-- The lines of worker `i` of `n`: equally many for each, the last one takes what is left as well. -/
def workLines (lines : List Str) (n i : Nat) : List Str :=
  if i + 1 = n then lines.drop (i * (lines.length / n)) else (lines.drop (i * (lines.length / n))).take (lines.length / n)

/-- The text `s` has the tokens `ts` when `n` workers cut it: its lines are given out, and each worker reads its own. -/
def HasTokens (graphic : Char → Bool) (n : Nat) (s : Str) (ts : List Str) : Prop :=
  ∃ lines, Lines graphic s lines ∧ ∃ (tss : Nat → List Str) (cs : Nat → Bool),
    (∀ i < n, Reads (pieces (workLines lines n i)) (tss i) (cs i)) ∧ ts = ((List.range n).map tss).flatten

end Verif.A2l.Spec

namespace Verif.A2l.Reading

open Verif.Go Verif.A2l.Spec

def ev : Piece → Ev
  | some w => .word w
  | none => .nl

def evs (ps : List Piece) : List Ev := ps.map ev

theorem evs_append (a b : List Piece) : evs (a ++ b) = evs a ++ evs b := List.map_append

theorem evs_pieces (lines : List Str) : evs (pieces lines) = textStream lines := by
  unfold pieces textStream stream evs
  rw [List.map_flatten, List.map_map, List.map_map]
  congr 1
  apply List.map_congr_left
  intro l _
  simp [lineEvs, ev, Function.comp_def]

theorem before_iff {m : Str} (hm : m ≠ []) (hq : '"' ∉ m) (w : Str) : before m w = true ↔ Opens m w ∧ '"' ∈ w := by
  obtain ⟨y, ys, rfl⟩ := List.exists_cons_of_ne_nil hm
  have hy : y ≠ '"' := fun h => hq (by simp [h])
  induction w with
  | nil =>
    simp [before, indexOf, List.isPrefixOf]
  | cons x xs ih =>
    by_cases hx : x = '"'
    · subst hx
      have h1 : ¬ Opens (y :: ys) ('"' :: xs) := by
        rintro ⟨a, b, h, ha⟩
        cases a with
        | nil => simp only [List.nil_append, List.cons_append, List.cons.injEq] at h; exact hy h.1.symm
        | cons z zs => simp only [List.cons_append, List.cons.injEq] at h; exact ha (h.1 ▸ List.mem_cons_self ..)
      have h2 : indexOf [quotationMark] ('"' :: xs) = some 0 := by simp [indexOf, quotationMark]
      constructor
      · intro h
        unfold before at h
        rw [h2] at h
        split at h
        · rename_i e1 e2; cases e2; simp at h
        · cases h
      · exact fun h => absurd h.1 h1
    · have h2 : indexOf [quotationMark] (x :: xs) = (indexOf [quotationMark] xs).map (· + 1) := indexOf_char_cons hx xs
      have h3 : '"' ∈ x :: xs ↔ '"' ∈ xs := by simp [Ne.symm hx]
      by_cases hp : (y :: ys).isPrefixOf (x :: xs) = true
      · have h1 : indexOf (y :: ys) (x :: xs) = some 0 := by simp [indexOf, hp]
        have ho : Opens (y :: ys) (x :: xs) := by
          obtain ⟨t, ht⟩ := List.isPrefixOf_iff_prefix.1 hp
          exact ⟨[], t, by simpa using ht.symm, by simp⟩
        unfold before
        rw [h1, h2, h3]
        constructor
        · intro h
          refine ⟨ho, ?_⟩
          cases hk : indexOf [quotationMark] xs with
          | none => simp [hk] at h
          | some k =>
            have := (contains_iff _ _).1 (indexOf_contains hk)
            obtain ⟨a, b, rfl⟩ := this
            simp [quotationMark]
        · rintro ⟨_, h⟩
          obtain ⟨k, hk⟩ := indexOf_some_of_mem h
          rw [show [quotationMark] = ['"'] from rfl, hk]
          simp
      · have h1 : indexOf (y :: ys) (x :: xs) = (indexOf (y :: ys) xs).map (· + 1) := by
          rw [indexOf, if_neg hp]
        have h4 : Opens (y :: ys) (x :: xs) ↔ Opens (y :: ys) xs := by
          constructor
          · rintro ⟨a, b, h, ha⟩
            cases a with
            | nil =>
              exact absurd (List.isPrefixOf_iff_prefix.2 ⟨b, by simpa using h.symm⟩) hp
            | cons z zs =>
              simp only [List.cons_append, List.cons.injEq] at h
              exact ⟨zs, b, by simpa using h.2, fun hm => ha (by simp [hm])⟩
          · rintro ⟨a, b, h, ha⟩
            exact ⟨x :: a, b, by simp [h], by simp [Ne.symm hx, ha]⟩
        rw [h4, h3]
        refine Iff.trans ?_ ih
        unfold before
        rw [h1, h2]
        cases indexOf (y :: ys) xs <;> cases indexOf [quotationMark] xs <;> simp

theorem opens_infix {m w : Str} (h : Opens m w) : m <:+: w := by
  obtain ⟨a, b, rfl, _⟩ := h
  exact ⟨a, b, rfl⟩

theorem opens_of_infix {m w : Str} (hq : '"' ∉ w) (h : m <:+: w) : Opens m w := by
  obtain ⟨a, b, rfl⟩ := h
  exact ⟨a, b, rfl, fun ha => hq (by simp [ha])⟩

theorem bool_false {p : Bool} {q : Prop} (h : p = true ↔ q) (hq : ¬ q) : p = false := by
  cases p
  · rfl
  · exact absurd (h.1 rfl) hq

theorem slash_of {m w : Str} (hm : '/' ∈ m) (h : m <:+: w) : '/' ∈ w := by
  obtain ⟨a, b, rfl⟩ := h
  simp [hm]

/-- What the lexer does at a word, by its kind. -/
theorem lexWord_kind (w : Str) :
    (Plain w ∧ lexWord w = (.normal, [w])) ∨ (LineComment w ∧ lexWord w = (.line, [])) ∨
    (Block w ∧ Ends w ∧ lexWord w = (.normal, [])) ∨ (Block w ∧ ¬ Ends w ∧ lexWord w = (.block, [])) ∨
    (Quote w ∧ w.count '"' % 2 = 0 ∧ lexWord w = (.normal, [w])) ∨ (Quote w ∧ w.count '"' % 2 ≠ 0 ∧ lexWord w = (.quote w, [])) ∨
    (Tag w ∧ lexWord w = (.tag w, [])) ∨ (Stray w ∧ lexWord w = (.dead, [])) := by
  have cq : contains [quotationMark] w = true ↔ '"' ∈ w := contains_char _ _
  have cb := before_iff (m := beginMultilineComment) (by decide) (by decide) w
  have cl := before_iff (m := beginLineComment) (by decide) (by decide) w
  have ce : contains endMultilineComment w = true ↔ Ends w := contains_iff _ _
  have ib : contains beginMultilineComment w = true ↔ "/*".toList <:+: w := contains_iff _ _
  have il : contains beginLineComment w = true ↔ "//".toList <:+: w := contains_iff _ _
  have cs : contains slash w = true ↔ '/' ∈ w := contains_char _ _
  have c1 : contains slashBegin w = true ↔ "/begin".toList <:+: w := contains_iff _ _
  have c2 : contains slashEnd w = true ↔ "/end".toList <:+: w := contains_iff _ _
  unfold lexWord
  by_cases hq : '"' ∈ w
  · rw [if_pos (cq.2 hq)]
    by_cases hb : Opens beginMultilineComment w
    · rw [if_pos (cb.2 ⟨hb, hq⟩)]
      by_cases he : Ends w
      · rw [if_pos (ce.2 he)]
        exact .inr (.inr (.inl ⟨⟨hb, .inl hq⟩, he, rfl⟩))
      · rw [if_neg (fun h => he (ce.1 h))]
        exact .inr (.inr (.inr (.inl ⟨⟨hb, .inl hq⟩, he, rfl⟩)))
    · rw [if_neg (fun h => hb (cb.1 h).1)]
      by_cases hl : Opens beginLineComment w
      · rw [if_pos (cl.2 ⟨hl, hq⟩)]
        exact .inr (.inl ⟨⟨hl, fun h => hb h.1⟩, rfl⟩)
      · rw [if_neg (fun h => hl (cl.1 h).1)]
        by_cases hc : w.count '"' % 2 = 0
        · rw [if_pos (show countChar quotationMark w % 2 = 0 from hc)]
          exact .inr (.inr (.inr (.inr (.inl ⟨⟨hq, hb, hl⟩, hc, rfl⟩))))
        · rw [if_neg (show ¬ countChar quotationMark w % 2 = 0 from hc)]
          exact .inr (.inr (.inr (.inr (.inr (.inl ⟨⟨hq, hb, hl⟩, hc, rfl⟩)))))
  · rw [if_neg (fun h => hq (cq.1 h))]
    by_cases hl : "//".toList <:+: w
    · rw [if_pos (il.2 hl)]
      refine .inr (.inl ⟨⟨opens_of_infix hq hl, fun h => ?_⟩, rfl⟩)
      rcases h.2 with h | h
      · exact hq h
      · exact h hl
    · rw [if_neg (fun h => hl (il.1 h))]
      by_cases hb : "/*".toList <:+: w
      · rw [if_pos (ib.2 hb)]
        by_cases he : Ends w
        · rw [if_pos (ce.2 he)]
          exact .inr (.inr (.inl ⟨⟨opens_of_infix hq hb, .inr hl⟩, he, rfl⟩))
        · rw [if_neg (fun h => he (ce.1 h))]
          exact .inr (.inr (.inr (.inl ⟨⟨opens_of_infix hq hb, .inr hl⟩, he, rfl⟩)))
      · rw [if_neg (fun h => hb (ib.1 h))]
        have hn : NoMark w := ⟨hq, hb, hl⟩
        by_cases he : Ends w
        · rw [if_neg (by rw [ce.2 he]; simp)]
          exact .inl ⟨⟨hn, .inr he⟩, rfl⟩
        · by_cases hs : '/' ∈ w
          · rw [if_pos (by rw [cs.2 hs, bool_false ce he]; rfl)]
            by_cases ht : "/begin".toList <:+: w ∨ "/end".toList <:+: w
            · rw [if_pos (by rw [Bool.or_eq_true]; exact ht.imp c1.2 c2.2)]
              exact .inr (.inr (.inr (.inr (.inr (.inr (.inl ⟨⟨hn, he, ht⟩, rfl⟩))))))
            · rw [if_neg (by rw [Bool.or_eq_true]; exact fun h => ht (h.imp c1.1 c2.1))]
              exact .inr (.inr (.inr (.inr (.inr (.inr (.inr ⟨⟨hn, he, hs, ht⟩, rfl⟩))))))
          · rw [if_neg (by rw [bool_false cs hs]; simp)]
            exact .inl ⟨⟨hn, .inl hs⟩, rfl⟩

/-- The kinds exclude each other. -/
theorem lexWord_plain' {w : Str} (h : Plain w) : lexWord w = (.normal, [w]) := by
  obtain ⟨⟨h1, h2, h3⟩, h4⟩ := h
  rcases lexWord_kind w with ⟨_, e⟩ | ⟨k, _⟩ | ⟨k, _⟩ | ⟨k, _⟩ | ⟨k, _⟩ | ⟨k, _⟩ | ⟨k, _⟩ | ⟨k, _⟩
  · exact e
  · exact absurd (opens_infix k.1) h3
  · exact absurd (opens_infix k.1) h2
  · exact absurd (opens_infix k.1) h2
  · exact absurd k.1 h1
  · exact absurd k.1 h1
  · rcases h4 with h4 | h4
    · rcases k.2.2 with h | h
      · exact absurd (slash_of (by decide) h) h4
      · exact absurd (slash_of (by decide) h) h4
    · exact absurd h4 k.2.1
  · rcases h4 with h4 | h4
    · exact absurd k.2.2.1 h4
    · exact absurd h4 k.2.1

theorem line_not_quote {w : Str} (h : LineComment w) (hq : Quote w) : False := hq.2.2 h.1
theorem block_not_quote {w : Str} (h : Block w) (hq : Quote w) : False := hq.2.1 h.1
theorem mark_line {w : Str} (h : LineComment w) (hn : NoMark w) : False := hn.2.2 (opens_infix h.1)
theorem mark_block {w : Str} (h : Block w) (hn : NoMark w) : False := hn.2.1 (opens_infix h.1)
theorem mark_quote {w : Str} (h : Quote w) (hn : NoMark w) : False := hn.1 h.1

theorem lexWord_line' {w : Str} (h : LineComment w) : lexWord w = (.line, []) := by
  rcases lexWord_kind w with ⟨k, _⟩ | ⟨_, e⟩ | ⟨k, _⟩ | ⟨k, _⟩ | ⟨k, _⟩ | ⟨k, _⟩ | ⟨k, _⟩ | ⟨k, _⟩
  · exact (mark_line h k.1).elim
  · exact e
  · exact absurd k h.2
  · exact absurd k h.2
  · exact (line_not_quote h k).elim
  · exact (line_not_quote h k).elim
  · exact (mark_line h k.1).elim
  · exact (mark_line h k.1).elim

theorem lexWord_block' {w : Str} (h : Block w) : (Ends w → lexWord w = (.normal, [])) ∧ (¬ Ends w → lexWord w = (.block, [])) := by
  rcases lexWord_kind w with ⟨k, _⟩ | ⟨k, _⟩ | ⟨_, k, e⟩ | ⟨_, k, e⟩ | ⟨k, _⟩ | ⟨k, _⟩ | ⟨k, _⟩ | ⟨k, _⟩
  · exact (mark_block h k.1).elim
  · exact absurd h k.2
  · exact ⟨fun _ => e, fun h => absurd k h⟩
  · exact ⟨fun h => absurd h k, fun _ => e⟩
  · exact (block_not_quote h k).elim
  · exact (block_not_quote h k).elim
  · exact (mark_block h k.1).elim
  · exact (mark_block h k.1).elim

theorem lexWord_quote' {w : Str} (h : Quote w) :
    (w.count '"' % 2 = 0 → lexWord w = (.normal, [w])) ∧ (w.count '"' % 2 ≠ 0 → lexWord w = (.quote w, [])) := by
  rcases lexWord_kind w with ⟨k, _⟩ | ⟨k, _⟩ | ⟨k, _, e⟩ | ⟨k, _, e⟩ | ⟨_, k, e⟩ | ⟨_, k, e⟩ | ⟨k, _⟩ | ⟨k, _⟩
  · exact (mark_quote h k.1).elim
  · exact (line_not_quote k h).elim
  · exact (block_not_quote k h).elim
  · exact (block_not_quote k h).elim
  · exact ⟨fun _ => e, fun h => absurd k h⟩
  · exact ⟨fun h => absurd h k, fun _ => e⟩
  · exact (mark_quote h k.1).elim
  · exact (mark_quote h k.1).elim

theorem lexWord_tag' {w : Str} (h : Tag w) : lexWord w = (.tag w, []) := by
  rcases lexWord_kind w with ⟨k, _⟩ | ⟨k, _⟩ | ⟨k, _, e⟩ | ⟨k, _, e⟩ | ⟨k, _⟩ | ⟨k, _⟩ | ⟨_, e⟩ | ⟨k, _⟩
  · rcases k.2 with k | k
    · exact absurd (h.2.2.elim (slash_of (by decide)) (slash_of (by decide))) k
    · exact absurd k h.2.1
  · exact (mark_line k h.1).elim
  · exact (mark_block k h.1).elim
  · exact (mark_block k h.1).elim
  · exact (mark_quote k h.1).elim
  · exact (mark_quote k h.1).elim
  · exact e
  · exact absurd h.2.2 k.2.2.2

theorem lexWord_stray' {w : Str} (h : Stray w) : lexWord w = (.dead, []) := by
  rcases lexWord_kind w with ⟨k, _⟩ | ⟨k, _⟩ | ⟨k, _, e⟩ | ⟨k, _, e⟩ | ⟨k, _⟩ | ⟨k, _⟩ | ⟨k, _⟩ | ⟨_, e⟩
  · rcases k.2 with k | k
    · exact absurd h.2.2.1 k
    · exact absurd k h.2.1
  · exact (mark_line k h.1).elim
  · exact (mark_block k h.1).elim
  · exact (mark_block k h.1).elim
  · exact (mark_quote k h.1).elim
  · exact (mark_quote k h.1).elim
  · exact absurd k.2.2 h.2.2.2
  · exact e

/-- The tokens and whether nothing is open. -/
def Gets (m : Mode) (es : List Ev) (ts : List Str) (c : Bool) : Prop := lex m es = ts ∧ decide (lexMode m es = .normal) = c

theorem gets_cons {m m' : Mode} {e : Ev} {out ts : List Str} {es : List Ev} {c : Bool} (hs : lexStep m e = (m', out)) (h : Gets m' es ts c) :
    Gets m (e :: es) (out ++ ts) c := by
  constructor
  · rw [lex, hs, h.1]
  · rw [lexMode, hs]; exact h.2

theorem gets_append {m m' : Mode} {a b : List Ev} {ts : List Str} {c : Bool} (h1 : lex m a = []) (h2 : lexMode m a = m') (h : Gets m' b ts c) :
    Gets m (a ++ b) ts c := by
  constructor
  · rw [lex_append, h1, h2, List.nil_append, h.1]
  · rw [lexMode_append, h2]; exact h.2

theorem gets_end {m : Mode} {a : List Ev} (h1 : lex m a = []) (h2 : lexMode m a ≠ .normal) : Gets m a [] false :=
  ⟨h1, decide_eq_false h2⟩

theorem mem_evs_word {a : List Piece} {x : Str} (h : Ev.word x ∈ evs a) : x ∈ wordsOf a := by
  obtain ⟨p, hp, he⟩ := List.mem_map.1 h
  cases p with
  | none => cases he
  | some y => cases he; exact List.mem_filterMap.2 ⟨_, hp, rfl⟩

theorem mem_evs_nl {a : List Piece} (h : none ∉ a) : Ev.nl ∉ evs a := by
  intro hm
  obtain ⟨p, hp, he⟩ := List.mem_map.1 hm
  cases p with
  | none => exact h hp
  | some y => cases he

theorem no_words {m : Mode} (hm : m ≠ .line) : ∀ {a : List Piece}, wordsOf a = [] → lex m (evs a) = [] ∧ lexMode m (evs a) = m
  | [], _ => ⟨rfl, rfl⟩
  | none :: a, h => by
    have ih := no_words hm (a := a) h
    have hs : lexStep m .nl = (m, []) := by cases m <;> first | rfl | exact absurd rfl hm
    constructor
    · show lex m (Ev.nl :: evs a) = []
      rw [lex, hs, ih.1]; rfl
    · show lexMode m (Ev.nl :: evs a) = m
      rw [lexMode, hs, ih.2]
  | some w :: a, h => by simp [wordsOf] at h

theorem unwords_snoc (a : Str) (ws : List Str) (e : Str) : unwords (a :: (ws ++ [e])) = unwords (a :: ws) ++ ' ' :: e := by
  induction ws generalizing a with
  | nil => rfl
  | cons b ws ih =>
    show a ++ ' ' :: unwords (b :: (ws ++ [e])) = a ++ ' ' :: unwords (b :: ws) ++ ' ' :: e
    rw [ih]; simp

theorem count_unwords (a : Str) (ws : List Str) : (unwords (a :: ws)).count '"' = quotes (a :: ws) := by
  induction ws generalizing a with
  | nil => simp [unwords, quotes]
  | cons b ws ih =>
    show (a ++ ' ' :: unwords (b :: ws)).count '"' = _
    rw [List.count_append, List.count_cons_of_ne (by decide), ih]
    simp [quotes]

/-- Inside a string, as long as the number of quotation marks is odd. -/
theorem quote_open : ∀ (a : List Piece) (w : Str) (ws : List Str), (∀ x, x <+: wordsOf a → quotes (w :: (ws ++ x)) % 2 = 1) →
    lex (.quote (unwords (w :: ws))) (evs a) = [] ∧ lexMode (.quote (unwords (w :: ws))) (evs a) = .quote (unwords (w :: (ws ++ wordsOf a)))
  | [], w, ws, _ => by simp [evs, lex, lexMode, wordsOf]
  | none :: a, w, ws, h => by
    have ih := quote_open a w ws h
    exact ⟨ih.1, ih.2⟩
  | some y :: a, w, ws, h => by
    have hw : wordsOf (some y :: a) = y :: wordsOf a := rfl
    have ih := quote_open a w (ws ++ [y]) (fun x hx => by
      rw [List.append_assoc]
      exact h ([y] ++ x) (by rw [hw]; exact List.cons_prefix_cons.2 ⟨rfl, hx⟩))
    have h1 := h [y] (by rw [hw]; exact ⟨wordsOf a, rfl⟩)
    have hg : unwords (w :: (ws ++ [y])) = unwords (w :: ws) ++ [' '] ++ y := by rw [unwords_snoc]; simp
    have hs : lexStep (.quote (unwords (w :: ws))) (.word y) = (.quote (unwords (w :: (ws ++ [y]))), []) := by
      rw [← count_unwords, hg] at h1
      show (if countChar quotationMark (unwords (w :: ws) ++ [' '] ++ y) % 2 = 0 then (Mode.normal, [unwords (w :: ws) ++ [' '] ++ y])
        else (.quote (unwords (w :: ws) ++ [' '] ++ y), [])) = _
      rw [if_neg (fun h => by have : List.count '"' (unwords (w :: ws) ++ [' '] ++ y) % 2 = 0 := h; omega), hg]
    rw [List.append_assoc] at ih
    rw [hw]
    constructor
    · show lex _ (Ev.word y :: evs a) = []
      rw [lex, hs, ih.1]; rfl
    · show lexMode _ (Ev.word y :: evs a) = _
      rw [lexMode, hs, ih.2]; rfl

/-- The reading of the specification is the one of the lexer. -/
theorem reads_lex {ps : List Piece} {ts : List Str} {c : Bool} (h : Reads ps ts c) : Gets .normal (evs ps) ts c := by
  induction h with
  | done => exact ⟨rfl, rfl⟩
  | lineEnd _ ih => exact gets_cons (out := []) rfl ih
  | @plain w ps ts c hw _ ih => exact gets_cons (m := .normal) (e := .word w) (out := [w]) (lexWord_plain' hw) ih
  | line hw ha _ ih =>
    have := lex_line_words _ (mem_evs_nl ha)
    refine gets_cons (out := []) (lexWord_line' hw) ?_
    show Gets .line (evs _) _ _
    rw [evs_append]
    exact gets_append this.1 this.2 (gets_cons (m' := .normal) (out := []) rfl ih)
  | lineOpen hw ha =>
    have := lex_line_words _ (mem_evs_nl ha)
    exact gets_cons (out := []) (lexWord_line' hw) (gets_end this.1 (fun h => by have := this.2.symm.trans h; cases this))
  | blockWord hw he _ ih => exact gets_cons (out := []) ((lexWord_block' hw).1 he) ih
  | @block w a e ps ts c hw ha he _ ih =>
    have := lex_block_words (evs a) (fun x hx => ha x (List.mem_cons_of_mem _ (mem_evs_word hx)))
    refine gets_cons (out := []) ((lexWord_block' hw).2 (ha w (List.mem_cons_self ..))) ?_
    show Gets .block (evs _) _ _
    rw [evs_append]
    refine gets_append this.1 this.2 (gets_cons (m' := .normal) (out := []) ?_ ih)
    show (if contains endMultilineComment e = true then Mode.normal else .block, []) = _
    rw [if_pos ((contains_iff endMultilineComment _).2 he)]
  | @blockOpen w a hw ha =>
    have := lex_block_words (evs a) (fun x hx => ha x (List.mem_cons_of_mem _ (mem_evs_word hx)))
    exact gets_cons (out := []) ((lexWord_block' hw).2 (ha w (List.mem_cons_self ..))) (gets_end this.1 (fun h => by have := this.2.symm.trans h; cases this))
  | @quoteWord w ps ts c hw he _ ih => exact gets_cons (m := .normal) (e := .word w) (out := [w]) ((lexWord_quote' hw).1 he) ih
  | @quote w a e ps ts c hw ha he _ ih =>
    have h0 := ha [] ⟨_, rfl⟩
    have := quote_open a w [] (by simpa using ha)
    refine gets_cons (out := []) (ts := _ :: ts) ((lexWord_quote' hw).2 (by simp [quotes] at h0; omega)) ?_
    show Gets (.quote (unwords [w])) (evs _) _ _
    rw [evs_append]
    refine gets_append this.1 this.2 (gets_cons (m' := .normal) (out := [unwords (w :: (wordsOf a ++ [e]))]) ?_ ih)
    have hg : unwords (w :: (wordsOf a ++ [e])) = unwords (w :: wordsOf a) ++ [' '] ++ e := by rw [unwords_snoc]; simp
    rw [← count_unwords, hg] at he
    show (if countChar quotationMark (unwords (w :: wordsOf a) ++ [' '] ++ e) % 2 = 0 then (Mode.normal, [unwords (w :: wordsOf a) ++ [' '] ++ e])
      else (.quote (unwords (w :: wordsOf a) ++ [' '] ++ e), [])) = _
    rw [if_pos (show countChar quotationMark (unwords (w :: wordsOf a) ++ [' '] ++ e) % 2 = 0 from he), hg]
  | @quoteOpen w a hw ha =>
    have h0 := ha [] ⟨_, rfl⟩
    have := quote_open a w [] (by simpa using ha)
    exact gets_cons (out := []) ((lexWord_quote' hw).2 (by simp [quotes] at h0; omega)) (gets_end this.1 (fun h => by have := this.2.symm.trans h; cases this))
  | @tag w a k ps ts c hw ha _ ih =>
    have := no_words (m := .tag w) (by simp) ha
    refine gets_cons (out := []) (ts := _ :: ts) (lexWord_tag' hw) ?_
    show Gets (.tag w) (evs _) _ _
    rw [evs_append]
    refine gets_append this.1 this.2 (gets_cons (m' := .normal) (out := [w ++ ' ' :: k]) ?_ ih)
    simp [lexStep, ev]
  | @tagOpen w a hw ha =>
    have := no_words (m := .tag w) (by simp) ha
    exact gets_cons (out := []) (lexWord_tag' hw) (gets_end this.1 (fun h => by have := this.2.symm.trans h; cases this))
  | @stray w a hw =>
    have : lexMode .dead (evs a) = .dead := by
      generalize evs a = es
      induction es with
      | nil => rfl
      | cons e es ih => cases e <;> exact ih
    exact gets_cons (out := []) (lexWord_stray' hw) (gets_end (lex_dead _) (fun h => by have := this.symm.trans h; cases this))

/-- Where a piece of text first has a word with a property of the words read so far. -/
theorem split_words (P : List Str → Prop) (ps : List Piece) : ∀ (ws : List Str), ¬ P ws →
    (∀ x, x <+: wordsOf ps → ¬ P (ws ++ x)) ∨
    ∃ a e b, ps = a ++ some e :: b ∧ (∀ x, x <+: wordsOf a → ¬ P (ws ++ x)) ∧ P (ws ++ (wordsOf a ++ [e])) := by
  induction ps with
  | nil =>
    intro ws h
    left
    intro x hx
    rw [List.prefix_nil.1 hx, List.append_nil]
    exact h
  | cons p ps ih =>
    intro ws h
    cases p with
    | none =>
      rcases ih ws h with h1 | ⟨a, e, b, h1, h2, h3⟩
      · exact .inl h1
      · exact .inr ⟨none :: a, e, b, by rw [h1]; rfl, h2, h3⟩
    | some w =>
      by_cases hw : P (ws ++ [w])
      · refine .inr ⟨[], w, ps, rfl, fun x hx => ?_, hw⟩
        rw [List.prefix_nil.1 hx, List.append_nil]
        exact h
      · have key : ∀ l, (∀ x, x <+: wordsOf l → ¬ P (ws ++ [w] ++ x)) → ∀ x, x <+: wordsOf (some w :: l) → ¬ P (ws ++ x) := by
          intro l hl x hx
          cases x with
          | nil => rw [List.append_nil]; exact h
          | cons y ys =>
            obtain ⟨rfl, hy⟩ := List.cons_prefix_cons.1 (show y :: ys <+: w :: wordsOf l from hx)
            have := hl ys hy
            rwa [List.append_assoc] at this
        rcases ih (ws ++ [w]) hw with h1 | ⟨a, e, b, h1, h2, h3⟩
        · exact .inl (key ps h1)
        · refine .inr ⟨some w :: a, e, b, by rw [h1]; rfl, key a h2, ?_⟩
          rw [List.append_assoc] at h3
          exact h3

theorem split_line (ps : List Piece) : none ∉ ps ∨ ∃ a b, ps = a ++ none :: b ∧ none ∉ a := by
  by_cases h : none ∈ ps
  · right
    induction ps with
    | nil => simp at h
    | cons p ps ih =>
      cases p with
      | none => exact ⟨[], ps, rfl, by simp⟩
      | some w =>
        obtain ⟨a, b, h1, h2⟩ := ih (by simpa using h)
        exact ⟨some w :: a, b, by rw [h1]; rfl, by simp [h2]⟩
  · exact .inl h

/-- Every text is read in some way. -/
theorem reads_exists : ∀ (n : Nat) (ps : List Piece), ps.length ≤ n → ∃ ts c, Reads ps ts c
  | _, [], _ => ⟨_, _, .done⟩
  | n + 1, none :: ps, h => by
    obtain ⟨ts, c, ih⟩ := reads_exists n ps (by simpa using h)
    exact ⟨ts, c, .lineEnd ih⟩
  | n + 1, some w :: ps, h => by
    have hl : ps.length ≤ n := by simpa using h
    have hrest : ∀ (a b : List Piece) (x : Piece), ps = a ++ x :: b → ∃ ts c, Reads b ts c := by
      intro a b x hp
      refine reads_exists n b ?_
      rw [hp] at hl
      simp at hl
      omega
    rcases lexWord_kind w with ⟨k, _⟩ | ⟨k, _⟩ | ⟨k, he, _⟩ | ⟨k, he, _⟩ | ⟨k, he, _⟩ | ⟨k, he, _⟩ | ⟨k, _⟩ | ⟨k, _⟩
    · obtain ⟨ts, c, ih⟩ := reads_exists n ps hl
      exact ⟨_, c, .plain k ih⟩
    · rcases split_line ps with h1 | ⟨a, b, rfl, h1⟩
      · exact ⟨_, _, .lineOpen k h1⟩
      · obtain ⟨ts, c, ih⟩ := hrest a b none rfl
        exact ⟨ts, c, .line k h1 ih⟩
    · obtain ⟨ts, c, ih⟩ := reads_exists n ps hl
      exact ⟨ts, c, .blockWord k he ih⟩
    · have key : ∀ l : List Str, (∀ x, x <+: l → ¬ ∃ y ∈ x, Ends y) → ∀ y ∈ w :: l, ¬ Ends y := by
        intro l hx y hy
        rcases List.mem_cons.1 hy with rfl | hy
        · exact he
        · exact fun h => hx l (List.prefix_refl _) ⟨y, hy, h⟩
      rcases split_words (fun x => ∃ y ∈ x, Ends y) ps [] (by simp) with h1 | ⟨a, e, b, rfl, h1, h2⟩
      · exact ⟨_, _, .blockOpen k (key _ h1)⟩
      · obtain ⟨ts, c, ih⟩ := hrest a b (some e) rfl
        refine ⟨ts, c, .block k (key _ h1) ?_ ih⟩
        obtain ⟨y, hy, hE⟩ := h2
        rw [List.nil_append, List.mem_append, List.mem_singleton] at hy
        rcases hy with hy | rfl
        · exact absurd hE (key _ h1 y (List.mem_cons_of_mem _ hy))
        · exact hE
    · obtain ⟨ts, c, ih⟩ := reads_exists n ps hl
      exact ⟨_, c, .quoteWord k he ih⟩
    · rcases split_words (fun x => quotes x % 2 = 0) ps [w] (by simpa [quotes] using he) with h1 | ⟨a, e, b, rfl, h1, h2⟩
      · exact ⟨_, _, .quoteOpen k fun x hx => by have := h1 x hx; simp only [List.singleton_append] at this; omega⟩
      · obtain ⟨ts, c, ih⟩ := hrest a b (some e) rfl
        exact ⟨_, c, .quote k (fun x hx => by have := h1 x hx; simp only [List.singleton_append] at this; omega) h2 ih⟩
    · rcases split_words (fun x => x ≠ []) ps [] (by simp) with h1 | ⟨a, e, b, rfl, h1, h2⟩
      · exact ⟨_, _, .tagOpen k (Classical.not_not.1 (h1 _ (List.prefix_refl _)))⟩
      · obtain ⟨ts, c, ih⟩ := hrest a b (some e) rfl
        exact ⟨_, c, .tag k (Classical.not_not.1 (h1 _ (List.prefix_refl _))) ih⟩
    · exact ⟨_, _, .stray k⟩

theorem reads_iff {ps : List Piece} {ts : List Str} {c : Bool} : Reads ps ts c ↔ Gets .normal (evs ps) ts c := by
  constructor
  · exact reads_lex
  · intro h
    obtain ⟨ts', c', h'⟩ := reads_exists _ ps (Nat.le_refl _)
    have := reads_lex h'
    rw [← h.1, ← h.2, this.1, this.2]
    exact h'

end Verif.A2l.Reading

namespace Verif.A2l.Props

open Verif.Go Verif.A2l.Spec Reading

/-- Every text is read in exactly one way. -/
theorem C86_reading_unique (ps : List Piece) : ∃ ts c, Reads ps ts c ∧ ∀ ts' c', Reads ps ts' c' → ts' = ts ∧ c' = c := by
  obtain ⟨ts, c, h⟩ := reads_exists _ ps (Nat.le_refl _)
  refine ⟨ts, c, h, fun ts' c' h' => ?_⟩
  have h1 := reads_lex h
  have h2 := reads_lex h'
  exact ⟨h2.1.symm.trans h1.1, h2.2.symm.trans h1.2⟩

theorem workLines_eq (lines : List Str) {n i : Nat} (hi : i < n) : workLines lines n i = share lines n i := by
  unfold workLines share shareEnd shareStart
  rw [Nat.mul_comm i]
  split
  · rw [List.take_of_length_le (by simp)]
  · rw [Nat.add_sub_cancel_left]

theorem unlines_split (s : Str) : unlines (splitChar '\n' s) = s := by
  induction s with
  | nil => rfl
  | cons x xs ih =>
    unfold splitChar
    split
    · next hx =>
      obtain ⟨l, ls, h⟩ := List.exists_cons_of_ne_nil (splitChar_ne_nil '\n' xs)
      rw [h] at ih ⊢
      show [] ++ '\n' :: unlines (l :: ls) = _
      rw [ih, hx]; rfl
    · obtain ⟨l, ls, h⟩ := List.exists_cons_of_ne_nil (splitChar_ne_nil '\n' xs)
      rw [h] at ih
      rw [h]
      cases ls with
      | nil => exact congrArg (x :: ·) ih
      | cons l' ls => exact congrArg (x :: ·) ih

theorem lines_iff {graphic : Char → Bool} {s : Str} {lines : List Str} : Lines graphic s lines ↔ splitChar '\n' (cleanString graphic s) = lines := by
  constructor
  · rintro ⟨r, h1, h2, h3, h4⟩
    rw [(C76_clean_up graphic s _).2 ⟨r, h1, h2⟩]
    exact split_unlines h3 h4
  · rintro rfl
    obtain ⟨r, h1, h2⟩ := (C76_clean_up graphic s _).1 rfl
    refine ⟨r, h1, ?_, splitChar_ne_nil _ _, splitChar_no_sep _ _⟩
    rw [unlines_split]
    exact h2

/-- C86: the tokens of any file whatsoever, on any number of workers, are the readings of the workers one after the other, and an empty
token at the end. -/
theorem C86_tokens (graphic : Char → Bool) (n : Nat) (s : Str) (ts : List Str) :
    tokensOfFile graphic n s = some (ts ++ [[]]) ↔ HasTokens graphic n s ts := by
  have key : ∀ (tss : Nat → List Str) (cs : Nat → Bool),
      (∀ i < n, Reads (pieces (workLines (splitChar '\n' (cleanString graphic s)) n i)) (tss i) (cs i)) →
      tokensOfFile graphic n s = some (((List.range n).map tss).flatten ++ [[]]) := by
    intro tss cs h
    unfold tokensOfFile
    rw [tokensFromString_eq, (C76_quotes_never graphic s)]
    congr 3
    apply List.map_congr_left
    intro i hi
    have := (reads_lex (h i (List.mem_range.1 hi))).1
    rwa [evs_pieces, workLines_eq _ (List.mem_range.1 hi)] at this
  constructor
  · intro h
    refine ⟨_, lines_iff.2 rfl, ?_⟩
    have hex : ∀ i, ∃ ts : List Str, ∃ c : Bool, Reads (pieces (workLines (splitChar '\n' (cleanString graphic s)) n i)) ts c :=
      fun i => reads_exists _ _ (Nat.le_refl _)
    obtain ⟨tss, ht⟩ := Classical.axiomOfChoice hex
    obtain ⟨cs, hc⟩ := Classical.axiomOfChoice ht
    refine ⟨tss, cs, fun i _ => hc i, ?_⟩
    have := Option.some.inj (h.symm.trans (key tss cs fun i _ => hc i))
    exact List.append_cancel_right this
  · rintro ⟨lines, hl, tss, cs, h, rfl⟩
    rw [lines_iff] at hl
    subst hl
    exact key tss cs h

/-- Words with comments and strings stuck to them, a string and a tag over line ends, and a stray slash. -/
def oddText : Str := "A // c \"x\n/begin\n X \"a\nb c\" d\"e\" /* q */\n/* open */x y\na/b never \"read".toList

def oddTokens : List Str := ["A".toList, "/begin X".toList, "\"a b c\"".toList, "d\"e\"".toList, "y".toList]

example : HasTokens (fun _ => true) 1 oddText oddTokens := (C86_tokens _ _ _ _).1 (by decide +kernel)

/-- The first lines of it, step by step. -/
example : Reads (pieces ["A // c \"x".toList, "/begin".toList, " X y".toList]) ["A".toList, "/begin X".toList, "y".toList] true := by
  have no {m w : Str} (h : contains m w = false) : ¬ m <:+: w := fun hi => by rw [(contains_iff m w).2 hi] at h; cases h
  refine Reads.plain (w := "A".toList) ⟨⟨by decide, no rfl, no rfl⟩, .inl (by decide)⟩ ?_
  refine Reads.line (w := "//".toList) (a := [some "c".toList, some "\"x".toList]) ⟨⟨[], [], rfl, by decide⟩, fun h => no rfl (opens_infix h.1)⟩ (by decide) ?_
  refine Reads.tag (w := "/begin".toList) (a := [none]) (k := "X".toList) ⟨⟨by decide, no rfl, no rfl⟩, no rfl, .inl ⟨[], [], rfl⟩⟩ rfl ?_
  exact Reads.plain (w := "y".toList) ⟨⟨by decide, no rfl, no rfl⟩, .inl (by decide)⟩ (.lineEnd .done)

/-- Every file has tokens. -/
theorem C86_total (graphic : Char → Bool) (n : Nat) (s : Str) : ∃ ts, tokensOfFile graphic n s = some (ts ++ [[]]) := by
  unfold tokensOfFile
  rw [tokensFromString_eq]
  exact ⟨_, rfl⟩

/-- What is read from two pieces of text one after the other, if nothing is open at the end of the first one. -/
theorem reads_append {a b : List Piece} {ts ts' : List Str} {c : Bool} (h : Reads a ts true) (h' : Reads b ts' c) : Reads (a ++ b) (ts ++ ts') c := by
  rw [reads_iff] at *
  have hm : lexMode .normal (evs a) = .normal := of_decide_eq_true h.2
  rw [evs_append]
  constructor
  · rw [lex_append, hm, h.1, h'.1]
  · rw [lexMode_append, hm]; exact h'.2

/-- If nothing is open at the end of the lines of each worker, except the last one, then the number of workers does not matter: C24 for any
text. -/
theorem C24_any_partial (graphic : Char → Bool) (n : Nat) (hn : 0 < n) (s : Str) {lines : List Str} (hl : Lines graphic s lines)
    (h : ∀ i, i + 1 < n → ∃ ts, Reads (pieces (workLines lines n i)) ts true) :
    tokensOfFile graphic n s = tokensOfFile graphic 1 s := by
  have hex : ∀ i, ∃ ts : List Str, ∃ c : Bool, Reads (pieces (workLines lines n i)) ts c := fun i => reads_exists _ _ (Nat.le_refl _)
  obtain ⟨tss, ht⟩ := Classical.axiomOfChoice hex
  obtain ⟨cs, hc⟩ := Classical.axiomOfChoice ht
  have hcs : ∀ i, i + 1 < n → cs i = true := by
    intro i hi
    obtain ⟨ts, hr⟩ := h i hi
    exact ((reads_lex (hc i)).2).symm.trans (reads_lex hr).2
  have hpre : ∀ k, k + 1 ≤ n → Reads (((List.range (k + 1)).map fun i => pieces (workLines lines n i)).flatten) ((List.range (k + 1)).map tss).flatten (cs k) := by
    intro k
    induction k with
    | zero => intro _; simpa [show List.range 1 = [0] from rfl] using hc 0
    | succ k ih =>
      intro hk
      have ih := ih (by omega)
      rw [hcs k (by omega)] at ih
      rw [List.range_succ, List.map_append, List.flatten_append, List.map_append, List.flatten_append]
      exact reads_append ih (by simpa using hc (k + 1))
  obtain ⟨k, rfl⟩ : ∃ k, n = k + 1 := ⟨n - 1, by omega⟩
  have h1 := hpre k (Nat.le_refl _)
  have h2 : ((List.range (k + 1)).map fun i => pieces (workLines lines (k + 1) i)).flatten = pieces lines := by
    have e : (List.range (k + 1)).map (fun i => pieces (workLines lines (k + 1) i)) = ((List.range (k + 1)).map (share lines (k + 1))).map pieces := by
      rw [List.map_map]
      apply List.map_congr_left
      intro i hi
      exact congrArg pieces (workLines_eq _ (List.mem_range.1 hi))
    rw [e]
    have : ∀ ls : List (List Str), (ls.map pieces).flatten = pieces ls.flatten := by
      intro ls
      induction ls with
      | nil => rfl
      | cons l ls ih =>
        rw [List.map_cons, List.flatten_cons, ih, List.flatten_cons]
        simp [pieces]
    rw [this, flatten_shares _ _ hn]
  rw [h2] at h1
  rw [(C86_tokens graphic (k + 1) s _).2 ⟨lines, hl, tss, cs, fun i _ => hc i, rfl⟩,
    (C86_tokens graphic 1 s _).2 ⟨lines, hl, fun _ => ((List.range (k + 1)).map tss).flatten, fun _ => cs k, fun i hi => ?_, rfl⟩]
  · simp [show List.range 1 = [0] from rfl]
  · obtain rfl : i = 0 := by omega
    have : workLines lines 1 0 = lines := by simp [workLines]
    rw [this]
    exact h1

/-- Two workers: the second one has a string that never ends. -/
example : tokensOfFile (fun _ => true) 2 "A /* b\n c */ \"d\n e\"\n/begin X\n Y \"z\n u".toList =
    tokensOfFile (fun _ => true) 1 "A /* b\n c */ \"d\n e\"\n/begin X\n Y \"z\n u".toList :=
  C24_any_partial _ 2 (by decide) _
    (lines := ["A /* b".toList, " c */ \"d".toList, " e\"".toList, "/begin X".toList, " Y \"z".toList, " u".toList])
    (lines_iff.2 (by decide +kernel)) fun i hi => by
      obtain rfl : i = 0 := by omega
      exact ⟨["A".toList, "\"d e\"".toList], reads_iff.2 ⟨by decide +kernel, by decide +kernel⟩⟩

/-- Whatever stands behind a word with a slash that is neither a comment nor `/begin` or `/end` has no influence: one worker reads two files
that are the same up to there to the same tokens. -/
theorem C86_cut (graphic : Char → Bool) (s s' : Str) {lines lines' : List Str} (hl : Lines graphic s lines) (hl' : Lines graphic s' lines')
    {a b b' : List Piece} {w : Str} {ts : List Str} (ha : Reads a ts true) (hw : Stray w) (h : pieces lines = a ++ some w :: b)
    (h' : pieces lines' = a ++ some w :: b') : tokensOfFile graphic 1 s = some (ts ++ [[]]) ∧ tokensOfFile graphic 1 s' = some (ts ++ [[]]) := by
  have e : ∀ l : List Str, workLines l 1 0 = l := fun l => by simp [workLines]
  have key : ∀ b : List Piece, Reads (a ++ some w :: b) ts false := fun b => by
    have := reads_append ha (Reads.stray (a := b) hw)
    rwa [List.append_nil] at this
  constructor
  · refine (C86_tokens graphic 1 s _).2 ⟨lines, hl, fun _ => ts, fun _ => false, fun i hi => ?_, by simp [show List.range 1 = [0] from rfl]⟩
    obtain rfl : i = 0 := by omega
    rw [e, h]; exact key b
  · refine (C86_tokens graphic 1 s' _).2 ⟨lines', hl', fun _ => ts, fun _ => false, fun i hi => ?_, by simp [show List.range 1 = [0] from rfl]⟩
    obtain rfl : i = 0 := by omega
    rw [e, h']; exact key b'

example : tokensOfFile (fun _ => true) 1 "/begin X a/b c".toList = some ["/begin X".toList, []] ∧
    tokensOfFile (fun _ => true) 1 "/begin X a/b\n\"d\"".toList = some ["/begin X".toList, []] := by
  have h := reads_iff (ps := [some "/begin".toList, some "X".toList]) (ts := ["/begin X".toList]) (c := true) |>.2 ⟨by decide +kernel, by decide +kernel⟩
  have no {m w : Str} (h : contains m w = false) : ¬ m <:+: w := fun hi => by rw [(contains_iff m w).2 hi] at h; cases h
  have hs : Stray "a/b".toList := ⟨⟨by decide, no rfl, no rfl⟩, no rfl, by decide, fun h => h.elim (no rfl) (no rfl)⟩
  exact C86_cut (fun _ => true) "/begin X a/b c".toList "/begin X a/b\n\"d\"".toList (lines_iff.2 rfl) (lines_iff.2 rfl) (b := [some "c".toList, none])
    (b' := [none, some "\"d\"".toList, none]) h hs (by decide +kernel) (by decide +kernel)

end Verif.A2l.Props
