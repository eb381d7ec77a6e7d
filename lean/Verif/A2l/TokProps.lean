import Verif.A2l.TokLemmas

/-! Properties C24 to C27: the A2L tokenizer. -/

namespace Verif.A2l

open Verif.Go
open Verif.A2l.Spec

/-- The lines of a text put together again. -/
def unlines : List Str → Str
  | [] => []
  | [l] => l
  | l :: ls => l ++ '\n' :: unlines ls

/-- A file that the clean-up of `readFileToString` leaves alone: no backslash, and the first and
the last character are graphic. -/
def Clean (graphic : Char → Bool) (s : Str) : Prop :=
  '\\' ∉ s ∧ (∀ c, s.head? = some c → graphic c = true) ∧ (∀ c, s.getLast? = some c → graphic c = true)

/-! ### Lemmas -/

theorem replaceEscapedQuotes_id {s : Str} (h : '\\' ∉ s) : replaceEscapedQuotes s = s := by
  induction s with
  | nil => rfl
  | cons c cs ih =>
    have hc : c ≠ '\\' := by rintro rfl; simp at h
    rw [replaceEscapedQuotes, ih (fun hm => h (by simp [hm]))]
    intro cs' h1 _; exact hc h1

theorem deleteEscapes_id {s : Str} (h : '\\' ∉ s) : deleteEscapes s = s := by
  induction s with
  | nil => rfl
  | cons c cs ih =>
    have hc : c ≠ '\\' := by rintro rfl; simp at h
    rw [deleteEscapes, ih (fun hm => h (by simp [hm]))]
    intro c' cs' h1 _; exact hc h1

theorem dropWhile_id {f : Char → Bool} {s : Str} (h : ∀ c, s.head? = some c → f c = false) : s.dropWhile f = s := by
  cases s with
  | nil => rfl
  | cons c cs => rw [List.dropWhile_cons, h c rfl]; rfl

theorem cleanString_id {graphic : Char → Bool} {s : Str} (h : Clean graphic s) : cleanString graphic s = s := by
  obtain ⟨h1, h2, h3⟩ := h
  unfold cleanString trimFunc
  rw [deleteEscapes_id h1, dropWhile_id (s := s) (fun c hc => by simp [h2 c hc]), dropWhile_id, List.reverse_reverse]
  intro c hc
  rw [List.head?_reverse] at hc
  simp [h3 c hc]

theorem clean_of {graphic : Char → Bool} {s : Str}
    (h : (s.all (· != '\\') && s.head?.all graphic && s.getLast?.all graphic) = true) : Clean graphic s := by
  rw [Bool.and_eq_true, Bool.and_eq_true] at h
  obtain ⟨⟨h1, h2⟩, h3⟩ := h
  refine ⟨?_, ?_, ?_⟩
  · intro hm; simpa using List.all_eq_true.mp h1 _ hm
  · intro c hc; rw [hc] at h2; exact h2
  · intro c hc; rw [hc] at h3; exact h3

theorem splitChar_no_sep (c : Char) (s : Str) : ∀ l ∈ splitChar c s, c ∉ l := by
  induction s with
  | nil => simp [splitChar]
  | cons x xs ih =>
    simp only [splitChar]
    split
    · intro l hl
      rcases List.mem_cons.mp hl with rfl | hl
      · simp
      · exact ih l hl
    · next hx =>
      cases h : splitChar c xs with
      | nil =>
        intro l hl
        simp at hl; subst hl
        simpa using fun h : c = x => hx h.symm
      | cons a as =>
        rw [h] at ih
        intro l hl
        rcases List.mem_cons.mp hl with rfl | hl
        · have := ih a (by simp)
          simp only [List.mem_cons, not_or]
          exact ⟨fun h => hx h.symm, this⟩
        · exact ih l (by simp [hl])

theorem splitChar_single {l : Str} (h : '\n' ∉ l) : splitChar '\n' l = [l] := by
  induction l with
  | nil => rfl
  | cons c cs ih =>
    have hc : c ≠ '\n' := by rintro rfl; simp at h
    simp [splitChar, hc, ih (fun hm => h (by simp [hm]))]

theorem splitChar_append {l s : Str} (h : '\n' ∉ l) : splitChar '\n' (l ++ '\n' :: s) = l :: splitChar '\n' s := by
  induction l with
  | nil => simp [splitChar]
  | cons c cs ih =>
    have hc : c ≠ '\n' := by rintro rfl; simp at h
    simp [splitChar, hc, ih (fun hm => h (by simp [hm]))]

theorem split_unlines {ls : List Str} (hne : ls ≠ []) (h : ∀ l ∈ ls, '\n' ∉ l) : splitChar '\n' (unlines ls) = ls := by
  induction ls with
  | nil => exact absurd rfl hne
  | cons l ls ih =>
    cases ls with
    | nil => exact splitChar_single (h l (by simp))
    | cons l' ls =>
      rw [unlines, splitChar_append (h l (by simp)), ih (by simp) (fun x hx => h x (by simp [hx]))]
      simp

theorem textStream_append (a b : List Str) : textStream (a ++ b) = textStream a ++ textStream b := by
  simp [textStream, stream]

theorem textStream_flatten (ls : List (List Str)) : textStream ls.flatten = (ls.map textStream).flatten := by
  induction ls with
  | nil => rfl
  | cons l ls ih => simp [textStream_append, ih]

/-- Lines that are a document. -/
theorem gives_lines {ls : List Str} (h : ∀ l ∈ ls, '\n' ∉ l) {d : Doc} (hd : IsText (unlines ls) d) :
    Gives (textStream ls) d.tokens := by
  cases ls with
  | nil =>
    have := gives_text hd
    have h2 : lex .normal (scan [] (unlines [])) = [] := rfl
    exact ⟨by rw [← this.1, h2]; rfl, rfl⟩
  | cons l ls =>
    have := gives_text hd
    rw [← textStream_split, split_unlines (by simp) h] at this
    exact this

theorem gives_flatten {α : Type _} (l : List α) (f : α → List Ev) (g : α → List Str)
    (h : ∀ a ∈ l, Gives (f a) (g a)) : Gives (l.map f).flatten (l.map g).flatten := by
  induction l with
  | nil => exact ⟨rfl, rfl⟩
  | cons a l ih =>
    simp only [List.map_cons, List.flatten_cons]
    exact (h a (by simp)).append (ih fun b hb => h b (by simp [hb]))

theorem share_one {α : Type _} (xs : List α) : share xs 1 0 = xs := by
  have := flatten_shares xs 1 (by omega)
  simpa using this

theorem tokensFromString_one (s : Str) :
    tokensFromString 1 s = some (lex .normal (scan [] (replaceEscapedQuotes s)) ++ [[]]) := by
  rw [tokensFromString_eq]
  simp [share_one, textStream_split]

theorem mem_share {α : Type _} {xs : List α} {n i : Nat} {x : α} (h : x ∈ share xs n i) : x ∈ xs :=
  List.mem_of_mem_drop (List.mem_of_mem_take h)

/-- If every worker's share leads back to normal mode, the tokens are those of one worker. -/
theorem tokens_of_shares {n : Nat} (hn : 0 < n) {s : Str} (g : Nat → List Str)
    (h : ∀ i < n, Gives (textStream (share (splitChar '\n' (replaceEscapedQuotes s)) n i)) (g i)) :
    tokensFromString n s = some (((List.range n).map g).flatten ++ [[]]) ∧
    tokensFromString 1 s = some (((List.range n).map g).flatten ++ [[]]) := by
  have h1 : Gives ((List.range n).map fun i => textStream (share (splitChar '\n' (replaceEscapedQuotes s)) n i)).flatten
      ((List.range n).map g).flatten :=
    gives_flatten _ _ _ fun i hi => h i (List.mem_range.mp hi)
  constructor
  · rw [tokensFromString_eq]
    congr 3
    apply List.map_congr_left
    intro i hi
    exact (h i (List.mem_range.mp hi)).1
  · rw [tokensFromString_one, ← textStream_split, ← h1.1]
    have h2 := textStream_flatten ((List.range n).map (share (splitChar '\n' (replaceEscapedQuotes s)) n))
    rw [flatten_shares _ n hn, List.map_map] at h2
    rw [h2]
    rfl

/-! ### The tokenizer never crashes -/

theorem lex_ne_nil (m : Mode) (es : List Ev) (hm : ∀ a, m = .quote a → a ≠ []) (h : ∀ w, Ev.word w ∈ es → w ≠ []) :
    ∀ t ∈ lex m es, t ≠ [] := by
  induction es generalizing m with
  | nil => simp [lex]
  | cons e es ih =>
    intro t ht
    rw [lex, List.mem_append] at ht
    have hstep : (∀ t ∈ (lexStep m e).2, t ≠ []) ∧ ∀ a, (lexStep m e).1 = .quote a → a ≠ [] := by
      cases e with
      | nl => cases m <;> simp_all [lexStep]
      | word w =>
        have hw := h w (by simp)
        cases m with
        | normal =>
          simp only [lexStep, lexWord]
          repeat' split
          all_goals simp_all
        | line => simp [lexStep]
        | block => simp only [lexStep]; split <;> simp
        | quote acc => simp only [lexStep]; split <;> simp
        | tag t => simp [lexStep]
        | dead => simp [lexStep]
    rcases ht with ht | ht
    · exact hstep.1 t ht
    · exact ih _ hstep.2 (fun w hw => h w (by simp [hw])) t ht

theorem textStream_words {lines : List Str} {w : Str} (h : Ev.word w ∈ textStream lines) :
    w ≠ [] ∧ ∀ c ∈ w, isSpace c = false := by
  unfold textStream stream at h
  obtain ⟨l, hl, hw⟩ := List.mem_flatten.mp h
  obtain ⟨x, hx, rfl⟩ := List.mem_map.mp hl
  obtain ⟨y, hy, rfl⟩ := List.mem_map.mp hx
  rcases List.mem_append.mp hw with hw | hw
  · obtain ⟨z, hz, hzw⟩ := List.mem_map.mp hw
    cases hzw
    exact ⟨fields_ne_nil hz, fields_no_space hz⟩
  · simp at hw

/-- For every file and every number of workers the tokenizer returns a token list: no index out of
range, no endless loop. The list ends in the empty token, and no other token is empty. -/
theorem C27_tokenizer_total (graphic : Char → Bool) (n : Nat) (s : Str) :
    ∃ ts, tokensOfFile graphic n s = some (ts ++ [[]]) ∧ ∀ t ∈ ts, t ≠ [] := by
  unfold tokensOfFile
  rw [tokensFromString_eq]
  refine ⟨_, rfl, ?_⟩
  intro t ht
  obtain ⟨l, hl, htl⟩ := List.mem_flatten.mp ht
  obtain ⟨i, _, rfl⟩ := List.mem_map.mp hl
  exact lex_ne_nil _ _ (by simp) (fun w hw => (textStream_words hw).1) t htl

example : tokensOfFile (fun _ => true) 4 "a /b \"c".toList = some (["a".toList] ++ [[]]) := by decide +kernel

/-! ### C24 -/

/-- C24 as stated: the number of workers does not matter. -/
def C24_full : Prop := ∀ (graphic : Char → Bool) (s : Str) (n m : Nat), 0 < n → 0 < m →
  tokensOfFile graphic n s = tokensOfFile graphic m s

/-- It does: the end of the first worker's share ends a comment. -/
theorem C24_false : ¬ C24_full := by
  intro h
  have := h (fun _ => true) "/* note\n A */ B".toList 1 2 (by omega) (by omega)
  exact absurd this (by decide +kernel)

/-- C24 when every worker's share is a document of its own (no comment, string or `/begin` reaches
from one share into the next). -/
theorem C24_partial (graphic : Char → Bool) (s : Str) (hc : Clean graphic s) (n : Nat) (hn : 0 < n)
    (h : ∀ i < n, ∃ d, IsText (unlines (share (splitChar '\n' s) n i)) d) :
    tokensOfFile graphic n s = tokensOfFile graphic 1 s := by
  unfold tokensOfFile
  rw [cleanString_id hc]
  have hd : ∀ i, ∃ d, i < n → IsText (unlines (share (splitChar '\n' s) n i)) d := by
    intro i
    by_cases hi : i < n
    · obtain ⟨d, hd⟩ := h i hi; exact ⟨d, fun _ => hd⟩
    · exact ⟨[], fun h => absurd h hi⟩
  have := tokens_of_shares hn (s := s) (fun i => Doc.tokens (hd i).choose) (by
    intro i hi
    rw [replaceEscapedQuotes_id hc.1]
    exact gives_lines (fun l hl => splitChar_no_sep _ _ l (mem_share hl)) ((hd i).choose_spec hi))
  rw [this.1, this.2]

/-- Each line is a document: then the tokens are those of the lines in order, whatever the number
of workers. -/
theorem C24_lines_partial (graphic : Char → Bool) (s : Str) (hc : Clean graphic s) (n : Nat) (hn : 0 < n)
    (doc : Str → Doc) (h : ∀ l ∈ splitChar '\n' s, IsText l (doc l)) :
    tokensOfFile graphic n s = some (((splitChar '\n' s).map fun l => (doc l).tokens).flatten ++ [[]]) := by
  unfold tokensOfFile
  rw [cleanString_id hc, tokensFromString_eq, replaceEscapedQuotes_id hc.1]
  have key : ∀ (ls : List Str), (∀ l ∈ ls, ∃ d, IsText l d) → (∀ l ∈ ls, '\n' ∉ l) →
      Gives (textStream ls) (ls.map fun l => lex .normal (textStream [l])).flatten := by
    intro ls hls hnl
    have : textStream ls = (ls.map fun l => textStream [l]).flatten := by
      clear hls hnl
      induction ls with
      | nil => rfl
      | cons l ls ih =>
        rw [List.map_cons, List.flatten_cons, ← ih, ← textStream_append]; rfl
    rw [this]
    apply gives_flatten
    intro l hl
    obtain ⟨d, hd⟩ := hls l hl
    have := gives_lines (ls := [l]) (by simpa using hnl l hl) hd
    exact ⟨rfl, this.2⟩
  have hls : ∀ l ∈ splitChar '\n' s, ∃ d, IsText l d := fun l hl => ⟨_, h l hl⟩
  have e1 : ((List.range n).map fun i => lex .normal (textStream (share (splitChar '\n' s) n i))).flatten =
      ((splitChar '\n' s).map fun l => lex .normal (textStream [l])).flatten := by
    have : ∀ i ∈ List.range n, lex .normal (textStream (share (splitChar '\n' s) n i)) =
        ((share (splitChar '\n' s) n i).map fun l => lex .normal (textStream [l])).flatten := fun i _ =>
      (key _ (fun l hl => hls l (mem_share hl)) (fun l hl => splitChar_no_sep _ _ l (mem_share hl))).1
    rw [List.map_congr_left this]
    conv => rhs; rw [← flatten_shares (splitChar '\n' s) n hn]
    rw [List.map_flatten, List.map_map, List.flatten_flatten, List.map_map]
    rfl
  have e2 : ((splitChar '\n' s).map fun l => lex .normal (textStream [l])).flatten =
      ((splitChar '\n' s).map fun l => (doc l).tokens).flatten := by
    congr 1
    apply List.map_congr_left
    intro l hl
    exact (gives_lines (ls := [l]) (by simpa using splitChar_no_sep '\n' s l hl) (h l hl)).1
  rw [e1, e2]

/-! ### C27: the tokens of a document -/

/-- C27 as stated, for texts without comments: every word of the text is in the tokens. -/
def C27_full : Prop := ∀ (graphic : Char → Bool) (s : Str) (n : Nat), 0 < n → Clean graphic s →
  ¬ ['/', '/'] <:+: s → ¬ ['/', '*'] <:+: s → ∀ w ∈ fields s, ∃ ts, tokensOfFile graphic n s = some ts ∧ ∃ t ∈ ts, w ∈ fields t

/-- A word with a slash that is neither `/begin` nor `/end` makes the worker drop the rest of its
share without an error. -/
theorem C27_false : ¬ C27_full := by
  intro h
  obtain ⟨ts, h1, t, h2, h3⟩ := h (fun _ => true) "km/h /begin PROJECT p /end PROJECT".toList 1 (by omega)
    (clean_of (by decide +kernel)) (by rw [← contains_iff]; decide +kernel) (by rw [← contains_iff]; decide +kernel) "PROJECT".toList (by decide +kernel)
  have h4 : tokensOfFile (fun _ => true) 1 "km/h /begin PROJECT p /end PROJECT".toList = some [[]] := by decide +kernel
  rw [h4] at h1
  cases h1
  simp at h2
  subst h2
  exact absurd h3 (by decide)

/-- C27 for documents: the tokens of a document are exactly the tokens of its items, in order. -/
theorem C27_partial (graphic : Char → Bool) (s : Str) (hc : Clean graphic s) (d : Doc) (hd : IsText s d) :
    tokensOfFile graphic 1 s = some (d.tokens ++ [[]]) := by
  unfold tokensOfFile
  rw [cleanString_id hc, tokensFromString_one, replaceEscapedQuotes_id hc.1, (gives_text hd).1]

/-- A document with every kind of item. -/
def sampleDoc : Doc :=
  [(.lineComment " a \"b".toList, "\n".toList), (.tag true " ".toList "PROJECT".toList, " ".toList),
   (.word "p".toList, "\n ".toList), (.blockComment " c // d\n e ".toList, " ".toList),
   (.quoted "f  /g // /* \"\"h\"\" ".toList, "\n".toList), (.tag false "\n".toList "PROJECT".toList, "\n".toList)]

theorem sampleDoc_text : IsText "// a \"b\n/begin PROJECT p\n /* c // d\n e */ \"f  /g // /* \"\"h\"\" \"\n/end\nPROJECT".toList sampleDoc := by
  have hb : ∀ s : Str, (s.all isSpace) = true → Blank s := fun s h => by simpa [Blank] using h
  have hp : ∀ s : Str, s ≠ [] → (s.all fun c => !isSpace c && c != '"' && c != '/') = true → Plain s := by
    intro s h1 h2
    refine ⟨h1, fun c hc => ?_⟩
    have := List.all_eq_true.mp h2 c hc
    simp at this
    exact ⟨this.1.1, this.1.2, this.2⟩
  have hni : ∀ a b : Str, contains a b = false → ¬ a <:+: b := fun a b h => by rw [← contains_iff, h]; simp
  refine ⟨?_, [], by simp [Blank], Or.inr (by decide +kernel)⟩
  intro q hq
  simp only [sampleDoc, List.mem_cons, List.not_mem_nil, or_false] at hq
  rcases hq with rfl | rfl | rfl | rfl | rfl | rfl
  · exact ⟨⟨show '\n' ∉ _ by decide +kernel, Or.inl (by decide +kernel)⟩, hb _ (by decide +kernel), by decide, fun _ => by decide⟩
  · exact ⟨⟨hb _ (by decide +kernel), by decide, hp _ (by decide) (by decide +kernel)⟩, hb _ (by decide +kernel), by decide, fun ⟨_, h⟩ => by cases h⟩
  · exact ⟨hp _ (by decide) (by decide +kernel), hb _ (by decide +kernel), by decide, fun ⟨_, h⟩ => by cases h⟩
  · exact ⟨⟨hni _ _ (by decide +kernel), by decide, Or.inr (hni _ _ (by decide +kernel))⟩, hb _ (by decide +kernel), by decide, fun ⟨_, h⟩ => by cases h⟩
  · exact ⟨show doubled _ = true by decide +kernel, hb _ (by decide +kernel), by decide, fun ⟨_, h⟩ => by cases h⟩
  · exact ⟨⟨hb _ (by decide +kernel), by decide, hp _ (by decide) (by decide +kernel)⟩, hb _ (by decide +kernel), by decide, fun ⟨_, h⟩ => by cases h⟩

example : tokensOfFile (fun c => c != '\n') 1
      "// a \"b\n/begin PROJECT p\n /* c // d\n e */ \"f  /g // /* \"\"h\"\" \"\n/end\nPROJECT".toList =
    some (["/begin PROJECT".toList, "p".toList, "\"f /g // /* \"\"h\"\" \"".toList, "/end PROJECT".toList] ++ [[]]) := by
  rw [C27_partial _ _ (clean_of (by decide +kernel)) sampleDoc sampleDoc_text]
  decide +kernel

/-- Two lines, each a document, on three workers. -/
example : tokensOfFile (fun _ => true) 3 "A /* b */ \"c d\"\n/begin X // e".toList =
    some (["A".toList, "\"c d\"".toList, "/begin X".toList] ++ [[]]) := by
  have hb : ∀ s : Str, (s.all isSpace) = true → Blank s := fun s h => by simpa [Blank] using h
  have hp : ∀ s : Str, s ≠ [] → (s.all fun c => !isSpace c && c != '"' && c != '/') = true → Plain s := by
    intro s h1 h2
    refine ⟨h1, fun c hc => ?_⟩
    have := List.all_eq_true.mp h2 c hc
    simp at this
    exact ⟨this.1.1, this.1.2, this.2⟩
  have hni : ∀ a b : Str, contains a b = false → ¬ a <:+: b := fun a b h => by rw [← contains_iff, h]; simp
  rw [C24_lines_partial _ _ (clean_of (by decide +kernel)) 3 (by omega) (fun l => if l.head? = some 'A' then
      [(.word "A".toList, " ".toList), (.blockComment " b ".toList, " ".toList), (.quoted "c d".toList, "\n".toList)]
    else [(.tag true " ".toList "X".toList, " ".toList), (.lineComment " e".toList, "\n".toList)])]
  · decide +kernel
  · intro l hl
    have hl : l = "A /* b */ \"c d\"".toList ∨ l = "/begin X // e".toList := by
      have : splitChar '\n' "A /* b */ \"c d\"\n/begin X // e".toList = ["A /* b */ \"c d\"".toList, "/begin X // e".toList] := by
        decide +kernel
      rw [this] at hl
      simpa using hl
    rcases hl with rfl | rfl
    · rw [if_pos (by decide +kernel)]
      refine ⟨?_, [], by simp [Blank], Or.inr (by decide +kernel)⟩
      intro q hq
      simp only [List.mem_cons, List.not_mem_nil, or_false] at hq
      rcases hq with rfl | rfl | rfl
      · exact ⟨hp _ (by decide) (by decide +kernel), hb _ (by decide +kernel), by decide, fun ⟨_, h⟩ => by cases h⟩
      · exact ⟨⟨hni _ _ (by decide +kernel), by decide, Or.inr (hni _ _ (by decide +kernel))⟩, hb _ (by decide +kernel), by decide, fun ⟨_, h⟩ => by cases h⟩
      · exact ⟨show doubled _ = true by decide +kernel, hb _ (by decide +kernel), by decide, fun ⟨_, h⟩ => by cases h⟩
    · rw [if_neg (by decide +kernel)]
      refine ⟨?_, [], by simp [Blank], Or.inr (by decide +kernel)⟩
      intro q hq
      simp only [List.mem_cons, List.not_mem_nil, or_false] at hq
      rcases hq with rfl | rfl
      · exact ⟨⟨hb _ (by decide +kernel), by decide, hp _ (by decide) (by decide +kernel)⟩, hb _ (by decide +kernel), by decide, fun ⟨_, h⟩ => by cases h⟩
      · exact ⟨⟨show '\n' ∉ _ by decide +kernel, Or.inl (by decide +kernel)⟩, hb _ (by decide +kernel), by decide, fun _ => by decide⟩

/-! ### C25: comments -/

/-- A comment: its text does not contain its own end. -/
def IsComment : Item → Prop
  | .lineComment c => IsLineText c
  | .blockComment c => IsBlockText c
  | _ => False

/-- C25 as stated: a comment between a document and any further text does not change the tokens. -/
def C25_full : Prop := ∀ (d : Doc) (i : Item) (sep suf : Str), d.Wf → IsComment i → SepAfter i sep →
  '\\' ∉ d.text ++ i.text ++ sep ++ suf →
  tokensFromString 1 (d.text ++ i.text ++ sep ++ suf) = tokensFromString 1 (d.text ++ suf)

/-- `/*/` counts as a complete comment, so that the text up to the real end leaks. -/
theorem C25_false : ¬ C25_full := by
  intro h
  have := h [] (.blockComment "/ A ".toList) " ".toList [] (by intro p hp; simp at hp)
    (by show ¬ _; rw [← contains_iff]; decide +kernel)
    ⟨by intro c hc; have : c = ' ' := by simpa using hc
        subst this; decide, by decide, fun ⟨_, h⟩ => by cases h⟩ (by decide +kernel)
  exact absurd this (by decide +kernel)

/-- A block comment whose first word contains `//` is taken for a line comment: its later lines
leak. -/
theorem C25_false_banner :
    tokensFromString 1 "/*////\n A\n ////*/ B".toList = some ["A".toList, []] ∧
    tokensFromString 1 "B".toList = some ["B".toList, []] := by decide +kernel

/-- A comment without white space before it takes the word with it, or becomes part of a string. -/
theorem C25_false_glued :
    tokensFromString 1 "A/* c */ B".toList = some ["B".toList, []] ∧
    tokensFromString 1 "\"a\"/*c*/ B".toList = some ["\"a\"/*c*/".toList, "B".toList, []] ∧
    tokensFromString 1 "/begin /* c */ X".toList = some ["/begin /*".toList, "c".toList, "*/".toList, "X".toList, []] := by
  decide +kernel

theorem scan_doc {d : Doc} (hd : d.Wf) (s : Str) : lex .normal (scan [] (d.text ++ s)) = d.tokens ++ lex .normal (scan [] s) := by
  have h := gives_doc hd
  rw [scan_append, h.2, lex_append, h.1.1, h.1.2]

/-- C25 for comments that begin harmlessly (`Item.Wf`: the first word of a block comment contains
no `//` unless it contains a quotation mark, and it does not start `/*/`; the first word of a line
comment contains no `/*` before a quotation mark) and have white space around them; any text may
follow. -/
theorem C25_partial (d : Doc) (i : Item) (sep suf : Str) (hd : d.Wf) (hi : IsComment i) (hw : i.Wf)
    (hs : SepAfter i sep) (hb : '\\' ∉ d.text ++ i.text ++ sep ++ suf) :
    tokensFromString 1 (d.text ++ i.text ++ sep ++ suf) = tokensFromString 1 (d.text ++ suf) := by
  have hb' : '\\' ∉ d.text ++ suf := by
    intro h
    apply hb
    simp only [List.mem_append] at h ⊢
    rcases h with h | h
    · exact Or.inl (Or.inl (Or.inl h))
    · exact Or.inr h
  have ht : i.tokens = [] := by cases i <;> first | rfl | exact absurd hi (by simp [IsComment])
  rw [tokensFromString_one, tokensFromString_one, replaceEscapedQuotes_id hb, replaceEscapedQuotes_id hb']
  have e : d.text ++ i.text ++ sep ++ suf = d.text ++ (Doc.text [(i, sep)] ++ suf) := by simp [Doc.text]
  have hd2 : Doc.Wf [(i, sep)] := by
    intro p hp
    simp at hp; subst hp
    exact ⟨hw, hs⟩
  rw [e, scan_doc hd, scan_doc hd2, scan_doc hd]
  simp [Doc.tokens, ht]

/-- Any text after a comment, even a broken one. -/
example : tokensFromString 1 ("A ".toList ++ "/* // \"x\n B*/".toList ++ " ".toList ++ "/begin \"C".toList) =
    tokensFromString 1 ("A ".toList ++ "/begin \"C".toList) :=
  C25_partial [(.word "A".toList, " ".toList)] (.blockComment " // \"x\n B".toList) " ".toList "/begin \"C".toList
    (by
      intro p hp
      simp at hp; subst hp
      refine ⟨⟨by decide, ?_⟩, ?_, by decide, fun ⟨_, h⟩ => by cases h⟩
      · intro c hc
        have : c = 'A' := by simpa using hc
        subst this; decide
      · intro c hc
        have : c = ' ' := by simpa using hc
        subst this; decide)
    (by show ¬ _; rw [← contains_iff]; decide +kernel)
    ⟨by show ¬ _; rw [← contains_iff]; decide +kernel, by decide, Or.inr (by rw [← contains_iff]; decide +kernel)⟩
    ⟨by intro c hc; have : c = ' ' := by simpa using hc
        subst this; decide, by decide, fun ⟨_, h⟩ => by cases h⟩ (by decide +kernel)

/-! ### C26: strings -/

/-- C26 as stated: a string between a document and any further text is one token with the words
of the string. -/
def C26_full : Prop := ∀ (graphic : Char → Bool) (d : Doc) (c sep suf : Str), d.Wf → doubled c = true → Blank sep → sep ≠ [] →
  (∀ x ∈ d.text ++ Item.text (.quoted c) ++ sep ++ suf, graphic x = true) →
  ∃ ts, tokensOfFile graphic 1 suf = some ts ∧
    tokensOfFile graphic 1 (d.text ++ Item.text (.quoted c) ++ sep ++ suf) = some (d.tokens ++ Item.tokens (.quoted c) ++ ts)

/-- The clean-up deletes every backslash together with the character after it. -/
theorem C26_false : ¬ C26_full := by
  intro h
  obtain ⟨ts, h1, h2⟩ := h (fun _ => true) [] "C:\\temp".toList " ".toList [] (by intro p hp; simp at hp) (by decide +kernel)
    (by intro c hc; have : c = ' ' := by simpa using hc
        subst this; decide) (by decide) (by simp)
  have h3 : tokensOfFile (fun _ => true) 1 [] = some [[]] := by decide +kernel
  rw [h3] at h1
  cases h1
  exact absurd h2 (by decide +kernel)

/-- An escaped quotation mark is not replaced by `'` as token_generator.go:48 intends: it has been
deleted before. -/
theorem C26_escaped_quote_deleted :
    tokensOfFile (fun _ => true) 1 "\"a \\\" b\"".toList = some ["\"a b\"".toList, []] := by decide +kernel

/-- C26 for texts without backslashes: whatever the string contains (slashes, comment marks,
keywords, line ends, doubled quotation marks) and whatever follows, the string is one token. -/
theorem C26_partial (graphic : Char → Bool) (d : Doc) (c sep suf : Str) (hd : d.Wf) (hc : doubled c = true)
    (hs : Blank sep) (hne : sep ≠ []) (h1 : Clean graphic suf)
    (h2 : Clean graphic (d.text ++ Item.text (.quoted c) ++ sep ++ suf)) :
    ∃ ts, tokensOfFile graphic 1 suf = some ts ∧
      tokensOfFile graphic 1 (d.text ++ Item.text (.quoted c) ++ sep ++ suf) =
        some (d.tokens ++ Item.tokens (.quoted c) ++ ts) := by
  unfold tokensOfFile
  rw [cleanString_id h1, cleanString_id h2, tokensFromString_one, tokensFromString_one, replaceEscapedQuotes_id h1.1,
    replaceEscapedQuotes_id h2.1]
  refine ⟨_, rfl, ?_⟩
  have e : d.text ++ Item.text (.quoted c) ++ sep ++ suf = d.text ++ (Doc.text [(.quoted c, sep)] ++ suf) := by
    simp [Doc.text]
  have hd2 : Doc.Wf [(.quoted c, sep)] := by
    intro p hp
    simp at hp; subst hp
    exact ⟨hc, hs, hne, fun ⟨_, h⟩ => by cases h⟩
  rw [e, scan_doc hd, scan_doc hd2]
  simp [Doc.tokens]

example : tokensOfFile (fun _ => true) 1 "\"/* //  /end \"\"X\n\"\" \" km/h Y".toList =
    some (["\"/* // /end \"\"X \"\" \"".toList] ++ [[]]) := by
  obtain ⟨ts, h1, h2⟩ := C26_partial (fun _ => true) [] "/* //  /end \"\"X\n\"\" ".toList " ".toList "km/h Y".toList
    (by intro p hp; simp at hp) (by decide +kernel) (by intro c hc; have : c = ' ' := by simpa using hc
                                                        subst this; decide) (by decide) (clean_of (by decide +kernel))
    (clean_of (by decide +kernel))
  have h3 : tokensOfFile (fun _ => true) 1 "km/h Y".toList = some [[]] := by decide +kernel
  rw [h3] at h1
  cases h1
  have e : "\"/* //  /end \"\"X\n\"\" \" km/h Y".toList =
      Doc.text [] ++ Item.text (.quoted "/* //  /end \"\"X\n\"\" ".toList) ++ " ".toList ++ "km/h Y".toList := by decide +kernel
  rw [e, h2]
  decide +kernel

/-! ### C27: nothing is invented, and nothing is lost without slashes -/

/-- The words among the events. -/
def evWords : List Ev → List Str
  | [] => []
  | .word w :: es => w :: evWords es
  | .nl :: es => evWords es

theorem evWords_append (a b : List Ev) : evWords (a ++ b) = evWords a ++ evWords b := by
  induction a with
  | nil => rfl
  | cons e es ih => cases e <;> simp [evWords, ih]

theorem evWords_line (l : Line) : evWords (lineEvs l) = l := by
  unfold lineEvs
  induction l with
  | nil => rfl
  | cons w l ih => simpa [evWords] using ih

theorem evWords_flush (p : Str) : evWords (flush p) = if p.isEmpty then [] else [p.reverse] := by
  unfold flush
  split <;> rfl

theorem evWords_scan (p s : Str) : evWords (scan p s) = fieldsAux p s := by
  induction s generalizing p with
  | nil => simp only [scan, evWords_append, evWords_flush, fieldsAux, evWords]; split <;> rfl
  | cons c cs ih =>
    simp only [scan, fieldsAux]
    split
    · next h =>
      subst h
      rw [evWords_append, evWords_flush]
      simp only [isSpace_nl, if_true, evWords, ih]
      split <;> rfl
    · split
      · rw [evWords_append, evWords_flush, ih]
        split <;> rfl
      · exact ih _

/-- Words read but not yet in a token. -/
def heldWords : Mode → List Str
  | .quote acc => fields acc
  | .tag w => [w]
  | _ => []

theorem fieldsAux_word {w : Str} (hw : ∀ c ∈ w, isSpace c = false) (p s : Str) :
    fieldsAux p (w ++ s) = fieldsAux (w.reverse ++ p) s := by
  induction w generalizing p with
  | nil => rfl
  | cons c cs ih =>
    simp only [List.cons_append, fieldsAux, hw c (by simp), Bool.false_eq_true, if_false, List.reverse_cons, List.append_assoc,
      List.nil_append]
    exact ih (fun x hx => hw x (by simp [hx])) _

theorem fields_word {w : Str} (h0 : w ≠ []) (hw : ∀ c ∈ w, isSpace c = false) : fields w = [w] := by
  have := fieldsAux_word hw [] []
  rw [List.append_nil] at this
  unfold fields
  rw [this]
  simp [fieldsAux, h0]

theorem fieldsAux_glue (a p : Str) {w : Str} (h0 : w ≠ []) (hw : ∀ c ∈ w, isSpace c = false) :
    fieldsAux p (a ++ [' '] ++ w) = fieldsAux p a ++ [w] := by
  have hsp : isSpace ' ' = true := by decide
  induction a generalizing p with
  | nil =>
    have := fields_word h0 hw
    unfold fields at this
    simp only [List.nil_append, List.cons_append, fieldsAux, hsp, if_true, this]
    split <;> simp_all
  | cons c cs ih =>
    simp only [List.cons_append, fieldsAux]
    split
    · split
      · simpa using ih []
      · simpa using ih []
    · simpa using ih _

theorem fields_glue (a : Str) {w : Str} (h0 : w ≠ []) (hw : ∀ c ∈ w, isSpace c = false) :
    fields (a ++ [' '] ++ w) = fields a ++ [w] := fieldsAux_glue a [] h0 hw

theorem lex_sublist (m : Mode) (es : List Ev) (h : ∀ w, Ev.word w ∈ es → w ≠ [] ∧ ∀ c ∈ w, isSpace c = false)
    (hm : ∀ t, m = .tag t → t ≠ [] ∧ ∀ c ∈ t, isSpace c = false) :
    ((lex m es).map fields).flatten.Sublist (heldWords m ++ evWords es) := by
  induction es generalizing m with
  | nil => simp [lex]
  | cons e es ih =>
    have ih' := fun m hm => ih m (fun w hw => h w (by simp [hw])) hm
    have noTag : ∀ m : Mode, (∀ t, m ≠ .tag t) → ∀ t, m = .tag t → t ≠ [] ∧ ∀ c ∈ t, isSpace c = false :=
      fun m hm t ht => absurd ht (hm t)
    cases e with
    | nl =>
      simp only [evWords]
      cases m with
      | line => simpa [lex, lexStep, heldWords] using ih' .normal (by simp)
      | normal => simpa [lex, lexStep] using ih' .normal (by simp)
      | block => simpa [lex, lexStep] using ih' .block (by simp)
      | quote acc => simpa [lex, lexStep] using ih' (.quote acc) (by simp)
      | tag t => simpa [lex, lexStep] using ih' (.tag t) hm
      | dead => simpa [lex, lexStep] using ih' .dead (by simp)
    | word w =>
      obtain ⟨hw0, hw⟩ := h w (by simp)
      have skip : ∀ m', heldWords m' = [] → (∀ t, m' ≠ .tag t) →
          ((lex m' es).map fields).flatten.Sublist (w :: evWords es) := by
        intro m' hh ht
        have := ih' m' (noTag m' ht)
        rw [hh] at this
        exact (List.Sublist.cons w this)
      have emit : ((lex .normal es).map fields).flatten.Sublist (evWords es) := ih' .normal (by simp)
      simp only [evWords]
      cases m with
      | normal =>
        simp only [lex, lexStep, lexWord, heldWords, List.nil_append]
        have hq := ih' (.quote w) (by simp)
        have ht := ih' (.tag w) (by intro t ht; cases ht; exact ⟨hw0, hw⟩)
        simp only [heldWords, fields_word hw0 hw, List.cons_append, List.nil_append] at hq ht
        repeat' split
        all_goals first
          | exact skip .normal rfl (by simp)
          | exact skip .block rfl (by simp)
          | exact skip .line rfl (by simp)
          | exact skip .dead rfl (by simp)
          | exact hq
          | exact ht
          | (simpa [fields_word hw0 hw] using emit)
      | line => simpa [lex, lexStep, heldWords] using skip .line rfl (by simp)
      | block =>
        simp only [lex, lexStep, heldWords, List.nil_append]
        split
        · exact skip .normal rfl (by simp)
        · exact skip .block rfl (by simp)
      | quote acc =>
        simp only [lex, lexStep]
        split
        · simp only [List.map_cons, List.flatten_cons, List.cons_append, List.nil_append, heldWords]
          rw [fields_glue acc hw0 hw, List.append_assoc, List.singleton_append]
          exact (List.Sublist.refl _).append (emit.cons_cons w)
        · have := ih' (.quote (acc ++ [' '] ++ w)) (by simp)
          simp only [heldWords] at this
          rw [fields_glue acc hw0 hw, List.append_assoc, List.singleton_append] at this
          simpa [heldWords] using this
      | tag t =>
        obtain ⟨ht0, ht⟩ := hm t rfl
        simp only [lex, lexStep, List.map_cons, List.flatten_cons, List.cons_append, List.nil_append, heldWords]
        rw [fields_glue t hw0 hw, fields_word ht0 ht]
        simpa using emit
      | dead => simpa [lex, lexStep, heldWords] using skip .dead rfl (by simp)

theorem sublist_flatten_map {α : Type _} (l : List α) (f g : α → List Str) (h : ∀ a ∈ l, (f a).Sublist (g a)) :
    (l.map f).flatten.Sublist (l.map g).flatten := by
  induction l with
  | nil => exact List.Sublist.refl _
  | cons a l ih =>
    simp only [List.map_cons, List.flatten_cons]
    exact (h a (by simp)).append (ih fun b hb => h b (by simp [hb]))

theorem evWords_textStream (lines : List Str) : evWords (textStream lines) = (lines.map fields).flatten := by
  induction lines with
  | nil => rfl
  | cons l ls ih =>
    have : textStream (l :: ls) = lineEvs (fields l) ++ textStream ls := rfl
    rw [this, evWords_append, evWords_line, ih]
    rfl

theorem evWords_shares {n : Nat} (hn : 0 < n) (s : Str) :
    ((List.range n).map fun i => evWords (textStream (share (splitChar '\n' s) n i))).flatten = fields s := by
  have h1 : fields s = evWords (textStream (splitChar '\n' s)) := by
    rw [textStream_split, evWords_scan]; rfl
  rw [h1, evWords_textStream]
  have h2 := flatten_shares (splitChar '\n' s) n hn
  conv => rhs; rw [← h2]
  rw [List.map_flatten, List.map_map, List.flatten_flatten, List.map_map]
  congr 1
  apply List.map_congr_left
  intro i _
  exact evWords_textStream _

/-- The tokens contain nothing that is not in the file: the words of the tokens are words of the
(cleaned) text, in the same order. -/
theorem C27_nothing_invented (graphic : Char → Bool) (n : Nat) (hn : 0 < n) (s : Str) (hc : Clean graphic s) :
    ∃ ts, tokensOfFile graphic n s = some (ts ++ [[]]) ∧ (ts.map fields).flatten.Sublist (fields s) := by
  unfold tokensOfFile
  rw [cleanString_id hc, tokensFromString_eq, replaceEscapedQuotes_id hc.1]
  refine ⟨_, rfl, ?_⟩
  rw [List.map_flatten, List.map_map, List.flatten_flatten, List.map_map, ← evWords_shares hn s]
  apply sublist_flatten_map
  intro i _
  exact lex_sublist .normal _ (fun w hw => textStream_words hw) (by simp)

example : ∃ ts, tokensOfFile (fun _ => true) 2 "A b/c D\nE \"f g\" // h".toList = some (ts ++ [[]]) ∧
    (ts.map fields).flatten.Sublist ["A".toList, "b/c".toList, "D".toList, "E".toList, "\"f".toList, "g\"".toList, "//".toList, "h".toList] := by
  have := C27_nothing_invented (fun _ => true) 2 (by omega) "A b/c D\nE \"f g\" // h".toList (clean_of (by decide +kernel))
  have e : fields "A b/c D\nE \"f g\" // h".toList =
      ["A".toList, "b/c".toList, "D".toList, "E".toList, "\"f".toList, "g\"".toList, "//".toList, "h".toList] := by decide +kernel
  rw [e] at this
  exact this

theorem lex_no_slash (m : Mode) (hm : m = .normal ∨ ∃ a, m = .quote a) (es : List Ev)
    (h : ∀ w, Ev.word w ∈ es → (w ≠ [] ∧ ∀ c ∈ w, isSpace c = false) ∧ '/' ∉ w) :
    (lexMode m es = .normal ∨ ∃ a, lexMode m es = .quote a ) ∧
    ((lex m es).map fields).flatten ++ heldWords (lexMode m es) = heldWords m ++ evWords es := by
  induction es generalizing m with
  | nil => exact ⟨hm, by simp [lex, lexMode, evWords]⟩
  | cons e es ih =>
    have ih' := fun m hm => ih m hm (fun w hw => h w (by simp [hw]))
    cases e with
    | nl =>
      rcases hm with rfl | ⟨a, rfl⟩
      · simpa [lex, lexMode, lexStep, evWords] using ih' .normal (Or.inl rfl)
      · simpa [lex, lexMode, lexStep, evWords] using ih' (.quote a) (Or.inr ⟨a, rfl⟩)
    | word w =>
      obtain ⟨⟨hw0, hw⟩, hs⟩ := h w (by simp)
      rcases hm with rfl | ⟨a, rfl⟩
      · have c1 := not_contains_char (sub := beginLineComment) (c := '/') (by simp [beginLineComment]) hs
        have c2 := not_contains_char (sub := beginMultilineComment) (c := '/') (by simp [beginMultilineComment]) hs
        have c3 := not_contains_char (sub := slash) (c := '/') (by simp [slash]) hs
        have b1 : before beginLineComment w = false := by
          cases hb : before beginLineComment w with
          | false => rfl
          | true => rw [before_contains hb] at c1; simp at c1
        have b2 : before beginMultilineComment w = false := by
          cases hb : before beginMultilineComment w with
          | false => rfl
          | true => rw [before_contains hb] at c2; simp at c2
        have hlw : lexWord w = (.normal, [w]) ∨ lexWord w = (.quote w, []) := by
          unfold lexWord
          rw [c1, c2, c3, b1, b2]
          simp only [Bool.false_eq_true, if_false, Bool.false_and]
          split
          · split
            · exact Or.inl rfl
            · exact Or.inr rfl
          · exact Or.inl rfl
        rcases hlw with hlw | hlw
        · have := ih' .normal (Or.inl rfl)
          simp only [lex, lexMode, lexStep, hlw, evWords, heldWords, List.nil_append] at this ⊢
          refine ⟨this.1, ?_⟩
          simp only [List.map_cons, List.flatten_cons, List.cons_append, List.nil_append, fields_word hw0 hw]
          rw [← this.2]
        · have := ih' (.quote w) (Or.inr ⟨w, rfl⟩)
          simp only [lex, lexMode, lexStep, hlw, evWords, heldWords, List.nil_append, fields_word hw0 hw] at this ⊢
          exact this
      · simp only [lex, lexMode, lexStep, evWords]
        split
        · have := ih' .normal (Or.inl rfl)
          refine ⟨this.1, ?_⟩
          simp only [List.map_cons, List.flatten_cons, List.cons_append, List.nil_append]
          rw [fields_glue a hw0 hw, List.append_assoc, this.2]
          simp [heldWords]
        · have := ih' (.quote (a ++ [' '] ++ w)) (Or.inr ⟨_, rfl⟩)
          refine ⟨this.1, ?_⟩
          simp only [List.nil_append]
          rw [this.2]
          simp only [heldWords]
          rw [fields_glue a hw0 hw]
          simp

/-- Quotation marks seen modulo 2. -/
def evQuotes (es : List Ev) : Nat := ((evWords es).map (countChar '"')).sum

theorem lexMode_quotes (m : Mode) (es : List Ev) (hn : ∀ w, Ev.word w ∈ es → '/' ∉ w)
    (hm : (m = .normal) ∨ ∃ a, m = .quote a ∧ countChar '"' a % 2 = 1) :
    (lexMode m es = .normal ↔ ((if m = .normal then 0 else 1) + evQuotes es) % 2 = 0) := by
  induction es generalizing m with
  | nil =>
    rcases hm with rfl | ⟨a, rfl, _⟩
    · simp [lexMode, evQuotes, evWords]
    · simp [lexMode, evQuotes, evWords]
  | cons e es ih =>
    have ih' := fun m hm => ih m (fun w hw => hn w (by simp [hw])) hm
    cases e with
    | nl =>
      have : lexMode m (.nl :: es) = lexMode m es := by
        rcases hm with rfl | ⟨a, rfl, _⟩ <;> rfl
      rw [this]
      exact ih' m hm
    | word w =>
      have hs := hn w (by simp)
      have hq : evQuotes (.word w :: es) = countChar '"' w + evQuotes es := by simp [evQuotes, evWords]
      rw [hq]
      rcases hm with rfl | ⟨a, rfl, ha⟩
      · have c1 := not_contains_char (sub := beginLineComment) (c := '/') (by simp [beginLineComment]) hs
        have c2 := not_contains_char (sub := beginMultilineComment) (c := '/') (by simp [beginMultilineComment]) hs
        have c3 := not_contains_char (sub := slash) (c := '/') (by simp [slash]) hs
        have b1 : before beginLineComment w = false := by
          cases hb : before beginLineComment w with
          | false => rfl
          | true => rw [before_contains hb] at c1; simp at c1
        have b2 : before beginMultilineComment w = false := by
          cases hb : before beginMultilineComment w with
          | false => rfl
          | true => rw [before_contains hb] at c2; simp at c2
        simp only [lexMode, lexStep]
        unfold lexWord
        rw [c1, c2, c3, b1, b2]
        simp only [Bool.false_eq_true, if_false, Bool.false_and, if_true]
        by_cases hc : contains [quotationMark] w = true
        · simp only [hc, if_true]
          by_cases h2 : countChar quotationMark w % 2 = 0
          · simp only [h2, if_true]
            rw [ih' .normal (Or.inl rfl)]
            simp only [quotationMark] at h2
            simp only [if_true]
            omega
          · simp only [h2, if_false]
            simp only [quotationMark] at h2
            rw [ih' (.quote w) (Or.inr ⟨w, rfl, by omega⟩)]
            simp only [reduceCtorEq, if_false]
            omega
        · simp only [hc, Bool.false_eq_true, if_false]
          rw [ih' .normal (Or.inl rfl)]
          have : countChar '"' w = 0 := by
            unfold countChar
            apply List.count_eq_zero.mpr
            intro hm
            exact hc ((contains_char _ _).mpr hm)
          simp only [if_true]
          omega
      · simp only [lexMode, lexStep]
        have hcnt : countChar quotationMark (a ++ [' '] ++ w) = countChar '"' a + countChar '"' w := by
          rw [countChar_append, countChar_append]
          have : countChar quotationMark [' '] = 0 := rfl
          simp only [quotationMark] at *
          omega
        rw [hcnt]
        by_cases h2 : (countChar '"' a + countChar '"' w) % 2 = 0
        · simp only [h2, if_true]
          rw [ih' .normal (Or.inl rfl)]
          simp only [reduceCtorEq, if_true, if_false]
          omega
        · simp only [h2, if_false]
          rw [ih' (.quote (a ++ [' '] ++ w)) (Or.inr ⟨_, rfl, by
            have := hcnt; simp only [quotationMark] at this; omega⟩)]
          simp only [reduceCtorEq, if_false]
          omega

theorem count_fieldsAux (c : Char) (hc : isSpace c = false) (p s : Str) :
    ((fieldsAux p s).map (countChar c)).sum = countChar c p + countChar c s := by
  induction s generalizing p with
  | nil =>
    simp only [fieldsAux]
    split
    · next h => simp at h; subst h; simp [countChar]
    · simp [countChar]
  | cons x xs ih =>
    simp only [fieldsAux]
    split
    · next hx =>
      have hne : x ≠ c := by rintro rfl; rw [hx] at hc; simp at hc
      have : countChar c (x :: xs) = countChar c xs := List.count_cons_of_ne hne
      split
      · next h => simp at h; subst h; rw [ih, this]
      · simp only [List.map_cons, List.sum_cons, ih, countChar_reverse, this]
        simp [countChar]
    · rw [ih]
      have h1 : countChar c (x :: p) = countChar c [x] + countChar c p := countChar_append c [x] p
      have h2 : countChar c (x :: xs) = countChar c [x] + countChar c xs := countChar_append c [x] xs
      omega

theorem no_slash_fields {s w : Str} (h : '/' ∉ s) (hw : w ∈ fields s) : '/' ∉ w := by
  intro hm
  have h1 := count_fieldsAux '/' (by decide) [] s
  have h2 : countChar '/' s = 0 := List.count_eq_zero.mpr h
  have h3 : countChar '/' w ≤ ((fields s).map (countChar '/')).sum := by
    clear h1 h2 hm
    generalize fields s = ws at hw
    induction ws with
    | nil => simp at hw
    | cons x xs ih =>
      rw [List.map_cons, List.sum_cons]
      rcases List.mem_cons.mp hw with rfl | hw
      · omega
      · have := ih hw; omega
  have h4 : 0 < countChar '/' w := List.count_pos_iff.mpr hm
  have h5 : countChar '/' ([] : Str) = 0 := rfl
  unfold fields at h3
  omega

/-- C27 for texts without slashes (so without comments and without `/begin`) in which every line
has an even number of quotation marks: every word of the text is in the tokens, once and in order,
for every number of workers. -/
theorem C27_no_slash_partial (graphic : Char → Bool) (n : Nat) (hn : 0 < n) (s : Str) (hc : Clean graphic s)
    (hs : '/' ∉ s) (hq : ∀ l ∈ splitChar '\n' s, countChar '"' l % 2 = 0) :
    ∃ ts, tokensOfFile graphic n s = some (ts ++ [[]]) ∧ (ts.map fields).flatten = fields s := by
  unfold tokensOfFile
  rw [cleanString_id hc, tokensFromString_eq, replaceEscapedQuotes_id hc.1]
  refine ⟨_, rfl, ?_⟩
  rw [List.map_flatten, List.map_map, List.flatten_flatten, List.map_map, ← evWords_shares hn s]
  congr 1
  apply List.map_congr_left
  intro i _
  have hslash : ∀ w, Ev.word w ∈ textStream (share (splitChar '\n' s) n i) → '/' ∉ w := by
    intro w hw
    have hw' : w ∈ evWords (textStream (splitChar '\n' s)) := by
      have : ∀ (es : List Ev), Ev.word w ∈ es → w ∈ evWords es := by
        intro es
        induction es with
        | nil => simp
        | cons e es ih =>
          intro h
          rcases List.mem_cons.mp h with h' | h
          · subst h'; simp [evWords]
          · have := ih h
            cases e <;> simp [evWords, this]
      have h1 := this _ hw
      rw [evWords_textStream] at h1 ⊢
      obtain ⟨x, hx, hwx⟩ := List.mem_flatten.mp h1
      obtain ⟨l, hl, rfl⟩ := List.mem_map.mp hx
      exact List.mem_flatten.mpr ⟨fields l, List.mem_map_of_mem (mem_share hl), hwx⟩
    rw [textStream_split, evWords_scan] at hw'
    exact no_slash_fields hs hw'
  have h1 := lex_no_slash .normal (Or.inl rfl) (textStream (share (splitChar '\n' s) n i))
    (fun w hw => ⟨textStream_words hw, hslash w hw⟩)
  have h2 := (lexMode_quotes .normal (textStream (share (splitChar '\n' s) n i)) hslash (Or.inl rfl)).mpr (by
    simp only [if_true, Nat.zero_add]
    unfold evQuotes
    rw [evWords_textStream]
    have : ∀ ls : List Str, (∀ l ∈ ls, countChar '"' l % 2 = 0) → (((ls.map fields).flatten).map (countChar '"')).sum % 2 = 0 := by
      intro ls hls
      induction ls with
      | nil => rfl
      | cons l ls ih =>
        rw [List.map_cons, List.flatten_cons, List.map_append, List.sum_append]
        have h1 := ih (fun x hx => hls x (by simp [hx]))
        have h2 := count_fieldsAux '"' (by decide) [] l
        have h3 := hls l (by simp)
        simp only [countChar, fields, List.count_nil] at *
        omega
    exact this _ (fun l hl => hq l (mem_share hl)))
  rw [h2] at h1
  simpa [heldWords] using h1.2

example : ∃ ts, tokensOfFile (fun _ => true) 2 "A \"b  c\"\nD*\"x\" E".toList = some (ts ++ [[]]) ∧
    (ts.map fields).flatten = ["A".toList, "\"b".toList, "c\"".toList, "D*\"x\"".toList, "E".toList] := by
  have := C27_no_slash_partial (fun _ => true) 2 (by omega) "A \"b  c\"\nD*\"x\" E".toList (clean_of (by decide +kernel))
    (by decide +kernel) (by decide +kernel)
  have e : fields "A \"b  c\"\nD*\"x\" E".toList =
      ["A".toList, "\"b".toList, "c\"".toList, "D*\"x\"".toList, "E".toList] := by decide +kernel
  rw [e] at this
  exact this

end Verif.A2l
