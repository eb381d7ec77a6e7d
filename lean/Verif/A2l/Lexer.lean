import Verif.A2l.Tokenizer

/-!
The tokenizer of `Verif.A2l.Tokenizer` as a finite-state lexer over a stream of words and line
ends, and the proof that the index walk of the Go code is that lexer: it never reads out of
range, always terminates, and returns the lexer's tokens.
-/

namespace Verif.A2l

open Verif.Go

/-- One event of the text: a word or the end of a line. -/
inductive Ev where
  | word (w : Str)
  | nl
  deriving DecidableEq, Repr

/-- What the lexer is doing. -/
inductive Mode where
  | normal
  /-- in a line comment -/
  | line
  /-- in a block comment -/
  | block
  /-- in a string of which `acc` has been read -/
  | quote (acc : Str)
  /-- after a word with `/begin` or `/end` -/
  | tag (w : Str)
  /-- everything else is dropped -/
  | dead
  deriving DecidableEq, Repr

/-- A word in normal mode. -/
def lexWord (w : Str) : Mode × List Str :=
  if contains [quotationMark] w then
    if before beginMultilineComment w then
      (if contains endMultilineComment w then .normal else .block, [])
    else if before beginLineComment w then (.line, [])
    else if countChar quotationMark w % 2 = 0 then (.normal, [w]) else (.quote w, [])
  else if contains beginLineComment w then (.line, [])
  else if contains beginMultilineComment w then
    (if contains endMultilineComment w then .normal else .block, [])
  else if contains slash w && !contains endMultilineComment w then
    if contains slashBegin w || contains slashEnd w then (.tag w, []) else (.dead, [])
  else (.normal, [w])

def lexStep : Mode → Ev → Mode × List Str
  | .normal, .word w => lexWord w
  | .line, .nl => (.normal, [])
  | .block, .word w => (if contains endMultilineComment w then .normal else .block, [])
  | .quote acc, .word w =>
    if countChar quotationMark (acc ++ [' '] ++ w) % 2 = 0 then (.normal, [acc ++ [' '] ++ w])
    else (.quote (acc ++ [' '] ++ w), [])
  | .tag t, .word w => (.normal, [t ++ [' '] ++ w])
  | m, _ => (m, [])

def lex (m : Mode) : List Ev → List Str
  | [] => []
  | e :: es => (lexStep m e).2 ++ lex (lexStep m e).1 es

/-- The mode after a stream. -/
def lexMode (m : Mode) : List Ev → Mode
  | [] => m
  | e :: es => lexMode (lexStep m e).1 es

theorem lex_append (m : Mode) (a b : List Ev) : lex m (a ++ b) = lex m a ++ lex (lexMode m a) b := by
  induction a generalizing m with
  | nil => rfl
  | cons e es ih => simp only [List.cons_append, lex, lexMode, ih, List.append_assoc]

theorem lexMode_append (m : Mode) (a b : List Ev) : lexMode m (a ++ b) = lexMode (lexMode m a) b := by
  induction a generalizing m with
  | nil => rfl
  | cons e es ih => simp only [List.cons_append, lexMode, ih]

theorem lex_dead (es : List Ev) : lex .dead es = [] := by
  induction es with
  | nil => rfl
  | cons e es ih => cases e <;> simpa [lex, lexStep] using ih

theorem lex_nl {m : Mode} (h : m ≠ .line) (es : List Ev) : lex m (.nl :: es) = lex m es := by
  cases m <;> first | (exact absurd rfl h) | rfl

/-- The events of a line and of a chunk. -/
def lineEvs (l : Line) : List Ev := l.map .word ++ [.nl]
def stream (d : Chunk) : List Ev := (d.map lineEvs).flatten

theorem stream_cons (l : Line) (d : Chunk) : stream (l :: d) = lineEvs l ++ stream d := rfl

/-- The events from position `p` on. -/
def rest (d : Chunk) (p : Pos) : List Ev :=
  match d[p.o]? with
  | none => []
  | some l => (l.drop p.i).map .word ++ [.nl] ++ stream (d.drop (p.o + 1))

/-- Every line has a word: what `tokenBuilderRoutine` passes on. -/
def Full (d : Chunk) : Prop := ∀ l ∈ d, l ≠ [] ∧ ∀ w ∈ l, w ≠ []

/-- The position of a word. -/
def Valid (d : Chunk) (p : Pos) : Prop := ∃ l, d[p.o]? = some l ∧ p.i < l.length

theorem rest_valid {d : Chunk} {p : Pos} (h : Valid d p) :
    ∃ w, word? d p = some w ∧ rest d p = .word w :: (rest d p).tail := by
  obtain ⟨l, hl, hi⟩ := h
  refine ⟨l[p.i], ?_, ?_⟩
  · simp [word?, hl, hi]
  · unfold rest
    rw [hl]
    simp only
    rw [List.drop_eq_getElem_cons hi]
    simp only [List.map_cons, List.cons_append, List.tail_cons]

theorem word_mem {d : Chunk} {p : Pos} {w : Str} (hf : Full d) (h : word? d p = some w) : w ≠ [] := by
  unfold word? at h
  cases hl : d[p.o]? with
  | none => rw [hl] at h; simp at h
  | some l =>
    rw [hl] at h
    have h : l[p.i]? = some w := h
    exact (hf l (List.mem_of_getElem? hl)).2 w (List.mem_of_getElem? h)

theorem rest_line_start {d : Chunk} {k : Nat} : rest d ⟨k, 0⟩ = stream (d.drop k) := by
  unfold rest
  simp only [List.drop_zero]
  by_cases h : k < d.length
  · rw [List.getElem?_eq_getElem h, List.drop_eq_getElem_cons h]
    rfl
  · rw [List.getElem?_eq_none (by omega), List.drop_eq_nil_of_le (show d.length ≤ k by omega)]
    rfl

theorem moveToNext_spec {d : Chunk} {p : Pos} (hf : Full d) (h : Valid d p) :
    ∃ r, moveToNextRawValue d p = some r ∧
      match r with
      | none => (rest d p).tail = [.nl]
      | some q => Valid d q ∧ ((rest d p).tail = rest d q ∨ (rest d p).tail = .nl :: rest d q) := by
  obtain ⟨l, hl, hi⟩ := h
  have ht : (rest d p).tail = (l.drop (p.i + 1)).map .word ++ [.nl] ++ stream (d.drop (p.o + 1)) := by
    unfold rest
    rw [hl]
    simp only
    rw [List.drop_eq_getElem_cons hi]
    simp only [List.map_cons, List.cons_append, List.tail_cons]
  have ho : p.o < d.length := (List.getElem?_eq_some_iff.mp hl).1
  unfold moveToNextRawValue
  simp only [hl, Option.bind_eq_bind, Option.bind_some]
  by_cases h1 : p.i + 1 < l.length
  · rw [if_pos h1]
    refine ⟨_, rfl, ⟨l, hl, h1⟩, Or.inl ?_⟩
    rw [ht]
    simp only [rest, hl]
  · rw [if_neg h1]
    have h2 : l.length = p.i + 1 := by omega
    have h3 : l.drop (p.i + 1) = [] := List.drop_eq_nil_of_le (by omega)
    by_cases h4 : d.length = p.o + 1
    · rw [if_pos ⟨h2, h4⟩, List.getElem?_eq_getElem hi]
      refine ⟨none, by simp, ?_⟩
      simp only
      rw [ht, h3, List.drop_eq_nil_of_le (by omega)]
      rfl
    · rw [if_neg (by omega), if_pos ⟨h2, by omega⟩, List.getElem?_eq_getElem (show p.o + 1 < d.length by omega)]
      have h5 : d[p.o + 1] ≠ [] := (hf _ (List.getElem_mem _)).1
      have h6 : 0 < d[p.o + 1].length := List.length_pos_iff.mpr h5
      simp only [Option.bind_some]
      rw [if_pos h6]
      refine ⟨_, rfl, ⟨_, List.getElem?_eq_getElem (show p.o + 1 < d.length by omega), h6⟩, Or.inr ?_⟩
      rw [ht, h3, rest_line_start]
      rfl

theorem skipLine_spec {d : Chunk} {p : Pos} (hf : Full d) {w : Str} (hw : word? d p = some w)
    (hc : contains beginLineComment w = true) :
    ∃ r, skipLineComment d p = some r ∧
      match r with
      | none => lex .line (rest d p).tail = []
      | some q => Valid d q ∧ lex .line (rest d p).tail = lex .normal (rest d q) ∧ (rest d q).length < (rest d p).length := by
  have key : ∀ (ws : List Str) es, lex .line (ws.map .word ++ [.nl] ++ es) = lex .normal es := by
    intro ws es
    induction ws with
    | nil => rfl
    | cons w ws ih => simpa [lex, lexStep] using ih
  unfold word? at hw
  cases hl : d[p.o]? with
  | none => rw [hl] at hw; simp at hw
  | some l =>
    have ho : p.o < d.length := (List.getElem?_eq_some_iff.mp hl).1
    have hwl : l[p.i]? = some w := by rw [hl] at hw; exact hw
    have hi : p.i < l.length := (List.getElem?_eq_some_iff.mp hwl).1
    have ht : (rest d p).tail = (l.drop (p.i + 1)).map .word ++ [.nl] ++ stream (d.drop (p.o + 1)) := by
      unfold rest
      rw [hl]
      simp only
      rw [List.drop_eq_getElem_cons hi]
      simp only [List.map_cons, List.cons_append, List.tail_cons]
    unfold skipLineComment word?
    simp only [hl, Option.bind_eq_bind, Option.bind_some, hwl, hc, if_true]
    by_cases h1 : p.o + 1 < d.length
    · rw [if_pos h1, List.getElem?_eq_getElem h1]
      have h5 : d[p.o + 1] ≠ [] := (hf _ (List.getElem_mem _)).1
      have h6 : 0 < d[p.o + 1].length := List.length_pos_iff.mpr h5
      simp only [Option.bind_some]
      rw [List.getElem?_eq_getElem h6]
      refine ⟨_, rfl, ⟨_, List.getElem?_eq_getElem h1, h6⟩, ?_, ?_⟩
      · rw [ht, key, rest_line_start]
      · rw [rest_line_start]
        have : (rest d p).length = (l.length - p.i) + 1 + (stream (d.drop (p.o + 1))).length := by
          unfold rest; rw [hl]; simp; omega
        omega
    · rw [if_neg h1]
      refine ⟨none, rfl, ?_⟩
      simp only
      rw [ht, key, List.drop_eq_nil_of_le (by omega)]
      rfl

/-- The rest of the text after the word at `p`, seen from mode `m`. -/
theorem lex_next {d : Chunk} {p q : Pos} {m : Mode} (hm : m ≠ .line)
    (h : (rest d p).tail = rest d q ∨ (rest d p).tail = .nl :: rest d q) :
    lex m (rest d p).tail = lex m (rest d q) := by
  rcases h with h | h
  · rw [h]
  · rw [h, lex_nl hm]

theorem length_next {d : Chunk} {p q : Pos} (hv : Valid d p)
    (h : (rest d p).tail = rest d q ∨ (rest d p).tail = .nl :: rest d q) :
    (rest d q).length < (rest d p).length := by
  obtain ⟨w, _, hr⟩ := rest_valid hv
  have h1 : (rest d p).length = (rest d p).tail.length + 1 := by
    conv => lhs; rw [hr]
    simp
  rcases h with h | h
  · rw [h1, h]; omega
  · rw [h1, h]; simp; omega

/-- What a skipping function must do: move to `q` where the lexer is in normal mode. -/
def Skips (d : Chunk) (p : Pos) (m : Mode) : Option Pos → Prop
  | none => lex m (rest d p).tail = []
  | some q => Valid d q ∧ lex m (rest d p).tail = lex .normal (rest d q) ∧ (rest d q).length < (rest d p).length

theorem move_skips {d : Chunk} {p : Pos} (hf : Full d) (hv : Valid d p) :
    ∃ r, moveToNextRawValue d p = some r ∧ Skips d p .normal r := by
  obtain ⟨r, hr, hs⟩ := moveToNext_spec hf hv
  refine ⟨r, hr, ?_⟩
  cases r with
  | none => simp only [Skips]; simp only at hs; rw [hs]; rfl
  | some q => exact ⟨hs.1, lex_next (by simp) hs.2, length_next hv hs.2⟩

theorem skipMultilineLoop_spec {d : Chunk} (hf : Full d) : ∀ (fuel : Nat) (p : Pos), Valid d p →
    (rest d p).length ≤ fuel → ∃ r, skipMultilineLoop d fuel p = some r ∧ Skips d p .block r := by
  intro fuel
  induction fuel with
  | zero =>
    intro p hv hl
    obtain ⟨w, _, hr⟩ := rest_valid hv
    rw [hr] at hl
    simp at hl
  | succ fuel ih =>
    intro p hv hl
    obtain ⟨r, hr, hs⟩ := moveToNext_spec hf hv
    unfold skipMultilineLoop
    rw [hr]
    cases r with
    | none =>
      refine ⟨none, rfl, ?_⟩
      simp only at hs
      simp only [Skips]
      rw [hs]; rfl
    | some q =>
      obtain ⟨hq, hs⟩ := hs
      obtain ⟨w, hw, hrq⟩ := rest_valid hq
      have hlen := length_next hv hs
      have hlex : lex .block (rest d p).tail =
          lex (if contains endMultilineComment w then .normal else .block) (rest d q).tail := by
        rw [lex_next (by simp) hs]
        conv => lhs; rw [hrq]
        rfl
      simp only [Option.bind_eq_bind, Option.bind_some, hw]
      by_cases hc : contains endMultilineComment w = true
      · rw [if_pos hc] at hlex ⊢
        obtain ⟨r', hr', hs'⟩ := move_skips hf hq
        refine ⟨r', hr', ?_⟩
        cases r' with
        | none => exact hlex.trans hs'
        | some q' => exact ⟨hs'.1, hlex.trans hs'.2.1, Nat.lt_trans hs'.2.2 hlen⟩
      · rw [if_neg hc] at hlex ⊢
        rw [if_neg (word_mem hf hw)]
        obtain ⟨r', hr', hs'⟩ := ih q hq (by omega)
        refine ⟨r', hr', ?_⟩
        cases r' with
        | none => exact hlex.trans hs'
        | some q' => exact ⟨hs'.1, hlex.trans hs'.2.1, Nat.lt_trans hs'.2.2 hlen⟩

theorem skipMultiline_spec {d : Chunk} (hf : Full d) {fuel : Nat} {p : Pos} (hv : Valid d p)
    (hl : (rest d p).length ≤ fuel) {w : Str} (hw : word? d p = some w)
    (hc : contains beginMultilineComment w = true) :
    ∃ r, skipMultilineComment d fuel p = some r ∧
      Skips d p (if contains endMultilineComment w then .normal else .block) r := by
  unfold skipMultilineComment
  simp only [hw, hc, Option.bind_eq_bind, Option.bind_some, Bool.true_and]
  by_cases h : contains endMultilineComment w = true
  · simp only [h, Bool.not_true, if_true]
    simpa using move_skips hf hv
  · simp only [h, Bool.not_false, if_true]
    simpa using skipMultilineLoop_spec hf fuel p hv hl

/-- What a token function must return: the token the lexer emits next, and the position of its
last word. -/
def Yields (d : Chunk) (len : Nat) (ts : List Str) : Option (Str × Pos) → Prop
  | none => ts = []
  | some (t, q) => t ≠ [] ∧ Valid d q ∧ ts = t :: lex .normal (rest d q).tail ∧ (rest d q).length ≤ len

theorem quoteLoop_spec {d : Chunk} (hf : Full d) : ∀ (fuel : Nat) (text : Str) (p : Pos), Valid d p →
    (rest d p).length ≤ fuel →
    ∃ r, quoteLoop d fuel text p = some r ∧ Yields d (rest d p).length (lex (.quote text) (rest d p).tail) r := by
  intro fuel
  induction fuel with
  | zero =>
    intro text p hv hl
    obtain ⟨w, _, hr⟩ := rest_valid hv
    rw [hr] at hl
    simp at hl
  | succ fuel ih =>
    intro text p hv hl
    obtain ⟨r, hr, hs⟩ := moveToNext_spec hf hv
    unfold quoteLoop
    rw [hr]
    cases r with
    | none =>
      refine ⟨none, rfl, ?_⟩
      simp only at hs
      simp only [Yields]
      rw [hs]; rfl
    | some q =>
      obtain ⟨hq, hs⟩ := hs
      obtain ⟨w, hw, hrq⟩ := rest_valid hq
      have hlen := length_next hv hs
      have hlex : lex (.quote text) (rest d p).tail = lex (.quote text) (.word w :: (rest d q).tail) := by
        rw [lex_next (by simp) hs]
        conv => lhs; rw [hrq]
      simp only [Option.bind_eq_bind, Option.bind_some, hw]
      by_cases hc : countChar quotationMark (text ++ [' '] ++ w) % 2 = 0
      · rw [if_pos hc]
        refine ⟨_, rfl, by simp, hq, ?_, by omega⟩
        rw [hlex]
        simp only [lex, lexStep, hc, if_true, List.cons_append, List.nil_append]
      · rw [if_neg hc]
        obtain ⟨r', hr', hs'⟩ := ih (text ++ [' '] ++ w) q hq (by omega)
        refine ⟨r', hr', ?_⟩
        have hlex' : lex (.quote text) (rest d p).tail = lex (.quote (text ++ [' '] ++ w)) (rest d q).tail := by
          rw [hlex]
          simp only [lex, lexStep, hc, if_false, List.nil_append]
        rw [hlex']
        cases r' with
        | none => exact hs'
        | some x => exact ⟨hs'.1, hs'.2.1, hs'.2.2.1, by have := hs'.2.2.2; omega⟩

theorem getText_spec {d : Chunk} (hf : Full d) {fuel : Nat} {p : Pos} (hv : Valid d p)
    (hl : (rest d p).length ≤ fuel) {w : Str} (hw : word? d p = some w) (hc : quotationMark ∈ w) :
    ∃ r, getTextInQuotationMarks d fuel p = some r ∧
      Yields d (rest d p).length (if countChar quotationMark w % 2 = 0 then w :: lex .normal (rest d p).tail
        else lex (.quote w) (rest d p).tail) r := by
  unfold getTextInQuotationMarks
  have h0 : countChar quotationMark w ≠ 0 := by
    unfold countChar
    exact Nat.pos_iff_ne_zero.mp (List.count_pos_iff.mpr hc)
  simp only [hw, Option.bind_eq_bind, Option.bind_some, if_neg h0]
  by_cases h : countChar quotationMark w % 2 = 0
  · rw [if_neg (by omega), if_pos h]
    exact ⟨_, rfl, word_mem hf hw, hv, rfl, Nat.le_refl _⟩
  · rw [if_pos h, if_neg h]
    exact quoteLoop_spec hf fuel w p hv hl

theorem contains_char (c : Char) (w : Str) : contains [c] w = true ↔ c ∈ w := by
  rw [contains_iff]
  constructor
  · rintro ⟨a, b, rfl⟩; simp
  · intro h
    obtain ⟨a, b, rfl⟩ := List.append_of_mem h
    exact ⟨a, b, by simp⟩

theorem indexOf_contains {sub w : Str} {k : Nat} (h : indexOf sub w = some k) : contains sub w = true := by
  induction w generalizing k with
  | nil =>
    simp only [indexOf] at h
    rw [contains]
    split at h
    · assumption
    · simp at h
  | cons c cs ih =>
    simp only [indexOf] at h
    rw [contains]
    split at h
    · next hp => rw [hp]; rfl
    · cases hi : indexOf sub cs with
      | none => rw [hi] at h; simp at h
      | some j => rw [ih hi]; simp

theorem before_contains {marker w : Str} (h : before marker w = true) : contains marker w = true := by
  unfold before at h
  cases hm : indexOf marker w with
  | none => rw [hm] at h; simp at h
  | some k => exact indexOf_contains hm

theorem nextFrom_spec {d : Chunk} (hf : Full d) : ∀ (fuel : Nat) (p : Pos), Valid d p →
    (rest d p).length < fuel →
    ∃ r, nextFrom d fuel p = some r ∧ Yields d (rest d p).length (lex .normal (rest d p)) r := by
  intro fuel
  induction fuel with
  | zero => intro p _ h; omega
  | succ fuel ih =>
    intro p hv hl
    obtain ⟨w, hw, hr⟩ := rest_valid hv
    have hlex : lex .normal (rest d p) = (lexWord w).2 ++ lex (lexWord w).1 (rest d p).tail := by
      conv => lhs; rw [hr]
      rfl
    -- continue after a skipped comment
    have skip : ∀ (m : Mode) (r : Option Pos), Skips d p m r → lex .normal (rest d p) = lex m (rest d p).tail →
        ∃ x, (some r >>= fun r => match r with | none => pure none | some q => nextFrom d fuel q) = some x ∧
          Yields d (rest d p).length (lex .normal (rest d p)) x := by
      intro m r hs he
      cases r with
      | none => exact ⟨none, rfl, he.trans hs⟩
      | some q =>
        obtain ⟨x, hx, hy⟩ := ih q hs.1 (by have := hs.2.2; omega)
        refine ⟨x, hx, ?_⟩
        rw [he, hs.2.1]
        cases x with
        | none => exact hy
        | some x => exact ⟨hy.1, hy.2.1, hy.2.2.1, by have := hy.2.2.2; have := hs.2.2; omega⟩
    have hline : contains beginLineComment w = true → lexWord w = (.line, []) →
        ∃ x, (skipLineComment d p >>= fun r => match r with | none => pure none | some q => nextFrom d fuel q) = some x ∧
          Yields d (rest d p).length (lex .normal (rest d p)) x := by
      intro hc he
      obtain ⟨r, hr', hs⟩ := skipLine_spec hf hw hc
      rw [hr']
      refine skip .line r ?_ (by rw [hlex, he]; rfl)
      cases r <;> exact hs
    have hblock : contains beginMultilineComment w = true →
        lexWord w = (if contains endMultilineComment w then .normal else .block, []) →
        ∃ x, (skipMultilineComment d fuel p >>= fun r => match r with | none => pure none | some q => nextFrom d fuel q) = some x ∧
          Yields d (rest d p).length (lex .normal (rest d p)) x := by
      intro hc he
      obtain ⟨r, hr', hs⟩ := skipMultiline_spec hf hv (show (rest d p).length ≤ fuel by omega) hw hc
      rw [hr']
      exact skip _ r hs (by rw [hlex, he]; rfl)
    unfold nextFrom
    simp only [hw, Option.bind_eq_bind, Option.bind_some, if_neg (word_mem hf hw)]
    unfold lexWord at hlex hline hblock
    by_cases h1 : contains [quotationMark] w = true
    · simp only [h1, if_true] at hlex hline hblock ⊢
      by_cases h2 : before beginMultilineComment w = true
      · simp only [h2, if_true] at hblock ⊢
        exact hblock (before_contains h2) trivial
      · simp only [h2] at hlex hline ⊢
        by_cases h3 : before beginLineComment w = true
        · simp only [h3, if_true] at hline ⊢
          exact hline (before_contains h3) (by simp)
        · simp only [h3] at hlex ⊢
          obtain ⟨r, hr', hy⟩ := getText_spec hf hv (show (rest d p).length ≤ fuel by omega) hw ((contains_char _ _).mp h1)
          refine ⟨r, hr', ?_⟩
          rw [hlex]
          by_cases h4 : countChar quotationMark w % 2 = 0
          · simp only [h4, if_true] at hy ⊢
            exact hy
          · simp only [h4, if_false] at hy ⊢
            exact hy
    · simp only [h1] at hlex hline hblock ⊢
      by_cases h2 : contains beginLineComment w = true
      · simp only [h2, if_true] at hline ⊢
        exact hline trivial (by simp)
      · simp only [h2] at hlex hblock ⊢
        by_cases h3 : contains beginMultilineComment w = true
        · simp only [h3, if_true] at hblock ⊢
          exact hblock trivial (by simp)
        · simp only [h3] at hlex ⊢
          by_cases h4 : (contains slash w && !contains endMultilineComment w) = true
          · simp only [h4, if_true] at hlex ⊢
            unfold getTwoWordedToken
            simp only [hw, Option.bind_eq_bind, Option.bind_some]
            by_cases h5 : (contains slashBegin w || contains slashEnd w) = true
            · simp only [h5, if_true] at hlex ⊢
              obtain ⟨r, hr', hs⟩ := moveToNext_spec hf hv
              rw [hr']
              cases r with
              | none =>
                refine ⟨none, rfl, ?_⟩
                simp only at hs
                simp only [Yields]
                rw [hlex, hs]; rfl
              | some q =>
                obtain ⟨hq, hs⟩ := hs
                obtain ⟨w', hw', hrq⟩ := rest_valid hq
                simp only [Option.bind_some, hw']
                refine ⟨_, rfl, by simp, hq, ?_, by have := length_next hv hs; omega⟩
                rw [hlex, lex_next (by simp) hs]
                conv => lhs; rw [hrq]
                rfl
            · simp only [h5] at hlex ⊢
              refine ⟨none, rfl, ?_⟩
              simp only [Yields]
              rw [hlex]
              simp [lex_dead]
          · simp only [h4] at hlex ⊢
            refine ⟨_, rfl, word_mem hf hw, hv, ?_, Nat.le_refl _⟩
            rw [hlex]
            rfl

theorem buildLoop_spec {d : Chunk} (hf : Full d) (inner : Nat) : ∀ (fuel : Nat) (p : Pos), Valid d p →
    (rest d p).length < inner → (rest d p).length ≤ fuel →
    buildLoop d inner fuel p false = some (lex .normal (rest d p).tail) := by
  intro fuel
  induction fuel with
  | zero =>
    intro p hv _ hl
    obtain ⟨w, _, hr⟩ := rest_valid hv
    rw [hr] at hl
    simp at hl
  | succ fuel ih =>
    intro p hv hi hl
    obtain ⟨r, hr, hs⟩ := move_skips hf hv
    unfold buildLoop buildNextValidToken
    simp only [Bool.not_false, if_true, hr, Option.bind_eq_bind, Option.bind_some]
    cases r with
    | none => simp only [Skips] at hs; rw [hs]; rfl
    | some q =>
      obtain ⟨hq, hlex, hlen⟩ := hs
      obtain ⟨x, hx, hy⟩ := nextFrom_spec hf inner q hq (by omega)
      simp only [hx, Option.bind_some]
      rw [hlex]
      cases x with
      | none => simp only [Yields] at hy; rw [hy]; rfl
      | some x =>
        obtain ⟨t, q'⟩ := x
        obtain ⟨hne, hq', he, hlen'⟩ := hy
        simp only [hne, ne_eq, not_false_eq_true, if_true]
        rw [ih q' hq' (by omega) (by omega), he]
        rfl

theorem stream_length (d : Chunk) : (stream d).length = words d + d.length := by
  induction d with
  | nil => rfl
  | cons l d ih =>
    rw [stream_cons, List.length_append, ih]
    simp only [lineEvs, words, List.length_append, List.length_map, List.map_cons, List.sum_cons, List.length_cons,
      List.length_nil]
    omega

/-- The walk of the Go code over a chunk returns the lexer's tokens: no index out of range, no
endless loop. -/
theorem buildTokenList_eq {d : Chunk} (hf : Full d) : buildTokenList d = some (lex .normal (stream d)) := by
  unfold buildTokenList
  rw [← stream_length]
  unfold buildLoop buildNextValidToken
  cases d with
  | nil => rfl
  | cons l d =>
    have hl : 0 < l.length := List.length_pos_iff.mpr (hf l (by simp)).1
    have hv : Valid (l :: d) ⟨0, 0⟩ := ⟨l, rfl, hl⟩
    have hr : rest (l :: d) ⟨0, 0⟩ = stream (l :: d) := by rw [rest_line_start]; rfl
    simp only [Bool.not_true, Bool.false_eq_true, if_false, List.getElem?_cons_zero, hl, if_true]
    obtain ⟨x, hx, hy⟩ := nextFrom_spec hf ((stream (l :: d)).length + 2) ⟨0, 0⟩ hv (by rw [hr]; omega)
    rw [hr] at hy
    simp only [hx, Option.bind_eq_bind, Option.bind_some]
    cases x with
    | none => simp only [Yields] at hy; rw [hy]; rfl
    | some x =>
      obtain ⟨t, q⟩ := x
      obtain ⟨hne, hq, he, hlen⟩ := hy
      simp only [hne, ne_eq, not_false_eq_true, if_true]
      rw [buildLoop_spec hf _ _ q hq (by omega) (by omega), he]
      rfl

theorem full_of_lines (lines : List Str) : Full ((lines.filter fun l => trimSpace l ≠ []).map fields) := by
  intro l hl
  obtain ⟨s, hs, rfl⟩ := List.mem_map.mp hl
  have : trimSpace s ≠ [] := by simpa using (List.mem_filter.mp hs).2
  exact ⟨fun h => this ((trimSpace_eq_nil_iff s).mpr h), fun w hw => fields_ne_nil hw⟩

/-- The events of a text given as lines. -/
def textStream (lines : List Str) : List Ev := stream (lines.map fields)

/-- Blank lines do not matter: in normal mode the end of a line is ignored, and in a line comment
the end of the comment's own line has passed before a blank line is reached. -/
theorem lex_blank (m : Mode) (lines : List Str) (hm : m ≠ .line) :
    lex m (stream ((lines.filter fun l => trimSpace l ≠ []).map fields)) = lex m (textStream lines) ∧
    lexMode m (stream ((lines.filter fun l => trimSpace l ≠ []).map fields)) = lexMode m (textStream lines) ∧
    lexMode m (textStream lines) ≠ .line := by
  have hnl : ∀ (m : Mode) (ws : List Str), lexMode m (lineEvs ws) ≠ .line := by
    intro m ws
    unfold lineEvs
    rw [lexMode_append]
    generalize lexMode m (ws.map .word) = m'
    cases m' <;> simp [lexMode, lexStep]
  induction lines generalizing m with
  | nil => exact ⟨rfl, rfl, hm⟩
  | cons l lines ih =>
    have e : textStream (l :: lines) = lineEvs (fields l) ++ textStream lines := rfl
    by_cases h : trimSpace l = []
    · have hf : fields l = [] := (trimSpace_eq_nil_iff l).mp h
      have hl : lineEvs (fields l) = [.nl] := by rw [hf]; rfl
      rw [List.filter_cons_of_neg (by simpa using h), e, hl]
      have h2 : lexMode m (.nl :: textStream lines) = lexMode m (textStream lines) := by
        cases m <;> first | (exact absurd rfl hm) | rfl
      have := ih m hm
      rw [List.singleton_append, lex_nl hm, h2]
      exact this
    · rw [List.filter_cons_of_pos (by simpa using h), e, List.map_cons, stream_cons, lex_append, lexMode_append, lex_append, lexMode_append]
      have := ih (lexMode m (lineEvs (fields l))) (hnl _ _)
      rw [this.1, this.2.1]
      exact ⟨rfl, rfl, this.2.2⟩

/-- A worker returns the lexer's tokens of its lines. -/
theorem tokenBuilderRoutine_eq (lines : List Str) :
    tokenBuilderRoutine lines = some (lex .normal (textStream lines)) := by
  unfold tokenBuilderRoutine
  rw [buildTokenList_eq (full_of_lines lines), (lex_blank .normal lines (by simp)).1]

theorem tokensFromString_eq (n : Nat) (str : Str) :
    tokensFromString n str = some (((List.range n).map fun i =>
      lex .normal (textStream (share (splitChar '\n' (replaceEscapedQuotes str)) n i))).flatten ++ [[]]) := by
  unfold tokensFromString
  simp only
  rw [shares?_eq]
  simp only [Option.bind_eq_bind, Option.bind_some]
  rw [mapM_option_eq_some tokenBuilderRoutine _ _ (fun l _ => tokenBuilderRoutine_eq l)]
  simp only [Option.bind_some, List.map_map]
  rfl

end Verif.A2l
