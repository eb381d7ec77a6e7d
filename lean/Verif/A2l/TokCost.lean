import Verif.A2l.TokExact
import Verif.A2l.Cost

/-!
C101: how many characters the tokenizer looks at. Every call of a function of the package `strings`, every comparison and every
concatenation is charged with the length of the text it goes over (of the result for a concatenation); calls that the evaluation of `&&`
leaves out are charged too. What the functions of the tokenizer do is that of `Tokenizer.lean`.
-/

namespace Verif.A2l

open Verif.Go Verif.A2l.Spec Verif.A2l.Reading

/-- The word at a position. -/
def wordAt (d : Chunk) (p : Pos) : Str := (word? d p).getD []

/-- token_generator.go:236-250: one `Contains` for every word. -/
def skipLoopCost (d : Chunk) : (fuel : Nat) → Pos → Nat
  | 0, _ => 0
  | fuel + 1, p =>
    match moveToNextRawValue d p with
    | some (some q) =>
      (wordAt d q).length + if contains endMultilineComment (wordAt d q) then 0 else if wordAt d q = [] then 0 else skipLoopCost d fuel q
    | _ => 0

/-- token_generator.go:231-259 (`skipMultilineComment`): `Contains` four times. -/
def skipCost (d : Chunk) (fuel : Nat) (p : Pos) : Nat :=
  4 * (wordAt d p).length +
    if contains beginMultilineComment (wordAt d p) && !contains endMultilineComment (wordAt d p) then skipLoopCost d fuel p else 0

/-- token_generator.go:272-283: in every round the text so far is copied to append the next word, and its quotation marks are counted. -/
def quoteCost (d : Chunk) : (fuel : Nat) → (text : Str) → Pos → Nat
  | 0, _, _ => 0
  | fuel + 1, text, p =>
    match moveToNextRawValue d p with
    | some (some q) =>
      2 * (text ++ [' '] ++ wordAt d q).length +
        if countChar quotationMark (text ++ [' '] ++ wordAt d q) % 2 = 0 then 0 else quoteCost d fuel (text ++ [' '] ++ wordAt d q) q
    | _ => 0

/-- token_generator.go:261-289 (`getTextInQuotationMarks`): `Count` twice. -/
def textCost (d : Chunk) (fuel : Nat) (p : Pos) : Nat :=
  2 * (wordAt d p).length + if countChar quotationMark (wordAt d p) % 2 = 0 then 0 else quoteCost d fuel (wordAt d p) p

/-- token_generator.go:333-349 (`getTwoWordedToken`): `Contains` twice, and the concatenation. -/
def twoCost (d : Chunk) (p : Pos) : Nat :=
  2 * (wordAt d p).length +
    match getTwoWordedToken d p with
    | some (some (t, _)) => t.length
    | _ => 0

/-- token_generator.go:157-209, the part of `buildNextValidToken` from the label `start` on: `Contains` and three times `Index` for a word
with a quotation mark, five times `Contains` for the others, fewer before a comment. -/
def nextCost (d : Chunk) : (fuel : Nat) → Pos → Nat
  | 0, _ => 0
  | fuel + 1, p =>
    let t := wordAt d p
    let again (r : Option (Option Pos)) : Nat := match r with
      | some (some q) => nextCost d fuel q
      | _ => 0
    if t = [] then 0
    else if contains [quotationMark] t then
      4 * t.length +
        if before beginMultilineComment t then skipCost d fuel p + again (skipMultilineComment d fuel p)
        else if before beginLineComment t then t.length + again (skipLineComment d p)
        else textCost d fuel p
    else if contains beginLineComment t then 3 * t.length + again (skipLineComment d p)
    else if contains beginMultilineComment t then 3 * t.length + skipCost d fuel p + again (skipMultilineComment d fuel p)
    else 5 * t.length + if contains slash t && !contains endMultilineComment t then twoCost d p else 0

/-- token_generator.go:109-133: for every token `Contains` twice, and the comparison with the beginning of a module. -/
def buildCost (d : Chunk) (inner : Nat) : (fuel : Nat) → Pos → (firstRun : Bool) → Nat
  | 0, _, _ => 0
  | fuel + 1, p, firstRun =>
    (if firstRun then nextCost d inner p
      else match moveToNextRawValue d p with
        | some (some q) => nextCost d inner q
        | _ => 0) +
    match buildNextValidToken d inner p firstRun with
    | some (some (t, q)) => 3 * t.length + if t = [] then 0 else buildCost d inner fuel q false
    | _ => 0

/-- token_generator.go:100-134 (`buildTokenList`). -/
def chunkCost (d : Chunk) : Nat := buildCost d (words d + d.length + 2) (words d + d.length + 2) ⟨0, 0⟩ true

/-- token_generator.go:88-98 (`tokenBuilderRoutine`): `TrimSpace` and `Fields` on every line. -/
def linesCost (lines : List Str) : Nat :=
  (lines.map fun l => 2 * l.length).sum + chunkCost ((lines.filter fun l => trimSpace l ≠ []).map fields)

/-- a2l/a2l.go:55-75, token_generator.go:43-86: the regular expression and the trimming, `ReplaceAll` and `Split`, and then the workers. -/
def fileCost (graphic : Char → Bool) (n : Nat) (s : Str) : Nat :=
  2 * s.length + 2 * (cleanString graphic s).length +
    ((List.range n).map fun i => linesCost (share (splitChar '\n' (replaceEscapedQuotes (cleanString graphic s))) n i)).sum

/-! ### What is left to read -/

/-- The characters of the words, and one for each word. -/
def vol (es : List Ev) : Nat := ((evWords es).map fun w => w.length + 1).sum

/-- The number of words. -/
def num (es : List Ev) : Nat := (evWords es).length

theorem vol_append (a b : List Ev) : vol (a ++ b) = vol a + vol b := by simp [vol, evWords_append]
theorem num_append (a b : List Ev) : num (a ++ b) = num a + num b := by simp [num, evWords_append]
theorem vol_word (w : Str) (es : List Ev) : vol (.word w :: es) = w.length + 1 + vol es := by simp [vol, evWords]
theorem num_word (w : Str) (es : List Ev) : num (.word w :: es) = num es + 1 := by simp [num, evWords]

/-- What follows the word at position `p`. -/
def after (d : Chunk) (p : Pos) : List Ev := (rest d p).tail

theorem rest_words {d : Chunk} {p : Pos} (hv : Valid d p) : rest d p = .word (wordAt d p) :: after d p ∧ word? d p = some (wordAt d p) := by
  obtain ⟨w, hw, hr⟩ := rest_valid hv
  have : wordAt d p = w := by simp [wordAt, hw]
  rw [this]
  exact ⟨hr, hw⟩

theorem move_after {d : Chunk} {p q : Pos} (hf : Full d) (hv : Valid d p) (h : moveToNextRawValue d p = some (some q)) :
    Valid d q ∧ ∃ e, after d p = e ++ rest d q ∧ vol e = 0 ∧ num e = 0 ∧ ∀ m, m ≠ .line → lexMode m e = m := by
  obtain ⟨r, hr, hs⟩ := moveToNext_spec hf hv
  rw [h] at hr
  cases hr
  simp only at hs
  refine ⟨hs.1, ?_⟩
  rcases hs.2 with h2 | h2
  · exact ⟨[], h2, rfl, rfl, fun m _ => rfl⟩
  · exact ⟨[.nl], h2, rfl, rfl, fun m hm => by cases m <;> first | rfl | exact absurd rfl hm⟩

theorem line_words (ws : List Str) : lexMode .line (ws.map .word) = .line := by
  induction ws with
  | nil => rfl
  | cons w ws ih => exact ih

theorem skipLine_after {d : Chunk} {p q : Pos} (hf : Full d) (hv : Valid d p) (h : skipLineComment d p = some (some q)) :
    Valid d q ∧ ∃ e, after d p = e ++ rest d q ∧ lexMode .line e = .normal := by
  obtain ⟨l, hl, hi⟩ := hv
  have hw : word? d p = some l[p.i] := by simp [word?, hl, hi]
  unfold skipLineComment at h
  rw [hw] at h
  simp only [Option.bind_eq_bind, Option.bind_some] at h
  split at h
  · split at h
    · next h1 =>
      have h5 : d[p.o + 1] ≠ [] := (hf _ (List.getElem_mem _)).1
      have h6 : 0 < d[p.o + 1].length := List.length_pos_iff.mpr h5
      have hq : Valid d ⟨p.o + 1, 0⟩ := ⟨_, List.getElem?_eq_getElem h1, h6⟩
      rw [(rest_words hq).2] at h
      simp only [Option.bind_some, Option.pure_def, Option.some.injEq] at h
      subst h
      refine ⟨hq, lineEvs (l.drop (p.i + 1)), ?_, ?_⟩
      · rw [rest_line_start]
        unfold after rest
        rw [hl]
        simp only
        rw [List.drop_eq_getElem_cons hi]
        simp only [lineEvs, List.map_cons, List.cons_append, List.tail_cons]
      · unfold lineEvs
        rw [lexMode_append, line_words]
        rfl
    · simp at h
  · simp at h

/-! ### The bounds -/

theorem skipLoop_cost {d : Chunk} (hf : Full d) : ∀ (fuel : Nat) (p : Pos), Valid d p →
    skipLoopCost d fuel p ≤ vol (after d p) ∧
    ∀ q, skipMultilineLoop d fuel p = some (some q) → Valid d q ∧ ∃ e, after d p = e ++ rest d q ∧ lexMode .block e = .normal ∧
      skipLoopCost d fuel p ≤ vol e := by
  intro fuel
  induction fuel with
  | zero => intro p _; exact ⟨Nat.zero_le _, fun q h => by simp [skipMultilineLoop] at h⟩
  | succ fuel ih =>
    intro p hv
    unfold skipLoopCost skipMultilineLoop
    cases hm : moveToNextRawValue d p with
    | none => exact ⟨Nat.zero_le _, fun q h => by simp at h⟩
    | some r =>
      cases r with
      | none => exact ⟨Nat.zero_le _, fun q h => by simp at h⟩
      | some q =>
        obtain ⟨hq, e, ha, e1, e2, e3⟩ := move_after hf hv hm
        obtain ⟨i1, i2⟩ := ih q hq
        simp only [Option.bind_eq_bind, Option.bind_some, (rest_words hq).2]
        rw [ha, (rest_words hq).1, vol_append, vol_word]
        by_cases h1 : contains endMultilineComment (wordAt d q) = true
        · simp only [h1, if_true]
          refine ⟨by omega, fun q' h => ?_⟩
          obtain ⟨hq', e', ha', f1, f2, f3⟩ := move_after hf hq h
          refine ⟨hq', e ++ .word (wordAt d q) :: e', by rw [ha']; simp, ?_, by rw [vol_append, vol_word]; omega⟩
          rw [lexMode_append, e3 _ (by simp), lexMode]
          simp only [lexStep, h1, if_true]
          exact f3 _ (by simp)
        · simp only [h1, Bool.false_eq_true, if_false]
          by_cases h2 : wordAt d q = []
          · simp only [h2, if_true]
            exact ⟨by simp, fun q' h => by simp at h⟩
          · simp only [h2, if_false]
            refine ⟨by omega, fun q' h => ?_⟩
            obtain ⟨hq', e', ha', f1, hc⟩ := i2 q' h
            refine ⟨hq', e ++ .word (wordAt d q) :: e', by rw [ha']; simp, ?_, by rw [vol_append, vol_word]; omega⟩
            rw [lexMode_append, e3 _ (by simp), lexMode]
            simp only [lexStep, h1, Bool.false_eq_true, if_false]
            exact f1

theorem skip_cost {d : Chunk} (hf : Full d) (fuel : Nat) {p : Pos} (hv : Valid d p) (hc : contains beginMultilineComment (wordAt d p) = true) :
    skipCost d fuel p ≤ 4 * (wordAt d p).length + vol (after d p) ∧
    ∀ q, skipMultilineComment d fuel p = some (some q) → Valid d q ∧ ∃ e, after d p = e ++ rest d q ∧
      lexMode (if contains endMultilineComment (wordAt d p) then .normal else .block) e = .normal ∧
      skipCost d fuel p ≤ 4 * (wordAt d p).length + vol e := by
  obtain ⟨i1, i2⟩ := skipLoop_cost hf fuel p hv
  unfold skipCost skipMultilineComment
  simp only [(rest_words hv).2, Option.bind_eq_bind, Option.bind_some, hc, Bool.true_and]
  by_cases h1 : contains endMultilineComment (wordAt d p) = true
  · simp only [h1, Bool.not_true, Bool.false_eq_true, if_false, if_true]
    refine ⟨by omega, fun q h => ?_⟩
    obtain ⟨hq, e, ha, e1, e2, e3⟩ := move_after hf hv h
    exact ⟨hq, e, ha, e3 _ (by simp), by omega⟩
  · simp only [h1, Bool.not_false, if_true, Bool.false_eq_true, if_false]
    refine ⟨by omega, fun q h => ?_⟩
    obtain ⟨hq, e, ha, e1, hc⟩ := i2 q h
    exact ⟨hq, e, ha, e1, by omega⟩

/-- No text is longer than `B` as long as it is open. -/
def OpenMode (es : List Ev) (B : Nat) : Prop := ∀ a b text, es = a ++ b → lexMode .normal a = .quote text → text.length ≤ B

theorem quote_cost {d : Chunk} (hf : Full d) {es : List Ev} {B : Nat} (hB : OpenMode es B) : ∀ (fuel : Nat) (text : Str) (p : Pos)
    (b : List Ev), Valid d p → es = b ++ after d p → lexMode .normal b = .quote text →
    quoteCost d fuel text p ≤ 2 * B * num (after d p) + 2 * vol (after d p) ∧
    ∀ t q, quoteLoop d fuel text p = some (some (t, q)) → Valid d q ∧ ∃ e, after d p = e ++ after d q ∧ lexMode (.quote text) e = .normal ∧
      t.length = text.length + vol e ∧ quoteCost d fuel text p ≤ 2 * B * num e + 2 * vol e := by
  intro fuel
  induction fuel with
  | zero => intro text p b _ _ _; exact ⟨Nat.zero_le _, fun t q h => by simp [quoteLoop] at h⟩
  | succ fuel ih =>
    intro text p b hv hes hb
    have hlen := hB b (after d p) text hes hb
    unfold quoteCost quoteLoop
    cases hm : moveToNextRawValue d p with
    | none => exact ⟨Nat.zero_le _, fun t q h => by simp at h⟩
    | some r =>
      cases r with
      | none => exact ⟨Nat.zero_le _, fun t q h => by simp at h⟩
      | some q =>
        obtain ⟨hq, e, ha, e1, e2, e3⟩ := move_after hf hv hm
        simp only [Option.bind_eq_bind, Option.bind_some, (rest_words hq).2]
        have hl2 : (text ++ [' '] ++ wordAt d q).length = text.length + (wordAt d q).length + 1 := by simp; omega
        rw [ha, (rest_words hq).1, vol_append, vol_word, num_append, num_word, hl2]
        have f1 : 2 * B * (num e + (num (after d q) + 1)) = 2 * B * num (after d q) + 2 * B := by
          rw [e2, Nat.zero_add, Nat.mul_add, Nat.mul_one]
        rw [(rest_words hq).1] at ha
        by_cases h : countChar quotationMark (text ++ [' '] ++ wordAt d q) % 2 = 0
        · rw [if_pos h]
          refine ⟨by omega, fun t q' hh => ?_⟩
          rw [if_pos h] at hh
          simp only [Option.pure_def, Option.some.injEq, Prod.mk.injEq] at hh
          obtain ⟨rfl, rfl⟩ := hh
          refine ⟨hq, e ++ [.word (wordAt d q)], by simp, ?_, ?_, ?_⟩
          · rw [lexMode_append, e3 _ (by simp), lexMode, lexStep, if_pos h]; rfl
          · rw [hl2, vol_append, vol_word]; simp [vol, evWords] at e1 ⊢; omega
          · rw [vol_append, vol_word, num_append, num_word, e2]; simp [num, vol, evWords]; omega
        · rw [if_neg h]
          have hmode : lexMode .normal (b ++ e ++ [.word (wordAt d q)]) = .quote (text ++ [' '] ++ wordAt d q) := by
            rw [lexMode_append, lexMode_append, hb, e3 _ (by simp), lexMode, lexStep, if_neg h]; rfl
          obtain ⟨i1, i2⟩ := ih (text ++ [' '] ++ wordAt d q) q _ hq (by rw [hes, ha]; simp) hmode
          refine ⟨by omega, fun t q' hh => ?_⟩
          rw [if_neg h] at hh
          obtain ⟨hq', e', ha', g1, g2, g3⟩ := i2 t q' hh
          refine ⟨hq', e ++ .word (wordAt d q) :: e', by rw [ha']; simp, ?_, ?_, ?_⟩
          · rw [lexMode_append, e3 _ (by simp), lexMode, lexStep, if_neg h]; exact g1
          · rw [vol_append, vol_word]; omega
          · rw [vol_append, vol_word, num_append, num_word, e2, Nat.zero_add, Nat.mul_add (2 * B), Nat.mul_one]; omega

theorem two_cost {d : Chunk} (hf : Full d) {p : Pos} (hv : Valid d p) :
    (match getTwoWordedToken d p with | some (some (t, _)) => t.length | _ => 0) ≤ (wordAt d p).length + 1 + vol (after d p) ∧
    ∀ t q, getTwoWordedToken d p = some (some (t, q)) → Valid d q ∧ (contains slashBegin (wordAt d p) || contains slashEnd (wordAt d p)) = true ∧
      ∃ e, after d p = e ++ after d q ∧ lexMode (.tag (wordAt d p)) e = .normal ∧ t.length = (wordAt d p).length + vol e := by
  have key : ∀ t q, getTwoWordedToken d p = some (some (t, q)) → Valid d q ∧
      (contains slashBegin (wordAt d p) || contains slashEnd (wordAt d p)) = true ∧
      ∃ e, after d p = e ++ after d q ∧ lexMode (.tag (wordAt d p)) e = .normal ∧ t.length = (wordAt d p).length + vol e := by
    intro t q h
    unfold getTwoWordedToken at h
    simp only [(rest_words hv).2, Option.bind_eq_bind, Option.bind_some] at h
    split at h
    · next hs =>
      cases hm : moveToNextRawValue d p with
      | none => rw [hm] at h; simp at h
      | some r =>
        rw [hm] at h
        cases r with
        | none => simp at h
        | some q' =>
          obtain ⟨hq, e, ha, e1, e2, e3⟩ := move_after hf hv hm
          simp only [Option.bind_some, (rest_words hq).2, Option.pure_def, Option.some.injEq, Prod.mk.injEq] at h
          obtain ⟨rfl, rfl⟩ := h
          refine ⟨hq, hs, e ++ [.word (wordAt d q')], by rw [ha, (rest_words hq).1]; simp, ?_, ?_⟩
          · rw [lexMode_append, e3 _ (by simp)]; rfl
          · rw [vol_append, vol_word, e1]; simp [vol, evWords]
    · simp at h
  refine ⟨?_, key⟩
  rcases h : getTwoWordedToken d p with _ | _ | ⟨t, q⟩
  · exact Nat.zero_le _
  · exact Nat.zero_le _
  · obtain ⟨_, _, e, ha, _, ht⟩ := key t q h
    simp only
    rw [ht, ha, vol_append]
    omega

theorem next_cost {d : Chunk} (hf : Full d) {es : List Ev} {B : Nat} (hB : OpenMode es B) : ∀ (fuel : Nat) (p : Pos) (b : List Ev), Valid d p →
    es = b ++ rest d p → lexMode .normal b = .normal →
    nextCost d fuel p ≤ 10 * vol (rest d p) + 2 * B * num (rest d p) ∧
    ∀ t q, nextFrom d fuel p = some (some (t, q)) → Valid d q ∧ ∃ e, rest d p = e ++ after d q ∧ lexMode .normal e = .normal ∧
      t.length + 1 ≤ vol e ∧ nextCost d fuel p ≤ 10 * vol e + 2 * B * num e := by
  intro fuel
  induction fuel with
  | zero => intro p b _ _ _; exact ⟨Nat.zero_le _, fun t q h => by simp [nextFrom] at h⟩
  | succ fuel ih =>
    intro p b hv hes hb
    have hw := (rest_words hv).2
    have hr := (rest_words hv).1
    have hne : wordAt d p ≠ [] := word_mem hf hw
    have hvol : vol (rest d p) = (wordAt d p).length + 1 + vol (after d p) := by rw [hr, vol_word]
    have hnum : 2 * B * num (rest d p) = 2 * B * num (after d p) + 2 * B := by rw [hr, num_word, Nat.mul_add, Nat.mul_one]
    have hone : ∀ m out, lexWord (wordAt d p) = (m, out) → ∀ e, lexMode .normal (.word (wordAt d p) :: e) = lexMode m e := by
      intro m out h e
      rw [lexMode, lexStep, h]
    -- the word has been scanned, something has been skipped
    have skipped : ∀ (m : Mode) (r : Option (Option Pos)) (c : Nat), lexWord (wordAt d p) = (m, []) →
        (c ≤ 10 * ((wordAt d p).length + 1) + vol (after d p)) →
        (∀ q, r = some (some q) → Valid d q ∧ ∃ e, after d p = e ++ rest d q ∧ lexMode m e = .normal ∧
          c ≤ 10 * ((wordAt d p).length + 1) + vol e) →
        (c + (match r with | some (some q) => nextCost d fuel q | _ => 0) ≤ 10 * vol (rest d p) + 2 * B * num (rest d p)) ∧
        ∀ t q, (r >>= fun r => match r with | none => pure none | some q => nextFrom d fuel q) = some (some (t, q)) →
          Valid d q ∧ ∃ e, rest d p = e ++ after d q ∧ lexMode .normal e = .normal ∧ t.length + 1 ≤ vol e ∧
            c + (match r with | some (some q) => nextCost d fuel q | _ => 0) ≤ 10 * vol e + 2 * B * num e := by
      intro m r c hm hc hr'
      rcases r with _ | _ | q
      · exact ⟨by simp only; omega, fun t q h => by simp at h⟩
      · exact ⟨by simp only; omega, fun t q h => by simp at h⟩
      · obtain ⟨hq, e, ha, hme, hca⟩ := hr' q rfl
        have hmode : lexMode .normal (b ++ .word (wordAt d p) :: e) = .normal := by
          rw [lexMode_append, hb, hone _ _ hm, hme]
        obtain ⟨i1, i2⟩ := ih q (b ++ .word (wordAt d p) :: e) hq (by rw [hes, hr, ha]; simp) hmode
        refine ⟨?_, fun t q' h => ?_⟩
        · rw [hvol, hnum, ha, vol_append, num_append, Nat.mul_add (2 * B)]
          simp only
          omega
        · obtain ⟨hq', e', ha', hme', ht, hc'⟩ := i2 t q' h
          refine ⟨hq', .word (wordAt d p) :: (e ++ e'), by rw [hr, ha, ha']; simp, ?_, ?_, ?_⟩
          · rw [hone _ _ hm, lexMode_append, hme, hme']
          · rw [vol_word, vol_append]; omega
          · simp only
            rw [vol_word, vol_append, num_word, num_append, Nat.mul_add (2 * B), Nat.mul_add (2 * B)]
            omega
    have skl := fun q h => skipLine_after (q := q) hf hv h
    unfold lexWord at hone skipped
    unfold nextCost nextFrom
    simp only [hw, Option.bind_eq_bind, Option.bind_some, hne, if_false]
    by_cases h1 : contains [quotationMark] (wordAt d p) = true
    · simp only [h1, if_true] at hone skipped ⊢
      by_cases h2 : before beginMultilineComment (wordAt d p) = true
      · simp only [h2, if_true] at skipped ⊢
        have sk := skip_cost hf fuel hv (before_contains h2)
        rw [← Nat.add_assoc]
        refine skipped _ (skipMultilineComment d fuel p) _ rfl (by omega) fun q h => ?_
        obtain ⟨hq, e, ha, hm, hc⟩ := sk.2 q h
        exact ⟨hq, e, ha, hm, by omega⟩
      · simp only [h2, Bool.false_eq_true, if_false] at hone skipped ⊢
        by_cases h3 : before beginLineComment (wordAt d p) = true
        · simp only [h3, if_true] at skipped ⊢
          rw [← Nat.add_assoc]
          refine skipped _ (skipLineComment d p) _ rfl (by omega) fun q h => ?_
          obtain ⟨hq, e, ha, hm⟩ := skl q h
          exact ⟨hq, e, ha, hm, by omega⟩
        · simp only [h3, Bool.false_eq_true, if_false] at hone ⊢
          unfold textCost getTextInQuotationMarks
          simp only [hw, Option.bind_eq_bind, Option.bind_some]
          by_cases h4 : countChar quotationMark (wordAt d p) % 2 = 0
          · simp only [h4, if_true, ne_eq, not_true, if_false] at hone ⊢
            refine ⟨by omega, fun t q h => ?_⟩
            split at h
            · simp at h
            · simp only [Option.pure_def, Option.some.injEq, Prod.mk.injEq] at h
              obtain ⟨rfl, rfl⟩ := h
              exact ⟨hv, [.word (wordAt d p)], hr, hone _ _ rfl [], by rw [vol_word]; omega, by rw [vol_word, num_word, Nat.mul_add]; omega⟩
          · simp only [h4, if_false] at hone
            have hmode : lexMode .normal (b ++ [.word (wordAt d p)]) = .quote (wordAt d p) := by
              rw [lexMode_append, hb, hone _ _ rfl]; rfl
            obtain ⟨i1, i2⟩ := quote_cost hf hB fuel (wordAt d p) p _ hv (by rw [hes, hr]; simp) hmode
            have h5 : countChar quotationMark (wordAt d p) ≠ 0 := by intro h; omega
            simp only [h4, if_false, ne_eq, not_false_eq_true, if_true, h5]
            refine ⟨by omega, fun t q h => ?_⟩
            obtain ⟨hq, e, ha, hm, ht, hc⟩ := i2 t q h
            refine ⟨hq, .word (wordAt d p) :: e, by rw [hr, ha]; rfl, by rw [hone _ _ rfl, hm], by rw [vol_word]; omega, ?_⟩
            rw [vol_word, num_word, Nat.mul_add (2 * B)]
            omega
    · simp only [h1, Bool.false_eq_true, if_false] at hone skipped ⊢
      by_cases h2 : contains beginLineComment (wordAt d p) = true
      · simp only [h2, if_true] at skipped ⊢
        refine skipped _ (skipLineComment d p) _ rfl (by omega) fun q h => ?_
        obtain ⟨hq, e, ha, hm⟩ := skl q h
        exact ⟨hq, e, ha, hm, by omega⟩
      · simp only [h2, Bool.false_eq_true, if_false] at hone skipped ⊢
        by_cases h3 : contains beginMultilineComment (wordAt d p) = true
        · simp only [h3, if_true] at skipped ⊢
          have sk := skip_cost hf fuel hv h3
          refine skipped _ (skipMultilineComment d fuel p) _ rfl (by omega) fun q h => ?_
          obtain ⟨hq, e, ha, hm, hc⟩ := sk.2 q h
          exact ⟨hq, e, ha, hm, by omega⟩
        · simp only [h3, Bool.false_eq_true, if_false] at hone ⊢
          by_cases h4 : (contains slash (wordAt d p) && !contains endMultilineComment (wordAt d p)) = true
          · simp only [h4, if_true] at hone ⊢
            have two := two_cost hf hv
            unfold twoCost
            refine ⟨by omega, fun t q h => ?_⟩
            obtain ⟨hq, hs, e, ha, hm, ht⟩ := two.2 t q h
            simp only [hs, if_true] at hone
            refine ⟨hq, .word (wordAt d p) :: e, by rw [hr, ha]; rfl, by rw [hone _ _ rfl, hm], by rw [vol_word]; omega, ?_⟩
            rw [h, vol_word, num_word, Nat.mul_add (2 * B)]
            simp only
            omega
          · simp only [h4, Bool.false_eq_true, if_false] at hone ⊢
            refine ⟨by omega, fun t q h => ?_⟩
            simp only [Option.pure_def, Option.some.injEq, Prod.mk.injEq] at h
            obtain ⟨rfl, rfl⟩ := h
            exact ⟨hv, [.word (wordAt d p)], hr, hone _ _ rfl [], by rw [vol_word]; omega, by rw [vol_word, num_word, Nat.mul_add]; omega⟩

theorem build_cost {d : Chunk} (hf : Full d) {es : List Ev} {B : Nat} (hB : OpenMode es B) (inner : Nat) : ∀ (fuel : Nat) (p : Pos) (b : List Ev),
    Valid d p → es = b ++ after d p → lexMode .normal b = .normal →
    buildCost d inner fuel p false ≤ 13 * vol (after d p) + 2 * B * num (after d p) := by
  intro fuel
  induction fuel with
  | zero => intro p b _ _ _; exact Nat.zero_le _
  | succ fuel ih =>
    intro p b hv hes hb
    unfold buildCost buildNextValidToken
    simp only [Bool.false_eq_true, if_false, Bool.not_false, if_true, Option.bind_eq_bind]
    rcases hm : moveToNextRawValue d p with _ | _ | q
    · exact Nat.zero_le _
    · exact Nat.zero_le _
    · obtain ⟨hq, e, ha, e1, e2, e3⟩ := move_after hf hv hm
      have hb' : lexMode .normal (b ++ e) = .normal := by rw [lexMode_append, hb, e3 _ (by simp)]
      have hes' : es = (b ++ e) ++ rest d q := by rw [hes, ha]; simp
      obtain ⟨i1, i2⟩ := next_cost hf hB inner q (b ++ e) hq hes' hb'
      simp only [Option.bind_some]
      rw [ha, vol_append, num_append, e1, e2, Nat.zero_add, Nat.zero_add]
      rcases hn : nextFrom d inner q with _ | _ | ⟨t, q'⟩
      · simp only; omega
      · simp only; omega
      · obtain ⟨hq', e', ha', hm', ht, hc⟩ := i2 t q' hn
        have := ih q' (b ++ e ++ e') hq' (by rw [hes', ha']; simp) (by rw [lexMode_append, hb', hm'])
        simp only
        rw [ha', vol_append, num_append, Nat.mul_add (2 * B)]
        split <;> omega

theorem chunk_cost {d : Chunk} (hf : Full d) {B : Nat} (hB : OpenMode (stream d) B) :
    chunkCost d ≤ 13 * vol (stream d) + 2 * B * num (stream d) := by
  unfold chunkCost
  generalize words d + d.length + 2 = n
  cases d with
  | nil =>
    cases n with
    | zero => exact Nat.zero_le _
    | succ n =>
      have hx : nextCost ([] : Chunk) (n + 1) ⟨0, 0⟩ = 0 := rfl
      unfold buildCost buildNextValidToken
      simp [hx]
  | cons l d =>
    have hl : 0 < l.length := List.length_pos_iff.mpr (hf l (by simp)).1
    have hv : Valid (l :: d) ⟨0, 0⟩ := ⟨l, rfl, hl⟩
    have hr : stream (l :: d) = rest (l :: d) ⟨0, 0⟩ := by rw [rest_line_start]; rfl
    cases n with
    | zero => exact Nat.zero_le _
    | succ n =>
      obtain ⟨i1, i2⟩ := next_cost hf hB (n + 1) ⟨0, 0⟩ [] hv hr rfl
      unfold buildCost buildNextValidToken
      simp only [if_true, Bool.not_true, Bool.false_eq_true, if_false, List.getElem?_cons_zero, hl]
      rw [hr] at hB ⊢
      rcases hn : nextFrom (l :: d) (n + 1) ⟨0, 0⟩ with _ | _ | ⟨t, q'⟩
      · simp only; omega
      · simp only; omega
      · obtain ⟨hq', e', ha', hm', ht, hc⟩ := i2 t q' hn
        have := build_cost hf hB (n + 1) n q' e' hq' ha' hm'
        simp only
        rw [ha', vol_append, num_append, Nat.mul_add (2 * B)]
        split <;> omega

end Verif.A2l
