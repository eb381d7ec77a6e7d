import Verif.A2l.TokCost

/-!
C101: the tokenizer looks at a number of characters that is linear in the length of the file, except for the texts in quotation marks.
-/

namespace Verif.A2l

open Verif.Go Verif.A2l.Spec Verif.A2l.Reading

theorem evWords_chunk (lines : List Str) : evWords (stream ((lines.filter fun l => trimSpace l ≠ []).map fields)) = (lines.map fields).flatten := by
  have : ∀ d : Chunk, evWords (stream d) = d.flatten := by
    intro d
    induction d with
    | nil => rfl
    | cons l d ih => rw [stream_cons, evWords_append, evWords_line, ih]; rfl
  rw [this]
  induction lines with
  | nil => rfl
  | cons l lines ih =>
    by_cases h : trimSpace l = []
    · rw [List.filter_cons_of_neg (by simpa using h), ih, List.map_cons, (trimSpace_eq_nil_iff l).mp h]; rfl
    · rw [List.filter_cons_of_pos (by simpa using h), List.map_cons, List.map_cons, List.flatten_cons, ih, List.flatten_cons]

/-- The characters of the words, and one for each word. -/
def wvol (ws : List Str) : Nat := (ws.map fun w => w.length + 1).sum

theorem wvol_cons (w : Str) (ws : List Str) : wvol (w :: ws) = w.length + 1 + wvol ws := by simp [wvol]
theorem wvol_append (a b : List Str) : wvol (a ++ b) = wvol a + wvol b := by simp [wvol]

theorem wvol_fieldsAux (p s : Str) : wvol (fieldsAux p s) ≤ s.length + p.length + 1 := by
  induction s generalizing p with
  | nil => unfold fieldsAux; split <;> simp [wvol]
  | cons c cs ih =>
    unfold fieldsAux
    have h0 := ih []
    have h1 := ih (c :: p)
    simp only [List.length_nil, List.length_cons] at h0 h1 ⊢
    split
    · split
      · omega
      · rw [wvol_cons, List.length_reverse]; omega
    · omega

theorem twice_words (ws : List Str) (h : ∀ w ∈ ws, w ≠ []) : 2 * ws.length ≤ wvol ws := by
  induction ws with
  | nil => exact Nat.le_refl _
  | cons w ws ih =>
    have h1 := ih fun x hx => h x (by simp [hx])
    have h2 : 0 < w.length := List.length_pos_iff.mpr (h w (by simp))
    rw [wvol_cons, List.length_cons]
    omega

theorem split_chars (s : Str) : ((splitChar '\n' s).map List.length).sum ≤ s.length := by
  have h : ∀ ls : List Str, (ls.map List.length).sum ≤ (unlines ls).length := by
    intro ls
    induction ls with
    | nil => exact Nat.le_refl _
    | cons l ls ih =>
      cases ls with
      | nil => simp [unlines]
      | cons l' ls => simp only [unlines, List.map_cons, List.sum_cons, List.length_append, List.length_cons] at ih ⊢; omega
  have := h (splitChar '\n' s)
  rwa [Props.unlines_split] at this

theorem sum_range_le {n : Nat} {f g : Nat → Nat} (h : ∀ i < n, f i ≤ g i) : ((List.range n).map f).sum ≤ ((List.range n).map g).sum := by
  induction n with
  | zero => exact Nat.le_refl _
  | succ n ih =>
    have h1 := ih fun i hi => h i (by omega)
    have h2 := h n (by omega)
    simp only [List.range_succ, List.map_append, List.sum_append, List.map_cons, List.map_nil, List.sum_cons, List.sum_nil]
    omega

theorem sum_linear {n : Nat} (f g h : Nat → Nat) (a b : Nat) :
    ((List.range n).map fun i => 2 * f i + (a * g i + b * h i)).sum =
      2 * ((List.range n).map f).sum + (a * ((List.range n).map g).sum + b * ((List.range n).map h).sum) := by
  induction n with
  | zero => rfl
  | succ n ih =>
    simp only [List.range_succ, List.map_append, List.sum_append, List.map_cons, List.map_nil, List.sum_cons, List.sum_nil, ih, Nat.mul_add,
      Nat.mul_zero, Nat.add_zero]
    omega

theorem sum_flatten {α : Type _} (f : α → Nat) (ls : List (List α)) : (ls.map fun l => (l.map f).sum).sum = (ls.flatten.map f).sum := by
  induction ls with
  | nil => rfl
  | cons l ls ih => simp only [List.map_cons, List.sum_cons, List.flatten_cons, List.map_append, List.sum_append, ih]

theorem length_flatten_sum {α : Type _} (ls : List (List α)) : (ls.map List.length).sum = ls.flatten.length := by
  induction ls with
  | nil => rfl
  | cons l ls ih => simp only [List.map_cons, List.sum_cons, List.flatten_cons, List.length_append, ih]

theorem mem_flatten_part {α : Type _} {ls : List (List α)} {x : List α} (h : x ∈ ls) : ∃ a b, ls.flatten = a ++ x ++ b := by
  obtain ⟨a, b, rfl⟩ := List.append_of_mem h
  exact ⟨a.flatten, b.flatten, by simp⟩

/-- Blank lines do not matter for the texts that are open somewhere. -/
theorem open_blank (lines : List Str) : ∀ (m : Mode) (a b : List Ev) (text : Str), m ≠ .line →
    stream ((lines.filter fun l => trimSpace l ≠ []).map fields) = a ++ b → lexMode m a = .quote text →
    ∃ a' b', textStream lines = a' ++ b' ∧ lexMode m a' = .quote text := by
  induction lines with
  | nil =>
    intro m a b text _ h hm
    have : a = [] := by
      have h' : [] = a ++ b := h
      exact (List.append_eq_nil_iff.mp h'.symm).1
    subst this
    exact ⟨[], [], rfl, hm⟩
  | cons l lines ih =>
    intro m a b text hl h hm
    have ht : textStream (l :: lines) = lineEvs (fields l) ++ textStream lines := rfl
    by_cases hb : trimSpace l = []
    · rw [List.filter_cons_of_neg (by simpa using hb)] at h
      obtain ⟨a', b', h1, h2⟩ := ih m a b text hl h hm
      refine ⟨.nl :: a', b', ?_, ?_⟩
      · rw [ht, (trimSpace_eq_nil_iff l).mp hb, h1]; rfl
      · rw [lexMode]
        cases m <;> first | exact h2 | exact absurd rfl hl
    · rw [List.filter_cons_of_pos (by simpa using hb), List.map_cons, stream_cons] at h
      rcases List.append_eq_append_iff.mp h with ⟨c, rfl, h2⟩ | ⟨c, h1, h2⟩
      · have hm' : lexMode m (lineEvs (fields l)) ≠ .line := by
          unfold lineEvs
          rw [lexMode_append]
          generalize lexMode m ((fields l).map .word) = m'
          cases m' <;> simp [lexMode, lexStep]
        rw [lexMode_append] at hm
        obtain ⟨a', b', h3, h4⟩ := ih _ c b text hm' h2 hm
        exact ⟨lineEvs (fields l) ++ a', b', by rw [ht, h3, List.append_assoc], by rw [lexMode_append, h4]⟩
      · exact ⟨a, c ++ textStream lines, by rw [ht, h1, List.append_assoc], hm⟩

end Verif.A2l

namespace Verif.A2l.Spec

open Verif.Go Verif.A2l.Reading

/-- No text in quotation marks is longer than `B` characters at a place where it is still open. -/
def OpenTexts (ps : List Piece) (B : Nat) : Prop :=
  ∀ a ts w o b, ps = a ++ some w :: (o ++ b) → Reads a ts true → Quote w → (∀ x, x <+: wordsOf o → quotes (w :: x) % 2 = 1) →
    (unwords (w :: wordsOf o)).length ≤ B

end Verif.A2l.Spec

namespace Verif.A2l

open Verif.Go Verif.A2l.Spec Verif.A2l.Reading

theorem open_mode : ∀ (n : Nat) (ps : List Piece), ps.length ≤ n → ∀ text, lexMode .normal (evs ps) = .quote text →
    ∃ a ts w o, ps = a ++ some w :: o ∧ Reads a ts true ∧ Quote w ∧ (∀ x, x <+: wordsOf o → quotes (w :: x) % 2 = 1) ∧ text = unwords (w :: wordsOf o) := by
  intro n
  induction n with
  | zero =>
    intro ps hn text h
    rw [List.length_eq_zero_iff.mp (Nat.le_zero.mp hn)] at h
    cases h
  | succ n ih =>
    intro ps hn text h
    rcases List.eq_nil_or_concat ps with rfl | ⟨ps', e, rfl⟩
    · cases h
    · rw [List.concat_eq_append] at hn h ⊢
      have ih' := ih ps' (by simp at hn; omega)
      rw [evs_append, lexMode_append] at h
      have step : ∀ m, lexMode m (evs [e]) = (lexStep m (ev e)).1 := fun m => rfl
      rw [step] at h
      cases hm : lexMode .normal (evs ps') with
      | normal =>
        rw [hm] at h
        cases e with
        | none => cases h
        | some w =>
          have h : (lexWord w).1 = .quote text := h
          rcases lexWord_kind w with ⟨_, k⟩ | ⟨_, k⟩ | ⟨_, _, k⟩ | ⟨_, _, k⟩ | ⟨_, _, k⟩ | ⟨hq, ho, k⟩ | ⟨_, k⟩ | ⟨_, k⟩
          all_goals rw [k] at h
          all_goals first | (cases h; done) | skip
          obtain rfl : w = text := by simpa using h
          refine ⟨ps', lex .normal (evs ps'), w, [], rfl, reads_iff.mpr ⟨rfl, by simp [hm]⟩, hq, fun x hx => ?_, rfl⟩
          rw [List.prefix_nil.mp hx]
          simp only [quotes, List.map_cons, List.map_nil, List.sum_cons, List.sum_nil]
          omega
      | quote acc =>
        obtain ⟨a, ts, w, o, h1, h2, h3, h4, h5⟩ := ih' acc hm
        rw [hm] at h
        cases e with
        | none =>
          have h : Mode.quote acc = .quote text := h
          cases h
          refine ⟨a, ts, w, o ++ [none], by rw [h1]; simp, h2, h3, ?_, ?_⟩
          · rw [show wordsOf (o ++ [none]) = wordsOf o by simp [wordsOf]]; exact h4
          · rw [show wordsOf (o ++ [none]) = wordsOf o by simp [wordsOf]]; exact h5
        | some y =>
          have hw : wordsOf (o ++ [some y]) = wordsOf o ++ [y] := by simp [wordsOf]
          have h : (if countChar quotationMark (acc ++ [' '] ++ y) % 2 = 0 then (Mode.normal, [acc ++ [' '] ++ y])
            else (.quote (acc ++ [' '] ++ y), [])).1 = .quote text := h
          split at h
          · cases h
          · next hc =>
            cases h
            have htext : acc ++ [' '] ++ y = unwords (w :: (wordsOf o ++ [y])) := by rw [unwords_snoc, h5]; simp
            refine ⟨a, ts, w, o ++ [some y], by rw [h1]; simp, h2, h3, fun x hx => ?_, by rw [hw, htext]⟩
            rw [hw] at hx
            rcases List.prefix_concat_iff.mp hx with rfl | hx
            · rw [← count_unwords, ← htext]
              have : ¬ List.count '"' (acc ++ [' '] ++ y) % 2 = 0 := hc
              omega
            · exact h4 x hx
      | line => rw [hm] at h; cases e <;> cases h
      | block =>
        rw [hm] at h
        cases e with
        | none => cases h
        | some y =>
          have h : (if contains endMultilineComment y then Mode.normal else .block) = .quote text := h
          split at h <;> cases h
      | tag t => rw [hm] at h; cases e <;> cases h
      | dead => rw [hm] at h; cases e <;> cases h

theorem openTexts_iff {ps : List Piece} {B : Nat} : OpenTexts ps B ↔ OpenMode (evs ps) B := by
  constructor
  · intro h a b text hab hm
    obtain ⟨a', b', rfl, rfl, rfl⟩ := List.map_eq_append_iff.mp hab
    obtain ⟨a, ts, w, o, rfl, h2, h3, h4, rfl⟩ := open_mode _ a' (Nat.le_refl _) text hm
    exact h a ts w o b' (by simp) h2 h3 h4
  · intro h a ts w o b hps hr hq ho
    have h1 : w.count '"' % 2 ≠ 0 := by
      have := ho [] ⟨wordsOf o, rfl⟩
      simp only [quotes, List.map_cons, List.map_nil, List.sum_cons, List.sum_nil] at this
      omega
    have h2 : lexMode .normal (evs a) = .normal := by simpa using (reads_iff.mp hr).2
    have h3 := (quote_open o w [] ho).2
    refine h (evs a ++ .word w :: evs o) (evs b) _ (by rw [hps]; simp [evs, ev]) ?_
    rw [lexMode_append, h2, lexMode, lexStep, (lexWord_quote' hq).2 h1]
    exact h3

end Verif.A2l

namespace Verif.A2l.Props

open Verif.Go Verif.A2l.Spec Verif.A2l.Reading

/-- C101 in full. -/
def C101_full : Prop := ∃ c, ∀ (graphic : Char → Bool) (n : Nat) (s : Str), 0 < n → fileCost graphic n s ≤ c * (s.length + 1)

/-- C101 as far as it holds: if no worker ever has an open text that is longer than `B` characters, the tokenizer looks at fewer than
`B + 20` characters for every character of the file, whatever the number of workers. A text is open for a worker from the word with its
first quotation mark to the word before its last one; if that one is missing, to the end of the lines of the worker.
Missing: the bound depends on the longest such text (`C101_false`). -/
theorem C101_partial (graphic : Char → Bool) (n : Nat) (hn : 0 < n) (s : Str) {lines : List Str} (hl : Lines graphic s lines) (B : Nat)
    (hB : ∀ i < n, OpenTexts (pieces (workLines lines n i)) B) : fileCost graphic n s ≤ (B + 19) * (s.length + 1) := by
  have hl := lines_iff.mp hl
  unfold fileCost
  rw [C76_quotes_never, hl]
  have hlen := cleanString_length graphic s
  generalize hs : cleanString graphic s = r at hl hlen
  -- one worker
  have one : ∀ i < n, linesCost (share lines n i) ≤ 2 * ((share lines n i).map List.length).sum +
      (13 * wvol ((share lines n i).map fields).flatten + 2 * B * ((share lines n i).map fields).flatten.length) := by
    intro i hi
    have hm : OpenMode (stream (((share lines n i).filter fun l => trimSpace l ≠ []).map fields)) B := by
      intro a b text hab hq
      have h1 := hB i hi
      rw [openTexts_iff, evs_pieces, workLines_eq lines hi] at h1
      obtain ⟨a', b', h2, h3⟩ := open_blank _ .normal a b text (by simp) hab hq
      exact h1 a' b' text h2 h3
    have hc := chunk_cost (full_of_lines (share lines n i)) hm
    unfold vol num at hc
    rw [evWords_chunk] at hc
    change _ ≤ 13 * wvol _ + _ at hc
    unfold linesCost
    have : ((share lines n i).map fun l => 2 * l.length).sum = 2 * ((share lines n i).map List.length).sum := by
      generalize share lines n i = ls
      induction ls with
      | nil => rfl
      | cons l ls ih => simp only [List.map_cons, List.sum_cons, ih]; omega
    omega
  have hsum := sum_range_le one
  rw [sum_linear] at hsum
  have e1 : ((List.range n).map fun i => ((share lines n i).map List.length).sum).sum = (lines.map List.length).sum := by
    have := sum_flatten List.length ((List.range n).map (share lines n))
    rw [flatten_shares lines n hn, List.map_map] at this
    exact this
  have e2 : ((List.range n).map fun i => ((share lines n i).map fields).flatten).flatten = (lines.map fields).flatten := by
    conv => rhs; rw [← flatten_shares lines n hn]
    rw [List.map_flatten, List.map_map, List.flatten_flatten, List.map_map]
    rfl
  have e3 : ((List.range n).map fun i => wvol ((share lines n i).map fields).flatten).sum = wvol (lines.map fields).flatten := by
    rw [← e2]
    have := sum_flatten (fun w : Str => w.length + 1) ((List.range n).map fun i => ((share lines n i).map fields).flatten)
    rw [List.map_map] at this
    exact this
  have e4 : ((List.range n).map fun i => ((share lines n i).map fields).flatten.length).sum = (lines.map fields).flatten.length := by
    rw [← e2]
    have := length_flatten_sum ((List.range n).map fun i => ((share lines n i).map fields).flatten)
    rw [List.map_map] at this
    exact this
  have e5 : (lines.map fields).flatten = fields r := by
    rw [← evWords_textStream, ← hl, textStream_split, evWords_scan]; rfl
  rw [e1, e3, e4, e5] at hsum
  have b1 : (lines.map List.length).sum ≤ r.length := by rw [← hl]; exact split_chars r
  have b2 : wvol (fields r) ≤ r.length + 1 := by have := wvol_fieldsAux [] r; simpa [fields] using this
  have b3 := twice_words (fields r) fun w hw => fields_ne_nil hw
  have b4 : 2 * B * (fields r).length ≤ B * (s.length + 1) := by
    have : 2 * B * (fields r).length = B * (2 * (fields r).length) := by rw [Nat.mul_comm 2 B, Nat.mul_assoc]
    rw [this]
    exact Nat.mul_le_mul_left B (by omega)
  rw [Nat.add_mul]
  omega

/-- The worker of a file of one worker has all the lines. -/
theorem workLines_one (lines : List Str) : workLines lines 1 0 = lines := by simp [workLines]

/-- A test of the hypothesis. -/
theorem openTexts_test {ps : List Piece} {B : Nat} (h : ∀ i < ps.length + 1, (match lexMode .normal ((evs ps).take i) with
    | .quote t => decide (t.length ≤ B) | _ => true) = true) : OpenTexts ps B := by
  rw [openTexts_iff]
  intro a b text hab hm
  have hl : (evs ps).length = ps.length := List.length_map _
  have ha : (evs ps).take a.length = a := by rw [hab]; simp
  have hle : a.length ≤ ps.length := by rw [← hl, hab]; simp
  have := h a.length (by omega)
  rw [ha, hm] at this
  simpa using this

/-- Two texts, a comment with a quotation mark and a text that does not end: no open text is longer than seven characters. -/
def fewQuotes : List Str := ["A \"bcd ef\" a b c d // \"g".toList, "H \"x".toList, "y z\" w w w \"last".toList]

example : fileCost (fun _ => true) 2 (unlines fewQuotes) ≤ (7 + 19) * ((unlines fewQuotes).length + 1) :=
  C101_partial (fun _ => true) 2 (by decide) (unlines fewQuotes) (lines := fewQuotes) (lines_iff.mpr (by decide +kernel)) 7
    (fun i hi => openTexts_test (by
      have h : ∀ i < 2, ∀ j < (pieces (workLines fewQuotes 2 i)).length + 1,
        (match lexMode .normal ((evs (pieces (workLines fewQuotes 2 i))).take j) with
          | .quote t => decide (t.length ≤ 7) | _ => true) = true := by decide +kernel
      exact h i hi))

/-- What it is, for 46 characters. -/
example : fileCost (fun _ => true) 2 (unlines fewQuotes) = 499 := by decide +kernel

theorem mem_workLines {lines : List Str} {n i : Nat} {l : Str} (h : l ∈ workLines lines n i) : l ∈ lines := by
  unfold workLines at h
  split at h
  · exact List.mem_of_mem_drop h
  · exact List.mem_of_mem_drop (List.mem_of_mem_take h)

/-- A file in which every word has an even number of quotation marks: at most 19 for every character. -/
theorem C101_even_partial (graphic : Char → Bool) (n : Nat) (hn : 0 < n) (s : Str) {lines : List Str} (hl : Lines graphic s lines)
    (he : ∀ l ∈ lines, ∀ w ∈ fields l, w.count '"' % 2 = 0) : fileCost graphic n s ≤ 19 * (s.length + 1) := by
  have := C101_partial graphic n hn s hl 0 (fun i hi a ts w o b hab _ _ ho => by
    exfalso
    have h1 := ho [] ⟨wordsOf o, rfl⟩
    have h2 : some w ∈ pieces (workLines lines n i) := by rw [hab]; simp
    obtain ⟨ps, h3, h4⟩ := List.mem_flatten.mp h2
    obtain ⟨l, h5, rfl⟩ := List.mem_map.mp h3
    have h6 : w ∈ fields l := by simpa using h4
    have h7 := he l (mem_workLines h5) w h6
    simp only [quotes, List.map_cons, List.map_nil, List.sum_cons, List.sum_nil] at h1
    omega)
  simpa using this

example : fileCost (fun _ => true) 3 "/begin X \"abc\" /* c */\n/end X".toList ≤ 19 * 30 :=
  C101_even_partial (fun _ => true) 3 (by decide) "/begin X \"abc\" /* c */\n/end X".toList (lines := ["/begin X \"abc\" /* c */".toList, "/end X".toList])
    (lines_iff.mpr (by decide +kernel)) (by decide +kernel)

/-- For every text the number of characters looked at is at most quadratic in its length. -/
theorem C101_square (graphic : Char → Bool) (n : Nat) (hn : 0 < n) (s : Str) : fileCost graphic n s ≤ 20 * (s.length + 1) ^ 2 := by
  have hl : Lines graphic s (splitChar '\n' (cleanString graphic s)) := lines_iff.mpr rfl
  have e5 : ((splitChar '\n' (cleanString graphic s)).map fields).flatten = fields (cleanString graphic s) := by
    rw [← evWords_textStream, textStream_split, evWords_scan]; rfl
  have hu : ∀ o : List Str, (unwords o).length ≤ wvol o := by
    intro o
    induction o with
    | nil => exact Nat.le_refl _
    | cons w o ih =>
      cases o with
      | nil => simp [unwords, wvol]
      | cons w' o => simp only [unwords, List.length_append, List.length_cons] at ih ⊢; rw [wvol_cons]; omega
  have hp : ∀ ls : List Str, wordsOf (pieces ls) = (ls.map fields).flatten := by
    intro ls
    induction ls with
    | nil => rfl
    | cons l ls ih =>
      have h1 : pieces (l :: ls) = (fields l).map some ++ [none] ++ pieces ls := rfl
      unfold wordsOf at ih ⊢
      rw [h1, List.filterMap_append, ih, List.filterMap_append, List.filterMap_map, List.map_cons, List.flatten_cons]
      have h2 : (fields l).filterMap (id ∘ some) = fields l := by
        show (fields l).filterMap (fun x => some x) = _
        simp
      rw [h2]
      simp
  have := C101_partial graphic n hn s hl (s.length + 1) (fun i hi a ts w o b he _ _ _ => by
    have h1 := hu (w :: wordsOf o)
    have h2 : wvol (w :: wordsOf o) ≤ wvol (wordsOf (pieces (workLines (splitChar '\n' (cleanString graphic s)) n i))) := by
      rw [he]
      have : wordsOf (a ++ some w :: (o ++ b)) = wordsOf a ++ (w :: wordsOf o) ++ wordsOf b := by simp [wordsOf]
      rw [this, wvol_append, wvol_append]
      omega
    have h5 : wvol (wordsOf (pieces (workLines (splitChar '\n' (cleanString graphic s)) n i))) ≤ wvol (fields (cleanString graphic s)) := by
      rw [hp, workLines_eq _ hi, ← e5]
      have hm : share (splitChar '\n' (cleanString graphic s)) n i ∈ (List.range n).map (share (splitChar '\n' (cleanString graphic s)) n) :=
        List.mem_map.mpr ⟨i, List.mem_range.mpr hi, rfl⟩
      obtain ⟨x, y, hxy⟩ := mem_flatten_part hm
      rw [flatten_shares _ n hn] at hxy
      conv => rhs; rw [hxy]
      rw [List.map_append, List.map_append, List.flatten_append, List.flatten_append, wvol_append, wvol_append]
      omega
    have h3 := wvol_fieldsAux [] (cleanString graphic s)
    have h4 := cleanString_length graphic s
    simp only [List.length_nil] at h3
    unfold fields at h5
    omega)
  refine Nat.le_trans this ?_
  have h6 : (s.length + 1) * (s.length + 1) = (s.length + 1) ^ 2 := by rw [Nat.pow_two]
  have h7 : s.length + 1 ≤ (s.length + 1) * (s.length + 1) := Nat.le_mul_of_pos_right _ (by omega)
  rw [Nat.add_mul]
  omega

example : fileCost (fun _ => true) 1 "\"a b c".toList ≤ 20 * 7 ^ 2 := C101_square _ 1 (by decide) _

/-- A file of one line, in which a text is opened and does not end. -/
def openText (k : Nat) : Str := '"' :: (List.replicate k [' ', 'a']).flatten

theorem openText_length (k : Nat) : (openText k).length = 2 * k + 1 := by
  unfold openText
  induction k with
  | zero => rfl
  | succ k ih => simp only [List.replicate_succ, List.flatten_cons, List.length_cons, List.length_append, List.length_nil] at ih ⊢; omega

theorem openText_mem {k : Nat} {c : Char} (h : c ∈ openText k) : c = '"' ∨ c = ' ' ∨ c = 'a' := by
  unfold openText at h
  rcases List.mem_cons.mp h with h | h
  · exact .inl h
  · obtain ⟨l, hl, hc⟩ := List.mem_flatten.mp h
    rw [List.eq_of_mem_replicate hl] at hc
    exact .inr (by simpa using hc)

theorem openText_fields (k : Nat) : fields (openText k) = ['"'] :: List.replicate k ['a'] := by
  have h : ∀ k p, p ≠ [] → fieldsAux p (List.replicate k [' ', 'a']).flatten = p.reverse :: List.replicate k ['a'] := by
    intro k
    induction k with
    | zero => intro p hp; cases p with
      | nil => exact absurd rfl hp
      | cons c p => rfl
    | succ k ih =>
      intro p hp
      have hsp : isSpace ' ' = true := by decide
      have ha : isSpace 'a' = false := by decide
      have hp' : p.isEmpty = false := by cases p with
        | nil => exact absurd rfl hp
        | cons c p => rfl
      simp only [List.replicate_succ, List.flatten_cons, List.cons_append, List.nil_append, fieldsAux, hsp, if_true, hp', Bool.false_eq_true,
        if_false, ha]
      rw [ih ['a'] (by simp)]
      rfl
  have hq : isSpace '"' = false := by decide
  unfold fields openText
  simp only [fieldsAux, hq, Bool.false_eq_true, if_false]
  rw [h k ['"'] (by simp)]
  rfl

/-- The rounds of the loop that looks for the end of the text: each copies all of the text that has been read. -/
theorem open_quote (k : Nat) : ∀ (m i : Nat) (text : Str), i + m = k → ∀ fuel, m ≤ fuel → countChar quotationMark text % 2 = 1 →
    2 * m * text.length + m * m ≤ quoteCost [['"'] :: List.replicate k ['a']] fuel text ⟨0, i⟩ := by
  intro m
  induction m with
  | zero => intro i text _ fuel _ _; simp
  | succ m ih =>
    intro i text hi fuel hf hq
    obtain ⟨fuel, rfl⟩ : ∃ f, fuel = f + 1 := ⟨fuel - 1, by omega⟩
    have hm : moveToNextRawValue [['"'] :: List.replicate k ['a']] ⟨0, i⟩ = some (some ⟨0, i + 1⟩) := by
      unfold moveToNextRawValue
      simp only [List.getElem?_cons_zero, Option.bind_eq_bind, Option.bind_some, List.length_cons, List.length_replicate]
      rw [if_pos (by omega)]
      rfl
    have hw : wordAt [['"'] :: List.replicate k ['a']] ⟨0, i + 1⟩ = ['a'] := by
      simp [wordAt, word?, List.getElem?_replicate, show i < k by omega]
    have hc : countChar quotationMark (text ++ [' '] ++ ['a']) % 2 = 1 := by
      rw [countChar_append, countChar_append]
      have h1 : countChar quotationMark [' '] = 0 := by decide
      have h2 : countChar quotationMark ['a'] = 0 := by decide
      omega
    have := ih (i + 1) (text ++ [' '] ++ ['a']) (by omega) fuel (by omega) hc
    unfold quoteCost
    rw [hm]
    simp only [hw]
    rw [if_neg (by omega)]
    have hlen : (text ++ [' '] ++ ['a']).length = text.length + 2 := by simp
    rw [hlen] at this ⊢
    have e1 : 2 * (m + 1) * text.length = 2 * m * text.length + 2 * text.length := by rw [Nat.mul_add 2, Nat.add_mul]
    have e2 : 2 * m * (text.length + 2) = 2 * m * text.length + 4 * m := by rw [Nat.mul_add]; omega
    have e3 : (m + 1) * (m + 1) = m * m + 2 * m + 1 := by rw [Nat.add_mul, Nat.mul_add]; omega
    omega

/-- An open text of `k` words: more than `k` times `k` characters, whatever the number of workers. -/
theorem C101_open (graphic : Char → Bool) (hq : graphic '"' = true) (ha : graphic 'a' = true) (n k : Nat) (hn : 0 < n) :
    (openText k).length = 2 * k + 1 ∧ k * k ≤ fileCost graphic n (openText k) := by
  refine ⟨openText_length k, ?_⟩
  have hclean : cleanString graphic (openText k) = openText k := by
    refine cleanString_id (clean_of ?_)
    rw [Bool.and_eq_true, Bool.and_eq_true]
    refine ⟨⟨List.all_eq_true.mpr fun c hc => ?_, by simp [openText, hq]⟩, ?_⟩
    · rcases openText_mem hc with rfl | rfl | rfl <;> decide
    · cases k with
      | zero => simp [openText, hq]
      | succ k =>
        have : openText (k + 1) = ('"' :: (List.replicate k [' ', 'a']).flatten ++ [' ']) ++ ['a'] := by
          unfold openText
          rw [List.replicate_succ', List.flatten_append]
          simp
        rw [this, List.getLast?_append]
        simp [ha]
  have hsplit : splitChar '\n' (openText k) = [openText k] := splitChar_single fun h => by
    rcases openText_mem h with h | h | h <;> cases h
  unfold fileCost
  rw [C76_quotes_never, hclean, hsplit]
  have hlast : share [openText k] n (n - 1) = [openText k] := by
    unfold share shareStart shareEnd
    rw [if_pos (by omega)]
    have : [openText k].length / n * (n - 1) = 0 := by
      cases n with
      | zero => omega
      | succ n =>
        cases n with
        | zero => rfl
        | succ n => rw [List.length_singleton, Nat.div_eq_of_lt (by omega), Nat.zero_mul]
    rw [this]
    rfl
  have hmem : linesCost [openText k] ≤ ((List.range n).map fun i => linesCost (share [openText k] n i)).sum := by
    obtain ⟨m, rfl⟩ : ∃ m, n = m + 1 := ⟨n - 1, by omega⟩
    rw [List.range_succ, List.map_append, List.sum_append]
    simp only [List.map_cons, List.map_nil, List.sum_cons, List.sum_nil]
    rw [Nat.add_sub_cancel] at hlast
    rw [hlast]
    omega
  have hlines : k * k ≤ linesCost [openText k] := by
    unfold linesCost
    have htrim : trimSpace (openText k) ≠ [] := fun h => by
      have := (trimSpace_eq_nil_iff _).mp h
      rw [openText_fields] at this
      cases this
    rw [List.filter_cons_of_pos (by simpa using htrim), List.filter_nil, show [openText k].map fields = [fields (openText k)] from rfl, openText_fields]
    unfold chunkCost words
    simp only [List.map_cons, List.map_nil, List.sum_cons, List.sum_nil, List.length_cons, List.length_replicate, List.length_nil]
    unfold buildCost
    simp only [if_true]
    unfold nextCost
    have hw : wordAt [['"'] :: List.replicate k ['a']] ⟨0, 0⟩ = ['"'] := rfl
    simp only [hw]
    rw [if_neg (by simp), if_pos (by decide), if_neg (by decide), if_neg (by decide)]
    unfold textCost
    rw [hw, if_neg (by decide)]
    have := open_quote k k 0 ['"'] (by omega) (k + 1 + 0 + 2) (by omega) (by decide)
    omega
  omega

/-- 12 words: more than 144 characters, for a text of 25. -/
example : 12 * 12 ≤ fileCost (fun _ => true) 4 (openText 12) := (C101_open (fun _ => true) rfl rfl 4 12 (by decide)).2

/-- C101 fails: a text that is opened and not closed is copied for every word of it, so its cost is not linear. -/
theorem C101_false : ¬ C101_full := by
  rintro ⟨c, h⟩
  obtain ⟨h1, h2⟩ := C101_open (fun _ => true) rfl rfl 1 (2 * c + 3) (by omega)
  have := h (fun _ => true) 1 (openText (2 * c + 3)) (by omega)
  rw [h1] at this
  have e1 : (2 * c + 3) * (2 * c + 3) = 4 * (c * c) + 12 * c + 9 := by
    rw [Nat.add_mul, Nat.mul_add, Nat.mul_add]
    have : 2 * c * (2 * c) = 4 * (c * c) := by rw [Nat.mul_assoc, Nat.mul_left_comm c 2 c, ← Nat.mul_assoc]
    omega
  have e2 : c * (2 * (2 * c + 3) + 1 + 1) = 4 * (c * c) + 8 * c := by
    rw [show 2 * (2 * c + 3) + 1 + 1 = 4 * c + 8 by omega, Nat.mul_add, Nat.mul_left_comm]
    omega
  omega

end Verif.A2l.Props
