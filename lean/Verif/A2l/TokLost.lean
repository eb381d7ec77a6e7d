import Verif.A2l.TokExact
import Verif.A2l.TokProps

/-!
What the tokenizer drops without an error (C27): everything a worker has behind a word with a slash that is neither a comment nor `/begin`
or `/end`.
-/

namespace Verif.A2l.Props

open Verif.Go Verif.A2l.Spec Verif.A2l.Reading

/-- C27 fails in every file with such a word, on any number of workers: whatever worker `i` has behind the word can be replaced by anything
else (`b` by `b'`), and the tokens of the whole file stay the same. -/
theorem C27_lost (graphic : Char → Bool) (n : Nat) (s s' : Str) {lines lines' : List Str} (hl : Lines graphic s lines)
    (hl' : Lines graphic s' lines') {i : Nat} {a b b' : List Piece} {w : Str} {ts : List Str} (ha : Reads a ts true) (hw : Stray w)
    (h : pieces (workLines lines n i) = a ++ some w :: b) (h' : pieces (workLines lines' n i) = a ++ some w :: b')
    (hj : ∀ j < n, j ≠ i → pieces (workLines lines n j) = pieces (workLines lines' n j)) :
    tokensOfFile graphic n s = tokensOfFile graphic n s' := by
  have key : ∀ b : List Piece, Reads (a ++ some w :: b) ts false := fun b => by
    have := reads_append ha (Reads.stray (a := b) hw)
    rwa [List.append_nil] at this
  have hex : ∀ j, ∃ ts : List Str, ∃ c : Bool, Reads (pieces (workLines lines n j)) ts c ∧ (j < n → Reads (pieces (workLines lines' n j)) ts c) := by
    intro j
    by_cases e : j = i
    · subst e
      exact ⟨ts, false, by rw [h]; exact key b, fun _ => by rw [h']; exact key b'⟩
    · obtain ⟨t, c, hr⟩ := reads_exists _ (pieces (workLines lines n j)) (Nat.le_refl _)
      exact ⟨t, c, hr, fun hlt => by rw [← hj j hlt e]; exact hr⟩
  obtain ⟨tss, ht⟩ := Classical.axiomOfChoice hex
  obtain ⟨cs, hc⟩ := Classical.axiomOfChoice ht
  rw [(C86_tokens graphic n s _).2 ⟨lines, hl, tss, cs, fun j _ => (hc j).1, rfl⟩,
    (C86_tokens graphic n s' _).2 ⟨lines', hl', tss, cs, fun j hj => (hc j).2 hj, rfl⟩]

/-- Two workers; the first one drops the end of a block, the second one goes on. -/
example : tokensOfFile (fun _ => true) 2 "/begin X a/b 1\n/end X\nC\nD".toList =
    tokensOfFile (fun _ => true) 2 "/begin X a/b\n\"any text\" 2 3\nC\nD".toList := by
  have hs : Stray "a/b".toList := by
    have no {m w : Str} (h : contains m w = false) : ¬ m <:+: w := fun hi => by rw [(contains_iff m w).2 hi] at h; cases h
    exact ⟨⟨by decide, no rfl, no rfl⟩, no rfl, by decide, fun h => by rcases h with h | h <;> exact no rfl h⟩
  refine C27_lost (fun _ => true) 2 _ _ (lines_iff.2 rfl) (lines_iff.2 rfl) (i := 0) (a := [some "/begin".toList, some "X".toList])
    (b := [some "1".toList, none, some "/end".toList, some "X".toList, none])
    (b' := [none, some "\"any".toList, some "text\"".toList, some "2".toList, some "3".toList, none])
    (ts := ["/begin X".toList]) (reads_iff.2 ⟨by decide +kernel, by decide +kernel⟩) hs (by decide +kernel) (by decide +kernel) ?_
  intro j hj hne
  obtain rfl : j = 1 := by omega
  decide +kernel

theorem wordsOf_append (a b : List Piece) : wordsOf (a ++ b) = wordsOf a ++ wordsOf b := List.filterMap_append

theorem fields_unwords (w : Str) (ws : List Str) (h : ∀ x ∈ w :: ws, x ≠ [] ∧ ∀ c ∈ x, isSpace c = false) : fields (unwords (w :: ws)) = w :: ws := by
  obtain ⟨rs, rfl⟩ : ∃ rs, ws = rs.reverse := ⟨ws.reverse, by simp⟩
  induction rs with
  | nil => exact A2l.fields_word (h w (by simp)).1 (h w (by simp)).2
  | cons e rs ih =>
    rw [List.reverse_cons] at h ⊢
    rw [unwords_snoc, show unwords (w :: rs.reverse) ++ ' ' :: e = unwords (w :: rs.reverse) ++ [' '] ++ e by simp,
      fields_glue _ (h e (by simp)).1 (h e (by simp)).2, ih fun x hx => h x (by
        rcases List.mem_cons.1 hx with rfl | hx
        · simp
        · exact List.mem_cons_of_mem _ (List.mem_append_left _ hx))]
    rfl

/-- In a text without comments the words of the tokens are the first words of the text, and they are all words of it just if nothing is
open at the end. -/
theorem reads_words {ps : List Piece} {ts : List Str} {c : Bool} (h : Reads ps ts c)
    (hw : ∀ w ∈ wordsOf ps, (w ≠ [] ∧ ∀ c ∈ w, isSpace c = false) ∧ ¬ "//".toList <:+: w ∧ ¬ "/*".toList <:+: w) :
    ∃ rest, wordsOf ps = (ts.map fields).flatten ++ rest ∧ (c = true ↔ rest = []) := by
  induction h with
  | done => exact ⟨[], rfl, by simp⟩
  | lineEnd _ ih => exact ih hw
  | @plain w ps ts c _ _ ih =>
    obtain ⟨r, h1, h2⟩ := ih fun x hx => hw x (by simp only [wordsOf, List.filterMap_cons] at hx ⊢; exact List.mem_cons_of_mem _ hx)
    have h0 := (hw w (by simp [wordsOf])).1
    refine ⟨r, ?_, h2⟩
    rw [List.map_cons, List.flatten_cons, A2l.fields_word h0.1 h0.2, List.append_assoc, ← h1]
    rfl
  | @line w _ _ _ _ ho => exact absurd (opens_infix ho.1) (hw w (by simp [wordsOf])).2.1
  | @lineOpen w _ ho => exact absurd (opens_infix ho.1) (hw w (by simp [wordsOf])).2.1
  | @blockWord w _ _ _ ho => exact absurd (opens_infix ho.1) (hw w (by simp [wordsOf])).2.2
  | @block w _ _ _ _ _ ho => exact absurd (opens_infix ho.1) (hw w (by simp [wordsOf])).2.2
  | @blockOpen w _ ho => exact absurd (opens_infix ho.1) (hw w (by simp [wordsOf])).2.2
  | @quoteWord w ps ts c _ _ _ ih =>
    obtain ⟨r, h1, h2⟩ := ih fun x hx => hw x (by simp only [wordsOf, List.filterMap_cons] at hx ⊢; exact List.mem_cons_of_mem _ hx)
    have h0 := (hw w (by simp [wordsOf])).1
    refine ⟨r, ?_, h2⟩
    rw [List.map_cons, List.flatten_cons, A2l.fields_word h0.1 h0.2, List.append_assoc, ← h1]
    rfl
  | @quote w a e ps ts c _ _ _ _ ih =>
    have hsplit : wordsOf (some w :: (a ++ some e :: ps)) = (w :: (wordsOf a ++ [e])) ++ wordsOf ps := by
      rw [show some w :: (a ++ some e :: ps) = [some w] ++ (a ++ ([some e] ++ ps)) by simp, wordsOf_append, wordsOf_append, wordsOf_append]
      simp [wordsOf]
    rw [hsplit] at hw ⊢
    obtain ⟨r, h1, h2⟩ := ih fun x hx => hw x (List.mem_append_right _ hx)
    refine ⟨r, ?_, h2⟩
    rw [List.map_cons, List.flatten_cons, fields_unwords _ _ fun x hx => (hw x (List.mem_append_left _ hx)).1, List.append_assoc, ← h1]
  | @tag w a k ps ts c _ ha _ ih =>
    have hsplit : wordsOf (some w :: (a ++ some k :: ps)) = [w, k] ++ wordsOf ps := by
      rw [show some w :: (a ++ some k :: ps) = [some w] ++ (a ++ ([some k] ++ ps)) by simp, wordsOf_append, wordsOf_append, wordsOf_append, ha]
      simp [wordsOf]
    rw [hsplit] at hw ⊢
    obtain ⟨r, h1, h2⟩ := ih fun x hx => hw x (List.mem_append_right _ hx)
    have hk := (hw w (by simp)).1
    have he := (hw k (by simp)).1
    refine ⟨r, ?_, h2⟩
    rw [List.map_cons, List.flatten_cons, show w ++ ' ' :: k = w ++ [' '] ++ k by simp, fields_glue _ he.1 he.2, A2l.fields_word hk.1 hk.2,
      List.append_assoc, ← h1]
    rfl
  | @quoteOpen w a => exact ⟨wordsOf (some w :: a), rfl, by simp [wordsOf]⟩
  | @tagOpen w a => exact ⟨wordsOf (some w :: a), rfl, by simp [wordsOf]⟩
  | @stray w a => exact ⟨wordsOf (some w :: a), rfl, by simp [wordsOf]⟩

theorem wordsOf_pieces (lines : List Str) : wordsOf (pieces lines) = (lines.map fields).flatten := by
  induction lines with
  | nil => rfl
  | cons l ls ih =>
    have : pieces (l :: ls) = ((fields l).map some ++ [none]) ++ pieces ls := rfl
    rw [this, wordsOf_append, wordsOf_append, ih]
    simp [wordsOf]

/-- Lists that are at most as long, and as long together, are equally long one by one. -/
theorem parts_eq {α : Type _} (l : List α) (f g r : α → List Str) (h : ∀ a ∈ l, g a = f a ++ r a) :
    (l.map f).flatten = (l.map g).flatten ↔ ∀ a ∈ l, r a = [] := by
  have hlen : (l.map g).flatten.length = (l.map f).flatten.length + (l.map r).flatten.length := by
    induction l with
    | nil => rfl
    | cons a l ih =>
      have := ih fun b hb => h b (by simp [hb])
      have ha := congrArg List.length (h a (by simp))
      simp only [List.map_cons, List.flatten_cons, List.length_append] at *
      omega
  constructor
  · intro he a ha
    rw [he] at hlen
    have h0 : (l.map r).flatten = [] := List.length_eq_zero_iff.1 (by omega)
    exact List.flatten_eq_nil_iff.1 h0 _ (List.mem_map_of_mem ha)
  · intro hr
    congr 1
    apply List.map_congr_left
    intro a ha
    rw [h a ha, hr a ha, List.append_nil]

/-- C27 for every text without comments, exactly: no word is lost just if no worker stops early, so if there is no string and no `/begin`
open at the end of the lines of a worker, and no other word with a slash outside of strings. -/
theorem C27_iff (graphic : Char → Bool) (n : Nat) (hn : 0 < n) (s : Str) {lines : List Str} (hl : Lines graphic s lines)
    (hc : ∀ l ∈ lines, ∀ w ∈ fields l, ¬ "//".toList <:+: w ∧ ¬ "/*".toList <:+: w) :
    (∀ ts, tokensOfFile graphic n s = some (ts ++ [[]]) → (ts.map fields).flatten = (lines.map fields).flatten) ↔
      ∀ i < n, ∃ ts, Reads (pieces (workLines lines n i)) ts true := by
  have hex : ∀ i, ∃ ts : List Str, ∃ c : Bool, Reads (pieces (workLines lines n i)) ts c := fun i => reads_exists _ _ (Nat.le_refl _)
  obtain ⟨tss, ht⟩ := Classical.axiomOfChoice hex
  obtain ⟨cs, hr⟩ := Classical.axiomOfChoice ht
  have hsh : ∀ i < n, workLines lines n i = share lines n i := fun i hi => workLines_eq _ hi
  have hall : ((List.range n).map fun i => wordsOf (pieces (workLines lines n i))).flatten = (lines.map fields).flatten := by
    have h2 := flatten_shares lines n hn
    conv => rhs; rw [← h2]
    rw [List.map_flatten, List.map_map, List.flatten_flatten, List.map_map]
    congr 1
    apply List.map_congr_left
    intro i hi
    rw [wordsOf_pieces, hsh i (List.mem_range.1 hi)]
    rfl
  have hmem : ∀ i < n, ∀ l ∈ workLines lines n i, l ∈ lines := by
    intro i _ l h
    unfold workLines at h
    split at h
    · exact List.mem_of_mem_drop h
    · exact List.mem_of_mem_drop (List.mem_of_mem_take h)
  have hword : ∀ i, ∃ rest, i < n → wordsOf (pieces (workLines lines n i)) = ((tss i).map fields).flatten ++ rest ∧ (cs i = true ↔ rest = []) := by
    intro i
    by_cases hi : i < n
    · obtain ⟨r, h⟩ := reads_words (hr i) (by
        intro w hw
        rw [wordsOf_pieces] at hw
        obtain ⟨ws, hws, hw⟩ := List.mem_flatten.1 hw
        obtain ⟨l, hl, rfl⟩ := List.mem_map.1 hws
        exact ⟨⟨fields_ne_nil hw, fields_no_space hw⟩, hc l (hmem i hi l hl) w hw⟩)
      exact ⟨r, fun _ => h⟩
    · exact ⟨[], fun h => absurd h hi⟩
  obtain ⟨rest, hrest⟩ := Classical.axiomOfChoice hword
  have htok := (C86_tokens graphic n s _).2 ⟨lines, hl, tss, cs, fun i _ => hr i, rfl⟩
  have hmain := parts_eq (List.range n) (fun i => ((tss i).map fields).flatten) (fun i => wordsOf (pieces (workLines lines n i))) rest
    fun i hi => (hrest i (List.mem_range.1 hi)).1
  rw [hall] at hmain
  have hflat : (((List.range n).map tss).flatten.map fields).flatten = ((List.range n).map fun i => ((tss i).map fields).flatten).flatten := by
    rw [List.map_flatten, List.map_map, List.flatten_flatten, List.map_map]
    rfl
  constructor
  · intro h i hi
    have h1 := h _ htok
    rw [hflat] at h1
    have h2 := hmain.1 h1 i (List.mem_range.2 hi)
    have h3 := (hrest i hi).2.2 h2
    exact ⟨tss i, h3 ▸ hr i⟩
  · intro h ts hts
    have := List.append_cancel_right (Option.some.inj (hts.symm.trans htok))
    rw [this, hflat]
    refine hmain.2 fun i hi => (hrest i (List.mem_range.1 hi)).2.1 ?_
    obtain ⟨t, h1⟩ := h i (List.mem_range.1 hi)
    exact (reads_lex (hr i)).2.symm.trans (reads_lex h1).2

/-- A text in which nothing is lost, with `/begin` and a string over the end of a line, on two workers. -/
example : ∃ ts, tokensOfFile (fun _ => true) 2 "/begin\nX\n\"a\n/b\" c".toList = some (ts ++ [[]]) ∧ (ts.map fields).flatten =
    ["/begin".toList, "X".toList, "\"a".toList, "/b\"".toList, "c".toList] := by
  obtain ⟨ts, h⟩ := C86_total (fun _ => true) 2 "/begin\nX\n\"a\n/b\" c".toList
  refine ⟨ts, h, ?_⟩
  have no {m w : Str} (h : contains m w = false) : ¬ m <:+: w := fun hi => by rw [(contains_iff m w).2 hi] at h; cases h
  have hl : splitChar '\n' (cleanString (fun _ => true) "/begin\nX\n\"a\n/b\" c".toList) =
    ["/begin".toList, "X".toList, "\"a".toList, "/b\" c".toList] := by decide +kernel
  refine ((C27_iff (fun _ => true) 2 (by decide) _ (lines_iff.2 hl) ?_).2 ?_) ts h
  · intro l hl w hw
    have : (["/begin".toList, "X".toList, "\"a".toList, "/b\" c".toList].all fun l => (fields l).all fun w =>
      !contains "//".toList w && !contains "/*".toList w) = true := by decide +kernel
    have := List.all_eq_true.1 (List.all_eq_true.1 this l hl) w hw
    simp only [Bool.and_eq_true, Bool.not_eq_true'] at this
    exact ⟨no this.1, no this.2⟩
  · intro i hi
    have : i = 0 ∨ i = 1 := by omega
    rcases this with rfl | rfl
    · exact ⟨["/begin X".toList], reads_iff.2 ⟨by decide +kernel, by decide +kernel⟩⟩
    · exact ⟨["\"a /b\"".toList, "c".toList], reads_iff.2 ⟨by decide +kernel, by decide +kernel⟩⟩

end Verif.A2l.Props
