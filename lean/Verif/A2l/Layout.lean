import Verif.A2l.PrintOddProps
import Verif.A2l.TokExact

/-!
C80: the layout of an A2L file. What is read depends on the tokens only, and these are the ones that each worker reads from its lines as
described in C86. In particular comments, white space, line ends and escapes may stand anywhere between the tokens as long as no item
reaches from the share of one worker into the share of the next.
-/

namespace Verif.A2l.Spec
open Verif.Go

/-- The lines `ls` are documents, one by one; their tokens in order are `ts`. -/
inductive Rows : List Str → List Str → Prop
  | nil : Rows [] []
  | cons {l : Str} {d : Doc} {ls ts : List Str} : IsText l d → Rows ls ts → Rows (l :: ls) (d.tokens ++ ts)

/-- The text without escapes and without what is not graphic at both ends consists of the lines `ls`. -/
def HasLines (graphic : Char → Bool) (s : Str) (ls : List Str) : Prop :=
  ∃ r, Unescaped s r ∧ '\\' ∉ r ∧ Trimmed graphic r (unlines ls) ∧ ls ≠ [] ∧ ∀ l ∈ ls, '\n' ∉ l

/-- The text `s` has the tokens `ts`, laid out for `n` workers (see C86). -/
abbrev LaidOut (graphic : Char → Bool) (n : Nat) (s : Str) (ts : List Str) : Prop := HasTokens graphic n s ts

/-- A layout without anything odd: every line is a document, or at least the lines of each worker are. -/
def LaidOutDoc (graphic : Char → Bool) (n : Nat) (s : Str) (ts : List Str) : Prop :=
  ∃ ls, HasLines graphic s ls ∧ (Rows ls ts ∨ ∃ docs : Nat → Doc,
    (∀ i < n, IsText (unlines (share ls n i)) (docs i)) ∧ ts = ((List.range n).map fun i => (docs i).tokens).flatten)

end Verif.A2l.Spec

namespace Verif.A2l.Props
open Verif.Go Verif.A2l Lang Decl Analysis Template Write Spec Shared

theorem rows_docs {ls ts : List Str} (h : Rows ls ts) : ∀ l ∈ ls, ∃ d, IsText l d := by
  induction h with
  | nil => intro l hl; cases hl
  | cons h _ ih =>
    intro l hl
    rcases List.mem_cons.1 hl with rfl | hl
    · exact ⟨_, h⟩
    · exact ih l hl

theorem rows_tokens {ls ts : List Str} (h : Rows ls ts) (doc : Str → Doc) (hd : ∀ l ∈ ls, IsText l (doc l)) :
    (ls.map fun l => (doc l).tokens).flatten = ts := by
  induction h with
  | nil => rfl
  | @cons l d ls ts h _ ih =>
    rw [List.map_cons, List.flatten_cons, ih (fun l hl => hd l (List.mem_cons_of_mem _ hl)), ← (gives_text (hd l (List.mem_cons_self ..))).1,
      (gives_text h).1]

/-- C80, the tokens: a text of documents, laid out for `n` workers, has the tokens it is made of, and no others. -/
theorem C80_documents (graphic : Char → Bool) {n : Nat} (hn : 0 < n) {s : Str} {ts : List Str} (h : LaidOutDoc graphic n s ts) :
    tokensOfFile graphic n s = some (ts ++ [[]]) := by
  obtain ⟨ls, ⟨r, h1, h2, h3, h4, h5⟩, h6⟩ := h
  have hcl : cleanString graphic s = unlines ls := (C76_clean_up graphic s _).2 ⟨r, h1, h3⟩
  have hc : Clean graphic (unlines ls) := hcl ▸ C76_clean graphic h1 h2
  have hsp := split_unlines h4 h5
  rw [← C76_tokens, hcl]
  rcases h6 with h6 | ⟨docs, h6, rfl⟩
  · have hd : ∀ l, ∃ d, l ∈ ls → IsText l d := by
      intro l
      by_cases hl : l ∈ ls
      · obtain ⟨d, h⟩ := rows_docs h6 l hl; exact ⟨d, fun _ => h⟩
      · exact ⟨[], fun h => absurd h hl⟩
    obtain ⟨doc, hdoc⟩ := Classical.skolem.1 hd
    rw [C24_lines_partial graphic _ hc n hn doc (fun l hl => hdoc l (hsp ▸ hl)), hsp, rows_tokens h6 doc hdoc]
  · unfold tokensOfFile
    rw [cleanString_id hc]
    refine (tokens_of_shares hn (s := unlines ls) (fun i => (docs i).tokens) (fun i hi => ?_)).1
    rw [replaceEscapedQuotes_id hc.1, hsp]
    exact gives_lines (fun l hl => h5 l (mem_share hl)) (h6 i hi)

theorem laidOut_doc {graphic : Char → Bool} {n : Nat} (hn : 0 < n) {s : Str} {ts : List Str} (h : LaidOutDoc graphic n s ts) : LaidOut graphic n s ts :=
  (C86_tokens graphic n s ts).1 (C80_documents graphic hn h)

/-- The same for any text (C86). -/
theorem C80_tokens (graphic : Char → Bool) {n : Nat} {s : Str} {ts : List Str} (h : LaidOut graphic n s ts) :
    tokensOfFile graphic n s = some (ts ++ [[]]) := (C86_tokens graphic n s ts).2 h

/-- C80: a file with at least two modules in which any kind of object may occur, laid out in any way, is read with exactly the
values that belong to it, by any number of workers, whatever other calls happen before and after. The tokens are those that the workers
read as described in C86. Missing: a comment, string or `/begin` that reaches from one share into the next is read otherwise than in the
whole text (C24), overlapping calls (C37), and the optional parts that are never read or not kept (C32). -/
theorem C80_file_partial (S : Setup) (hfl : S.floatOk [] = false) (hnp : 0 < S.np) (c : Nat) (before after : List Nat) (hb : c ∉ before)
    (ns : List Node) (ha : ∀ n ∈ ns, Allowed fileParts n) (hp : ∀ n ∈ ns, Whole (writtenEnv S.floatOk ns) n)
    (hne : [] ∉ written ns) (htext : LaidOut S.graphic S.np (S.text c) (written ns))
    (h2 : 2 ≤ (written ns).count (str! "/begin MODULE")) (h32 : (written ns).count (str! "/begin MODULE") < 2 ^ 32) :
    (calls S init (before ++ List.replicate (S.np + 3) c ++ after)).result c =
      some (.ok (written ns).length (.obj (fileStruct ns)) false) := by
  have hw : Wf (writtenEnv S.floatOk ns) := ⟨written ns, rfl, hne⟩
  rw [own_result S c before after hb (C80_tokens S.graphic htext) (by rw [count_end]; exact h32), count_end, if_pos h2]
  exact congrArg some (C70_tokens_partial (E := writtenEnv S.floatOk ns) hw rfl ha (fun n hn => whole_legal hw rfl hfl (hp n hn)) rfl)

/-- One token per line is such a layout, so `C78_file_partial` is a special case. -/
theorem laidOut_lines {graphic : Char → Bool} {n : Nat} (hn : 0 < n) {ts : List Str} (hne : ts ≠ []) (hwr : ∀ t ∈ ts, Writable t)
    (hc : Clean graphic (unlines ts)) : LaidOut graphic n (unlines ts) ts := by
  refine laidOut_doc hn ⟨ts, ⟨_, unescaped_iff.2 (deleteEscapes_id hc.1), hc.1, ⟨⟨[], [], by simp, by simp, by simp⟩, hc.2.1, hc.2.2⟩, hne,
    fun l hl => (writable_line (hwr l hl)).1⟩, Or.inl ?_⟩
  clear hc hne
  induction ts with
  | nil => exact .nil
  | cons t ts ih =>
    obtain ⟨d, h1, h2⟩ := writable_text (hwr t (List.mem_cons_self ..))
    have := Rows.cons h1 (ih (fun x hx => hwr x (List.mem_cons_of_mem _ hx)))
    rw [h2] at this
    exact this

/-- C80: two texts with the same tokens are read to the same result, error or not, on the same number of CPUs and with the same
schedule of the workers; the schedules of other calls do not matter. -/
theorem C80_same_partial (S S' : Setup) (hf : S.floatOk = S'.floatOk) (hnp : 0 < S.np) (hnp' : S'.np = S.np) {c c' : Nat}
    (hsched : S.sched c = S'.sched c') (before after before' after' : List Nat) (hb : c ∉ before) (hb' : c' ∉ before') {ts : List Str}
    (h : LaidOut S.graphic S.np (S.text c) ts) (h' : LaidOut S'.graphic S'.np (S'.text c') ts)
    (h32 : ts.count (str! "/begin MODULE") < 2 ^ 32) :
    (calls S init (before ++ List.replicate (S.np + 3) c ++ after)).result c =
      (calls S' init (before' ++ List.replicate (S'.np + 3) c' ++ after')).result c' := by
  rw [own_result S c before after hb (C80_tokens S.graphic h) (by rw [count_end]; exact h32),
    own_result S' c' before' after' hb' (C80_tokens S'.graphic h') (by rw [count_end]; exact h32), hf, hnp', hsched]

/-- C80 for files with several modules: the number of CPUs does not matter either. -/
theorem C80_cpus_partial (S S' : Setup) (hf : S.floatOk = S'.floatOk) (hnp : 0 < S.np) (hnp' : 0 < S'.np) {c c' : Nat}
    (before after before' after' : List Nat) (hb : c ∉ before) (hb' : c' ∉ before') {ts : List Str}
    (h : LaidOut S.graphic S.np (S.text c) ts) (h' : LaidOut S'.graphic S'.np (S'.text c') ts)
    (h2 : 2 ≤ ts.count (str! "/begin MODULE")) (h32 : ts.count (str! "/begin MODULE") < 2 ^ 32) :
    (calls S init (before ++ List.replicate (S.np + 3) c ++ after)).result c =
      (calls S' init (before' ++ List.replicate (S'.np + 3) c' ++ after')).result c' := by
  rw [own_result S c before after hb (C80_tokens S.graphic h) (by rw [count_end]; exact h32),
    own_result S' c' before' after' hb' (C80_tokens S'.graphic h') (by rw [count_end]; exact h32), count_end, if_pos h2, if_pos h2, hf]

/-- The full statement: two texts that are documents with the same tokens are read to the same result. It is false, see
`C80_false`. -/
def C80_full : Prop := ∀ (S : Setup) (c c' : Nat) (d d' : Doc), S.floatOk [] = false → 0 < S.np → S.sched c = S.sched c' →
  Clean S.graphic (S.text c) → Clean S.graphic (S.text c') → IsText (S.text c) d → IsText (S.text c') d' → d.tokens = d'.tokens →
  (calls S init (List.replicate (S.np + 3) c)).result c = (calls S init (List.replicate (S.np + 3) c')).result c'

/-- Call 0 reads a text with a comment that reaches over a line end, call 1 the same without the comment. -/
def commentSetup : Setup := ⟨2, fun _ => true, fun t => t = (str! "1"),
  fun c => if c = 0 then "/* a\n ASAP2_VERSION 1 71 */ x".toList else "x".toList, fun _ _ => []⟩

/-- A version was read. -/
def hasVersion : Option PRes → Bool
  | some (.ok _ (.obj o) _) => match o "Asap2Version" with | .obj _ => true | _ => false
  | _ => false

theorem C80_false : ¬ C80_full := by
  intro h
  have hx : Spec.Plain "x".toList := ⟨by decide, by decide⟩
  have hb : ∀ s : Str, (s.all isSpace) = true → Blank s := fun s h => by simpa [Blank] using h
  have := h commentSetup 0 1 [(.blockComment " a\n ASAP2_VERSION 1 71 ".toList, " ".toList), (.word "x".toList, "\n".toList)]
    [(.word "x".toList, "\n".toList)] (by decide) (by decide) rfl (clean_of (by decide +kernel)) (clean_of (by decide +kernel))
    ⟨by
      intro p hp
      simp only [List.mem_cons, List.not_mem_nil, or_false] at hp
      rcases hp with rfl | rfl
      · refine ⟨⟨?_, by decide, Or.inr ?_⟩, hb _ (by decide), by decide, fun ⟨_, h⟩ => nomatch h⟩
        · unfold IsBlockText; rw [← contains_iff]; decide +kernel
        · rw [← contains_iff]; decide +kernel
      · exact ⟨hx, hb _ (by decide), by decide, fun ⟨_, h⟩ => nomatch h⟩, [], hb _ (by decide), Or.inr (by decide +kernel)⟩
    ⟨by
      intro p hp
      simp only [List.mem_cons, List.not_mem_nil, or_false] at hp
      subst hp
      exact ⟨hx, hb _ (by decide), by decide, fun ⟨_, h⟩ => nomatch h⟩, [], hb _ (by decide), Or.inr (by decide +kernel)⟩
    (by decide +kernel)
  have := congrArg hasVersion this
  revert this
  decide +kernel

/-! ### An example -/

/-- A checker for documents. -/
def docB (d : Doc) : Bool := d.all fun p =>
  p.2.all isSpace && !p.2.isEmpty && match p.1 with
  | .word w => !w.isEmpty && w.all fun c => !isSpace c && c != '"' && c != '/'
  | .quoted c => doubled c
  | .tag _ gap kw => gap.all isSpace && !gap.isEmpty && !kw.isEmpty && kw.all fun c => !isSpace c && c != '"' && c != '/'
  | .lineComment c => !c.contains '\n' && !(firstWord c).contains '"' && p.2.contains '\n'
  | .blockComment c => !contains ['*', '/'] c && decide (c.head? ≠ some '/') && !contains ['/', '/'] (firstWord c)

theorem docB_spec {d : Doc} (h : docB d = true) : d.Wf := by
  intro p hp
  have h := List.all_eq_true.1 h p hp
  obtain ⟨it, sep⟩ := p
  simp only [Bool.and_eq_true] at h
  obtain ⟨⟨h1, h2⟩, h3⟩ := h
  have hb : Blank sep := fun c hc => List.all_eq_true.1 h1 c hc
  have hn : sep ≠ [] := by simpa using h2
  cases it with
  | word w =>
    refine ⟨?_, hb, hn, fun ⟨_, h⟩ => nomatch h⟩
    simpa [Item.Wf, Spec.Plain, and_assoc] using h3
  | quoted c => exact ⟨h3, hb, hn, fun ⟨_, h⟩ => nomatch h⟩
  | tag b gap kw =>
    refine ⟨?_, hb, hn, fun ⟨_, h⟩ => nomatch h⟩
    simpa [Item.Wf, Spec.Plain, Blank, and_assoc] using h3
  | lineComment c =>
    simp only [Bool.and_eq_true, Bool.not_eq_true', List.contains_eq_mem, decide_eq_false_iff_not, decide_eq_true_eq] at h3
    exact ⟨⟨h3.1.1, Or.inl h3.1.2⟩, hb, hn, fun _ => h3.2⟩
  | blockComment c =>
    simp only [Bool.and_eq_true, Bool.not_eq_true', decide_eq_true_eq] at h3
    refine ⟨⟨?_, h3.1.2, Or.inr ?_⟩, hb, hn, fun ⟨_, h⟩ => nomatch h⟩
    · unfold IsBlockText; rw [← contains_iff, h3.1.1]; decide
    · rw [← contains_iff, h3.2]; decide

/-- The lines of a file, several tokens in each, with indentation, a comment over three lines and comments at the end of a line. -/
def laidLines : List Str := ["/* project P".toList, "   \"made\" by hand".toList, "*/ /begin PROJECT P \"\"".toList,
  "  /begin MODULE M1 \"\" // the first".toList, "    /begin COMPU_VTAB V \"\" TAB_VERB 2".toList,
  "      0 \"off\"\t1 \"on\" DEFAULT_VALUE \"?\" /end COMPU_VTAB".toList,
  "    /begin   MEASUREMENT m \"speed\" UWORD CM 2 1 0 100".toList,
  "      MATRIX_DIM 3 4 /* two".toList, "dimensions */ ECU_ADDRESS 0x4000".toList,
  "    /end MEASUREMENT /end MODULE".toList, "".toList, "  /begin MODULE M2 \"\" /end MODULE /end PROJECT".toList]

def laidSetup : Setup := ⟨2, fun c => c != '\n' && c != '\r' && c != '\uFEFF', natB,
  fun _ => "\uFEFF\n".toList ++ unlines laidLines ++ "\r\n\n".toList, fun _ _ => []⟩

def aWord (t : String) (sep : String) : Item × Str := (.word t.toList, sep.toList)
def aText (t : String) (sep : String) : Item × Str := (.quoted t.toList, sep.toList)
def anOpening (gap t : String) (sep : String) : Item × Str := (.tag true gap.toList t.toList, sep.toList)
def aClosing (t : String) (sep : String) : Item × Str := (.tag false " ".toList t.toList, sep.toList)

/-- The first six lines. -/
def laidDoc0 : Doc := [(.blockComment " project P\n   \"made\" by hand\n".toList, " ".toList), anOpening " " "PROJECT" " ", aWord "P" " ", aText "" "\n  ",
  anOpening " " "MODULE" " ", aWord "M1" " ", aText "" " ", (.lineComment " the first".toList, "\n    ".toList), anOpening " " "COMPU_VTAB" " ", aWord "V" " ", aText "" " ",
  aWord "TAB_VERB" " ", aWord "2" "\n      ", aWord "0" " ", aText "off" "\t", aWord "1" " ", aText "on" " ", aWord "DEFAULT_VALUE" " ", aText "?" " ", aClosing "COMPU_VTAB" "\n"]

/-- The other six lines. -/
def laidDoc1 : Doc := [anOpening "   " "MEASUREMENT" " ", aWord "m" " ", aText "speed" " ", aWord "UWORD" " ", aWord "CM" " ", aWord "2" " ", aWord "1" " ", aWord "0" " ",
  aWord "100" "\n      ", aWord "MATRIX_DIM" " ", aWord "3" " ", aWord "4" " ", (.blockComment " two\ndimensions ".toList, " ".toList), aWord "ECU_ADDRESS" " ",
  aWord "0x4000" "\n    ", aClosing "MEASUREMENT" " ", aClosing "MODULE" "\n\n  ", anOpening " " "MODULE" " ", aWord "M2" " ", aText "" " ", aClosing "MODULE" " ",
  aClosing "PROJECT" "\n"]

theorem laid_out : LaidOut laidSetup.graphic laidSetup.np (laidSetup.text 2) (written mixedFile) := by
  have hun : Unescaped ("\uFEFF\n".toList ++ unlines laidLines ++ "\r\n\n".toList) ("\uFEFF\n".toList ++ unlines laidLines ++ "\r\n\n".toList) :=
    unescaped_iff.2 (deleteEscapes_id (by decide +kernel))
  refine laidOut_doc (by decide) ⟨laidLines, ⟨_, hun, by decide +kernel, ⟨⟨_, _, rfl, by decide, by decide⟩, ?_, ?_⟩, by decide, by decide +kernel⟩,
    Or.inr ⟨fun i => if i = 0 then laidDoc0 else laidDoc1, fun i hi => ?_, by decide +kernel⟩⟩
  · intro c hc
    have : (unlines laidLines).head? = some '/' := by decide +kernel
    rw [this] at hc; cases hc; decide
  · intro c hc
    have : (unlines laidLines).getLast? = some 'T' := by decide +kernel
    rw [this] at hc; cases hc; decide
  · have : i = 0 ∨ i = 1 := by have : i < 2 := hi; omega
    rcases this with rfl | rfl
    · exact ⟨docB_spec (by decide +kernel), [], fun c hc => (List.not_mem_nil hc).elim, Or.inr (by decide +kernel)⟩
    · exact ⟨docB_spec (by decide +kernel), "    ".toList, by unfold Blank; decide, Or.inr (by decide +kernel)⟩

/-- A file with a byte order mark, laid out for people, read by two workers: the comments reach over line ends, but not from one
share into the other. -/
example : (calls laidSetup init ([1, 0] ++ List.replicate 5 2 ++ [0, 1])).result 2 =
      some (.ok 39 (.obj (fileStruct mixedFile)) false) := by
  have ha : ∀ n ∈ mixedFile, Allowed fileParts n := by
    have : mixedFile.all (allowedB fileParts) = true := by decide +kernel
    exact fun n hn => allowedB_spec (List.all_eq_true.1 this n hn)
  have := C80_file_partial laidSetup (by decide) (by decide) 2 [1, 0] [0, 1] (by decide) mixedFile ha whole_file (by decide +kernel)
    laid_out (by decide +kernel) (by decide +kernel)
  have hlen : (written mixedFile).length = 39 := by decide +kernel
  rw [hlen] at this
  exact this

/-- A text that is no document: comments stuck to words, and after the end of the project a word with a slash and a string that never
ends. The tokens are the same, and so is the result. -/
example : (calls ⟨1, fun _ => true, natB, fun _ => unlines (written mixedFile ++ ["/*x*/y//".toList, "n/a \"and so on".toList]), fun _ _ => []⟩ init
    (List.replicate 4 0)).result 0 = some (.ok 39 (.obj (fileStruct mixedFile)) false) := by
  have ha : ∀ n ∈ mixedFile, Allowed fileParts n := by
    have : mixedFile.all (allowedB fileParts) = true := by decide +kernel
    exact fun n hn => allowedB_spec (List.all_eq_true.1 this n hn)
  have := C80_file_partial ⟨1, fun _ => true, natB, fun _ => unlines (written mixedFile ++ ["/*x*/y//".toList, "n/a \"and so on".toList]), fun _ _ => []⟩
    (by decide) (by decide) 0 [] [] (by decide) mixedFile ha whole_file (by decide +kernel)
    ((C86_tokens _ _ _ _).1 (by decide +kernel)) (by decide +kernel) (by decide +kernel)
  have hlen : (written mixedFile).length = 39 := by decide +kernel
  rw [hlen] at this
  exact this

/-- The same file with one token per line, read by four workers: the same result. -/
example : (calls laidSetup init (List.replicate 5 2)).result 2 = (calls mixedSetup init (List.replicate 7 0)).result 0 := by
  have hwr : ∀ t ∈ written mixedFile, Writable t := by
    have : (written mixedFile).all writableB = true := by decide +kernel
    exact fun t ht => writableB_spec (List.all_eq_true.1 this t ht)
  exact C80_cpus_partial laidSetup mixedSetup rfl (by decide) (by decide) [] [] [] [] (by decide) (by decide) laid_out
    (laidOut_lines (graphic := mixedSetup.graphic) (n := mixedSetup.np) (by decide) (by decide) hwr (clean_of (by decide +kernel))) (by decide +kernel) (by decide +kernel)

end Verif.A2l.Props
