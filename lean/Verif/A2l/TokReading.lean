import Verif.A2l.TokSpec

/-!
Specification for C86: how any text whatsoever is read to tokens, well-formed or not. A text is given as its words and line ends.
-/

namespace Verif.A2l.Reading

open Verif.Go Verif.A2l.Spec

/-- A word, or (`none`) the end of a line. -/
abbrev Piece := Option Str

/-- The words of a piece of text. -/
def wordsOf (ps : List Piece) : List Str := ps.filterMap id

/-- The words and line ends of lines of text. -/
def pieces (lines : List Str) : List Piece := (lines.map fun l => (fields l).map some ++ [none]).flatten

/-- The mark stands in the word, with no quotation mark before it. -/
def Opens (mark w : Str) : Prop := ∃ a b, w = a ++ mark ++ b ∧ '"' ∉ a

def Ends (w : Str) : Prop := "*/".toList <:+: w

/-- The word begins a block comment: if there is no quotation mark in the word, `//` must not be in it either. -/
def Block (w : Str) : Prop := Opens "/*".toList w ∧ ('"' ∈ w ∨ ¬ "//".toList <:+: w)

/-- The word begins a line comment. -/
def LineComment (w : Str) : Prop := Opens "//".toList w ∧ ¬ Block w

/-- The word begins a string (which may have ended before the word ends). -/
def Quote (w : Str) : Prop := '"' ∈ w ∧ ¬ Opens "/*".toList w ∧ ¬ Opens "//".toList w

/-- None of these. -/
def NoMark (w : Str) : Prop := '"' ∉ w ∧ ¬ "/*".toList <:+: w ∧ ¬ "//".toList <:+: w

/-- The word is taken as `/begin` or `/end`. -/
def Tag (w : Str) : Prop := NoMark w ∧ ¬ Ends w ∧ ("/begin".toList <:+: w ∨ "/end".toList <:+: w)

/-- Any other word with a slash. -/
def Stray (w : Str) : Prop := NoMark w ∧ ¬ Ends w ∧ '/' ∈ w ∧ ¬ ("/begin".toList <:+: w ∨ "/end".toList <:+: w)

/-- A word that is a token. -/
def Plain (w : Str) : Prop := NoMark w ∧ ('/' ∉ w ∨ Ends w)

/-- Quotation marks in a list of words. -/
def quotes (ws : List Str) : Nat := (ws.map (List.count '"')).sum

/-- `Reads ps ts c`: the text `ps` is read to the tokens `ts`; `c` says whether nothing is open at its end. Reading stops for good at
an open comment, string or `/begin` that is not completed before the end of the text, and at any other word with a slash. -/
inductive Reads : List Piece → List Str → Bool → Prop
  | done : Reads [] [] true
  | lineEnd {ps ts c} (h : Reads ps ts c) : Reads (none :: ps) ts c
  | plain {w ps ts c} (hw : Plain w) (h : Reads ps ts c) : Reads (some w :: ps) (w :: ts) c
  /-- a line comment, up to the end of its line -/
  | line {w : Str} {a ps : List Piece} {ts c} (hw : LineComment w) (ha : none ∉ a) (h : Reads ps ts c) : Reads (some w :: (a ++ none :: ps)) ts c
  | lineOpen {w : Str} {a : List Piece} (hw : LineComment w) (ha : none ∉ a) : Reads (some w :: a) [] false
  /-- a block comment that is one word -/
  | blockWord {w ps ts c} (hw : Block w) (he : Ends w) (h : Reads ps ts c) : Reads (some w :: ps) ts c
  /-- a block comment, up to the first word that ends it -/
  | block {w : Str} {a : List Piece} {e : Str} {ps ts c} (hw : Block w) (ha : ∀ x ∈ w :: wordsOf a, ¬ Ends x) (he : Ends e) (h : Reads ps ts c) :
      Reads (some w :: (a ++ some e :: ps)) ts c
  | blockOpen {w : Str} {a : List Piece} (hw : Block w) (ha : ∀ x ∈ w :: wordsOf a, ¬ Ends x) : Reads (some w :: a) [] false
  /-- a string that is one word -/
  | quoteWord {w ps ts c} (hw : Quote w) (he : w.count '"' % 2 = 0) (h : Reads ps ts c) : Reads (some w :: ps) (w :: ts) c
  /-- a string, up to the first word after which the number of quotation marks is even -/
  | quote {w : Str} {a : List Piece} {e : Str} {ps ts c} (hw : Quote w) (ha : ∀ x, x <+: wordsOf a → quotes (w :: x) % 2 = 1)
      (he : quotes (w :: (wordsOf a ++ [e])) % 2 = 0) (h : Reads ps ts c) : Reads (some w :: (a ++ some e :: ps)) (unwords (w :: (wordsOf a ++ [e])) :: ts) c
  | quoteOpen {w : Str} {a : List Piece} (hw : Quote w) (ha : ∀ x, x <+: wordsOf a → quotes (w :: x) % 2 = 1) : Reads (some w :: a) [] false
  /-- `/begin` or `/end` with the next word, perhaps on another line -/
  | tag {w : Str} {a : List Piece} {k : Str} {ps ts c} (hw : Tag w) (ha : wordsOf a = []) (h : Reads ps ts c) :
      Reads (some w :: (a ++ some k :: ps)) ((w ++ ' ' :: k) :: ts) c
  | tagOpen {w : Str} {a : List Piece} (hw : Tag w) (ha : wordsOf a = []) : Reads (some w :: a) [] false
  | stray {w : Str} {a : List Piece} (hw : Stray w) : Reads (some w :: a) [] false

end Verif.A2l.Reading
