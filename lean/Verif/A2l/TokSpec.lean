import Verif.Go.Strings

/-!
Specification of A2L text on the level of characters, independent of the tokenizer: a
document is a sequence of items separated by white space; each item says how it is written and
which token it stands for.
-/

namespace Verif.A2l.Spec

open Verif.Go

/-- What a document is made of. -/
inductive Item where
  /-- a name, number or keyword -/
  | word (w : Str)
  /-- a string with content `c`; a quotation mark in it is written twice -/
  | quoted (c : Str)
  /-- `/begin` or `/end`, white space, keyword -/
  | tag (isBegin : Bool) (gap kw : Str)
  /-- `//c` up to the end of the line -/
  | lineComment (c : Str)
  /-- `/*c*/` -/
  | blockComment (c : Str)
  deriving DecidableEq, Repr

/-- How an item is written. -/
def Item.text : Item → Str
  | .word w => w
  | .quoted c => '"' :: c ++ ['"']
  | .tag true gap kw => "/begin".toList ++ gap ++ kw
  | .tag false gap kw => "/end".toList ++ gap ++ kw
  | .lineComment c => "//".toList ++ c
  | .blockComment c => "/*".toList ++ c ++ "*/".toList

/-- Words with one space between them. -/
def unwords : List Str → Str
  | [] => []
  | [w] => w
  | w :: ws => w ++ ' ' :: unwords ws

/-- The tokens an item stands for: none for a comment, one for everything else. White space in a
string or between `/begin` and its keyword counts as one space. -/
def Item.tokens : Item → List Str
  | .word w => [w]
  | .quoted c => [unwords (fields ('"' :: c ++ ['"']))]
  | .tag true _ kw => ["/begin ".toList ++ kw]
  | .tag false _ kw => ["/end ".toList ++ kw]
  | .lineComment _ => []
  | .blockComment _ => []

/-- White space only. -/
def Blank (s : Str) : Prop := ∀ c ∈ s, isSpace c = true

/-- A plain word: no white space, no quotation mark, no slash. -/
def Plain (w : Str) : Prop := w ≠ [] ∧ ∀ c ∈ w, isSpace c = false ∧ c ≠ '"' ∧ c ≠ '/'

/-- Every quotation mark is written twice. -/
def doubled : Str → Bool
  | '"' :: '"' :: cs => doubled cs
  | '"' :: _ => false
  | _ :: cs => doubled cs
  | [] => true

/-- The text up to the first white space. -/
def firstWord (c : Str) : Str := c.takeWhile fun x => !isSpace x

/-- A block comment: the text does not contain the closing mark. -/
def IsBlockText (c : Str) : Prop := ¬ ['*', '/'] <:+: c

/-- A line comment stays on its line. -/
def IsLineText (c : Str) : Prop := '\n' ∉ c

/-- Well-formed items. Of the comments only those are allowed that begin harmlessly: the full
claim about comments (`C25_full`) does without the extra conditions, and is false. -/
def Item.Wf : Item → Prop
  | .word w => Plain w
  | .quoted c => doubled c = true
  | .tag _ gap kw => Blank gap ∧ gap ≠ [] ∧ Plain kw
  | .lineComment c => IsLineText c ∧ ('"' ∉ firstWord c ∨ ¬ ['/', '*'] <:+: '/' :: firstWord c)
  | .blockComment c => IsBlockText c ∧ c.head? ≠ some '/' ∧ ('"' ∈ firstWord c ∨ ¬ ['/', '/'] <:+: firstWord c)

/-- A document: items, each with the white space after it. -/
abbrev Doc := List (Item × Str)

def Doc.text : Doc → Str
  | [] => []
  | (i, sep) :: d => i.text ++ sep ++ Doc.text d

def Doc.tokens (d : Doc) : List Str := (d.map fun p => p.1.tokens).flatten

/-- White space after `i`: some, and with a line end after a line comment. -/
def SepAfter (i : Item) (sep : Str) : Prop :=
  Blank sep ∧ sep ≠ [] ∧ ((∃ c, i = .lineComment c) → '\n' ∈ sep)

/-- Every item well-formed and followed by white space. -/
def Doc.Wf (d : Doc) : Prop := ∀ p ∈ d, p.1.Wf ∧ SepAfter p.1 p.2

/-- The text `s` is document `d`: white space, the items, perhaps without the white space at the
end. -/
def IsText (s : Str) (d : Doc) : Prop :=
  d.Wf ∧ ∃ lead, Blank lead ∧ (s = lead ++ d.text ∨ s ++ ['\n'] = lead ++ d.text)

end Verif.A2l.Spec
