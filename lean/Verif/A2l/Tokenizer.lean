import Verif.Go.Strings

/-!
Model of a2l/token_generator.go (the A2L tokenizer) and of the text clean-up in a2l/a2l.go.

A chunk of the file is a list of lines, a line a list of words (`strings.Fields`). The Go
code walks over it with two indices; an index expression out of range is a panic (`none`
of the outer `Option`). `error` results are the inner `none`: every error makes
`buildTokenList` return the tokens so far, so which error it is does not matter.

Not modelled: at the end of a chunk `moveToNextRawValue` appends an empty word to the last
line before it returns an error (token_generator.go:303); no code looks at the words after
an error.
-/

namespace Verif.A2l

open Verif.Go

/-- a2l/tokens.go:290,59,68,179,319 -/
def quotationMark : Char := '"'
def beginLineComment : Str := ['/', '/']
def beginMultilineComment : Str := ['/', '*']
def endMultilineComment : Str := ['*', '/']
def slash : Str := ['/']
/-- The literals of token_generator.go:336. -/
def slashBegin : Str := ['/', 'b', 'e', 'g', 'i', 'n']
def slashEnd : Str := ['/', 'e', 'n', 'd']

abbrev Line := List Str
abbrev Chunk := List Line

/-- `currentOuterIndex` and `currentInnerIndex`. -/
structure Pos where
  o : Nat
  i : Nat
  deriving DecidableEq, Repr

/-- `str[o][i]`, `none` = index out of range. -/
def word? (d : Chunk) (p : Pos) : Option Str := do
  let l ← d[p.o]?
  l[p.i]?

/-- token_generator.go:295-320 (`moveToNextRawValue`): the position of the next word. The
recursive call of line 314 is made with inner index 0 on an empty line and always ends in
the last branch (line 318), an error. -/
def moveToNextRawValue (d : Chunk) (p : Pos) : Option (Option Pos) := do
  let l ← d[p.o]?
  if p.i + 1 < l.length then pure (some ⟨p.o, p.i + 1⟩)
  else if l.length = p.i + 1 ∧ d.length = p.o + 1 then
    let w ← l[p.i]?
    if w ≠ [] then pure none else pure none
  else if l.length = p.i + 1 ∧ p.o + 1 < d.length then
    let l' ← d[p.o + 1]?
    if 0 < l'.length then pure (some ⟨p.o + 1, 0⟩) else pure none
  else pure none

/-- token_generator.go:213-227 (`skipLineComment`): first word of the next line. -/
def skipLineComment (d : Chunk) (p : Pos) : Option (Option Pos) := do
  let t ← word? d p
  if contains beginLineComment t then
    if p.o + 1 < d.length then do
      let _ ← word? d ⟨p.o + 1, 0⟩
      pure (some ⟨p.o + 1, 0⟩)
    else pure none
  else pure none

/-- The loop token_generator.go:236-250: next word until one contains `*/`, then the word
after it. Running out of `fuel` counts as a panic; `buildTokenList_total` shows that it
does not happen. -/
def skipMultilineLoop (d : Chunk) : (fuel : Nat) → Pos → Option (Option Pos)
  | 0, _ => none
  | fuel + 1, p => do
    match ← moveToNextRawValue d p with
    | none => pure none
    | some q =>
      let t ← word? d q
      if contains endMultilineComment t then moveToNextRawValue d q
      else if t = [] then pure none
      else skipMultilineLoop d fuel q

/-- token_generator.go:231-259 (`skipMultilineComment`). -/
def skipMultilineComment (d : Chunk) (fuel : Nat) (p : Pos) : Option (Option Pos) := do
  let t ← word? d p
  if contains beginMultilineComment t && !contains endMultilineComment t then skipMultilineLoop d fuel p
  else if contains beginMultilineComment t && contains endMultilineComment t then moveToNextRawValue d p
  else pure none

/-- The loop token_generator.go:272-283: append words until the number of quotation marks is
even. -/
def quoteLoop (d : Chunk) : (fuel : Nat) → (text : Str) → Pos → Option (Option (Str × Pos))
  | 0, _, _ => none
  | fuel + 1, text, p => do
    match ← moveToNextRawValue d p with
    | none => pure none
    | some q =>
      let t ← word? d q
      let text := text ++ [' '] ++ t
      if countChar quotationMark text % 2 = 0 then pure (some (text, q))
      else quoteLoop d fuel text q

/-- token_generator.go:261-289 (`getTextInQuotationMarks`). -/
def getTextInQuotationMarks (d : Chunk) (fuel : Nat) (p : Pos) : Option (Option (Str × Pos)) := do
  let t ← word? d p
  if countChar quotationMark t = 0 then pure none
  else if countChar quotationMark t % 2 ≠ 0 then quoteLoop d fuel t p
  else pure (some (t, p))

/-- token_generator.go:333-349 (`getTwoWordedToken`). -/
def getTwoWordedToken (d : Chunk) (p : Pos) : Option (Option (Str × Pos)) := do
  let t ← word? d p
  if contains slashBegin t || contains slashEnd t then
    match ← moveToNextRawValue d p with
    | none => pure none
    | some q =>
      let t' ← word? d q
      pure (some (t ++ [' '] ++ t', q))
  else pure none

/-- `mlcp != -1 && mlcp < qtp` (token_generator.go:163): the marker occurs before the first
quotation mark. -/
def before (marker t : Str) : Bool :=
  match indexOf marker t, indexOf [quotationMark] t with
  | some m, some q => decide (m < q)
  | _, _ => false

/-- token_generator.go:157-209: the part of `buildNextValidToken` from the label `start` on;
`goto start` is the recursive call. -/
def nextFrom (d : Chunk) : (fuel : Nat) → Pos → Option (Option (Str × Pos))
  | 0, _ => none
  | fuel + 1, p => do
    let t ← word? d p
    if t = [] then pure none
    else if contains [quotationMark] t then
      if before beginMultilineComment t then
        match ← skipMultilineComment d fuel p with
        | none => pure none
        | some q => nextFrom d fuel q
      else if before beginLineComment t then
        match ← skipLineComment d p with
        | none => pure none
        | some q => nextFrom d fuel q
      else getTextInQuotationMarks d fuel p
    else if contains beginLineComment t then
      match ← skipLineComment d p with
      | none => pure none
      | some q => nextFrom d fuel q
    else if contains beginMultilineComment t then
      match ← skipMultilineComment d fuel p with
      | none => pure none
      | some q => nextFrom d fuel q
    else if contains slash t && !contains endMultilineComment t then getTwoWordedToken d p
    else pure (some (t, p))

/-- token_generator.go:136-210 (`buildNextValidToken`). -/
def buildNextValidToken (d : Chunk) (fuel : Nat) (p : Pos) (firstRun : Bool) : Option (Option (Str × Pos)) := do
  if !firstRun then
    match ← moveToNextRawValue d p with
    | none => pure none
    | some q => nextFrom d fuel q
  else
    match d[p.o]? with
    | none => pure none
    | some l => if p.i < l.length then nextFrom d fuel p else pure none

/-- The loop of token_generator.go:109-133. The condition of line 116 (`Contains(t, "*/") &&
!Contains(t, "*/")`) is never true, so its branch is not modelled. -/
def buildLoop (d : Chunk) (inner : Nat) : (fuel : Nat) → Pos → (firstRun : Bool) → Option (List Str)
  | 0, _, _ => none
  | fuel + 1, p, firstRun => do
    match ← buildNextValidToken d inner p firstRun with
    | none => pure []
    | some (t, q) =>
      if t ≠ [] then do
        let ts ← buildLoop d inner fuel q false
        pure (t :: ts)
      else pure []

/-- Number of words of a chunk. -/
def words (d : Chunk) : Nat := (d.map List.length).sum

/-- token_generator.go:100-134 (`buildTokenList`). -/
def buildTokenList (d : Chunk) : Option (List Str) :=
  buildLoop d (words d + d.length + 2) (words d + d.length + 2) ⟨0, 0⟩ true

/-- token_generator.go:88-98 (`tokenBuilderRoutine`). -/
def tokenBuilderRoutine (lines : List Str) : Option (List Str) :=
  buildTokenList ((lines.filter fun l => trimSpace l ≠ []).map fields)

/-- `strings.ReplaceAll(str, "\\\"", "'")` (token_generator.go:48). -/
def replaceEscapedQuotes : Str → Str
  | '\\' :: '"' :: cs => '\'' :: replaceEscapedQuotes cs
  | c :: cs => c :: replaceEscapedQuotes cs
  | [] => []

/-- token_generator.go:43-86 (`buildTokenGeneratorFromString`): the token list on `n`
goroutines (that the collection is in order for every schedule is C19). -/
def tokensFromString (n : Nat) (str : Str) : Option (List Str) := do
  let lines := splitChar '\n' (replaceEscapedQuotes str)
  let parts ← shares? lines n
  let tss ← parts.mapM tokenBuilderRoutine
  pure (tss.flatten ++ [[]])

/-- a2l/a2l.go:143-147: the regular expression `\\.` (a backslash and one character other
than a newline) is replaced by the (non-existent) first submatch, that is, deleted. -/
def deleteEscapes : Str → Str
  | '\\' :: c :: cs => if c = '\n' then '\\' :: c :: deleteEscapes cs else deleteEscapes cs
  | c :: cs => c :: deleteEscapes cs
  | [] => []

/-- a2l/a2l.go:143-154 (`cleanBytesString`); `graphic` is `unicode.IsGraphic`. -/
def cleanString (graphic : Char → Bool) (s : Str) : Str := trimFunc (fun c => !graphic c) (deleteEscapes s)

/-- a2l/a2l.go:55-75: the tokens of a file with content `s`. -/
def tokensOfFile (graphic : Char → Bool) (n : Nat) (s : Str) : Option (List Str) :=
  tokensFromString n (cleanString graphic s)

/-- a2l/tokens.go `beginModuleToken`. -/
def beginModule : Str := "/begin MODULE".toList

/-- token_generator.go:123-127: the number of modules. -/
def moduleCount (tokens : List Str) : Nat := tokens.count beginModule

/-- token_generator.go:77-84: `useMultithreading`. -/
def useMultithreading (tokens : List Str) : Bool := !(decide (1 < moduleCount tokens))

end Verif.A2l
