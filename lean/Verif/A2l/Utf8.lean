import Verif.A2l.TokExact

/-!
The tokenizer on the bytes of a file. A Go string is a sequence of bytes, and a file need not be UTF-8. In `Verif.A2l.Tokenizer` a text is
a list of characters; here it is a list of bytes, a byte being written as the character with its value. The functions of Go that look at
characters (`range` over a string, `regexp`, `strings.TrimFunc`, `strings.Fields`, `strings.TrimSpace`) see the bytes as runes.
-/

namespace Verif.A2l.Bytes

open Verif.Go

/-- A rune as Go sees it in a string: its character, and the bytes it takes up. -/
abbrev Rune := Char × Str

/-- `utf8.RuneError`, what Go sees in place of a byte that is not part of UTF-8. -/
def runeError : Char := '�'

def isCont (x : Char) : Bool := 0x80 ≤ x.toNat && x.toNat ≤ 0xBF

/-- `utf8.DecodeRuneInString` (unicode/utf8, go 1.18): the character at the start of `s` and the number of its bytes; `none` where that
function returns `(RuneError, 1)` because the bytes are not the shortest encoding of a character. -/
def decode1 : Str → Option (Char × Nat)
  | [] => none
  | a :: s =>
    if a.toNat < 0x80 then some (a, 1)
    else match s with
      | [] => none
      | b :: s =>
        if 0xC2 ≤ a.toNat ∧ a.toNat ≤ 0xDF then
          if isCont b then some (Char.ofNat ((a.toNat - 0xC0) * 64 + (b.toNat - 0x80)), 2) else none
        else match s with
          | [] => none
          | c :: s =>
            if 0xE0 ≤ a.toNat ∧ a.toNat ≤ 0xEF then
              if isCont b && isCont c && !(a.toNat = 0xE0 && b.toNat < 0xA0) && !(a.toNat = 0xED && 0x9F < b.toNat) then
                some (Char.ofNat ((a.toNat - 0xE0) * 4096 + (b.toNat - 0x80) * 64 + (c.toNat - 0x80)), 3)
              else none
            else match s with
              | [] => none
              | d :: _ =>
                if 0xF0 ≤ a.toNat ∧ a.toNat ≤ 0xF4 then
                  if isCont b && isCont c && isCont d && !(a.toNat = 0xF0 && b.toNat < 0x90) && !(a.toNat = 0xF4 && 0x8F < b.toNat) then
                    some (Char.ofNat ((a.toNat - 0xF0) * 262144 + (b.toNat - 0x80) * 4096 + (c.toNat - 0x80) * 64 + (d.toNat - 0x80)), 4)
                  else none
                else none

/-- `for i, r := range s` of Go, with the bytes of every rune. -/
def runesN : Nat → Str → List Rune
  | 0, _ => []
  | _ + 1, [] => []
  | n + 1, a :: s =>
    match decode1 (a :: s) with
    | some (c, w) => (c, (a :: s).take w) :: runesN n ((a :: s).drop w)
    | none => (runeError, [a]) :: runesN n s

def runes (s : Str) : List Rune := runesN s.length s

/-- The bytes of runes. -/
def flat (us : List Rune) : Str := us.flatMap Prod.snd

/-- The characters of runes. -/
def chars (us : List Rune) : Str := us.map Prod.fst

/-- `regexp.MustCompile("\\\\.")` with the matches deleted (a2l/a2l.go:143-147), see `deleteEscapes`: `.` matches a rune other than a
newline, and a byte that is not UTF-8 counts as a rune. -/
def deleteEscapesR : List Rune → List Rune
  | u :: v :: us =>
    if u.1 = '\\' then (if v.1 = '\n' then u :: v :: deleteEscapesR us else deleteEscapesR us) else u :: deleteEscapesR (v :: us)
  | us => us
termination_by us => us.length

/-- `utf8.RuneStart`. -/
def runeStart (x : Char) : Bool := !isCont x

/-- The number of bytes at the end of a string from which `utf8.DecodeLastRuneInString` decodes, for the reversed string: from the last byte
that starts a rune, at most four bytes from the end and not the last byte; five bytes (or all) if there is none. -/
def lastLen : Str → Nat
  | _ :: y :: z :: w :: t => if runeStart y then 2 else if runeStart z then 3 else if runeStart w then 4 else if t.isEmpty then 4 else 5
  | [_, y, _] => if runeStart y then 2 else 3
  | s => s.length

/-- `utf8.DecodeLastRuneInString` (unicode/utf8, go 1.18) of a string that is not empty. -/
def decodeLast (s : Str) : Char × Nat :=
  match s.getLast? with
  | none => (runeError, 0)
  | some x =>
    if x.toNat < 0x80 then (x, 1)
    else match decode1 (s.drop (s.length - lastLen s.reverse)) with
      | some (c, w) => if w = lastLen s.reverse then (c, w) else (runeError, 1)
      | none => (runeError, 1)

/-- `lastIndexFunc(s, f, false)` (package strings): where the last rune starts that does not satisfy `f`. -/
def lastIndex (f : Char → Bool) : (fuel : Nat) → Str → Option Nat
  | 0, _ => none
  | n + 1, s =>
    if s = [] then none
    else if f (decodeLast s).1 then lastIndex f n (s.take (s.length - (decodeLast s).2)) else some (s.length - (decodeLast s).2)

/-- The number of bytes that `utf8.DecodeRuneInString` reads. -/
def width (s : Str) : Nat :=
  match decode1 s with
  | some (_, w) => w
  | none => 1

/-- `strings.TrimRightFunc`. -/
def trimRightB (f : Char → Bool) (s : Str) : Str :=
  match lastIndex f s.length s with
  | none => []
  | some i => s.take (i + width (s.drop i))

/-- `strings.TrimFunc`. -/
def trimFuncB (f : Char → Bool) (s : Str) : Str := trimRightB f (flat ((runes s).dropWhile fun u => f u.1))

/-- `strings.Fields`, see `fieldsAux`. -/
def fieldsAuxR (acc : List Rune) : List Rune → List (List Rune)
  | [] => if acc.isEmpty then [] else [acc.reverse]
  | u :: us =>
    if isSpace u.1 then (if acc.isEmpty then fieldsAuxR [] us else acc.reverse :: fieldsAuxR [] us)
    else fieldsAuxR (u :: acc) us

def fieldsB (s : Str) : List Str := (fieldsAuxR [] (runes s)).map flat

def trimSpaceB (s : Str) : Str := trimFuncB isSpace s

/-- a2l/a2l.go:143-154 (`cleanBytesString`). -/
def cleanB (graphic : Char → Bool) (b : Str) : Str := trimFuncB (fun c => !graphic c) (flat (deleteEscapesR (runes b)))

/-- token_generator.go:88-98 (`tokenBuilderRoutine`). -/
def tokenBuilderRoutineB (lines : List Str) : Option (List Str) :=
  buildTokenList ((lines.filter fun l => trimSpaceB l ≠ []).map fieldsB)

/-- token_generator.go:43-86 (`buildTokenGeneratorFromString`), see `tokensFromString`; the replacement of quotation marks and the split at
line ends compare bytes. -/
def tokensFromStringB (n : Nat) (str : Str) : Option (List Str) := do
  let lines := splitChar '\n' (replaceEscapedQuotes str)
  let parts ← shares? lines n
  let tss ← parts.mapM tokenBuilderRoutineB
  pure (tss.flatten ++ [[]])

/-- a2l/a2l.go:55-75: the tokens of a file with the bytes `b`. -/
def tokensOfFileB (graphic : Char → Bool) (n : Nat) (b : Str) : Option (List Str) := tokensFromStringB n (cleanB graphic b)

end Verif.A2l.Bytes

namespace Verif.A2l.Spec

open Verif.Go

def byte (n : Nat) : Char := Char.ofNat n

/-- UTF-8 (RFC 3629). -/
def utf8 (c : Char) : Str :=
  if c.toNat < 0x80 then [c]
  else if c.toNat < 0x800 then [byte (0xC0 + c.toNat / 64), byte (0x80 + c.toNat % 64)]
  else if c.toNat < 0x10000 then [byte (0xE0 + c.toNat / 4096), byte (0x80 + c.toNat / 64 % 64), byte (0x80 + c.toNat % 64)]
  else [byte (0xF0 + c.toNat / 262144), byte (0x80 + c.toNat / 4096 % 64), byte (0x80 + c.toNat / 64 % 64), byte (0x80 + c.toNat % 64)]

/-- The text in UTF-8. -/
def encoded (s : Str) : Str := s.flatMap utf8

/-- At the start of the bytes there is no character in UTF-8. -/
def NoRune (s : Str) : Prop := ∀ c, ¬ utf8 c <+: s

/-- The bytes `s` seen as characters with their bytes: characters in UTF-8, and U+FFFD for every byte that does not belong to one. -/
inductive Decodes : Str → List (Char × Str) → Prop
  | done : Decodes [] []
  | rune {c s us} : Decodes s us → Decodes (utf8 c ++ s) ((c, utf8 c) :: us)
  | invalid {x s us} : NoRune (x :: s) → Decodes s us → Decodes (x :: s) (('�', [x]) :: us)

/-- The bytes of a text without escapes: a backslash is left out together with the character after it, or with one byte if there
is no character. A backslash at the end of a line or of the text stays. -/
inductive UnescapedBytes : Str → Str → Prop
  | done : UnescapedBytes [] []
  | byte {x s t} : x ≠ '\\' → UnescapedBytes s t → UnescapedBytes (x :: s) (x :: t)
  | escape {c s t} : c ≠ '\n' → UnescapedBytes s t → UnescapedBytes ('\\' :: (utf8 c ++ s)) t
  | escapeByte {x s t} : NoRune (x :: s) → UnescapedBytes s t → UnescapedBytes ('\\' :: x :: s) t
  | lineEnd {s t} : UnescapedBytes s t → UnescapedBytes ('\\' :: '\n' :: s) ('\\' :: '\n' :: t)
  | textEnd : UnescapedBytes ['\\'] ['\\']

end Verif.A2l.Spec
