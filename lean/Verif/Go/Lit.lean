import Verif.Go.Basic

/-!
`str! "abc"` is the Go string "abc" as a list of characters, written out at elaboration time
(so that the kernel does not have to decode string literals).
-/

namespace Verif.Go

macro "str! " s:str : term => do
  let cs := s.getString.toList.map fun c => Lean.Syntax.mkCharLit c
  `(([$cs.toArray,*] : List Char))

example : str! "ab c" = "ab c".toList := by decide

end Verif.Go
