import Lean.Elab.Command

/-! String literals as lists of characters, which the kernel can reduce. -/

namespace Verif

open Lean in
/-- A string literal as a list of characters. -/
macro:max "cs!" s:str : term => do
  let cs := s.getString.toList.toArray.map fun c => (Syntax.mkCharLit c : TSyntax `term)
  `([$cs,*])

end Verif
