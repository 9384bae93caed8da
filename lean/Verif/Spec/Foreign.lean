import Verif.Spec.Source

/-
Parsers which do not leave an end of what they were given. Definitions only.
-/

namespace Chomp.Spec

/-- `|i| i.replace(rest).ret(t)`, with `replace` of src/input.rs:256-258: a parser which leaves a slice of
its own choice. -/
def leaves (rest : List I) (t : T) : Parser σ I T E := fun i => pure (.data ⟨i.mode, rest⟩ t)

/-- The slice left by a parser which is done, and the answer of the stream. -/
def left : ParseResult I T E → Option (List I × Except (StreamError I E) T)
  | .data i t => some (i.buf, .ok t)
  | .error b e => some (b, .error (.parseError b e))
  | .incomplete _ => none

end Chomp.Spec
