import Verif.Spec.Retry

/-
Keeping a record of the runs of a parser. Definitions only.
-/

namespace Chomp.Spec

/-- A run of a parser: what it was given, and how many items it asked for if it was incomplete. -/
structure Run (I : Type) where
  input : Input I
  asked : Option Nat

/-- the number of items it was given -/
abbrev Run.size (r : Run I) : Nat := r.input.buf.length

/-- What a result asks for. -/
def request : ParseResult I T E → Option Nat
  | .incomplete n => some n
  | _ => none

/-- The parser `p`, which also appends each of its runs to a list. -/
def recorded (p : Parser σ I T E) : Parser (σ × List (Run I)) I T E := fun i w =>
  match p i w.1 with
  | .ok (r, w') => .ok (r, (w', w.2 ++ [⟨i, request r⟩]))
  | .panic => .panic
  | .ub => .ub
  | .div => .div

/-- Leave out the list. -/
def forget : Res (α × (σ × List (Run I))) → Res (α × σ)
  | .ok (a, w) => .ok (a, w.1)
  | .panic => .panic
  | .ub => .ub
  | .div => .div

/-- A source of data which counts how often it is read. -/
structure Counting (S : Type) where
  source : S
  reads : Nat

instance [DataSource S I] : DataSource (Counting S) I where
  read s k :=
    let (out, s') := DataSource.read s.source k
    (out, ⟨s', s.reads + 1⟩)

end Chomp.Spec
