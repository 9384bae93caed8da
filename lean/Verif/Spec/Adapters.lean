import Verif.Model.Stream

/-
Specification for C83: data sources which cannot be told apart, and a `Source` as a data source.
-/

namespace Chomp.Spec

/-- `R` relates sources which cannot be told apart by reading from them. -/
def ReadAlike [DataSource S I] [DataSource S' I] (R : S → S' → Prop) : Prop :=
  ∀ s s', R s s' → ∀ k, (DataSource.read s k).1 = (DataSource.read s' k).1 ∧
    R (DataSource.read s k).2 (DataSource.read s' k).2

/-- Both return, with results related by `P`, or both panic, or neither returns, or both are undefined
behaviour. -/
def Outcomes (P : A → A' → Prop) : Res A → Res A' → Prop
  | .ok a, .ok a' => P a a'
  | .panic, .panic => True
  | .ub, .ub => True
  | .div, .div => True
  | _, _ => False

/-- `Source`s which differ in their data sources only. -/
structure SameSource (R : S → S' → Prop) (s : Source S B) (s' : Source S' B) : Prop where
  source : R s.source s'.source
  buffer : s.buffer = s'.buffer
  request : s.request = s'.request
  state : s.state = s'.state

end Chomp.Spec
