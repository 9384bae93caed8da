import Verif.Model.Look
import Verif.Spec.Buffer

/-
What a data source which looks at the slice finds there. Definitions only.
-/

namespace Chomp.Spec.Look

variable {S B I : Type} [LookingSource S I] [Buffer B I] [LookBuffer B I]

/-- The slice which `fill` gives to the data source. -/
def slice (b : B) : List (Option I) := (LookBuffer.memory b).drop (LookBuffer.start b)

/-- The items which a call of `read` has stored in the slice, also those which it does not claim. -/
def stored (o : ReadOut I) : List I := o.writes.filterMap id

/-- The contract of `DataSource` except for looking. -/
def Honest (S : Type) {I : Type} [LookingSource S I] : Prop :=
  ∀ (s : S) (cells : List (Option I)) (n : Nat), (LookingSource.read s cells).1.result = .ok n →
    n ≤ cells.length ∧ (LookingSource.read s cells).1.items.length = n

/-- `After chk x w h c y`: some calls of `fill`, `request_space` and `consume` (of no more than there is) lead from the
source and the buffer `x` to `y`. In these, the source has stored the items `w` in slices and handed over the items
`h`, and the items `c` have been consumed. -/
inductive After (chk : Bool) : S × B → List I → List I → List I → S × B → Prop
  | new {x} : After chk x [] [] [] x
  | fill {x w h c s b r s' b'} : After chk x w h c (s, b) → LookBuffer.fill chk s b = .ok (r, s', b') →
      After chk x (w ++ stored (LookingSource.read s (slice b)).1) (h ++ (LookingSource.read s (slice b)).1.items) c
        (s', b')
  | requestSpace {x w h c s b b'} (n : Nat) : After chk x w h c (s, b) → Buffer.requestSpace chk n b = .ok b' →
      After chk x w h c (s, b')
  | consume {x w h c s b b' xs} (n : Nat) : After chk x w h c (s, b) → Buffer.deref b = .ok xs → n ≤ xs.length →
      Buffer.consume chk n b = .ok b' → After chk x w h (c ++ xs.take n) (s, b')

/-- A source which keeps to the rule and does not look. -/
structure Blind (S : Type) where
  source : S

instance [DataSource S I] : LookingSource (Blind S) I where
  read s cells :=
    let (out, s') := DataSource.read s.source cells.length
    (out, ⟨s'⟩)

end Chomp.Spec.Look
