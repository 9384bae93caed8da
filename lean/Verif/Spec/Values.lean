import Verif.Spec.Retry

/-
Reading values from a source for as long as there are any. This file contains definitions only.
-/

namespace Chomp.Spec

variable {S B I : Type} [DataSource S I] [Buffer B I]

/-- `match retry(&mut s, p) { Ok(t) => v.push(t), Err(_) => break }`, where `retry` is the loop in
Verif/Spec/Retry.lean -/
def nextValue (chk : Bool) (p : Parser σ I T E) (x : List T × Source S B) :
    M σ ((List T × Source S B) ⊕ (List T × Source S B)) := do
  let (r, s) ← retry chk p x.2
  match r with
  | .ok t => pure (.inl (x.1 ++ [t], s))
  | .error _ => pure (.inr (x.1, s))

/-- `let mut v = vec![]; loop { match retry(&mut s, p) { Ok(t) => v.push(t), Err(_) => break } }` -/
def values (chk : Bool) (p : Parser σ I T E) (s : Source S B) : M σ (List T × Source S B) :=
  loop (nextValue chk p) ([], s)

/-- On one slice with all of the data: `p` gives the values, one after the other, and leaves `y`. -/
inductive Consecutive (p : Parser Unit I T E) : List I → List T → List I → Prop
  | nil : Consecutive p x [] x
  | cons : p ⟨.endOfInput, x⟩ () = .ok (.data ⟨.endOfInput, y⟩ t, ()) → Consecutive p y ts z →
      Consecutive p x (t :: ts) z

end Chomp.Spec
