import Verif.Spec.Repeat

/-
What it means to repeat a parser with separators in between.
-/

namespace Chomp.Spec

/-- A separator, then an item. `conv` converts the error of the separator. -/
def sepThen (conv : N → E) (p : Parser σ I U E) (sep : Parser σ I V N) : Parser σ I U E :=
  fun i w => match sep i w with
    | .ok (.data i1 _, w1) => p i1 w1
    | .ok (.error b e, w1) => .ok (.error b (conv e), w1)
    | .ok (.incomplete n, w1) => .ok (.incomplete n, w1)
    | .panic => .panic
    | .ub => .ub
    | .div => .div

/-- `p` once, then `q` (a separator and an item) again and again; or nothing at all. -/
inductive SepReps (p q : Parser σ I U E) : Input I → σ → List U → Input I → σ → Prop
  | nil {i w} : SepReps p q i w [] i w
  | cons {i w i1 u w1 us i' w'} : p i w = .ok (.data i1 u, w1) → Reps q i1 w1 us i' w' →
      SepReps p q i w (u :: us) i' w'

/-- What is tried after `us`. -/
def attempt (p q : Parser σ I U E) : List U → Parser σ I U E
  | [] => p
  | _ :: _ => q

/-- Outcome of `p (sep p)*`, with at least `min` items. -/
inductive SepOutcome (p q : Parser σ I U E) (min : Nat) (i : Input I) (w : σ) :
    Res (ParseResult I (List U) E × σ) → Prop
  /-- The next attempt errs: success, in front of the separator which is not followed by an item. -/
  | stop_error {us i' w' b e w''} : SepReps p q i w us i' w' →
      attempt p q us i' w' = .ok (.error b e, w'') → min ≤ us.length →
      SepOutcome p q min i w (.ok (.data i' us, w''))
  /-- The next attempt is incomplete on the last slice: likewise. -/
  | stop_last {us i' w' n w''} : SepReps p q i w us i' w' →
      attempt p q us i' w' = .ok (.incomplete n, w'') → min ≤ us.length → i'.mode = .endOfInput →
      SepOutcome p q min i w (.ok (.data i' us, w''))
  | error {us i' w' b e w''} : SepReps p q i w us i' w' →
      attempt p q us i' w' = .ok (.error b e, w'') → us.length < min →
      SepOutcome p q min i w (.ok (.error b e, w''))
  | incomplete {us i' w' n w''} : SepReps p q i w us i' w' →
      attempt p q us i' w' = .ok (.incomplete n, w'') → (us.length < min ∨ i'.mode = .default) →
      SepOutcome p q min i w (.ok (.incomplete n, w''))
  | panic {us i' w'} : SepReps p q i w us i' w' → attempt p q us i' w' = .panic →
      SepOutcome p q min i w .panic
  | ub {us i' w'} : SepReps p q i w us i' w' → attempt p q us i' w' = .ub →
      SepOutcome p q min i w .ub

end Chomp.Spec
