import Verif.Model.Basic

/-
What it means to repeat a parser. This file refers to nothing but the type of parsers and their
results.
-/

namespace Chomp.Spec

/-- `Reps p i w us i' w'`: starting from input `i` and captured state `w`, the parser `p` succeeds
`us.length` times in a row, each time from where it stopped before, yielding the values `us` and
arriving at input `i'` and state `w'`. -/
inductive Reps (p : Parser σ I U E) : Input I → σ → List U → Input I → σ → Prop
  | nil {i w} : Reps p i w [] i w
  | cons {i w i1 u w1 us i' w'} : p i w = .ok (.data i1 u, w1) → Reps p i1 w1 us i' w' →
      Reps p i w (u :: us) i' w'

/-- `k` has not reached the upper limit (`none`: there is no limit). -/
def Below (k : Nat) (max : Option Nat) : Prop := ∀ m, max = some m → k < m

/-- Outcome of repeating `p` greedily at least `min` and at most `max` times. -/
inductive RepOutcome (p : Parser σ I U E) (min : Nat) (max : Option Nat) (i : Input I) (w : σ) :
    Res (ParseResult I (List U) E × σ) → Prop
  /-- The upper limit is reached: `p` is not called again. -/
  | full {us i' w'} : Reps p i w us i' w' → max = some us.length →
      RepOutcome p min max i w (.ok (.data i' us, w'))
  /-- `p` errors after enough items: success, in front of the failed application. -/
  | stop_error {us i' w' b e w''} : Reps p i w us i' w' → Below us.length max →
      p i' w' = .ok (.error b e, w'') → min ≤ us.length →
      RepOutcome p min max i w (.ok (.data i' us, w''))
  /-- `p` is incomplete on the last slice, after enough items: likewise. -/
  | stop_last {us i' w' n w''} : Reps p i w us i' w' → Below us.length max →
      p i' w' = .ok (.incomplete n, w'') → min ≤ us.length → i'.mode = .endOfInput →
      RepOutcome p min max i w (.ok (.data i' us, w''))
  /-- `p` errors before enough items were read: its error, at its position. -/
  | error {us i' w' b e w''} : Reps p i w us i' w' → Below us.length max →
      p i' w' = .ok (.error b e, w'') → us.length < min →
      RepOutcome p min max i w (.ok (.error b e, w''))
  /-- `p` is incomplete, and either more items are needed or more input may come. -/
  | incomplete {us i' w' n w''} : Reps p i w us i' w' → Below us.length max →
      p i' w' = .ok (.incomplete n, w'') → (us.length < min ∨ i'.mode = .default) →
      RepOutcome p min max i w (.ok (.incomplete n, w''))
  | panic {us i' w'} : Reps p i w us i' w' → Below us.length max → p i' w' = .panic →
      RepOutcome p min max i w .panic
  | ub {us i' w'} : Reps p i w us i' w' → Below us.length max → p i' w' = .ub →
      RepOutcome p min max i w .ub

/-- The repetition never ends: an application of `p` does not return, or there is no limit and `p`
succeeds for ever. -/
inductive RepDiverges (p : Parser σ I U E) (max : Option Nat) (i : Input I) (w : σ) : Prop
  | inside {us i' w'} : Reps p i w us i' w' → Below us.length max → p i' w' = .div →
      RepDiverges p max i w
  | forever : max = none → (∀ n, ∃ us i' w', us.length = n ∧ Reps p i w us i' w') →
      RepDiverges p max i w

end Chomp.Spec
