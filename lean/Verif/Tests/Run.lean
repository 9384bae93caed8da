import Verif.Lemmas.Res
import Verif.Model.Combinators
import Verif.Model.Stream
import Verif.Spec.Ascii

/-
How to evaluate the model on a concrete case: the first turns of a loop are unrolled.

The files beside this one hold the unit tests of the crate, transcribed to the model. They are tests of
the model and no proofs of anything else.
-/

namespace Chomp.Tests

open Chomp.Spec

/-- A loop whose first `n` turns are written out. -/
def unroll {σ S R : Type} (step : S → M σ (S ⊕ R)) : Nat → S → M σ R
  | 0, s => loop step s
  | n + 1, s => fun w =>
    match step s w with
    | .ok (.inl s', w') => unroll step n s' w'
    | .ok (.inr r, w') => .ok (r, w')
    | .panic => .panic
    | .ub => .ub
    | .div => .div

theorem loop_unroll (n : Nat) (step : S → M σ (S ⊕ R)) (s : S) : loop step s = unroll step n s := by
  induction n generalizing s with
  | zero => rfl
  | succ n ih =>
    funext w
    rw [loop_apply]
    unfold unroll
    match hs : step s w with
    | .ok (.inl s', w') => exact congrFun (ih s') w'
    | .ok (.inr r, w') => rfl
    | .panic => rfl
    | .ub => rfl
    | .div => rfl

/-- Evaluate both sides. -/
syntax "evaluate" : tactic

macro_rules
  | `(tactic| evaluate) => `(tactic|
      ((try simp only [Comb.many, Comb.many1, Comb.count, Comb.skipMany, Comb.skipMany1, Comb.manyTill,
          Comb.sepBy, Comb.sepBy1, Bounded.many, Bounded.manyWith, Bounded.manyRange, Bounded.manyFrom,
          Bounded.manyFull, Bounded.manyTo, Bounded.manyExactly, Bounded.skipMany, Bounded.skipManyRange,
          Bounded.skipManyFrom, Bounded.skipManyFull, Bounded.skipManyTo, Bounded.skipManyExactly,
          Bounded.manyTill, Bounded.manyTillWith, Bounded.manyTillRange, Bounded.manyTillFrom,
          Bounded.manyTillFull, Bounded.manyTillTo, Bounded.manyTillExactly, Bounded.runIter,
          Bounded.runIterTill, Collect.driver, fromIter, Collect.vec, loop_unroll 9]) <;> rfl))

example : Comb.many (σ := Unit) (Collect.vec _) (Parsers.token true (byte 'a')) ⟨.default, bytes "aab"⟩ () =
  .ok (.data ⟨.default, bytes "b"⟩ [byte 'a', byte 'a'], ()) := by evaluate

example (v : Bool) : Comb.sepBy1 (σ := Unit) id (Collect.vec _) Parsers.any (Parsers.token v (byte ';')) ⟨.endOfInput, bytes "a;c;"⟩ () =
  .ok (.data ⟨.endOfInput, bytes ";"⟩ [byte 'a', byte 'c'], ()) := by cases v <;> evaluate

example (v : Bool) : Bounded.skipMany (σ := Unit) (.range 2 4) (Parsers.token v (byte 'a')) ⟨.endOfInput, bytes "aaaaac"⟩ () =
  .ok (.data ⟨.endOfInput, bytes "aac"⟩ (), ()) := by cases v <;> evaluate

end Chomp.Tests
