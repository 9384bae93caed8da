import Verif.Spec.Repeat

/-
What it means to repeat a parser until another one succeeds.
-/

namespace Chomp.Spec

/-- `Test end_ n i w r w'`: trying `end_` up to `n` times on the input `i`, until it succeeds. `r` is
the input after its success, `none` if it never did. `w'` is the captured state afterwards. -/
inductive Test (end_ : Parser σ I V N) : Nat → Input I → σ → Option (Input I) → σ → Prop
  | none {i w} : Test end_ 0 i w none w
  | hit {n i w i' v w'} : end_ i w = .ok (.data i' v, w') → Test end_ (n + 1) i w (some i') w'
  | miss_error {n i w b e w' r w''} : end_ i w = .ok (.error b e, w') → Test end_ n i w' r w'' →
      Test end_ (n + 1) i w r w''
  | miss_incomplete {n i w k w' r w''} : end_ i w = .ok (.incomplete k, w') →
      Test end_ n i w' r w'' → Test end_ (n + 1) i w r w''

/-- How often `end_` is tried after `k` items: never before the minimum `min` is reached, once then,
and `last` times at the upper limit `max`. -/
def tries (min : Nat) (max : Option Nat) (last : Nat) (k : Nat) : Nat :=
  if max = some k then last else if k < min then 0 else 1

/-- `TillRun … i w us i' w'`: starting from `i` and `w`, `p` yielded the values `us` one after the
other, `end_` having been tried in vain before each of them (from the minimum on). -/
inductive TillRun (p : Parser σ I U E) (end_ : Parser σ I V N) (min : Nat) (max : Option Nat)
    (last : Nat) (i : Input I) (w : σ) : List U → Input I → σ → Prop
  | nil : TillRun p end_ min max last i w [] i w
  | snoc {us i' w' w1 i2 u w2} : TillRun p end_ min max last i w us i' w' →
      Below us.length max → Test end_ (tries min max last us.length) i' w' none w1 →
      p i' w1 = .ok (.data i2 u, w2) → TillRun p end_ min max last i w (us ++ [u]) i2 w2

/-- Outcome of repeating `p` until `end_` succeeds, between `min` and `max` times. -/
inductive TillOutcome (p : Parser σ I U E) (end_ : Parser σ I V N) (min : Nat) (max : Option Nat)
    (last : Nat) (i : Input I) (w : σ) : Res (ParseResult I (List U) E × σ) → Prop
  /-- `end_` succeeds: its match is consumed. -/
  | done {us i' w' i2 w2} : TillRun p end_ min max last i w us i' w' →
      Test end_ (tries min max last us.length) i' w' (some i2) w2 →
      TillOutcome p end_ min max last i w (.ok (.data i2 us, w2))
  /-- `end_` fails at the upper limit. -/
  | limit {us i' w' w1} : TillRun p end_ min max last i w us i' w' → max = some us.length →
      Test end_ (tries min max last us.length) i' w' none w1 →
      TillOutcome p end_ min max last i w (.ok (.incomplete 1, w1))
  /-- `p` errs where `end_` fails. -/
  | error {us i' w' w1 b e w2} : TillRun p end_ min max last i w us i' w' →
      Below us.length max → Test end_ (tries min max last us.length) i' w' none w1 →
      p i' w1 = .ok (.error b e, w2) →
      TillOutcome p end_ min max last i w (.ok (.error b e, w2))
  /-- `p` is incomplete where `end_` fails. -/
  | incomplete {us i' w' w1 n w2} : TillRun p end_ min max last i w us i' w' →
      Below us.length max → Test end_ (tries min max last us.length) i' w' none w1 →
      p i' w1 = .ok (.incomplete n, w2) →
      TillOutcome p end_ min max last i w (.ok (.incomplete n, w2))
  | panic_p {us i' w' w1} : TillRun p end_ min max last i w us i' w' →
      Below us.length max → Test end_ (tries min max last us.length) i' w' none w1 →
      p i' w1 = .panic → TillOutcome p end_ min max last i w .panic
  | ub_p {us i' w' w1} : TillRun p end_ min max last i w us i' w' →
      Below us.length max → Test end_ (tries min max last us.length) i' w' none w1 →
      p i' w1 = .ub → TillOutcome p end_ min max last i w .ub
  | panic_end {us i' w' k w1} : TillRun p end_ min max last i w us i' w' →
      k < tries min max last us.length → Test end_ k i' w' none w1 →
      end_ i' w1 = .panic → TillOutcome p end_ min max last i w .panic
  | ub_end {us i' w' k w1} : TillRun p end_ min max last i w us i' w' →
      k < tries min max last us.length → Test end_ k i' w' none w1 →
      end_ i' w1 = .ub → TillOutcome p end_ min max last i w .ub

end Chomp.Spec
