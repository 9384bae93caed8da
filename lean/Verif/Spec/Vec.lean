import Verif.Model.Combinators
import Verif.Spec.Repeat

namespace Chomp.Spec

/-- Least number of items in a range. -/
def least : Bounded.Range → Nat
  | .range a _ => a
  | .from_ n => n
  | .full => 0
  | .to _ => 0
  | .exactly n => n

/-- Largest number of items in a range, `none` if there is no limit. The end of `a..b` is not included. -/
def most : Bounded.Range → Option Nat
  | .range _ b => some (b - 1)
  | .from_ _ => none
  | .full => none
  | .to n => some (n - 1)
  | .exactly n => some n

/-- The range is not reversed. -/
def Fine : Bounded.Range → Prop
  | .range a b => a ≤ b
  | _ => True

/-- How often `many_till` tries the end at the upper limit. -/
def triesAtLimit : Bounded.Range → Nat
  | .range _ _ => 2
  | _ => 1

/-- `Pulls p i w us j w'`: the parser `p` is run several times, each time where the last success ended. The
successes yield `us`; there may be failures in between. -/
inductive Pulls (p : Parser σ I U E) : Input I → σ → List U → Input I → σ → Prop
  | nil {i w} : Pulls p i w [] i w
  | item {i w i1 u w1 us j w'} : p i w = .ok (.data i1 u, w1) → Pulls p i1 w1 us j w' →
      Pulls p i w (u :: us) j w'
  | error {i w b e w1 us j w'} : p i w = .ok (.error b e, w1) → Pulls p i w1 us j w' →
      Pulls p i w us j w'
  | incomplete {i w n w1 us j w'} : p i w = .ok (.incomplete n, w1) → Pulls p i w1 us j w' →
      Pulls p i w us j w'

/-- `PullsTill p end_ i w us b j w'`: the parsers `p` and `end_` are run in any order, each time where the last
success of either ended. The successes of `p` yield `us`. `b` says that `end_` has succeeded, and that `p` has
not failed since. -/
inductive PullsTill (p : Parser σ I U E) (end_ : Parser σ I V N) (i : Input I) (w : σ) :
    List U → Bool → Input I → σ → Prop
  | start : PullsTill p end_ i w [] false i w
  | item {us b j w1 j' u w2} : PullsTill p end_ i w us b j w1 → p j w1 = .ok (.data j' u, w2) →
      PullsTill p end_ i w (us ++ [u]) b j' w2
  | error {us b j w1 x e w2} : PullsTill p end_ i w us b j w1 → p j w1 = .ok (.error x e, w2) →
      PullsTill p end_ i w us false j w2
  | incomplete {us b j w1 n w2} : PullsTill p end_ i w us b j w1 → p j w1 = .ok (.incomplete n, w2) →
      PullsTill p end_ i w us false j w2
  | ended {us b j w1 j' v w2} : PullsTill p end_ i w us b j w1 → end_ j w1 = .ok (.data j' v, w2) →
      PullsTill p end_ i w us true j' w2
  | end_error {us b j w1 x e w2} : PullsTill p end_ i w us b j w1 → end_ j w1 = .ok (.error x e, w2) →
      PullsTill p end_ i w us b j w2
  | end_incomplete {us b j w1 n w2} : PullsTill p end_ i w us b j w1 →
      end_ j w1 = .ok (.incomplete n, w2) → PullsTill p end_ i w us b j w2

end Chomp.Spec
