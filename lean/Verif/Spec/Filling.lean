import Verif.Model.Machine
import Verif.Spec.Vec
import Verif.Spec.Till
import Verif.Spec.Convert

/-
What happens when a collection with effects is filled: `FromIterator` runs, asks for items and hints and does things
to the captured state, and the parsers run when it asks for an item.
-/

namespace Chomp.Spec

/-- How a parser failed. -/
inductive Failure (I E : Type) where
  | error (b : List I) (e : E)
  | incomplete (n : Nat)

/-- What is still expected after `k` items. -/
def hintAfter (r : Bounded.Range) (k : Nat) : Nat × Option Nat := (least r - k, (most r).map (· - k))

/-- `Filling p r c i w us last s j w'`: what has happened since a repetition into the collection `c` was started on `i`
with the captured state `w`. The parser after the items `us` is `p us`. Those so far are `us`; `last` is the last failure, for
which "one more item needed" stands if there was none. Now the collection is in the state `s`, `j` is what is left of the input, and `w'` the captured
state. -/
inductive Filling (p : List U → Parser σ I U E) (r : Bounded.Range) (c : Machine σ U T) (i : Input I) (w : σ) :
    List U → Failure I E → c.State → Input I → σ → Prop
  | start : Filling p r c i w [] (.incomplete 1) c.start i w
  /-- The parser runs where the last success ended, and succeeds. -/
  | item {us last s j w1 k j' u w2} : Filling p r c i w us last s j w1 → c.ask s = .next k →
      most r ≠ some us.length → p us j w1 = .ok (.data j' u, w2) → Filling p r c i w (us ++ [u]) last (k (some u)) j' w2
  | error {us last s j w1 k b e w2} : Filling p r c i w us last s j w1 → c.ask s = .next k →
      most r ≠ some us.length → p us j w1 = .ok (.error b e, w2) → Filling p r c i w us (.error b e) (k none) j w2
  | incomplete {us last s j w1 k n w2} : Filling p r c i w us last s j w1 → c.ask s = .next k →
      most r ≠ some us.length → p us j w1 = .ok (.incomplete n, w2) → Filling p r c i w us (.incomplete n) (k none) j w2
  /-- No more than the largest number of items. -/
  | limit {us last s j w1 k} : Filling p r c i w us last s j w1 → c.ask s = .next k → most r = some us.length →
      Filling p r c i w us last (k none) j w1
  | hint {us last s j w1 k} : Filling p r c i w us last s j w1 → c.ask s = .hint k →
      Filling p r c i w us last (k (hintAfter r us.length)) j w1
  | act {us last s j w1 g s' w2} : Filling p r c i w us last s j w1 → c.ask s = .act g → g w1 = .ok (s', w2) →
      Filling p r c i w us last s' j w2

/-- The result of `many` after `k` items. -/
def endMany (r : Bounded.Range) (k : Nat) (t : T) (j : Input I) : Failure I E → ParseResult I T E
  | .error b e => if least r ≤ k then .data j t else .error b e
  | .incomplete n =>
    if least r ≤ k ∧ (most r = some k ∨ j.mode = .endOfInput) then .data j t else .incomplete n

/-- How the repetition ends. -/
inductive CollectOutcome (p : List U → Parser σ I U E) (r : Bounded.Range) (c : Machine σ U T) (i : Input I) (w : σ) :
    Res (ParseResult I T E × σ) → Prop
  | done {us last s j w' t} : Filling p r c i w us last s j w' → c.ask s = .done t →
      CollectOutcome p r c i w (.ok (endMany r us.length t j last, w'))
  | panic {us last s j w'} : Filling p r c i w us last s j w' → c.ask s = .panic → CollectOutcome p r c i w .panic
  | act_panic {us last s j w' g} : Filling p r c i w us last s j w' → c.ask s = .act g → g w' = .panic →
      CollectOutcome p r c i w .panic
  | act_ub {us last s j w' g} : Filling p r c i w us last s j w' → c.ask s = .act g → g w' = .ub →
      CollectOutcome p r c i w .ub
  | parser_panic {us last s j w' k} : Filling p r c i w us last s j w' → c.ask s = .next k → most r ≠ some us.length →
      p us j w' = .panic → CollectOutcome p r c i w .panic
  | parser_ub {us last s j w' k} : Filling p r c i w us last s j w' → c.ask s = .next k → most r ≠ some us.length →
      p us j w' = .ub → CollectOutcome p r c i w .ub

/-- How often `many_till` tries the end after `k` items. -/
def triesAfter (r : Bounded.Range) (k : Nat) : Nat :=
  if most r = some k then if least r ≤ k then triesAtLimit r else 1 else if least r ≤ k then 1 else 0

/-- Likewise for `many_till`. `last` is `none` if the end has succeeded since the last failure. -/
inductive FillingTill (p : Parser σ I U E) (end_ : Parser σ I V N) (r : Bounded.Range) (c : Machine σ U T) (i : Input I)
    (w : σ) : List U → Option (Failure I E) → c.State → Input I → σ → Prop
  | start : FillingTill p end_ r c i w [] (some (.incomplete 1)) c.start i w
  | ended {us last s j w1 k j' w2} : FillingTill p end_ r c i w us last s j w1 → c.ask s = .next k →
      Test end_ (triesAfter r us.length) j w1 (some j') w2 → FillingTill p end_ r c i w us none (k none) j' w2
  | item {us last s j w1 k w2 j' u w3} : FillingTill p end_ r c i w us last s j w1 → c.ask s = .next k →
      Test end_ (triesAfter r us.length) j w1 none w2 → most r ≠ some us.length → p j w2 = .ok (.data j' u, w3) →
      FillingTill p end_ r c i w (us ++ [u]) last (k (some u)) j' w3
  | error {us last s j w1 k w2 b e w3} : FillingTill p end_ r c i w us last s j w1 → c.ask s = .next k →
      Test end_ (triesAfter r us.length) j w1 none w2 → most r ≠ some us.length → p j w2 = .ok (.error b e, w3) →
      FillingTill p end_ r c i w us (some (.error b e)) (k none) j w3
  | incomplete {us last s j w1 k w2 n w3} : FillingTill p end_ r c i w us last s j w1 → c.ask s = .next k →
      Test end_ (triesAfter r us.length) j w1 none w2 → most r ≠ some us.length → p j w2 = .ok (.incomplete n, w3) →
      FillingTill p end_ r c i w us (some (.incomplete n)) (k none) j w3
  | limit {us last s j w1 k w2} : FillingTill p end_ r c i w us last s j w1 → c.ask s = .next k →
      Test end_ (triesAfter r us.length) j w1 none w2 → most r = some us.length →
      FillingTill p end_ r c i w us last (k none) j w2
  | hint {us last s j w1 k} : FillingTill p end_ r c i w us last s j w1 → c.ask s = .hint k →
      FillingTill p end_ r c i w us last (k (hintAfter r us.length)) j w1
  | act {us last s j w1 g s' w2} : FillingTill p end_ r c i w us last s j w1 → c.ask s = .act g →
      g w1 = .ok (s', w2) → FillingTill p end_ r c i w us last s' j w2

/-- `many_till` does not panic if the end has succeeded after `k` items. -/
def Allowed : Bounded.Range → Nat → Prop
  | .to n, k => n - 1 ≤ k
  | r, k => least r ≤ k

/-- The result of `many_till`. -/
def endTill (t : T) (j : Input I) : Option (Failure I E) → ParseResult I T E
  | none => .data j t
  | some (.error b e) => .error b e
  | some (.incomplete n) => .incomplete n

/-- How `many_till` ends. -/
inductive CollectTill (p : Parser σ I U E) (end_ : Parser σ I V N) (r : Bounded.Range) (c : Machine σ U T) (i : Input I)
    (w : σ) : Res (ParseResult I T E × σ) → Prop
  | done {us last s j w' t} : FillingTill p end_ r c i w us last s j w' → c.ask s = .done t →
      (last = none → Allowed r us.length) → CollectTill p end_ r c i w (.ok (endTill t j last, w'))
  /-- The end has succeeded too early. -/
  | early {us s j w' t} : FillingTill p end_ r c i w us none s j w' → c.ask s = .done t → ¬ Allowed r us.length →
      CollectTill p end_ r c i w .panic
  | panic {us last s j w'} : FillingTill p end_ r c i w us last s j w' → c.ask s = .panic →
      CollectTill p end_ r c i w .panic
  | act_panic {us last s j w' g} : FillingTill p end_ r c i w us last s j w' → c.ask s = .act g → g w' = .panic →
      CollectTill p end_ r c i w .panic
  | act_ub {us last s j w' g} : FillingTill p end_ r c i w us last s j w' → c.ask s = .act g → g w' = .ub →
      CollectTill p end_ r c i w .ub
  | end_panic {us last s j w' k n w1} : FillingTill p end_ r c i w us last s j w' → c.ask s = .next k →
      n < triesAfter r us.length → Test end_ n j w' none w1 → end_ j w1 = .panic → CollectTill p end_ r c i w .panic
  | end_ub {us last s j w' k n w1} : FillingTill p end_ r c i w us last s j w' → c.ask s = .next k →
      n < triesAfter r us.length → Test end_ n j w' none w1 → end_ j w1 = .ub → CollectTill p end_ r c i w .ub
  | parser_panic {us last s j w' k w1} : FillingTill p end_ r c i w us last s j w' → c.ask s = .next k →
      Test end_ (triesAfter r us.length) j w' none w1 → most r ≠ some us.length → p j w1 = .panic →
      CollectTill p end_ r c i w .panic
  | parser_ub {us last s j w' k w1} : FillingTill p end_ r c i w us last s j w' → c.ask s = .next k →
      Test end_ (triesAfter r us.length) j w' none w1 → most r ≠ some us.length → p j w1 = .ub →
      CollectTill p end_ r c i w .ub

end Chomp.Spec
