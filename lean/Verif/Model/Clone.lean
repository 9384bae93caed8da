import Verif.Model.Closures

/-
The parsers of /repo/src/parsers.rs which call `Clone::clone`, for any implementation of it: it may have
effects, panic, not return, or return something else. (Items have to be `Copy`, and for these `clone` should
be a copy, but an implementation by hand need not comply, and mapped items need not be `Copy`.) The
other parsers copy items, which never runs any code. Verif/Model/Parsers.lean and
Verif/Model/Closures.lean have the same functions for a `clone` which only copies; C106 shows how they are related.
-/

namespace Chomp.Cloned

variable [Build]

/-- `Option<&I>::cloned` of the standard library, as in `b.first().cloned()`. -/
def first (clone : I → M σ I) (b : List I) : M σ (Option I) :=
  match b with
  | [] => pure none
  | c :: _ => do
    let c ← clone c
    pure (some c)

/-- `Iterator::position` on `b.iter().cloned()`: each item is cloned just before `f` gets it. -/
def position (clone : I → M σ I) (f : I → M σ Bool) : List I → M σ (Option Nat)
  | [] => pure none
  | c :: cs => do
    let c ← clone c
    if ← f c then pure (some 0)
    else do
      let r ← position clone f cs
      pure (r.map (· + 1))

/-- `satisfy_with`, src/parsers.rs:71-88. `cloneT` clones the mapped item for `p`; the original is returned. -/
def satisfyWith (clone : I → M σ I) (cloneT : T → M σ T) (v : Bool) (f : I → M σ T) (p : T → M σ Bool) :
    Parser σ I T (Error I) := fun i => do
  match ← first clone i.buf with
  | some n => do
    let t ← f n
    let u ← cloneT t
    if ← p u then do
      let r ← sliceFrom i.buf 1
      pure ((i.replace r).ret t)
    else pure (i.err (Err.unexpected v))
  | none => pure (i.incomplete 1)

/-- `peek`, src/parsers.rs:143-147. -/
def peek (clone : I → M σ I) : Parser σ I (Option I) (Error I) := fun i => do
  let d ← first clone i.buf
  pure (i.ret d)

/-- `peek_next`, src/parsers.rs:159-164. -/
def peekNext (clone : I → M σ I) : Parser σ I I (Error I) := fun i => do
  match ← first clone i.buf with
  | none => pure (i.incomplete 1)
  | some c => pure (i.ret c)

/-- `take_till`, src/parsers.rs:276-286. -/
def takeTill (clone : I → M σ I) (f : I → M σ Bool) : Parser σ I (List I) (Error I) := fun i => do
  let b := i.buf
  match ← position clone f b with
  | some n =>
    let r ← sliceFrom b n
    let m ← sliceTo b n
    pure ((i.replace r).ret m)
  | none => pure (i.incomplete 1)

end Chomp.Cloned
