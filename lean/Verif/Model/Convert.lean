import Verif.Model.Closures
import Verif.Model.Combinators

/-
The functions of /repo/src which convert errors by `From`, for any implementation of it: it may have
effects, panic, or not return. Verif/Model/Basic.lean and Verif/Model/Combinators.lean have the same
functions for a `From` which is a function; C115 shows how they are related.
-/

namespace Chomp.Converted

variable [Build]

/-- `ParseResult::bind`, src/parse_result.rs:142-150. `conv` is `<V as From<E>>::from`; the
`map_err(From::from)` applied to the result of `f` is `impl<T> From<T> for T` of the standard library, which
returns its argument. -/
def bind (conv : E → M σ V) (r : ParseResult I T E)
    (f : Input I → T → M σ (ParseResult I U V)) : M σ (ParseResult I U V) :=
  match r with
  | .data i t => do let q ← f i t; q.mapErr (fun e => pure e)
  | .error b e => do let e' ← conv e; pure (.error b e')
  | .incomplete n => pure (.incomplete n)

/-- `ParseResult::then`, src/parse_result.rs:179-183. -/
def andThen (conv : E → M σ V) (r : ParseResult I T E)
    (f : Input I → M σ (ParseResult I U V)) : M σ (ParseResult I U V) :=
  bind conv r (fun i _ => f i)

/-- The closure `parser` of `sep_by` and `sep_by1`, src/combinators/mod.rs:194-200 and 235-241. The
second component of the captured state is the local variable `item`. -/
def sepParser (conv : N → M σ E) (p : Parser σ I U E) (sep : Parser σ I V N) :
    Parser (σ × Bool) I U E := fun i => do
  let item := (← get).2
  let r : ParseResult I Unit N ←
    if item then do
      let r ← Comb.withLocal (sep i)
      r.map (fun _ => pure ())
    else pure (i.ret ())
  let r ← andThen (fun e => Comb.withLocal (conv e)) r (fun i => Comb.withLocal (p i))
  r.inspect (fun _ => modify (fun w => (w.1, true)))

/-- `sep_by`, src/combinators/mod.rs:182-203. -/
def sepBy (conv : N → M σ E) (c : Collect U T) (p : Parser σ I U E) (sep : Parser σ I V N) :
    Parser σ I T E := fun i =>
  Comb.newLocal false (Bounded.many .full c (sepParser conv p sep) i)

/-- `sep_by1`, src/combinators/mod.rs:223-244. -/
def sepBy1 (conv : N → M σ E) (c : Collect U T) (p : Parser σ I U E) (sep : Parser σ I V N) :
    Parser σ I T E := fun i =>
  Comb.newLocal false (Bounded.many (.from_ 1) c (sepParser conv p sep) i)

end Chomp.Converted
