import Verif.Model.Res

/-
Model of /repo/src/input.rs, /repo/src/parse_result.rs and /repo/src/parse.rs.
-/

namespace Chomp

/-- `InputMode`, src/input.rs:4-11. A bit set with one flag, so two values. -/
inductive Mode where
  | default
  | endOfInput
deriving DecidableEq, Repr

/-- `Input<'a, I>`, src/input.rs:76-78. The slice is a list; pointer identity and lifetimes are
not modelled. -/
structure Input (I : Type) where
  mode : Mode
  buf : List I
deriving DecidableEq, Repr

/-- `State` and its wrapper `ParseResult`, src/parse_result.rs:18-31 and 81-83. -/
inductive ParseResult (I T E : Type) where
  | data (i : Input I) (t : T)
  | error (b : List I) (e : E)
  | incomplete (n : Nat)
deriving DecidableEq, Repr

/-- A parser: `Fn*(Input<I>) -> ParseResult<I, T, E>`, src/input.rs:67-75. `σ` is whatever the
closure captures. -/
abbrev Parser (σ I T E : Type) := Input I → M σ (ParseResult I T E)

/-! ### Slices -/

/-- `&b[n..]`: panics if `n` is out of range. -/
def sliceFrom (b : List I) (n : Nat) : M σ (List I) :=
  if n ≤ b.length then pure (b.drop n) else M.panic

/-- `&b[..n]`: panics if `n` is out of range. -/
def sliceTo (b : List I) (n : Nat) : M σ (List I) :=
  if n ≤ b.length then pure (b.take n) else M.panic

namespace Input

/-- `Input::new`, src/input.rs:103-105. -/
def new (b : List I) : Input I := ⟨.endOfInput, b⟩

/-- `Input::ret`, src/input.rs:124-126. -/
def ret (i : Input I) (t : T) : ParseResult I T E := .data i t

/-- `Input::err`, src/input.rs:145-147. -/
def err (i : Input I) (e : E) : ParseResult I T E := .error i.buf e

/-- `Input::incomplete`, src/input.rs:156-158. -/
def incomplete (_ : Input I) (n : Nat) : ParseResult I T E := .incomplete n

/-- `Input::from_result`, src/input.rs:181-186. -/
def fromResult (i : Input I) (r : Except E T) : ParseResult I T E :=
  match r with
  | .ok t => .data i t
  | .error e => .error i.buf e

/-- `InputBuffer::replace`, src/input.rs:256-258. -/
def replace (i : Input I) (b : List I) : Input I := ⟨i.mode, b⟩

/-- `InputBuffer::is_last_slice`, src/input.rs:261-263. -/
def isLastSlice (i : Input I) : Bool :=
  match i.mode with
  | .endOfInput => true
  | .default => false

end Input

namespace ParseResult

/-- `ParseResult::map_err`, src/parse_result.rs:220-227. The closure may have effects. -/
def mapErr (r : ParseResult I T E) (f : E → M σ V) : M σ (ParseResult I T V) :=
  match r with
  | .data i t => pure (.data i t)
  | .error b e => do let e' ← f e; pure (.error b e')
  | .incomplete n => pure (.incomplete n)

/-- `ParseResult::bind`, src/parse_result.rs:142-150. `conv` is `<V as From<E>>::from`; the
`map_err(From::from)` applied to the result of `f` is the reflexive `From<V> for V`, i.e. the
identity. -/
def bind (conv : E → V) (r : ParseResult I T E)
    (f : Input I → T → M σ (ParseResult I U V)) : M σ (ParseResult I U V) :=
  match r with
  | .data i t => do let q ← f i t; q.mapErr (fun e => pure e)
  | .error b e => pure (.error b (conv e))
  | .incomplete n => pure (.incomplete n)

/-- `ParseResult::then`, src/parse_result.rs:179-183. -/
def andThen (conv : E → V) (r : ParseResult I T E)
    (f : Input I → M σ (ParseResult I U V)) : M σ (ParseResult I U V) :=
  r.bind conv (fun i _ => f i)

/-- `ParseResult::map`, src/parse_result.rs:197-204. The closure may have effects. -/
def map (r : ParseResult I T E) (f : T → M σ U) : M σ (ParseResult I U E) :=
  match r with
  | .data i t => do let u ← f t; pure (.data i u)
  | .error b e => pure (.error b e)
  | .incomplete n => pure (.incomplete n)

/-- `ParseResult::inspect`, src/parse_result.rs:244-251. -/
def inspect (r : ParseResult I T E) (f : T → M σ Unit) : M σ (ParseResult I T E) :=
  match r with
  | .data i t => do f t; pure (.data i t)
  | r => pure r

/-- `ParseResult::unwrap`, src/parse_result.rs:295-303 (the message is in Model/Fmt.lean). -/
def unwrap (r : ParseResult I T E) : M σ T :=
  match r with
  | .data _ t => pure t
  | .error _ _ => M.panic
  | .incomplete _ => M.panic

/-- `ParseResult::expect`, src/parse_result.rs:328-334 (the message is in Model/Fmt.lean). -/
def expect (r : ParseResult I T E) : M σ T :=
  match r with
  | .data _ t => pure t
  | .error _ _ => M.panic
  | .incomplete _ => M.panic

/-- `ParseResult::unwrap_err`, src/parse_result.rs:372-382 (the message is in Model/Fmt.lean). -/
def unwrapErr (r : ParseResult I T E) : M σ E :=
  match r with
  | .data _ _ => M.panic
  | .error _ e => pure e
  | .incomplete _ => M.panic

end ParseResult

/-! ### Parser-level forms

User code writes `p(i).bind(f)`: run `p`, then call the method. -/

/-- `|i| p(i).bind(f)` -/
def Parser.bind (conv : E → V) (p : Parser σ I T E)
    (f : T → Parser σ I U V) : Parser σ I U V :=
  fun i => do let r ← p i; r.bind conv (fun i t => f t i)

/-- `|i| p(i).then(q)` -/
def Parser.andThen (conv : E → V) (p : Parser σ I T E)
    (q : Parser σ I U V) : Parser σ I U V :=
  fun i => do let r ← p i; r.andThen conv q

/-- `|i| p(i).map(f)` with an effect-free closure. -/
def Parser.map (p : Parser σ I T E) (f : T → U) : Parser σ I U E :=
  fun i => do let r ← p i; r.map (fun t => pure (f t))

/-- `|i| p(i).map_err(f)` with an effect-free closure. -/
def Parser.mapErr (p : Parser σ I T E) (f : E → V) : Parser σ I T V :=
  fun i => do let r ← p i; r.mapErr (fun e => pure (f e))

/-- `|i| p(i).inspect(f)` -/
def Parser.inspect (p : Parser σ I T E) (f : T → M σ Unit) : Parser σ I T E :=
  fun i => do let r ← p i; r.inspect f

/-- `|i| i.ret(t)` -/
def Parser.ret (t : T) : Parser σ I T E := fun i => pure (i.ret t)

/-- `|i| i.err(e)` -/
def Parser.err (e : E) : Parser σ I T E := fun i => pure (i.err e)

/-- `|i| i.from_result(r)` -/
def Parser.fromResult (r : Except E T) : Parser σ I T E := fun i => pure (i.fromResult r)

/-- `|i| { let a = g(); k(a)(i) }`: a user closure performing some effect on its captured state
before it goes on parsing. -/
def Parser.effect (g : M σ A) (k : A → Parser σ I T E) : Parser σ I T E :=
  fun i => do let a ← g; k a i

/-- `ParseError`, src/parse.rs:7-13. -/
inductive ParseError (I E : Type) where
  | error (b : List I) (e : E)
  | incomplete (n : Nat)
deriving DecidableEq, Repr

/-- `parse_only`, src/parse.rs:52-61. -/
def parseOnly (p : Parser σ I T E) (input : List I) : M σ (Except (ParseError I E) T) := do
  match ← p ⟨.endOfInput, input⟩ with
  | .data _ t => pure (.ok t)
  | .error b e => pure (.error (.error b e))
  | .incomplete n => pure (.error (.incomplete n))

end Chomp
