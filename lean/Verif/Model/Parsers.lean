import Verif.Model.Basic

/-
Model of /repo/src/parsers.rs. Predicates handed to the parsers are pure functions here (a
simplification: in Rust they may have side effects, panic or not return; that is in
Verif/Model/Closures.lean).
-/

namespace Chomp

/-- `Error<I>`, src/parsers.rs:417-424 (feature `verbose_error`: the first three) and 497 (without
the feature: a unit struct, here `generic`). -/
inductive Error (I : Type) where
  | expected (i : I)
  | unexpected
  | string (s : List I)
  | generic
deriving DecidableEq, Repr

namespace Err

/-- `err::unexpected`, src/parsers.rs:471-473 and 537-539. `v` tells whether the crate is compiled
with `verbose_error`. -/
def unexpected (v : Bool) : Error I := if v then .unexpected else .generic

/-- `err::expected`, src/parsers.rs:476-478 and 542-544. -/
def expected (v : Bool) (t : I) : Error I := if v then .expected t else .generic

/-- `err::string`, src/parsers.rs:482-486 (verbose: at the original position) and 547-555
(otherwise: at `&b[offset..]`). -/
def string (v : Bool) (i : Input I) (offset : Nat) (expected : List I) :
    M σ (ParseResult I T (Error I)) :=
  if v then
    pure (i.err (.string expected))
  else do
    let b ← sliceFrom i.buf offset
    pure ((i.replace b).err .generic)

/-- `Error::new`, src/parsers.rs:431-433 and 504-506. -/
def new (v : Bool) : Error I := if v then .unexpected else .generic

end Err

namespace Parsers

variable [Build]

/-- `Iterator::position` of the standard library on a slice iterator. -/
def position (f : I → Bool) : List I → Option Nat
  | [] => none
  | c :: cs => if f c then some 0 else (position f cs).map (· + 1)

/-- `any`, src/parsers.rs:25-32. -/
def any : Parser σ I I (Error I) := fun i =>
  match i.buf with
  | [] => pure (i.incomplete 1)
  | c :: _ => do
    let r ← sliceFrom i.buf 1
    pure ((i.replace r).ret c)

/-- `satisfy`, src/parsers.rs:45-54. -/
def satisfy (v : Bool) (f : I → Bool) : Parser σ I I (Error I) := fun i =>
  match i.buf with
  | [] => pure (i.incomplete 1)
  | c :: _ =>
    if f c then do
      let r ← sliceFrom i.buf 1
      pure ((i.replace r).ret c)
    else pure (i.err (Err.unexpected v))

/-- `satisfy_with`, src/parsers.rs:71-88. -/
def satisfyWith (v : Bool) (f : I → T) (p : T → Bool) : Parser σ I T (Error I) := fun i =>
  match i.buf with
  | n :: _ =>
    let t := f n
    if p t then do
      let r ← sliceFrom i.buf 1
      pure ((i.replace r).ret t)
    else pure (i.err (Err.unexpected v))
  | [] => pure (i.incomplete 1)

/-- `token`, src/parsers.rs:100-108. -/
def token [DecidableEq I] (v : Bool) (t : I) : Parser σ I I (Error I) := fun i =>
  match i.buf with
  | [] => pure (i.incomplete 1)
  | c :: _ =>
    if t = c then do
      let r ← sliceFrom i.buf 1
      pure ((i.replace r).ret c)
    else pure (i.err (Err.expected v t))

/-- `not_token`, src/parsers.rs:120-128. -/
def notToken [DecidableEq I] (v : Bool) (t : I) : Parser σ I I (Error I) := fun i =>
  match i.buf with
  | [] => pure (i.incomplete 1)
  | c :: _ =>
    if t ≠ c then do
      let r ← sliceFrom i.buf 1
      pure ((i.replace r).ret c)
    else pure (i.err (Err.unexpected v))

/-- `peek`, src/parsers.rs:143-147. -/
def peek : Parser σ I (Option I) (Error I) := fun i =>
  pure (i.ret i.buf.head?)

/-- `peek_next`, src/parsers.rs:159-164. -/
def peekNext : Parser σ I I (Error I) := fun i =>
  match i.buf.head? with
  | none => pure (i.incomplete 1)
  | some c => pure (i.ret c)

/-- `take`, src/parsers.rs:176-184. -/
def take (num : Nat) : Parser σ I (List I) (Error I) := fun i => do
  let b := i.buf
  if num ≤ b.length then
    let r ← sliceFrom b num
    let m ← sliceTo b num
    pure ((i.replace r).ret m)
  else
    let n ← M.lift (usub num b.length)
    pure (i.incomplete n)

/-- `take_while`, src/parsers.rs:209-226. -/
def takeWhile (f : I → Bool) : Parser σ I (List I) (Error I) := fun i => do
  let b := i.buf
  match position (fun c => f c == false) b with
  | some n =>
    let r ← sliceFrom b n
    let m ← sliceTo b n
    pure ((i.replace r).ret m)
  | none =>
    if i.isLastSlice then
      let z ← sliceTo b 0
      pure ((i.replace z).ret b)
    else
      pure (i.incomplete 1)

/-- `take_while1`, src/parsers.rs:242-260. -/
def takeWhile1 (v : Bool) (f : I → Bool) : Parser σ I (List I) (Error I) := fun i => do
  let b := i.buf
  match position (fun c => f c == false) b with
  | some 0 => pure (i.err (Err.unexpected v))
  | some n =>
    let r ← sliceFrom b n
    let m ← sliceTo b n
    pure ((i.replace r).ret m)
  | none =>
    if b.length > 0 && i.isLastSlice then
      let z ← sliceTo b 0
      pure ((i.replace z).ret b)
    else
      pure (i.incomplete 1)

/-- `take_till`, src/parsers.rs:276-286. -/
def takeTill (f : I → Bool) : Parser σ I (List I) (Error I) := fun i => do
  let b := i.buf
  match position f b with
  | some n =>
    let r ← sliceFrom b n
    let m ← sliceTo b n
    pure ((i.replace r).ret m)
  | none => pure (i.incomplete 1)

/-- The `position` call of `scan`, src/parsers.rs:308: the closure takes the state out of an
`Option`, unwraps it (panicking on `None`), runs `f` and stores the result. -/
def scanPosition (f : S → I → Option S) : Option S → List I → M σ (Option Nat)
  | _, [] => pure none
  | none, _ :: _ => M.panic
  | some s, c :: cs =>
    let state := f s c
    if state.isNone then pure (some 0)
    else do
      let r ← scanPosition f state cs
      pure (r.map (· + 1))

/-- `scan`, src/parsers.rs:303-314. -/
def scan (s : S) (f : S → I → Option S) : Parser σ I (List I) (Error I) := fun i => do
  let b := i.buf
  match ← scanPosition f (some s) b with
  | some n =>
    let r ← sliceFrom b n
    let m ← sliceTo b n
    pure ((i.replace r).ret m)
  | none => pure (i.incomplete 1)

/-- The `position` call of `run_scanner`, src/parsers.rs:335, returning the position and the value
of the captured variable `state` afterwards. -/
def runScannerPosition (f : S → I → Option S) : S → List I → Option Nat × S
  | s, [] => (none, s)
  | s, c :: cs =>
    match f s c with
    | none => (some 0, s)
    | some v =>
      let r := runScannerPosition f v cs
      (r.1.map (· + 1), r.2)

/-- `run_scanner`, src/parsers.rs:330-341. -/
def runScanner (s : S) (f : S → I → Option S) : Parser σ I (List I × S) (Error I) := fun i => do
  let b := i.buf
  match runScannerPosition f s b with
  | (some n, state) =>
    let r ← sliceFrom b n
    let m ← sliceTo b n
    pure ((i.replace r).ret (m, state))
  | (none, _) => pure (i.incomplete 1)

/-- `take_remainder`, src/parsers.rs:351-358. -/
def takeRemainder : Parser σ I (List I) (Error I) := fun i => do
  let b := i.buf
  let z ← sliceTo b 0
  pure ((i.replace z).ret b)

/-- The `for j in 0..s.len()` loop of `string`, src/parsers.rs:381-385: the first index at which
`s` and `d` differ. -/
def mismatch [DecidableEq I] : List I → List I → Option Nat
  | a :: s, c :: d => if a ≠ c then some 0 else (mismatch s d).map (· + 1)
  | _, _ => none

/-- `string`, src/parsers.rs:371-388. -/
def string [DecidableEq I] (v : Bool) (s : List I) : Parser σ I (List I) (Error I) := fun i => do
  let b := i.buf
  if s.length > b.length then
    let n ← M.lift (usub s.length b.length)
    pure (i.incomplete n)
  else
    let d ← sliceTo b s.length
    match mismatch s d with
    | some j => Err.string v i j s
    | none =>
      let r ← sliceFrom b s.length
      pure ((i.replace r).ret d)

/-- `eof`, src/parsers.rs:400-406. -/
def eof (v : Bool) : Parser σ I Unit (Error I) := fun i =>
  if i.buf.length == 0 && i.isLastSlice then
    pure (i.ret ())
  else
    pure (i.err (Err.unexpected v))

end Parsers

end Chomp
