import Verif.Model.Parsers

/-
The parsers of /repo/src/parsers.rs which take closures, or compare items, and two functions of
/repo/src/parse_result.rs once more, with closures and
comparisons which may have effects, panic or not return. Verif/Model/Parsers.lean has the same functions
for pure closures; C72 shows that they agree there.
-/

namespace Chomp.Closures

variable [Build]

/-- `Iterator::position` of the standard library on a slice iterator. -/
def position (f : I → M σ Bool) : List I → M σ (Option Nat)
  | [] => pure none
  | c :: cs => do
    if ← f c then pure (some 0)
    else do
      let r ← position f cs
      pure (r.map (· + 1))

/-- `satisfy`, src/parsers.rs:45-54. -/
def satisfy (v : Bool) (f : I → M σ Bool) : Parser σ I I (Error I) := fun i =>
  match i.buf with
  | [] => pure (i.incomplete 1)
  | c :: _ => do
    if ← f c then do
      let r ← sliceFrom i.buf 1
      pure ((i.replace r).ret c)
    else pure (i.err (Err.unexpected v))

/-- `satisfy_with`, src/parsers.rs:71-88. Cloning has no effects here; with any `Clone` see Verif/Model/Clone.lean. -/
def satisfyWith (v : Bool) (f : I → M σ T) (p : T → M σ Bool) : Parser σ I T (Error I) := fun i =>
  match i.buf with
  | n :: _ => do
    let t ← f n
    if ← p t then do
      let r ← sliceFrom i.buf 1
      pure ((i.replace r).ret t)
    else pure (i.err (Err.unexpected v))
  | [] => pure (i.incomplete 1)

/-- `token`, src/parsers.rs:100-108; `eq` is `PartialEq::eq`. -/
def token (eq : I → I → M σ Bool) (v : Bool) (t : I) : Parser σ I I (Error I) := fun i =>
  match i.buf with
  | [] => pure (i.incomplete 1)
  | c :: _ => do
    if ← eq t c then do
      let r ← sliceFrom i.buf 1
      pure ((i.replace r).ret c)
    else pure (i.err (Err.expected v t))

/-- `not_token`, src/parsers.rs:120-128; `ne` is `PartialEq::ne`. -/
def notToken (ne : I → I → M σ Bool) (v : Bool) (t : I) : Parser σ I I (Error I) := fun i =>
  match i.buf with
  | [] => pure (i.incomplete 1)
  | c :: _ => do
    if ← ne t c then do
      let r ← sliceFrom i.buf 1
      pure ((i.replace r).ret c)
    else pure (i.err (Err.unexpected v))

/-- `take_while`, src/parsers.rs:209-226. -/
def takeWhile (f : I → M σ Bool) : Parser σ I (List I) (Error I) := fun i => do
  let b := i.buf
  match ← position (fun c => do let a ← f c; pure (a == false)) b with
  | some n =>
    let r ← sliceFrom b n
    let m ← sliceTo b n
    pure ((i.replace r).ret m)
  | none =>
    if i.isLastSlice then
      let z ← sliceTo b 0
      pure ((i.replace z).ret b)
    else
      pure (i.incomplete 1)

/-- `take_while1`, src/parsers.rs:242-260. -/
def takeWhile1 (v : Bool) (f : I → M σ Bool) : Parser σ I (List I) (Error I) := fun i => do
  let b := i.buf
  match ← position (fun c => do let a ← f c; pure (a == false)) b with
  | some 0 => pure (i.err (Err.unexpected v))
  | some n =>
    let r ← sliceFrom b n
    let m ← sliceTo b n
    pure ((i.replace r).ret m)
  | none =>
    if b.length > 0 && i.isLastSlice then
      let z ← sliceTo b 0
      pure ((i.replace z).ret b)
    else
      pure (i.incomplete 1)

/-- `take_till`, src/parsers.rs:276-286. -/
def takeTill (f : I → M σ Bool) : Parser σ I (List I) (Error I) := fun i => do
  let b := i.buf
  match ← position f b with
  | some n =>
    let r ← sliceFrom b n
    let m ← sliceTo b n
    pure ((i.replace r).ret m)
  | none => pure (i.incomplete 1)

/-- The `position` call of `scan`, src/parsers.rs:308: the closure takes the state out of an
`Option`, unwraps it (panicking on `None`), runs `f` and stores the result. -/
def scanPosition (f : S → I → M σ (Option S)) : Option S → List I → M σ (Option Nat)
  | _, [] => pure none
  | none, _ :: _ => M.panic
  | some s, c :: cs => do
    let state ← f s c
    if state.isNone then pure (some 0)
    else do
      let r ← scanPosition f state cs
      pure (r.map (· + 1))

/-- `scan`, src/parsers.rs:303-314. -/
def scan (s : S) (f : S → I → M σ (Option S)) : Parser σ I (List I) (Error I) := fun i => do
  let b := i.buf
  match ← scanPosition f (some s) b with
  | some n =>
    let r ← sliceFrom b n
    let m ← sliceTo b n
    pure ((i.replace r).ret m)
  | none => pure (i.incomplete 1)

/-- The `position` call of `run_scanner`, src/parsers.rs:335, returning the position and the value
of the captured variable `state` afterwards. -/
def runScannerPosition (f : S → I → M σ (Option S)) : S → List I → M σ (Option Nat × S)
  | s, [] => pure (none, s)
  | s, c :: cs => do
    match ← f s c with
    | none => pure (some 0, s)
    | some v =>
      let r ← runScannerPosition f v cs
      pure (r.1.map (· + 1), r.2)

/-- `run_scanner`, src/parsers.rs:330-341. -/
def runScanner (s : S) (f : S → I → M σ (Option S)) : Parser σ I (List I × S) (Error I) := fun i => do
  let b := i.buf
  match ← runScannerPosition f s b with
  | (some n, state) =>
    let r ← sliceFrom b n
    let m ← sliceTo b n
    pure ((i.replace r).ret (m, state))
  | (none, _) => pure (i.incomplete 1)

/-- The `for j in 0..s.len()` loop of `string`, src/parsers.rs:381-385: the first index at which
`s` and `d` differ. -/
def mismatch (ne : I → I → M σ Bool) : List I → List I → M σ (Option Nat)
  | a :: s, c :: d => do
    if ← ne a c then pure (some 0)
    else do
      let r ← mismatch ne s d
      pure (r.map (· + 1))
  | _, _ => pure none

/-- `string`, src/parsers.rs:371-388. -/
def string (ne : I → I → M σ Bool) (v : Bool) (s : List I) : Parser σ I (List I) (Error I) :=
    fun i => do
  let b := i.buf
  if s.length > b.length then
    let n ← M.lift (usub s.length b.length)
    pure (i.incomplete n)
  else
    let d ← sliceTo b s.length
    match ← mismatch ne s d with
    | some j => Err.string v i j s
    | none =>
      let r ← sliceFrom b s.length
      pure ((i.replace r).ret d)

/-- `p(i).map(f)`, src/parse_result.rs:197-204. -/
def map (p : Parser σ I T E) (f : T → M σ U) : Parser σ I U E := fun i => do
  let r ← p i
  r.map f

/-- `p(i).map_err(f)`, src/parse_result.rs:220-227. -/
def mapErr (p : Parser σ I T E) (f : E → M σ V) : Parser σ I T V := fun i => do
  let r ← p i
  r.mapErr f

end Chomp.Closures
