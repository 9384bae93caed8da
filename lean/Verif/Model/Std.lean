import Verif.Model.Stream

/-
The methods which `Source` inherits from `io::Read` and `io::BufRead`: /repo/src/buffer/stateful.rs
lines 170-199 define `read`, `fill_buf` and `consume`, and the provided methods of the two traits are
built on them. The code modelled here is that of the standard library (src/libstd/io/mod.rs of the Rust
distribution), not of /repo; it is needed to say what users of these traits get.

Simplified: the type of items is not restricted to bytes, which of the errors are of the kind
`Interrupted` is given by a function, and numbers of items are not bounded (they are lengths of vectors,
so they do not overflow).
-/

namespace Chomp.Inherited

variable {S B I : Type} [DataSource S I] [Buffer B I]

/-- One turn of the loop of `BufRead::read_until`. The loop variables are the vector, the number of
items read and the source. -/
def readUntilStep [DecidableEq I] (chk : Bool) (interrupted : IoError → Bool) (delim : I)
    (x : List I × Nat × Source S B) :
    M Unit ((List I × Nat × Source S B) ⊕ (Except IoError Nat × List I × Source S B)) := do
  let (buf, read, s) := x
  match ← M.lift (s.fillBuf chk) with
  | (.error e, s) =>
    if interrupted e then pure (.inl (buf, read, s)) else pure (.inr (.error e, buf, s))
  | (.ok available, s) =>
    match available.findIdx? (· == delim) with
    | some i => do
      let s ← M.lift (s.consume chk (i + 1))
      pure (.inr (.ok (read + (i + 1)), buf ++ available.take (i + 1), s))
    | none => do
      let s ← M.lift (s.consume chk available.length)
      if available.length == 0 then pure (.inr (.ok read, buf, s))
      else pure (.inl (buf ++ available, read + available.length, s))

/-- `BufRead::read_until`. Returns the result, the vector and the source. -/
def readUntil [DecidableEq I] (chk : Bool) (interrupted : IoError → Bool) (delim : I) (buf : List I)
    (s : Source S B) : M Unit (Except IoError Nat × List I × Source S B) :=
  loop (readUntilStep chk interrupted delim) (buf, 0, s)

/-- One turn of the loop of `BufRead::split(..).collect::<Result<Vec<_>, _>>()`: the next piece is read
into a new vector, and the delimiter removed from its end. -/
def splitStep [DecidableEq I] (chk : Bool) (interrupted : IoError → Bool) (delim : I)
    (x : List (List I) × Source S B) :
    M Unit ((List (List I) × Source S B) ⊕ (Except IoError (List (List I)) × Source S B)) := do
  let (pieces, s) := x
  match ← readUntil chk interrupted delim [] s with
  | (.error e, _, s) => pure (.inr (.error e, s))
  | (.ok 0, _, s) => pure (.inr (.ok pieces, s))
  | (.ok _, buf, s) =>
    if buf.getLast? = some delim then pure (.inl (pieces ++ [buf.dropLast], s))
    else pure (.inl (pieces ++ [buf], s))

/-- `s.split(delim).collect::<Result<Vec<_>, _>>()`. -/
def split [DecidableEq I] (chk : Bool) (interrupted : IoError → Bool) (delim : I) (s : Source S B) :
    M Unit (Except IoError (List (List I)) × Source S B) :=
  loop (splitStep chk interrupted delim) ([], s)

/-- One turn of the loop of `Read::read_exact`. The loop variables are what has been stored, the number
of items still missing and the source. `eof` is the error for an early end (`UnexpectedEof`). -/
def readExactStep (chk : Bool) (interrupted : IoError → Bool) (eof : IoError)
    (x : List I × Nat × Source S B) :
    M Unit ((List I × Nat × Source S B) ⊕ (Except IoError Unit × List I × Source S B)) := do
  let (buf, missing, s) := x
  if missing == 0 then pure (.inr (.ok (), buf, s))
  else
    match ← M.lift (s.read chk missing) with
    | (.error e, s) =>
      if interrupted e then pure (.inl (buf, missing, s)) else pure (.inr (.error e, buf, s))
    | (.ok [], s) => pure (.inr (.error eof, buf, s))
    | (.ok (x :: xs), s) => pure (.inl (buf ++ x :: xs, missing - (xs.length + 1), s))

/-- `Read::read_exact` with a slice of length `n`. Returns the result, the items stored and the
source. -/
def readExact (chk : Bool) (interrupted : IoError → Bool) (eof : IoError) (n : Nat) (s : Source S B) :
    M Unit (Except IoError Unit × List I × Source S B) :=
  loop (readExactStep chk interrupted eof) ([], n, s)

/-- One turn of the loop of `Read::read_to_end`. The length of the slice offered depends on the version
of the standard library; it is given by a function of what has been read. -/
def readToEndStep (chk : Bool) (interrupted : IoError → Bool) (size : List I → Nat)
    (x : List I × Source S B) :
    M Unit ((List I × Source S B) ⊕ (Except IoError Nat × List I × Source S B)) := do
  let (buf, s) := x
  match ← M.lift (s.read chk (size buf)) with
  | (.error e, s) =>
    if interrupted e then pure (.inl (buf, s)) else pure (.inr (.error e, buf, s))
  | (.ok [], s) => pure (.inr (.ok buf.length, buf, s))
  | (.ok (x :: xs), s) => pure (.inl (buf ++ x :: xs, s))

/-- `Read::read_to_end` with an empty vector. Returns the result, the vector and the source. -/
def readToEnd (chk : Bool) (interrupted : IoError → Bool) (size : List I → Nat) (s : Source S B) :
    M Unit (Except IoError Nat × List I × Source S B) :=
  loop (readToEndStep chk interrupted size) ([], s)

end Chomp.Inherited
