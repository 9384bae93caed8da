import Verif.Model.Std

/-
Two adaptors which `Source` inherits from `io::Read` (src/buffer/stateful.rs:170-190): `take` and `bytes`. As in
`Model/Std.lean`, their code is that of the standard library (src/libstd/io/mod.rs of the Rust distribution), not of
/repo, and simplified in the same way.
-/

namespace Chomp.Inherited

variable {S B I : Type} [DataSource S I] [Buffer B I]

/-- `Take<Source>::read` with a slice of length `k`. The limit comes first. -/
def takeRead (chk : Bool) (k : Nat) (x : Nat × Source S B) : Res (Except IoError (List I) × Nat × Source S B) := do
  let (limit, s) := x
  if limit == 0 then .ok (.ok [], limit, s)
  else
    match ← s.read chk (min k limit) with
    | (.error e, s) => .ok (.error e, limit, s)
    | (.ok xs, s) => .ok (.ok xs, limit - xs.length, s)

/-- One turn of the loop of `Read::read_to_end`, on `Take<Source>`. -/
def takeToEndStep (chk : Bool) (interrupted : IoError → Bool) (size : List I → Nat)
    (x : List I × Nat × Source S B) :
    M Unit ((List I × Nat × Source S B) ⊕ (Except IoError Nat × List I × Nat × Source S B)) := do
  let (buf, t) := x
  match ← M.lift (takeRead chk (size buf) t) with
  | (.error e, t) =>
    if interrupted e then pure (.inl (buf, t)) else pure (.inr (.error e, buf, t))
  | (.ok [], t) => pure (.inr (.ok buf.length, buf, t))
  | (.ok (x :: xs), t) => pure (.inl (buf ++ x :: xs, t))

/-- `s.take(limit).read_to_end(..)` with an empty vector. Returns the result, the vector, what is left of the limit,
and the source (`into_inner`). -/
def takeToEnd (chk : Bool) (interrupted : IoError → Bool) (size : List I → Nat) (limit : Nat) (s : Source S B) :
    M Unit (Except IoError Nat × List I × Nat × Source S B) :=
  loop (takeToEndStep chk interrupted size) ([], limit, s)

/-- One turn of the loop of `Read::bytes(..).collect::<Result<Vec<_>, _>>()`: each call of `next` reads with a slice
of length 1. Which errors make `next` try again depends on the version of the standard library; it is given by a
function. -/
def bytesStep (chk : Bool) (again : IoError → Bool) (x : List I × Source S B) :
    M Unit ((List I × Source S B) ⊕ (Except IoError (List I) × Source S B)) := do
  let (buf, s) := x
  match ← M.lift (s.read chk 1) with
  | (.error e, s) => if again e then pure (.inl (buf, s)) else pure (.inr (.error e, s))
  | (.ok [], s) => pure (.inr (.ok buf, s))
  | (.ok (x :: _), s) => pure (.inl (buf ++ [x], s))

/-- `s.bytes().collect::<Result<Vec<_>, _>>()`. -/
def bytes (chk : Bool) (again : IoError → Bool) (s : Source S B) :
    M Unit (Except IoError (List I) × Source S B) :=
  loop (bytesStep chk again) ([], s)

end Chomp.Inherited
