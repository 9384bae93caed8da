import Verif.Model.Std

/-
`BufRead::read_line` and `Read::read_to_string`, which `Source` inherits (src/buffer/stateful.rs:170-199). As in
`Model/Std.lean`, their code is that of the standard library (src/libstd/io/mod.rs of the Rust distribution), not of
/repo, and simplified in the same way. A `String` is the list of its bytes, and `valid` is the check for UTF-8.
-/

namespace Chomp.Inherited

variable {S B I : Type} [DataSource S I] [Buffer B I]

/-- The end of `append_to_string`: if what `f` has appended to the string `str` is not valid, it is removed again, and
this is reported (`InvalidData`) unless `f` has failed. -/
def checkText (valid : List I → Bool) (invalid : IoError) (str : List I)
    (x : Except IoError Nat × List I × Source S B) : Except IoError Nat × List I × Source S B :=
  let (r, buf, s) := x
  if valid (buf.drop str.length) then (r, buf, s)
  else
    match r with
    | .ok _ => (.error invalid, str, s)
    | .error e => (.error e, str, s)

/-- `BufRead::read_line`. Returns the result, the string and the source. -/
def readLine [DecidableEq I] (chk : Bool) (interrupted : IoError → Bool) (valid : List I → Bool) (invalid : IoError)
    (newline : I) (str : List I) (s : Source S B) : M Unit (Except IoError Nat × List I × Source S B) := do
  let x ← readUntil chk interrupted newline str s
  pure (checkText valid invalid str x)

/-- `Read::read_to_string` with an empty string. Returns the result, the string and the source. -/
def readToString (chk : Bool) (interrupted : IoError → Bool) (valid : List I → Bool) (invalid : IoError)
    (size : List I → Nat) (s : Source S B) : M Unit (Except IoError Nat × List I × Source S B) := do
  let x ← readToEnd chk interrupted size s
  pure (checkText valid invalid [] x)

end Chomp.Inherited
