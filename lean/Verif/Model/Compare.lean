import Verif.Model.Stream
import Verif.Model.Parsers

/-
The derived comparisons: `PartialEq`, `PartialOrd`, `Ord` and `Hash` of `Error`, `Input`, `State` and `ParseResult`. `derive` compares the variants first, in the order in which they
are written down, and then field by field.
-/

namespace Chomp.Compare

/-- `Ord` for slices and `Vec`, of the standard library: lexicographic. -/
def slice (ci : I → I → Ordering) : List I → List I → Ordering
  | [], [] => .eq
  | [], _ :: _ => .lt
  | _ :: _, [] => .gt
  | c :: s, d :: t => (ci c d).then (slice ci s t)

/-- `Ord` for unsigned integers. -/
def number (m n : Nat) : Ordering := compare m n

/-- The bits of `InputMode`, src/input.rs:4-11. `bitflags` derives the comparisons from those of the bits. -/
def bits : Mode → Nat
  | .default => 0
  | .endOfInput => 1

/-- `Ord` for `Input`, derived at src/input.rs:77. -/
def input (ci : I → I → Ordering) (i j : Input I) : Ordering :=
  (number (bits i.mode) (bits j.mode)).then (slice ci i.buf j.buf)

/-- `Ord` for `State` and `ParseResult`, derived at src/parse_result.rs:17 and 82. -/
def result (ci : I → I → Ordering) (ct : T → T → Ordering) (ce : E → E → Ordering) :
    ParseResult I T E → ParseResult I T E → Ordering
  | .data i t, .data j u => (input ci i j).then (ct t u)
  | .data _ _, _ => .lt
  | .error _ _, .data _ _ => .gt
  | .error b e, .error c f => (slice ci b c).then (ce e f)
  | .error _ _, .incomplete _ => .lt
  | .incomplete m, .incomplete n => number m n
  | .incomplete _, _ => .gt

/-- The number of the variant of `Error`, src/parsers.rs:417-424. In a build there are the first three or the
last one. -/
def index : Error I → Nat
  | .expected _ => 0
  | .unexpected => 1
  | .string _ => 2
  | .generic => 3

/-- `Ord` for `Error`, derived at src/parsers.rs:416 and 496. -/
def error (ci : I → I → Ordering) : Error I → Error I → Ordering
  | .expected c, .expected d => ci c d
  | .string s, .string t => slice ci s t
  | e, f => number (index e) (index f)

/-- How `derive(PartialOrd)` goes on to the next field. -/
def next (o p : Option Ordering) : Option Ordering := if o = some .eq then p else o

/-- `PartialOrd` for slices and `Vec`, of the standard library. -/
def slicePartial (ci : I → I → Option Ordering) : List I → List I → Option Ordering
  | [], [] => some .eq
  | [], _ :: _ => some .lt
  | _ :: _, [] => some .gt
  | c :: s, d :: t => next (ci c d) (slicePartial ci s t)

/-- `PartialOrd` for `Input`, derived at src/input.rs:77. -/
def inputPartial (ci : I → I → Option Ordering) (i j : Input I) : Option Ordering :=
  next (some (number (bits i.mode) (bits j.mode))) (slicePartial ci i.buf j.buf)

/-- `PartialOrd` for `State` and `ParseResult`, derived at src/parse_result.rs:17 and 82. -/
def resultPartial (ci : I → I → Option Ordering) (ct : T → T → Option Ordering) (ce : E → E → Option Ordering) :
    ParseResult I T E → ParseResult I T E → Option Ordering
  | .data i t, .data j u => next (inputPartial ci i j) (ct t u)
  | .data _ _, _ => some .lt
  | .error _ _, .data _ _ => some .gt
  | .error b e, .error c f => next (slicePartial ci b c) (ce e f)
  | .error _ _, .incomplete _ => some .lt
  | .incomplete m, .incomplete n => some (number m n)
  | .incomplete _, _ => some .gt

/-- `PartialOrd` for `Error`, derived at src/parsers.rs:416 and 496. -/
def errorPartial (ci : I → I → Option Ordering) : Error I → Error I → Option Ordering
  | .expected c, .expected d => ci c d
  | .string s, .string t => slicePartial ci s t
  | e, f => some (number (index e) (index f))

/-- `PartialEq` for slices, of the standard library. -/
def sliceEq (eq : I → I → Bool) : List I → List I → Bool
  | [], [] => true
  | c :: s, d :: t => eq c d && sliceEq eq s t
  | _, _ => false

/-- `PartialEq` for `Input`, derived at src/input.rs:77. -/
def inputEq (eq : I → I → Bool) (i j : Input I) : Bool := bits i.mode == bits j.mode && sliceEq eq i.buf j.buf

/-- `PartialEq` for `State` and `ParseResult`, derived at src/parse_result.rs:17 and 82. -/
def resultEq (eq : I → I → Bool) (eqt : T → T → Bool) (eqe : E → E → Bool) :
    ParseResult I T E → ParseResult I T E → Bool
  | .data i t, .data j u => inputEq eq i j && eqt t u
  | .error b e, .error c f => sliceEq eq b c && eqe e f
  | .incomplete m, .incomplete n => m == n
  | _, _ => false

/-- `PartialEq` for `Error`, derived at src/parsers.rs:416 and 496. -/
def errorEq (eq : I → I → Bool) : Error I → Error I → Bool
  | .expected c, .expected d => eq c d
  | .unexpected, .unexpected => true
  | .string s, .string t => sliceEq eq s t
  | .generic, .generic => true
  | _, _ => false

/-- `PartialEq` for `ParseError`, derived at src/parse.rs:6. -/
def parseErrorEq (eq : I → I → Bool) (eqe : E → E → Bool) : ParseError I E → ParseError I E → Bool
  | .error b e, .error c f => sliceEq eq b c && eqe e f
  | .incomplete m, .incomplete n => m == n
  | _, _ => false

/-- What `Hash` writes to a hasher. -/
abbrev Feed := List Nat

/-- `Hash` for slices and `Vec`, of the standard library: the length, then the items. -/
def sliceHash (h : I → Feed) (s : List I) : Feed := s.length :: s.flatMap h

/-- `Hash` for `Input`, derived at src/input.rs:77. -/
def inputHash (h : I → Feed) (i : Input I) : Feed := bits i.mode :: sliceHash h i.buf

/-- `Hash` for `State` and `ParseResult`, derived at src/parse_result.rs:17 and 82: the number of the variant,
then the fields. -/
def resultHash (h : I → Feed) (ht : T → Feed) (he : E → Feed) : ParseResult I T E → Feed
  | .data i t => 0 :: (inputHash h i ++ ht t)
  | .error b e => 1 :: (sliceHash h b ++ he e)
  | .incomplete n => [2, n]

/-- `Hash` for `Error`, derived at src/parsers.rs:416 and 496 (a structure with one empty field writes
nothing). -/
def errorHash (h : I → Feed) : Error I → Feed
  | .expected c => 0 :: h c
  | .unexpected => [1]
  | .string s => 2 :: sliceHash h s
  | .generic => []

end Chomp.Compare
