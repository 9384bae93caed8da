import Verif.Tests.Run
import Verif.Model.Ascii
import Verif.Model.Closures

/-
The tests in /repo/src/input.rs, parse_result.rs, parse.rs and ascii.rs and those of parsers.rs and
combinators/mod.rs which tools/tests.py does not understand, transcribed by hand. Counters and other
captured variables are the state.
-/

namespace Chomp.Tests.ByHand

open Chomp.Spec

/-! src/input.rs: `make_ret`, `make_err`, `make_incomplete`, `last_slice` -/

example : Input.ret (E := Unit) ⟨.endOfInput, bytes "in1"⟩ 23 = .data ⟨.endOfInput, bytes "in1"⟩ 23 := rfl
example : Input.ret (E := Unit) ⟨.default, bytes "in2"⟩ 23 = .data ⟨.default, bytes "in2"⟩ 23 := rfl
example : Input.err (T := Unit) ⟨.endOfInput, bytes "in1"⟩ 23 = .error (bytes "in1") 23 := rfl
example : Input.err (T := Unit) ⟨.default, bytes "in2"⟩ 23 = .error (bytes "in2") 23 := rfl
example : Input.incomplete (T := Unit) (E := Nat) ⟨.endOfInput, bytes "in1"⟩ 23 = .incomplete 23 := rfl
example : Input.incomplete (T := Unit) (E := Nat) ⟨.default, bytes "in2"⟩ 23 = .incomplete 23 := rfl
example : Input.isLastSlice ⟨.endOfInput, bytes "foo"⟩ = true := rfl

/-! src/parse_result.rs: `monad_left_identity`, `monad_right_identity`, `monad_associativity` -/

def f (i : Input I) (n : Nat) : M σ (ParseResult I Nat Unit) := pure (i.ret (n + 1))

def g (i : Input I) (n : Nat) : M σ (ParseResult I Nat Unit) := pure (i.ret (n * 2))

example : ((Input.ret ⟨.endOfInput, bytes "test"⟩ 123).bind id f) () =
    .ok (.data ⟨.endOfInput, bytes "test"⟩ 124, ()) := rfl
example : f ⟨.endOfInput, bytes "test"⟩ 123 () = .ok (.data ⟨.endOfInput, bytes "test"⟩ 124, ()) := rfl

example : ((Input.ret (E := Unit) ⟨.endOfInput, bytes "test"⟩ 1).bind id (fun i t => pure (i.ret t)) :
    M Unit (ParseResult UInt8 Nat Unit)) () = .ok (.data ⟨.endOfInput, bytes "test"⟩ 1, ()) := rfl
example : Input.ret (E := Unit) ⟨.endOfInput, bytes "test"⟩ 1 = .data ⟨.endOfInput, bytes "test"⟩ 1 := rfl

example : (do let r ← (Input.ret ⟨.endOfInput, bytes "test"⟩ 2).bind id f; r.bind id g) () =
    .ok (.data ⟨.endOfInput, bytes "test"⟩ 6, ()) := rfl
example : ((Input.ret ⟨.endOfInput, bytes "test"⟩ 2).bind id
    (fun i x => do let r ← f i x; r.bind id g)) () =
    .ok (.data ⟨.endOfInput, bytes "test"⟩ 6, ()) := rfl

/-! `parse_result_inspect`. The closure asserts what it is given and counts. -/

def see (d : Nat) : M Nat Unit := if d == 23 then modify (· + 1) else M.panic

example : (Input.ret (E := Unit) ⟨.default, bytes "test "⟩ 23).inspect see 0 =
    .ok (.data ⟨.default, bytes "test "⟩ 23, 1) := rfl
example : (Input.ret (E := Unit) ⟨.endOfInput, bytes "test "⟩ 23).inspect see 0 =
    .ok (.data ⟨.endOfInput, bytes "test "⟩ 23, 1) := rfl

/-! `input_propagation`, `error_propagation`, `incomplete_propagation` -/

def count (i : Input UInt8) (t : T) : M Nat (ParseResult UInt8 T E) := do
  modify (· + 1)
  pure (i.ret t)

example : ((Input.ret (E := Unit) ⟨.default, bytes "test1"⟩ 23).bind id count) 0 =
    .ok (.data ⟨.default, bytes "test1"⟩ 23, 1) := rfl
example : ((Input.ret (E := Unit) ⟨.endOfInput, bytes "test2"⟩ 24).bind id count) 0 =
    .ok (.data ⟨.endOfInput, bytes "test2"⟩ 24, 1) := rfl
example : ((Input.err (T := Unit) ⟨.default, bytes "test1"⟩ 23).bind id count) 0 =
    .ok (.error (bytes "test1") 23, 0) := rfl
example : ((Input.err (T := Unit) ⟨.endOfInput, bytes "test2"⟩ 24).bind id count) 0 =
    .ok (.error (bytes "test2") 24, 0) := rfl
example : ((Input.incomplete (T := Unit) (E := Unit) ⟨.default, bytes "test1"⟩ 23).bind id count) 0 =
    .ok (.incomplete 23, 0) := rfl
example : ((Input.incomplete (T := Unit) (E := Unit) ⟨.endOfInput, bytes "test2"⟩ 24).bind id count) 0 =
    .ok (.incomplete 24, 0) := rfl

/-! src/parse.rs: `inspect_input`, `err`, `incomplete` -/

def inspectInput : Parser (Option Bool × Option (List UInt8)) UInt8 String Unit := fun i => do
  set (some i.isLastSlice, some i.buf)
  pure (i.ret "the result")

example : parseOnly inspectInput (bytes "the input") (none, none) =
    .ok (.ok "the result", (some true, some (bytes "the input"))) := rfl

example : parseOnly (σ := Unit) (T := Unit) (fun i => do
      let b ← sliceFrom i.buf 4
      pure ((i.replace b).err "my error")) (bytes "the input") () =
    .ok (.error (.error (bytes "input") "my error"), ()) := rfl

example : parseOnly (σ := Unit) (T := Unit) (E := Unit) (fun i => pure (i.incomplete 23)) (bytes "the input") () =
    .ok (.error (.incomplete 23), ()) := rfl

/-! src/ascii.rs: `test_to_decimal_u8` -/

/-- The cases of `test_to_decimal!`. -/
def cases : List (List UInt8 × Int) :=
  [(bytes "", 0), (bytes "0", 0), (bytes "1", 1), (bytes "2", 2), (bytes "10", 10), (bytes "20", 20),
    (bytes "25", 25)]

/-- The types it is used with. -/
def types (checked : Bool) : List Ascii.IntTy :=
  [⟨8, false, checked⟩, ⟨16, false, checked⟩, ⟨32, false, checked⟩, ⟨64, false, checked⟩,
    ⟨16, true, checked⟩, ⟨32, true, checked⟩, ⟨64, true, checked⟩]

example : ∀ checked, ∀ t ∈ types checked, ∀ c ∈ cases, Ascii.toDecimal t.num c.1 = .ok c.2 := by decide

/-! src/parsers.rs: `parse_decimal` -/

/-- `a * 10 + (b - b'0') as usize`; none of the cases overflows. -/
def decimal (v : Bool) : Parser σ UInt8 Nat (Error UInt8) :=
  (Parsers.takeWhile1 v fun c => c ≥ 48 && c ≤ 57).bind id fun bs =>
    Parser.ret (bs.foldl (fun a b => a * 10 + (b - 48).toNat) 0)

example (v : Bool) :
    Parser.bind (σ := Unit) id
      ((decimal v).bind id fun real => (Parsers.token v (byte '.')).bind id fun _ =>
        (decimal v).bind id fun frac => Parser.ret (real, frac))
      (fun num => Parsers.takeRemainder.bind id fun r => Parser.ret (r, num))
      ⟨.endOfInput, bytes "123.4567 "⟩ () =
    .ok (.data ⟨.endOfInput, bytes ""⟩ (bytes " ", (123, 4567)), ()) := by cases v <;> rfl

/-! src/parsers.rs: `satisfy_with_test`, with both counters -/

def mod8 (m : UInt8) : M (Nat × Nat) UInt8 := do
  modify fun w => (w.1 + 1, w.2)
  pure (m % 8)

def is1 (n : UInt8) : M (Nat × Nat) Bool := do
  modify fun w => (w.1, w.2 + 1)
  pure (n == 1)

example (v : Bool) : Closures.satisfyWith v mod8 is1 ⟨.default, bytes "abc"⟩ (0, 0) =
    .ok (.data ⟨.default, bytes "bc"⟩ 1, (1, 1)) := by cases v <;> rfl
example (v : Bool) : Closures.satisfyWith v mod8 is1 ⟨.default, bytes ""⟩ (0, 0) =
    .ok (.incomplete 1, (0, 0)) := by cases v <;> rfl

/-! src/combinators/mod.rs: `many_till_test`, the variant where the first call succeeds -/

def once : Parser Nat UInt8 UInt8 String := fun i => do
  let n ← get
  if n == 0 then do
    set (n + 1)
    Parser.mapErr Parsers.any (fun _ => "any err") i
  else Parser.err "the error" i

example (v : Bool) : Comb.manyTill (Collect.vec _) once (Parsers.token v (byte 'c')) ⟨.default, bytes "abcd"⟩ 0 =
    .ok (.error (bytes "bcd") "the error", 1) := by cases v <;> evaluate

end Chomp.Tests.ByHand
