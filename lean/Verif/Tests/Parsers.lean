import Verif.Tests.Run

/-
The tests in /repo/src/parsers.rs, generated by tools/tests.py.
Not understood, and done by hand elsewhere: `parse_decimal`, `satisfy_with_test`.
-/

namespace Chomp.Tests.Parsers

open Chomp.Spec

/-! `parse_remainder_empty`, src/parsers.rs:592-598 -/

example : Parsers.takeRemainder ⟨.endOfInput, (bytes "")⟩ () =
    .ok (.data ⟨.endOfInput, (bytes "")⟩ (bytes ""), ()) := by
  evaluate

/-! `take_while1_empty`, src/parsers.rs:601-607 -/

example (v : Bool) : (Parsers.takeWhile1 v (fun _ => true)) ⟨.endOfInput, (bytes "")⟩ () =
    .ok (.incomplete 1, ()) := by
  cases v <;> evaluate

/-! `token_test`, src/parsers.rs:610-614 -/

example (v : Bool) : (Parsers.token v (byte 'a')) ⟨.default, (bytes "")⟩ () =
    .ok (.incomplete 1, ()) := by
  cases v <;> evaluate

example (v : Bool) : (Parsers.token v (byte 'a')) ⟨.default, (bytes "ab")⟩ () =
    .ok (.data ⟨.default, (bytes "b")⟩ (byte 'a'), ()) := by
  cases v <;> evaluate

example (v : Bool) : (Parsers.token v (byte 'a')) ⟨.default, (bytes "bb")⟩ () =
    .ok (.error (bytes "bb") (Err.expected v (byte 'a')), ()) := by
  cases v <;> evaluate

/-! `take_test`, src/parsers.rs:617-623 -/

example : (Parsers.take 1) ⟨.default, (bytes "a")⟩ () =
    .ok (.data ⟨.default, (bytes "")⟩ (bytes "a"), ()) := by
  evaluate

example : (Parsers.take 2) ⟨.default, (bytes "a")⟩ () =
    .ok (.incomplete 1, ()) := by
  evaluate

example : (Parsers.take 3) ⟨.default, (bytes "a")⟩ () =
    .ok (.incomplete 2, ()) := by
  evaluate

example : (Parsers.take 1) ⟨.default, (bytes "ab")⟩ () =
    .ok (.data ⟨.default, (bytes "b")⟩ (bytes "a"), ()) := by
  evaluate

example : (Parsers.take 2) ⟨.default, (bytes "ab")⟩ () =
    .ok (.data ⟨.default, (bytes "")⟩ (bytes "ab"), ()) := by
  evaluate

/-! `take_while_test`, src/parsers.rs:626-634 -/

example : (Parsers.takeWhile (fun c => c != (byte 'b'))) ⟨.default, (bytes "abc")⟩ () =
    .ok (.data ⟨.default, (bytes "bc")⟩ (bytes "a"), ()) := by
  evaluate

example : (Parsers.takeWhile (fun c => c != (byte 'b'))) ⟨.default, (bytes "bbc")⟩ () =
    .ok (.data ⟨.default, (bytes "bbc")⟩ (bytes ""), ()) := by
  evaluate

example : (Parsers.takeWhile (fun c => c != (byte 'b'))) ⟨.endOfInput, (bytes "bbc")⟩ () =
    .ok (.data ⟨.endOfInput, (bytes "bbc")⟩ (bytes ""), ()) := by
  evaluate

example : (Parsers.takeWhile (fun c => c != (byte 'b'))) ⟨.endOfInput, (bytes "abc")⟩ () =
    .ok (.data ⟨.endOfInput, (bytes "bc")⟩ (bytes "a"), ()) := by
  evaluate

example : (Parsers.takeWhile (fun c => c != (byte 'b'))) ⟨.default, (bytes "acc")⟩ () =
    .ok (.incomplete 1, ()) := by
  evaluate

example : (Parsers.takeWhile (fun c => c != (byte 'b'))) ⟨.endOfInput, (bytes "acc")⟩ () =
    .ok (.data ⟨.endOfInput, (bytes "")⟩ (bytes "acc"), ()) := by
  evaluate

/-! `take_while1_test`, src/parsers.rs:637-645 -/

example (v : Bool) : (Parsers.takeWhile1 v (fun c => c != (byte 'b'))) ⟨.default, (bytes "abc")⟩ () =
    .ok (.data ⟨.default, (bytes "bc")⟩ (bytes "a"), ()) := by
  cases v <;> evaluate

example (v : Bool) : (Parsers.takeWhile1 v (fun c => c != (byte 'b'))) ⟨.default, (bytes "bbc")⟩ () =
    .ok (.error (bytes "bbc") (Err.unexpected v), ()) := by
  cases v <;> evaluate

example (v : Bool) : (Parsers.takeWhile1 v (fun c => c != (byte 'b'))) ⟨.endOfInput, (bytes "bbc")⟩ () =
    .ok (.error (bytes "bbc") (Err.unexpected v), ()) := by
  cases v <;> evaluate

example (v : Bool) : (Parsers.takeWhile1 v (fun c => c != (byte 'b'))) ⟨.endOfInput, (bytes "abc")⟩ () =
    .ok (.data ⟨.endOfInput, (bytes "bc")⟩ (bytes "a"), ()) := by
  cases v <;> evaluate

example (v : Bool) : (Parsers.takeWhile1 v (fun c => c != (byte 'b'))) ⟨.default, (bytes "acc")⟩ () =
    .ok (.incomplete 1, ()) := by
  cases v <;> evaluate

example (v : Bool) : (Parsers.takeWhile1 v (fun c => c != (byte 'b'))) ⟨.endOfInput, (bytes "acc")⟩ () =
    .ok (.data ⟨.endOfInput, (bytes "")⟩ (bytes "acc"), ()) := by
  cases v <;> evaluate

/-! `peek_next_test`, src/parsers.rs:648-653 -/

example : Parsers.peekNext ⟨.default, (bytes "abc")⟩ () =
    .ok (.data ⟨.default, (bytes "abc")⟩ (byte 'a'), ()) := by
  evaluate

example : Parsers.peekNext ⟨.endOfInput, (bytes "abc")⟩ () =
    .ok (.data ⟨.endOfInput, (bytes "abc")⟩ (byte 'a'), ()) := by
  evaluate

example : Parsers.peekNext ⟨.default, (bytes "")⟩ () =
    .ok (.incomplete 1, ()) := by
  evaluate

example : Parsers.peekNext ⟨.endOfInput, (bytes "")⟩ () =
    .ok (.incomplete 1, ()) := by
  evaluate

end Chomp.Tests.Parsers
