import Verif.Tests.Run

/-
The tests in /repo/src/combinators/bounded.rs, generated by tools/tests.py.
-/

namespace Chomp.Tests.Bounded

open Chomp.Spec

/-! `many_range_full`, src/combinators/bounded.rs:789-817 -/

example (v : Bool) : (Bounded.many .full (Collect.vec _) (Parsers.token v (byte 'a'))) ⟨.default, (bytes "")⟩ () =
    .ok (.incomplete 1, ()) := by
  cases v <;> evaluate

example (v : Bool) : (Bounded.many .full (Collect.vec _) (Parsers.token v (byte 'a'))) ⟨.default, (bytes "a")⟩ () =
    .ok (.incomplete 1, ()) := by
  cases v <;> evaluate

example (v : Bool) : (Bounded.many .full (Collect.vec _) (Parsers.token v (byte 'a'))) ⟨.default, (bytes "aa")⟩ () =
    .ok (.incomplete 1, ()) := by
  cases v <;> evaluate

example (v : Bool) : (Bounded.many .full (Collect.vec _) (Parsers.token v (byte 'a'))) ⟨.default, (bytes "b")⟩ () =
    .ok (.data ⟨.default, (bytes "b")⟩ [], ()) := by
  cases v <;> evaluate

example (v : Bool) : (Bounded.many .full (Collect.vec _) (Parsers.token v (byte 'a'))) ⟨.default, (bytes "ab")⟩ () =
    .ok (.data ⟨.default, (bytes "b")⟩ [(byte 'a')], ()) := by
  cases v <;> evaluate

example (v : Bool) : (Bounded.many .full (Collect.vec _) (Parsers.token v (byte 'a'))) ⟨.default, (bytes "aab")⟩ () =
    .ok (.data ⟨.default, (bytes "b")⟩ [(byte 'a'), (byte 'a')], ()) := by
  cases v <;> evaluate

example : (Bounded.many .full (Collect.vec _) Parsers.any) ⟨.endOfInput, (bytes "")⟩ () =
    .ok (.data ⟨.endOfInput, (bytes "")⟩ [], ()) := by
  evaluate

example : (Bounded.many .full (Collect.vec _) Parsers.any) ⟨.endOfInput, (bytes "a")⟩ () =
    .ok (.data ⟨.endOfInput, (bytes "")⟩ [(byte 'a')], ()) := by
  evaluate

example : (Bounded.many .full (Collect.vec _) Parsers.any) ⟨.endOfInput, (bytes "aa")⟩ () =
    .ok (.data ⟨.endOfInput, (bytes "")⟩ [(byte 'a'), (byte 'a')], ()) := by
  evaluate

example (v : Bool) : (Bounded.many .full (Collect.vec _) (Parsers.token v (byte 'a'))) ⟨.endOfInput, (bytes "b")⟩ () =
    .ok (.data ⟨.endOfInput, (bytes "b")⟩ [], ()) := by
  cases v <;> evaluate

example (v : Bool) : (Bounded.many .full (Collect.vec _) (Parsers.token v (byte 'a'))) ⟨.endOfInput, (bytes "ab")⟩ () =
    .ok (.data ⟨.endOfInput, (bytes "b")⟩ [(byte 'a')], ()) := by
  cases v <;> evaluate

example (v : Bool) : (Bounded.many .full (Collect.vec _) (Parsers.token v (byte 'a'))) ⟨.endOfInput, (bytes "aab")⟩ () =
    .ok (.data ⟨.endOfInput, (bytes "b")⟩ [(byte 'a'), (byte 'a')], ()) := by
  cases v <;> evaluate

/-! `many_range_to`, src/combinators/bounded.rs:820-870 -/

example (v : Bool) : (Bounded.many (.to 0) (Collect.vec _) (Parsers.token v (byte 'a'))) ⟨.default, (bytes "")⟩ () =
    .ok (.data ⟨.default, (bytes "")⟩ [], ()) := by
  cases v <;> evaluate

example (v : Bool) : (Bounded.many (.to 0) (Collect.vec _) (Parsers.token v (byte 'a'))) ⟨.default, (bytes "a")⟩ () =
    .ok (.data ⟨.default, (bytes "a")⟩ [], ()) := by
  cases v <;> evaluate

example (v : Bool) : (Bounded.many (.to 0) (Collect.vec _) (Parsers.token v (byte 'a'))) ⟨.endOfInput, (bytes "")⟩ () =
    .ok (.data ⟨.endOfInput, (bytes "")⟩ [], ()) := by
  cases v <;> evaluate

example (v : Bool) : (Bounded.many (.to 0) (Collect.vec _) (Parsers.token v (byte 'a'))) ⟨.endOfInput, (bytes "a")⟩ () =
    .ok (.data ⟨.endOfInput, (bytes "a")⟩ [], ()) := by
  cases v <;> evaluate

example (v : Bool) : (Bounded.many (.to 1) (Collect.vec _) (Parsers.token v (byte 'a'))) ⟨.default, (bytes "")⟩ () =
    .ok (.data ⟨.default, (bytes "")⟩ [], ()) := by
  cases v <;> evaluate

example (v : Bool) : (Bounded.many (.to 1) (Collect.vec _) (Parsers.token v (byte 'a'))) ⟨.default, (bytes "a")⟩ () =
    .ok (.data ⟨.default, (bytes "a")⟩ [], ()) := by
  cases v <;> evaluate

example (v : Bool) : (Bounded.many (.to 1) (Collect.vec _) (Parsers.token v (byte 'a'))) ⟨.endOfInput, (bytes "")⟩ () =
    .ok (.data ⟨.endOfInput, (bytes "")⟩ [], ()) := by
  cases v <;> evaluate

example (v : Bool) : (Bounded.many (.to 1) (Collect.vec _) (Parsers.token v (byte 'a'))) ⟨.endOfInput, (bytes "a")⟩ () =
    .ok (.data ⟨.endOfInput, (bytes "a")⟩ [], ()) := by
  cases v <;> evaluate

example (v : Bool) : (Bounded.many (.to 3) (Collect.vec _) (Parsers.token v (byte 'a'))) ⟨.default, (bytes "")⟩ () =
    .ok (.incomplete 1, ()) := by
  cases v <;> evaluate

example (v : Bool) : (Bounded.many (.to 3) (Collect.vec _) (Parsers.token v (byte 'a'))) ⟨.default, (bytes "a")⟩ () =
    .ok (.incomplete 1, ()) := by
  cases v <;> evaluate

example (v : Bool) : (Bounded.many (.to 3) (Collect.vec _) (Parsers.token v (byte 'a'))) ⟨.default, (bytes "aa")⟩ () =
    .ok (.data ⟨.default, (bytes "")⟩ [(byte 'a'), (byte 'a')], ()) := by
  cases v <;> evaluate

example (v : Bool) : (Bounded.many (.to 3) (Collect.vec _) (Parsers.token v (byte 'a'))) ⟨.default, (bytes "aaa")⟩ () =
    .ok (.data ⟨.default, (bytes "a")⟩ [(byte 'a'), (byte 'a')], ()) := by
  cases v <;> evaluate

example (v : Bool) : (Bounded.many (.to 3) (Collect.vec _) (Parsers.token v (byte 'a'))) ⟨.default, (bytes "b")⟩ () =
    .ok (.data ⟨.default, (bytes "b")⟩ [], ()) := by
  cases v <;> evaluate

example (v : Bool) : (Bounded.many (.to 3) (Collect.vec _) (Parsers.token v (byte 'a'))) ⟨.default, (bytes "ab")⟩ () =
    .ok (.data ⟨.default, (bytes "b")⟩ [(byte 'a')], ()) := by
  cases v <;> evaluate

example (v : Bool) : (Bounded.many (.to 3) (Collect.vec _) (Parsers.token v (byte 'a'))) ⟨.default, (bytes "aab")⟩ () =
    .ok (.data ⟨.default, (bytes "b")⟩ [(byte 'a'), (byte 'a')], ()) := by
  cases v <;> evaluate

example (v : Bool) : (Bounded.many (.to 3) (Collect.vec _) (Parsers.token v (byte 'a'))) ⟨.endOfInput, (bytes "")⟩ () =
    .ok (.data ⟨.endOfInput, (bytes "")⟩ [], ()) := by
  cases v <;> evaluate

example (v : Bool) : (Bounded.many (.to 3) (Collect.vec _) (Parsers.token v (byte 'a'))) ⟨.endOfInput, (bytes "a")⟩ () =
    .ok (.data ⟨.endOfInput, (bytes "")⟩ [(byte 'a')], ()) := by
  cases v <;> evaluate

example (v : Bool) : (Bounded.many (.to 3) (Collect.vec _) (Parsers.token v (byte 'a'))) ⟨.endOfInput, (bytes "aa")⟩ () =
    .ok (.data ⟨.endOfInput, (bytes "")⟩ [(byte 'a'), (byte 'a')], ()) := by
  cases v <;> evaluate

example (v : Bool) : (Bounded.many (.to 3) (Collect.vec _) (Parsers.token v (byte 'a'))) ⟨.endOfInput, (bytes "b")⟩ () =
    .ok (.data ⟨.endOfInput, (bytes "b")⟩ [], ()) := by
  cases v <;> evaluate

example (v : Bool) : (Bounded.many (.to 3) (Collect.vec _) (Parsers.token v (byte 'a'))) ⟨.endOfInput, (bytes "ab")⟩ () =
    .ok (.data ⟨.endOfInput, (bytes "b")⟩ [(byte 'a')], ()) := by
  cases v <;> evaluate

example (v : Bool) : (Bounded.many (.to 3) (Collect.vec _) (Parsers.token v (byte 'a'))) ⟨.endOfInput, (bytes "aab")⟩ () =
    .ok (.data ⟨.endOfInput, (bytes "b")⟩ [(byte 'a'), (byte 'a')], ()) := by
  cases v <;> evaluate

example (v : Bool) : (Bounded.many (.to 3) (Collect.vec _) (Parsers.token v (byte 'a'))) ⟨.endOfInput, (bytes "aaab")⟩ () =
    .ok (.data ⟨.endOfInput, (bytes "ab")⟩ [(byte 'a'), (byte 'a')], ()) := by
  cases v <;> evaluate

/-! `many_range_from`, src/combinators/bounded.rs:873-907 -/

example (v : Bool) : (Bounded.many (.from_ 2) (Collect.vec _) (Parsers.token v (byte 'a'))) ⟨.default, (bytes "")⟩ () =
    .ok (.incomplete 1, ()) := by
  cases v <;> evaluate

example (v : Bool) : (Bounded.many (.from_ 2) (Collect.vec _) (Parsers.token v (byte 'a'))) ⟨.default, (bytes "a")⟩ () =
    .ok (.incomplete 1, ()) := by
  cases v <;> evaluate

example (v : Bool) : (Bounded.many (.from_ 2) (Collect.vec _) (Parsers.token v (byte 'a'))) ⟨.default, (bytes "aa")⟩ () =
    .ok (.incomplete 1, ()) := by
  cases v <;> evaluate

example (v : Bool) : (Bounded.many (.from_ 2) (Collect.vec _) (Parsers.token v (byte 'a'))) ⟨.default, (bytes "aaa")⟩ () =
    .ok (.incomplete 1, ()) := by
  cases v <;> evaluate

example (v : Bool) : (Bounded.many (.from_ 2) (Collect.vec _) (Parser.mapErr (Parsers.token v (byte 'a')) (fun _ => "token_err"))) ⟨.default, (bytes "b")⟩ () =
    .ok (.error (bytes "b") "token_err", ()) := by
  cases v <;> evaluate

example (v : Bool) : (Bounded.many (.from_ 2) (Collect.vec _) (Parser.mapErr (Parsers.token v (byte 'a')) (fun _ => "token_err"))) ⟨.default, (bytes "ab")⟩ () =
    .ok (.error (bytes "b") "token_err", ()) := by
  cases v <;> evaluate

example (v : Bool) : (Bounded.many (.from_ 2) (Collect.vec _) (Parsers.token v (byte 'a'))) ⟨.default, (bytes "aab")⟩ () =
    .ok (.data ⟨.default, (bytes "b")⟩ [(byte 'a'), (byte 'a')], ()) := by
  cases v <;> evaluate

example : (Bounded.many (.from_ 2) (Collect.vec _) Parsers.any) ⟨.endOfInput, (bytes "")⟩ () =
    .ok (.incomplete 1, ()) := by
  evaluate

example : (Bounded.many (.from_ 2) (Collect.vec _) Parsers.any) ⟨.endOfInput, (bytes "a")⟩ () =
    .ok (.incomplete 1, ()) := by
  evaluate

example : (Bounded.many (.from_ 2) (Collect.vec _) Parsers.any) ⟨.endOfInput, (bytes "aa")⟩ () =
    .ok (.data ⟨.endOfInput, (bytes "")⟩ [(byte 'a'), (byte 'a')], ()) := by
  evaluate

example : (Bounded.many (.from_ 2) (Collect.vec _) Parsers.any) ⟨.endOfInput, (bytes "aaa")⟩ () =
    .ok (.data ⟨.endOfInput, (bytes "")⟩ [(byte 'a'), (byte 'a'), (byte 'a')], ()) := by
  evaluate

example (v : Bool) : (Bounded.many (.from_ 2) (Collect.vec _) (Parser.mapErr (Parsers.token v (byte 'a')) (fun _ => "token_err"))) ⟨.endOfInput, (bytes "b")⟩ () =
    .ok (.error (bytes "b") "token_err", ()) := by
  cases v <;> evaluate

example (v : Bool) : (Bounded.many (.from_ 2) (Collect.vec _) (Parser.mapErr (Parsers.token v (byte 'a')) (fun _ => "token_err"))) ⟨.endOfInput, (bytes "ab")⟩ () =
    .ok (.error (bytes "b") "token_err", ()) := by
  cases v <;> evaluate

example (v : Bool) : (Bounded.many (.from_ 2) (Collect.vec _) (Parsers.token v (byte 'a'))) ⟨.endOfInput, (bytes "aab")⟩ () =
    .ok (.data ⟨.endOfInput, (bytes "b")⟩ [(byte 'a'), (byte 'a')], ()) := by
  cases v <;> evaluate

example (v : Bool) : (Bounded.many (.from_ 2) (Collect.vec _) (Parsers.token v (byte 'a'))) ⟨.endOfInput, (bytes "aaab")⟩ () =
    .ok (.data ⟨.endOfInput, (bytes "b")⟩ [(byte 'a'), (byte 'a'), (byte 'a')], ()) := by
  cases v <;> evaluate

/-! `many_range`, src/combinators/bounded.rs:910-972 -/

example (v : Bool) : (Bounded.many (.range 0 0) (Collect.vec _) (Parsers.token v (byte 'a'))) ⟨.default, (bytes "")⟩ () =
    .ok (.data ⟨.default, (bytes "")⟩ [], ()) := by
  cases v <;> evaluate

example (v : Bool) : (Bounded.many (.range 0 0) (Collect.vec _) (Parsers.token v (byte 'a'))) ⟨.default, (bytes "a")⟩ () =
    .ok (.data ⟨.default, (bytes "a")⟩ [], ()) := by
  cases v <;> evaluate

example (v : Bool) : (Bounded.many (.range 0 0) (Collect.vec _) (Parsers.token v (byte 'a'))) ⟨.endOfInput, (bytes "")⟩ () =
    .ok (.data ⟨.endOfInput, (bytes "")⟩ [], ()) := by
  cases v <;> evaluate

example (v : Bool) : (Bounded.many (.range 0 0) (Collect.vec _) (Parsers.token v (byte 'a'))) ⟨.endOfInput, (bytes "a")⟩ () =
    .ok (.data ⟨.endOfInput, (bytes "a")⟩ [], ()) := by
  cases v <;> evaluate

example (v : Bool) : (Bounded.many (.range 0 1) (Collect.vec _) (Parsers.token v (byte 'a'))) ⟨.default, (bytes "")⟩ () =
    .ok (.data ⟨.default, (bytes "")⟩ [], ()) := by
  cases v <;> evaluate

example (v : Bool) : (Bounded.many (.range 0 1) (Collect.vec _) (Parsers.token v (byte 'a'))) ⟨.default, (bytes "a")⟩ () =
    .ok (.data ⟨.default, (bytes "a")⟩ [], ()) := by
  cases v <;> evaluate

example (v : Bool) : (Bounded.many (.range 0 1) (Collect.vec _) (Parsers.token v (byte 'a'))) ⟨.endOfInput, (bytes "")⟩ () =
    .ok (.data ⟨.endOfInput, (bytes "")⟩ [], ()) := by
  cases v <;> evaluate

example (v : Bool) : (Bounded.many (.range 0 1) (Collect.vec _) (Parsers.token v (byte 'a'))) ⟨.endOfInput, (bytes "a")⟩ () =
    .ok (.data ⟨.endOfInput, (bytes "a")⟩ [], ()) := by
  cases v <;> evaluate

example (v : Bool) : (Bounded.many (.range 2 4) (Collect.vec _) (Parsers.token v (byte 'a'))) ⟨.default, (bytes "")⟩ () =
    .ok (.incomplete 1, ()) := by
  cases v <;> evaluate

example (v : Bool) : (Bounded.many (.range 2 4) (Collect.vec _) (Parsers.token v (byte 'a'))) ⟨.default, (bytes "a")⟩ () =
    .ok (.incomplete 1, ()) := by
  cases v <;> evaluate

example (v : Bool) : (Bounded.many (.range 2 4) (Collect.vec _) (Parsers.token v (byte 'a'))) ⟨.default, (bytes "aa")⟩ () =
    .ok (.incomplete 1, ()) := by
  cases v <;> evaluate

example (v : Bool) : (Bounded.many (.range 2 4) (Collect.vec _) (Parsers.token v (byte 'a'))) ⟨.default, (bytes "aaa")⟩ () =
    .ok (.data ⟨.default, (bytes "")⟩ [(byte 'a'), (byte 'a'), (byte 'a')], ()) := by
  cases v <;> evaluate

example (v : Bool) : (Bounded.many (.range 2 4) (Collect.vec _) (Parsers.token v (byte 'a'))) ⟨.default, (bytes "aaaa")⟩ () =
    .ok (.data ⟨.default, (bytes "a")⟩ [(byte 'a'), (byte 'a'), (byte 'a')], ()) := by
  cases v <;> evaluate

example (v : Bool) : (Bounded.many (.range 2 4) (Collect.vec _) (Parser.mapErr (Parsers.token v (byte 'a')) (fun _ => "token_err"))) ⟨.default, (bytes "b")⟩ () =
    .ok (.error (bytes "b") "token_err", ()) := by
  cases v <;> evaluate

example (v : Bool) : (Bounded.many (.range 2 4) (Collect.vec _) (Parser.mapErr (Parsers.token v (byte 'a')) (fun _ => "token_err"))) ⟨.default, (bytes "ab")⟩ () =
    .ok (.error (bytes "b") "token_err", ()) := by
  cases v <;> evaluate

example (v : Bool) : (Bounded.many (.range 2 4) (Collect.vec _) (Parsers.token v (byte 'a'))) ⟨.default, (bytes "aab")⟩ () =
    .ok (.data ⟨.default, (bytes "b")⟩ [(byte 'a'), (byte 'a')], ()) := by
  cases v <;> evaluate

example (v : Bool) : (Bounded.many (.range 2 4) (Collect.vec _) (Parsers.token v (byte 'a'))) ⟨.default, (bytes "aaab")⟩ () =
    .ok (.data ⟨.default, (bytes "b")⟩ [(byte 'a'), (byte 'a'), (byte 'a')], ()) := by
  cases v <;> evaluate

example (v : Bool) : (Bounded.many (.range 2 4) (Collect.vec _) (Parsers.token v (byte 'a'))) ⟨.default, (bytes "aaaab")⟩ () =
    .ok (.data ⟨.default, (bytes "ab")⟩ [(byte 'a'), (byte 'a'), (byte 'a')], ()) := by
  cases v <;> evaluate

example : (Bounded.many (.range 2 4) (Collect.vec _) Parsers.any) ⟨.endOfInput, (bytes "")⟩ () =
    .ok (.incomplete 1, ()) := by
  evaluate

example : (Bounded.many (.range 2 4) (Collect.vec _) Parsers.any) ⟨.endOfInput, (bytes "a")⟩ () =
    .ok (.incomplete 1, ()) := by
  evaluate

example : (Bounded.many (.range 2 4) (Collect.vec _) Parsers.any) ⟨.endOfInput, (bytes "aa")⟩ () =
    .ok (.data ⟨.endOfInput, (bytes "")⟩ [(byte 'a'), (byte 'a')], ()) := by
  evaluate

example : (Bounded.many (.range 2 4) (Collect.vec _) Parsers.any) ⟨.endOfInput, (bytes "aaa")⟩ () =
    .ok (.data ⟨.endOfInput, (bytes "")⟩ [(byte 'a'), (byte 'a'), (byte 'a')], ()) := by
  evaluate

example : (Bounded.many (.range 2 4) (Collect.vec _) Parsers.any) ⟨.endOfInput, (bytes "aaaa")⟩ () =
    .ok (.data ⟨.endOfInput, (bytes "a")⟩ [(byte 'a'), (byte 'a'), (byte 'a')], ()) := by
  evaluate

example (v : Bool) : (Bounded.many (.range 2 4) (Collect.vec _) (Parser.mapErr (Parsers.token v (byte 'a')) (fun _ => "token_err"))) ⟨.endOfInput, (bytes "b")⟩ () =
    .ok (.error (bytes "b") "token_err", ()) := by
  cases v <;> evaluate

example (v : Bool) : (Bounded.many (.range 2 4) (Collect.vec _) (Parser.mapErr (Parsers.token v (byte 'a')) (fun _ => "token_err"))) ⟨.endOfInput, (bytes "ab")⟩ () =
    .ok (.error (bytes "b") "token_err", ()) := by
  cases v <;> evaluate

example (v : Bool) : (Bounded.many (.range 2 4) (Collect.vec _) (Parsers.token v (byte 'a'))) ⟨.endOfInput, (bytes "aab")⟩ () =
    .ok (.data ⟨.endOfInput, (bytes "b")⟩ [(byte 'a'), (byte 'a')], ()) := by
  cases v <;> evaluate

example (v : Bool) : (Bounded.many (.range 2 4) (Collect.vec _) (Parsers.token v (byte 'a'))) ⟨.endOfInput, (bytes "aaab")⟩ () =
    .ok (.data ⟨.endOfInput, (bytes "b")⟩ [(byte 'a'), (byte 'a'), (byte 'a')], ()) := by
  cases v <;> evaluate

example (v : Bool) : (Bounded.many (.range 2 4) (Collect.vec _) (Parsers.token v (byte 'a'))) ⟨.endOfInput, (bytes "aaaab")⟩ () =
    .ok (.data ⟨.endOfInput, (bytes "ab")⟩ [(byte 'a'), (byte 'a'), (byte 'a')], ()) := by
  cases v <;> evaluate

/-! `many_exact`, src/combinators/bounded.rs:975-1011 -/

example (v : Bool) : (Bounded.many (.exactly 2) (Collect.vec _) (Parsers.token v (byte 'a'))) ⟨.default, (bytes "")⟩ () =
    .ok (.incomplete 1, ()) := by
  cases v <;> evaluate

example (v : Bool) : (Bounded.many (.exactly 2) (Collect.vec _) (Parsers.token v (byte 'a'))) ⟨.default, (bytes "a")⟩ () =
    .ok (.incomplete 1, ()) := by
  cases v <;> evaluate

example (v : Bool) : (Bounded.many (.exactly 2) (Collect.vec _) (Parsers.token v (byte 'a'))) ⟨.default, (bytes "aa")⟩ () =
    .ok (.data ⟨.default, (bytes "")⟩ [(byte 'a'), (byte 'a')], ()) := by
  cases v <;> evaluate

example (v : Bool) : (Bounded.many (.exactly 2) (Collect.vec _) (Parsers.token v (byte 'a'))) ⟨.default, (bytes "aaa")⟩ () =
    .ok (.data ⟨.default, (bytes "a")⟩ [(byte 'a'), (byte 'a')], ()) := by
  cases v <;> evaluate

example (v : Bool) : (Bounded.many (.exactly 2) (Collect.vec _) (Parser.mapErr (Parsers.token v (byte 'a')) (fun _ => "token_err"))) ⟨.default, (bytes "b")⟩ () =
    .ok (.error (bytes "b") "token_err", ()) := by
  cases v <;> evaluate

example (v : Bool) : (Bounded.many (.exactly 2) (Collect.vec _) (Parser.mapErr (Parsers.token v (byte 'a')) (fun _ => "token_err"))) ⟨.default, (bytes "ab")⟩ () =
    .ok (.error (bytes "b") "token_err", ()) := by
  cases v <;> evaluate

example (v : Bool) : (Bounded.many (.exactly 2) (Collect.vec _) (Parsers.token v (byte 'a'))) ⟨.default, (bytes "aab")⟩ () =
    .ok (.data ⟨.default, (bytes "b")⟩ [(byte 'a'), (byte 'a')], ()) := by
  cases v <;> evaluate

example (v : Bool) : (Bounded.many (.exactly 2) (Collect.vec _) (Parsers.token v (byte 'a'))) ⟨.default, (bytes "aaab")⟩ () =
    .ok (.data ⟨.default, (bytes "ab")⟩ [(byte 'a'), (byte 'a')], ()) := by
  cases v <;> evaluate

example (v : Bool) : (Bounded.many (.exactly 2) (Collect.vec _) (Parser.mapErr (Parsers.token v (byte 'a')) (fun _ => "token_err"))) ⟨.endOfInput, (bytes "")⟩ () =
    .ok (.incomplete 1, ()) := by
  cases v <;> evaluate

example (v : Bool) : (Bounded.many (.exactly 2) (Collect.vec _) (Parser.mapErr (Parsers.token v (byte 'a')) (fun _ => "token_err"))) ⟨.endOfInput, (bytes "a")⟩ () =
    .ok (.incomplete 1, ()) := by
  cases v <;> evaluate

example (v : Bool) : (Bounded.many (.exactly 2) (Collect.vec _) (Parsers.token v (byte 'a'))) ⟨.endOfInput, (bytes "aa")⟩ () =
    .ok (.data ⟨.endOfInput, (bytes "")⟩ [(byte 'a'), (byte 'a')], ()) := by
  cases v <;> evaluate

example (v : Bool) : (Bounded.many (.exactly 2) (Collect.vec _) (Parsers.token v (byte 'a'))) ⟨.endOfInput, (bytes "aaa")⟩ () =
    .ok (.data ⟨.endOfInput, (bytes "a")⟩ [(byte 'a'), (byte 'a')], ()) := by
  cases v <;> evaluate

example (v : Bool) : (Bounded.many (.exactly 2) (Collect.vec _) (Parser.mapErr (Parsers.token v (byte 'a')) (fun _ => "token_err"))) ⟨.endOfInput, (bytes "b")⟩ () =
    .ok (.error (bytes "b") "token_err", ()) := by
  cases v <;> evaluate

example (v : Bool) : (Bounded.many (.exactly 2) (Collect.vec _) (Parser.mapErr (Parsers.token v (byte 'a')) (fun _ => "token_err"))) ⟨.endOfInput, (bytes "ab")⟩ () =
    .ok (.error (bytes "b") "token_err", ()) := by
  cases v <;> evaluate

example (v : Bool) : (Bounded.many (.exactly 2) (Collect.vec _) (Parsers.token v (byte 'a'))) ⟨.endOfInput, (bytes "aab")⟩ () =
    .ok (.data ⟨.endOfInput, (bytes "b")⟩ [(byte 'a'), (byte 'a')], ()) := by
  cases v <;> evaluate

example (v : Bool) : (Bounded.many (.exactly 2) (Collect.vec _) (Parsers.token v (byte 'a'))) ⟨.endOfInput, (bytes "aaab")⟩ () =
    .ok (.data ⟨.endOfInput, (bytes "ab")⟩ [(byte 'a'), (byte 'a')], ()) := by
  cases v <;> evaluate

/-! `skip_range_full`, src/combinators/bounded.rs:1014-1042 -/

example (v : Bool) : (Bounded.skipMany .full (Parsers.token v (byte 'a'))) ⟨.default, (bytes "")⟩ () =
    .ok (.incomplete 1, ()) := by
  cases v <;> evaluate

example (v : Bool) : (Bounded.skipMany .full (Parsers.token v (byte 'a'))) ⟨.default, (bytes "a")⟩ () =
    .ok (.incomplete 1, ()) := by
  cases v <;> evaluate

example (v : Bool) : (Bounded.skipMany .full (Parsers.token v (byte 'a'))) ⟨.default, (bytes "aa")⟩ () =
    .ok (.incomplete 1, ()) := by
  cases v <;> evaluate

example (v : Bool) : (Bounded.skipMany .full (Parsers.token v (byte 'a'))) ⟨.default, (bytes "b")⟩ () =
    .ok (.data ⟨.default, (bytes "b")⟩ (), ()) := by
  cases v <;> evaluate

example (v : Bool) : (Bounded.skipMany .full (Parsers.token v (byte 'a'))) ⟨.default, (bytes "ab")⟩ () =
    .ok (.data ⟨.default, (bytes "b")⟩ (), ()) := by
  cases v <;> evaluate

example (v : Bool) : (Bounded.skipMany .full (Parsers.token v (byte 'a'))) ⟨.default, (bytes "aab")⟩ () =
    .ok (.data ⟨.default, (bytes "b")⟩ (), ()) := by
  cases v <;> evaluate

example : (Bounded.skipMany .full Parsers.any) ⟨.endOfInput, (bytes "")⟩ () =
    .ok (.data ⟨.endOfInput, (bytes "")⟩ (), ()) := by
  evaluate

example : (Bounded.skipMany .full Parsers.any) ⟨.endOfInput, (bytes "a")⟩ () =
    .ok (.data ⟨.endOfInput, (bytes "")⟩ (), ()) := by
  evaluate

example : (Bounded.skipMany .full Parsers.any) ⟨.endOfInput, (bytes "aa")⟩ () =
    .ok (.data ⟨.endOfInput, (bytes "")⟩ (), ()) := by
  evaluate

example (v : Bool) : (Bounded.skipMany .full (Parsers.token v (byte 'a'))) ⟨.endOfInput, (bytes "b")⟩ () =
    .ok (.data ⟨.endOfInput, (bytes "b")⟩ (), ()) := by
  cases v <;> evaluate

example (v : Bool) : (Bounded.skipMany .full (Parsers.token v (byte 'a'))) ⟨.endOfInput, (bytes "ab")⟩ () =
    .ok (.data ⟨.endOfInput, (bytes "b")⟩ (), ()) := by
  cases v <;> evaluate

example (v : Bool) : (Bounded.skipMany .full (Parsers.token v (byte 'a'))) ⟨.endOfInput, (bytes "aab")⟩ () =
    .ok (.data ⟨.endOfInput, (bytes "b")⟩ (), ()) := by
  cases v <;> evaluate

/-! `skip_range_to`, src/combinators/bounded.rs:1045-1095 -/

example (v : Bool) : (Bounded.skipMany (.to 0) (Parsers.token v (byte 'a'))) ⟨.default, (bytes "")⟩ () =
    .ok (.data ⟨.default, (bytes "")⟩ (), ()) := by
  cases v <;> evaluate

example (v : Bool) : (Bounded.skipMany (.to 0) (Parsers.token v (byte 'a'))) ⟨.default, (bytes "a")⟩ () =
    .ok (.data ⟨.default, (bytes "a")⟩ (), ()) := by
  cases v <;> evaluate

example (v : Bool) : (Bounded.skipMany (.to 0) (Parsers.token v (byte 'a'))) ⟨.endOfInput, (bytes "")⟩ () =
    .ok (.data ⟨.endOfInput, (bytes "")⟩ (), ()) := by
  cases v <;> evaluate

example (v : Bool) : (Bounded.skipMany (.to 0) (Parsers.token v (byte 'a'))) ⟨.endOfInput, (bytes "a")⟩ () =
    .ok (.data ⟨.endOfInput, (bytes "a")⟩ (), ()) := by
  cases v <;> evaluate

example (v : Bool) : (Bounded.skipMany (.to 1) (Parsers.token v (byte 'a'))) ⟨.default, (bytes "")⟩ () =
    .ok (.data ⟨.default, (bytes "")⟩ (), ()) := by
  cases v <;> evaluate

example (v : Bool) : (Bounded.skipMany (.to 1) (Parsers.token v (byte 'a'))) ⟨.default, (bytes "a")⟩ () =
    .ok (.data ⟨.default, (bytes "a")⟩ (), ()) := by
  cases v <;> evaluate

example (v : Bool) : (Bounded.skipMany (.to 1) (Parsers.token v (byte 'a'))) ⟨.endOfInput, (bytes "")⟩ () =
    .ok (.data ⟨.endOfInput, (bytes "")⟩ (), ()) := by
  cases v <;> evaluate

example (v : Bool) : (Bounded.skipMany (.to 1) (Parsers.token v (byte 'a'))) ⟨.endOfInput, (bytes "a")⟩ () =
    .ok (.data ⟨.endOfInput, (bytes "a")⟩ (), ()) := by
  cases v <;> evaluate

example (v : Bool) : (Bounded.skipMany (.to 3) (Parsers.token v (byte 'a'))) ⟨.default, (bytes "")⟩ () =
    .ok (.incomplete 1, ()) := by
  cases v <;> evaluate

example (v : Bool) : (Bounded.skipMany (.to 3) (Parsers.token v (byte 'a'))) ⟨.default, (bytes "a")⟩ () =
    .ok (.incomplete 1, ()) := by
  cases v <;> evaluate

example (v : Bool) : (Bounded.skipMany (.to 3) (Parsers.token v (byte 'a'))) ⟨.default, (bytes "aa")⟩ () =
    .ok (.data ⟨.default, (bytes "")⟩ (), ()) := by
  cases v <;> evaluate

example (v : Bool) : (Bounded.skipMany (.to 3) (Parsers.token v (byte 'a'))) ⟨.default, (bytes "aaa")⟩ () =
    .ok (.data ⟨.default, (bytes "a")⟩ (), ()) := by
  cases v <;> evaluate

example (v : Bool) : (Bounded.skipMany (.to 3) (Parsers.token v (byte 'a'))) ⟨.default, (bytes "b")⟩ () =
    .ok (.data ⟨.default, (bytes "b")⟩ (), ()) := by
  cases v <;> evaluate

example (v : Bool) : (Bounded.skipMany (.to 3) (Parsers.token v (byte 'a'))) ⟨.default, (bytes "ab")⟩ () =
    .ok (.data ⟨.default, (bytes "b")⟩ (), ()) := by
  cases v <;> evaluate

example (v : Bool) : (Bounded.skipMany (.to 3) (Parsers.token v (byte 'a'))) ⟨.default, (bytes "aab")⟩ () =
    .ok (.data ⟨.default, (bytes "b")⟩ (), ()) := by
  cases v <;> evaluate

example (v : Bool) : (Bounded.skipMany (.to 3) (Parsers.token v (byte 'a'))) ⟨.endOfInput, (bytes "")⟩ () =
    .ok (.data ⟨.endOfInput, (bytes "")⟩ (), ()) := by
  cases v <;> evaluate

example (v : Bool) : (Bounded.skipMany (.to 3) (Parsers.token v (byte 'a'))) ⟨.endOfInput, (bytes "a")⟩ () =
    .ok (.data ⟨.endOfInput, (bytes "")⟩ (), ()) := by
  cases v <;> evaluate

example (v : Bool) : (Bounded.skipMany (.to 3) (Parsers.token v (byte 'a'))) ⟨.endOfInput, (bytes "aa")⟩ () =
    .ok (.data ⟨.endOfInput, (bytes "")⟩ (), ()) := by
  cases v <;> evaluate

example (v : Bool) : (Bounded.skipMany (.to 3) (Parsers.token v (byte 'a'))) ⟨.endOfInput, (bytes "b")⟩ () =
    .ok (.data ⟨.endOfInput, (bytes "b")⟩ (), ()) := by
  cases v <;> evaluate

example (v : Bool) : (Bounded.skipMany (.to 3) (Parsers.token v (byte 'a'))) ⟨.endOfInput, (bytes "ab")⟩ () =
    .ok (.data ⟨.endOfInput, (bytes "b")⟩ (), ()) := by
  cases v <;> evaluate

example (v : Bool) : (Bounded.skipMany (.to 3) (Parsers.token v (byte 'a'))) ⟨.endOfInput, (bytes "aab")⟩ () =
    .ok (.data ⟨.endOfInput, (bytes "b")⟩ (), ()) := by
  cases v <;> evaluate

example (v : Bool) : (Bounded.skipMany (.to 3) (Parsers.token v (byte 'a'))) ⟨.endOfInput, (bytes "aaab")⟩ () =
    .ok (.data ⟨.endOfInput, (bytes "ab")⟩ (), ()) := by
  cases v <;> evaluate

/-! `skip_range_from`, src/combinators/bounded.rs:1098-1132 -/

example (v : Bool) : (Bounded.skipMany (.from_ 2) (Parsers.token v (byte 'a'))) ⟨.default, (bytes "")⟩ () =
    .ok (.incomplete 1, ()) := by
  cases v <;> evaluate

example (v : Bool) : (Bounded.skipMany (.from_ 2) (Parsers.token v (byte 'a'))) ⟨.default, (bytes "a")⟩ () =
    .ok (.incomplete 1, ()) := by
  cases v <;> evaluate

example (v : Bool) : (Bounded.skipMany (.from_ 2) (Parsers.token v (byte 'a'))) ⟨.default, (bytes "aa")⟩ () =
    .ok (.incomplete 1, ()) := by
  cases v <;> evaluate

example (v : Bool) : (Bounded.skipMany (.from_ 2) (Parsers.token v (byte 'a'))) ⟨.default, (bytes "aaa")⟩ () =
    .ok (.incomplete 1, ()) := by
  cases v <;> evaluate

example (v : Bool) : (Bounded.skipMany (.from_ 2) (Parser.mapErr (Parsers.token v (byte 'a')) (fun _ => "token_err"))) ⟨.default, (bytes "b")⟩ () =
    .ok (.error (bytes "b") "token_err", ()) := by
  cases v <;> evaluate

example (v : Bool) : (Bounded.skipMany (.from_ 2) (Parser.mapErr (Parsers.token v (byte 'a')) (fun _ => "token_err"))) ⟨.default, (bytes "ab")⟩ () =
    .ok (.error (bytes "b") "token_err", ()) := by
  cases v <;> evaluate

example (v : Bool) : (Bounded.skipMany (.from_ 2) (Parsers.token v (byte 'a'))) ⟨.default, (bytes "aab")⟩ () =
    .ok (.data ⟨.default, (bytes "b")⟩ (), ()) := by
  cases v <;> evaluate

example : (Bounded.skipMany (.from_ 2) Parsers.any) ⟨.endOfInput, (bytes "")⟩ () =
    .ok (.incomplete 1, ()) := by
  evaluate

example : (Bounded.skipMany (.from_ 2) Parsers.any) ⟨.endOfInput, (bytes "a")⟩ () =
    .ok (.incomplete 1, ()) := by
  evaluate

example : (Bounded.skipMany (.from_ 2) Parsers.any) ⟨.endOfInput, (bytes "aa")⟩ () =
    .ok (.data ⟨.endOfInput, (bytes "")⟩ (), ()) := by
  evaluate

example : (Bounded.skipMany (.from_ 2) Parsers.any) ⟨.endOfInput, (bytes "aaa")⟩ () =
    .ok (.data ⟨.endOfInput, (bytes "")⟩ (), ()) := by
  evaluate

example (v : Bool) : (Bounded.skipMany (.from_ 2) (Parser.mapErr (Parsers.token v (byte 'a')) (fun _ => "token_err"))) ⟨.endOfInput, (bytes "b")⟩ () =
    .ok (.error (bytes "b") "token_err", ()) := by
  cases v <;> evaluate

example (v : Bool) : (Bounded.skipMany (.from_ 2) (Parser.mapErr (Parsers.token v (byte 'a')) (fun _ => "token_err"))) ⟨.endOfInput, (bytes "ab")⟩ () =
    .ok (.error (bytes "b") "token_err", ()) := by
  cases v <;> evaluate

example (v : Bool) : (Bounded.skipMany (.from_ 2) (Parsers.token v (byte 'a'))) ⟨.endOfInput, (bytes "aab")⟩ () =
    .ok (.data ⟨.endOfInput, (bytes "b")⟩ (), ()) := by
  cases v <;> evaluate

example (v : Bool) : (Bounded.skipMany (.from_ 2) (Parsers.token v (byte 'a'))) ⟨.endOfInput, (bytes "aaab")⟩ () =
    .ok (.data ⟨.endOfInput, (bytes "b")⟩ (), ()) := by
  cases v <;> evaluate

/-! `skip_range`, src/combinators/bounded.rs:1135-1197 -/

example (v : Bool) : (Bounded.skipMany (.range 0 0) (Parsers.token v (byte 'a'))) ⟨.default, (bytes "")⟩ () =
    .ok (.data ⟨.default, (bytes "")⟩ (), ()) := by
  cases v <;> evaluate

example (v : Bool) : (Bounded.skipMany (.range 0 0) (Parsers.token v (byte 'a'))) ⟨.default, (bytes "a")⟩ () =
    .ok (.data ⟨.default, (bytes "a")⟩ (), ()) := by
  cases v <;> evaluate

example (v : Bool) : (Bounded.skipMany (.range 0 0) (Parsers.token v (byte 'a'))) ⟨.endOfInput, (bytes "")⟩ () =
    .ok (.data ⟨.endOfInput, (bytes "")⟩ (), ()) := by
  cases v <;> evaluate

example (v : Bool) : (Bounded.skipMany (.range 0 0) (Parsers.token v (byte 'a'))) ⟨.endOfInput, (bytes "a")⟩ () =
    .ok (.data ⟨.endOfInput, (bytes "a")⟩ (), ()) := by
  cases v <;> evaluate

example (v : Bool) : (Bounded.skipMany (.range 0 1) (Parsers.token v (byte 'a'))) ⟨.default, (bytes "")⟩ () =
    .ok (.data ⟨.default, (bytes "")⟩ (), ()) := by
  cases v <;> evaluate

example (v : Bool) : (Bounded.skipMany (.range 0 1) (Parsers.token v (byte 'a'))) ⟨.default, (bytes "a")⟩ () =
    .ok (.data ⟨.default, (bytes "a")⟩ (), ()) := by
  cases v <;> evaluate

example (v : Bool) : (Bounded.skipMany (.range 0 1) (Parsers.token v (byte 'a'))) ⟨.endOfInput, (bytes "")⟩ () =
    .ok (.data ⟨.endOfInput, (bytes "")⟩ (), ()) := by
  cases v <;> evaluate

example (v : Bool) : (Bounded.skipMany (.range 0 1) (Parsers.token v (byte 'a'))) ⟨.endOfInput, (bytes "a")⟩ () =
    .ok (.data ⟨.endOfInput, (bytes "a")⟩ (), ()) := by
  cases v <;> evaluate

example (v : Bool) : (Bounded.skipMany (.range 2 4) (Parsers.token v (byte 'a'))) ⟨.default, (bytes "")⟩ () =
    .ok (.incomplete 1, ()) := by
  cases v <;> evaluate

example (v : Bool) : (Bounded.skipMany (.range 2 4) (Parsers.token v (byte 'a'))) ⟨.default, (bytes "a")⟩ () =
    .ok (.incomplete 1, ()) := by
  cases v <;> evaluate

example (v : Bool) : (Bounded.skipMany (.range 2 4) (Parsers.token v (byte 'a'))) ⟨.default, (bytes "aa")⟩ () =
    .ok (.incomplete 1, ()) := by
  cases v <;> evaluate

example (v : Bool) : (Bounded.skipMany (.range 2 4) (Parsers.token v (byte 'a'))) ⟨.default, (bytes "aaa")⟩ () =
    .ok (.data ⟨.default, (bytes "")⟩ (), ()) := by
  cases v <;> evaluate

example (v : Bool) : (Bounded.skipMany (.range 2 4) (Parsers.token v (byte 'a'))) ⟨.default, (bytes "aaaa")⟩ () =
    .ok (.data ⟨.default, (bytes "a")⟩ (), ()) := by
  cases v <;> evaluate

example (v : Bool) : (Bounded.skipMany (.range 2 4) (Parser.mapErr (Parsers.token v (byte 'a')) (fun _ => "token_err"))) ⟨.default, (bytes "b")⟩ () =
    .ok (.error (bytes "b") "token_err", ()) := by
  cases v <;> evaluate

example (v : Bool) : (Bounded.skipMany (.range 2 4) (Parser.mapErr (Parsers.token v (byte 'a')) (fun _ => "token_err"))) ⟨.default, (bytes "ab")⟩ () =
    .ok (.error (bytes "b") "token_err", ()) := by
  cases v <;> evaluate

example (v : Bool) : (Bounded.skipMany (.range 2 4) (Parsers.token v (byte 'a'))) ⟨.default, (bytes "aab")⟩ () =
    .ok (.data ⟨.default, (bytes "b")⟩ (), ()) := by
  cases v <;> evaluate

example (v : Bool) : (Bounded.skipMany (.range 2 4) (Parsers.token v (byte 'a'))) ⟨.default, (bytes "aaab")⟩ () =
    .ok (.data ⟨.default, (bytes "b")⟩ (), ()) := by
  cases v <;> evaluate

example (v : Bool) : (Bounded.skipMany (.range 2 4) (Parsers.token v (byte 'a'))) ⟨.default, (bytes "aaaab")⟩ () =
    .ok (.data ⟨.default, (bytes "ab")⟩ (), ()) := by
  cases v <;> evaluate

example : (Bounded.skipMany (.range 2 4) Parsers.any) ⟨.endOfInput, (bytes "")⟩ () =
    .ok (.incomplete 1, ()) := by
  evaluate

example : (Bounded.skipMany (.range 2 4) Parsers.any) ⟨.endOfInput, (bytes "a")⟩ () =
    .ok (.incomplete 1, ()) := by
  evaluate

example : (Bounded.skipMany (.range 2 4) Parsers.any) ⟨.endOfInput, (bytes "aa")⟩ () =
    .ok (.data ⟨.endOfInput, (bytes "")⟩ (), ()) := by
  evaluate

example : (Bounded.skipMany (.range 2 4) Parsers.any) ⟨.endOfInput, (bytes "aaa")⟩ () =
    .ok (.data ⟨.endOfInput, (bytes "")⟩ (), ()) := by
  evaluate

example : (Bounded.skipMany (.range 2 4) Parsers.any) ⟨.endOfInput, (bytes "aaaa")⟩ () =
    .ok (.data ⟨.endOfInput, (bytes "a")⟩ (), ()) := by
  evaluate

example (v : Bool) : (Bounded.skipMany (.range 2 4) (Parser.mapErr (Parsers.token v (byte 'a')) (fun _ => "token_err"))) ⟨.endOfInput, (bytes "b")⟩ () =
    .ok (.error (bytes "b") "token_err", ()) := by
  cases v <;> evaluate

example (v : Bool) : (Bounded.skipMany (.range 2 4) (Parser.mapErr (Parsers.token v (byte 'a')) (fun _ => "token_err"))) ⟨.endOfInput, (bytes "ab")⟩ () =
    .ok (.error (bytes "b") "token_err", ()) := by
  cases v <;> evaluate

example (v : Bool) : (Bounded.skipMany (.range 2 4) (Parsers.token v (byte 'a'))) ⟨.endOfInput, (bytes "aab")⟩ () =
    .ok (.data ⟨.endOfInput, (bytes "b")⟩ (), ()) := by
  cases v <;> evaluate

example (v : Bool) : (Bounded.skipMany (.range 2 4) (Parsers.token v (byte 'a'))) ⟨.endOfInput, (bytes "aaab")⟩ () =
    .ok (.data ⟨.endOfInput, (bytes "b")⟩ (), ()) := by
  cases v <;> evaluate

example (v : Bool) : (Bounded.skipMany (.range 2 4) (Parsers.token v (byte 'a'))) ⟨.endOfInput, (bytes "aaaab")⟩ () =
    .ok (.data ⟨.endOfInput, (bytes "ab")⟩ (), ()) := by
  cases v <;> evaluate

/-! `skip_exact`, src/combinators/bounded.rs:1200-1236 -/

example (v : Bool) : (Bounded.skipMany (.exactly 2) (Parsers.token v (byte 'a'))) ⟨.default, (bytes "")⟩ () =
    .ok (.incomplete 1, ()) := by
  cases v <;> evaluate

example (v : Bool) : (Bounded.skipMany (.exactly 2) (Parsers.token v (byte 'a'))) ⟨.default, (bytes "a")⟩ () =
    .ok (.incomplete 1, ()) := by
  cases v <;> evaluate

example (v : Bool) : (Bounded.skipMany (.exactly 2) (Parsers.token v (byte 'a'))) ⟨.default, (bytes "aa")⟩ () =
    .ok (.data ⟨.default, (bytes "")⟩ (), ()) := by
  cases v <;> evaluate

example (v : Bool) : (Bounded.skipMany (.exactly 2) (Parsers.token v (byte 'a'))) ⟨.default, (bytes "aaa")⟩ () =
    .ok (.data ⟨.default, (bytes "a")⟩ (), ()) := by
  cases v <;> evaluate

example (v : Bool) : (Bounded.skipMany (.exactly 2) (Parser.mapErr (Parsers.token v (byte 'a')) (fun _ => "token_err"))) ⟨.default, (bytes "b")⟩ () =
    .ok (.error (bytes "b") "token_err", ()) := by
  cases v <;> evaluate

example (v : Bool) : (Bounded.skipMany (.exactly 2) (Parser.mapErr (Parsers.token v (byte 'a')) (fun _ => "token_err"))) ⟨.default, (bytes "ab")⟩ () =
    .ok (.error (bytes "b") "token_err", ()) := by
  cases v <;> evaluate

example (v : Bool) : (Bounded.skipMany (.exactly 2) (Parsers.token v (byte 'a'))) ⟨.default, (bytes "aab")⟩ () =
    .ok (.data ⟨.default, (bytes "b")⟩ (), ()) := by
  cases v <;> evaluate

example (v : Bool) : (Bounded.skipMany (.exactly 2) (Parsers.token v (byte 'a'))) ⟨.default, (bytes "aaab")⟩ () =
    .ok (.data ⟨.default, (bytes "ab")⟩ (), ()) := by
  cases v <;> evaluate

example (v : Bool) : (Bounded.skipMany (.exactly 2) (Parser.mapErr (Parsers.token v (byte 'a')) (fun _ => "token_err"))) ⟨.endOfInput, (bytes "")⟩ () =
    .ok (.incomplete 1, ()) := by
  cases v <;> evaluate

example (v : Bool) : (Bounded.skipMany (.exactly 2) (Parser.mapErr (Parsers.token v (byte 'a')) (fun _ => "token_err"))) ⟨.endOfInput, (bytes "a")⟩ () =
    .ok (.incomplete 1, ()) := by
  cases v <;> evaluate

example (v : Bool) : (Bounded.skipMany (.exactly 2) (Parsers.token v (byte 'a'))) ⟨.endOfInput, (bytes "aa")⟩ () =
    .ok (.data ⟨.endOfInput, (bytes "")⟩ (), ()) := by
  cases v <;> evaluate

example (v : Bool) : (Bounded.skipMany (.exactly 2) (Parsers.token v (byte 'a'))) ⟨.endOfInput, (bytes "aaa")⟩ () =
    .ok (.data ⟨.endOfInput, (bytes "a")⟩ (), ()) := by
  cases v <;> evaluate

example (v : Bool) : (Bounded.skipMany (.exactly 2) (Parser.mapErr (Parsers.token v (byte 'a')) (fun _ => "token_err"))) ⟨.endOfInput, (bytes "b")⟩ () =
    .ok (.error (bytes "b") "token_err", ()) := by
  cases v <;> evaluate

example (v : Bool) : (Bounded.skipMany (.exactly 2) (Parser.mapErr (Parsers.token v (byte 'a')) (fun _ => "token_err"))) ⟨.endOfInput, (bytes "ab")⟩ () =
    .ok (.error (bytes "b") "token_err", ()) := by
  cases v <;> evaluate

example (v : Bool) : (Bounded.skipMany (.exactly 2) (Parsers.token v (byte 'a'))) ⟨.endOfInput, (bytes "aab")⟩ () =
    .ok (.data ⟨.endOfInput, (bytes "b")⟩ (), ()) := by
  cases v <;> evaluate

example (v : Bool) : (Bounded.skipMany (.exactly 2) (Parsers.token v (byte 'a'))) ⟨.endOfInput, (bytes "aaab")⟩ () =
    .ok (.data ⟨.endOfInput, (bytes "ab")⟩ (), ()) := by
  cases v <;> evaluate

/-! `panic_many_range_lt`, src/combinators/bounded.rs:1240-1243 -/

example (v : Bool) : (Bounded.many (.range 2 1) (Collect.vec _) (Parsers.token v (byte 'a'))) ⟨.default, (bytes "aaaab")⟩ () =
    .panic := by
  cases v <;> evaluate

/-! `panic_skip_many_range_lt`, src/combinators/bounded.rs:1247-1249 -/

example (v : Bool) : (Bounded.skipMany (.range 2 1) (Parsers.token v (byte 'a'))) ⟨.default, (bytes "aaaab")⟩ () =
    .panic := by
  cases v <;> evaluate

/-! `panic_many_till_range_lt`, src/combinators/bounded.rs:1253-1256 -/

example (v : Bool) : (Bounded.manyTill (.range 2 1) (Collect.vec _) (Parsers.token v (byte 'a')) (Parsers.token v (byte 'b'))) ⟨.default, (bytes "aaaab")⟩ () =
    .panic := by
  cases v <;> evaluate

end Chomp.Tests.Bounded
