import Verif.Tests.Run

/-
The tests in /repo/src/combinators/mod.rs, generated by tools/tests.py.
Not understood, and done by hand elsewhere: the rest of `many_till_test`.
-/

namespace Chomp.Tests.Combinators

open Chomp.Spec

/-! `option_test`, src/combinators/mod.rs:377-393 -/

example : (Comb.option Parsers.any (byte '-')) ⟨.default, (bytes "")⟩ () =
    .ok (.incomplete 1, ()) := by
  evaluate

example : (Comb.option Parsers.any (byte '-')) ⟨.default, (bytes "a")⟩ () =
    .ok (.data ⟨.default, (bytes "")⟩ (byte 'a'), ()) := by
  evaluate

example : (Comb.option (Parsers.take 2) []) ⟨.default, (bytes "")⟩ () =
    .ok (.incomplete 2, ()) := by
  evaluate

example : (Comb.option (Parsers.take 2) []) ⟨.default, (bytes "a")⟩ () =
    .ok (.incomplete 1, ()) := by
  evaluate

example : (Comb.option (Parsers.take 2) []) ⟨.default, (bytes "ab")⟩ () =
    .ok (.data ⟨.default, (bytes "")⟩ [(byte 'a'), (byte 'b')], ()) := by
  evaluate

example (v : Bool) : (Comb.option (Parser.mapErr (Parsers.token v (byte ' ')) (fun _ => "token_err")) (byte '-')) ⟨.default, (bytes "a")⟩ () =
    .ok (.data ⟨.default, (bytes "a")⟩ (byte '-'), ()) := by
  cases v <;> evaluate

example : (Comb.option Parsers.any (byte '-')) ⟨.endOfInput, (bytes "")⟩ () =
    .ok (.data ⟨.endOfInput, (bytes "")⟩ (byte '-'), ()) := by
  evaluate

example : (Comb.option Parsers.any (byte '-')) ⟨.endOfInput, (bytes "a")⟩ () =
    .ok (.data ⟨.endOfInput, (bytes "")⟩ (byte 'a'), ()) := by
  evaluate

example : (Comb.option (Parsers.take 2) []) ⟨.endOfInput, (bytes "")⟩ () =
    .ok (.data ⟨.endOfInput, (bytes "")⟩ [], ()) := by
  evaluate

example : (Comb.option (Parsers.take 2) []) ⟨.endOfInput, (bytes "a")⟩ () =
    .ok (.data ⟨.endOfInput, (bytes "a")⟩ [], ()) := by
  evaluate

example : (Comb.option (Parsers.take 2) []) ⟨.endOfInput, (bytes "ab")⟩ () =
    .ok (.data ⟨.endOfInput, (bytes "")⟩ [(byte 'a'), (byte 'b')], ()) := by
  evaluate

example (v : Bool) : (Comb.option (Parser.mapErr (Parsers.token v (byte ' ')) (fun _ => "token_err")) (byte '-')) ⟨.endOfInput, (bytes "a")⟩ () =
    .ok (.data ⟨.endOfInput, (bytes "a")⟩ (byte '-'), ()) := by
  cases v <;> evaluate

/-! `or_test`, src/combinators/mod.rs:396-412 -/

example : (Comb.or Parsers.any Parsers.any) ⟨.default, (bytes "")⟩ () =
    .ok (.incomplete 1, ()) := by
  evaluate

example : (Comb.or Parsers.any Parsers.any) ⟨.default, (bytes "a")⟩ () =
    .ok (.data ⟨.default, (bytes "")⟩ (byte 'a'), ()) := by
  evaluate

example : (Comb.or (Parsers.take 2) (Parsers.take 1)) ⟨.default, (bytes "a")⟩ () =
    .ok (.incomplete 1, ()) := by
  evaluate

example : (Comb.or (Parsers.take 2) (Parsers.take 1)) ⟨.default, (bytes "ab")⟩ () =
    .ok (.data ⟨.default, (bytes "")⟩ (bytes "ab"), ()) := by
  evaluate

example (v : Bool) : (Comb.or (Parsers.token v (byte 'a')) (Parsers.token v (byte 'b'))) ⟨.default, (bytes "a")⟩ () =
    .ok (.data ⟨.default, (bytes "")⟩ (byte 'a'), ()) := by
  cases v <;> evaluate

example (v : Bool) : (Comb.or (Parsers.token v (byte 'a')) (Parsers.token v (byte 'b'))) ⟨.default, (bytes "b")⟩ () =
    .ok (.data ⟨.default, (bytes "")⟩ (byte 'b'), ()) := by
  cases v <;> evaluate

example (v : Bool) : (Comb.or (Parser.mapErr (Parsers.token v (byte 'a')) (fun _ => "a err")) (Parser.mapErr (Parsers.token v (byte 'b')) (fun _ => "b err"))) ⟨.default, (bytes "c")⟩ () =
    .ok (.error (bytes "c") "b err", ()) := by
  cases v <;> evaluate

example : (Comb.or Parsers.any Parsers.any) ⟨.endOfInput, (bytes "")⟩ () =
    .ok (.incomplete 1, ()) := by
  evaluate

example : (Comb.or Parsers.any Parsers.any) ⟨.endOfInput, (bytes "a")⟩ () =
    .ok (.data ⟨.endOfInput, (bytes "")⟩ (byte 'a'), ()) := by
  evaluate

example : (Comb.or (Parsers.take 2) (Parsers.take 1)) ⟨.endOfInput, (bytes "a")⟩ () =
    .ok (.data ⟨.endOfInput, (bytes "")⟩ (bytes "a"), ()) := by
  evaluate

example : (Comb.or (Parsers.take 2) (Parsers.take 1)) ⟨.endOfInput, (bytes "ab")⟩ () =
    .ok (.data ⟨.endOfInput, (bytes "")⟩ (bytes "ab"), ()) := by
  evaluate

example (v : Bool) : (Comb.or (Parsers.token v (byte 'a')) (Parsers.token v (byte 'b'))) ⟨.endOfInput, (bytes "a")⟩ () =
    .ok (.data ⟨.endOfInput, (bytes "")⟩ (byte 'a'), ()) := by
  cases v <;> evaluate

example (v : Bool) : (Comb.or (Parsers.token v (byte 'a')) (Parsers.token v (byte 'b'))) ⟨.endOfInput, (bytes "b")⟩ () =
    .ok (.data ⟨.endOfInput, (bytes "")⟩ (byte 'b'), ()) := by
  cases v <;> evaluate

example (v : Bool) : (Comb.or (Parser.mapErr (Parsers.token v (byte 'a')) (fun _ => "a err")) (Parser.mapErr (Parsers.token v (byte 'b')) (fun _ => "b err"))) ⟨.endOfInput, (bytes "c")⟩ () =
    .ok (.error (bytes "c") "b err", ()) := by
  cases v <;> evaluate

/-! `many_test`, src/combinators/mod.rs:415-439 -/

example (v : Bool) : (Comb.many (Collect.vec _) (Parsers.token v (byte 'a'))) ⟨.default, (bytes "")⟩ () =
    .ok (.incomplete 1, ()) := by
  cases v <;> evaluate

example (v : Bool) : (Comb.many (Collect.vec _) (Parsers.token v (byte 'a'))) ⟨.default, (bytes "a")⟩ () =
    .ok (.incomplete 1, ()) := by
  cases v <;> evaluate

example (v : Bool) : (Comb.many (Collect.vec _) (Parsers.token v (byte 'a'))) ⟨.default, (bytes "aa")⟩ () =
    .ok (.incomplete 1, ()) := by
  cases v <;> evaluate

example (v : Bool) : (Comb.many (Collect.vec _) (Parsers.token v (byte 'a'))) ⟨.default, (bytes "bbb")⟩ () =
    .ok (.data ⟨.default, (bytes "bbb")⟩ [], ()) := by
  cases v <;> evaluate

example (v : Bool) : (Comb.many (Collect.vec _) (Parsers.token v (byte 'a'))) ⟨.default, (bytes "abb")⟩ () =
    .ok (.data ⟨.default, (bytes "bb")⟩ [(byte 'a')], ()) := by
  cases v <;> evaluate

example (v : Bool) : (Comb.many (Collect.vec _) (Parsers.token v (byte 'a'))) ⟨.default, (bytes "aab")⟩ () =
    .ok (.data ⟨.default, (bytes "b")⟩ [(byte 'a'), (byte 'a')], ()) := by
  cases v <;> evaluate

example (v : Bool) : (Comb.many (Collect.vec _) (Parsers.token v (byte 'a'))) ⟨.endOfInput, (bytes "")⟩ () =
    .ok (.data ⟨.endOfInput, (bytes "")⟩ [], ()) := by
  cases v <;> evaluate

example (v : Bool) : (Comb.many (Collect.vec _) (Parsers.token v (byte 'a'))) ⟨.endOfInput, (bytes "a")⟩ () =
    .ok (.data ⟨.endOfInput, (bytes "")⟩ [(byte 'a')], ()) := by
  cases v <;> evaluate

example (v : Bool) : (Comb.many (Collect.vec _) (Parsers.token v (byte 'a'))) ⟨.endOfInput, (bytes "aa")⟩ () =
    .ok (.data ⟨.endOfInput, (bytes "")⟩ [(byte 'a'), (byte 'a')], ()) := by
  cases v <;> evaluate

example (v : Bool) : (Comb.many (Collect.vec _) (Parsers.token v (byte 'a'))) ⟨.endOfInput, (bytes "aab")⟩ () =
    .ok (.data ⟨.endOfInput, (bytes "b")⟩ [(byte 'a'), (byte 'a')], ()) := by
  cases v <;> evaluate

/-! `many1_test`, src/combinators/mod.rs:442-466 -/

example (v : Bool) : (Comb.many1 (Collect.vec _) (Parsers.token v (byte 'a'))) ⟨.default, (bytes "")⟩ () =
    .ok (.incomplete 1, ()) := by
  cases v <;> evaluate

example (v : Bool) : (Comb.many1 (Collect.vec _) (Parsers.token v (byte 'a'))) ⟨.default, (bytes "a")⟩ () =
    .ok (.incomplete 1, ()) := by
  cases v <;> evaluate

example (v : Bool) : (Comb.many1 (Collect.vec _) (Parsers.token v (byte 'a'))) ⟨.default, (bytes "aa")⟩ () =
    .ok (.incomplete 1, ()) := by
  cases v <;> evaluate

example (v : Bool) : (Comb.many1 (Collect.vec _) (Parser.mapErr (Parsers.token v (byte 'a')) (fun _ => "token_error"))) ⟨.default, (bytes "bbb")⟩ () =
    .ok (.error (bytes "bbb") "token_error", ()) := by
  cases v <;> evaluate

example (v : Bool) : (Comb.many1 (Collect.vec _) (Parsers.token v (byte 'a'))) ⟨.default, (bytes "abb")⟩ () =
    .ok (.data ⟨.default, (bytes "bb")⟩ [(byte 'a')], ()) := by
  cases v <;> evaluate

example (v : Bool) : (Comb.many1 (Collect.vec _) (Parsers.token v (byte 'a'))) ⟨.default, (bytes "aab")⟩ () =
    .ok (.data ⟨.default, (bytes "b")⟩ [(byte 'a'), (byte 'a')], ()) := by
  cases v <;> evaluate

example (v : Bool) : (Comb.many1 (Collect.vec _) (Parsers.token v (byte 'a'))) ⟨.endOfInput, (bytes "")⟩ () =
    .ok (.incomplete 1, ()) := by
  cases v <;> evaluate

example (v : Bool) : (Comb.many1 (Collect.vec _) (Parsers.token v (byte 'a'))) ⟨.endOfInput, (bytes "a")⟩ () =
    .ok (.data ⟨.endOfInput, (bytes "")⟩ [(byte 'a')], ()) := by
  cases v <;> evaluate

example (v : Bool) : (Comb.many1 (Collect.vec _) (Parsers.token v (byte 'a'))) ⟨.endOfInput, (bytes "aa")⟩ () =
    .ok (.data ⟨.endOfInput, (bytes "")⟩ [(byte 'a'), (byte 'a')], ()) := by
  cases v <;> evaluate

example (v : Bool) : (Comb.many1 (Collect.vec _) (Parsers.token v (byte 'a'))) ⟨.endOfInput, (bytes "aab")⟩ () =
    .ok (.data ⟨.endOfInput, (bytes "b")⟩ [(byte 'a'), (byte 'a')], ()) := by
  cases v <;> evaluate

/-! `count_test`, src/combinators/mod.rs:469-491 -/

example (v : Bool) : (Comb.count 3 (Collect.vec _) (Parsers.token v (byte 'a'))) ⟨.default, (bytes "")⟩ () =
    .ok (.incomplete 1, ()) := by
  cases v <;> evaluate

example (v : Bool) : (Comb.count 3 (Collect.vec _) (Parsers.token v (byte 'a'))) ⟨.default, (bytes "a")⟩ () =
    .ok (.incomplete 1, ()) := by
  cases v <;> evaluate

example (v : Bool) : (Comb.count 3 (Collect.vec _) (Parsers.token v (byte 'a'))) ⟨.default, (bytes "aa")⟩ () =
    .ok (.incomplete 1, ()) := by
  cases v <;> evaluate

example (v : Bool) : (Comb.count 3 (Collect.vec _) (Parsers.token v (byte 'a'))) ⟨.default, (bytes "aaa")⟩ () =
    .ok (.data ⟨.default, (bytes "")⟩ [(byte 'a'), (byte 'a'), (byte 'a')], ()) := by
  cases v <;> evaluate

example (v : Bool) : (Comb.count 3 (Collect.vec _) (Parsers.token v (byte 'a'))) ⟨.default, (bytes "aaaa")⟩ () =
    .ok (.data ⟨.default, (bytes "a")⟩ [(byte 'a'), (byte 'a'), (byte 'a')], ()) := by
  cases v <;> evaluate

example (v : Bool) : (Comb.count 3 (Collect.vec _) (Parsers.token v (byte 'a'))) ⟨.endOfInput, (bytes "")⟩ () =
    .ok (.incomplete 1, ()) := by
  cases v <;> evaluate

example (v : Bool) : (Comb.count 3 (Collect.vec _) (Parsers.token v (byte 'a'))) ⟨.endOfInput, (bytes "a")⟩ () =
    .ok (.incomplete 1, ()) := by
  cases v <;> evaluate

example (v : Bool) : (Comb.count 3 (Collect.vec _) (Parsers.token v (byte 'a'))) ⟨.endOfInput, (bytes "aa")⟩ () =
    .ok (.incomplete 1, ()) := by
  cases v <;> evaluate

example (v : Bool) : (Comb.count 3 (Collect.vec _) (Parsers.token v (byte 'a'))) ⟨.endOfInput, (bytes "aaa")⟩ () =
    .ok (.data ⟨.endOfInput, (bytes "")⟩ [(byte 'a'), (byte 'a'), (byte 'a')], ()) := by
  cases v <;> evaluate

example (v : Bool) : (Comb.count 3 (Collect.vec _) (Parsers.token v (byte 'a'))) ⟨.endOfInput, (bytes "aaaa")⟩ () =
    .ok (.data ⟨.endOfInput, (bytes "a")⟩ [(byte 'a'), (byte 'a'), (byte 'a')], ()) := by
  cases v <;> evaluate

/-! `skip_many1_test`, src/combinators/mod.rs:494-503 -/

example (v : Bool) : (Comb.skipMany1 (Parsers.token v (byte 'a'))) ⟨.default, (bytes "aabc")⟩ () =
    .ok (.data ⟨.default, (bytes "bc")⟩ (), ()) := by
  cases v <;> evaluate

example (v : Bool) : (Comb.skipMany1 (Parsers.token v (byte 'a'))) ⟨.default, (bytes "abc")⟩ () =
    .ok (.data ⟨.default, (bytes "bc")⟩ (), ()) := by
  cases v <;> evaluate

example : (Comb.skipMany1 (Parser.err (T := Unit) "error")) ⟨.default, (bytes "bc")⟩ () =
    .ok (.error (bytes "bc") "error", ()) := by
  evaluate

example (v : Bool) : (Comb.skipMany1 (Parsers.token v (byte 'a'))) ⟨.default, (bytes "aaa")⟩ () =
    .ok (.incomplete 1, ()) := by
  cases v <;> evaluate

example (v : Bool) : (Comb.skipMany1 (Parsers.token v (byte 'a'))) ⟨.endOfInput, (bytes "aabc")⟩ () =
    .ok (.data ⟨.endOfInput, (bytes "bc")⟩ (), ()) := by
  cases v <;> evaluate

example (v : Bool) : (Comb.skipMany1 (Parsers.token v (byte 'a'))) ⟨.endOfInput, (bytes "abc")⟩ () =
    .ok (.data ⟨.endOfInput, (bytes "bc")⟩ (), ()) := by
  cases v <;> evaluate

example : (Comb.skipMany1 (Parser.err (T := Unit) "error")) ⟨.endOfInput, (bytes "bc")⟩ () =
    .ok (.error (bytes "bc") "error", ()) := by
  evaluate

example (v : Bool) : (Comb.skipMany1 (Parsers.token v (byte 'a'))) ⟨.endOfInput, (bytes "aaa")⟩ () =
    .ok (.data ⟨.endOfInput, (bytes "")⟩ (), ()) := by
  cases v <;> evaluate

/-! `many_till_test`, src/combinators/mod.rs:506-518 -/

example (v : Bool) : (Comb.manyTill (Collect.vec _) Parsers.any (Parsers.token v (byte 'c'))) ⟨.default, (bytes "abcd")⟩ () =
    .ok (.data ⟨.default, (bytes "d")⟩ [(byte 'a'), (byte 'b')], ()) := by
  cases v <;> evaluate

example (v : Bool) : (Comb.manyTill (Collect.vec _) Parsers.any (Parsers.token v (byte 'c'))) ⟨.default, (bytes "abd")⟩ () =
    .ok (.incomplete 1, ()) := by
  cases v <;> evaluate

example (v : Bool) : (Comb.manyTill (Collect.vec UInt8) (Parser.err ()) (Parsers.token v (byte 'c'))) ⟨.default, (bytes "abcd")⟩ () =
    .ok (.error (bytes "abcd") (), ()) := by
  cases v <;> evaluate

/-! `matched_by_test`, src/combinators/mod.rs:521-526 -/

example : (Comb.matchedBy Parsers.any) ⟨.default, (bytes "abc")⟩ () =
    .ok (.data ⟨.default, (bytes "bc")⟩ ((bytes "a"), (byte 'a')), ()) := by
  evaluate

example : (Comb.matchedBy (Parser.err (T := Unit) "my error")) ⟨.default, (bytes "abc")⟩ () =
    .ok (.error (bytes "abc") "my error", ()) := by
  evaluate

example : (Comb.matchedBy (Parser.andThen id (Parser.mapErr Parsers.any (fun _ => "any error")) (Parser.err (T := Unit) "my error"))) ⟨.default, (bytes "abc")⟩ () =
    .ok (.error (bytes "bc") "my error", ()) := by
  evaluate

example : (Comb.matchedBy Parsers.any) ⟨.default, (bytes "")⟩ () =
    .ok (.incomplete 1, ()) := by
  evaluate

/-! `sep_by_test`, src/combinators/mod.rs:529-564 -/

example (v : Bool) : (Comb.sepBy id (Collect.vec _) Parsers.any (Parsers.token v (byte ';'))) ⟨.endOfInput, (bytes "")⟩ () =
    .ok (.data ⟨.endOfInput, (bytes "")⟩ [], ()) := by
  cases v <;> evaluate

example (v : Bool) : (Comb.sepBy id (Collect.vec _) (Parsers.token v (byte 'a')) (Parsers.token v (byte ';'))) ⟨.endOfInput, (bytes "b")⟩ () =
    .ok (.data ⟨.endOfInput, (bytes "b")⟩ [], ()) := by
  cases v <;> evaluate

example (v : Bool) : (Comb.sepBy id (Collect.vec _) Parsers.any (Parsers.token v (byte ';'))) ⟨.endOfInput, (bytes "a")⟩ () =
    .ok (.data ⟨.endOfInput, (bytes "")⟩ [(byte 'a')], ()) := by
  cases v <;> evaluate

example (v : Bool) : (Comb.sepBy id (Collect.vec _) Parsers.any (Parsers.token v (byte ';'))) ⟨.endOfInput, (bytes "a;c")⟩ () =
    .ok (.data ⟨.endOfInput, (bytes "")⟩ [(byte 'a'), (byte 'c')], ()) := by
  cases v <;> evaluate

example (v : Bool) : (Comb.sepBy id (Collect.vec _) Parsers.any (Parsers.token v (byte ';'))) ⟨.endOfInput, (bytes "a;c;")⟩ () =
    .ok (.data ⟨.endOfInput, (bytes ";")⟩ [(byte 'a'), (byte 'c')], ()) := by
  cases v <;> evaluate

example (v : Bool) : (Comb.sepBy id (Collect.vec _) Parsers.any (Parsers.string v (bytes "--"))) ⟨.endOfInput, (bytes "a--c-")⟩ () =
    .ok (.data ⟨.endOfInput, (bytes "-")⟩ [(byte 'a'), (byte 'c')], ()) := by
  cases v <;> evaluate

example (v : Bool) : (Comb.sepBy id (Collect.vec _) Parsers.any (Parsers.token v (byte ';'))) ⟨.endOfInput, (bytes "abc")⟩ () =
    .ok (.data ⟨.endOfInput, (bytes "bc")⟩ [(byte 'a')], ()) := by
  cases v <;> evaluate

example (v : Bool) : (Comb.sepBy id (Collect.vec _) Parsers.any (Parsers.token v (byte ';'))) ⟨.endOfInput, (bytes "a;bc")⟩ () =
    .ok (.data ⟨.endOfInput, (bytes "c")⟩ [(byte 'a'), (byte 'b')], ()) := by
  cases v <;> evaluate

example (v : Bool) : (Comb.sepBy id (Collect.vec _) Parsers.any (Parsers.token v (byte ';'))) ⟨.default, (bytes "abc")⟩ () =
    .ok (.data ⟨.default, (bytes "bc")⟩ [(byte 'a')], ()) := by
  cases v <;> evaluate

example (v : Bool) : (Comb.sepBy id (Collect.vec _) Parsers.any (Parsers.token v (byte ';'))) ⟨.default, (bytes "a;bc")⟩ () =
    .ok (.data ⟨.default, (bytes "c")⟩ [(byte 'a'), (byte 'b')], ()) := by
  cases v <;> evaluate

example (v : Bool) : (Comb.sepBy id (Collect.vec _) Parsers.any (Parsers.token v (byte ';'))) ⟨.default, (bytes "")⟩ () =
    .ok (.incomplete 1, ()) := by
  cases v <;> evaluate

example (v : Bool) : (Comb.sepBy id (Collect.vec _) Parsers.any (Parsers.token v (byte ';'))) ⟨.default, (bytes "a")⟩ () =
    .ok (.incomplete 1, ()) := by
  cases v <;> evaluate

example (v : Bool) : (Comb.sepBy id (Collect.vec _) Parsers.any (Parsers.token v (byte ';'))) ⟨.default, (bytes "a;")⟩ () =
    .ok (.incomplete 1, ()) := by
  cases v <;> evaluate

example (v : Bool) : (Comb.sepBy id (Collect.vec _) Parsers.any (Parsers.token v (byte ';'))) ⟨.default, (bytes "a;c")⟩ () =
    .ok (.incomplete 1, ()) := by
  cases v <;> evaluate

example (v : Bool) : (Comb.sepBy id (Collect.vec _) Parsers.any (Parsers.token v (byte ';'))) ⟨.default, (bytes "a;c;")⟩ () =
    .ok (.incomplete 1, ()) := by
  cases v <;> evaluate

example (v : Bool) : (Comb.sepBy id (Collect.vec _) Parsers.any (Parsers.string v (bytes "--"))) ⟨.default, (bytes "a--c-")⟩ () =
    .ok (.incomplete 1, ()) := by
  cases v <;> evaluate

example (v : Bool) : (Comb.sepBy id (Collect.vec _) (Parsers.string v (bytes "aaa")) (Parsers.string v (bytes "--"))) ⟨.default, (bytes "aaa--a")⟩ () =
    .ok (.incomplete 2, ()) := by
  cases v <;> evaluate

/-! `sep_by1_test`, src/combinators/mod.rs:567-605 -/

example (v : Bool) : (Comb.sepBy1 id (Collect.vec _) Parsers.any (Parsers.token v (byte ';'))) ⟨.endOfInput, (bytes "")⟩ () =
    .ok (.incomplete 1, ()) := by
  cases v <;> evaluate

example (v : Bool) : (Comb.sepBy1 id (Collect.vec Unit) (Parser.err "my err") (Parser.mapErr (Parsers.token v (byte ';')) (fun _ => "token_err"))) ⟨.endOfInput, (bytes "b")⟩ () =
    .ok (.error (bytes "b") "my err", ()) := by
  cases v <;> evaluate

example (v : Bool) : (Comb.sepBy1 id (Collect.vec _) Parsers.any (Parsers.token v (byte ';'))) ⟨.endOfInput, (bytes "a")⟩ () =
    .ok (.data ⟨.endOfInput, (bytes "")⟩ [(byte 'a')], ()) := by
  cases v <;> evaluate

example (v : Bool) : (Comb.sepBy1 id (Collect.vec _) Parsers.any (Parsers.token v (byte ';'))) ⟨.endOfInput, (bytes "a;c")⟩ () =
    .ok (.data ⟨.endOfInput, (bytes "")⟩ [(byte 'a'), (byte 'c')], ()) := by
  cases v <;> evaluate

example (v : Bool) : (Comb.sepBy1 id (Collect.vec _) Parsers.any (Parsers.token v (byte ';'))) ⟨.endOfInput, (bytes "a;c;")⟩ () =
    .ok (.data ⟨.endOfInput, (bytes ";")⟩ [(byte 'a'), (byte 'c')], ()) := by
  cases v <;> evaluate

example (v : Bool) : (Comb.sepBy1 id (Collect.vec _) Parsers.any (Parsers.string v (bytes "--"))) ⟨.endOfInput, (bytes "a--c-")⟩ () =
    .ok (.data ⟨.endOfInput, (bytes "-")⟩ [(byte 'a'), (byte 'c')], ()) := by
  cases v <;> evaluate

example (v : Bool) : (Comb.sepBy1 id (Collect.vec _) Parsers.any (Parsers.token v (byte ';'))) ⟨.endOfInput, (bytes "abc")⟩ () =
    .ok (.data ⟨.endOfInput, (bytes "bc")⟩ [(byte 'a')], ()) := by
  cases v <;> evaluate

example (v : Bool) : (Comb.sepBy1 id (Collect.vec _) Parsers.any (Parsers.token v (byte ';'))) ⟨.endOfInput, (bytes "a;bc")⟩ () =
    .ok (.data ⟨.endOfInput, (bytes "c")⟩ [(byte 'a'), (byte 'b')], ()) := by
  cases v <;> evaluate

example (v : Bool) : (Comb.sepBy1 id (Collect.vec _) Parsers.any (Parsers.token v (byte ';'))) ⟨.default, (bytes "abc")⟩ () =
    .ok (.data ⟨.default, (bytes "bc")⟩ [(byte 'a')], ()) := by
  cases v <;> evaluate

example (v : Bool) : (Comb.sepBy1 id (Collect.vec _) Parsers.any (Parsers.token v (byte ';'))) ⟨.default, (bytes "a;bc")⟩ () =
    .ok (.data ⟨.default, (bytes "c")⟩ [(byte 'a'), (byte 'b')], ()) := by
  cases v <;> evaluate

example (v : Bool) : (Comb.sepBy1 id (Collect.vec _) Parsers.any (Parsers.token v (byte ';'))) ⟨.default, (bytes "")⟩ () =
    .ok (.incomplete 1, ()) := by
  cases v <;> evaluate

example (v : Bool) : (Comb.sepBy1 id (Collect.vec _) Parsers.any (Parsers.token v (byte ';'))) ⟨.default, (bytes "a")⟩ () =
    .ok (.incomplete 1, ()) := by
  cases v <;> evaluate

example (v : Bool) : (Comb.sepBy1 id (Collect.vec _) Parsers.any (Parsers.token v (byte ';'))) ⟨.default, (bytes "a;")⟩ () =
    .ok (.incomplete 1, ()) := by
  cases v <;> evaluate

example (v : Bool) : (Comb.sepBy1 id (Collect.vec _) Parsers.any (Parsers.token v (byte ';'))) ⟨.default, (bytes "a;c")⟩ () =
    .ok (.incomplete 1, ()) := by
  cases v <;> evaluate

example (v : Bool) : (Comb.sepBy1 id (Collect.vec _) Parsers.any (Parsers.token v (byte ';'))) ⟨.default, (bytes "a;c;")⟩ () =
    .ok (.incomplete 1, ()) := by
  cases v <;> evaluate

example (v : Bool) : (Comb.sepBy1 id (Collect.vec _) Parsers.any (Parsers.string v (bytes "--"))) ⟨.default, (bytes "a--c-")⟩ () =
    .ok (.incomplete 1, ()) := by
  cases v <;> evaluate

example (v : Bool) : (Comb.sepBy1 id (Collect.vec _) (Parsers.string v (bytes "aaa")) (Parsers.string v (bytes "--"))) ⟨.default, (bytes "aaa--a")⟩ () =
    .ok (.incomplete 2, ()) := by
  cases v <;> evaluate

/-! `look_ahead_test`, src/combinators/mod.rs:608-612 -/

example : (Comb.lookAhead Parsers.any) ⟨.default, (bytes "abc")⟩ () =
    .ok (.data ⟨.default, (bytes "abc")⟩ (byte 'a'), ()) := by
  evaluate

example (v : Bool) : (Comb.lookAhead (Parsers.string v (bytes "abc"))) ⟨.default, (bytes "a")⟩ () =
    .ok (.incomplete 2, ()) := by
  cases v <;> evaluate

example (v : Bool) : (Comb.lookAhead (Parser.mapErr (Parser.andThen id (Parsers.token v (byte 'a')) (Parsers.token v (byte 'b'))) (fun _ => "err"))) ⟨.default, (bytes "aa")⟩ () =
    .ok (.error (bytes "a") "err", ()) := by
  cases v <;> evaluate

end Chomp.Tests.Combinators
