import Verif.Tests.Run
import Verif.Model.Docs
import Verif.Lemmas.Source

/-
The examples in the documentation of the crate, which `cargo test` runs, transcribed by hand. Where an
example uses `parse!` or `parser!` the expansion is written down.
-/

namespace Chomp.Tests.Docs

open Chomp.Spec

/-- `assert_eq!(parse_only(p, b), r)` -/
def Yields (p : Parser Unit UInt8 T E) (b : String) (r : Except (ParseError UInt8 E) T) : Prop :=
  parseOnly p (bytes b) () = .ok (r, ())

/-- the errors of the parsers -/
abbrev E := Error UInt8

variable (v : Bool)

/-! src/input.rs:116-121, 137-142, 172-178, 235-245 -/

example : Yields (E := Unit) (Parser.ret "Wohoo, success!") "some input" (.ok "Wohoo, success!") := rfl
example : Yields (T := Unit) (Parser.err "Something went wrong") "some input"
    (.error (.error (bytes "some input") "Something went wrong")) := rfl
example : Yields (E := Unit) (Parser.fromResult (.ok "foo")) "test" (.ok "foo") := rfl
example : Yields (T := Unit) (Parser.fromResult (.error "error message")) "test"
    (.error (.error (bytes "test") "error message")) := rfl
example : Input.isLastSlice ⟨.endOfInput, bytes "Testing"⟩ = true := rfl
example : (do
      let i : Input UInt8 := ⟨.endOfInput, bytes "Testing"⟩
      let b ← sliceTo i.buf 4
      Parsers.take 4 (i.replace b)) () =
    .ok (.data ⟨.endOfInput, bytes ""⟩ (bytes "Test"), ()) := rfl

/-! src/parse_result.rs:117-124, 137-139, 172-176, 192-194, 213-217, 237-241 -/

example : Yields (E := Unit) (Parser.bind (E := Unit) id (Parser.ret "data") fun x => Parser.ret (x ++ " here!")) "test"
    (.ok "data here!") := rfl
example : Yields (E := Unit) (Parser.bind (E := Unit) id (Parser.ret 23) fun n => Parser.ret (n + 10)) "test"
    (.ok 33) := rfl
example : Yields (E := E) (Parser.bind (E := E) id (Parser.ret "initial state") fun _ => Parser.ret "testing!") "data"
    (.ok "testing!") := rfl
example : Yields (E := E) (Parser.andThen (E := E) id (Parser.ret "initial state") (Parser.ret "testing!")) "data"
    (.ok "testing!") := rfl
example : Yields (Parsers.any.map (· + 12)) "abc" (.ok (byte 'm')) := rfl
example : Yields (T := Unit) ((Parser.err "this is").mapErr (· ++ " an error")) "foo"
    (.error (.error (bytes "foo") "this is an error")) := rfl
example : parseOnly ((Parsers.takeWhile (· != byte ' ')).inspect fun b => set b) (bytes "test and more") [] =
    .ok (.ok (bytes "test"), bytes "test") := rfl

/-! src/parse_result.rs:272-292, 322-325, 355-368, 403-421 -/

example : (do let r ← Parsers.token v (byte 'a') (Input.new (bytes "a")); r.unwrap) () =
    .ok (byte 'a', ()) := by cases v <;> rfl
example : (do let r ← Parsers.token v (byte 'b') (Input.new (bytes "a")); r.unwrap) () = .panic := by
  cases v <;> rfl
example : (do let r ← Parsers.take 2 (Input.new (bytes "a")); r.unwrap) () = .panic := rfl
example : (do let r ← Parsers.token v (byte 'b') (Input.new (bytes "a")); r.expect) () = .panic := by
  cases v <;> rfl
example : (do let r ← Parsers.token true (byte 'b') (Input.new (bytes "a")); r.unwrapErr) () =
    .ok (.expected 98, ()) := rfl
example : (do let r ← Parsers.token true (byte 'a') (Input.new (bytes "a")); r.unwrapErr) () = .panic := rfl
example : Yields (E := E) (fun i => do
      match ← Parsers.take 10 i with
      | .data b d => pure (b.ret d)
      | _ => pure (i.ret (bytes "test"))) "foo" (.ok (bytes "test")) := rfl

/-! src/parse.rs:22-26, 37-49 -/

/-- `u32` in a debug build -/
abbrev u32 : Ascii.IntTy := ⟨32, false, true⟩
/-- `u8` in a debug build -/
abbrev u8 : Ascii.IntTy := ⟨8, false, true⟩
/-- `i16` in a debug build -/
abbrev i16 : Ascii.IntTy := ⟨16, true, true⟩

example : Yields (Ascii.decimal v u32.num) "123foobar" (.ok 123) := by cases v <;> rfl
example : Yields (Ascii.decimal v u32.num) "foobar" (.error (.error (bytes "foobar") (Err.new v))) := by
  cases v <;> rfl

def myParser : Parser Unit UInt8 (List UInt8) E :=
  (Parsers.string v (bytes "pattern")).bind id fun r => (Parsers.eof v).andThen id <| Parser.ret r

example : Yields (myParser v) "pattern" (.ok (bytes "pattern")) := by cases v <;> rfl
example : Yields (myParser v) "pattern and more" (.error (.error (bytes " and more") (Err.new v))) := by
  cases v <;> rfl

/-! src/ascii.rs:79, 98, 118-120, 145-147 -/

example : Yields Ascii.skipWhitespace " \t " (.ok ()) := rfl
example : Yields (Ascii.digit v) "1" (.ok (byte '1')) := by cases v <;> rfl
example : Yields (Ascii.signed v i16.num (Ascii.decimal v i16.num)) "-123" (.ok (-123)) := by cases v <;> rfl
example : Yields (Ascii.decimal v u8.num) "123" (.ok 123) := by cases v <;> rfl

/-! src/parsers.rs:22, 42, 64-68, 97, 117, 138-140, 156, 173, 194-206, 237-239, 271-273, 294-300,
321-326, 348, 368, 395-397 -/

example : Yields Parsers.any "abc" (.ok (byte 'a')) := rfl
example : Yields (Parsers.satisfy v (· == byte 'a')) "abc" (.ok (byte 'a')) := by cases v <;> rfl

/-- `to_ascii_uppercase` -/
def upper (c : UInt8) : UInt8 := if Ascii.isLowercase c then c - 32 else c

example : Yields (Parsers.satisfyWith v upper (· == byte 'T')) "testing" (.ok (byte 'T')) := by
  cases v <;> rfl
example : Yields (Parsers.token v (byte 'a')) "abc" (.ok (byte 'a')) := by cases v <;> rfl
example : Yields (Parsers.notToken v (byte 'b')) "abc" (.ok (byte 'a')) := by cases v <;> rfl
example : Yields Parsers.peek "abc" (.ok (some (byte 'a'))) := rfl
example : Yields Parsers.peek "" (.ok none) := rfl
example : Yields Parsers.peekNext "abc" (.ok (byte 'a')) := rfl
example : Yields (Parsers.take 3) "abcd" (.ok (bytes "abc")) := rfl
example : Yields (Parsers.takeWhile fun c => c == byte 'a' || c == byte 'b') "abcdcba" (.ok (bytes "ab")) := rfl
example : Yields (Parsers.takeWhile fun c => c == byte 'z') "abcdcba" (.ok (bytes "")) := rfl
example : Yields (Parsers.takeWhile1 v fun c => c == byte 'a' || c == byte 'b') "abcdcba" (.ok (bytes "ab")) := by
  cases v <;> rfl
example : Yields (Parsers.takeTill fun c => c == byte 'd') "abcdef" (.ok (bytes "abc")) := rfl
example : Yields (Parsers.scan false fun s c =>
      if s && c == byte '/' then none else some (c == byte '*')) "/*test*of*scan*/ foo"
    (.ok (bytes "/*test*of*scan*")) := rfl
example : Yields (Parsers.runScanner 0 fun s c =>
      if s == byte '*' && c == byte '/' then none else some c) "/*test*of*scan*/ foo"
    (.ok (bytes "/*test*of*scan*", byte '*')) := rfl
example : Yields Parsers.takeRemainder "abcd" (.ok (bytes "abcd")) := rfl
example : Yields (Parsers.string v (bytes "abc")) "abcdef" (.ok (bytes "abc")) := by cases v <;> rfl
example : Yields ((Parsers.token v (byte 'a')).andThen id (Parsers.eof v)) "a" (.ok ()) := by cases v <;> rfl

/-! src/combinators/mod.rs:50-55, 119-125, 177-179, 218-220, 256-258, 282-284, 325, 352-354;
src/combinators/bounded.rs:13-15 -/

example : Yields (Comb.option (Parsers.token v (byte 'a')) (byte 'd')) "abc" (.ok (byte 'a')) := by
  cases v <;> rfl
example : Yields (Comb.option (Parsers.token v (byte 'a')) (byte 'd')) "bbc" (.ok (byte 'd')) := by
  cases v <;> rfl
example : Yields (Comb.many (Collect.vec _)
      ((Parsers.takeWhile1 v fun c => c != byte ',' && c != byte ' ').bind id fun c =>
        (Parsers.token v (byte ',')).map fun _ => c)) "a,bc,cd "
    (.ok [bytes "a", bytes "bc"]) := by
  unfold Yields parseOnly; cases v <;> evaluate
example : Yields (Comb.sepBy id (Collect.vec _) (Ascii.decimal v u8.num) (Parsers.token v (byte ';'))) "91;03;20"
    (.ok [91, 3, 20]) := by
  unfold Yields parseOnly; cases v <;> evaluate
example : Yields (Comb.sepBy1 id (Collect.vec _) (Ascii.decimal v u8.num) (Parsers.token v (byte ';'))) "91;03;20"
    (.ok [91, 3, 20]) := by
  unfold Yields parseOnly; cases v <;> evaluate
example : Yields (Comb.manyTill (Collect.vec _) Parsers.any (Parsers.token v (byte ';'))) "abc;def"
    (.ok [byte 'a', byte 'b', byte 'c']) := by
  unfold Yields parseOnly; cases v <;> evaluate
example : Yields ((Comb.skipMany (Parsers.token v (byte 'a'))).andThen id (Parsers.token v (byte 'b'))) "aaaabc"
    (.ok (byte 'b')) := by
  unfold Yields parseOnly Parser.andThen; cases v <;> evaluate
example : Yields (Comb.matchedBy (Ascii.decimal v u32.num)) "123" (.ok (bytes "123", 123)) := by
  cases v <;> rfl
example : Yields ((Comb.lookAhead (Parsers.take 4)).bind id fun t => (Parsers.take 7).map fun u => (t, u)) "testing"
    (.ok (bytes "test", bytes "testing")) := rfl
example : Yields (Bounded.many (.range 2 4) (Collect.vec _) Parsers.any) "abcd"
    (.ok [byte 'a', byte 'b', byte 'c']) := by
  unfold Yields parseOnly; evaluate

/-! src/lib.rs:27-43, 96-104, 147-161; src/macros.rs:32-46, 59-71, 90-98. Two bytes encode the `å`. -/

def martin : List UInt8 := bytes "Martin"
def wernstaal : List UInt8 := bytes "Wernst" ++ [195, 165] ++ bytes "l"

example : parseOnly (Docs.name v) (martin ++ [32] ++ wernstaal ++ [10]) () =
    .ok (.ok ⟨martin, wernstaal⟩, ()) := by cases v <;> rfl
example : Yields (Parsers.satisfy v fun c => c == byte 'c' || c == byte 'h' || c == byte 'a' || c == byte 'r') "h"
    (.ok (byte 'h')) := by cases v <;> rfl
example : Yields (Docs.f true v) "33missiles" (.ok (3, 3, 6)) := by cases v <;> rfl
example : Yields (Docs.parseIp true v) "ip:192.168.0.1;" (.ok (192, 168, 0, 1)) := by cases v <;> rfl
example : Yields (Docs.logSeverity v) "INFO" (.ok .info) := by cases v <;> rfl

/-! src/macros.rs:148-154, 191-198, 211-216, 229-231, 247-261, 283-285, 298-300, 313-315, 330-332,
595-597 -/

example : Yields ((Parsers.token v (byte ':')).andThen id <| (Ascii.decimal v u32.num).bind id fun n =>
      Parser.ret (n * 2)) ":21" (.ok 42) := by cases v <;> rfl
example : Yields (E := E) (Parser.ret "second parameter") ":21" (.ok "second parameter") := rfl
example : Yields (E := Unit) (Parser.ret "some success data") "input data" (.ok "some success data") := rfl
example : Yields (T := UInt32) (Parser.err "some error data") "input data"
    (.error (.error (bytes "input data") "some error data")) := rfl
example : Yields (fun i => match true with
    | true => Parser.ret "Success!" i
    | false => pure (i.err "failure")) "" (.ok "Success!") := rfl
example : Yields (Docs.skip (Ascii.decimal v u32.num) (Parsers.token v (byte ';'))) "123;" (.ok 123) := by
  cases v <;> rfl
example : Yields (Comb.or (Parsers.token v (byte 'a')) (Parsers.token v (byte 'b'))) "b" (.ok (byte 'b')) := by
  cases v <;> rfl
example : Yields ((Parsers.token v (byte 'a')).andThen id (Parsers.token v (byte ';'))) "a;" (.ok (byte ';')) := by
  cases v <;> rfl
example : Yields (Comb.or (Parser.err "foo") (Parser.ret "bar")) "a;" (.ok "bar") := rfl
example : Yields (Comb.or (Parsers.string v (bytes "ab")) (Parsers.string v (bytes "ac"))) "ac" (.ok (bytes "ac")) := by
  cases v <;> rfl

/-! src/buffer/slice.rs:15-22, 32-39 -/

def oo : Parser Unit UInt8 (List UInt8) E :=
  (Parsers.token v (byte 'f')).andThen id (Parsers.take 2)

example : ∃ s, (SliceStream.new (bytes "foo")).parse true (oo v) () = .ok ((.ok (bytes "oo"), s), ()) := by
  cases v <;> exact ⟨_, rfl⟩
example : ∃ s, (SliceStream.new (bytes "foofoo")).parse true (Comb.many (Collect.vec _) (oo v)) () =
    .ok ((.ok [bytes "oo", bytes "oo"], s), ()) := by
  refine ⟨⟨6, bytes "foofoo"⟩, ?_⟩; unfold SliceStream.parse; cases v <;> evaluate

/-! src/buffer/mod.rs:13-26, with the first lines of README.md and a smaller buffer -/

example : ∃ s, (Source.fromRead (R := Script UInt8) ⟨[.data (byte '#') (bytes " Chomp\n\n[![Build")]⟩
      (FixedSizeBuffer.mk (List.replicate 64 none) 0 0)).parse true
    ((Parsers.takeWhile (· != byte '#')).andThen id <|
      (Parsers.token v (byte '#')).andThen id <|
      (Parsers.takeWhile1 v Ascii.isWhitespace).andThen id <|
      Parsers.takeWhile1 v fun c => c != 13 && c != 10) () =
    .ok ((.ok (bytes "Chomp"), s), ()) := by
  cases v <;> exact ⟨_, Source.parse_of_fuel 9 rfl⟩

end Chomp.Tests.Docs
