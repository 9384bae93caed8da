import Verif.Model.Stream
import Verif.Model.Parsers

/-
What the errors of the crate print, and the messages of the panics in /repo/src/parse_result.rs. Text is a
list of characters. Simplifications: the formatter has no flags (`{}` and `{:?}`, not `{:#?}`), and writing to
it does not fail.
-/

namespace Chomp.Fmt

/-- Text. -/
abbrev Text := List Char

/-- A literal text as the list of its characters. -/
macro "text!" s:str : term => do
  let cs := s.getString.toList.toArray.map fun c => Lean.Syntax.mkCharLit c
  `([$cs,*])

/-- `Display` and `Debug` for unsigned integers, of the standard library. -/
def number (n : Nat) : Text := Nat.toDigits 10 n

/-- The items of a slice in `Debug`, each but the first after a comma, and the bracket at the end. -/
def items (d : I → Text) : List I → Text
  | [] => [']']
  | [c] => d c ++ [']']
  | c :: c' :: s => d c ++ [',', ' '] ++ items d (c' :: s)

/-- `Debug` for slices and `Vec` (`DebugList`), of the standard library. `d` is `Debug` for items. -/
def slice (d : I → Text) (s : List I) : Text := '[' :: items d s

/-- `Display` for `Error`, src/parsers.rs:437-446 and 510-514. -/
def display (d : I → Text) : Error I → Text
  | .expected c => text!"expected " ++ d c
  | .unexpected => text!"unexpected"
  | .string s => text!"expected " ++ slice d s
  | .generic => text!"generic parse error (chomp was compiled without --feature verbose_error)"

/-- `description` for `Error`, src/parsers.rs:450-457 and 518-520. -/
def description : Error I → Text
  | .expected _ => text!"expected a certain token, received another"
  | .unexpected => text!"received an unexpected token"
  | .string _ => text!"expected a certain string of tokens, encountered an unexpected token"
  | .generic => text!"generic parse error (chomp was compiled without --feature verbose_error)"

/-- `Debug` for `Error`, derived at src/parsers.rs:416 and 496. `ph` is what `PhantomData` prints, which
depends on the version of the standard library. -/
def debug (ph : Text) (d : I → Text) : Error I → Text
  | .expected c => text!"Expected(" ++ d c ++ [')']
  | .unexpected => text!"Unexpected"
  | .string s => text!"String(" ++ slice d s ++ [')']
  | .generic => text!"Error(" ++ ph ++ [')']

/-- `Debug` for `ParseError`, derived at src/parse.rs:6. -/
def parseError (d : I → Text) (de : E → Text) : ParseError I E → Text
  | .error b e => text!"Error(" ++ slice d b ++ [',', ' '] ++ de e ++ [')']
  | .incomplete n => text!"Incomplete(" ++ number n ++ [')']

/-- `Debug` for `StreamError`, derived at src/buffer/mod.rs:51. `dio` is `Debug` for `io::Error`. -/
def streamError (d : I → Text) (de : E → Text) (dio : IoError → Text) : StreamError I E → Text
  | .parseError b e => text!"ParseError(" ++ slice d b ++ [',', ' '] ++ de e ++ [')']
  | .incomplete n => text!"Incomplete(" ++ number n ++ [')']
  | .ioError e => text!"IoError(" ++ dio e ++ [')']
  | .endOfInput => text!"EndOfInput"
  | .retry => text!"Retry"

/-- `ParseResult::unwrap`, src/parse_result.rs:295-303, with the message of the panic. -/
def unwrap (de : E → Text) : ParseResult I T E → Except Text T
  | .data _ t => .ok t
  | .error _ e => .error (text!"called `ParseResult::unwrap` on an error: " ++ de e)
  | .incomplete n => .error (text!"called `ParseResult::unwrap` on an incomplete state (requested " ++
      number n ++ text!" tokens)")

/-- `ParseResult::expect`, src/parse_result.rs:328-334, with the message of the panic. -/
def expect (de : E → Text) (msg : Text) : ParseResult I T E → Except Text T
  | .data _ t => .ok t
  | .error _ e => .error (msg ++ text!": " ++ de e)
  | .incomplete _ => .error (msg ++ text!": Parser in an incomplete state")

/-- `ParseResult::unwrap_err`, src/parse_result.rs:372-382, with the message of the panic. -/
def unwrapErr (dt : T → Text) : ParseResult I T E → Except Text E
  | .data _ t => .error (text!"called `ParseResult::unwrap_err` on a success state: " ++ dt t)
  | .error _ e => .ok e
  | .incomplete n => .error (text!"called `ParseResult::unwrap_err` on an incomplete state (requested " ++
      number n ++ text!" tokens)")

end Chomp.Fmt
