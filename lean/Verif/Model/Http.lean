import Verif.Model.Ascii
import Verif.Model.Stream

/-
Model of /repo/examples/http_parser.rs.

The `parse!` blocks are written as what they expand to (C85 shows that they do): `let x = p; rest` is `bind`,
`p; rest` is a `bind` which ignores the value, that is `then`. `U8Result` fixes the error type to
`Error<u8>`, so errors are not converted.
-/

namespace Chomp.Http

variable [Build]

/-- `Request`, examples/http_parser.rs:22-27. -/
structure Request where
  method : List UInt8
  uri : List UInt8
  version : List UInt8
deriving DecidableEq, Repr

/-- `Header`, examples/http_parser.rs:29-33. -/
structure Header where
  name : List UInt8
  value : List (List UInt8)
deriving DecidableEq, Repr

/-- `is_token`, examples/http_parser.rs:35-59. The arms with a single byte, in the order of the source:
`( ) < > @ , ; : \ " / [ ] ? = { }` and the space. -/
def isToken (c : UInt8) : Bool :=
  if 128 ≤ c then false
  else if c ≤ 31 then false
  else if c ∈ [40, 41, 60, 62, 64, 44, 59, 58, 92, 34, 47, 91, 93, 63, 61, 123, 125, 32] then false
  else true

/-- `is_horizontal_space`, examples/http_parser.rs:61. -/
def isHorizontalSpace (c : UInt8) : Bool := c == 32 || c == 9
/-- `is_space`, examples/http_parser.rs:62. -/
def isSpace (c : UInt8) : Bool := c == 32
/-- `is_not_space`, examples/http_parser.rs:63. -/
def isNotSpace (c : UInt8) : Bool := c != 32
/-- `is_end_of_line`, examples/http_parser.rs:64. -/
def isEndOfLine (c : UInt8) : Bool := c == 13 || c == 10
/-- `is_http_version`, examples/http_parser.rs:65. -/
def isHttpVersion (c : UInt8) : Bool := (48 ≤ c && c ≤ 57) || c == 46

/-- `end_of_line`, examples/http_parser.rs:67-73. `v` tells whether the crate is compiled with
`verbose_error`. -/
def endOfLine (v : Bool) : Parser σ UInt8 UInt8 (Error UInt8) :=
  Comb.or
    (Parser.andThen id (Parsers.token v 13) <|
      Parser.andThen id (Parsers.token v 10) <|
      Parser.ret 13)
    (Parsers.token v 10)

/-- `http_version`, examples/http_parser.rs:75-80. -/
def httpVersion (v : Bool) : Parser σ UInt8 (List UInt8) (Error UInt8) :=
  Parser.andThen id (Parsers.string v [72, 84, 84, 80, 47]) (Parsers.takeWhile1 v isHttpVersion)

/-- `request_line`, examples/http_parser.rs:82-96. -/
def requestLine (v : Bool) : Parser σ UInt8 Request (Error UInt8) :=
  Parser.bind id (Parsers.takeWhile1 v isToken) fun method =>
  Parser.andThen id (Parsers.takeWhile1 v isSpace) <|
  Parser.bind id (Parsers.takeWhile1 v isNotSpace) fun uri =>
  Parser.andThen id (Parsers.takeWhile1 v isSpace) <|
  Parser.bind id (httpVersion v) fun version =>
  Parser.ret ⟨method, uri, version⟩

/-- `message_header_line`, examples/http_parser.rs:98-106. -/
def messageHeaderLine (v : Bool) : Parser σ UInt8 (List UInt8) (Error UInt8) :=
  Parser.andThen id (Parsers.takeWhile1 v isHorizontalSpace) <|
  Parser.bind id (Parsers.takeTill isEndOfLine) fun line =>
  Parser.andThen id (endOfLine v) <|
  Parser.ret line

/-- `message_header`, examples/http_parser.rs:108-119. -/
def messageHeader (v : Bool) : Parser σ UInt8 Header (Error UInt8) :=
  Parser.bind id (Parsers.takeWhile1 v isToken) fun name =>
  Parser.andThen id (Parsers.token v 58) <|
  Parser.bind id (Comb.many1 (Collect.vec (List UInt8)) (messageHeaderLine v)) fun lines =>
  Parser.ret ⟨name, lines⟩

/-- `request`, examples/http_parser.rs:121-130. -/
def request (v : Bool) : Parser σ UInt8 (Request × List Header) (Error UInt8) :=
  Parser.bind id (requestLine v) fun r =>
  Parser.andThen id (endOfLine v) <|
  Parser.bind id (Comb.many (Collect.vec Header) (messageHeader v)) fun h =>
  Parser.andThen id (endOfLine v) <|
  Parser.ret (r, h)

/-- The type of `n`, examples/http_parser.rs:136: an integer literal without a type is an `i32`.
Overflow checks are on in debug builds (`chk`). -/
def counter (chk : Bool) : Ascii.IntTy := ⟨32, true, chk⟩

/-- One turn of the loop of `main`, examples/http_parser.rs:138-145. -/
def mainStep {S B : Type} [DataSource S UInt8] [Buffer B UInt8] (chk v : Bool)
    (x : Source S B × Int) : M σ ((Source S B × Int) ⊕ Int) := do
  let (r, s) ← x.1.parse chk (request v)
  match r with
  | .ok _ => do
    let n ← M.lift ((counter chk).num.add x.2 1)
    pure (.inl (s, n))
  | .error .retry => pure (.inl (s, x.2))
  | .error .endOfInput => pure (.inr x.2)
  | .error _ => M.panic

/-- `main`, examples/http_parser.rs:132-148: the number it prints. Opening the file is left out; `file`
is what has been opened. -/
def main {R : Type} [DataSource R UInt8] (chk v : Bool) (file : R) : M σ Int := do
  let i ← M.lift (Source.new file)
  loop (mainStep chk v) (i, 0)

end Chomp.Http
