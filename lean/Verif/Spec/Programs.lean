import Verif.Model.Programs
import Verif.Model.Http
import Verif.Model.Docs

/-
The Rust around the blocks in Verif/Model/Programs.lean: literals, variables, the functions which are
called, and the few other expressions which occur. Definitions only. What has no meaning here is a panic.
-/

namespace Chomp.Programs

open Chomp.Macro

variable [Build]

/-- A fragment is a run of tokens up to the next one which may follow it. -/
def run (p : TT → Bool) (ts : List TT) : Option (List TT × List TT) :=
  if ts.takeWhile p = [] then none else some (ts.takeWhile p, ts.dropWhile p)

def inExpr : TT → Bool
  | .tok t => t != .comma && t != .semi && t != .at && t != .arrow
  | .group _ _ => true

def inType : TT → Bool
  | .tok t => t != .comma && t != .colon && t != .eq && t != .semi
  | .group _ _ => true

def inPat : TT → Bool
  | .tok t => t != .eq && t != .colon
  | .group _ _ => true

def runs : Fragments := ⟨run inExpr, run inType, run inPat⟩

/-- The values of the programs. `u8` is a `byte`, other integers are an `int`, slices are `bytes`. -/
inductive Val where
  | byte (b : UInt8)
  | bytes (b : List UInt8)
  | int (n : Int)
  | lines (l : List (List UInt8))
  | request (r : Http.Request)
  | header (h : Http.Header)
  | headers (l : List Http.Header)
  | requests (l : List (Http.Request × List Http.Header))
  | name (n : Docs.Name)
  | log (l : Docs.Log)
  /-- predicates, which are functions or closures -/
  | pred (p : UInt8 → Bool)
  /-- functions which are parsers -/
  | parser (f : String)
  | tuple (l : List Val)

/-- Variables and their values, the innermost first. -/
abbrev Vars := List (String × Val)

/-- `b'.'` -/
def byteLit : String → Option UInt8
  | "b'\\r'" => some 13
  | "b'\\n'" => some 10
  | "b' '" => some 32
  | "b'.'" => some 46
  | "b':'" => some 58
  | "b';'" => some 59
  | _ => none

/-- `b"..."` -/
def bytesLit : String → Option (List UInt8)
  | "b\"HTTP/\"" => some [72, 84, 84, 80, 47]
  | "b\"missiles\"" => some [109, 105, 115, 115, 105, 108, 101, 115]
  | "b\"ip:\"" => some [105, 112, 58]
  | "b\"ERROR\"" => some [69, 82, 82, 79, 82]
  | "b\"WARN\"" => some [87, 65, 82, 78]
  | "b\"INFO\"" => some [73, 78, 70, 79]
  | "b\"DEBUG\"" => some [68, 69, 66, 85, 71]
  | "b\"pattern\"" => some [112, 97, 116, 116, 101, 114, 110]
  | _ => none

/-- The functions of the programs. -/
def function : String → Option Val
  | "is_token" => some (.pred Http.isToken)
  | "is_horizontal_space" => some (.pred Http.isHorizontalSpace)
  | "is_space" => some (.pred Http.isSpace)
  | "is_not_space" => some (.pred Http.isNotSpace)
  | "is_end_of_line" => some (.pred Http.isEndOfLine)
  | "is_http_version" => some (.pred Http.isHttpVersion)
  | "message_header_line" => some (.parser "message_header_line")
  | "message_header" => some (.parser "message_header")
  | "request" => some (.parser "request")
  | _ => none

/-- Names are variables or functions. -/
def lookup (env : Vars) (x : String) : Option Val :=
  match env.lookup x with
  | some v => some v
  | none => function x

def severity : String → Option Docs.Log
  | "Error" => some .error
  | "Warning" => some .warning
  | "Info" => some .info
  | "Debug" => some .debug
  | _ => none

/-- `field: x, field: x, ...` -/
def fields (env : Vars) : List TT → Option Vars
  | [] => some []
  | .tok (.ident f) :: .tok .colon :: .tok (.ident x) :: .tok .comma :: ts =>
    match lookup env x, fields env ts with
    | some v, some r => some ((f, v) :: r)
    | _, _ => none
  | _ => none

/-- The values of structs. -/
def struct (s : String) (fs : Vars) : Option Val :=
  match s with
  | "Request" =>
    match fs.lookup "method", fs.lookup "uri", fs.lookup "version" with
    | some (.bytes m), some (.bytes u), some (.bytes v) => some (.request ⟨m, u, v⟩)
    | _, _, _ => none
  | "Header" =>
    match fs.lookup "name", fs.lookup "value" with
    | some (.bytes n), some (.lines v) => some (.header ⟨n, v⟩)
    | _, _ => none
  | "Name" =>
    match fs.lookup "first", fs.lookup "last" with
    | some (.bytes f), some (.bytes l) => some (.name ⟨f, l⟩)
    | _, _ => none
  | _ => none

/-- There is a value, or else the program makes no sense. -/
def must : Option A → M σ A
  | some a => pure a
  | none => M.panic

/-- The components of a tuple, which are names or sums of two bytes. -/
def components (chk : Bool) (env : Vars) : List TT → M σ (List Val)
  | .tok (.ident x) :: .tok (.other "+") :: .tok (.ident y) :: ts =>
    match lookup env x, lookup env y, ts with
    | some (.byte a), some (.byte b), [] => do
      let c ← Docs.addU8 chk a b
      pure [.byte c]
    | _, _, _ => M.panic
  | [.tok (.ident x)] => do
    let v ← must (lookup env x)
    pure [v]
  | .tok (.ident x) :: .tok .comma :: ts => do
    let v ← must (lookup env x)
    let vs ← components chk env ts
    pure (v :: vs)
  | _ => M.panic

/-- `u32` -/
def u32 (chk : Bool) : Ascii.IntTy := ⟨32, false, chk⟩

/-- Expressions. -/
def eval (chk : Bool) (env : Vars) : List TT → M σ Val
  | [.tok (.ident x)] => must (lookup env x)
  | [.tok (.other s)] =>
    match byteLit s with
    | some b => pure (.byte b)
    | none => must ((bytesLit s).map .bytes)
  | [.tok .bar, .tok (.ident c), .tok .bar, .tok (.ident c'), .tok (.other "!="), .tok (.other s)] =>
    match byteLit s with
    | some b => if c = c' then pure (.pred (· != b)) else M.panic
    | none => M.panic
  | [.tok (.ident "Log"), .tok (.other "::"), .tok (.ident l)] => must ((severity l).map .log)
  | [.tok (.ident s), .group .brace ts] => must ((fields env ts).bind (struct s))
  | [.group .paren ts] => do
    let vs ← components chk env ts
    pure (.tuple vs)
  | [.tok (.ident x), .tok .star, .tok (.other "2")] =>
    match lookup env x with
    | some (.int n) => do
      let m ← M.lift ((u32 chk).num.mul n 2)
      pure (.int m)
    | _ => M.panic
  | _ => M.panic

/-- The functions which are called with the input and further parameters. `many` and `many1` collect to
a `Vec`. `decimal` reads what type inference finds, which is `ty`. -/
def call (chk v : Bool) (ty : Ascii.IntTy) (f : String) (args : List Val) :
    Parser σ UInt8 Val (Error UInt8) :=
  match f, args with
  | "token", [.byte b] => Parser.map (Parsers.token v b) .byte
  | "string", [.bytes b] => Parser.map (Parsers.string v b) .bytes
  | "take_while1", [.pred p] => Parser.map (Parsers.takeWhile1 v p) .bytes
  | "take_till", [.pred p] => Parser.map (Parsers.takeTill p) .bytes
  | "eof", [] => Parser.map (Parsers.eof v) fun _ => .tuple []
  | "decimal", [] => Parser.map (Ascii.decimal v ty.num) .int
  | "many1", [.parser "message_header_line"] =>
    Parser.map (Comb.many1 (Collect.vec (List UInt8)) (Http.messageHeaderLine v)) .lines
  | "many", [.parser "message_header"] =>
    Parser.map (Comb.many (Collect.vec Http.Header) (Http.messageHeader v)) .headers
  | "many", [.parser "request"] =>
    Parser.map (Comb.many (Collect.vec (Http.Request × List Http.Header)) (Http.request v)) .requests
  | "end_of_line", [] => Parser.map (Http.endOfLine v) .byte
  | "http_version", [] => Parser.map (Http.httpVersion v) .bytes
  | "request_line", [] => Parser.map (Http.requestLine v) .request
  | "digit", [] => Parser.map (Docs.digit chk v) .byte
  | "read_digit", [] => Parser.map (Docs.digit chk v) .byte
  | "level", [.bytes b, .log r] => Parser.map (Docs.level v b r) .log
  | _, _ => fun _ => M.panic

/-- The meaning of the parts. There is no `err` and no inline parser in the programs. -/
def sem (chk v : Bool) (ty : Ascii.IntTy) : Sem σ UInt8 Val (Error UInt8) Vars where
  eval := eval chk
  evalErr _ _ := M.panic
  inline _ _ _ _ := M.panic
  call _ := call chk v ty
  assign env x val :=
    match x with
    | .pat [.tok (.ident x)] => (x, val) :: env
    | .typed x _ => (x, val) :: env
    | _ => env

/-- `parse!{i; ts}` expands, within the limit on nested invocations which Rust has by default, and what it
expands to is the parser `p`. -/
def Is (chk v : Bool) (ty : Ascii.IntTy) (ts : List TT) (p : Parser σ UInt8 Val (Error UInt8)) : Prop :=
  ∃ c, expand tables runs 64 (.block ts) = some c ∧ c.run (sem chk v ty) [] = p

end Chomp.Programs
