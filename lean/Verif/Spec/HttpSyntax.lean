import Verif.Model.Hygiene
import Verif.Rust.Syntax

/-
What the expansions of the `parse!` blocks of /repo/examples/http_parser.rs are as syntax: method calls, closures, and the
few expressions in the blocks. Definitions only.
-/

namespace Chomp.Rust

open Chomp.Macro

/-- The functions of the program. The other functions in the blocks are those of the crate. -/
def programFns : List String := ["is_token", "is_horizontal_space", "is_space", "is_not_space", "is_end_of_line",
  "is_http_version", "end_of_line", "http_version", "request_line", "message_header_line", "message_header", "request"]

/-- The full name of what an identifier stands for. -/
def fullName (x : String) : String := if x ∈ programFns then "http::" ++ x else x

/-- Byte literals and byte strings of the program. -/
def literal (s : String) : Option Expr :=
  if s = "b'\\r'" then some (.byte 13)
  else if s = "b'\\n'" then some (.byte 10)
  else if s = "b':'" then some (.byte 58)
  else if s = "b\"HTTP/\"" then some (.call (.path "bytes!") [.byte 72, .byte 84, .byte 84, .byte 80, .byte 47])
  else none

/-- `a: x, b: y,` -/
def fieldsOf : List TT → Option (List String × List Expr)
  | [] => some ([], [])
  | .tok (.ident f) :: .tok .colon :: .tok (.ident x) :: .tok .comma :: r => do
    let (fs, es) ← fieldsOf r
    some (f :: fs, .path (fullName x) :: es)
  | _ => none

/-- `x, y` -/
def namesOf : List TT → Option (List Expr)
  | [.tok (.ident x)] => some [.path (fullName x)]
  | .tok (.ident x) :: .tok .comma :: r => do
    let es ← namesOf r
    some (.path (fullName x) :: es)
  | _ => none

/-- Expressions which are given to the macro: `x`, a literal, `T { a: x, b: y, }` and `(x, y)`. -/
def exprOf : List TT → Option Expr
  | [.tok (.ident x)] => some (.path (fullName x))
  | [.tok (.other s)] => literal s
  | [.tok (.ident c), .group .brace fs] => do
    let (fs, es) ← fieldsOf fs
    some (.strct c fs es)
  | [.group .paren es] => do
    let es ← namesOf es
    some (.tuple es)
  | _ => none

/-- An identifier of the macro is another one than that of the program: `i@`. -/
def nameOf (x : Name) : String := if x.mark = 0 then x.name else x.name ++ "@"

def sourceOf : Macro.Source → Option Expr
  | .tokens ts => exprOf ts
  | .var x => some (.path (nameOf x))

/-- `_` or `x` -/
def patOf : Var → Option Pat
  | .wild => some .wild
  | .pat [.tok (.ident x)] => some (.bind false x)
  | _ => none

/-- The expansion as syntax. -/
def syntaxOf : Exp → Option Expr
  | .ret src none e => do
    let s ← sourceOf src
    let e ← exprOf e
    some (.method s "ret" [e])
  | .named f src ps => do
    let s ← sourceOf src
    let es ← ps.mapM exprOf
    some (.call (.path (fullName f)) (s :: es))
  | .bind a i v b => do
    let a ← syntaxOf a
    let p ← patOf v
    let b ← syntaxOf b
    some (.method a "bind" [.closure [.bind false (nameOf i), p] b])
  | _ => none

end Chomp.Rust
