import Verif.Model.Hygiene
import Verif.Rust.MacroRules

/-
How the expansion of `parse!` (`Exp`, Verif/Model/Hygiene.lean) is written, and what is assumed of how Rust parses
fragments in the course of an expansion (C112).
-/

namespace Chomp.MacroRules

open Chomp.Macro

/-- An identifier. -/
def Name.tree (x : Name) : Tree := .tok (.ident x.name) (x.mark ≠ 0)

/-- A token of a rule. -/
abbrev key (t : Tok) : Tree := .tok t true

/-- `$input` -/
def source : Macro.Source → Tree
  | .tokens ts => .frag .expr (users ts)
  | .var x => .frag .expr [Name.tree x]

/-- What follows `let`, or `_`. -/
def variable_ : Var → List Tree
  | .wild => [key (.other "_")]
  | .pat p => [.frag .pat (users p)]
  | .typed x t => [.tok (.ident x) false, key .colon, .frag .ty (users t)]

/-- `.ret::<t, u>(e)` -/
def method (f : String) (types : Option (List TT × List TT)) (e : List TT) : List Tree :=
  [key (.other "."), key (.ident f)] ++
  (match types with
    | none => []
    | some (t, u) => [key (.other "::"), key .lt, .frag .ty (users t), key .comma, .frag .ty (users u), key .gt]) ++
  [.group .paren [.frag .expr (users e)]]

/-- The expansion as it is written. What an invocation expands to is one expression, and so is what was parsed as one. -/
def text : Exp → List Tree
  | .ret src types e => source src :: method "ret" types e
  | .err src types e => source src :: method "err" types e
  | .inline s src e =>
    [.group .brace [key .kwLet, Name.tree s, key .eq, source src, key .semi, .frag .expr (users e)]]
  | .named f src ps =>
    [.tok (.ident f) false,
      .group .paren (source src :: key .comma :: (ps.map fun p => .frag .expr (users p)).intersperse (key .comma))]
  | .bind a i v b =>
    [.frag .expr (text a), key (.other "."), key (.ident "bind"),
      .group .paren ([key .bar, Name.tree i, key .comma] ++ variable_ v ++ [key .bar, .frag .expr (text b)])]
  | .or src i a j b =>
    [key (.other "$crate"), key (.other "::"), key (.ident "combinators"), key (.other "::"), key (.ident "or"),
      .group .paren [source src, key .comma, .frag .expr [key .bar, Name.tree i, key .bar, .frag .expr (text a)], key .comma,
        .frag .expr [key .bar, Name.tree j, key .bar, .frag .expr (text b)]]]
  | .skip a i l b =>
    [.frag .expr (text a), key (.other "."), key (.ident "bind"),
      .group .paren [key .bar, Name.tree i, key .comma, Name.tree l, key .bar, .frag .expr (text b), key (.other "."),
        key (.ident "map"), .group .paren [key .bar, key (.other "_"), key .bar, Name.tree l]]]

def parsed : Parsed → Tree
  | .input src => source src
  | .block e => .frag .expr (text e)

/-- Trees after which an expression ends. -/
def Ends : List Tree → Prop
  | [] => True
  | t :: _ => t = key .semi ∨ t = key .comma

/-- How Rust parses fragments, `P`, given how it does so in the tokens of the program, `R`. -/
structure Extends (R : Fragments) (P : Parse) : Prop where
  /-- Fragments of the program. -/
  expr : ∀ ts, P .expr (users ts) = (R.expr ts).map fun x => (.frag .expr (users x.1), x.1.length - 1)
  ty : ∀ ts, P .ty (users ts) = (R.ty ts).map fun x => (.frag .ty (users x.1), x.1.length - 1)
  pat : ∀ ts, P .pat (users ts) = (R.pat ts).map fun x => (.frag .pat (users x.1), x.1.length - 1)
  ty_ne : ∀ {ts e r}, R.ty ts = some (e, r) → e ≠ []
  pat_ne : ∀ {ts e r}, R.pat ts = some (e, r) → e ≠ []
  /-- Fragments which have been parsed before. -/
  expr_again : ∀ ts {r}, Ends r → P .expr (.frag .expr ts :: r) = some (.frag .expr ts, 0)
  ty_again : ∀ ts, P .ty [.frag .ty ts] = some (.frag .ty ts, 0)
  pat_again : ∀ ts, P .pat [.frag .pat ts] = some (.frag .pat ts, 0)
  /-- The identifiers of the rules. -/
  expr_name : ∀ x {r}, Ends r → P .expr (key (.ident x) :: r) = some (.frag .expr [key (.ident x)], 0)
  /-- `|x| m!{ts}` -/
  closure : ∀ x m ts {r}, Ends r → P .expr (key .bar :: key (.ident x) :: key .bar :: .call m ts :: r) =
    some (.frag .expr [key .bar, key (.ident x), key .bar, .call m ts], 3)
  /-- No expression begins with the `@` of a rule. -/
  expr_at : ∀ r, P .expr (key .at :: r) = none
  /-- `_` is a pattern. -/
  pat_wild : P .pat [key (.other "_")] = some (.frag .pat [key (.other "_")], 0)
  /-- Of `x: t` only the identifier is a pattern. -/
  pat_colon : ∀ x ts, P .pat [.tok (.ident x) false, key .colon, .frag .ty ts] = some (.frag .pat [.tok (.ident x) false], 0)

end Chomp.MacroRules
