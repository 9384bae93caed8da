import Verif.Model.Macro

/-
The syntax of the rules of `macro_rules!`, as far as /repo/src/macros.rs uses it: repetitions are of one variable, or of
one token, and are not nested.
-/

namespace Chomp.MacroRules

open Chomp.Macro (Tok Delim TT Fragments)

/-- The kind of a fragment, `k` in `$x:k`. -/
inductive Frag where
  | expr
  | ty
  | pat
  | ident
  | tt
deriving DecidableEq, Repr

/-- The left hand side of a rule. -/
inductive Pat where
  | tok (t : Tok)
  | group (d : Delim) (ps : List Pat)
  /-- `$x:k` -/
  | var (x : String) (k : Frag)
  /-- `$($x:k) sep *`, or `+` -/
  | rep (x : String) (k : Frag) (sep : Option Tok) (plus : Bool)
  /-- `$(t)*` -/
  | reps (t : Tok)
  /-- Not written in rules: what is left of `rep` after an item of it. -/
  | again (x : String) (k : Frag) (sep : Option Tok)

/-- The right hand side of a rule. -/
inductive Tpl where
  | tok (t : Tok)
  | group (d : Delim) (ts : List Tpl)
  /-- `$x` -/
  | var (x : String)
  /-- `$($x) sep *` -/
  | rep (x : String) (sep : Option Tok)
  /-- `m!{ts}` -/
  | call (m : String) (ts : List Tpl)

/-- A rule. -/
structure Arm where
  pat : List Pat
  tpl : List Tpl

end Chomp.MacroRules
