/-
The syntax of the part of Rust in which the functions of /repo are written. `tools/rust.py` reads them as
text and writes them down in Verif/Rust/Text.lean as values of these types. Types, lifetimes, visibility and
attributes are left out.
-/

namespace Chomp.Rust

/-- Patterns. References are looked through: `&p` and `ref x` are `p` and `x`. -/
inductive Pat where
  | wild
  /-- `x` or `mut x` -/
  | bind (mutable : Bool) (x : String)
  | num (n : Nat)
  | con (c : String) (ps : List Pat)
  | tuple (ps : List Pat)

/-- Binary operators (without `&&` and `||`). -/
inductive Op where
  | add | sub | mul | eq | ne | lt | le | gt | ge | bitor

mutual

/-- Expressions. -/
inductive Expr where
  | num (n : Nat)
  /-- `b'c'` -/
  | byte (n : Nat)
  | bool (b : Bool)
  /-- a variable, a constant or a function -/
  | path (x : String)
  /-- a variant, a tuple struct or a range with its fields -/
  | con (c : String) (es : List Expr)
  /-- a struct with named fields -/
  | strct (c : String) (xs : List String) (es : List Expr)
  | tuple (es : List Expr)
  | call (f : Expr) (es : List Expr)
  | method (e : Expr) (m : String) (es : List Expr)
  | field (e : Expr) (x : String)
  | index (e k : Expr)
  | neg (e : Expr)
  | not (e : Expr)
  | ref (e : Expr)
  | refMut (e : Expr)
  /-- `&mut e[k]` -/
  | refMutIndex (e k : Expr)
  | deref (e : Expr)
  | bin (o : Op) (a b : Expr)
  | and (a b : Expr)
  | or (a b : Expr)
  | assign (l r : Expr)
  /-- `e[k] = r` -/
  | assignIndex (e k r : Expr)
  | ite (c t e : Expr)
  | mtch (e : Expr) (arms : List Arm)
  /-- `{ let p = e; b }` -/
  | letIn (p : Pat) (e b : Expr)
  /-- `{ a; b }` -/
  | seq (a b : Expr)
  | closure (ps : List Pat) (b : Expr)
  | ret (e : Expr)
  | brk
  | loop (b : Expr)
  | forIn (p : Pat) (e b : Expr)
  /-- `panic!`, `unreachable!` -/
  | panic

/-- `p if guard => body`; without a guard it is `true`. -/
inductive Arm where
  | mk (p : Pat) (guard body : Expr)

end

/-- `"..."`, as a constructor with the characters. -/
def Expr.str (s : String) : Expr := .con "str" (s.toList.map fun c => .num c.toNat)

/-- A function with its parameters; `byMut`: the first one is `&mut self`, or `&self` of which a
`Cell` is set. -/
structure Fn where
  params : List Pat
  body : Expr
  byMut : Bool := false

end Chomp.Rust
