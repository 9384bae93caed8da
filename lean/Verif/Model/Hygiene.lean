import Verif.Model.Macro

/-
The expression which `parse!` expands to, with the input and the names which the rules of
`__parse_internal!` introduce, /repo/src/macros.rs:447-586, and its value where names are looked up in a
scope. In Verif/Model/Macro.lean the input is left out (`Code`) and `i` and `l` have no names.

An identifier of `macro_rules!` is a name together with the expansion it comes from: identifiers with the
same name which come from different expansions, or from the block and from a rule, are different. Here a
mark stands for that; 0 is for the identifiers in the tokens given to the macro. Hygiene is for local
variables only: that an item named `i` or `l` (a constant, a unit struct) is in scope, which would change
the patterns in the rules, is left out, as is the resolution of macros and of functions by name.
-/

namespace Chomp.Macro

/-- An identifier. -/
structure Name where
  name : String
  mark : Nat
deriving DecidableEq, Repr

/-- What a variable is bound to. -/
inductive Bound (I V : Type) where
  | input (i : Input I)
  | value (v : V)

/-- The local variables in scope, looked up by identifier. -/
abbrev Scope (I V : Type) := Name → Option (Bound I V)

/-- The local variables which tokens given to the macro can refer to, looked up by name. -/
abbrev Locals (I V : Type) := String → Option (Bound I V)

def Scope.locals (ρ : Scope I V) : Locals I V := fun s => ρ ⟨s, 0⟩

def Scope.set (ρ : Scope I V) (x : Name) (b : Bound I V) : Scope I V := fun y => if y = x then some b else ρ y

/-- Binds the variables of a pattern in the block. -/
def Scope.setAll (ρ : Scope I V) : List (String × V) → Scope I V
  | [] => ρ
  | (s, v) :: l => (ρ.set ⟨s, 0⟩ (.value v)).setAll l

/-- What the tokens given to the macro mean, which are plain Rust: expressions for `ret` and parameters,
for `err`, after `->`, and for the input, functions which are called, and what the pattern after `let`
binds. They can refer to local variables only by the identifiers in them. -/
structure User (σ I V E : Type) where
  expr : Locals I V → List TT → M σ V
  error : Locals I V → List TT → M σ E
  result : Locals I V → List TT → M σ (ParseResult I V E)
  input : Locals I V → List TT → M σ (Input I)
  call : Locals I V → String → List V → Parser σ I V E
  binds : Var → V → List (String × V)

/-- `$input`: the tokens from the invocation, or the parameter of a closure. -/
inductive Source where
  | tokens (ts : List TT)
  | var (x : Name)

/-- The expansion. -/
inductive Exp where
  /-- `src.ret(e)`, `src.ret::<t, u>(e)` -/
  | ret (src : Source) (types : Option (List TT × List TT)) (e : List TT)
  /-- `src.err(e)`, `src.err::<t, u>(e)` -/
  | err (src : Source) (types : Option (List TT × List TT)) (e : List TT)
  /-- `{ let s = src; e }` -/
  | inline (s : Name) (src : Source) (e : List TT)
  /-- `f(src, ps)` -/
  | named (f : String) (src : Source) (ps : List (List TT))
  /-- `a.bind(|i, v| b)` -/
  | bind (a : Exp) (i : Name) (v : Var) (b : Exp)
  /-- `or(src, |i| a, |j| b)` -/
  | or (src : Source) (i : Name) (a : Exp) (j : Name) (b : Exp)
  /-- `a.bind(|i, l| b.map(|_| l))` -/
  | skip (a : Exp) (i l : Name) (b : Exp)

/-- The right hand sides of the rules, src/macros.rs:453-540. The identifiers `i` and `l` which the rules
introduce get the mark of the expansion: `marks` gives it, for the place in the block where the rule is
used. -/
def Code.exp (marks : List Nat → Nat) : Code → List Nat → Source → Exp
  | .ret types e, _, src => .ret src types e
  | .err types e, _, src => .err src types e
  | .inline s e, _, src => .inline ⟨s, 0⟩ src e
  | .named f ps, _, src => .named f src ps
  | .bind v a b, at_, src =>
    .bind (a.exp marks (0 :: at_) src) ⟨"i", marks at_⟩ v (b.exp marks (1 :: at_) (.var ⟨"i", marks at_⟩))
  | .or a b, at_, src =>
    .or src ⟨"i", marks at_⟩ (a.exp marks (0 :: at_) (.var ⟨"i", marks at_⟩))
      ⟨"i", marks at_⟩ (b.exp marks (1 :: at_) (.var ⟨"i", marks at_⟩))
  | .skip a b, at_, src =>
    .skip (a.exp marks (0 :: at_) src) ⟨"i", marks at_⟩ ⟨"l", marks at_⟩
      (b.exp marks (1 :: at_) (.var ⟨"i", marks at_⟩))

/-- The value of a variable which is to be an input. If there is none the program is not accepted by
rustc; here this is a panic. -/
def Source.eval (U : User σ I V E) (ρ : Scope I V) : Source → M σ (Input I)
  | .tokens ts => U.input ρ.locals ts
  | .var x =>
    match ρ x with
    | some (.input i) => pure i
    | _ => M.panic

/-- The value of a variable which is not to be an input. -/
def Scope.value (ρ : Scope I V) (x : Name) : M σ V :=
  match ρ x with
  | some (.value v) => pure v
  | _ => M.panic

/-- Arguments are evaluated from left to right. -/
def User.args (U : User σ I V E) (ρ : Scope I V) : List (List TT) → M σ (List V)
  | [] => pure []
  | e :: es => do
    let v ← U.expr ρ.locals e
    let vs ← U.args ρ es
    pure (v :: vs)

/-- The value of the expansion. Closures see the variables in scope where they are written, and their
parameters. -/
def Exp.eval (U : User σ I V E) : Exp → Scope I V → M σ (ParseResult I V E)
  | .ret src _ e, ρ => do
    let i ← src.eval U ρ
    let v ← U.expr ρ.locals e
    pure (i.ret v)
  | .err src _ e, ρ => do
    let i ← src.eval U ρ
    let v ← U.error ρ.locals e
    pure (i.err v)
  | .inline s src e, ρ => do
    let i ← src.eval U ρ
    U.result (ρ.set s (.input i)).locals e
  | .named f src ps, ρ => do
    let i ← src.eval U ρ
    let vs ← U.args ρ ps
    U.call ρ.locals f vs i
  | .bind a i v b, ρ => do
    let r ← a.eval U ρ
    r.bind id fun m x =>
      b.eval U ((ρ.set i (.input m)).setAll (match v with | .wild => [] | v => U.binds v x))
  | .or src i a j b, ρ => do
    let m ← src.eval U ρ
    Comb.or (fun m => a.eval U (ρ.set i (.input m))) (fun m => b.eval U (ρ.set j (.input m))) m
  | .skip a i l b, ρ => do
    let r ← a.eval U ρ
    r.bind id fun m x => do
      let r ← b.eval U ((ρ.set i (.input m)).set l (.value x))
      r.map fun _ => Scope.value ((ρ.set i (.input m)).set l (.value x)) l

/-- What `parse!` expands to: with nothing after the input, the input itself. -/
inductive Parsed where
  | input (src : Source)
  | block (e : Exp)

/-- `parse!`, src/macros.rs:428-430, 573-585, with the empty block. -/
def parseText (R : Fragments) (marks : List Nat → Nat) (n : Nat) (ts : List TT) : Option Parsed :=
  match R.expr ts with
  | some (input, []) => some (.input (.tokens input))
  | some (input, [.tok .semi]) => some (.input (.tokens input))
  | some (input, .tok .semi :: block) =>
    (expand tables R n (.block block)).map fun c => .block (c.exp marks [] (.tokens input))
  | _ => none

/-- The values of the variables of the block. -/
def Locals.setAll (ρ : Locals I V) : List (String × V) → Locals I V
  | [] => ρ
  | (s, v) :: l => Locals.setAll (fun y => if y = s then some (.value v) else ρ y) l

/-- The meaning of the parts of a block, `Sem`, which the meaning of plain Rust gives. -/
def User.sem (U : User σ I V E) : Sem σ I V E (Locals I V) where
  eval := U.expr
  evalErr := U.error
  inline := fun ρ s e i => U.result (fun y => if y = s then some (.input i) else ρ y) e
  call := U.call
  assign := fun ρ v x => ρ.setAll (U.binds v x)

end Chomp.Macro
