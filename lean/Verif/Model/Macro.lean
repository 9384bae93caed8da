import Verif.Model.Combinators

/-
Model of `parse!` and `parser!`, /repo/src/macros.rs:427-603: the rules of `__parse_internal!` as a
rewriting of token trees, and the meaning of the expression it expands to.

Rust's own part in this, the parsing of the fragments `$expr`, `$ty` and `$pat`, is a parameter
(`Fragments`). The names `i` and `l` introduced by the macro are taken not to clash with anything; that
this is so is C107, see Verif/Model/Hygiene.lean.
-/

namespace Chomp.Macro

inductive Delim where
  | paren
  | brace
  | bracket
deriving DecidableEq, Repr

/-- Tokens, as far as the rules distinguish them. `>>` is one token for Rust, while `<|>` and `<*` are
three and two. `ret` and `err` are identifiers. -/
inductive Tok where
  | ident (s : String)
  | kwLet
  | shr
  | lt
  | bar
  | gt
  | star
  | semi
  | eq
  | colon
  | comma
  | at
  | arrow
  | other (s : String)
deriving DecidableEq, Repr

/-- Token trees, which is what `$t:tt` matches. -/
inductive TT where
  | tok (t : Tok)
  | group (d : Delim) (ts : List TT)

/-- How Rust parses a fragment at the beginning of a token sequence: the tokens it takes, and the rest.
If there is no such fragment the expansion fails; no other rule is tried. -/
structure Fragments where
  expr : List TT → Option (List TT × List TT)
  ty : List TT → Option (List TT × List TT)
  pat : List TT → Option (List TT × List TT)

/-- What follows `let`, or `_` for statements without it. -/
inductive Var where
  | wild
  | pat (p : List TT)
  | typed (x : String) (ty : List TT)

/-- The expression which results from the expansion. The input is used exactly once, on the left, so it
is left out. -/
inductive Code where
  /-- `$input.ret($e)`, `$input.ret::<t, u>($e)` -/
  | ret (types : Option (List TT × List TT)) (e : List TT)
  /-- `$input.err($e)`, `$input.err::<t, u>($e)` -/
  | err (types : Option (List TT × List TT)) (e : List TT)
  /-- `{ let $state = $input; $e }` -/
  | inline (state : String) (e : List TT)
  /-- `$func($input, $($param),*)` -/
  | named (func : String) (params : List (List TT))
  /-- `a.bind(|i, v| b)` -/
  | bind (v : Var) (a b : Code)
  /-- `or($input, |i| a, |i| b)` -/
  | or (a b : Code)
  /-- `a.bind(|i, l| b.map(|_| l))` -/
  | skip (a b : Code)

/-! ### The rules -/

/-- How the pattern of a rule ends: `)`, a literal separator and `$($tail:tt)*`, or `$($tail:tt)*`. -/
inductive Ends where
  | stop
  | sep
  | more
deriving DecidableEq, Repr

/-- The pattern `$t1:tt ... $tn:tt`, and how it ends. -/
structure Rule where
  n : Nat
  ends : Ends
deriving DecidableEq, Repr

/-- The literal tokens `sep` at the beginning, and the rest. -/
def literal : List Tok → List TT → Option (List TT)
  | [], ts => some ts
  | s :: sep, .tok t :: ts => if s = t then literal sep ts else none
  | _ :: _, _ => none

/-- What a rule matched: the tokens bound to `$t1 ... $tn`, and what follows. -/
inductive Found where
  | stop (ts : List TT)
  | sep (ts tail : List TT)
  | more (ts tail : List TT)

def Rule.apply (sep : List Tok) (r : Rule) (ts : List TT) : Option Found :=
  if r.n ≤ ts.length then
    match r.ends with
    | .stop => if ts.drop r.n = [] then some (.stop (ts.take r.n)) else none
    | .sep => (literal sep (ts.drop r.n)).map (.sep (ts.take r.n))
    | .more => some (.more (ts.take r.n) (ts.drop r.n))
  else none

/-- Rules are tried from the first to the last. -/
def firstRule (sep : List Tok) (rules : List Rule) (ts : List TT) : Option Found :=
  rules.findSome? (·.apply sep ts)

/-- The rules for `@EXPR`, `@EXPR_ALT`, `@EXPR_SKIP` and `@STATEMENT`. -/
structure Tables where
  expr : List Rule
  alt : List Rule
  skip : List Rule
  statement : List Rule

/-- src/macros.rs:480-500, 503-523, 526-540, 543-569, line by line. -/
def tables : Tables where
  expr := [⟨0, .stop⟩, ⟨0, .sep⟩,
    ⟨1, .stop⟩, ⟨1, .sep⟩, ⟨2, .stop⟩, ⟨2, .sep⟩, ⟨3, .stop⟩, ⟨3, .sep⟩, ⟨4, .stop⟩, ⟨4, .sep⟩,
    ⟨5, .stop⟩, ⟨5, .sep⟩, ⟨6, .stop⟩, ⟨6, .sep⟩, ⟨7, .stop⟩, ⟨7, .sep⟩, ⟨8, .more⟩]
  alt := [⟨0, .stop⟩, ⟨0, .sep⟩,
    ⟨1, .stop⟩, ⟨1, .sep⟩, ⟨2, .stop⟩, ⟨2, .sep⟩, ⟨3, .stop⟩, ⟨3, .sep⟩, ⟨4, .stop⟩, ⟨4, .sep⟩,
    ⟨5, .stop⟩, ⟨5, .sep⟩, ⟨6, .stop⟩, ⟨6, .sep⟩, ⟨7, .stop⟩, ⟨7, .sep⟩, ⟨8, .more⟩]
  skip := [⟨0, .stop⟩, ⟨0, .sep⟩,
    ⟨1, .stop⟩, ⟨1, .sep⟩, ⟨2, .stop⟩, ⟨2, .sep⟩, ⟨3, .stop⟩, ⟨3, .sep⟩, ⟨4, .stop⟩, ⟨4, .sep⟩,
    ⟨5, .more⟩]
  statement := [⟨0, .stop⟩, ⟨0, .sep⟩,
    ⟨1, .stop⟩, ⟨1, .sep⟩, ⟨2, .stop⟩, ⟨2, .sep⟩, ⟨3, .stop⟩, ⟨3, .sep⟩, ⟨4, .stop⟩, ⟨4, .sep⟩,
    ⟨5, .stop⟩, ⟨5, .sep⟩, ⟨6, .stop⟩, ⟨6, .sep⟩, ⟨7, .stop⟩, ⟨7, .sep⟩, ⟨8, .stop⟩, ⟨8, .sep⟩,
    ⟨9, .stop⟩, ⟨9, .sep⟩, ⟨10, .stop⟩, ⟨10, .sep⟩, ⟨11, .more⟩]

/-- The rules which have been unrolled, in the comments of src/macros.rs:485, 508, 531 and 547. -/
def simpleTables : Tables where
  expr := [⟨0, .stop⟩, ⟨0, .sep⟩, ⟨1, .more⟩]
  alt := [⟨0, .stop⟩, ⟨0, .sep⟩, ⟨1, .more⟩]
  skip := [⟨0, .stop⟩, ⟨0, .sep⟩, ⟨1, .more⟩]
  statement := [⟨0, .stop⟩, ⟨0, .sep⟩, ⟨1, .more⟩]

/-- `$($param:expr),* $(,)*` up to the end, src/macros.rs:476. -/
def params (R : Fragments) : Nat → List TT → Option (List (List TT))
  | _, [] => some []
  | 0, _ => none
  | k + 1, ts =>
    if ts.all (fun t => match t with | .tok .comma => true | _ => false) then some []
    else match R.expr ts with
      | some (e, []) => some [e]
      | some (e, .tok .comma :: rest) => (params R k rest).map (e :: ·)
      | _ => none

/-- The types and the expression of `Typed`. -/
def typed (R : Fragments) (ts : List TT) : Option ((List TT × List TT) × List TT) :=
  match R.ty ts with
  | some (t, .tok .comma :: r1) =>
    match R.ty r1 with
    | some (u, .tok .colon :: r2) =>
      match R.expr r2 with
      | some (e, []) => some ((t, u), e)
      | _ => none
    | _ => none
  | _ => none

/-- An invocation of `__parse_internal!`, without `$input`. -/
inductive Call where
  /-- `$input ; ts` -/
  | block (ts : List TT)
  /-- `@STATEMENT(($input; v) data) ts` -/
  | statement (v : Var) (data ts : List TT)
  /-- `@BIND(($input; v) exp) tail` -/
  | bind (v : Var) (exp tail : List TT)
  /-- `@EXPR($input; lhs) ts` -/
  | expr (lhs ts : List TT)
  /-- `@EXPR_ALT($input; lhs) ts` -/
  | alt (lhs ts : List TT)
  /-- `@EXPR_SKIP($input; lhs) ts` -/
  | skip (lhs ts : List TT)
  /-- `@TERM($input) ts` -/
  | term (ts : List TT)

/-- The public rules, src/macros.rs:573-580: the variable, and the tokens of the statement and those
after it. The empty block (584-585), which expands to the input itself and so is no parser, is left
out here; see `parseText` in Verif/Model/Hygiene.lean. -/
def statement (R : Fragments) (ts : List TT) : Option (Var × List TT) :=
  match ts with
  | [] => none
  | .tok .kwLet :: rest =>
    match R.pat rest with
    | none => none
    | some (p, .tok .eq :: t :: tail) => some (.pat p, t :: tail)
    | some _ =>
      match rest with
      | .tok (.ident x) :: .tok .colon :: r1 =>
        match R.ty r1 with
        | none => none
        | some (ty, .tok .eq :: t :: tail) => some (.typed x ty, t :: tail)
        | some _ => some (.wild, ts)
      | _ => some (.wild, ts)
  | _ => some (.wild, ts)

/-- What a term expands to: a call of `@EXPR`, or anything else. -/
inductive Term where
  | expr (ts : List TT)
  | done (c : Code)

/-- The rules for `@TERM`, src/macros.rs:464-476. After `ret` or `err`, the rules further down cannot
match any more: with the fragment read, what follows is an expression, or there is an error. -/
def term (R : Fragments) (ts : List TT) : Option Term :=
  match ts with
  | .tok (.ident "ret") :: .tok .at :: r => (typed R r).map fun x => .done (.ret (some x.1) x.2)
  | .tok (.ident "ret") :: r =>
    match R.expr r with
    | some (e, []) => some (.done (.ret none e))
    | _ => none
  | .tok (.ident "err") :: .tok .at :: r => (typed R r).map fun x => .done (.err (some x.1) x.2)
  | .tok (.ident "err") :: r =>
    match R.expr r with
    | some (e, []) => some (.done (.err none e))
    | _ => none
  | [.group .paren inner] => some (.expr inner)
  | .tok (.ident s) :: .tok .arrow :: r =>
    match R.expr r with
    | some (e, []) => some (.done (.inline s e))
    | _ => none
  | [.tok (.ident f), .group .paren inner] => (params R inner.length inner).map fun ps => .done (.named f ps)
  | _ => none

/-- `__parse_internal!`, src/macros.rs:447-586. The first argument is the number of nested
invocations allowed (Rust has a limit, 64 by default); beyond it, and where no rule matches, there is
an error. -/
def expand (T : Tables) (R : Fragments) : Nat → Call → Option Code
  | 0, _ => none
  /- 573-580 -/
  | n + 1, .block ts =>
    match statement R ts with
    | none => none
    | some (v, tail) => expand T R n (.statement v [] tail)
  /- 543-569 -/
  | n + 1, .statement v data ts =>
    match firstRule [.semi] T.statement ts with
    | none => none
    | some (.stop x) => expand T R n (.bind v (data ++ x) [])
    | some (.sep x tail) => expand T R n (.bind v (data ++ x) tail)
    | some (.more x tail) => expand T R n (.statement v (data ++ x) tail)
  /- 453-456 -/
  | n + 1, .bind v exp tail =>
    match exp, tail, v with
    | [], _, _ => none
    | exp, [], .wild => expand T R n (.expr [] exp)
    | _, [], _ => none
    | exp, tail, v => do
      let a ← expand T R n (.expr [] exp)
      let b ← expand T R n (.block tail)
      some (.bind v a b)
  /- 480-500 -/
  | n + 1, .expr lhs ts =>
    match firstRule [.shr] T.expr ts with
    | none => none
    | some (.stop x) => expand T R n (.alt [] (lhs ++ x))
    | some (.sep x tail) => do
      let a ← expand T R n (.alt [] (lhs ++ x))
      let b ← expand T R n (.expr [] tail)
      some (.bind .wild a b)
    | some (.more x tail) => expand T R n (.expr (lhs ++ x) tail)
  /- 503-523 -/
  | n + 1, .alt lhs ts =>
    match firstRule [.lt, .bar, .gt] T.alt ts with
    | none => none
    | some (.stop x) => expand T R n (.skip [] (lhs ++ x))
    | some (.sep x tail) => do
      let a ← expand T R n (.skip [] (lhs ++ x))
      let b ← expand T R n (.alt [] tail)
      some (.or a b)
    | some (.more x tail) => expand T R n (.alt (lhs ++ x) tail)
  /- 526-540 -/
  | n + 1, .skip lhs ts =>
    match firstRule [.lt, .star] T.skip ts with
    | none => none
    | some (.stop x) => expand T R n (.term (lhs ++ x))
    | some (.sep x tail) => do
      let a ← expand T R n (.term (lhs ++ x))
      let b ← expand T R n (.skip [] tail)
      some (.skip a b)
    | some (.more x tail) => expand T R n (.skip (lhs ++ x) tail)
  /- 464-476 -/
  | n + 1, .term ts =>
    match term R ts with
    | none => none
    | some (.expr inner) => expand T R n (.expr [] inner)
    | some (.done c) => some c

/-- `parse!{ input; block }`, src/macros.rs:428-430: the tokens of the input expression, and the
expansion. -/
def parse (R : Fragments) (n : Nat) (ts : List TT) : Option (List TT × Code) :=
  match R.expr ts with
  | some (input, .tok .semi :: block) => (expand tables R n (.block block)).map fun c => (input, c)
  | _ => none

/-! ### Meaning -/

/-- What the parts of the block mean which are plain Rust: `eval` an expression for `ret` or a
parameter, `evalErr` one for `err`, `inline` an expression with the input bound to a name, `call` a
function with the input and further parameters; `assign` binds the variables after `let`. All
parsers yield values of the same type `V` and errors of the same type `E` (so that `From::from` is the
identity); type annotations mean nothing. -/
structure Sem (σ I V E Env : Type) where
  eval : Env → List TT → M σ V
  evalErr : Env → List TT → M σ E
  inline : Env → String → List TT → Parser σ I V E
  call : Env → String → List V → Parser σ I V E
  assign : Env → Var → V → Env

/-- The variables in the closure `|i, v| ...`. -/
def Sem.scope (S : Sem σ I V E Env) (env : Env) (v : Var) (x : V) : Env :=
  match v with
  | .wild => env
  | v => S.assign env v x

/-- The parameters of a call are evaluated from left to right. -/
def evalAll (S : Sem σ I V E Env) (env : Env) : List (List TT) → M σ (List V)
  | [] => pure []
  | e :: es => do
    let v ← S.eval env e
    let vs ← evalAll S env es
    pure (v :: vs)

/-- The function from the input to the value of the expression; with `|i|` in front, this is
`parser!`, src/macros.rs:601-603. -/
def Code.run (S : Sem σ I V E Env) (env : Env) : Code → Parser σ I V E
  | .ret _ e => fun i => do
    let v ← S.eval env e
    pure (i.ret v)
  | .err _ e => fun i => do
    let v ← S.evalErr env e
    pure (i.err v)
  | .inline s e => S.inline env s e
  | .named f ps => fun i => do
    let vs ← evalAll S env ps
    S.call env f vs i
  | .bind v a b => Parser.bind id (a.run S env) fun x => b.run S (S.scope env v x)
  | .or a b => Comb.or (a.run S env) (b.run S env)
  | .skip a b => Parser.bind id (a.run S env) fun l => Parser.map (b.run S env) fun _ => l

end Chomp.Macro
