import Verif.Model.Macro

/-
How to run the tests in /repo/src/macros.rs: just as much of Rust as occurs in them. The tests have a
simplified `Input` of their own, a number; here it is a buffer holding that number.
-/

namespace Chomp.Tests.Macro

open Chomp.Macro

/-- Expressions end at `;` or `,`, unless that is within `::<` and `>`. -/
def cut : Bool → List TT → List TT × List TT
  | _, [] => ([], [])
  | false, .tok .semi :: ts => ([], .tok .semi :: ts)
  | false, .tok .comma :: ts => ([], .tok .comma :: ts)
  | false, .tok (.other "::") :: .tok .lt :: ts =>
    let (e, r) := cut true ts
    (.tok (.other "::") :: .tok .lt :: e, r)
  | true, .tok .gt :: ts =>
    let (e, r) := cut false ts
    (.tok .gt :: e, r)
  | b, t :: ts =>
    let (e, r) := cut b ts
    (t :: e, r)

def expr (ts : List TT) : Option (List TT × List TT) :=
  match cut false ts with
  | ([], _) => none
  | x => some x

/-- Types and patterns end at `:` or `=` as well. -/
def tyEnds : TT → Bool
  | .tok .semi => true
  | .tok .comma => true
  | .tok .colon => true
  | .tok .eq => true
  | _ => false

def upTo (p : TT → Bool) (ts : List TT) : Option (List TT × List TT) :=
  match ts.takeWhile (fun t => !p t) with
  | [] => none
  | x => some (x, ts.dropWhile (fun t => !p t))

def fragments : Fragments := ⟨expr, upTo tyEnds, upTo tyEnds⟩

inductive Val where
  | unit
  | int (n : Int)
  | str (s : String)
  | pair (a b : Val)
deriving DecidableEq

/-- Variables and their values. -/
abbrev Vars := List (String × Val)

/-- The literals which occur. -/
def lit : String → Option Int
  | "1" => some 1
  | "2" => some 2
  | "3" => some 3
  | "4" => some 4
  | "5" => some 5
  | "6" => some 6
  | "21" => some 21
  | "22" => some 22
  | "23" => some 23
  | "33" => some 33
  | "40" => some 40
  | "42" => some 42
  | "43" => some 43
  | "123" => some 123
  | "321" => some 321
  | "333" => some 333
  | "1337" => some 1337
  | _ => none

/-- Expressions: atoms with `+` or `-` between two of them, pairs, and casts which change nothing. -/
def eval (env : Vars) : List TT → Option Val
  | [.group .paren []] => some .unit
  | [.tok (.ident x)] => env.lookup x
  | [.tok (.other s)] => some ((lit s).elim (.str s) .int)
  | [.group .paren [.tok x, .tok .comma, .tok y]] => do
    let a ← atom x
    let b ← atom y
    some (.pair a b)
  | [.tok x, .tok (.other "+"), .tok y] => add x y
  | [.tok x, .tok (.other "-"), .tok y, .tok (.ident "as"), .tok (.ident _)] => sub x y
  | [.tok x, .tok (.other "+"), .tok y, .tok (.ident "as"), .tok (.ident _)] => add x y
  | [.tok x, .tok (.ident "as"), .tok (.ident _), .tok (.other "+"), .tok y] => add x y
  | _ => none
where
  atom : Tok → Option Val
    | .ident x => env.lookup x
    | .other s => some ((lit s).elim (.str s) .int)
    | _ => none
  add (x y : Tok) : Option Val := do
    let .int a ← atom x | none
    let .int b ← atom y | none
    some (.int (a + b))
  sub (x y : Tok) : Option Val := do
    let .int a ← atom x | none
    let .int b ← atom y | none
    some (.int (a - b))

/-- A function in a test: its parameters, the input it asserts, the input it goes on with (`none` for
the one it got), whether it succeeds, and the expression it returns. -/
structure Fn where
  params : List String
  expect : Option Int
  next : Option Int
  ok : Bool
  body : List TT

abbrev Fns := List (String × Fn)

/-- A failed assertion is a panic. -/
def must {A : Type} : Option A → M Unit A
  | some a => pure a
  | none => M.panic

def position : Input Int → M Unit Int
  | ⟨_, [n]⟩ => pure n
  | _ => M.panic

def Fn.call (f : Fn) (vs : List Val) : Parser Unit Int Val Val := fun i => do
  let n ← position i
  if f.expect.all (· == n) then do
    let v ← must (eval (f.params.zip vs) f.body)
    let m := f.next.getD n
    pure (if f.ok then .data ⟨i.mode, [m]⟩ v else .error [m] v)
  else M.panic

/-- The bodies of inline parsers: assertions, then `s.ret(e)` or `Data::Value(n, e)`, with or without
types. -/
def inline (env : Vars) (s : String) : Nat → List TT → Parser Unit Int Val Val
  | k + 1, [.group .brace ts] => inline env s k ts
  | k + 1, .tok (.ident "assert_eq") :: .tok (.other "!") ::
      .group .paren [.tok (.ident x), .tok .comma, .tok (.ident "Input"), .group .paren [.tok (.other m)]] ::
      .tok .semi :: ts => fun i => do
    let n ← position i
    if x = s ∧ lit m = some n then inline env s k ts i else M.panic
  | k + 1, .tok (.ident "assert_eq") :: .tok (.other "!") ::
      .group .paren [.tok (.ident x), .tok .comma, .tok (.other m)] :: .tok .semi :: ts => fun i =>
    if (env.lookup x) = (lit m).map .int then inline env s k ts i else M.panic
  | _, .tok (.ident x) :: .tok (.other ".") :: .tok (.ident "ret") :: ts => fun i =>
    match ts.getLast? with
    | some (.group .paren e) => do
      let v ← must (eval env e)
      if x = s then pure (i.ret v) else M.panic
    | _ => M.panic
  | _, .tok (.ident "Data") :: .tok (.other "::") :: .tok (.ident "Value") :: ts => fun i =>
    match ts.getLast? with
    | some (.group .paren (.tok (.other n) :: .tok .comma :: e)) => do
      let v ← must (eval env e)
      let m ← must (lit n)
      pure (.data ⟨i.mode, [m]⟩ v)
    | _ => M.panic
  | _, _ => fun _ => M.panic

def assign (env : Vars) : Var → Val → Vars
  | .pat [.tok (.ident x)], v => (x, v) :: env
  | .typed x _, v => (x, v) :: env
  | .pat [.group .paren [.tok (.ident x), .tok .comma, .tok (.ident y)]], .pair a b => (x, a) :: (y, b) :: env
  | _, _ => env

def sem (fns : Fns) : Sem Unit Int Val Val Vars where
  eval env e := must (eval env e)
  evalErr env e := must (eval env e)
  inline env s e := inline env s e.length.succ.succ e
  call _ f vs := match fns.lookup f with
    | some g => g.call vs
    | none => fun _ => M.panic
  assign := assign

/-- The value of `parse!{...}`, where the input is 123. At most 64 expansions are nested; the one of
`parse!` itself is the first. -/
def result (fns : Fns) (ts : List TT) : Option (ParseResult Int Val Val) :=
  match parse fragments 63 ts with
  | none => none
  | some (_, code) =>
    match code.run (sem fns) [] ⟨.default, [123]⟩ () with
    | .ok (r, _) => some r
    | _ => none

end Chomp.Tests.Macro
