import Verif.Model.Macro

/-
The grammar of `parse!` as documented in /repo/src/macros.rs:107-134. Definitions only.
-/

namespace Chomp.Macro

/-- Tokens as token trees. -/
abbrev toks (ts : List Tok) : List TT := ts.map .tok

mutual
/-- The number of tokens, where a pair of delimiters counts as one. -/
def TT.size : TT → Nat
  | .tok _ => 1
  | .group _ ts => size ts + 1
def size : List TT → Nat
  | [] => 0
  | t :: ts => t.size + size ts
end

/-- `sep` does not occur in `ts`, outside of groups. -/
def Free (sep : List Tok) (ts : List TT) : Prop := ∀ x y, ts ≠ x ++ toks sep ++ y

/-- No operator occurs outside of groups. -/
def Plain (ts : List TT) : Prop := Free [.shr] ts ∧ Free [.lt, .bar, .gt] ts ∧ Free [.lt, .star] ts

def Fragments.IsExpr (R : Fragments) (ts : List TT) : Prop := R.expr ts = some (ts, [])
def Fragments.IsTy (R : Fragments) (ts : List TT) : Prop := R.ty ts = some (ts, [])
def Fragments.IsPat (R : Fragments) (ts : List TT) : Prop := R.pat ts = some (ts, [])

/-- What is assumed of Rust's parsing of fragments. A fragment is a part of the tokens, and it is a
fragment on its own. It ends before the tokens which may follow it in a macro (Rust's rules for macros
are made such that this holds): `,` and `;` after an expression, `,`, `:` and `=` after a type, `=` after
a pattern. There is no `;` in an expression or type outside of groups. No expression begins with
`@`, `,` or `->`, no pattern is a name followed by `:`. -/
structure Fragments.Lawful (R : Fragments) : Prop where
  expr_part : ∀ {ts e r}, R.expr ts = some (e, r) → ts = e ++ r ∧ R.IsExpr e
  ty_part : ∀ {ts e r}, R.ty ts = some (e, r) → ts = e ++ r ∧ R.IsTy e
  pat_part : ∀ {ts e r}, R.pat ts = some (e, r) → ts = e ++ r ∧ R.IsPat e
  expr_follow : ∀ {e t} r, R.IsExpr e → t = .comma ∨ t = .semi →
    R.expr (e ++ .tok t :: r) = some (e, .tok t :: r)
  ty_follow : ∀ {e t} r, R.IsTy e → t = .comma ∨ t = .colon ∨ t = .eq →
    R.ty (e ++ .tok t :: r) = some (e, .tok t :: r)
  pat_follow : ∀ {e} r, R.IsPat e → R.pat (e ++ .tok .eq :: r) = some (e, .tok .eq :: r)
  pat_colon : ∀ x r, R.pat (.tok (.ident x) :: .tok .colon :: r) =
    some ([.tok (.ident x)], .tok .colon :: r)
  expr_semi : ∀ {e}, R.IsExpr e → .tok .semi ∉ e
  ty_semi : ∀ {e}, R.IsTy e → .tok .semi ∉ e
  expr_ne : ¬ R.IsExpr []
  expr_start : ∀ {t} r, t = .at ∨ t = .comma ∨ t = .arrow → R.expr (.tok t :: r) = none

/-- The levels of the grammar. -/
inductive Level where
  | term
  | exprSkip
  | exprAlt
  | expr
  | block
deriving DecidableEq, Repr

/-- `'(' ($expr ',')* (',')* ')'`, which is to say expressions separated by `,`, and any number of `,`
after them. -/
inductive Params (R : Fragments) : List TT → List (List TT) → Prop
  | commas (k : Nat) : Params R (List.replicate k (.tok .comma)) []
  | last {e} : R.IsExpr e → Params R e [e]
  | cons {e ts es} : R.IsExpr e → Params R ts es → Params R (e ++ .tok .comma :: ts) (e :: es)

/-- The grammar in the documentation, src/macros.rs:110-133. `Derives R l ts c`: `ts` is an `l`, and
`c` is how it is put together. Two conditions are added, which the documentation does not mention:
outside of groups there are no operators in a term, and `ret` and `err` are not names of functions or of
the input. -/
inductive Derives (R : Fragments) : Level → List TT → Code → Prop
  /- Term -/
  | ret {e} : R.IsExpr e → Plain (.tok (.ident "ret") :: e) →
      Derives R .term (.tok (.ident "ret") :: e) (.ret none e)
  | retTyped {t u e} : R.IsTy t → R.IsTy u → R.IsExpr e →
      Plain (.tok (.ident "ret") :: .tok .at :: (t ++ .tok .comma :: (u ++ .tok .colon :: e))) →
      Derives R .term (.tok (.ident "ret") :: .tok .at :: (t ++ .tok .comma :: (u ++ .tok .colon :: e)))
        (.ret (some (t, u)) e)
  | err {e} : R.IsExpr e → Plain (.tok (.ident "err") :: e) →
      Derives R .term (.tok (.ident "err") :: e) (.err none e)
  | errTyped {t u e} : R.IsTy t → R.IsTy u → R.IsExpr e →
      Plain (.tok (.ident "err") :: .tok .at :: (t ++ .tok .comma :: (u ++ .tok .colon :: e))) →
      Derives R .term (.tok (.ident "err") :: .tok .at :: (t ++ .tok .comma :: (u ++ .tok .colon :: e)))
        (.err (some (t, u)) e)
  | parens {ts c} : Derives R .expr ts c → Derives R .term [.group .paren ts] c
  | inline {s e} : s ≠ "ret" → s ≠ "err" → R.IsExpr e →
      Plain (.tok (.ident s) :: .tok .arrow :: e) →
      Derives R .term (.tok (.ident s) :: .tok .arrow :: e) (.inline s e)
  | named {f ts ps} : f ≠ "ret" → f ≠ "err" → Params R ts ps →
      Derives R .term [.tok (.ident f), .group .paren ts] (.named f ps)
  /- ExprSkip -/
  | skipTerm {ts c} : Derives R .term ts c → Derives R .exprSkip ts c
  | skip {a b c d} : Derives R .term a c → Derives R .exprSkip b d →
      Derives R .exprSkip (a ++ toks [.lt, .star] ++ b) (.skip c d)
  /- ExprAlt -/
  | altSkip {ts c} : Derives R .exprSkip ts c → Derives R .exprAlt ts c
  | or {a b c d} : Derives R .exprSkip a c → Derives R .exprAlt b d →
      Derives R .exprAlt (a ++ toks [.lt, .bar, .gt] ++ b) (.or c d)
  /- Expr -/
  | exprAlt {ts c} : Derives R .exprAlt ts c → Derives R .expr ts c
  | andThen {a b c d} : Derives R .exprAlt a c → Derives R .expr b d →
      Derives R .expr (a ++ toks [.shr] ++ b) (.bind .wild c d)
  /- Block -/
  | blockExpr {ts c} : Derives R .expr ts c → Derives R .block ts c
  | action {a b c d} : Derives R .expr a c → Derives R .block b d →
      Derives R .block (a ++ toks [.semi] ++ b) (.bind .wild c d)
  | letPat {p a b c d} : R.IsPat p → Derives R .expr a c → Derives R .block b d →
      Derives R .block (.tok .kwLet :: (p ++ .tok .eq :: (a ++ toks [.semi] ++ b))) (.bind (.pat p) c d)
  | letTyped {x ty a b c d} : R.IsTy ty → Derives R .expr a c → Derives R .block b d →
      Derives R .block
        (.tok .kwLet :: .tok (.ident x) :: .tok .colon :: (ty ++ .tok .eq :: (a ++ toks [.semi] ++ b)))
        (.bind (.typed x ty) c d)

/-- The invocation for a level of the grammar. -/
def Level.call : Level → List TT → Call
  | .term, ts => .term ts
  | .exprSkip, ts => .skip [] ts
  | .exprAlt, ts => .alt [] ts
  | .expr, ts => .expr [] ts
  | .block, ts => .block ts

/-! ### Meaning -/

/-- `ts`, as an `l`, stands for the parser `d`, which depends on the variables in scope. -/
def Means (R : Fragments) (S : Sem σ I V E Env) (l : Level) (ts : List TT) (d : Env → Parser σ I V E) : Prop :=
  ∃ n c, expand tables R n (l.call ts) = some c ∧ ∀ env, c.run S env = d env

/-- These expressions have these values, evaluated one after the other from left to right. The state is
`w` before and `w'` after. -/
inductive Evaluates (S : Sem σ I V E Env) (env : Env) : List (List TT) → σ → List V → σ → Prop
  | nil {w} : Evaluates S env [] w [] w
  | cons {e es w v w1 vs w'} : S.eval env e w = .ok (v, w1) → Evaluates S env es w1 vs w' →
      Evaluates S env (e :: es) w (v :: vs) w'

/-- Go on after success. Errors, requests for more input and crashes stay as they are. -/
def onData (r : Res (ParseResult I V E × σ)) (k : Input I → V → σ → Res (ParseResult I V E × σ)) :
    Res (ParseResult I V E × σ) :=
  match r with
  | .ok (.data i v, w) => k i v w
  | r => r

end Chomp.Macro
