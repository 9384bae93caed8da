import Verif.Spec.MacroText
import Verif.Spec.Macro

/-
What the rules of `__parse_internal!` do, one invocation at a time (for C112).
-/

namespace Chomp.MacroRules

open Chomp.Macro

variable {P : Parse}

/-! ### Matching -/

theorem users_eq_map (ts : List TT) : users ts = ts.map user := by
  induction ts with
  | nil => rw [users]; rfl
  | cons t ts ih => rw [users, ih]; rfl

theorem users_append (a b : List TT) : users (a ++ b) = users a ++ users b := by
  simp [users_eq_map]

theorem users_length (ts : List TT) : (users ts).length = ts.length := by
  simp [users_eq_map]

theorem users_take (n : Nat) (ts : List TT) : (users ts).take n = users (ts.take n) := by
  simp [users_eq_map]

theorem users_drop (n : Nat) (ts : List TT) : (users ts).drop n = users (ts.drop n) := by
  simp [users_eq_map]

theorem run_nil (hs : List Thread) : run P hs 0 [] = finish hs := by
  rw [run]; rfl

theorem run_skip (hs : List Thread) (w ts : List Tree) : run P hs w.length (w ++ ts) = run P hs 0 ts := by
  induction w with
  | nil => rfl
  | cons t w ih =>
    rw [List.length_cons, List.cons_append, run]
    exact ih

/-- The places after a variable, a token or a group. -/
theorem start_var (x : String) (k : Frag) (ps : List Pat) (env : Env) :
    start (.var x k :: ps) env = [(.var x k :: ps, env)] := rfl
theorem start_tok (t : Tok) (ps : List Pat) (env : Env) : start (.tok t :: ps) env = [(.tok t :: ps, env)] := rfl
theorem start_group (d : Delim) (qs ps : List Pat) (env : Env) :
    start (.group d qs :: ps) env = [(.group d qs :: ps, env)] := rfl
theorem start_nil (env : Env) : start [] env = [([], env)] := rfl

theorem run_var_nil (x : String) (k : Frag) (ps : List Pat) (env : Env) :
    run P (start (.var x k :: ps) env) 0 [] = .no := by
  rw [run_nil]; rfl

theorem run_tok_nil (t : Tok) (ps : List Pat) (env : Env) : run P (start (.tok t :: ps) env) 0 [] = .no := by
  rw [run_nil]; rfl

theorem run_group_nil (d : Delim) (qs ps : List Pat) (env : Env) :
    run P (start (.group d qs :: ps) env) 0 [] = .no := by
  rw [run_nil]; rfl

theorem run_end (env : Env) (t : Tree) (ts : List Tree) : run P (start [] env) 0 (t :: ts) = .no := by
  rw [run]; rfl

theorem run_end_nil (env : Env) : run P (start [] env) 0 [] = .ok env := by
  rw [run_nil]; rfl

theorem run_tt (x : String) (ps : List Pat) (env : Env) (t : Tree) (ts : List Tree) :
    run P (start (.var x .tt :: ps) env) 0 (t :: ts) = run P (start ps (env ++ [(x, t)])) 0 ts := by
  rw [run, start_var]
  cases t <;> rfl

theorem run_ident (x : String) (ps : List Pat) (env : Env) (y : String) (b : Bool) (ts : List Tree) :
    run P (start (.var x .ident :: ps) env) 0 (.tok (.ident y) b :: ts)
      = run P (start ps (env ++ [(x, .tok (.ident y) b)])) 0 ts := by
  rw [run, start_var]
  rfl

theorem run_ident_no (x : String) (ps : List Pat) (env : Env) (t : Tree) (ts : List Tree) (h : begins .ident t = false) :
    run P (start (.var x .ident :: ps) env) 0 (t :: ts) = .no := by
  rw [run, start_var]
  simp [act, h]

/-- An expression, a type or a pattern. -/
theorem run_frag (x : String) (k : Frag) (hk : k = .expr ∨ k = .ty ∨ k = .pat) (ps : List Pat) (env : Env) (t : Tree)
    (ts : List Tree) (h : begins k t = true) :
    run P (start (.var x k :: ps) env) 0 (t :: ts) = (match P k (t :: ts) with
      | some (u, n) => run P (start ps (env ++ [(x, u)])) n ts
      | none => .err) := by
  rw [run, start_var]
  rcases hk with rfl | rfl | rfl <;> simp [act, h] <;> rfl

theorem run_tok (u v : Tok) (b : Bool) (ps : List Pat) (env : Env) (ts : List Tree) :
    run P (start (.tok u :: ps) env) 0 (.tok v b :: ts) = if u = v then run P (start ps env) 0 ts else .no := by
  rw [run, start_tok]
  by_cases h : u = v
  · simp [act, h, tokens]
  · simp [act, h]

theorem run_tok_no (u : Tok) (ps : List Pat) (env : Env) (t : Tree) (ts : List Tree) (h : ∀ b, t ≠ .tok u b) :
    run P (start (.tok u :: ps) env) 0 (t :: ts) = .no := by
  cases t with
  | tok v b =>
    rw [run_tok, if_neg]
    rintro rfl
    exact h b rfl
  | group => rw [run]; rfl
  | frag => rw [run]; rfl
  | call => rw [run]; rfl

theorem run_group (d : Delim) (qs ps : List Pat) (env : Env) (gs ts : List Tree) :
    run P (start (.group d qs :: ps) env) 0 (.group d gs :: ts) = (match run P (start qs env) 0 gs with
      | .ok env => run P (start ps env) 0 ts
      | o => o) := by
  rw [run, start_group]
  simp only [act, if_true, List.filterMap_cons, List.filterMap_nil]
  rw [inside]
  rfl

theorem run_group_no (d : Delim) (qs ps : List Pat) (env : Env) (t : Tree) (ts : List Tree) (h : ∀ gs, t ≠ .group d gs) :
    run P (start (.group d qs :: ps) env) 0 (t :: ts) = .no := by
  rw [run, start_group]
  cases t with
  | group d' gs =>
    have : d ≠ d' := by rintro rfl; exact h gs rfl
    simp [act, this]
  | tok => rfl
  | frag => rfl
  | call => rfl

theorem run_all_aux (x : String) (env : Env) (ts : List Tree) :
    run P [([.var x .tt, .again x .tt none], env), ([], env)] 0 ts = .ok (env ++ ts.map (x, ·)) := by
  induction ts generalizing env with
  | nil => rw [run_nil]; simp [finish]
  | cons t ts ih =>
    rw [run]
    have hb : begins .tt t = true := by cases t <;> rfl
    simp only [act, hb, if_true, List.filterMap_cons, List.filterMap_nil]
    have := ih (env ++ [(x, t)])
    rw [List.append_assoc] at this
    exact this

/-- `$($x:tt)*` takes all. -/
theorem run_all (x : String) (env : Env) (ts : List Tree) :
    run P (start [.rep x .tt none false] env) 0 ts = .ok (env ++ ts.map (x, ·)) := run_all_aux x env ts

/-- `$($x:tt)+` takes all, if there are any. -/
theorem run_some (x : String) (env : Env) (ts : List Tree) :
    run P (start [.rep x .tt none true] env) 0 ts = if ts = [] then .no else .ok (env ++ ts.map (x, ·)) := by
  cases ts with
  | nil => rw [run_nil]; rfl
  | cons t ts =>
    have hb : begins .tt t = true := by cases t <;> rfl
    rw [run]
    simp only [start, heads, act, hb, if_true, List.filterMap_cons, List.filterMap_nil, List.map_cons, List.map_nil]
    have := run_all_aux (P := P) x (env ++ [(x, t)]) ts
    simpa using this

/-- `$x1:tt ... $xn:tt` -/
theorem run_vars (xs : List String) (ps : List Pat) (env : Env) (ts : List Tree) :
    run P (start (xs.map (.var · .tt) ++ ps) env) 0 ts
      = if xs.length ≤ ts.length then run P (start ps (env ++ xs.zip (ts.take xs.length))) 0 (ts.drop xs.length) else .no := by
  induction xs generalizing env ts with
  | nil => simp
  | cons x xs ih =>
    cases ts with
    | nil => simpa using run_var_nil x .tt _ env
    | cons t ts =>
      rw [List.map_cons, List.cons_append, run_tt, ih]
      simp

/-- A separator. -/
theorem run_literal (sep : List Tok) (ps : List Pat) (env : Env) (ts : List TT) :
    run P (start (sep.map .tok ++ ps) env) 0 (users ts) = (match literal sep ts with
      | some r => run P (start ps env) 0 (users r)
      | none => .no) := by
  induction sep generalizing ts with
  | nil => simp [literal]
  | cons s sep ih =>
    cases ts with
    | nil => rw [List.map_cons, List.cons_append, users, run_tok_nil]; rfl
    | cons t ts =>
      rw [users, List.map_cons, List.cons_append]
      cases t with
      | tok t =>
        rw [user, run_tok, ih, literal]
        by_cases h : s = t <;> simp [h]
      | group d gs =>
        rw [user, run_tok_no _ _ _ _ _ (by intro b h; cases h)]
        rfl

/-! ### Right hand sides -/

theorem many_append (a b : Env) (x : String) : Env.many (a ++ b) x = Env.many a x ++ Env.many b x := by
  simp [Env.many]

theorem many_same (ts : List Tree) (x : String) : Env.many (ts.map (x, ·)) x = ts := by
  induction ts with
  | nil => rfl
  | cons t ts ih =>
    rw [List.map_cons, ← List.singleton_append, many_append, ih]
    simp [Env.many]

theorem many_other (ts : List Tree) {x y : String} (h : y ≠ x) : Env.many (ts.map (y, ·)) x = [] := by
  induction ts with
  | nil => rfl
  | cons t ts ih =>
    rw [List.map_cons, ← List.singleton_append, many_append, ih]
    simp [Env.many, h]

theorem many_zip (xs : List String) (us : List Tree) {x : String} (h : x ∉ xs) : Env.many (xs.zip us) x = [] := by
  have : ∀ b ∈ xs.zip us, ¬ b.1 = x := by
    intro b hb e
    exact h (e ▸ (List.of_mem_zip hb).1)
  simp only [Env.many, List.map_eq_nil_iff, List.filter_eq_nil_iff]
  simpa using this

theorem many_cons (y : String) (t : Tree) (env : Env) (x : String) :
    Env.many ((y, t) :: env) x = if y = x then t :: Env.many env x else Env.many env x := by
  by_cases h : y = x <;> simp [Env.many, h]

theorem one_cons (y : String) (t : Tree) (env : Env) (x : String) :
    Env.one ((y, t) :: env) x = if y = x then [t] else Env.one env x := by
  by_cases h : y = x <;> simp [Env.one, h]

theorem trees_append (env : Env) (a b : List Tpl) : trees env (a ++ b) = trees env a ++ trees env b := by
  induction a with
  | nil => simp [trees]
  | cons t a ih => rw [List.cons_append, trees, trees, ih, List.append_assoc]

theorem one_skip {env : Env} {x : String} (h : ∀ b ∈ env, b.1 ≠ x) (u : Tree) (rest : Env) :
    Env.one (env ++ (x, u) :: rest) x = [u] := by
  induction env with
  | nil => simp [Env.one]
  | cons b env ih =>
    obtain ⟨y, t⟩ := b
    rw [List.cons_append, one_cons, if_neg (h (y, t) (by simp))]
    exact ih fun b hb => h b (by simp [hb])

/-- `$x1 ... $xn` -/
theorem trees_vars {xs : List String} (us : List Tree) (env rest : Env) (hd : xs.Nodup) (hl : us.length = xs.length)
    (hf : ∀ b ∈ env, b.1 ∉ xs) : trees (env ++ (xs.zip us ++ rest)) (xs.map .var) = us := by
  induction xs generalizing us env with
  | nil =>
    cases us with
    | nil => rw [List.map_nil, trees]
    | cons _ _ => simp at hl
  | cons x xs ih =>
    cases us with
    | nil => simp at hl
    | cons u us =>
      rw [List.zip_cons_cons, List.map_cons, trees, Tpl.trees, List.cons_append,
        one_skip (fun b hb e => hf b hb (by simp [e]))]
      have := ih us (env ++ [(x, u)]) (List.nodup_cons.1 hd).2 (by simpa using hl) (by
        intro b hb
        simp only [List.mem_append, List.mem_singleton] at hb
        rcases hb with hb | rfl
        · exact fun h => hf b hb (by simp [h])
        · exact (List.nodup_cons.1 hd).1)
      rw [List.append_assoc, List.singleton_append] at this
      rw [this]; rfl

/-! ### Invocations -/

abbrev PI : String := "__parse_internal"

/-- `i`, as written in the rules. -/
abbrev i : Tree := key (.ident "i")

/-- An invocation, with the tree for `$input`. -/
def args (x : Tree) : Call → List Tree
  | .block ts => x :: key .semi :: users ts
  | .statement v data ts =>
    [key .at, key (.ident "STATEMENT"), .group .paren (.group .paren (x :: key .semi :: variable_ v) :: users data)] ++ users ts
  | .bind v exp tail =>
    [key .at, key (.ident "BIND"), .group .paren (.group .paren (x :: key .semi :: variable_ v) :: users exp)] ++ users tail
  | .expr lhs ts => [key .at, key (.ident "EXPR"), .group .paren (x :: key .semi :: users lhs)] ++ users ts
  | .alt lhs ts => [key .at, key (.ident "EXPR_ALT"), .group .paren (x :: key .semi :: users lhs)] ++ users ts
  | .skip lhs ts => [key .at, key (.ident "EXPR_SKIP"), .group .paren (x :: key .semi :: users lhs)] ++ users ts
  | .term ts => [key .at, key (.ident "TERM"), .group .paren [x]] ++ users ts

/-- `x` is parsed as `$input`. -/
structure IsInput (P : Parse) (x : Tree) (src : Macro.Source) : Prop where
  begin : begins .expr x = true
  not_at : ∀ b, x ≠ .tok .at b
  parse : ∀ {r}, Ends r → P .expr (x :: r) = some (source src, 0)
  fixed : ∀ f, x.expand f = some x

theorem IsInput.run {x : Tree} {src : Macro.Source} (h : IsInput P x src) (y : String) (ps : List Pat) (env : Env)
    {r : List Tree} (hr : Ends r) :
    run P (start (.var y .expr :: ps) env) 0 (x :: r) = run P (start ps (env ++ [(y, source src)])) 0 r := by
  rw [run_frag _ _ (.inl rfl) _ _ _ _ h.begin, h.parse hr]

theorem firstArm_skip {as bs : List Arm} {ts : List Tree} (h : ∀ a ∈ as, run P (start a.pat []) 0 ts = .no) :
    firstArm P (as ++ bs) ts = firstArm P bs ts := by
  induction as with
  | nil => rfl
  | cons a as ih =>
    rw [List.cons_append, firstArm, h a (by simp)]
    exact ih fun b hb => h b (by simp [hb])

/-- A rule for `@K`. -/
def Keyed (K : String) (a : Arm) : Prop := ∃ ps, a.pat = .tok .at :: .tok (.ident K) :: ps

theorem keyed_no {K L : String} {a : Arm} (h : Keyed K a) (ne : K ≠ L) (ts : List Tree) :
    run P (start a.pat []) 0 (key .at :: key (.ident L) :: ts) = .no := by
  obtain ⟨ps, h⟩ := h
  rw [h, run_tok, if_pos rfl, run_tok, if_neg]
  simpa using ne

theorem keyed_no' {K : String} {a : Arm} (h : Keyed K a) {x : Tree} (hx : ∀ b, x ≠ .tok .at b) (ts : List Tree) :
    run P (start a.pat []) 0 (x :: ts) = .no := by
  obtain ⟨ps, h⟩ := h
  rw [h, run_tok_no _ _ _ _ _ hx]

theorem run_key (K : String) (gp ps : List Pat) (gs ts : List Tree) :
    run P (start ([.tok .at, .tok (.ident K), .group .paren gp] ++ ps) []) 0
      ([key .at, key (.ident K), .group .paren gs] ++ ts) = (match run P (start gp []) 0 gs with
        | .ok env => run P (start ps env) 0 ts
        | o => o) := by
  simp only [List.cons_append, List.nil_append]
  rw [run_tok, if_pos rfl, run_tok, if_pos rfl, run_group]

/-! ### The rules which are unrolled -/

def names (n : Nat) : List String := ["t1", "t2", "t3", "t4", "t5", "t6", "t7", "t8", "t9", "t10", "t11"].take n

theorem names_length {n : Nat} (h : n ≤ 11) : (names n).length = n := by
  rw [names, List.length_take]; exact Nat.min_eq_left h

theorem names_nodup (n : Nat) : (names n).Nodup :=
  List.Nodup.sublist (List.take_sublist _ _) (by decide)

theorem not_names {x : String} (n : Nat)
    (h : x ∉ ["t1", "t2", "t3", "t4", "t5", "t6", "t7", "t8", "t9", "t10", "t11"]) : x ∉ names n :=
  fun h' => h (List.mem_of_mem_take h')

def endsPat (sep : List Tok) : Macro.Ends → List Pat
  | .stop => []
  | .sep => sep.map .tok ++ [.rep "tail" .tt none false]
  | .more => [.rep "tail" .tt none false]

def munchArm (K : String) (gp : List Pat) (sep : List Tok) (tpl : Macro.Ends → List Tpl → List Tpl) (r : Rule) : Arm :=
  ⟨[.tok .at, .tok (.ident K), .group .paren gp] ++ ((names r.n).map (.var · .tt) ++ endsPat sep r.ends),
    tpl r.ends ((names r.n).map .var)⟩

theorem munchArm_keyed (K : String) (gp : List Pat) (sep : List Tok) (tpl : Macro.Ends → List Tpl → List Tpl) (r : Rule) :
    Keyed K (munchArm K gp sep tpl r) := ⟨_, rfl⟩

def found (out : Macro.Ends → List TT → List TT → List Tree) : Found → List Tree
  | .stop x => out .stop x []
  | .sep x tail => out .sep x tail
  | .more x tail => out .more x tail

theorem munch {K : String} {gp : List Pat} {sep : List Tok} {tpl : Macro.Ends → List Tpl → List Tpl}
    {out : Macro.Ends → List TT → List TT → List Tree} {gs : List Tree} {env : Env}
    (hg : run P (start gp []) 0 gs = .ok env)
    (ho : ∀ e n x tail, n ≤ 11 → x.length = n →
      trees (env ++ ((names n).zip (users x) ++ (users tail).map ("tail", ·))) (tpl e ((names n).map .var)) = out e x tail)
    (rules : List Rule) (hr : ∀ r ∈ rules, r.n ≤ 11) (bs : List Arm) (ts : List TT) :
    firstArm P (rules.map (munchArm K gp sep tpl) ++ bs) ([key .at, key (.ident K), .group .paren gs] ++ users ts)
      = (match firstRule sep rules ts with
        | some f => some (found out f)
        | none => firstArm P bs ([key .at, key (.ident K), .group .paren gs] ++ users ts)) := by
  induction rules with
  | nil => rfl
  | cons r rules ih =>
    have ih := ih fun r h => hr r (by simp [h])
    have hn := names_length (hr r (by simp))
    rw [List.map_cons, List.cons_append, firstArm, munchArm, run_key, hg]
    dsimp only
    rw [run_vars, hn, users_length, users_take, users_drop, firstRule, List.findSome?_cons, Rule.apply]
    by_cases hl : r.n ≤ ts.length
    · have hx : (ts.take r.n).length = r.n := by rw [List.length_take]; omega
      have ho := ho r.ends r.n (ts.take r.n)
      rw [if_pos hl, if_pos hl]
      cases he : r.ends with
      | stop =>
        rw [he] at ho
        dsimp only [endsPat]
        by_cases hd : ts.drop r.n = []
        · rw [hd, if_pos rfl, users, run_end_nil]
          have := ho [] (hr r (by simp)) hx
          rw [users, List.map_nil, List.append_nil] at this
          exact congrArg some this
        · rw [if_neg hd]
          cases hd' : ts.drop r.n with
          | nil => exact absurd hd' hd
          | cons t r => rw [users, run_end]; exact ih
      | sep =>
        rw [he] at ho
        dsimp only [endsPat]
        rw [run_literal]
        cases hd : literal sep (ts.drop r.n) with
        | none => exact ih
        | some tail =>
          dsimp only [Option.map]
          rw [run_all, List.append_assoc]
          exact congrArg some (ho tail (hr r (by simp)) hx)
      | more =>
        rw [he] at ho
        dsimp only [endsPat]
        rw [run_all, List.append_assoc]
        exact congrArg some (ho (ts.drop r.n) (hr r (by simp)) hx)
    · rw [if_neg hl, if_neg hl]
      exact ih

/-- `$input:expr; $($lhs:tt)*` -/
def inputPat : List Pat := [.var "input" .expr, .tok .semi, .rep "lhs" .tt none false]

/-- `$args:tt $($data:tt)*` -/
def dataPat : List Pat := [.var "args" .tt, .rep "data" .tt none false]

/-- `__parse_internal!{@K($input;) ...}` -/
def callTpl (K : String) (ts : List Tpl) : Tpl :=
  .call PI ([.tok .at, .tok (.ident K), .group .paren [.var "input", .tok .semi]] ++ ts)

/-- `__parse_internal!{@K(i;) $($tail)*}` -/
def nextTpl (K : String) : Tpl :=
  .call PI [.tok .at, .tok (.ident K), .group .paren [.tok (.ident "i"), .tok .semi], .rep "tail" none]

/-- `__parse_internal!{@K($input; $($lhs)* ...) $($tail)*}` -/
def goonTpl (K : String) (xs : List Tpl) : Tpl :=
  .call PI [.tok .at, .tok (.ident K), .group .paren ([.var "input", .tok .semi, .rep "lhs" none] ++ xs), .rep "tail" none]

def exprTpl : Macro.Ends → List Tpl → List Tpl
  | .stop, xs => [callTpl "EXPR_ALT" (.rep "lhs" none :: xs)]
  | .sep, xs => [callTpl "EXPR_ALT" (.rep "lhs" none :: xs), .tok (.other "."), .tok (.ident "bind"),
      .group .paren [.tok .bar, .tok (.ident "i"), .tok .comma, .tok (.other "_"), .tok .bar, nextTpl "EXPR"]]
  | .more, xs => [goonTpl "EXPR" xs]

def altTpl : Macro.Ends → List Tpl → List Tpl
  | .stop, xs => [callTpl "EXPR_SKIP" (.rep "lhs" none :: xs)]
  | .sep, xs => [.call "__parse_internal_or" [.var "input", .tok .comma,
      .tok .bar, .tok (.ident "i"), .tok .bar, .call PI ([.tok .at, .tok (.ident "EXPR_SKIP"), .group .paren [.tok (.ident "i"), .tok .semi]]
        ++ (.rep "lhs" none :: xs)), .tok .comma,
      .tok .bar, .tok (.ident "i"), .tok .bar, nextTpl "EXPR_ALT"]]
  | .more, xs => [goonTpl "EXPR_ALT" xs]

def termTpl (xs : List Tpl) : Tpl :=
  .call PI ([.tok .at, .tok (.ident "TERM"), .group .paren [.var "input"]] ++ (.rep "lhs" none :: xs))

def skipTpl : Macro.Ends → List Tpl → List Tpl
  | .stop, xs => [termTpl xs]
  | .sep, xs => [termTpl xs, .tok (.other "."), .tok (.ident "bind"),
      .group .paren [.tok .bar, .tok (.ident "i"), .tok .comma, .tok (.ident "l"), .tok .bar, nextTpl "EXPR_SKIP",
        .tok (.other "."), .tok (.ident "map"),
        .group .paren [.tok .bar, .tok (.other "_"), .tok .bar, .tok (.ident "l")]]]
  | .more, xs => [goonTpl "EXPR_SKIP" xs]

def statementTpl : Macro.Ends → List Tpl → List Tpl
  | .stop, xs => [.call PI [.tok .at, .tok (.ident "BIND"), .group .paren ([.var "args", .rep "data" none] ++ xs)]]
  | .sep, xs => [.call PI [.tok .at, .tok (.ident "BIND"), .group .paren ([.var "args", .rep "data" none] ++ xs), .rep "tail" none]]
  | .more, xs => [.call PI [.tok .at, .tok (.ident "STATEMENT"), .group .paren ([.var "args", .rep "data" none] ++ xs),
      .rep "tail" none]]

def bindArms : List Arm := Text.parseInternal.take 4
def termArms : List Arm := (Text.parseInternal.drop 4).take 7
def blockArms : List Arm := Text.parseInternal.drop 79

theorem arms : Text.parseInternal = bindArms ++ (termArms ++
    (tables.expr.map (munchArm "EXPR" inputPat [.shr] exprTpl) ++
    (tables.alt.map (munchArm "EXPR_ALT" inputPat [.lt, .bar, .gt] altTpl) ++
    (tables.skip.map (munchArm "EXPR_SKIP" inputPat [.lt, .star] skipTpl) ++
    (tables.statement.map (munchArm "STATEMENT" dataPat [.semi] statementTpl) ++ blockArms))))) := by
  rfl

theorem bindArms_keyed : ∀ a ∈ bindArms, Keyed "BIND" a := by
  intro a h
  simp only [bindArms, Text.parseInternal, List.take_succ_cons, List.take_zero, List.mem_cons, List.not_mem_nil, or_false] at h
  rcases h with rfl | rfl | rfl | rfl <;> exact ⟨_, rfl⟩

theorem termArms_keyed : ∀ a ∈ termArms, Keyed "TERM" a := by
  intro a h
  simp only [termArms, Text.parseInternal, List.take_succ_cons, List.take_zero, List.drop_succ_cons, List.drop_zero,
    List.mem_cons, List.not_mem_nil, or_false] at h
  rcases h with rfl | rfl | rfl | rfl | rfl | rfl | rfl <;> exact ⟨_, rfl⟩

theorem munchArms_keyed (K : String) (gp : List Pat) (sep : List Tok) (tpl : Macro.Ends → List Tpl → List Tpl)
    (rules : List Rule) : ∀ a ∈ rules.map (munchArm K gp sep tpl), Keyed K a := by
  intro a h
  obtain ⟨r, _, rfl⟩ := List.mem_map.1 h
  exact munchArm_keyed _ _ _ _ _

theorem skip_arms {K L : String} {as : List Arm} (h : ∀ a ∈ as, Keyed K a) (ne : K ≠ L) (bs : List Arm) (ts : List Tree) :
    firstArm P (as ++ bs) (key .at :: key (.ident L) :: ts) = firstArm P bs (key .at :: key (.ident L) :: ts) :=
  firstArm_skip fun a ha => keyed_no (h a ha) ne ts

theorem skip_arms' {K : String} {as : List Arm} (h : ∀ a ∈ as, Keyed K a) {x : Tree} (hx : ∀ b, x ≠ .tok .at b)
    (bs : List Arm) (ts : List Tree) : firstArm P (as ++ bs) (x :: ts) = firstArm P bs (x :: ts) :=
  firstArm_skip fun a ha => keyed_no' (h a ha) hx ts

theorem blockArms_at {R : Fragments} (h : Extends R P) (ts : List Tree) : firstArm P blockArms (key .at :: ts) = none := by
  rw [show blockArms = ⟨[.var "input" .expr, .tok .semi, .tok .kwLet, .var "name" .pat, .tok .eq, .rep "tail" .tt none true],
    _⟩ :: blockArms.tail from rfl, firstArm, run_frag _ _ (.inl rfl) _ _ _ _ rfl, h.expr_at]

/-! What the rules for `@EXPR`, `@EXPR_ALT`, `@EXPR_SKIP` and `@STATEMENT` give. -/

def exprOut (s : Tree) (lhs : List TT) : Macro.Ends → List TT → List TT → List Tree
  | .stop, y, _ => [.call PI (args s (.alt [] (lhs ++ y)))]
  | .sep, y, tail => [.call PI (args s (.alt [] (lhs ++ y))), key (.other "."), key (.ident "bind"),
      .group .paren [key .bar, i, key .comma, key (.other "_"), key .bar, .call PI (args i (.expr [] tail))]]
  | .more, y, tail => [.call PI (args s (.expr (lhs ++ y) tail))]

def altOut (s : Tree) (lhs : List TT) : Macro.Ends → List TT → List TT → List Tree
  | .stop, y, _ => [.call PI (args s (.skip [] (lhs ++ y)))]
  | .sep, y, tail => [.call "__parse_internal_or" [s, key .comma,
      key .bar, i, key .bar, .call PI (args i (.skip [] (lhs ++ y))), key .comma,
      key .bar, i, key .bar, .call PI (args i (.alt [] tail))]]
  | .more, y, tail => [.call PI (args s (.alt (lhs ++ y) tail))]

def skipOut (s : Tree) (lhs : List TT) : Macro.Ends → List TT → List TT → List Tree
  | .stop, y, _ => [.call PI (args s (.term (lhs ++ y)))]
  | .sep, y, tail => [.call PI (args s (.term (lhs ++ y))), key (.other "."), key (.ident "bind"),
      .group .paren [key .bar, i, key .comma, key (.ident "l"), key .bar, .call PI (args i (.skip [] tail)),
        key (.other "."), key (.ident "map"), .group .paren [key .bar, key (.other "_"), key .bar, key (.ident "l")]]]
  | .more, y, tail => [.call PI (args s (.skip (lhs ++ y) tail))]

def statementOut (x : Tree) (v : Var) (data : List TT) : Macro.Ends → List TT → List TT → List Tree
  | .stop, y, _ => [.call PI (args x (.bind v (data ++ y) []))]
  | .sep, y, tail => [.call PI (args x (.bind v (data ++ y) tail))]
  | .more, y, tail => [.call PI (args x (.statement v (data ++ y) tail))]

theorem inputPat_run {x : Tree} {src : Macro.Source} (h : IsInput P x src) (lhs : List TT) :
    run P (start inputPat []) 0 (x :: key .semi :: users lhs) = .ok (("input", source src) :: (users lhs).map ("lhs", ·)) := by
  rw [inputPat, h.run _ _ _ (show Ends (key .semi :: _) from .inl rfl), run_tok, if_pos rfl, run_all]
  rfl

theorem dataPat_run (a : Tree) (data : List TT) :
    run P (start dataPat []) 0 (a :: users data) = .ok (("args", a) :: (users data).map ("data", ·)) := by
  rw [dataPat, run_tt, run_all]
  rfl

/-- What the variables are replaced with. -/
theorem env_facts (a l : String) (s : Tree) (lhs x tail : List TT) {n : Nat} (hn : n ≤ 11) (hx : x.length = n)
    (ha : a ∉ ["t1", "t2", "t3", "t4", "t5", "t6", "t7", "t8", "t9", "t10", "t11"])
    (hl : l ∉ ["t1", "t2", "t3", "t4", "t5", "t6", "t7", "t8", "t9", "t10", "t11"])
    (hal : a ≠ l) (hat : a ≠ "tail") (hlt : l ≠ "tail") :
    let env : Env := ((a, s) :: (users lhs).map (l, ·)) ++ ((names n).zip (users x) ++ (users tail).map ("tail", ·))
    env.one a = [s] ∧ env.many l = users lhs ∧ env.many "tail" = users tail ∧ trees env ((names n).map .var) = users x := by
  refine ⟨?_, ?_, ?_, ?_⟩
  · rw [List.cons_append, one_cons, if_pos rfl]
  · rw [List.cons_append, many_cons, if_neg hal, many_append, many_append, many_same, many_zip _ _ (not_names n hl),
      many_other _ (Ne.symm hlt)]
    simp
  · rw [List.cons_append, many_cons, if_neg hat, many_append, many_append, many_same, many_zip _ _ (not_names n (by decide)),
      many_other _ hlt]
    simp
  · apply trees_vars _ _ _ (names_nodup n)
    · rw [users_length, hx, names_length hn]
    · intro b hb
      simp only [List.mem_cons, List.mem_map] at hb
      rcases hb with rfl | ⟨t, _, rfl⟩
      · exact not_names n ha
      · exact not_names n hl

theorem exprTpl_out (s : Tree) (lhs : List TT) (e : Macro.Ends) (n : Nat) (x tail : List TT) (hn : n ≤ 11) (hx : x.length = n) :
    trees ((("input", s) :: (users lhs).map ("lhs", ·)) ++ ((names n).zip (users x) ++ (users tail).map ("tail", ·)))
      (exprTpl e ((names n).map .var)) = exprOut s lhs e x tail := by
  obtain ⟨h1, h2, h3, h4⟩ := env_facts "input" "lhs" s lhs x tail hn hx (by decide) (by decide) (by decide) (by decide) (by decide)
  generalize (("input", s) :: (users lhs).map ("lhs", ·)) ++ ((names n).zip (users x) ++ (users tail).map ("tail", ·)) = env
    at h1 h2 h3 h4 ⊢
  cases e <;> simp [exprTpl, exprOut, callTpl, nextTpl, goonTpl, trees, Tpl.trees, args, h1, h2, h3, h4, users_append, users]

theorem altTpl_out (s : Tree) (lhs : List TT) (e : Macro.Ends) (n : Nat) (x tail : List TT) (hn : n ≤ 11) (hx : x.length = n) :
    trees ((("input", s) :: (users lhs).map ("lhs", ·)) ++ ((names n).zip (users x) ++ (users tail).map ("tail", ·)))
      (altTpl e ((names n).map .var)) = altOut s lhs e x tail := by
  obtain ⟨h1, h2, h3, h4⟩ := env_facts "input" "lhs" s lhs x tail hn hx (by decide) (by decide) (by decide) (by decide) (by decide)
  generalize (("input", s) :: (users lhs).map ("lhs", ·)) ++ ((names n).zip (users x) ++ (users tail).map ("tail", ·)) = env
    at h1 h2 h3 h4 ⊢
  cases e <;> simp [altTpl, altOut, callTpl, nextTpl, goonTpl, trees, Tpl.trees, args, h1, h2, h3, h4, users_append, users]

theorem skipTpl_out (s : Tree) (lhs : List TT) (e : Macro.Ends) (n : Nat) (x tail : List TT) (hn : n ≤ 11) (hx : x.length = n) :
    trees ((("input", s) :: (users lhs).map ("lhs", ·)) ++ ((names n).zip (users x) ++ (users tail).map ("tail", ·)))
      (skipTpl e ((names n).map .var)) = skipOut s lhs e x tail := by
  obtain ⟨h1, h2, h3, h4⟩ := env_facts "input" "lhs" s lhs x tail hn hx (by decide) (by decide) (by decide) (by decide) (by decide)
  generalize (("input", s) :: (users lhs).map ("lhs", ·)) ++ ((names n).zip (users x) ++ (users tail).map ("tail", ·)) = env
    at h1 h2 h3 h4 ⊢
  cases e <;> simp [skipTpl, skipOut, termTpl, nextTpl, goonTpl, trees, Tpl.trees, args, h1, h2, h3, h4, users_append, users]

theorem statementTpl_out (y : Tree) (v : Var) (lhs : List TT) (e : Macro.Ends) (n : Nat) (x tail : List TT) (hn : n ≤ 11)
    (hx : x.length = n) :
    trees ((("args", .group .paren (y :: key .semi :: variable_ v)) :: (users lhs).map ("data", ·)) ++
      ((names n).zip (users x) ++ (users tail).map ("tail", ·)))
      (statementTpl e ((names n).map .var)) = statementOut y v lhs e x tail := by
  obtain ⟨h1, h2, h3, h4⟩ := env_facts "args" "data" (.group .paren (y :: key .semi :: variable_ v)) lhs x tail hn hx
    (by decide) (by decide) (by decide) (by decide) (by decide)
  generalize (("args", .group .paren (y :: key .semi :: variable_ v)) :: (users lhs).map ("data", ·)) ++
    ((names n).zip (users x) ++ (users tail).map ("tail", ·)) = env at h1 h2 h3 h4 ⊢
  cases e <;> simp [statementTpl, statementOut, trees, Tpl.trees, args, h1, h2, h3, h4, users_append, users]

theorem firstArm_expr {R : Fragments} (hP : Extends R P) {x : Tree} {src : Macro.Source} (h : IsInput P x src) (lhs ts : List TT) :
    firstArm P Text.parseInternal (args x (.expr lhs ts)) = (firstRule [.shr] tables.expr ts).map (found (exprOut (source src) lhs)) := by
  rw [arms, args]
  simp only [List.cons_append, List.nil_append]
  rw [skip_arms bindArms_keyed (by decide), skip_arms termArms_keyed (by decide)]
  have := munch (K := "EXPR") (sep := [.shr]) (inputPat_run h lhs) (exprTpl_out (source src) lhs) tables.expr (by decide)
    (tables.alt.map (munchArm "EXPR_ALT" inputPat [.lt, .bar, .gt] altTpl) ++
    (tables.skip.map (munchArm "EXPR_SKIP" inputPat [.lt, .star] skipTpl) ++
    (tables.statement.map (munchArm "STATEMENT" dataPat [.semi] statementTpl) ++ blockArms))) ts
  simp only [List.cons_append, List.nil_append] at this
  rw [this]
  cases firstRule [.shr] tables.expr ts with
  | some f => rfl
  | none =>
    dsimp only
    rw [skip_arms (munchArms_keyed _ _ _ _ _) (by decide), skip_arms (munchArms_keyed _ _ _ _ _) (by decide),
      skip_arms (munchArms_keyed _ _ _ _ _) (by decide), blockArms_at hP]
    rfl

theorem firstArm_alt {R : Fragments} (hP : Extends R P) {x : Tree} {src : Macro.Source} (h : IsInput P x src) (lhs ts : List TT) :
    firstArm P Text.parseInternal (args x (.alt lhs ts))
      = (firstRule [.lt, .bar, .gt] tables.alt ts).map (found (altOut (source src) lhs)) := by
  rw [arms, args]
  simp only [List.cons_append, List.nil_append]
  rw [skip_arms bindArms_keyed (by decide), skip_arms termArms_keyed (by decide),
    skip_arms (munchArms_keyed _ _ _ _ _) (by decide)]
  have := munch (K := "EXPR_ALT") (sep := [.lt, .bar, .gt]) (inputPat_run h lhs) (altTpl_out (source src) lhs) tables.alt (by decide)
    (tables.skip.map (munchArm "EXPR_SKIP" inputPat [.lt, .star] skipTpl) ++
    (tables.statement.map (munchArm "STATEMENT" dataPat [.semi] statementTpl) ++ blockArms)) ts
  simp only [List.cons_append, List.nil_append] at this
  rw [this]
  cases firstRule [.lt, .bar, .gt] tables.alt ts with
  | some f => rfl
  | none =>
    dsimp only
    rw [skip_arms (munchArms_keyed _ _ _ _ _) (by decide), skip_arms (munchArms_keyed _ _ _ _ _) (by decide), blockArms_at hP]
    rfl

theorem firstArm_skipping {R : Fragments} (hP : Extends R P) {x : Tree} {src : Macro.Source} (h : IsInput P x src)
    (lhs ts : List TT) :
    firstArm P Text.parseInternal (args x (.skip lhs ts))
      = (firstRule [.lt, .star] tables.skip ts).map (found (skipOut (source src) lhs)) := by
  rw [arms, args]
  simp only [List.cons_append, List.nil_append]
  rw [skip_arms bindArms_keyed (by decide), skip_arms termArms_keyed (by decide),
    skip_arms (munchArms_keyed _ _ _ _ _) (by decide), skip_arms (munchArms_keyed _ _ _ _ _) (by decide)]
  have := munch (K := "EXPR_SKIP") (sep := [.lt, .star]) (inputPat_run h lhs) (skipTpl_out (source src) lhs) tables.skip (by decide)
    (tables.statement.map (munchArm "STATEMENT" dataPat [.semi] statementTpl) ++ blockArms) ts
  simp only [List.cons_append, List.nil_append] at this
  rw [this]
  cases firstRule [.lt, .star] tables.skip ts with
  | some f => rfl
  | none =>
    dsimp only
    rw [skip_arms (munchArms_keyed _ _ _ _ _) (by decide), blockArms_at hP]
    rfl

theorem firstArm_statement {R : Fragments} (hP : Extends R P) (x : Tree) (v : Var) (data ts : List TT) :
    firstArm P Text.parseInternal (args x (.statement v data ts))
      = (firstRule [.semi] tables.statement ts).map (found (statementOut x v data)) := by
  rw [arms, args]
  simp only [List.cons_append, List.nil_append]
  rw [skip_arms bindArms_keyed (by decide), skip_arms termArms_keyed (by decide),
    skip_arms (munchArms_keyed _ _ _ _ _) (by decide), skip_arms (munchArms_keyed _ _ _ _ _) (by decide),
    skip_arms (munchArms_keyed _ _ _ _ _) (by decide)]
  have := munch (K := "STATEMENT") (sep := [.semi]) (dataPat_run (P := P) (.group .paren (x :: key .semi :: variable_ v)) data)
    (statementTpl_out x v data) tables.statement (by decide) blockArms ts
  simp only [List.cons_append, List.nil_append] at this
  rw [this]
  cases firstRule [.semi] tables.statement ts with
  | some f => rfl
  | none => exact blockArms_at hP _

/-! ### `@BIND` -/

def bindOut (s : Tree) (v : Var) (exp tail : List TT) : Option (List Tree) :=
  match exp, tail, v with
  | [], _, _ => none
  | exp, [], .wild => some [.call PI (args s (.expr [] exp))]
  | _, [], _ => none
  | exp, tail, v => some [.call PI (args s (.expr [] exp)), key (.other "."), key (.ident "bind"),
      .group .paren ([key .bar, i, key .comma] ++ variable_ v ++ [key .bar, .call PI (args i (.block tail))])]

theorem users_eq_nil {ts : List TT} : users ts = [] ↔ ts = [] := by
  cases ts <;> simp [users]

theorem rest_none {R : Fragments} (hP : Extends R P) {K : String} (h1 : K = "BIND" ∨ K = "TERM") (ts : List Tree) :
    firstArm P (tables.expr.map (munchArm "EXPR" inputPat [.shr] exprTpl) ++
      (tables.alt.map (munchArm "EXPR_ALT" inputPat [.lt, .bar, .gt] altTpl) ++
      (tables.skip.map (munchArm "EXPR_SKIP" inputPat [.lt, .star] skipTpl) ++
      (tables.statement.map (munchArm "STATEMENT" dataPat [.semi] statementTpl) ++ blockArms))))
      (key .at :: key (.ident K) :: ts) = none := by
  rw [skip_arms (munchArms_keyed _ _ _ _ _) (by rcases h1 with rfl | rfl <;> decide),
    skip_arms (munchArms_keyed _ _ _ _ _) (by rcases h1 with rfl | rfl <;> decide),
    skip_arms (munchArms_keyed _ _ _ _ _) (by rcases h1 with rfl | rfl <;> decide),
    skip_arms (munchArms_keyed _ _ _ _ _) (by rcases h1 with rfl | rfl <;> decide), blockArms_at hP]

theorem firstArm_bind {R : Fragments} (hP : Extends R P) {x : Tree} {src : Macro.Source} (h : IsInput P x src)
    (v : Var) (exp tail : List TT) :
    firstArm P Text.parseInternal (args x (.bind v exp tail)) = bindOut (source src) v exp tail := by
  rw [arms, args]
  simp only [List.cons_append, List.nil_append]
  have hin : ∀ y ps env r, run P (start (.var y .expr :: ps) env) 0 (x :: key .semi :: r)
      = run P (start ps (env ++ [(y, source src)])) 0 (key .semi :: r) :=
    fun y ps env r => h.run _ _ _ (show Ends (key .semi :: _) from .inl rfl)
  simp only [bindArms, Text.parseInternal, List.take_succ_cons, List.take_zero, List.cons_append, List.nil_append]
  cases v with
  | wild =>
    have hpat : ∀ y ps env, run P (start (.var y .pat :: ps) env) 0 [key (.other "_")]
        = run P (start ps (env ++ [(y, .frag .pat [key (.other "_")])])) 0 [] := by
      intro y ps env
      rw [run_frag _ _ (.inr (.inr rfl)) _ _ _ _ rfl, hP.pat_wild]
    cases exp with
    | nil =>
      simp [firstArm, run_tok, run_group, hin, variable_, run_end_nil, run_some, users, hpat,
        run_ident_no _ _ _ (.tok (.other "_") true) _ rfl, skip_arms termArms_keyed, rest_none hP, bindOut]
    | cons a as =>
      cases tail with
      | nil =>
        simp [firstArm, run_tok, run_group, hin, variable_, run_end_nil, run_some, users, bindOut, args, trees, Tpl.trees, one_cons,
          many_cons, many_same]
      | cons b bs =>
        simp [firstArm, run_tok, run_group, hin, variable_, run_end_nil, run_some, users, bindOut, args, trees, Tpl.trees, one_cons,
          many_cons, many_same, many_append, many_other, run_end]
  | pat p =>
    have hpat : ∀ y ps env, run P (start (.var y .pat :: ps) env) 0 [.frag .pat (users p)]
        = run P (start ps (env ++ [(y, .frag .pat (users p))])) 0 [] := by
      intro y ps env
      rw [run_frag _ _ (.inr (.inr rfl)) _ _ _ _ rfl, hP.pat_again]
    have hno : ∀ t ps env, run P (start (.tok t :: ps) env) 0 [.frag .pat (users p)] = .no :=
      fun t ps env => run_tok_no _ _ _ _ _ (by simp)
    cases exp with
    | nil =>
      simp [firstArm, run_tok, run_group, hin, variable_, run_end_nil, run_some, users, hpat, hno,
        run_ident_no _ _ _ (.frag .pat (users p)) _ rfl, skip_arms termArms_keyed, rest_none hP, bindOut]
    | cons a as =>
      cases tail with
      | nil =>
        simp [firstArm, run_tok, run_group, hin, variable_, run_end_nil, run_some, users, hpat, hno,
          run_ident_no _ _ _ (.frag .pat (users p)) _ rfl, skip_arms termArms_keyed, rest_none hP, bindOut]
      | cons b bs =>
        simp [firstArm, run_tok, run_group, hin, variable_, run_end_nil, run_some, users, bindOut, args, trees, Tpl.trees, one_cons,
          many_cons, many_same, many_append, many_other, hpat, hno]
  | typed y t =>
    have hpat : ∀ z ps env, run P (start (.var z .pat :: ps) env) 0 [.tok (.ident y) false, key .colon, .frag .ty (users t)]
        = run P (start ps (env ++ [(z, .frag .pat [.tok (.ident y) false])])) 0 [key .colon, .frag .ty (users t)] := by
      intro z ps env
      rw [run_frag _ _ (.inr (.inr rfl)) _ _ _ _ rfl, hP.pat_colon]
    have hty : ∀ z ps env, run P (start (.var z .ty :: ps) env) 0 [.frag .ty (users t)]
        = run P (start ps (env ++ [(z, .frag .ty (users t))])) 0 [] := by
      intro z ps env
      rw [run_frag _ _ (.inr (.inl rfl)) _ _ _ _ rfl, hP.ty_again]
    cases exp with
    | nil =>
      simp [firstArm, run_tok, run_group, hin, variable_, run_end_nil, run_some, users, hpat, hty, run_end,
        run_ident, skip_arms termArms_keyed, rest_none hP, bindOut]
    | cons a as =>
      cases tail with
      | nil =>
        simp [firstArm, run_tok, run_group, hin, variable_, run_end_nil, run_some, users, hpat, hty, run_end,
          run_ident, skip_arms termArms_keyed, rest_none hP, bindOut]
      | cons b bs =>
        simp [firstArm, run_tok, run_group, hin, variable_, run_end_nil, run_some, users, bindOut, args, trees, Tpl.trees, one_cons,
          many_cons, many_same, many_append, many_other, hpat, hty, run_end, run_ident]

/-! ### `@TERM` -/

/-- An expression of the program. -/
theorem run_expr {R : Fragments} (hR : R.Lawful) (hP : Extends R P) (y : String) (ps : List Pat) (env : Env) {ts : List TT}
    (hc : ∀ r, ts ≠ .tok .comma :: r) (hn : ts ≠ []) :
    run P (start (.var y .expr :: ps) env) 0 (users ts) = (match R.expr ts with
      | some (e, r) => run P (start ps (env ++ [(y, .frag .expr (users e))])) 0 (users r)
      | none => .err) := by
  cases ts with
  | nil => exact absurd rfl hn
  | cons t ts =>
    have hb : begins .expr (user t) = true := by
      cases t with
      | group => simp [user, begins]
      | tok t =>
        rw [user]
        cases t <;> simp [begins]
        exact hc ts rfl
    rw [users, run_frag _ _ (.inl rfl) _ _ _ _ hb, ← users, hP.expr]
    cases he : R.expr (t :: ts) with
    | none => rfl
    | some x =>
      obtain ⟨e, r⟩ := x
      obtain ⟨hs, hi⟩ := hR.expr_part he
      cases e with
      | nil => exact absurd hi hR.expr_ne
      | cons a e =>
        rw [List.cons_append] at hs
        injection hs with _ hs
        subst hs
        simp only [Option.map, List.length_cons, Nat.add_sub_cancel]
        rw [users_append, ← users_length e, run_skip]

theorem run_ty {R : Fragments} (hR : R.Lawful) (hP : Extends R P) (y : String) (ps : List Pat) (env : Env) {ts : List TT}
    (hn : ts ≠ []) :
    run P (start (.var y .ty :: ps) env) 0 (users ts) = (match R.ty ts with
      | some (e, r) => run P (start ps (env ++ [(y, .frag .ty (users e))])) 0 (users r)
      | none => .err) := by
  cases ts with
  | nil => exact absurd rfl hn
  | cons t ts =>
    have hb : begins .ty (user t) = true := by
      cases t with
      | group => rfl
      | tok t => cases t <;> rfl
    rw [users, run_frag _ _ (.inr (.inl rfl)) _ _ _ _ hb, ← users, hP.ty]
    cases he : R.ty (t :: ts) with
    | none => rfl
    | some x =>
      obtain ⟨e, r⟩ := x
      obtain ⟨hs, hi⟩ := hR.ty_part he
      cases e with
      | nil => exact absurd rfl (hP.ty_ne he)
      | cons a e =>
        rw [List.cons_append] at hs
        injection hs with _ hs
        subst hs
        simp only [Option.map, List.length_cons, Nat.add_sub_cancel]
        rw [users_append, ← users_length e, run_skip]

theorem run_pat {R : Fragments} (hR : R.Lawful) (hP : Extends R P) (y : String) (ps : List Pat) (env : Env) {ts : List TT}
    (hn : ts ≠ []) :
    run P (start (.var y .pat :: ps) env) 0 (users ts) = (match R.pat ts with
      | some (e, r) => run P (start ps (env ++ [(y, .frag .pat (users e))])) 0 (users r)
      | none => .err) := by
  cases ts with
  | nil => exact absurd rfl hn
  | cons t ts =>
    have hb : begins .pat (user t) = true := by
      cases t with
      | group => rfl
      | tok t => cases t <;> rfl
    rw [users, run_frag _ _ (.inr (.inr rfl)) _ _ _ _ hb, ← users, hP.pat]
    cases he : R.pat (t :: ts) with
    | none => rfl
    | some x =>
      obtain ⟨e, r⟩ := x
      obtain ⟨hs, hi⟩ := hR.pat_part he
      cases e with
      | nil => exact absurd rfl (hP.pat_ne he)
      | cons a e =>
        rw [List.cons_append] at hs
        injection hs with _ hs
        subst hs
        simp only [Option.map, List.length_cons, Nat.add_sub_cancel]
        rw [users_append, ← users_length e, run_skip]

theorem expr_nil {R : Fragments} (hR : R.Lawful) : R.expr [] = none := by
  cases h : R.expr [] with
  | none => rfl
  | some x =>
    obtain ⟨e, r⟩ := x
    obtain ⟨hs, hi⟩ := hR.expr_part h
    have : e = [] := (List.nil_eq_append_iff.1 hs).1
    subst this
    exact absurd hi hR.expr_ne

theorem act_nil (t : Tree) (env : Env) : act t ([], env) = none := rfl

/-- Tokens where no expression can begin. -/
def noExpr : List TT → Bool
  | [] => true
  | .tok .comma :: _ => true
  | _ => false

theorem noExpr_iff (ts : List TT) : noExpr ts = true ↔ ts = [] ∨ ∃ r, ts = .tok .comma :: r := by
  cases ts with
  | nil => simp [noExpr]
  | cons t ts =>
    cases t with
    | group => simp [noExpr]
    | tok t => cases t <;> simp [noExpr]

/-- An expression up to the end, as the last part of a rule. -/
theorem run_expr_end {R : Fragments} (hR : R.Lawful) (hP : Extends R P) (y : String) (env : Env) (ts : List TT) :
    run P (start [.var y .expr] env) 0 (users ts) = (match R.expr ts with
      | some (e, []) => .ok (env ++ [(y, .frag .expr (users e))])
      | some (_, _ :: _) => .no
      | none => if noExpr ts then .no else .err) := by
  by_cases hn : ts = []
  · subst hn
    rw [expr_nil hR, users, run_var_nil]
    rfl
  · by_cases hc : ∃ r, ts = .tok .comma :: r
    · obtain ⟨r, rfl⟩ := hc
      rw [hR.expr_start r (.inr (.inl rfl)), users, user, run, start_var]
      simp [act, begins, noExpr]
    · rw [run_expr hR hP _ _ _ (fun r h => hc ⟨r, h⟩) hn]
      cases R.expr ts with
      | none =>
        have : noExpr ts = false := Bool.eq_false_iff.2 fun h => ((noExpr_iff ts).1 h).elim hn hc
        simp [this]
      | some x =>
        obtain ⟨e, r⟩ := x
        cases r with
        | nil => dsimp only; rw [users, run_end_nil]
        | cons => dsimp only; rw [users, run_end]

/-- `$($param:expr),* $(,)*` -/
def paramsPat : List Pat := [.rep "param" .expr (some .comma) false, .reps .comma]

def isComma : TT → Bool
  | .tok .comma => true
  | _ => false

theorem params_cons (R : Fragments) (k : Nat) (t : TT) (ts : List TT) : params R (k + 1) (t :: ts) =
    if (t :: ts).all isComma then some []
    else match R.expr (t :: ts) with
      | some (e, []) => some [e]
      | some (e, .tok .comma :: rest) => (params R k rest).map (e :: ·)
      | _ => none := by
  rw [params]
  · rfl
  · simp

theorem run_commas (env : Env) (ts : List TT) :
    run P (start [.reps .comma] env) 0 (users ts)
      = if ts.all isComma then .ok env else .no := by
  induction ts with
  | nil => rw [users, run_nil]; rfl
  | cons t ts ih =>
    rw [users, run]
    have : start [.reps .comma] env = [([.tok .comma, .reps .comma], env), ([], env)] := rfl
    rw [this]
    cases t with
    | group => rfl
    | tok t =>
      by_cases ht : t = .comma
      · subst ht
        simpa [user, act, List.filterMap_cons, tokens, isComma] using ih
      · have : isComma (.tok t) = false := by
          cases t <;> simp at ht <;> rfl
        simp [user, act, List.filterMap_cons, Ne.symm ht, this]

theorem run_params {R : Fragments} (hR : R.Lawful) (hP : Extends R P) (k : Nat) (env : Env) (ts : List TT) (hk : ts.length ≤ k) :
    (∀ ps, params R k ts = some ps →
      run P (start paramsPat env) 0 (users ts) = .ok (env ++ ps.map fun p => ("param", .frag .expr (users p)))) ∧
    (params R k ts = none → run P (start paramsPat env) 0 (users ts) = .no ∨ run P (start paramsPat env) 0 (users ts) = .err) := by
  have hstart : ∀ env, start paramsPat env = [([.var "param" .expr, .again "param" .expr (some .comma), .reps .comma], env),
      ([.tok .comma, .reps .comma], env), ([], env)] := fun _ => rfl
  induction k generalizing env ts with
  | zero =>
    have : ts = [] := by simpa using hk
    subst this
    simp [params, users, run_nil, hstart, finish]
  | succ k ih =>
    cases ts with
    | nil => simp [params, users, run_nil, hstart, finish]
    | cons t ts =>
      by_cases hc : t = .tok .comma
      · subst hc
        have hrun : run P (start paramsPat env) 0 (users (.tok .comma :: ts)) = run P (start [.reps .comma] env) 0 (users ts) := by
          rw [hstart, users, run, user]
          simp [act, begins, List.filterMap_cons, tokens]
        rw [hrun, run_commas, params_cons]
        · by_cases ha : ts.all isComma = true
          · rw [if_pos (by simpa [isComma] using ha), if_pos ha]
            simp
          · rw [if_neg (by simpa [isComma] using ha), if_neg ha, hR.expr_start _ (.inr (.inl rfl))]
            simp
      · have hall : (t :: ts).all isComma = false := by
          cases t with
          | group => simp [isComma]
          | tok t => cases t <;> simp at hc <;> simp [isComma]
        have hb : begins .expr (user t) = true := by
          cases t with
          | group => simp [user, begins]
          | tok t =>
            rw [user]
            cases t <;> simp [begins]
            exact hc rfl
        have hv : run P (start paramsPat env) 0 (users (t :: ts))
            = run P (start [.var "param" .expr, .again "param" .expr (some .comma), .reps .comma] env) 0 (users (t :: ts)) := by
          rw [hstart, start_var, users, run, run]
          have : act (user t) ([.tok .comma, .reps .comma], env) = none := by
            cases t with
            | group => rfl
            | tok t =>
              have : Tok.comma ≠ t := fun h => hc (by rw [h])
              simp [user, act, this]
          simp [List.filterMap_cons, this, act_nil]
        rw [hv, run_expr hR hP _ _ _ (by intro r h; exact hc (List.cons.inj h).1) (by simp), params_cons]
        · rw [hall]
          simp only [Bool.false_eq_true, if_false]
          cases he : R.expr (t :: ts) with
          | none => simp
          | some x =>
            obtain ⟨e, r⟩ := x
            obtain ⟨hs, hi⟩ := hR.expr_part he
            have hlen : r.length ≤ k := by
              cases e with
              | nil => exact absurd hi hR.expr_ne
              | cons a e =>
                have := congrArg List.length hs
                simp only [List.length_cons, List.length_append] at this hk
                omega
            cases r with
            | nil => simp [users, run_nil, start, heads, finish]
            | cons u r =>
              by_cases hu : u = .tok .comma
              · subst hu
                have hgo : run P (start [.again "param" .expr (some .comma), .reps .comma]
                    (env ++ [("param", .frag .expr (users e))])) 0 (users (.tok .comma :: r))
                    = run P (start paramsPat (env ++ [("param", .frag .expr (users e))])) 0 (users r) := by
                  rw [users, run, user]
                  simp [start, heads, act, List.filterMap_cons, tokens, paramsPat]
                dsimp only
                rw [hgo]
                have hlen' : r.length ≤ k := by simp at hlen; omega
                obtain ⟨h1, h2⟩ := ih (env ++ [("param", .frag .expr (users e))]) r hlen'
                cases hp : params R k r with
                | none => simpa using h2 hp
                | some ps => simpa using h1 ps hp
              · have hno : run P (start [.again "param" .expr (some .comma), .reps .comma]
                    (env ++ [("param", .frag .expr (users e))])) 0 (users (u :: r)) = .no := by
                  rw [users, run]
                  cases u with
                  | group => simp [start, heads, act, List.filterMap_cons, user]
                  | tok u =>
                    have : Tok.comma ≠ u := fun h => hu (by rw [h])
                    simp [start, heads, act, List.filterMap_cons, user, this]
                dsimp only
                rw [hno]
                cases u with
                | group => simp
                | tok u => cases u <;> simp at hu <;> simp

/-- A rule for `@TERM($input:expr)`. -/
def termArm (ps : List Pat) (tpl : List Tpl) : Arm :=
  ⟨[.tok .at, .tok (.ident "TERM"), .group .paren [.var "input" .expr]] ++ ps, tpl⟩

/-- `f @ $t_ty:ty, $e_ty:ty : $e:expr` -/
def typedPat (f : String) : List Pat :=
  [.tok (.ident f), .tok .at, .var "t_ty" .ty, .tok .comma, .var "e_ty" .ty, .tok .colon, .var "e" .expr]

def typedTpl (f : String) : List Tpl :=
  [.var "input", .tok (.other "."), .tok (.ident f), .tok (.other "::"), .tok .lt, .var "t_ty", .tok .comma, .var "e_ty",
    .tok .gt, .group .paren [.var "e"]]

def plainTpl (f : String) : List Tpl := [.var "input", .tok (.other "."), .tok (.ident f), .group .paren [.var "e"]]

theorem termArms_eq : termArms = [
    termArm (typedPat "ret") (typedTpl "ret"),
    termArm [.tok (.ident "ret"), .var "e" .expr] (plainTpl "ret"),
    termArm (typedPat "err") (typedTpl "err"),
    termArm [.tok (.ident "err"), .var "e" .expr] (plainTpl "err"),
    termArm [.group .paren [.rep "inner" .tt none false]] [callTpl "EXPR" [.rep "inner" none]],
    termArm [.var "state" .ident, .tok .arrow, .var "e" .expr]
      [.group .brace [.tok .kwLet, .var "state", .tok .eq, .var "input", .tok .semi, .var "e"]],
    termArm [.var "func" .ident, .group .paren paramsPat]
      [.var "func", .group .paren [.var "input", .tok .comma, .rep "param" (some .comma)]]] := rfl

theorem termArm_first {x : Tree} {src : Macro.Source} (h : IsInput P x src) (ps : List Pat) (tpl : List Tpl) (as : List Arm)
    (ts : List TT) :
    firstArm P (termArm ps tpl :: as) (args x (.term ts)) = (match run P (start ps [("input", source src)]) 0 (users ts) with
      | .ok env => some (trees env tpl)
      | .no => firstArm P as (args x (.term ts))
      | .err => none) := by
  rw [firstArm, args, termArm, run_key, h.run _ _ _ (show Ends [] from trivial), run_end_nil]
  rfl

theorem ty_nil {R : Fragments} (hR : R.Lawful) (hP : Extends R P) : R.ty [] = none := by
  cases h : R.ty [] with
  | none => rfl
  | some x =>
    obtain ⟨e, r⟩ := x
    exact absurd (List.nil_eq_append_iff.1 (hR.ty_part h).1).1 (hP.ty_ne h)

theorem pat_nil {R : Fragments} (hR : R.Lawful) (hP : Extends R P) : R.pat [] = none := by
  cases h : R.pat [] with
  | none => rfl
  | some x =>
    obtain ⟨e, r⟩ := x
    exact absurd (List.nil_eq_append_iff.1 (hR.pat_part h).1).1 (hP.pat_ne h)

/-- A token, at the beginning of tokens of the program. -/
theorem run_tok_users (t : Tok) (ps : List Pat) (env : Env) (ts : List TT) (h : ∀ r, ts ≠ .tok t :: r) :
    run P (start (.tok t :: ps) env) 0 (users ts) = .no := by
  cases ts with
  | nil => rw [users, run_tok_nil]
  | cons u r =>
    rw [users, run_tok_no]
    intro b hb
    cases u with
    | group => simp [user] at hb
    | tok u =>
      simp only [user, Tree.tok.injEq] at hb
      exact h r (by rw [hb.1])

theorem run_typed {R : Fragments} (hR : R.Lawful) (hP : Extends R P) (env : Env) (ts : List TT) :
    (∀ t u e, typed R ts = some ((t, u), e) →
      run P (start [.var "t_ty" .ty, .tok .comma, .var "e_ty" .ty, .tok .colon, .var "e" .expr] env) 0 (users ts)
        = .ok (env ++ [("t_ty", .frag .ty (users t)), ("e_ty", .frag .ty (users u)), ("e", .frag .expr (users e))])) ∧
    (typed R ts = none → ∀ env', run P (start [.var "t_ty" .ty, .tok .comma, .var "e_ty" .ty, .tok .colon, .var "e" .expr] env) 0
        (users ts) ≠ .ok env') := by
  rw [typed]
  by_cases hn : ts = []
  · subst hn
    rw [ty_nil hR hP, users, run_var_nil]
    simp
  rw [run_ty hR hP _ _ _ hn]
  cases h1 : R.ty ts with
  | none => simp
  | some x =>
    obtain ⟨t, r⟩ := x
    by_cases hc : ∃ r1, r = .tok .comma :: r1
    · obtain ⟨r1, rfl⟩ := hc
      dsimp only
      rw [users, user, run_tok, if_pos rfl]
      by_cases hn : r1 = []
      · subst hn
        rw [ty_nil hR hP, users, run_var_nil]
        simp
      rw [run_ty hR hP _ _ _ hn]
      cases h2 : R.ty r1 with
      | none => simp
      | some x =>
        obtain ⟨u, r⟩ := x
        by_cases hc : ∃ r2, r = .tok .colon :: r2
        · obtain ⟨r2, rfl⟩ := hc
          dsimp only
          rw [users, user, run_tok, if_pos rfl, run_expr_end hR hP]
          cases h3 : R.expr r2 with
          | none => by_cases hx : noExpr r2 = true <;> simp [hx]
          | some x =>
            obtain ⟨e, r⟩ := x
            cases r <;> simp
        · have hc : ∀ r2, r ≠ .tok .colon :: r2 := fun r2 h => hc ⟨r2, h⟩
          dsimp only
          rw [run_tok_users _ _ _ _ hc]
          simp
          split <;> simp_all
    · have hc : ∀ r2, r ≠ .tok .comma :: r2 := fun r2 h => hc ⟨r2, h⟩
      dsimp only
      rw [run_tok_users _ _ _ _ hc]
      simp
      split <;> simp_all

/-- What the rules for `@TERM` give. -/
def termOut (src : Macro.Source) : Term → List Tree
  | .expr inner => [.call PI (args (source src) (.expr [] inner))]
  | .done c => text (c.exp (fun _ => 1) [] src)

theorem typed_tpl (f : String) (s t u e : Tree) :
    trees [("input", s), ("t_ty", t), ("e_ty", u), ("e", e)] (typedTpl f)
      = [s, key (.other "."), key (.ident f), key (.other "::"), key .lt, t, key .comma, u, key .gt, .group .paren [e]] := by
  simp [typedTpl, trees, Tpl.trees, one_cons]

theorem plain_tpl (f : String) (s e : Tree) :
    trees [("input", s), ("e", e)] (plainTpl f) = [s, key (.other "."), key (.ident f), .group .paren [e]] := by
  simp [plainTpl, trees, Tpl.trees, one_cons]

/-- The rules after `ret` or `err`, where they have to fail. -/
theorem last_arms {R : Fragments} (hR : R.Lawful) (hP : Extends R P) {x : Tree} {src : Macro.Source} (h : IsInput P x src)
    (f : String) (r : List TT) (ha : ∀ r', r ≠ .tok .arrow :: r') (hg : ∀ inner, r ≠ [.group .paren inner]) (as : List Arm)
    (hn : firstArm P as (args x (.term (.tok (.ident f) :: r))) = none) :
    firstArm P (termArm [.group .paren [.rep "inner" .tt none false]] [callTpl "EXPR" [.rep "inner" none]] ::
      termArm [.var "state" .ident, .tok .arrow, .var "e" .expr]
        [.group .brace [.tok .kwLet, .var "state", .tok .eq, .var "input", .tok .semi, .var "e"]] ::
      termArm [.var "func" .ident, .group .paren paramsPat]
        [.var "func", .group .paren [.var "input", .tok .comma, .rep "param" (some .comma)]] :: as)
      (args x (.term (.tok (.ident f) :: r))) = none := by
  rw [termArm_first h, users, user, run_group_no _ _ _ _ _ _ (by simp)]
  dsimp only
  rw [termArm_first h, users, user, run_ident, run_tok_users _ _ _ _ ha]
  dsimp only
  rw [termArm_first h, users, user, run_ident]
  cases r with
  | nil => rw [users, run_group_nil]; exact hn
  | cons t r =>
    rw [users]
    by_cases ht : ∃ gs, t = .group .paren gs
    · obtain ⟨gs, rfl⟩ := ht
      rw [user, run_group]
      have hr : r ≠ [] := by rintro rfl; exact hg gs rfl
      have hp := run_params hR hP gs.length ([("input", source src)] ++ [("func", .tok (.ident f) false)]) gs (Nat.le_refl _)
      cases hq : params R gs.length gs with
      | none =>
        rcases hp.2 hq with h | h
        · rw [h]; exact hn
        · rw [h]
      | some ps =>
        rw [hp.1 ps hq]
        dsimp only
        cases r with
        | nil => exact absurd rfl hr
        | cons u r => rw [users, run_end]; exact hn
    · rw [run_group_no]
      · exact hn
      · intro gs hgs
        cases t with
        | tok => simp [user] at hgs
        | group d us =>
          simp only [user, Tree.group.injEq] at hgs
          exact ht ⟨us, by rw [hgs.1]⟩

/-- `ret` and `err` -/
theorem term_method {R : Fragments} (hR : R.Lawful) (hP : Extends R P) {x : Tree} {src : Macro.Source} (h : IsInput P x src)
    (f : String) (r : List TT) (as : List Arm) (hn : firstArm P as (args x (.term (.tok (.ident f) :: r))) = none) :
    firstArm P (termArm (typedPat f) (typedTpl f) :: termArm [.tok (.ident f), .var "e" .expr] (plainTpl f) ::
      termArm [.group .paren [.rep "inner" .tt none false]] [callTpl "EXPR" [.rep "inner" none]] ::
      termArm [.var "state" .ident, .tok .arrow, .var "e" .expr]
        [.group .brace [.tok .kwLet, .var "state", .tok .eq, .var "input", .tok .semi, .var "e"]] ::
      termArm [.var "func" .ident, .group .paren paramsPat]
        [.var "func", .group .paren [.var "input", .tok .comma, .rep "param" (some .comma)]] :: as)
      (args x (.term (.tok (.ident f) :: r))) = (match (generalizing := false) r with
        | .tok .at :: r => (typed R r).map fun y => source src :: method f (some y.1) y.2
        | r => match R.expr r with
          | some (e, []) => some (source src :: method f none e)
          | _ => none) := by
  rw [termArm_first h, users, user, typedPat, run_tok, if_pos rfl]
  by_cases hat : ∃ r', r = .tok .at :: r'
  · obtain ⟨r, rfl⟩ := hat
    dsimp only
    rw [users, user, run_tok, if_pos rfl]
    have ht := run_typed hR hP [("input", source src)] r
    cases hq : typed R r with
    | some y =>
      obtain ⟨⟨t, u⟩, e⟩ := y
      rw [ht.1 t u e hq]
      dsimp only [List.cons_append, List.nil_append]
      rw [typed_tpl]
      rfl
    | none =>
      have := ht.2 hq
      rw [termArm_first h, users, user, run_tok, if_pos rfl, run_expr_end hR hP, hR.expr_start _ (.inl rfl)]
      simp only [noExpr, Bool.false_eq_true, if_false]
      split <;> first | rfl | (rename_i h; exact absurd h (this _))
  · have hat : ∀ r', r ≠ .tok .at :: r' := fun r' h => hat ⟨r', h⟩
    rw [run_tok_users _ _ _ _ hat]
    dsimp only
    rw [termArm_first h, users, user, run_tok, if_pos rfl, run_expr_end hR hP]
    have hm : (match (generalizing := false) r with
        | .tok .at :: r => (typed R r).map fun y => source src :: method f (some y.1) y.2
        | r => match R.expr r with
          | some (e, []) => some (source src :: method f none e)
          | _ => none) = (match R.expr r with
          | some (e, []) => some (source src :: method f none e)
          | _ => none) := by
      split
      · rename_i h; exact absurd rfl (hat _)
      · rfl
    rw [hm]
    cases he : R.expr r with
    | none =>
      dsimp only
      by_cases hx : noExpr r = true
      · rw [if_pos hx]
        apply last_arms hR hP h _ _ _ _ _ hn
        · rintro r' rfl; simp [noExpr] at hx
        · rintro r' rfl; simp [noExpr] at hx
      · rw [if_neg hx]
    | some y =>
      obtain ⟨e, r1⟩ := y
      obtain ⟨hs, hi⟩ := hR.expr_part he
      cases r1 with
      | nil =>
        dsimp only [List.cons_append, List.nil_append]
        rw [plain_tpl]
        rfl
      | cons u r1 =>
        dsimp only
        apply last_arms hR hP h _ _ _ _ _ hn
        · rintro r' rfl
          rw [hR.expr_start _ (.inr (.inr rfl))] at he
          cases he
        · rintro r' rfl
          cases e with
          | nil => exact hR.expr_ne hi
          | cons a e => simp at hs

theorem firstArm_remove {c : Arm} {ts : List Tree} (as bs : List Arm) (h : run P (start c.pat []) 0 ts = .no) :
    firstArm P (as ++ c :: bs) ts = firstArm P (as ++ bs) ts := by
  induction as with
  | nil => rw [List.nil_append, firstArm, h]; rfl
  | cons a as ih => rw [List.cons_append, List.cons_append, firstArm, firstArm, ih]

theorem termArm_no {x : Tree} {src : Macro.Source} (h : IsInput P x src) (t : Tok) (ps : List Pat) (tpl : List Tpl)
    (ts : List TT) (hno : ∀ r, ts ≠ .tok t :: r) :
    run P (start (termArm (.tok t :: ps) tpl).pat []) 0 (args x (.term ts)) = .no := by
  rw [args, termArm, run_key, h.run _ _ _ (show Ends [] from trivial), run_end_nil]
  exact run_tok_users _ _ _ _ hno

theorem term_ret (R : Fragments) (src : Macro.Source) (r : List TT) :
    (term R (.tok (.ident "ret") :: r)).map (termOut src) = (match (generalizing := false) r with
        | .tok .at :: r => (typed R r).map fun y => source src :: method "ret" (some y.1) y.2
        | r => match R.expr r with
          | some (e, []) => some (source src :: method "ret" none e)
          | _ => none) := by
  split
  · rw [term, Option.map_map]; rfl
  · rename_i hat
    rw [term]
    · cases R.expr r with
      | none => rfl
      | some y =>
        obtain ⟨e, r1⟩ := y
        cases r1 <;> rfl
    · exact hat

theorem term_err (R : Fragments) (src : Macro.Source) (r : List TT) :
    (term R (.tok (.ident "err") :: r)).map (termOut src) = (match (generalizing := false) r with
        | .tok .at :: r => (typed R r).map fun y => source src :: method "err" (some y.1) y.2
        | r => match R.expr r with
          | some (e, []) => some (source src :: method "err" none e)
          | _ => none) := by
  split
  · rw [term, Option.map_map]; rfl
  · rename_i hat
    rw [term]
    · cases R.expr r with
      | none => rfl
      | some y =>
        obtain ⟨e, r1⟩ := y
        cases r1 <;> rfl
    · exact hat

/-- The expression and the rest, for names other than `ret` and `err`. -/
theorem term_ident (R : Fragments) {f : String} (h1 : f ≠ "ret") (h2 : f ≠ "err") (r : List TT) :
    term R (.tok (.ident f) :: r) = (match (generalizing := false) r with
      | .tok .arrow :: r => (match R.expr r with
        | some (e, []) => some (.done (.inline f e))
        | _ => none)
      | [.group .paren inner] => (params R inner.length inner).map fun ps => .done (.named f ps)
      | _ => none) := by
  rw [term.eq_def]
  split
  all_goals simp_all
  rfl

theorem firstArm_term {R : Fragments} (hR : R.Lawful) (hP : Extends R P) {x : Tree} {src : Macro.Source} (h : IsInput P x src)
    (ts : List TT) : firstArm P Text.parseInternal (args x (.term ts)) = (term R ts).map (termOut src) := by
  have hrest := rest_none hP (K := "TERM") (.inr rfl) (.group .paren [x] :: users ts)
  rw [arms]
  have hb : ∀ as, firstArm P (bindArms ++ as) (args x (.term ts)) = firstArm P as (args x (.term ts)) :=
    fun as => skip_arms bindArms_keyed (by decide) _ _
  rw [hb, termArms_eq]
  change firstArm P _ (args x (.term ts)) = none at hrest
  generalize (tables.expr.map (munchArm "EXPR" inputPat [.shr] exprTpl) ++
      (tables.alt.map (munchArm "EXPR_ALT" inputPat [.lt, .bar, .gt] altTpl) ++
      (tables.skip.map (munchArm "EXPR_SKIP" inputPat [.lt, .star] skipTpl) ++
      (tables.statement.map (munchArm "STATEMENT" dataPat [.semi] statementTpl) ++ blockArms)))) = as at hrest ⊢
  simp only [List.cons_append, List.nil_append]
  have hmeth : ∀ f r, ts = .tok (.ident f) :: r → _ := fun f r e => term_method hR hP h f r as (e ▸ hrest)
  by_cases hret : ∃ r, ts = .tok (.ident "ret") :: r
  · obtain ⟨r, rfl⟩ := hret
    have e1 := firstArm_remove (P := P) (c := termArm (typedPat "err") (typedTpl "err")) (ts := args x (.term (.tok (.ident "ret") :: r)))
      [termArm (typedPat "ret") (typedTpl "ret"), termArm [.tok (.ident "ret"), .var "e" .expr] (plainTpl "ret")]
    have e2 := firstArm_remove (P := P) (c := termArm [.tok (.ident "err"), .var "e" .expr] (plainTpl "err"))
      (ts := args x (.term (.tok (.ident "ret") :: r)))
      [termArm (typedPat "ret") (typedTpl "ret"), termArm [.tok (.ident "ret"), .var "e" .expr] (plainTpl "ret")]
    simp only [List.cons_append, List.nil_append] at e1 e2
    rw [e1 _ (termArm_no h _ _ _ _ (by simp)), e2 _ (termArm_no h _ _ _ _ (by simp)), hmeth "ret" r rfl]
    rw [term_ret]
  by_cases herr : ∃ r, ts = .tok (.ident "err") :: r
  · obtain ⟨r, rfl⟩ := herr
    have e1 := firstArm_remove (P := P) (c := termArm (typedPat "ret") (typedTpl "ret"))
      (ts := args x (.term (.tok (.ident "err") :: r))) []
    have e2 := firstArm_remove (P := P) (c := termArm [.tok (.ident "ret"), .var "e" .expr] (plainTpl "ret"))
      (ts := args x (.term (.tok (.ident "err") :: r))) []
    simp only [List.nil_append] at e1 e2
    rw [e1 _ (termArm_no h _ _ _ _ (by simp)), e2 _ (termArm_no h _ _ _ _ (by simp)), hmeth "err" r rfl, term_err]
  have hr : ∀ f ps tpl as, f = "ret" ∨ f = "err" →
      firstArm P (termArm (.tok (.ident f) :: ps) tpl :: as) (args x (.term ts)) = firstArm P as (args x (.term ts)) := by
    intro f ps tpl as hf
    apply firstArm_remove []
    apply termArm_no h
    rintro r rfl
    rcases hf with rfl | rfl
    · exact hret ⟨r, rfl⟩
    · exact herr ⟨r, rfl⟩
  rw [typedPat, typedPat, hr _ _ _ _ (.inl rfl), hr _ _ _ _ (.inl rfl), hr _ _ _ _ (.inr rfl), hr _ _ _ _ (.inr rfl)]
  cases ts with
  | nil =>
    rw [termArm_first h, users, run_group_nil]
    dsimp only
    rw [termArm_first h, users, run_var_nil]
    dsimp only
    rw [termArm_first h, users, run_var_nil]
    exact hrest
  | cons t ts =>
    cases t with
    | group d gs =>
      have hno : ∀ y ps tpl, firstArm P (termArm (.var y .ident :: ps) tpl :: as) (args x (.term (.group d gs :: ts)))
          = firstArm P as (args x (.term (.group d gs :: ts))) := by
        intro y ps tpl
        rw [termArm_first h, users, user, run_ident_no _ _ _ _ _ rfl]
      have hno' : ∀ y ps tpl a, firstArm P (termArm (.var y .ident :: ps) tpl :: a :: as) (args x (.term (.group d gs :: ts)))
          = firstArm P (a :: as) (args x (.term (.group d gs :: ts))) := by
        intro y ps tpl a
        rw [termArm_first h, users, user, run_ident_no _ _ _ _ _ rfl]
      rw [termArm_first h, users, user]
      by_cases hd : d = .paren
      · subst hd
        rw [run_group, run_all]
        cases ts with
        | nil =>
          simp [users, run_end_nil, term, termOut, args, callTpl, trees, Tpl.trees, one_cons, many_cons, many_same]
        | cons u ts =>
          dsimp only
          rw [users, run_end]
          dsimp only
          rw [hno', hno, hrest]
          rfl
      · rw [run_group_no _ _ _ _ _ _ (by intro us hus; injection hus with h1 _; exact hd h1)]
        dsimp only
        rw [hno', hno, hrest]
        cases d <;> first | exact absurd rfl hd | rfl
    | tok t =>
      rw [termArm_first h, users, user, run_group_no _ _ _ _ _ _ (by simp)]
      dsimp only
      by_cases hid : ∃ f, t = .ident f
      · obtain ⟨f, rfl⟩ := hid
        have h1 : f ≠ "ret" := by rintro rfl; exact hret ⟨ts, rfl⟩
        have h2 : f ≠ "err" := by rintro rfl; exact herr ⟨ts, rfl⟩
        rw [term_ident R h1 h2, termArm_first h, users, user, run_ident]
        by_cases harr : ∃ r, ts = .tok .arrow :: r
        · obtain ⟨r, rfl⟩ := harr
          dsimp only
          rw [users, user, run_tok, if_pos rfl, run_expr_end hR hP]
          have hlast : firstArm P (termArm [.var "func" .ident, .group .paren paramsPat]
              [.var "func", .group .paren [.var "input", .tok .comma, .rep "param" (some .comma)]] :: as)
              (args x (.term (.tok (.ident f) :: .tok .arrow :: r))) = none := by
            rw [termArm_first h, users, user, run_ident, users, user, run_group_no _ _ _ _ _ _ (by simp)]
            exact hrest
          cases R.expr r with
          | none =>
            by_cases hx : noExpr r = true
            · rw [if_pos hx]; exact hlast
            · rw [if_neg hx]; rfl
          | some y =>
            obtain ⟨e, r1⟩ := y
            cases r1 with
            | nil =>
              simp [termOut, Code.exp, text, trees, Tpl.trees, one_cons, Name.tree]
            | cons => exact hlast
        · have harr : ∀ r, ts ≠ .tok .arrow :: r := fun r h => harr ⟨r, h⟩
          rw [run_tok_users _ _ _ _ harr]
          dsimp only
          rw [termArm_first h, users, user, run_ident]
          cases ts with
          | nil => rw [users, run_group_nil]; exact hrest
          | cons u ts =>
            cases u with
            | tok u =>
              rw [users, user, run_group_no _ _ _ _ _ _ (by simp)]
              dsimp only
              rw [hrest]
              split
              · rename_i hq; exact absurd hq (harr _)
              · rename_i hq; simp at hq
              · rfl
            | group d gs =>
              rw [users, user]
              by_cases hd : d = .paren
              · subst hd
                rw [run_group]
                have hp := run_params hR hP gs.length ([("input", source src)] ++ [("func", .tok (.ident f) false)]) gs
                  (Nat.le_refl _)
                cases hq : params R gs.length gs with
                | none =>
                  have hnone : (match (generalizing := false) TT.group .paren gs :: ts with
                      | .tok .arrow :: r => (match R.expr r with
                        | some (e, []) => some (Term.done (.inline f e))
                        | _ => none)
                      | [.group .paren inner] => (params R inner.length inner).map fun ps => .done (.named f ps)
                      | _ => none) = none := by
                    split
                    · rename_i hq; simp at hq
                    · rename_i hq'; simp at hq'; rw [← hq'.1, hq]; rfl
                    · rfl
                  rw [hnone]
                  rcases hp.2 hq with h | h
                  · rw [h]; exact hrest
                  · rw [h]; rfl
                | some ps =>
                  rw [hp.1 ps hq]
                  dsimp only
                  cases ts with
                  | nil =>
                    rw [users, run_end_nil]
                    dsimp only
                    rw [hq]
                    have hm : Env.many ([("input", source src)] ++ [("func", Tree.tok (.ident f) false)] ++
                        ps.map fun p => ("param", .frag .expr (users p))) "param" = ps.map fun p => .frag .expr (users p) := by
                      have := many_same (ps.map fun p => .frag .expr (users p)) "param"
                      rw [List.map_map] at this
                      simp only [List.cons_append, List.nil_append, many_cons]
                      simpa [Function.comp_def] using this
                    simp only [trees, Tpl.trees, hm]
                    simp [one_cons, termOut, Code.exp, text]
                  | cons u ts =>
                    rw [users, run_end]
                    exact hrest
              · rw [run_group_no _ _ _ _ _ _ (by intro us hus; injection hus with h1 _; exact hd h1)]
                dsimp only
                rw [hrest]
                cases d <;> first | exact absurd rfl hd | rfl
      · have hb : begins .ident (.tok t false) = false := by
          cases t <;> first | rfl | exact absurd ⟨_, rfl⟩ hid
        rw [termArm_first h, users, user, run_ident_no _ _ _ _ _ hb]
        dsimp only
        rw [termArm_first h, users, user, run_ident_no _ _ _ _ _ hb]
        dsimp only
        rw [hrest]
        cases t <;> first | rfl | exact absurd ⟨_, rfl⟩ hid

/-! ### The public rules -/

/-- A rule beginning with `$input:expr`. -/
def blockArm (ps : List Pat) (tpl : List Tpl) : Arm := ⟨.var "input" .expr :: ps, tpl⟩

/-- `__parse_internal!{@STATEMENT(($input; v)) $($tail)*}` -/
def statementCall (v : List Tpl) : List Tpl :=
  [.call PI [.tok .at, .tok (.ident "STATEMENT"), .group .paren [.group .paren (.var "input" :: .tok .semi :: v)],
    .rep "tail" none]]

theorem blockArms_eq : blockArms = [
    blockArm [.tok .semi, .tok .kwLet, .var "name" .pat, .tok .eq, .rep "tail" .tt none true] (statementCall [.var "name"]),
    blockArm [.tok .semi, .tok .kwLet, .var "name" .ident, .tok .colon, .var "name_ty" .ty, .tok .eq, .rep "tail" .tt none true]
      (statementCall [.var "name", .tok .colon, .var "name_ty"]),
    blockArm [.tok .semi, .rep "tail" .tt none true] (statementCall [.tok (.other "_")]),
    blockArm [] [.var "input"],
    blockArm [.tok .semi] [.var "input"]] := rfl

/-- The trees begin with the expression `s`, and `r` follows. -/
structure Begins (P : Parse) (all : List Tree) (s : Tree) (r : List Tree) : Prop where
  ex : ∃ t w, all = t :: (w ++ r) ∧ begins .expr t = true ∧ (∀ b, t ≠ .tok .at b) ∧ P .expr all = some (s, w.length)

theorem Begins.arm {all r : List Tree} {s : Tree} (h : Begins P all s r) (ps : List Pat) (tpl : List Tpl) (as : List Arm) :
    firstArm P (blockArm ps tpl :: as) all = (match run P (start ps [("input", s)]) 0 r with
      | .ok env => some (trees env tpl)
      | .no => firstArm P as all
      | .err => none) := by
  obtain ⟨t, w, rfl, hb, _, hp⟩ := h.ex
  rw [firstArm, blockArm, run_frag _ _ (.inl rfl) _ _ _ _ hb, hp]
  dsimp only
  rw [run_skip]
  rfl

theorem Begins.arms {all r : List Tree} {s : Tree} (h : Begins P all s r) :
    firstArm P Text.parseInternal all = firstArm P blockArms all := by
  obtain ⟨t, w, rfl, _, ha, _⟩ := h.ex
  rw [MacroRules.arms, skip_arms' bindArms_keyed ha, skip_arms' termArms_keyed ha, skip_arms' (munchArms_keyed _ _ _ _ _) ha,
    skip_arms' (munchArms_keyed _ _ _ _ _) ha, skip_arms' (munchArms_keyed _ _ _ _ _) ha,
    skip_arms' (munchArms_keyed _ _ _ _ _) ha]

theorem IsInput.begins {x : Tree} {src : Macro.Source} (h : IsInput P x src) {r : List Tree} (hr : Ends r) :
    Begins P (x :: r) (source src) r :=
  ⟨x, [], rfl, h.begin, h.not_at, h.parse hr⟩

theorem statementCall_wild (s : Tree) (tail : List TT) :
    trees ([("input", s)] ++ (users tail).map ("tail", ·)) (statementCall [.tok (.other "_")])
      = [.call PI (args s (.statement .wild [] tail))] := by
  simp [statementCall, trees, Tpl.trees, one_cons, many_cons, many_same, args, variable_, users]

theorem statementCall_pat (s : Tree) (p tail : List TT) :
    trees ([("input", s)] ++ [("name", .frag .pat (users p))] ++ (users tail).map ("tail", ·)) (statementCall [.var "name"])
      = [.call PI (args s (.statement (.pat p) [] tail))] := by
  simp [statementCall, trees, Tpl.trees, one_cons, many_cons, many_same, args, variable_, users]

theorem statementCall_typed (s : Tree) (x : String) (ty tail : List TT) :
    trees ([("input", s)] ++ [("name", .tok (.ident x) false)] ++ [("name_ty", .frag .ty (users ty))] ++
        (users tail).map ("tail", ·)) (statementCall [.var "name", .tok .colon, .var "name_ty"])
      = [.call PI (args s (.statement (.typed x ty) [] tail))] := by
  simp [statementCall, trees, Tpl.trees, one_cons, many_cons, many_same, args, variable_, users]

/-- Statements which cannot be expanded, but for which there is a rule. -/
def Stuck (ts : List TT) : Prop := ts = [.tok .kwLet] ∨ ∃ x, ts = [.tok .kwLet, .tok (.ident x), .tok .colon]

theorem statement_pat_none {R : Fragments} {rest : List TT} (h : R.pat rest = none) : statement R (.tok .kwLet :: rest) = none := by
  rw [statement.eq_def]; dsimp only; rw [h]

theorem statement_pat {R : Fragments} {rest p tail : List TT} {t : TT} (h : R.pat rest = some (p, .tok .eq :: t :: tail)) :
    statement R (.tok .kwLet :: rest) = some (.pat p, t :: tail) := by
  rw [statement.eq_def]; dsimp only; rw [h]

theorem statement_ty_none {R : Fragments} {r1 p r : List TT} {x : String}
    (hp : R.pat (.tok (.ident x) :: .tok .colon :: r1) = some (p, r)) (hr : ∀ t tail, r ≠ .tok .eq :: t :: tail)
    (ht : R.ty r1 = none) : statement R (.tok .kwLet :: .tok (.ident x) :: .tok .colon :: r1) = none := by
  rw [statement.eq_def]; dsimp only; rw [hp, ht]
  split
  · rfl
  · rename_i hq; injection hq with hq; injection hq with _ hq; exact absurd hq (hr _ _)
  · rfl

theorem statement_ty {R : Fragments} {r1 p r ty tail : List TT} {x : String} {t : TT}
    (hp : R.pat (.tok (.ident x) :: .tok .colon :: r1) = some (p, r)) (hr : ∀ t tail, r ≠ .tok .eq :: t :: tail)
    (ht : R.ty r1 = some (ty, .tok .eq :: t :: tail)) :
    statement R (.tok .kwLet :: .tok (.ident x) :: .tok .colon :: r1) = some (.typed x ty, t :: tail) := by
  rw [statement.eq_def]; dsimp only; rw [hp, ht]
  split
  · rename_i hq; cases hq
  · rename_i hq; injection hq with hq; injection hq with _ hq; exact absurd hq (hr _ _)
  · rfl

theorem statement_ty_wild {R : Fragments} {r1 p r ty r2 : List TT} {x : String}
    (hp : R.pat (.tok (.ident x) :: .tok .colon :: r1) = some (p, r)) (hr : ∀ t tail, r ≠ .tok .eq :: t :: tail)
    (ht : R.ty r1 = some (ty, r2)) (hr2 : ∀ t tail, r2 ≠ .tok .eq :: t :: tail) :
    statement R (.tok .kwLet :: .tok (.ident x) :: .tok .colon :: r1)
      = some (.wild, .tok .kwLet :: .tok (.ident x) :: .tok .colon :: r1) := by
  rw [statement.eq_def]; dsimp only; rw [hp, ht]
  split
  · rename_i hq; cases hq
  · rename_i hq; injection hq with hq; injection hq with _ hq; exact absurd hq (hr _ _)
  · split
    · rename_i hq; cases hq
    · rename_i hq; injection hq with hq; injection hq with _ hq; exact absurd hq (hr2 _ _)
    · rfl

theorem statement_wild {R : Fragments} {rest p r : List TT} (hp : R.pat rest = some (p, r))
    (hr : ∀ t tail, r ≠ .tok .eq :: t :: tail) (hx : ∀ x r1, rest ≠ .tok (.ident x) :: .tok .colon :: r1) :
    statement R (.tok .kwLet :: rest) = some (.wild, .tok .kwLet :: rest) := by
  rw [statement.eq_def]; dsimp only; rw [hp]
  split
  · rename_i hq; cases hq
  · rename_i hq; injection hq with hq; injection hq with _ hq; exact absurd hq (hr _ _)
  · split
    · exact absurd rfl (hx _ _)
    · rfl

theorem firstArm_block {R : Fragments} (hR : R.Lawful) (hP : Extends R P) {all : List Tree} {s : Tree} {ts : List TT} {b : Bool}
    (h : Begins P all s (.tok .semi b :: users ts)) (hn : ts ≠ []) :
    firstArm P Text.parseInternal all = (statement R ts).map (fun vt => [.call PI (args s (.statement vt.1 [] vt.2))]) ∨
    (Stuck ts ∧ firstArm P Text.parseInternal all = some [.call PI (args s (.statement .wild [] ts))]) := by
  rw [h.arms, blockArms_eq]
  have hne : users ts ≠ [] := fun h => hn (users_eq_nil.1 h)
  have hC : ∀ as, firstArm P (blockArm [.tok .semi, .rep "tail" .tt none true] (statementCall [.tok (.other "_")]) :: as) all
      = some [.call PI (args s (.statement .wild [] ts))] := by
    intro as
    rw [h.arm, run_tok, if_pos rfl, run_some, if_neg hne]
    exact congrArg some (statementCall_wild s ts)
  rw [h.arm, run_tok, if_pos rfl]
  by_cases hlet : ∃ rest, ts = .tok .kwLet :: rest
  · obtain ⟨rest, rfl⟩ := hlet
    rw [users, user, run_tok, if_pos rfl]
    by_cases hrest : rest = []
    · subst hrest
      refine .inr ⟨.inl rfl, ?_⟩
      rw [users, run_var_nil]
      dsimp only
      rw [h.arm, run_tok, if_pos rfl, users, user, run_tok, if_pos rfl, users, run_var_nil]
      exact hC _
    · rw [run_pat hR hP _ _ _ hrest]
      have hB : (∀ x r1, rest = .tok (.ident x) :: .tok .colon :: r1 → False) → ∀ as, firstArm P
          (blockArm [.tok .semi, .tok .kwLet, .var "name" .ident, .tok .colon, .var "name_ty" .ty, .tok .eq, .rep "tail" .tt none true]
            (statementCall [.var "name", .tok .colon, .var "name_ty"]) :: as) all = firstArm P as all := by
        intro hno as
        rw [h.arm, run_tok, if_pos rfl, users, user, run_tok, if_pos rfl]
        cases rest with
        | nil => exact absurd rfl hrest
        | cons t rest =>
          cases t with
          | group => rw [users, user, run_ident_no _ _ _ _ _ rfl]
          | tok t =>
            rw [users, user]
            cases t with
            | ident x => rw [run_ident, run_tok_users _ _ _ _ (by rintro r rfl; exact hno x r rfl)]
            | _ => rw [run_ident_no _ _ _ _ _ rfl]
      cases hp : R.pat rest with
      | none => rw [statement_pat_none hp]; exact .inl rfl
      | some y =>
        obtain ⟨p, r⟩ := y
        dsimp only
        by_cases heq : ∃ t tail, r = .tok .eq :: t :: tail
        · obtain ⟨t, tail, rfl⟩ := heq
          refine .inl ?_
          rw [statement_pat hp, users, user, run_tok, if_pos rfl, run_some, if_neg (by simp [users])]
          exact congrArg some (statementCall_pat s p (t :: tail))
        · have heq : ∀ t tail, r ≠ .tok .eq :: t :: tail := fun t tail h => heq ⟨t, tail, h⟩
          have hA : run P (start [.tok .eq, .rep "tail" .tt none true] ([("input", s)] ++ [("name", .frag .pat (users p))])) 0 (users r)
              = .no := by
            by_cases h1 : ∃ r', r = .tok .eq :: r'
            · obtain ⟨r', rfl⟩ := h1
              have : r' = [] := by
                cases r' with
                | nil => rfl
                | cons t tail => exact absurd rfl (heq t tail)
              subst this
              rw [users, user, run_tok, if_pos rfl, users, run_some, if_pos rfl]
            · exact run_tok_users _ _ _ _ fun r' h => h1 ⟨r', h⟩
          rw [hA]
          dsimp only
          by_cases hty : ∃ x r1, rest = .tok (.ident x) :: .tok .colon :: r1
          · obtain ⟨x, r1, rfl⟩ := hty
            rw [h.arm, run_tok, if_pos rfl, users, user, run_tok, if_pos rfl, users, user, run_ident, users, user, run_tok,
              if_pos rfl]
            by_cases hr1 : r1 = []
            · subst hr1
              refine .inr ⟨.inr ⟨x, rfl⟩, ?_⟩
              rw [users, run_var_nil]
              exact hC _
            · refine .inl ?_
              rw [run_ty hR hP _ _ _ hr1]
              cases ht : R.ty r1 with
              | none => rw [statement_ty_none hp heq ht]; rfl
              | some z =>
                obtain ⟨ty, r2⟩ := z
                by_cases h2 : ∃ t tail, r2 = .tok .eq :: t :: tail
                · obtain ⟨t, tail, rfl⟩ := h2
                  dsimp only
                  rw [statement_ty hp heq ht, users, user, run_tok, if_pos rfl, run_some, if_neg (by simp [users])]
                  exact congrArg some (statementCall_typed s x ty (t :: tail))
                · have h2 : ∀ t tail, r2 ≠ .tok .eq :: t :: tail := fun t tail h => h2 ⟨t, tail, h⟩
                  have hA : run P (start [.tok .eq, .rep "tail" .tt none true] ([("input", s)] ++
                      [("name", .tok (.ident x) false)] ++ [("name_ty", .frag .ty (users ty))])) 0 (users r2) = .no := by
                    by_cases h1 : ∃ r', r2 = .tok .eq :: r'
                    · obtain ⟨r', rfl⟩ := h1
                      have : r' = [] := by
                        cases r' with
                        | nil => rfl
                        | cons t tail => exact absurd rfl (h2 t tail)
                      subst this
                      rw [users, user, run_tok, if_pos rfl, users, run_some, if_pos rfl]
                    · exact run_tok_users _ _ _ _ fun r' h => h1 ⟨r', h⟩
                  dsimp only
                  rw [hA]
                  dsimp only
                  rw [hC, statement_ty_wild hp heq ht h2]
                  rfl
          · have hty : ∀ x r1, rest ≠ .tok (.ident x) :: .tok .colon :: r1 := fun x r1 h => hty ⟨x, r1, h⟩
            refine .inl ?_
            rw [hB hty, hC, statement_wild hp heq hty]
            rfl
  · have hl : ∀ r, ts ≠ .tok .kwLet :: r := fun r h => hlet ⟨r, h⟩
    refine .inl ?_
    rw [run_tok_users _ _ _ _ hl]
    dsimp only
    rw [h.arm, run_tok, if_pos rfl, run_tok_users _ _ _ _ hl]
    dsimp only
    rw [hC, statement]
    · rfl
    · exact hn
    · exact hl

end Chomp.MacroRules
