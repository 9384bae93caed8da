import Verif.Rust.MacroTop
import Verif.Props.Macro
import Verif.Props.Hygiene

/-
C112: the text of `parse!` and `parser!`, expanded as `macro_rules!` is, gives what the model says.
-/

namespace Chomp.Props

open Chomp.Macro Chomp.MacroRules

variable {R : Fragments} {P : Parse}

/-- Where the model expands an invocation of `parse!`, the text does so, to the same expression. -/
theorem C112_parse (hR : R.Lawful) (hP : Extends R P) {n : Nat} {ts : List TT} {p : Parsed}
    (h : parseText R (fun _ => 1) n ts = some p) : invoke P (2 * n + 2) "parse" (users ts) = some [parsed p] :=
  parse_forward hR hP h

/-- It expands nothing else. (What begins with `@` is not meant to be written outside of the macros.) -/
theorem C112_parse_only (hR : R.Lawful) (hP : Extends R P) {n : Nat} {ts : List TT} (ha : ∀ r, ts ≠ .tok .at :: r)
    {out : List Tree} (h : invoke P n "parse" (users ts) = some out) :
    ∃ p, parseText R (fun _ => 1) n ts = some p ∧ out = [parsed p] :=
  parse_backward hR hP ha h

/-- An input and a block of the documented grammar. -/
theorem C112_grammar (hR : R.Lawful) (hP : Extends R P) {input ts : List TT} {c : Code} (hi : R.IsExpr input)
    (h : Derives R .block ts c) :
    ∃ n, ∀ k, n ≤ k → invoke P k "parse" (users (input ++ .tok .semi :: ts))
      = some [.frag .expr (text (c.exp (fun _ => 1) [] (.tokens input)))] := by
  have hts : ts ≠ [] := by
    rintro rfl
    have := C61_complete hR h (Nat.le_refl _)
    simp [size, expand] at this
  have hc := C61_complete hR h (Nat.le_refl _)
  refine ⟨2 * (11 * size ts) + 2, fun k hk => ?_⟩
  refine invoke_mono hk (C112_parse hR hP (p := .block (c.exp (fun _ => 1) [] (.tokens input))) ?_)
  unfold parseText
  rw [hR.expr_follow ts hi (.inr rfl)]
  cases ts with
  | nil => exact absurd rfl hts
  | cons t ts => dsimp only; rw [hc]; rfl

/-- If an invocation expands, it is such a one, except that `;` may follow, or there is only an input. -/
theorem C112_grammar_only (hR : R.Lawful) (hP : Extends R P) {n : Nat} {ts : List TT} (ha : ∀ r, ts ≠ .tok .at :: r)
    {out : List Tree} (h : invoke P n "parse" (users ts) = some out) :
    ∃ input, R.IsExpr input ∧
      ((ts = input ∨ ts = input ++ toks [.semi]) ∧ out = [.frag .expr (users input)] ∨
       ∃ block c, (ts = input ++ .tok .semi :: block ∨ ts = input ++ .tok .semi :: (block ++ toks [.semi])) ∧
        Derives R .block block c ∧ out = [.frag .expr (text (c.exp (fun _ => 1) [] (.tokens input)))]) := by
  obtain ⟨p, hp, rfl⟩ := C112_parse_only hR hP ha h
  unfold parseText at hp
  cases he : R.expr ts with
  | none => rw [he] at hp; cases hp
  | some ir =>
    obtain ⟨input, r⟩ := ir
    obtain ⟨rfl, hi⟩ := hR.expr_part he
    rw [he] at hp
    refine ⟨input, hi, ?_⟩
    cases r with
    | nil => cases hp; exact .inl ⟨.inl (List.append_nil _), rfl⟩
    | cons t r =>
      split at hp
      · rename_i hq; cases hq
      · rename_i hq
        injection hq with hq; injection hq with e1 e2
        subst e1
        rw [e2]
        cases hp
        exact .inl ⟨.inr rfl, rfl⟩
      · rename_i hq
        injection hq with hq; injection hq with e1 e2
        subst e1
        rw [e2]
        rw [Option.map_eq_some_iff] at hp
        obtain ⟨c, hc, rfl⟩ := hp
        rcases C61_sound hR hc with hd | ⟨ts', rfl, hd⟩
        · exact .inr ⟨_, c, .inl rfl, hd, rfl⟩
        · exact .inr ⟨_, c, .inr rfl, hd, rfl⟩
      · cases hp

/-- `parser!` gives a closure around the expansion of `parse!` for the argument of it. -/
theorem C112_parser (hR : R.Lawful) (hP : Extends R P) {ts : List TT} {c : Code} (h : Derives R .block ts c) :
    ∃ n, ∀ k, n ≤ k → invoke P k "parser" (users ts) = some [key .bar, key (.ident "i"), key .bar,
      .frag .expr (text (c.exp (fun _ => 1) [] (.var ⟨"i", 1⟩)))] := by
  have hts : Call.block ts ≠ .block [] := by
    intro e
    cases e
    have := C61_complete hR h (Nat.le_refl _)
    simp [size, expand] at this
  have hc := C61_complete hR h (Nat.le_refl _)
  refine ⟨2 * (11 * size ts) + 2, fun k hk => invoke_mono hk ?_⟩
  rw [parser_eq, forward hR hP _ _ _ _ c (isInput_i hP) hts hc []]
  rfl

/-- If it expands, there is a block of the documented grammar, which `;` may follow, or nothing. -/
theorem C112_parser_only (hR : R.Lawful) (hP : Extends R P) {n : Nat} {ts : List TT} {out : List Tree}
    (h : invoke P n "parser" (users ts) = some out) :
    ts = [] ∧ out = [key .bar, key (.ident "i"), key .bar, .frag .expr [key (.ident "i")]] ∨
    ∃ block c, (ts = block ∨ ts = block ++ toks [.semi]) ∧ Derives R .block block c ∧
      out = [key .bar, key (.ident "i"), key .bar, .frag .expr (text (c.exp (fun _ => 1) [] (.var ⟨"i", 1⟩)))] := by
  by_cases hts : ts = []
  · subst hts
    rw [users] at h
    have h1 := invoke_mono (Nat.le_add_right n 3) h
    rw [parser_empty hP] at h1
    cases h1
    exact .inl ⟨rfl, rfl⟩
  · have h := invoke_mono (Nat.le_add_right n 2) h
    rw [parser_eq, Option.map_eq_some_iff] at h
    obtain ⟨t, ht, rfl⟩ := h
    obtain ⟨c, hc, hout⟩ := backward hR hP n _ _ _ t (isInput_i hP) (by intro e; cases e; exact hts rfl) ht
    rw [hout []]
    rcases C61_sound hR hc with hd | ⟨ts', rfl, hd⟩
    · exact .inr ⟨_, c, .inl rfl, hd, rfl⟩
    · exact .inr ⟨_, c, .inr rfl, hd, rfl⟩

/-- What the text of `parse!` expands to means what the grammar says: the meaning of an expansion is that of the expression
it is the text of (`Exp.eval`), and all of the identifiers of the rules are told apart from those of the user. -/
theorem C112_meaning (hR : R.Lawful) (hP : Extends R P) (U : User σ I V E) {input ts : List TT} {c : Code}
    (hi : R.IsExpr input) (h : Derives R .block ts c) :
    ∃ n e, invoke P n "parse" (users (input ++ .tok .semi :: ts)) = some [.frag .expr (text e)] ∧
      ∀ ρ, e.eval U ρ = (do let i ← U.input ρ.locals input; c.run U.sem ρ.locals i) := by
  obtain ⟨n, hn⟩ := C112_grammar hR hP hi h
  refine ⟨n, _, hn n (Nat.le_refl n), fun ρ => ?_⟩
  rw [C107_hygienic U (by simp)]
  rfl

/-! ### The hypotheses can be met -/

namespace RustMacroEx

mutual

def user? : Tree → Option TT
  | .tok t false => some (.tok t)
  | .group d ts => (users? ts).map (.group d)
  | _ => none

def users? : List Tree → Option (List TT)
  | [] => some []
  | t :: ts => do
    let u ← user? t
    let us ← users? ts
    some (u :: us)

end

mutual

theorem user?_user : ∀ t : TT, user? (user t) = some t
  | .tok t => by rw [user, user?]
  | .group d ts => by rw [user, user?, users?_users ts]; rfl

theorem users?_users : ∀ ts : List TT, users? (users ts) = some ts
  | [] => by rw [users, users?]
  | t :: ts => by rw [users, users?, user?_user t, users?_users ts]; rfl

end

def ends : List Tree → Bool
  | [] => true
  | .tok .semi true :: _ => true
  | .tok .comma true :: _ => true
  | _ => false

theorem ends_eq : ∀ {r}, Ends r → ends r = true
  | [], _ => rfl
  | _ :: _, .inl rfl => rfl
  | _ :: _, .inr rfl => rfl

/-- How fragments are parsed which are not, or not all, from the program. -/
def ofRules : Frag → List Tree → Option (Tree × Nat)
  | .expr, .frag .expr ts :: r => if ends r then some (.frag .expr ts, 0) else none
  | .expr, .tok (.ident x) true :: r => if ends r then some (.frag .expr [key (.ident x)], 0) else none
  | .expr, .tok .bar true :: .tok (.ident x) true :: .tok .bar true :: .call m ts :: r =>
    if ends r then some (.frag .expr [key .bar, key (.ident x), key .bar, .call m ts], 3) else none
  | .ty, [.frag .ty ts] => some (.frag .ty ts, 0)
  | .pat, [.frag .pat ts] => some (.frag .pat ts, 0)
  | .pat, [.tok (.other "_") true] => some (.frag .pat [key (.other "_")], 0)
  | .pat, [.tok (.ident x) false, .tok .colon true, .frag .ty _] => some (.frag .pat [.tok (.ident x) false], 0)
  | _, _ => none

def Fragments.kind (R : Fragments) : Frag → List TT → Option (List TT × List TT)
  | .expr => R.expr
  | .ty => R.ty
  | .pat => R.pat
  | _ => fun _ => none

/-- A way to parse fragments. -/
def parseOf (R : Fragments) (k : Frag) (ts : List Tree) : Option (Tree × Nat) :=
  match users? ts with
  | some us => (Fragments.kind R k us).map fun x => (.frag k (users x.1), x.1.length - 1)
  | none => ofRules k ts

theorem parseOf_extends (R : Fragments) (ht : ∀ {ts e r}, R.ty ts = some (e, r) → e ≠ [])
    (hp : ∀ {ts e r}, R.pat ts = some (e, r) → e ≠ []) : Extends R (parseOf R) where
  expr ts := by rw [parseOf, users?_users]; rfl
  ty ts := by rw [parseOf, users?_users]; rfl
  pat ts := by rw [parseOf, users?_users]; rfl
  ty_ne := ht
  pat_ne := hp
  expr_again ts r hr := by simp [parseOf, users?, user?, ofRules, ends_eq hr]
  ty_again ts := by simp [parseOf, users?, user?, ofRules]
  pat_again ts := by simp [parseOf, users?, user?, ofRules]
  expr_name x r hr := by simp [parseOf, users?, user?, ofRules, ends_eq hr]
  closure x m ts r hr := by simp [parseOf, users?, user?, ofRules, ends_eq hr]
  expr_at r := by simp [parseOf, users?, user?, ofRules]
  pat_wild := by simp [parseOf, users?, user?, ofRules]
  pat_colon x ts := by simp [parseOf, users?, user?, ofRules]

theorem run_ne {p : TT → Bool} {ts e r : List TT} (h : MacroEx.run p ts = some (e, r)) : e ≠ [] := by
  unfold MacroEx.run at h
  split at h
  · cases h
  · rename_i hn
    cases h
    exact hn

/-- How fragments are parsed in the examples for C61, and in the course of an expansion. -/
def fragments : Parse := parseOf MacroEx.runs

theorem fragments_extends : Extends MacroEx.runs fragments := parseOf_extends _ run_ne run_ne

/-- `parse!{i; let n: u32 = decimal(x) <* token(y); ret n * 2}` -/
example : ∃ n, ∀ k, n ≤ k → invoke fragments k "parse" (users ([.tok (.ident "i")] ++ .tok .semi :: MacroEx.block))
    = some [.frag .expr (text (MacroEx.code.exp (fun _ => 1) [] (.tokens [.tok (.ident "i")])))] :=
  C112_grammar MacroEx.runs_lawful fragments_extends rfl MacroEx.block_derives

example : ∃ n, ∀ k, n ≤ k → invoke fragments k "parser" (users MacroEx.block) = some [key .bar, key (.ident "i"), key .bar,
    .frag .expr (text (MacroEx.code.exp (fun _ => 1) [] (.var ⟨"i", 1⟩)))] :=
  C112_parser MacroEx.runs_lawful fragments_extends MacroEx.block_derives

/-- `parse!{x; a() >> ret 1}` gives `a(x,).bind(|i, _| i.ret(1))`. -/
example : invoke fragments 10 "parse" (users [.tok (.ident "x"), .tok .semi, .tok (.ident "a"), .group .paren [], .tok .shr,
      .tok (.ident "ret"), .tok (.other "1")]) =
    some [.frag .expr [
      .frag .expr [.tok (.ident "a") false, .group .paren [.frag .expr [.tok (.ident "x") false], key .comma]],
      key (.other "."), key (.ident "bind"),
      .group .paren [key .bar, key (.ident "i"), key .comma, key (.other "_"), key .bar,
        .frag .expr [.frag .expr [key (.ident "i")], key (.other "."), key (.ident "ret"),
          .group .paren [.frag .expr [.tok (.other "1") false]]]]]] := by
  rfl

/-- `parse!{x; a() >>}` does not expand. -/
example (n : Nat) (out : List Tree) : invoke fragments n "parse" (users [.tok (.ident "x"), .tok .semi, .tok (.ident "a"),
    .group .paren [], .tok .shr]) ≠ some out := by
  intro h
  have h := invoke_mono (Nat.le_add_right n 10) h
  have h' : invoke fragments (n + 10) "parse" (users [.tok (.ident "x"), .tok .semi, .tok (.ident "a"),
    .group .paren [], .tok .shr]) = none := by rfl
  rw [h'] at h
  cases h

end RustMacroEx

/-- With an `@` first, the rules for the macro itself are reached: `parse!{@TERM(x) ret 1}` gives `x.ret(1)`, although
there is no such invocation in the documentation. -/
theorem C112_internal_witness :
    invoke RustMacroEx.fragments 2 "parse" (users [.tok .at, .tok (.ident "TERM"), .group .paren [.tok (.ident "x")],
      .tok (.ident "ret"), .tok (.other "1")]) =
    some [.frag .expr [.frag .expr [.tok (.ident "x") false], key (.other "."), key (.ident "ret"),
      .group .paren [.frag .expr [.tok (.other "1") false]]]] ∧
    ∀ n, parseText MacroEx.runs (fun _ => 1) n [.tok .at, .tok (.ident "TERM"), .group .paren [.tok (.ident "x")],
      .tok (.ident "ret"), .tok (.other "1")] = none :=
  ⟨by rfl, fun _ => rfl⟩

end Chomp.Props
