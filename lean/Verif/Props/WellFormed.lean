import Verif.Lemmas.WellFormed
import Verif.Props.Peg

/-
C101: a check on the text of a grammar after which its parser returns on every input. `wellFormed names G` and
`guarded` compute with sets of nonterminals only (Verif/Spec/WellFormed.lean); `Shows p e` says that `p` is
written like the expression `e` (Verif/Spec/Peg.lean).
-/

namespace Chomp.Props

open Spec Spec.Peg

variable {K : Type} {σ I : Type} {T E : K → Type}

/-- If the grammar passes the check, then a parser written like an expression in which nothing is repeated that
might not consume (a call of a nonterminal, for instance) returns, whatever the input, the last slice or not. It does not panic, either. -/
theorem C101_returns (names : List K) (hn : ∀ k, k ∈ names) (G : K → Peg K I)
    (hG : wellFormed names G = true) (F : Fns σ I T E → Fns σ I T E)
    (hF : ∀ k, Shows (fun q => F q k) (G k)) (p : Fns σ I T E) (hp : Means F p) {T' E' : Type}
    (x : Fns σ I T E → Parser σ I T' E') (e : Peg K I) (hx : Shows x e)
    (he : e.guarded (consuming names G) (fun _ => true) = true) (i : Input I) (w : σ) :
    ∃ r w', x p i w = .ok (r, w') := by
  have eq := C90_equation (a := panicFree) F (fun k => Peg.shows_body (hF k)) p hp
  have h := Recursive.guarded_sound
    (Peg.shows_guarded (rk := Peg.rank names G) (g := none) hx he)
    fun k => ⟨fun i w => (Recursive.solution_sound (Peg.checked hn hG hF) eq k i w).1,
      fun i w => (Recursive.solution_sound (Peg.checked hn hG hF) eq k i w).2⟩
  have h1 := h.1 i w
  have h2 := h.2 i w
  have h3 := C06_no_panic (Recursive.body_built (Peg.shows_body hx)
    (C90_assembled F (fun k => Peg.shows_body (hF k)) p hp)) i w
  match hr : x p i w with
  | .ok (r, w') => exact ⟨r, w', rfl⟩
  | .panic => exact absurd hr h3
  | .ub => rw [hr] at h1; exact h1.elim
  | .div => exact absurd hr h2

/-- A success consumes an item if the check says so. -/
theorem C101_consumes (names : List K) (hn : ∀ k, k ∈ names) (G : K → Peg K I)
    (hG : wellFormed names G = true) (F : Fns σ I T E → Fns σ I T E)
    (hF : ∀ k, Shows (fun q => F q k) (G k)) (p : Fns σ I T E) (hp : Means F p) (k : K)
    (hk : consuming names G k = true) (i i' : Input I) (t : T k) (w w' : σ)
    (h : p k i w = .ok (.data i' t, w')) : i'.buf.length < i.buf.length := by
  have eq := C90_equation (a := panicFree) F (fun k => Peg.shows_body (hF k)) p hp
  have := C91_consumes _ _ F (Peg.checked hn hG hF) p eq k i i' t w w' h
  rw [hk] at this
  exact this

/-- Calls are nested no deeper than there are nonterminals, for each item in the slice and once more. -/
theorem C101_depth (names : List K) (hn : ∀ k, k ∈ names) (G : K → Peg K I)
    (hG : wellFormed names G = true) (F : Fns σ I T E → Fns σ I T E)
    (hF : ∀ k, Shows (fun q => F q k) (G k)) (p : Fns σ I T E) (hp : Means F p) (k : K) (i : Input I)
    (w : σ) (n : Nat) (h : names.length * (i.buf.length + 1) ≤ n) : nested F n k i w = p k i w :=
  C91_depth _ _ _ (Peg.wellFormed_ranked hn hG).2 F (Peg.checked hn hG hF) p
    (C90_equation (a := panicFree) F (fun k => Peg.shows_body (hF k)) p hp) k i w n h

/-- Every such expression of the grammar succeeds or fails, on every input. -/
theorem C101_total (names : List K) (hn : ∀ k, k ∈ names) (G : K → Peg K I)
    (hG : wellFormed names G = true) (e : Peg K I)
    (he : e.guarded (consuming names G) (fun _ => true) = true) (x : List I) : ∃ o, Matches G e x o := by
  have key := fun e : Peg K I => Peg.expressible (σ := Unit) e
  obtain ⟨p, hp, _⟩ := C90_exists (a := everything)
    (fun (q : Fns Unit I (fun _ : K => Unit) (fun _ => Error I)) k => (key (G k)).choose q)
    (fun k => (key (G k)).choose_spec.1 _)
  have hF := fun k => (key (G k)).choose_spec.2
  refine Classical.byContradiction fun hne => ?_
  have hd := (C92_endless G _ hF p hp _ e (key e).choose_spec.2 x ()).mpr fun o ho => hne ⟨o, ho⟩
  obtain ⟨r, w', hr⟩ := C101_returns names hn G hG _ hF p hp _ e (key e).choose_spec.2 he _ _
  rw [hr] at hd
  exact absurd hd nofun

/-- `parse_only` decides which of the two it is. -/
theorem C101_parse_only (names : List K) (hn : ∀ k, k ∈ names) (G : K → Peg K I)
    (hG : wellFormed names G = true) (F : Fns σ I T E → Fns σ I T E)
    (hF : ∀ k, Shows (fun q => F q k) (G k)) (p : Fns σ I T E) (hp : Means F p) {T' E' : Type}
    (x : Fns σ I T E → Parser σ I T' E') (e : Peg K I) (hx : Shows x e)
    (he : e.guarded (consuming names G) (fun _ => true) = true) (b : List I) (w : σ) :
    (∃ t w', parseOnly (x p) b w = .ok (.ok t, w') ∧ ∃ y, Matches G e b (some y)) ∨
      (∃ r w', parseOnly (x p) b w = .ok (.error r, w')) ∧ Matches G e b none := by
  obtain ⟨o, ho⟩ := C101_total names hn G hG e he b
  cases o with
  | some y =>
    obtain ⟨t, w', h⟩ := (C92_parse_only G F hF p hp x e hx b w).mpr ⟨y, ho⟩
    exact .inl ⟨t, w', h, y, ho⟩
  | none =>
    refine .inr ⟨?_, ho⟩
    rcases (C92_failure G F hF p hp x e hx b w).mpr ho with ⟨r, e', w', h⟩ | ⟨n, w', h⟩
    · exact ⟨.error r e', w', by rw [C10_parse_only, h]; rfl⟩
    · exact ⟨.incomplete n, w', by rw [C10_parse_only, h]; rfl⟩

/-- The check finds a ranking whenever there is one: a grammar passes if and only if there are consuming
nonterminals and a ranking such that every nonterminal uses only such of lower rank until it has consumed. -/
theorem C101_complete (names : List K) (hn : ∀ k, k ∈ names) (G : K → Peg K I) :
    wellFormed names G = true ↔ ∃ u rk, Ranked G u rk :=
  ⟨fun h => ⟨_, _, (Peg.wellFormed_ranked hn h).1⟩, fun ⟨_, _, h⟩ => Peg.ranked_wellFormed hn h⟩

/-! ### Examples -/

namespace WellFormedEx

inductive Name
  | expr
  | term
  | factor
  deriving DecidableEq

open Name

def names : List Name := [expr, term, factor]

theorem names_all (k : Name) : k ∈ names := by cases k <;> decide

/-- `Expr ← Term ('+' Term)*`, `Term ← Factor ('*' Factor)*`, `Factor ← '(' Expr ')' / [0-9]+` -/
def grammar : Name → Peg Name Char
  | expr => .seq (.call term) (.star (.seq (.item (· = '+')) (.call term)))
  | term => .seq (.call factor) (.star (.seq (.item (· = '*')) (.call factor)))
  | factor => .alt (.seq (.item (· = '(')) (.seq (.call expr) (.item (· = ')'))))
      (.seq (.item Char.isDigit) (.star (.item Char.isDigit)))

/-- It passes the check; it takes three rounds. -/
theorem grammar_ok : wellFormed names grammar = true := by decide

/-- `sep_by1(i, term, |i| token(i, '+')).map(concat)`, `sep_by1(i, factor, |i| token(i, '*')).map(concat)` and
`or(i, |i| parse!{i; token('('); let l = expr(); token(')'); ret l}, |i| take_while1(i, is_digit).map(|_|
vec![()]))`: one `()` for each number -/
def body (q : Fns Unit Char (fun _ : Name => List Unit) (fun _ => Error Char)) :
    Fns Unit Char (fun _ : Name => List Unit) (fun _ => Error Char)
  | expr => Parser.map (Comb.sepBy1 id (Collect.vec _) (q term) (Parsers.token true '+')) List.flatten
  | term => Parser.map (Comb.sepBy1 id (Collect.vec _) (q factor) (Parsers.token true '*')) List.flatten
  | factor => Comb.or
      (Parser.andThen id (Parsers.token true '(') <| Parser.bind id (q expr) fun l =>
        Parser.map (Parsers.token true ')') fun _ => l)
      (Parser.map (Parsers.takeWhile1 true Char.isDigit) fun _ => [()])

theorem body_shows (k : Name) : Shows (fun q => body q k) (grammar k) := by
  cases k with
  | expr => exact .map _ (.sepBy1 _ (.call term) (.token _ _))
  | term => exact .map _ (.sepBy1 _ (.call factor) (.token _ _))
  | factor =>
    exact .or (.andThen (.token _ _) (.bind (.call expr) fun _ => .map _ (.token _ _)))
      (.map _ (.takeWhile1 _ _))

/-- So the parser returns on every input, and uses at most three calls for each character. -/
example (p : Fns Unit Char (fun _ : Name => List Unit) (fun _ => Error Char)) (hp : Means body p)
    (i : Input Char) : (∃ r w', p expr i () = .ok (r, w')) ∧ nested body (3 * (i.buf.length + 1)) expr i () = p expr i () :=
  ⟨(C101_returns names names_all grammar grammar_ok body body_shows p hp _ (.call expr) (.call expr) rfl i ()),
    C101_depth names names_all grammar grammar_ok body body_shows p hp expr i () _ (Nat.le_refl _)⟩

example (p : Fns Unit Char (fun _ : Name => List Unit) (fun _ => Error Char)) (hp : Means body p)
    (i i' : Input Char) (t : List Unit) (h : p expr i () = .ok (.data i' t, ())) :
    i'.buf.length < i.buf.length :=
  C101_consumes names names_all grammar grammar_ok body body_shows p hp expr (by decide) i i' t () () h

example (x : List Char) : ∃ o, Matches grammar (.call expr) x o :=
  C101_total names names_all grammar grammar_ok (.call expr) rfl x

/-- `Expr ← Expr '+' Term / Term` instead of the first rule does not pass, and neither does
`Factor ← … / [0-9]* Expr`, where the call of `Expr` may come before anything is consumed. -/
example : wellFormed names (fun k => if k = expr then
      .alt (.seq (.call expr) (.seq (.item (· = '+')) (.call term))) (.call term) else grammar k) = false ∧
    wellFormed names (fun k => if k = factor then
      .alt (grammar factor) (.seq (.star (.item Char.isDigit)) (.call expr)) else grammar k) = false := by
  decide

/-- So there is no ranking. -/
example : ¬ ∃ u rk, Ranked (fun k => if k = expr then
      .alt (.seq (.call expr) (.seq (.item (· = '+')) (.call term))) (.call term) else grammar k) u rk := by
  rw [← C101_complete names names_all]
  decide

/-- `('x'?)*` does not pass, either. -/
example : (Peg.star (Peg.opt (.item (· = 'x')))).guarded (consuming names grammar) (fun _ => true) = false := by
  decide

end WellFormedEx

end Chomp.Props
