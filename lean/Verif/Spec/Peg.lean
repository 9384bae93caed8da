import Verif.Spec.Recursive

/-
Parsing expression grammars (B. Ford, Parsing Expression Grammars: A Recognition-Based Syntactic
Foundation, POPL 2004), and which parser corresponds to which expression. This file contains definitions
only.
-/

namespace Chomp.Spec

/-- Parsing expressions with nonterminals from `K`. Terminals are sets of items. -/
inductive Peg (K I : Type) where
  | empty
  | item (f : I → Bool)
  | call (k : K)
  | seq (a b : Peg K I)
  /-- ordered choice -/
  | alt (a b : Peg K I)
  | star (a : Peg K I)
  | not (a : Peg K I)

namespace Peg

/-- `Matches G e x o`: the expression `e` of the grammar `G` succeeds on `x` and leaves `y`, if `o` is
`some y`; or it fails on `x`, if `o` is `none`. -/
inductive Matches (G : K → Peg K I) : Peg K I → List I → Option (List I) → Prop
  | empty : Matches G .empty x (some x)
  | item : f c = true → Matches G (.item f) (c :: x) (some x)
  | item_other : f c = false → Matches G (.item f) (c :: x) none
  | item_end : Matches G (.item f) [] none
  | call : Matches G (G k) x o → Matches G (.call k) x o
  | seq : Matches G a x (some y) → Matches G b y o → Matches G (.seq a b) x o
  | seq_fail : Matches G a x none → Matches G (.seq a b) x none
  | alt : Matches G a x (some y) → Matches G (.alt a b) x (some y)
  | alt_second : Matches G a x none → Matches G b x o → Matches G (.alt a b) x o
  | star : Matches G a x (some y) → Matches G (.star a) y o → Matches G (.star a) x o
  | star_stop : Matches G a x none → Matches G (.star a) x (some x)
  | not : Matches G a x (some y) → Matches G (.not a) x none
  | not_fail : Matches G a x none → Matches G (.not a) x (some x)

/-- `.` -/
def any : Peg K I := .item fun _ => true

/-- never succeeds -/
def fail : Peg K I := .not .empty

/-- `e?` -/
def opt (e : Peg K I) : Peg K I := .alt e .empty

/-- `&e` -/
def and (e : Peg K I) : Peg K I := .not (.not e)

/-- `e e e … t`, with `n` times `e` -/
def times (e : Peg K I) : Nat → Peg K I → Peg K I
  | 0, t => t
  | n + 1, t => .seq e (times e n t)

/-- `(e (e (…)?)?)?`, with `n` times `e` -/
def upTo (e : Peg K I) : Nat → Peg K I
  | 0 => .empty
  | n + 1 => opt (.seq e (upTo e n))

/-- `"…"` -/
def literal [DecidableEq I] : List I → Peg K I
  | [] => .empty
  | c :: s => .seq (.item (· = c)) (literal s)

/-- `many` with a range: at least `min` times, and at most `max` -/
def repeated (e : Peg K I) (min : Nat) : Option Nat → Peg K I
  | none => times e min (.star e)
  | some max => times e min (upTo e (max - min))

/-- `b / a (b / a (… b))`, with `n` times `a` -/
def tillUpTo (a b : Peg K I) : Nat → Peg K I
  | 0 => b
  | n + 1 => .alt b (.seq a (tillUpTo a b n))

/-- `many_till` with a range: `a` at least `min` times, and at most `max`, until there is `b` -/
def till (a b : Peg K I) (min : Nat) : Option Nat → Peg K I
  | none => times a min (.seq (.star (.seq (.not b) a)) b)
  | some max => times a min (tillUpTo a b (max - min))

end Peg

/-- A closure which always returns. -/
def AlwaysReturns (g : M σ A) : Prop := ∀ w, ∃ a w', g w = .ok (a, w')

variable {K : Type} {σ I : Type} {T E : K → Type}

/-- `Shows p e`: the parser `p`, with calls of functions as in `Body`, is written the way the expression `e`
is. Values are computed in any way; they have no influence on what is parsed, except in `not`. -/
inductive Shows : {T' E' : Type} → (Fns σ I T E → Parser σ I T' E') → Peg K I → Prop
  | call (k : K) : Shows (fun q => q k) (.call k)
  -- src/input.rs, src/parse_result.rs
  | ret (t : T') : Shows (fun _ => Parser.ret (E := E') t) .empty
  | err (e : E') : Shows (fun _ => Parser.err (T := T') e) .fail
  | incomplete (n : Nat) : 1 ≤ n →
      Shows (fun _ => (fun i => pure (i.incomplete n) : Parser σ I T' E')) .fail
  | bind {p : Fns σ I T E → Parser σ I T1 E1} {conv : E1 → E2}
      {f : Fns σ I T E → T1 → Parser σ I T2 E2} :
      Shows p a → (∀ t, Shows (fun q => f q t) b) →
      Shows (fun q => Parser.bind conv (p q) (f q)) (.seq a b)
  | andThen {p : Fns σ I T E → Parser σ I T1 E1} {conv : E1 → E2} {r : Fns σ I T E → Parser σ I T2 E2} :
      Shows p a → Shows r b → Shows (fun q => Parser.andThen conv (p q) (r q)) (.seq a b)
  | map {p : Fns σ I T E → Parser σ I T1 E1} (f : T1 → T2) :
      Shows p a → Shows (fun q => Parser.map (p q) f) a
  | mapErr {p : Fns σ I T E → Parser σ I T1 E1} (f : E1 → E2) :
      Shows p a → Shows (fun q => Parser.mapErr (p q) f) a
  | mapM {p : Fns σ I T E → Parser σ I T1 E1} (f : T1 → M σ T2) :
      (∀ t, AlwaysReturns (f t)) → Shows p a → Shows (fun q => Closures.map (p q) f) a
  | inspect {p : Fns σ I T E → Parser σ I T1 E1} (f : T1 → M σ Unit) :
      (∀ t, AlwaysReturns (f t)) → Shows p a → Shows (fun q => Parser.inspect (p q) f) a
  -- src/parsers.rs
  | any : Shows (fun _ => Parsers.any) .any
  | satisfy (v) (f : I → Bool) : Shows (fun _ => Parsers.satisfy v f) (.item f)
  | satisfyWith (v) (f : I → T') (p : T' → Bool) :
      Shows (fun _ => Parsers.satisfyWith v f p) (.item fun c => p (f c))
  | token [DecidableEq I] (v) (t : I) : Shows (fun _ => Parsers.token v t) (.item (· = t))
  | notToken [DecidableEq I] (v) (t : I) : Shows (fun _ => Parsers.notToken v t) (.item (· ≠ t))
  | peek : Shows (fun _ => Parsers.peek) .empty
  | peekNext : Shows (fun _ => Parsers.peekNext) (.and .any)
  | take (n) : Shows (fun _ => Parsers.take n) (.times .any n .empty)
  | takeWhile (f : I → Bool) : Shows (fun _ => Parsers.takeWhile f) (.star (.item f))
  | takeWhile1 (v) (f : I → Bool) :
      Shows (fun _ => Parsers.takeWhile1 v f) (.seq (.item f) (.star (.item f)))
  | takeTill (f : I → Bool) :
      Shows (fun _ => Parsers.takeTill f) (.seq (.star (.item fun c => !f c)) (.and (.item f)))
  | takeRemainder : Shows (fun _ => Parsers.takeRemainder) (.star .any)
  | string [DecidableEq I] (v) (s : List I) : Shows (fun _ => Parsers.string v s) (.literal s)
  | eof (v) : Shows (fun _ => Parsers.eof v) (.not .any)
  -- src/combinators
  | option {p : Fns σ I T E → Parser σ I T1 E1} (t : T1) :
      Shows p a → Shows (fun q => Comb.option (p q) t) (.opt a)
  | or {p r : Fns σ I T E → Parser σ I T1 E1} :
      Shows p a → Shows r b → Shows (fun q => Comb.or (p q) (r q)) (.alt a b)
  | count (n) {p : Fns σ I T E → Parser σ I T1 E1} :
      Shows p a → Shows (fun q => Comb.count n (Collect.vec T1) (p q)) (.times a n .empty)
  | many {p : Fns σ I T E → Parser σ I T1 E1} :
      Shows p a → Shows (fun q => Comb.many (Collect.vec T1) (p q)) (.star a)
  | many1 {p : Fns σ I T E → Parser σ I T1 E1} :
      Shows p a → Shows (fun q => Comb.many1 (Collect.vec T1) (p q)) (.seq a (.star a))
  | skipMany {p : Fns σ I T E → Parser σ I T1 E1} :
      Shows p a → Shows (fun q => Comb.skipMany (p q)) (.star a)
  | skipMany1 {p : Fns σ I T E → Parser σ I T1 E1} :
      Shows p a → Shows (fun q => Comb.skipMany1 (p q)) (.seq a (.star a))
  | sepBy (conv : N → E1) {p : Fns σ I T E → Parser σ I T1 E1} {sep : Fns σ I T E → Parser σ I V N} :
      Shows p a → Shows sep s →
      Shows (fun q => Comb.sepBy conv (Collect.vec T1) (p q) (sep q))
        (.opt (.seq a (.star (.seq s a))))
  | sepBy1 (conv : N → E1) {p : Fns σ I T E → Parser σ I T1 E1} {sep : Fns σ I T E → Parser σ I V N} :
      Shows p a → Shows sep s →
      Shows (fun q => Comb.sepBy1 conv (Collect.vec T1) (p q) (sep q)) (.seq a (.star (.seq s a)))
  | manyTill {p : Fns σ I T E → Parser σ I T1 E1} {end_ : Fns σ I T E → Parser σ I V N} :
      Shows p a → Shows end_ b →
      Shows (fun q => Comb.manyTill (Collect.vec T1) (p q) (end_ q))
        (.seq (.star (.seq (.not b) a)) b)
  | matchedBy {p : Fns σ I T E → Parser σ I T1 E1} :
      Shows p a → Shows (fun q => Comb.matchedBy (p q)) a
  | lookAhead {p : Fns σ I T E → Parser σ I T1 E1} :
      Shows p a → Shows (fun q => Comb.lookAhead (p q)) (.and a)
  | boundedFrom (n) {p : Fns σ I T E → Parser σ I T1 E1} :
      Shows p a → Shows (fun q => Bounded.many (.from_ n) (Collect.vec T1) (p q)) (.repeated a n none)
  /-- the upper limit is excluded -/
  | boundedTo (n) {p : Fns σ I T E → Parser σ I T1 E1} :
      Shows p a → Shows (fun q => Bounded.many (.to n) (Collect.vec T1) (p q)) (.repeated a 0 (some (n - 1)))
  | boundedRange (m n) {p : Fns σ I T E → Parser σ I T1 E1} : m < n →
      Shows p a →
      Shows (fun q => Bounded.many (.range m n) (Collect.vec T1) (p q)) (.repeated a m (some (n - 1)))
  | boundedExactly (n) {p : Fns σ I T E → Parser σ I T1 E1} :
      Shows p a → Shows (fun q => Bounded.many (.exactly n) (Collect.vec T1) (p q)) (.repeated a n (some n))
  | skipFrom (n) {p : Fns σ I T E → Parser σ I T1 E1} :
      Shows p a → Shows (fun q => Bounded.skipMany (.from_ n) (p q)) (.repeated a n none)
  | skipTo (n) {p : Fns σ I T E → Parser σ I T1 E1} :
      Shows p a → Shows (fun q => Bounded.skipMany (.to n) (p q)) (.repeated a 0 (some (n - 1)))
  | skipRange (m n) {p : Fns σ I T E → Parser σ I T1 E1} : m < n →
      Shows p a → Shows (fun q => Bounded.skipMany (.range m n) (p q)) (.repeated a m (some (n - 1)))
  | tillFrom (n) {p : Fns σ I T E → Parser σ I T1 E1} {end_ : Fns σ I T E → Parser σ I V N} :
      Shows p a → Shows end_ b →
      Shows (fun q => Bounded.manyTill (.from_ n) (Collect.vec T1) (p q) (end_ q)) (.till a b n none)
  | tillExactly (n) {p : Fns σ I T E → Parser σ I T1 E1} {end_ : Fns σ I T E → Parser σ I V N} :
      Shows p a → Shows end_ b →
      Shows (fun q => Bounded.manyTill (.exactly n) (Collect.vec T1) (p q) (end_ q)) (.till a b n (some n))
  | tillRange (m n) {p : Fns σ I T E → Parser σ I T1 E1} {end_ : Fns σ I T E → Parser σ I V N} : m < n →
      Shows p a → Shows end_ b →
      Shows (fun q => Bounded.manyTill (.range m n) (Collect.vec T1) (p q) (end_ q)) (.till a b m (some (n - 1)))
  /-- There is no combinator for `!e`. It can be written like this: `option(i, |i| look_ahead(i, p).map(Some),
  None).bind(|i, o| if o.is_some() { i.err(e) } else { i.ret(()) })`. -/
  | not {p : Fns σ I T E → Parser σ I T1 E1} (e : E1) : Shows p a →
      Shows (fun q => Parser.bind id (Comb.option (Parser.map (Comb.lookAhead (p q)) some) none)
        fun o => if o.isSome then Parser.err e else Parser.ret ()) (.not a)

end Chomp.Spec
