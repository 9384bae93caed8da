import Verif.Spec.Peg

/-
Grammars whose rules give values, and in which what follows may depend on them; and which parser corresponds
to which rule. This file contains definitions only.
-/

namespace Chomp.Spec

/-- Rules which give a `T`, with nonterminals `k` which give a `V k`. -/
inductive Rule (K : Type) (V : K → Type) (I : Type) : Type → Type 1
  /-- nothing -/
  | ret (t : T) : Rule K V I T
  | fail : Rule K V I T
  /-- one item -/
  | item (f : I → Option T) : Rule K V I T
  | call (k : K) : Rule K V I (V k)
  /-- what follows `a` depends on its value -/
  | bind (a : Rule K V I U) (b : U → Rule K V I T) : Rule K V I T
  /-- ordered choice -/
  | alt (a b : Rule K V I T) : Rule K V I T
  | star (a : Rule K V I U) : Rule K V I (List U)
  | and (a : Rule K V I T) : Rule K V I T
  | not (a : Rule K V I U) : Rule K V I Unit
  /-- the items which `a` takes, and its value -/
  | slice (a : Rule K V I U) : Rule K V I (List I × U)
  /-- the items which the machine `f` takes, and the state in which it stops -/
  | scan (s : S) (f : S → I → Option S) : Rule K V I (List I × S)

namespace Rule

variable {K : Type} {V : K → Type} {I : Type}

/-- `Gives G r x o`: the rule `r` of the grammar `G` gives `t` on `x` and leaves `y`, if `o` is `some (t, y)`;
or it fails on `x`, if `o` is `none`. -/
inductive Gives (G : ∀ k, Rule K V I (V k)) : {T : Type} → Rule K V I T → List I → Option (T × List I) → Prop
  | ret : Gives G (.ret t) x (some (t, x))
  | fail : Gives G .fail x none
  | item : f c = some t → Gives G (.item f) (c :: x) (some (t, x))
  | item_other : f c = none → Gives G (.item f) (c :: x) none
  | item_end : Gives G (.item f) [] none
  | call : Gives G (G k) x o → Gives G (.call k) x o
  | bind : Gives G a x (some (t, y)) → Gives G (b t) y o → Gives G (.bind a b) x o
  | bind_fail : Gives G a x none → Gives G (.bind a b) x none
  | alt : Gives G a x (some r) → Gives G (.alt a b) x (some r)
  | alt_second : Gives G a x none → Gives G b x o → Gives G (.alt a b) x o
  | star : Gives G a x (some (t, y)) → Gives G (.star a) y (some (ts, z)) →
      Gives G (.star a) x (some (t :: ts, z))
  | star_stop : Gives G a x none → Gives G (.star a) x (some ([], x))
  | and : Gives G a x (some (t, y)) → Gives G (.and a) x (some (t, x))
  | and_fail : Gives G a x none → Gives G (.and a) x none
  | not : Gives G a x (some r) → Gives G (.not a) x none
  | not_fail : Gives G a x none → Gives G (.not a) x (some ((), x))
  | slice : Gives G a (s ++ y) (some (t, y)) → Gives G (.slice a) (s ++ y) (some ((s, t), y))
  | slice_fail : Gives G a x none → Gives G (.slice a) x none
  | scan : f s c = some s' → Gives G (.scan s' f) x (some ((l, s1), y)) →
      Gives G (.scan s f) (c :: x) (some ((c :: l, s1), y))
  | scan_stop : f s c = none → Gives G (.scan s f) (c :: x) (some (([], s), c :: x))
  | scan_fail : f s c = some s' → Gives G (.scan s' f) x none → Gives G (.scan s f) (c :: x) none
  | scan_end : Gives G (.scan s f) [] none

def map (a : Rule K V I U) (f : U → T) : Rule K V I T := .bind a fun u => .ret (f u)

/-- an item of a set -/
def one (f : I → Bool) : Rule K V I I := .item fun c => if f c then some c else none

def any : Rule K V I I := one fun _ => true

/-- `a`, and its value in front of those of `r` -/
def cons (a : Rule K V I U) (r : Rule K V I (List U)) : Rule K V I (List U) := .bind a fun u => map r (u :: ·)

/-- `a … a r`, with `n` times `a` -/
def times (a : Rule K V I U) (r : Rule K V I (List U)) : Nat → Rule K V I (List U)
  | 0 => r
  | n + 1 => cons a (times a r n)

/-- `(a (a (…)?)?)?`, with `n` times `a` -/
def upTo (a : Rule K V I U) : Nat → Rule K V I (List U)
  | 0 => .ret []
  | n + 1 => .alt (cons a (upTo a n)) (.ret [])

/-- `(!b a)* b`, without the value of `b` -/
def till (a : Rule K V I U) (b : Rule K V I V') : Rule K V I (List U) :=
  .bind (.star (.bind (.not b) fun _ => a)) fun us => map b fun _ => us

/-- `b / a (b / a (… b))`, with `n` times `a`, without the value of `b` -/
def tillUpTo (a : Rule K V I U) (b : Rule K V I V') : Nat → Rule K V I (List U)
  | 0 => map b fun _ => []
  | n + 1 => .alt (map b fun _ => []) (cons a (tillUpTo a b n))

/-- `a (b a)*`, without the values of `b` -/
def sep1 (a : Rule K V I U) (b : Rule K V I V') : Rule K V I (List U) :=
  cons a (.star (.bind b fun _ => a))

/-- `"…"` -/
def literal [DecidableEq I] : List I → Rule K V I (List I)
  | [] => .ret []
  | c :: s => cons (one (· = c)) (literal s)

def drop (a : Rule K V I U) : Rule K V I Unit := map a fun _ => ()

end Rule

variable {K : Type} {σ I : Type} {T E : K → Type}

/-- `Follows p r`: the parser `p`, with calls of functions as in `Body`, is written the way the rule `r` is. -/
inductive Follows : {T' E' : Type} → (Fns σ I T E → Parser σ I T' E') → Rule K T I T' → Prop
  | call (k : K) : Follows (fun q => q k) (.call k)
  -- src/input.rs, src/parse_result.rs
  | ret (t : T') : Follows (fun _ => Parser.ret (E := E') t) (.ret t)
  | err (e : E') : Follows (fun _ => Parser.err (T := T') e) .fail
  | incomplete (n : Nat) : 1 ≤ n →
      Follows (fun _ => (fun i => pure (i.incomplete n) : Parser σ I T' E')) .fail
  /-- the parser which follows may depend on the value -/
  | bind {p : Fns σ I T E → Parser σ I T1 E1} {conv : E1 → E2}
      {f : Fns σ I T E → T1 → Parser σ I T2 E2} {b : T1 → Rule K T I T2} :
      Follows p a → (∀ t, Follows (fun q => f q t) (b t)) →
      Follows (fun q => Parser.bind conv (p q) (f q)) (.bind a b)
  | andThen {p : Fns σ I T E → Parser σ I T1 E1} {conv : E1 → E2} {r : Fns σ I T E → Parser σ I T2 E2} :
      Follows p a → Follows r b → Follows (fun q => Parser.andThen conv (p q) (r q)) (.bind a fun _ => b)
  | map {p : Fns σ I T E → Parser σ I T1 E1} (f : T1 → T2) :
      Follows p a → Follows (fun q => Parser.map (p q) f) (.map a f)
  | mapErr {p : Fns σ I T E → Parser σ I T1 E1} (f : E1 → E2) :
      Follows p a → Follows (fun q => Parser.mapErr (p q) f) a
  /-- a closure with effects, the value of which does not depend on what happened before -/
  | mapM {p : Fns σ I T E → Parser σ I T1 E1} (f : T1 → M σ T2) (g : T1 → T2) :
      (∀ t w, ∃ w', f t w = .ok (g t, w')) → Follows p a → Follows (fun q => Closures.map (p q) f) (.map a g)
  | inspect {p : Fns σ I T E → Parser σ I T1 E1} (f : T1 → M σ Unit) :
      (∀ t, AlwaysReturns (f t)) → Follows p a → Follows (fun q => Parser.inspect (p q) f) a
  -- src/parsers.rs
  | any : Follows (fun _ => Parsers.any) .any
  | satisfy (v) (f : I → Bool) : Follows (fun _ => Parsers.satisfy v f) (.one f)
  | satisfyWith (v) (f : I → T') (p : T' → Bool) :
      Follows (fun _ => Parsers.satisfyWith v f p) (.item fun c => if p (f c) then some (f c) else none)
  | token [DecidableEq I] (v) (t : I) : Follows (fun _ => Parsers.token v t) (.one (· = t))
  | notToken [DecidableEq I] (v) (t : I) : Follows (fun _ => Parsers.notToken v t) (.one (· ≠ t))
  | peek : Follows (fun _ => Parsers.peek) (.alt (.map (.and .any) some) (.ret none))
  | peekNext : Follows (fun _ => Parsers.peekNext) (.and .any)
  | take (n) : Follows (fun _ => Parsers.take n) (.times .any (.ret []) n)
  | takeWhile (f : I → Bool) : Follows (fun _ => Parsers.takeWhile f) (.star (.one f))
  | takeWhile1 (v) (f : I → Bool) :
      Follows (fun _ => Parsers.takeWhile1 v f) (.cons (.one f) (.star (.one f)))
  | takeTill (f : I → Bool) :
      Follows (fun _ => Parsers.takeTill f) (.bind (.star (.one fun c => !f c)) fun s => .map (.and (.one f)) fun _ => s)
  | runScanner (s : S) (f : S → I → Option S) : Follows (fun _ => Parsers.runScanner s f) (.scan s f)
  | scan (s : S) (f : S → I → Option S) : Follows (fun _ => Parsers.scan s f) (.map (.scan s f) Prod.fst)
  | takeRemainder : Follows (fun _ => Parsers.takeRemainder) (.star .any)
  | string [DecidableEq I] (v) (s : List I) : Follows (fun _ => Parsers.string v s) (.literal s)
  | eof (v) : Follows (fun _ => Parsers.eof v) (.not .any)
  -- src/combinators
  | option {p : Fns σ I T E → Parser σ I T1 E1} (t : T1) :
      Follows p a → Follows (fun q => Comb.option (p q) t) (.alt a (.ret t))
  | or {p r : Fns σ I T E → Parser σ I T1 E1} :
      Follows p a → Follows r b → Follows (fun q => Comb.or (p q) (r q)) (.alt a b)
  | count (n) {p : Fns σ I T E → Parser σ I T1 E1} :
      Follows p a → Follows (fun q => Comb.count n (Collect.vec T1) (p q)) (.times a (.ret []) n)
  | many {p : Fns σ I T E → Parser σ I T1 E1} :
      Follows p a → Follows (fun q => Comb.many (Collect.vec T1) (p q)) (.star a)
  | many1 {p : Fns σ I T E → Parser σ I T1 E1} :
      Follows p a → Follows (fun q => Comb.many1 (Collect.vec T1) (p q)) (.cons a (.star a))
  | skipMany {p : Fns σ I T E → Parser σ I T1 E1} :
      Follows p a → Follows (fun q => Comb.skipMany (p q)) (.drop (.star a))
  | skipMany1 {p : Fns σ I T E → Parser σ I T1 E1} :
      Follows p a → Follows (fun q => Comb.skipMany1 (p q)) (.drop (.cons a (.star a)))
  | sepBy (conv : N → E1) {p : Fns σ I T E → Parser σ I T1 E1} {sep : Fns σ I T E → Parser σ I V N} :
      Follows p a → Follows sep b →
      Follows (fun q => Comb.sepBy conv (Collect.vec T1) (p q) (sep q)) (.alt (.sep1 a b) (.ret []))
  | sepBy1 (conv : N → E1) {p : Fns σ I T E → Parser σ I T1 E1} {sep : Fns σ I T E → Parser σ I V N} :
      Follows p a → Follows sep b →
      Follows (fun q => Comb.sepBy1 conv (Collect.vec T1) (p q) (sep q)) (.sep1 a b)
  | manyTill {p : Fns σ I T E → Parser σ I T1 E1} {end_ : Fns σ I T E → Parser σ I V N} :
      Follows p a → Follows end_ b →
      Follows (fun q => Comb.manyTill (Collect.vec T1) (p q) (end_ q)) (.till a b)
  | matchedBy {p : Fns σ I T E → Parser σ I T1 E1} :
      Follows p a → Follows (fun q => Comb.matchedBy (p q)) (.slice a)
  | lookAhead {p : Fns σ I T E → Parser σ I T1 E1} :
      Follows p a → Follows (fun q => Comb.lookAhead (p q)) (.and a)
  | boundedFrom (n) {p : Fns σ I T E → Parser σ I T1 E1} :
      Follows p a → Follows (fun q => Bounded.many (.from_ n) (Collect.vec T1) (p q)) (.times a (.star a) n)
  | boundedTo (n) {p : Fns σ I T E → Parser σ I T1 E1} :
      Follows p a → Follows (fun q => Bounded.many (.to n) (Collect.vec T1) (p q)) (.upTo a (n - 1))
  | boundedRange (m n) {p : Fns σ I T E → Parser σ I T1 E1} : m < n →
      Follows p a →
      Follows (fun q => Bounded.many (.range m n) (Collect.vec T1) (p q)) (.times a (.upTo a (n - 1 - m)) m)
  | boundedExactly (n) {p : Fns σ I T E → Parser σ I T1 E1} :
      Follows p a → Follows (fun q => Bounded.many (.exactly n) (Collect.vec T1) (p q)) (.times a (.ret []) n)
  | skipFrom (n) {p : Fns σ I T E → Parser σ I T1 E1} :
      Follows p a → Follows (fun q => Bounded.skipMany (.from_ n) (p q)) (.drop (.times a (.star a) n))
  | skipTo (n) {p : Fns σ I T E → Parser σ I T1 E1} :
      Follows p a → Follows (fun q => Bounded.skipMany (.to n) (p q)) (.drop (.upTo a (n - 1)))
  | skipRange (m n) {p : Fns σ I T E → Parser σ I T1 E1} : m < n →
      Follows p a →
      Follows (fun q => Bounded.skipMany (.range m n) (p q)) (.drop (.times a (.upTo a (n - 1 - m)) m))
  | skipExactly (n) {p : Fns σ I T E → Parser σ I T1 E1} :
      Follows p a → Follows (fun q => Bounded.skipMany (.exactly n) (p q)) (.drop (.times a (.ret []) n))
  | tillFrom (n) {p : Fns σ I T E → Parser σ I T1 E1} {end_ : Fns σ I T E → Parser σ I V N} :
      Follows p a → Follows end_ b →
      Follows (fun q => Bounded.manyTill (.from_ n) (Collect.vec T1) (p q) (end_ q)) (.times a (.till a b) n)
  | tillExactly (n) {p : Fns σ I T E → Parser σ I T1 E1} {end_ : Fns σ I T E → Parser σ I V N} :
      Follows p a → Follows end_ b →
      Follows (fun q => Bounded.manyTill (.exactly n) (Collect.vec T1) (p q) (end_ q)) (.times a (.tillUpTo a b 0) n)
  | tillRange (m n) {p : Fns σ I T E → Parser σ I T1 E1} {end_ : Fns σ I T E → Parser σ I V N} : m < n →
      Follows p a → Follows end_ b →
      Follows (fun q => Bounded.manyTill (.range m n) (Collect.vec T1) (p q) (end_ q))
        (.times a (.tillUpTo a b (n - 1 - m)) m)
  /-- There is no combinator for `!e`. -/
  | not (e : E1) {p : Fns σ I T E → Parser σ I T1 E1} :
      Follows p a → Follows (fun q => Parser.bind id (Comb.option (Parser.map (Comb.lookAhead (p q)) some) none)
        fun o => if o.isSome then Parser.err e else Parser.ret ()) (.not a)

end Chomp.Spec
