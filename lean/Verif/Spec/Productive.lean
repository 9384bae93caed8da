import Verif.Model.Ascii
import Verif.Model.Closures

/-
A check on the text of a parser which shows that it terminates. This file contains definitions only.
-/

namespace Chomp.Spec

/-- A success consumes at least one item. -/
def Consumes (p : Parser σ I U E) : Prop :=
  ∀ i w i' u w', p i w = .ok (.data i' u, w') → i'.buf.length < i.buf.length

/-- Every application returns (or panics). -/
def Returns (p : Parser σ I U E) : Prop := ∀ i w, p i w ≠ .div

/-- The range has an upper end. -/
def HasLimit : Bounded.Range → Prop
  | .full => False
  | .from_ _ => False
  | _ => True

/-- The range asks for at least one item. (`a..b` does not read more than `b - 1` items.) -/
def needsOne : Bounded.Range → Bool
  | .range a b => 0 < a && 1 < b
  | .from_ n => 0 < n
  | .full => false
  | .to _ => false
  | .exactly n => 0 < n

/-- The operations of the number type return, or panic. -/
def Computes (N : Ascii.Num T) : Prop :=
  (∀ a b, N.add a b ≠ .div ∧ N.add a b ≠ .ub) ∧ ∀ a b, N.mul a b ≠ .div ∧ N.mul a b ≠ .ub

/-- Closures return, or panic. -/
def Closure (g : M σ A) : Prop := ∀ w, g w ≠ .div ∧ g w ≠ .ub

/-- `Productive c p`: whatever is repeated without a limit inside of `p` begins, continues or ends with
something which consumes an item, and so does `p` if `c`. -/
inductive Productive : Bool → {σ I T E : Type} → Parser σ I T E → Prop
  /-- less is known -/
  | weaken {p : Parser σ I T E} : Productive true p → Productive false p
  -- src/input.rs, src/parse_result.rs
  | ret (t : T) : Productive false (Parser.ret (σ := σ) (I := I) (E := E) t)
  | err (e : E) : Productive true (Parser.err (σ := σ) (I := I) (T := T) e)
  | fromResult (r : Except E T) : Productive false (Parser.fromResult (σ := σ) (I := I) r)
  | incomplete (n : Nat) (h : 1 ≤ n) : Productive true (fun i => pure (i.incomplete n) : Parser σ I T E)
  /-- one of the two consumes -/
  | bind {p : Parser σ I T E} {conv : E → V} {f : T → Parser σ I U V} :
      Productive a p → (∀ t, Productive b (f t)) → Productive (a || b) (Parser.bind conv p f)
  | andThen {p : Parser σ I T E} {conv : E → V} {q : Parser σ I U V} :
      Productive a p → Productive b q → Productive (a || b) (Parser.andThen conv p q)
  | map {p : Parser σ I T E} (f : T → U) : Productive a p → Productive a (Parser.map p f)
  | mapErr {p : Parser σ I T E} (f : E → V) : Productive a p → Productive a (Parser.mapErr p f)
  | inspect {p : Parser σ I T E} (f : T → M σ Unit) : (∀ t, Closure (f t)) → Productive a p →
      Productive a (Parser.inspect p f)
  | effect {A : Type} {g : M σ A} {k : A → Parser σ I T E} : Closure g → (∀ x, Productive a (k x)) →
      Productive a (Parser.effect g k)
  -- src/parsers.rs
  | any : Productive true (Parsers.any (σ := σ) (I := I))
  | satisfy (v) (f : I → Bool) : Productive true (Parsers.satisfy (σ := σ) v f)
  | satisfyWith (v) (f : I → T) (p : T → Bool) : Productive true (Parsers.satisfyWith (σ := σ) v f p)
  | token [DecidableEq I] (v) (t : I) : Productive true (Parsers.token (σ := σ) v t)
  | notToken [DecidableEq I] (v) (t : I) : Productive true (Parsers.notToken (σ := σ) v t)
  | peek : Productive false (Parsers.peek (σ := σ) (I := I))
  | peekNext : Productive false (Parsers.peekNext (σ := σ) (I := I))
  | take (n) : Productive (decide (0 < n)) (Parsers.take (σ := σ) (I := I) n)
  | takeWhile (f : I → Bool) : Productive false (Parsers.takeWhile (σ := σ) f)
  | takeWhile1 (v) (f : I → Bool) : Productive true (Parsers.takeWhile1 (σ := σ) v f)
  | takeTill (f : I → Bool) : Productive false (Parsers.takeTill (σ := σ) f)
  | scan {S : Type} (s : S) (f : S → I → Option S) : Productive false (Parsers.scan (σ := σ) s f)
  | runScanner {S : Type} (s : S) (f : S → I → Option S) :
      Productive false (Parsers.runScanner (σ := σ) s f)
  | takeRemainder : Productive false (Parsers.takeRemainder (σ := σ) (I := I))
  | string [DecidableEq I] (v) (s : List I) : Productive (!s.isEmpty) (Parsers.string (σ := σ) v s)
  | eof (v) : Productive false (Parsers.eof (σ := σ) (I := I) v)
  -- src/parsers.rs and src/parse_result.rs, with closures and comparisons which have effects
  | mapM {p : Parser σ I T E} (f : T → M σ U) : (∀ t, Closure (f t)) → Productive a p →
      Productive a (Closures.map p f)
  | mapErrM {p : Parser σ I T E} (f : E → M σ V) : (∀ e, Closure (f e)) → Productive a p →
      Productive a (Closures.mapErr p f)
  | satisfyM (v) (f : I → M σ Bool) : (∀ c, Closure (f c)) → Productive true (Closures.satisfy v f)
  | satisfyWithM (v) (f : I → M σ T) (p : T → M σ Bool) : (∀ c, Closure (f c)) → (∀ t, Closure (p t)) →
      Productive true (Closures.satisfyWith v f p)
  | tokenM (eq : I → I → M σ Bool) (v) (t : I) : (∀ c, Closure (eq t c)) →
      Productive true (Closures.token eq v t)
  | notTokenM (ne : I → I → M σ Bool) (v) (t : I) : (∀ c, Closure (ne t c)) →
      Productive true (Closures.notToken ne v t)
  | takeWhileM (f : I → M σ Bool) : (∀ c, Closure (f c)) → Productive false (Closures.takeWhile f)
  | takeWhile1M (v) (f : I → M σ Bool) : (∀ c, Closure (f c)) →
      Productive true (Closures.takeWhile1 v f)
  | takeTillM (f : I → M σ Bool) : (∀ c, Closure (f c)) → Productive false (Closures.takeTill f)
  | scanM {S : Type} (s : S) (f : S → I → M σ (Option S)) : (∀ s c, Closure (f s c)) →
      Productive false (Closures.scan s f)
  | runScannerM {S : Type} (s : S) (f : S → I → M σ (Option S)) : (∀ s c, Closure (f s c)) →
      Productive false (Closures.runScanner s f)
  | stringM (ne : I → I → M σ Bool) (v) (s : List I) : (∀ t c, Closure (ne t c)) →
      Productive (!s.isEmpty) (Closures.string ne v s)
  -- src/combinators
  | count (n) (c : Collect U T) {p : Parser σ I U E} : Productive a p →
      Productive (a && decide (0 < n)) (Comb.count n c p)
  | option {p : Parser σ I T E} (t : T) : Productive a p → Productive false (Comb.option p t)
  /-- both consume -/
  | or {p q : Parser σ I T E} : Productive a p → Productive b q → Productive (a && b) (Comb.or p q)
  | many (c : Collect U T) {p : Parser σ I U E} : Productive true p → Productive false (Comb.many c p)
  | many1 (c : Collect U T) {p : Parser σ I U E} : Productive true p → Productive true (Comb.many1 c p)
  /-- the items or the separators consume -/
  | sepBy (conv : N → E) (c : Collect U T) {p : Parser σ I U E} {sep : Parser σ I V N} :
      (a = true ∨ b = true) → Productive a p → Productive b sep → Productive false (Comb.sepBy conv c p sep)
  | sepBy1 (conv : N → E) (c : Collect U T) {p : Parser σ I U E} {sep : Parser σ I V N} :
      (a = true ∨ b = true) → Productive a p → Productive b sep → Productive a (Comb.sepBy1 conv c p sep)
  | manyTill (c : Collect U T) {p : Parser σ I U E} {end_ : Parser σ I V N} :
      Productive true p → Productive b end_ → Productive b (Comb.manyTill c p end_)
  | skipMany {p : Parser σ I T E} : Productive true p → Productive false (Comb.skipMany p)
  | skipMany1 {p : Parser σ I T E} : Productive true p → Productive true (Comb.skipMany1 p)
  | matchedBy {p : Parser σ I T E} : Productive a p → Productive a (Comb.matchedBy p)
  | lookAhead {p : Parser σ I T E} : Productive a p → Productive false (Comb.lookAhead p)
  | boundedMany (r) (c : Collect U T) {p : Parser σ I U E} : (a = true ∨ HasLimit r) →
      Productive a p → Productive (a && needsOne r) (Bounded.many r c p)
  | boundedSkipMany (r) {p : Parser σ I T E} : (a = true ∨ HasLimit r) → Productive a p →
      Productive (a && needsOne r) (Bounded.skipMany r p)
  | boundedManyTill (r) (c : Collect U T) {p : Parser σ I U E} {end_ : Parser σ I V N} :
      (a = true ∨ HasLimit r) → Productive a p → Productive b end_ →
      Productive b (Bounded.manyTill r c p end_)
  -- src/ascii.rs
  | skipWhitespace : Productive false (Ascii.skipWhitespace (σ := σ))
  | digit (v) : Productive true (Ascii.digit (σ := σ) v)
  | decimal (v) (N : Ascii.Num T) : Computes N → Productive true (Ascii.decimal (σ := σ) v N)
  | signed (v) (N : Ascii.Num T) {p : Parser σ UInt8 T (Error UInt8)} : Computes N → Productive a p →
      Productive a (Ascii.signed v N p)

end Chomp.Spec
