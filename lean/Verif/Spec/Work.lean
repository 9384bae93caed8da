import Verif.Spec.Built
import Verif.Spec.Productive
import Verif.Spec.Recursive

/-
How often closures are called. This file contains definitions only.
-/

namespace Chomp.Spec

/-- A call adds at most one to what `m` counts. -/
def Counted (m : σ → Nat) (g : M σ A) : Prop := ∀ w x w', g w = .ok (x, w') → m w' ≤ m w + 1

/-- Runs of `p` add nothing to what `m` counts. -/
def Silent (m : σ → Nat) (p : Parser σ I T E) : Prop := ∀ i w r w', p i w = .ok (r, w') → m w' ≤ m w

/-- A bound which does not decrease. -/
def Grows (b : Nat → Nat) : Prop := ∀ k n, k ≤ n → b k ≤ b n

/-- The largest number of items which the range allows. (`a..b` and `..b` allow `b - 1`.) -/
def limit : Bounded.Range → Option Nat
  | .range _ b => some (b - 1)
  | .from_ _ => none
  | .full => none
  | .to b => some (b - 1)
  | .exactly n => some n

/-- A bound for what is run after at least one item is consumed: on no items it is not run at all. -/
def after (b : Nat → Nat) : Nat → Nat
  | 0 => 0
  | n + 1 => b n

/-- `Work m b p`: according to the text of `p`, a run on `n` items adds at most `b n` to what `m` counts. Without a limit,
only a parser which consumes may be repeated. -/
inductive Work (m : σ → Nat) : (Nat → Nat) → {T E : Type} → Parser σ I T E → Prop
  | silent {p : Parser σ I T E} : Built everything p → Silent m p → Work m (fun _ => 0) p
  /-- what is known already, for instance of a call -/
  | known {p : Parser σ I T E} : Built everything p → Grows b →
      (∀ i w r w', p i w = .ok (r, w') → m w' ≤ m w + b i.buf.length) → Work m b p
  /-- less is known -/
  | weaken {p : Parser σ I T E} : Work m b p → (∀ n, b n ≤ d n) → Grows d → Work m d p
  -- src/parse_result.rs
  | bind {p : Parser σ I T E} {conv : E → V} {f : T → Parser σ I U V} :
      Grows d → Work m b p → (∀ t, Work m d (f t)) → Work m (fun n => b n + d n) (Parser.bind conv p f)
  | andThen {p : Parser σ I T E} {conv : E → V} {q : Parser σ I U V} :
      Work m b p → Work m d q → Work m (fun n => b n + d n) (Parser.andThen conv p q)
  /-- with at least one item less -/
  | bindAfter {p : Parser σ I T E} {conv : E → V} {f : T → Parser σ I U V} :
      Consumes p → Grows d → Work m b p → (∀ t, Work m d (f t)) →
      Work m (fun n => b n + after d n) (Parser.bind conv p f)
  | thenAfter {p : Parser σ I T E} {conv : E → V} {q : Parser σ I U V} :
      Consumes p → Work m b p → Work m d q → Work m (fun n => b n + after d n) (Parser.andThen conv p q)
  | map {p : Parser σ I T E} (f : T → U) : Work m b p → Work m b (Parser.map p f)
  | mapErr {p : Parser σ I T E} (f : E → V) : Work m b p → Work m b (Parser.mapErr p f)
  | inspect {p : Parser σ I T E} (f : T → M σ Unit) : (∀ t, Counted m (f t)) → Work m b p →
      Work m (fun n => b n + 1) (Parser.inspect p f)
  | effect {A : Type} {g : M σ A} {k : A → Parser σ I T E} : Grows b → Counted m g → (∀ x, Work m b (k x)) →
      Work m (fun n => b n + 1) (Parser.effect g k)
  | mapM {p : Parser σ I T E} (f : T → M σ U) : (∀ t, Counted m (f t)) → Work m b p →
      Work m (fun n => b n + 1) (Closures.map p f)
  | mapErrM {p : Parser σ I T E} (f : E → M σ V) : (∀ e, Counted m (f e)) → Work m b p →
      Work m (fun n => b n + 1) (Closures.mapErr p f)
  -- src/parsers.rs
  | satisfyM (v) (f : I → M σ Bool) : (∀ c, Counted m (f c)) → Work m (fun _ => 1) (Closures.satisfy v f)
  | satisfyWithM (v) (f : I → M σ T) (p : T → M σ Bool) : (∀ c, Counted m (f c)) → (∀ t, Counted m (p t)) →
      Work m (fun _ => 2) (Closures.satisfyWith v f p)
  | tokenM (eq : I → I → M σ Bool) (v) (t : I) : (∀ c, Counted m (eq t c)) →
      Work m (fun _ => 1) (Closures.token eq v t)
  | notTokenM (ne : I → I → M σ Bool) (v) (t : I) : (∀ c, Counted m (ne t c)) →
      Work m (fun _ => 1) (Closures.notToken ne v t)
  | takeWhileM (f : I → M σ Bool) : (∀ c, Counted m (f c)) → Work m (fun n => n) (Closures.takeWhile f)
  | takeWhile1M (v) (f : I → M σ Bool) : (∀ c, Counted m (f c)) → Work m (fun n => n) (Closures.takeWhile1 v f)
  | takeTillM (f : I → M σ Bool) : (∀ c, Counted m (f c)) → Work m (fun n => n) (Closures.takeTill f)
  | scanM {S : Type} (s : S) (f : S → I → M σ (Option S)) : (∀ s c, Counted m (f s c)) →
      Work m (fun n => n) (Closures.scan s f)
  | runScannerM {S : Type} (s : S) (f : S → I → M σ (Option S)) : (∀ s c, Counted m (f s c)) →
      Work m (fun n => n) (Closures.runScanner s f)
  | stringM (ne : I → I → M σ Bool) (v) (s : List I) : (∀ t c, Counted m (ne t c)) →
      Work m (fun _ => s.length) (Closures.string ne v s)
  -- src/combinators
  | count (k) (c : Collect U T) {p : Parser σ I U E} : Work m b p → Work m (fun n => k * b n) (Comb.count k c p)
  | option {p : Parser σ I T E} (t : T) : Work m b p → Work m b (Comb.option p t)
  /-- both may be run on the same items -/
  | or {p q : Parser σ I T E} : Work m b p → Work m d q → Work m (fun n => b n + d n) (Comb.or p q)
  | many (c : Collect U T) {p : Parser σ I U E} : Consumes p → Work m b p →
      Work m (fun n => (n + 1) * b n) (Comb.many c p)
  | many1 (c : Collect U T) {p : Parser σ I U E} : Consumes p → Work m b p →
      Work m (fun n => (n + 1) * b n) (Comb.many1 c p)
  | sepBy (conv : N → E) (c : Collect U T) {p : Parser σ I U E} {sep : Parser σ I V N} :
      Consumes p ∨ Consumes sep → Work m b p → Work m d sep →
      Work m (fun n => (n + 2) * (b n + d n)) (Comb.sepBy conv c p sep)
  | sepBy1 (conv : N → E) (c : Collect U T) {p : Parser σ I U E} {sep : Parser σ I V N} :
      Consumes p ∨ Consumes sep → Work m b p → Work m d sep →
      Work m (fun n => (n + 2) * (b n + d n)) (Comb.sepBy1 conv c p sep)
  | manyTill (c : Collect U T) {p : Parser σ I U E} {end_ : Parser σ I V N} : Consumes p →
      Work m b p → Work m d end_ → Work m (fun n => (n + 1) * (b n + d n)) (Comb.manyTill c p end_)
  | skipMany {p : Parser σ I T E} : Consumes p → Work m b p → Work m (fun n => (n + 1) * b n) (Comb.skipMany p)
  | skipMany1 {p : Parser σ I T E} : Consumes p → Work m b p → Work m (fun n => (n + 1) * b n) (Comb.skipMany1 p)
  | matchedBy {p : Parser σ I T E} : Work m b p → Work m b (Comb.matchedBy p)
  | lookAhead {p : Parser σ I T E} : Work m b p → Work m b (Comb.lookAhead p)
  | boundedMany (r) (c : Collect U T) {p : Parser σ I U E} : Consumes p → Work m b p →
      Work m (fun n => (n + 1) * b n) (Bounded.many r c p)
  | limitedMany (r) (c : Collect U T) {p : Parser σ I U E} : limit r = some k → Work m b p →
      Work m (fun n => k * b n) (Bounded.many r c p)
  | boundedSkipMany (r) {p : Parser σ I T E} : Consumes p → Work m b p →
      Work m (fun n => (n + 1) * b n) (Bounded.skipMany r p)
  | limitedSkipMany (r) {p : Parser σ I T E} : limit r = some k → Work m b p →
      Work m (fun n => k * b n) (Bounded.skipMany r p)
  /-- at the end of a range `end_` is tried twice -/
  | boundedManyTill (r) (c : Collect U T) {p : Parser σ I U E} {end_ : Parser σ I V N} : Consumes p →
      Work m b p → Work m d end_ → Work m (fun n => (n + 2) * (b n + d n)) (Bounded.manyTill r c p end_)
  | limitedManyTill (r) (c : Collect U T) {p : Parser σ I U E} {end_ : Parser σ I V N} : limit r = some k →
      Work m b p → Work m d end_ → Work m (fun n => (k + 2) * (b n + d n)) (Bounded.manyTill r c p end_)
  -- src/ascii.rs
  | signed (v) (N : Ascii.Num T) {p : Parser σ UInt8 T (Error UInt8)} : Work m b p →
      Work (I := UInt8) m b (Ascii.signed v N p)

/-- At most a polynomial of degree `d`. -/
def Degree (d : Nat) (b : Nat → Nat) : Prop := ∃ C, ∀ n, b n ≤ C * (n + 1) ^ d

/-- A closure which counts its calls. -/
def tick : M Nat Unit := fun w => .ok ((), w + 1)

/-- `nest 0` calls the closure; `nest (d + 1)` is `skip_many(or(nest d then token('b'), any))`. -/
def nest (v : Bool) : Nat → Parser Nat Char Unit (Error Char)
  | 0 => Parser.effect tick fun _ => Parser.ret ()
  | d + 1 => Comb.skipMany (Comb.or (Parser.andThen id (nest v d) (Parsers.token v 'b')) Parsers.any)

/-- How often `nest d` calls the closure on `n` items other than `b`. -/
def nestCalls : Nat → Nat → Nat
  | 0, _ => 1
  | d + 1, n => ((List.range (n + 1)).map (nestCalls d)).sum

/-- `fn s(i) { tick(); or(i, |i| a then s then b, |i| or(i, |i| a then s then c, |i| i.ret(())) ) }`. -/
def backtracking (v : Bool) (q : Fns Nat Char (fun _ : Unit => Unit) (fun _ => Error Char)) :
    Fns Nat Char (fun _ : Unit => Unit) (fun _ => Error Char) := fun _ =>
  Parser.effect tick fun _ =>
    Comb.or (Parser.andThen id (Parsers.token v 'a') (Parser.andThen id (q ())
      (Parser.map (Parsers.token v 'b') fun _ => ())))
    (Comb.or (Parser.andThen id (Parsers.token v 'a') (Parser.andThen id (q ())
      (Parser.map (Parsers.token v 'c') fun _ => ())))
    (Parser.ret ()))

/-- `fn s(i) { tick(); or(i, |i| a then s then (b or c), |i| i.ret(())) }`. -/
def factored (v : Bool) (q : Fns Nat Char (fun _ : Unit => Unit) (fun _ => Error Char)) :
    Fns Nat Char (fun _ : Unit => Unit) (fun _ => Error Char) := fun _ =>
  Parser.effect tick fun _ =>
    Comb.or (Parser.andThen id (Parsers.token v 'a') (Parser.andThen id (q ())
      (Parser.map (Comb.or (Parsers.token v 'b') (Parsers.token v 'c')) fun _ => ())))
    (Parser.ret ())

end Chomp.Spec
