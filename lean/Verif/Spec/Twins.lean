import Verif.Model.Ascii
import Verif.Model.Closures
import Verif.Model.Stream

/-
Parsers which differ in their errors only.
-/

namespace Chomp.Spec

/-- The results are the same but for what the errors say. With `pos`, their positions are the same, and
only their values may differ. -/
inductive SameButErrors (pos : Bool) : ParseResult I T E → ParseResult I T E' → Prop
  | data (i t) : SameButErrors pos (.data i t) (.data i t)
  | error (b e b' e') : (pos = true → b = b') → SameButErrors pos (.error b e) (.error b' e')
  | incomplete (n) : SameButErrors pos (.incomplete n) (.incomplete n)

/-- Both computations leave the same state and results related by `R`, or both panic, reach undefined
behaviour, or never return. -/
inductive Both (R : A → B → Prop) : Res (A × σ) → Res (B × σ) → Prop
  | ok (a b w) : R a b → Both R (.ok (a, w)) (.ok (b, w))
  | panic : Both R .panic .panic
  | ub : Both R .ub .ub
  | div : Both R .div .div

/-- The parsers consume and yield the same, have the same effects, and fail in the same cases; with `pos`,
at the same positions. -/
def Alike (pos : Bool) (p : Parser σ I T E) (q : Parser σ I T E') : Prop :=
  ∀ i w, Both (SameButErrors pos) (p i w) (q i w)

/-- What `parse_only` returns is the same but for what the errors say. -/
inductive SameOutcome (pos : Bool) : Except (ParseError I E) T → Except (ParseError I E') T → Prop
  | ok (t) : SameOutcome pos (.ok t) (.ok t)
  | error (b e b' e') : (pos = true → b = b') →
      SameOutcome pos (.error (.error b e)) (.error (.error b' e'))
  | incomplete (n) : SameOutcome pos (.error (.incomplete n)) (.error (.incomplete n))

/-- What `parse` on a stream returns is the same but for the value in a parse error, and so is the stream
it leaves. -/
inductive SameReply : Except (StreamError I E) T × S → Except (StreamError I E') T × S → Prop
  | ok (t s) : SameReply (.ok t, s) (.ok t, s)
  | parseError (b e e' s) : SameReply (.error (.parseError b e), s) (.error (.parseError b e'), s)
  | incomplete (n s) : SameReply (.error (.incomplete n), s) (.error (.incomplete n), s)
  | ioError (e s) : SameReply (.error (.ioError e), s) (.error (.ioError e), s)
  | endOfInput (s) : SameReply (.error .endOfInput, s) (.error .endOfInput, s)
  | retry (s) : SameReply (.error .retry, s) (.error .retry, s)

/-- Two parsers written down in the same way, but for the errors: error values, conversions between
errors, and the setting of `verbose_error` may be different, and parsers may be replaced by others which
are `Alike`. With `pos`, the setting of `verbose_error` is the same for `string`, which is the only parser
whose error has another position if it is set. -/
inductive Twins (pos : Bool) : {σ I T E E' : Type} → Parser σ I T E → Parser σ I T E' → Prop
  | self (p : Parser σ I T E) : Twins pos p p
  | alike {p : Parser σ I T E} {q : Parser σ I T E'} : Alike pos p q → Twins pos p q
  -- src/input.rs, src/parse_result.rs
  | ret (t : T) : Twins pos (Parser.ret (σ := σ) (I := I) (E := E) t) (Parser.ret (E := E') t)
  | err (e : E) (e' : E') : Twins pos (Parser.err (σ := σ) (I := I) (T := T) e) (Parser.err e')
  | fromResult (r : Except E T) (r' : Except E' T) : r.toOption = r'.toOption →
      Twins pos (Parser.fromResult (σ := σ) (I := I) r) (Parser.fromResult r')
  | bind {p : Parser σ I T E} {p' : Parser σ I T E'} (conv : E → V) (conv' : E' → V')
      {f : T → Parser σ I U V} {f' : T → Parser σ I U V'} :
      Twins pos p p' → (∀ t, Twins pos (f t) (f' t)) → Twins pos (Parser.bind conv p f) (Parser.bind conv' p' f')
  | andThen {p : Parser σ I T E} {p' : Parser σ I T E'} (conv : E → V) (conv' : E' → V')
      {q : Parser σ I U V} {q' : Parser σ I U V'} :
      Twins pos p p' → Twins pos q q' → Twins pos (Parser.andThen conv p q) (Parser.andThen conv' p' q')
  | map {p : Parser σ I T E} {p' : Parser σ I T E'} (f : T → U) : Twins pos p p' →
      Twins pos (Parser.map p f) (Parser.map p' f)
  | mapErr {p : Parser σ I T E} {p' : Parser σ I T E'} (f : E → V) (f' : E' → V') : Twins pos p p' →
      Twins pos (Parser.mapErr p f) (Parser.mapErr p' f')
  | inspect {p : Parser σ I T E} {p' : Parser σ I T E'} (f : T → M σ Unit) : Twins pos p p' →
      Twins pos (Parser.inspect p f) (Parser.inspect p' f)
  | effect {A : Type} {g : M σ A} {k : A → Parser σ I T E} {k' : A → Parser σ I T E'} :
      (∀ x, Twins pos (k x) (k' x)) → Twins pos (Parser.effect g k) (Parser.effect g k')
  -- src/parsers.rs; those without errors are covered by `self`
  | satisfy (v v') (f : I → Bool) : Twins pos (Parsers.satisfy (σ := σ) v f) (Parsers.satisfy v' f)
  | satisfyWith (v v') (f : I → T) (p : T → Bool) :
      Twins pos (Parsers.satisfyWith (σ := σ) v f p) (Parsers.satisfyWith v' f p)
  | token [DecidableEq I] (v v') (t : I) : Twins pos (Parsers.token (σ := σ) v t) (Parsers.token v' t)
  | notToken [DecidableEq I] (v v') (t : I) :
      Twins pos (Parsers.notToken (σ := σ) v t) (Parsers.notToken v' t)
  | takeWhile1 (v v') (f : I → Bool) :
      Twins pos (Parsers.takeWhile1 (σ := σ) v f) (Parsers.takeWhile1 v' f)
  | string [DecidableEq I] (v v') (s : List I) : (pos = true → v = v') →
      Twins pos (Parsers.string (σ := σ) v s) (Parsers.string v' s)
  | eof (v v') : Twins pos (Parsers.eof (σ := σ) (I := I) v) (Parsers.eof v')
  -- the same with closures and comparisons which have effects; a closure for `map_err` must not make them
  -- depend on the error
  | mapM {p : Parser σ I T E} {p' : Parser σ I T E'} (f : T → M σ U) : Twins pos p p' →
      Twins pos (Closures.map p f) (Closures.map p' f)
  | mapErrM {p : Parser σ I T E} {p' : Parser σ I T E'} (f : E → M σ V) (f' : E' → M σ V') :
      (∀ e e' w, Both (fun _ _ => True) (f e w) (f' e' w)) → Twins pos p p' →
      Twins pos (Closures.mapErr p f) (Closures.mapErr p' f')
  | satisfyM (v v') (f : I → M σ Bool) : Twins pos (Closures.satisfy v f) (Closures.satisfy v' f)
  | satisfyWithM (v v') (f : I → M σ T) (p : T → M σ Bool) :
      Twins pos (Closures.satisfyWith v f p) (Closures.satisfyWith v' f p)
  | tokenM (eq : I → I → M σ Bool) (v v') (t : I) :
      Twins pos (Closures.token eq v t) (Closures.token eq v' t)
  | notTokenM (ne : I → I → M σ Bool) (v v') (t : I) :
      Twins pos (Closures.notToken ne v t) (Closures.notToken ne v' t)
  | takeWhile1M (v v') (f : I → M σ Bool) :
      Twins pos (Closures.takeWhile1 v f) (Closures.takeWhile1 v' f)
  | stringM (ne : I → I → M σ Bool) (v v') (s : List I) : (pos = true → v = v') →
      Twins pos (Closures.string ne v s) (Closures.string ne v' s)
  -- src/combinators
  | option {p : Parser σ I T E} {p' : Parser σ I T E'} (t : T) : Twins pos p p' →
      Twins pos (Comb.option p t) (Comb.option p' t)
  | or {p q : Parser σ I T E} {p' q' : Parser σ I T E'} : Twins pos p p' → Twins pos q q' →
      Twins pos (Comb.or p q) (Comb.or p' q')
  | count (n) (c : Collect U T) {p : Parser σ I U E} {p' : Parser σ I U E'} : Twins pos p p' →
      Twins pos (Comb.count n c p) (Comb.count n c p')
  | many (c : Collect U T) {p : Parser σ I U E} {p' : Parser σ I U E'} : Twins pos p p' →
      Twins pos (Comb.many c p) (Comb.many c p')
  | many1 (c : Collect U T) {p : Parser σ I U E} {p' : Parser σ I U E'} : Twins pos p p' →
      Twins pos (Comb.many1 c p) (Comb.many1 c p')
  | sepBy (conv : N → E) (conv' : N' → E') (c : Collect U T) {p : Parser σ I U E}
      {p' : Parser σ I U E'} {sep : Parser σ I V N} {sep' : Parser σ I V N'} : Twins pos p p' →
      Twins pos sep sep' → Twins pos (Comb.sepBy conv c p sep) (Comb.sepBy conv' c p' sep')
  | sepBy1 (conv : N → E) (conv' : N' → E') (c : Collect U T) {p : Parser σ I U E}
      {p' : Parser σ I U E'} {sep : Parser σ I V N} {sep' : Parser σ I V N'} : Twins pos p p' →
      Twins pos sep sep' → Twins pos (Comb.sepBy1 conv c p sep) (Comb.sepBy1 conv' c p' sep')
  | manyTill (c : Collect U T) {p : Parser σ I U E} {p' : Parser σ I U E'} {end_ : Parser σ I V N}
      {end' : Parser σ I V N'} : Twins pos p p' → Twins pos end_ end' →
      Twins pos (Comb.manyTill c p end_) (Comb.manyTill c p' end')
  | skipMany {p : Parser σ I T E} {p' : Parser σ I T E'} : Twins pos p p' →
      Twins pos (Comb.skipMany p) (Comb.skipMany p')
  | skipMany1 {p : Parser σ I T E} {p' : Parser σ I T E'} : Twins pos p p' →
      Twins pos (Comb.skipMany1 p) (Comb.skipMany1 p')
  | matchedBy {p : Parser σ I T E} {p' : Parser σ I T E'} : Twins pos p p' →
      Twins pos (Comb.matchedBy p) (Comb.matchedBy p')
  | lookAhead {p : Parser σ I T E} {p' : Parser σ I T E'} : Twins pos p p' →
      Twins pos (Comb.lookAhead p) (Comb.lookAhead p')
  | boundedMany (r) (c : Collect U T) {p : Parser σ I U E} {p' : Parser σ I U E'} : Twins pos p p' →
      Twins pos (Bounded.many r c p) (Bounded.many r c p')
  | boundedManyConsumer (r) (c : Consumer U T) {p : Parser σ I U E} {p' : Parser σ I U E'} :
      Twins pos p p' → Twins pos (Bounded.manyWith r c.driver p) (Bounded.manyWith r c.driver p')
  | boundedManyVec (r) (minCap room) {p : Parser σ I U E} {p' : Parser σ I U E'} :
      Twins pos p p' → Twins pos (Bounded.manyWith r (Driver.vec minCap room) p)
        (Bounded.manyWith r (Driver.vec minCap room) p')
  | boundedSkipMany (r) {p : Parser σ I T E} {p' : Parser σ I T E'} : Twins pos p p' →
      Twins pos (Bounded.skipMany r p) (Bounded.skipMany r p')
  | boundedManyTill (r) (c : Collect U T) {p : Parser σ I U E} {p' : Parser σ I U E'}
      {end_ : Parser σ I V N} {end' : Parser σ I V N'} : Twins pos p p' → Twins pos end_ end' →
      Twins pos (Bounded.manyTill r c p end_) (Bounded.manyTill r c p' end')
  | boundedManyTillConsumer (r) (c : Consumer U T) {p : Parser σ I U E} {p' : Parser σ I U E'}
      {end_ : Parser σ I V N} {end' : Parser σ I V N'} : Twins pos p p' → Twins pos end_ end' →
      Twins pos (Bounded.manyTillWith r c.driver p end_) (Bounded.manyTillWith r c.driver p' end')
  | boundedManyTillVec (r) (minCap room) {p : Parser σ I U E} {p' : Parser σ I U E'}
      {end_ : Parser σ I V N} {end' : Parser σ I V N'} : Twins pos p p' → Twins pos end_ end' →
      Twins pos (Bounded.manyTillWith r (Driver.vec minCap room) p end_)
        (Bounded.manyTillWith r (Driver.vec minCap room) p' end')
  -- src/ascii.rs
  | digit (v v') : Twins pos (Ascii.digit (σ := σ) v) (Ascii.digit v')
  | decimal (v v') (N : Ascii.Num T) : Twins pos (Ascii.decimal (σ := σ) v N) (Ascii.decimal v' N)
  | signed (v v') (N : Ascii.Num T) {p p' : Parser σ UInt8 T (Error UInt8)} : Twins pos p p' →
      Twins pos (Ascii.signed v N p) (Ascii.signed v' N p')

end Chomp.Spec
