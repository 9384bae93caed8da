import Verif.Spec.Twins

/-
Parsers for different types of items which do the same. Items are related by some `R : I → J → Prop`: an item
and the same item with its position, an item and its translation, or items which a parser treats alike.
-/

namespace Chomp.Spec

/-- Slices of the same length with related items. -/
inductive Slices (R : I → J → Prop) : List I → List J → Prop
  | nil : Slices R [] []
  | cons {c d s t} : R c d → Slices R s t → Slices R (c :: s) (d :: t)

/-- Related slices in the same mode. -/
structure Inputs (R : I → J → Prop) (i : Input I) (j : Input J) : Prop where
  mode : i.mode = j.mode
  buf : Slices R i.buf j.buf

/-- Both are absent, or they are related. -/
inductive Options (V : T → T' → Prop) : Option T → Option T' → Prop
  | none : Options V none none
  | some {t t'} : V t t' → Options V (some t) (some t')

/-- The components are related. -/
def Pairs (V : T → T' → Prop) (X : U → U' → Prop) (x : T × U) (y : T' × U') : Prop := V x.1 y.1 ∧ X x.2 y.2

/-- The same outcome: values are related by `V`, errors by `W`, and remaining slices have related items (so they
have the same length). -/
inductive Results (R : I → J → Prop) (V : T → T' → Prop) (W : E → E' → Prop) :
    ParseResult I T E → ParseResult J T' E' → Prop
  | data {i j t t'} : Inputs R i j → V t t' → Results R V W (.data i t) (.data j t')
  | error {b b' e e'} : Slices R b b' → W e e' → Results R V W (.error b e) (.error b' e')
  | incomplete {n} : Results R V W (.incomplete n) (.incomplete n)

/-- On related input the parsers do the same: same effects, same outcome. -/
def Mirror (R : I → J → Prop) (V : T → T' → Prop) (W : E → E' → Prop) (p : Parser σ I T E)
    (q : Parser σ J T' E') : Prop :=
  ∀ i j w, Inputs R i j → Both (Results R V W) (p i w) (q j w)

/-- Errors of the primitive parsers about related items. -/
inductive Errors (R : I → J → Prop) : Error I → Error J → Prop
  | expected {c d} : R c d → Errors R (.expected c) (.expected d)
  | unexpected : Errors R .unexpected .unexpected
  | string {s t} : Slices R s t → Errors R (.string s) (.string t)
  | generic : Errors R .generic .generic

/-- Closures which do the same on related arguments. -/
def Same (R : A → B → Prop) (V : T → T' → Prop) (f : A → M σ T) (g : B → M σ T') : Prop :=
  ∀ a b w, R a b → Both V (f a w) (g b w)

/-- Collections which do the same with items related by `V`, given iterators which do the same; the results are
related by `X`. The iterators are compared by some relation `Q` of their states. -/
def SameCollection (V : U → U' → Prop) (X : T → T' → Prop) (k : Driver σ U T) (k' : Driver σ U' T') : Prop :=
  ∀ (It It' : Type) (Q : It → It' → Prop) (next : It → M σ (Option U × It))
    (next' : It' → M σ (Option U' × It')) (hint : It → Nat × Option Nat) (hint' : It' → Nat × Option Nat),
    Same Q (Pairs (Options V) Q) next next' → (∀ s s', Q s s' → hint s = hint' s') →
    Same Q (Pairs X Q) (k It next hint) (k' It' next' hint')

/-- Both go on, with related accumulators, or both are done, with related results. -/
inductive Sums (S : A → B → Prop) (X : T → T' → Prop) : A ⊕ T → B ⊕ T' → Prop
  | inl {a b} : S a b → Sums S X (.inl a) (.inl b)
  | inr {t t'} : X t t' → Sums S X (.inr t) (.inr t')

/-- What `parse_only` returns is the same. -/
inductive Onlys (R : I → J → Prop) (V : T → T' → Prop) (W : E → E' → Prop) :
    Except (ParseError I E) T → Except (ParseError J E') T' → Prop
  | ok {t t'} : V t t' → Onlys R V W (.ok t) (.ok t')
  | error {b b' e e'} : Slices R b b' → W e e' → Onlys R V W (.error (.error b e)) (.error (.error b' e'))
  | incomplete {n} : Onlys R V W (.error (.incomplete n)) (.error (.incomplete n))

/-- What `parse` on a stream returns is the same; the slices in parse errors are related by `P`. -/
inductive Replies (P : List I → List J → Prop) (V : T → T' → Prop) (W : E → E' → Prop) :
    Except (StreamError I E) T → Except (StreamError J E') T' → Prop
  | ok {t t'} : V t t' → Replies P V W (.ok t) (.ok t')
  | parseError {b b' e e'} : P b b' → W e e' →
      Replies P V W (.error (.parseError b e)) (.error (.parseError b' e'))
  | incomplete {n} : Replies P V W (.error (.incomplete n)) (.error (.incomplete n))
  | endOfInput : Replies P V W (.error .endOfInput) (.error .endOfInput)

/-- Slice streams over related items at the same position. -/
structure Streams (R : I → J → Prop) (s : SliceStream I) (t : SliceStream J) : Prop where
  pos : s.pos = t.pos
  slice : Slices R s.slice t.slice

/-- Replace the items in an error. -/
def renameError (f : J → I) : Error J → Error I
  | .expected c => .expected (f c)
  | .unexpected => .unexpected
  | .string s => .string (s.map f)
  | .generic => .generic

/-- Replace the items in an outcome, and its value, and its error. -/
def rename (f : J → I) (g : T' → T) (h : E' → E) : Res (ParseResult J T' E' × σ) → Res (ParseResult I T E × σ)
  | .ok (.data i t, w) => .ok (.data ⟨i.mode, i.buf.map f⟩ (g t), w)
  | .ok (.error b e, w) => .ok (.error (b.map f) (h e), w)
  | .ok (.incomplete n, w) => .ok (.incomplete n, w)
  | .panic => .panic
  | .ub => .ub
  | .div => .div

/-- Two parsers written down in the same way, with closures, comparisons and collections which do the same. The
parsers of src/parsers.rs appear with closures and comparisons which may have effects (`Closures`); the pure ones
are those which `pure` closures give (C72). `count`, `many`, `many1`, `many_till`, `skip_many` and `skip_many1` are
the bounded ones with a certain range. -/
inductive Mirrors (R : I → J → Prop) : {σ T T' E E' : Type} → (T → T' → Prop) → (E → E' → Prop) →
    Parser σ I T E → Parser σ J T' E' → Prop
  /-- Any two parsers which do the same. -/
  | mirror {σ T T' E E' : Type} {V : T → T' → Prop} {W : E → E' → Prop} {p : Parser σ I T E}
      {q : Parser σ J T' E'} : Mirror R V W p q → Mirrors R V W p q
  /-- Forgetting part of what is known about the results. -/
  | weaken {σ T T' E E' : Type} {V : T → T' → Prop} {W : E → E' → Prop} {V' : T → T' → Prop}
      {W' : E → E' → Prop} {p : Parser σ I T E} {q : Parser σ J T' E'} : Mirrors R V W p q →
      (∀ t t', V t t' → V' t t') → (∀ e e', W e e' → W' e e') → Mirrors R V' W' p q
  -- src/input.rs, src/parse_result.rs
  | ret {σ T T' E E' : Type} {V : T → T' → Prop} {W : E → E' → Prop} {t : T} {t' : T'} : V t t' →
      Mirrors R V W (Parser.ret t : Parser σ I T E) (Parser.ret t' : Parser σ J T' E')
  | err {σ T T' E E' : Type} {V : T → T' → Prop} {W : E → E' → Prop} {e : E} {e' : E'} : W e e' →
      Mirrors R V W (Parser.err e : Parser σ I T E) (Parser.err e' : Parser σ J T' E')
  | bind {σ T T' E E' U U' D D' : Type} {V : T → T' → Prop} {W : E → E' → Prop} {V' : U → U' → Prop}
      {W' : D → D' → Prop} {p : Parser σ I T E} {q : Parser σ J T' E'} {conv : E → D} {conv' : E' → D'}
      {f : T → Parser σ I U D} {g : T' → Parser σ J U' D'} : Mirrors R V W p q →
      (∀ e e', W e e' → W' (conv e) (conv' e')) → (∀ t t', V t t' → Mirrors R V' W' (f t) (g t')) →
      Mirrors R V' W' (Parser.bind conv p f) (Parser.bind conv' q g)
  | andThen {σ T T' E E' U U' D D' : Type} {V : T → T' → Prop} {W : E → E' → Prop} {V' : U → U' → Prop}
      {W' : D → D' → Prop} {p : Parser σ I T E} {q : Parser σ J T' E'} {conv : E → D} {conv' : E' → D'}
      {f : Parser σ I U D} {g : Parser σ J U' D'} : Mirrors R V W p q →
      (∀ e e', W e e' → W' (conv e) (conv' e')) → Mirrors R V' W' f g →
      Mirrors R V' W' (Parser.andThen conv p f) (Parser.andThen conv' q g)
  | map {σ T T' E E' U U' : Type} {V : T → T' → Prop} {W : E → E' → Prop} {V' : U → U' → Prop}
      {p : Parser σ I T E} {q : Parser σ J T' E'} {f : T → U} {g : T' → U'} : Mirrors R V W p q →
      (∀ t t', V t t' → V' (f t) (g t')) → Mirrors R V' W (Parser.map p f) (Parser.map q g)
  | mapErr {σ T T' E E' D D' : Type} {V : T → T' → Prop} {W : E → E' → Prop} {W' : D → D' → Prop}
      {p : Parser σ I T E} {q : Parser σ J T' E'} {f : E → D} {g : E' → D'} : Mirrors R V W p q →
      (∀ e e', W e e' → W' (f e) (g e')) → Mirrors R V W' (Parser.mapErr p f) (Parser.mapErr q g)
  | inspect {σ T T' E E' : Type} {V : T → T' → Prop} {W : E → E' → Prop} {p : Parser σ I T E}
      {q : Parser σ J T' E'} {f : T → M σ Unit} {g : T' → M σ Unit} :
      Mirrors R V W p q → Same V Eq f g → Mirrors R V W (Parser.inspect p f) (Parser.inspect q g)
  | effect {σ T T' E E' : Type} {V : T → T' → Prop} {W : E → E' → Prop} {A B : Type} {x : M σ A} {y : M σ B}
      {S : A → B → Prop} {k : A → Parser σ I T E}
      {l : B → Parser σ J T' E'} : (∀ w, Both S (x w) (y w)) → (∀ a b, S a b → Mirrors R V W (k a) (l b)) →
      Mirrors R V W (Parser.effect x k) (Parser.effect y l)
  -- src/parsers.rs
  | any {σ : Type} : Mirrors R R (Errors R) (Parsers.any (σ := σ)) Parsers.any
  | satisfy {σ : Type} (v) {f : I → M σ Bool} {g : J → M σ Bool} : Same R Eq f g →
      Mirrors R R (Errors R) (Closures.satisfy v f) (Closures.satisfy v g)
  | satisfyWith {σ T T' : Type} {V : T → T' → Prop} (v) {f : I → M σ T} {g : J → M σ T'} {p : T → M σ Bool}
      {q : T' → M σ Bool} : Same R V f g →
      Same V Eq p q → Mirrors R V (Errors R) (Closures.satisfyWith v f p) (Closures.satisfyWith v g q)
  | token {σ : Type} (v) {eq : I → I → M σ Bool} {eq' : J → J → M σ Bool} {t t'} : R t t' →
      Same R Eq (eq t) (eq' t') →
      Mirrors R R (Errors R) (Closures.token eq v t) (Closures.token eq' v t')
  | notToken {σ : Type} (v) {ne : I → I → M σ Bool} {ne' : J → J → M σ Bool} {t t'} : Same R Eq (ne t) (ne' t') →
      Mirrors R R (Errors R) (Closures.notToken ne v t) (Closures.notToken ne' v t')
  | peek {σ : Type} : Mirrors R (Options R) (Errors R) (Parsers.peek (σ := σ)) Parsers.peek
  | peekNext {σ : Type} : Mirrors R R (Errors R) (Parsers.peekNext (σ := σ)) Parsers.peekNext
  | take {σ : Type} (n) : Mirrors R (Slices R) (Errors R) (Parsers.take (σ := σ) n) (Parsers.take n)
  | takeWhile {σ : Type} {f : I → M σ Bool} {g : J → M σ Bool} : Same R Eq f g →
      Mirrors R (Slices R) (Errors R) (Closures.takeWhile f) (Closures.takeWhile g)
  | takeWhile1 {σ : Type} (v) {f : I → M σ Bool} {g : J → M σ Bool} : Same R Eq f g →
      Mirrors R (Slices R) (Errors R) (Closures.takeWhile1 v f) (Closures.takeWhile1 v g)
  | takeTill {σ : Type} {f : I → M σ Bool} {g : J → M σ Bool} : Same R Eq f g →
      Mirrors R (Slices R) (Errors R) (Closures.takeTill f) (Closures.takeTill g)
  | scan {σ A B : Type} {s : A} {s' : B} {S : A → B → Prop} {f : A → I → M σ (Option A)}
      {g : B → J → M σ (Option B)} :
      S s s' → (∀ a b, S a b → Same R (Options S) (f a) (g b)) →
      Mirrors R (Slices R) (Errors R) (Closures.scan s f) (Closures.scan s' g)
  | runScanner {σ A B : Type} {s : A} {s' : B} {S : A → B → Prop} {f : A → I → M σ (Option A)}
      {g : B → J → M σ (Option B)} : S s s' → (∀ a b, S a b → Same R (Options S) (f a) (g b)) →
      Mirrors R (Pairs (Slices R) S) (Errors R) (Closures.runScanner s f) (Closures.runScanner s' g)
  | takeRemainder {σ : Type} : Mirrors R (Slices R) (Errors R) (Parsers.takeRemainder (σ := σ)) Parsers.takeRemainder
  | string {σ : Type} (v) {ne : I → I → M σ Bool} {ne' : J → J → M σ Bool} {s s'} : Slices R s s' →
      Slices (fun a b => Same R Eq (ne a) (ne' b)) s s' →
      Mirrors R (Slices R) (Errors R) (Closures.string ne v s) (Closures.string ne' v s')
  | eof {σ : Type} (v) : Mirrors R Eq (Errors R) (Parsers.eof (σ := σ) v) (Parsers.eof v)
  -- src/combinators
  | option {σ T T' E E' : Type} {V : T → T' → Prop} {W : E → E' → Prop} {p : Parser σ I T E}
      {q : Parser σ J T' E'} {t t'} : Mirrors R V W p q → V t t' →
      Mirrors R V W (Comb.option p t) (Comb.option q t')
  | or {σ T T' E E' : Type} {V : T → T' → Prop} {W : E → E' → Prop} {p p' : Parser σ I T E}
      {q q' : Parser σ J T' E'} : Mirrors R V W p q → Mirrors R V W p' q' →
      Mirrors R V W (Comb.or p p') (Comb.or q q')
  | many {σ U U' E E' T T' : Type} {V : U → U' → Prop} {W : E → E' → Prop} {X : T → T' → Prop} (r)
      {k : Driver σ U T} {k' : Driver σ U' T'} {p : Parser σ I U E} {q : Parser σ J U' E'} :
      SameCollection V X k k' → Mirrors R V W p q →
      Mirrors R X W (Bounded.manyWith r k p) (Bounded.manyWith r k' q)
  | skipMany {σ T T' E E' : Type} {V : T → T' → Prop} {W : E → E' → Prop} (r) {p : Parser σ I T E}
      {q : Parser σ J T' E'} : Mirrors R V W p q →
      Mirrors R Eq W (Bounded.skipMany r p) (Bounded.skipMany r q)
  | manyTill {σ U U' E E' T T' A A' N N' : Type} {V : U → U' → Prop} {W : E → E' → Prop} {X : T → T' → Prop}
      {Y : A → A' → Prop} {Z : N → N' → Prop} (r) {k : Driver σ U T} {k' : Driver σ U' T'} {p : Parser σ I U E}
      {q : Parser σ J U' E'}
      {end_ : Parser σ I A N} {end' : Parser σ J A' N'} : SameCollection V X k k' → Mirrors R V W p q →
      Mirrors R Y Z end_ end' →
      Mirrors R X W (Bounded.manyTillWith r k p end_) (Bounded.manyTillWith r k' q end')
  | sepBy {σ U U' E E' T T' A A' N N' : Type} {V : U → U' → Prop} {W : E → E' → Prop} {X : T → T' → Prop}
      {Y : A → A' → Prop} {Z : N → N' → Prop} {conv : N → E} {conv' : N' → E'} {c : Collect U T}
      {c' : Collect U' T'} {p : Parser σ I U E}
      {q : Parser σ J U' E'} {sep : Parser σ I A N} {sep' : Parser σ J A' N'} :
      SameCollection (σ := σ × Bool) V X c.driver c'.driver → Mirrors R V W p q → Mirrors R Y Z sep sep' →
      (∀ e e', Z e e' → W (conv e) (conv' e')) →
      Mirrors R X W (Comb.sepBy conv c p sep) (Comb.sepBy conv' c' q sep')
  | sepBy1 {σ U U' E E' T T' A A' N N' : Type} {V : U → U' → Prop} {W : E → E' → Prop} {X : T → T' → Prop}
      {Y : A → A' → Prop} {Z : N → N' → Prop} {conv : N → E} {conv' : N' → E'} {c : Collect U T}
      {c' : Collect U' T'} {p : Parser σ I U E}
      {q : Parser σ J U' E'} {sep : Parser σ I A N} {sep' : Parser σ J A' N'} :
      SameCollection (σ := σ × Bool) V X c.driver c'.driver → Mirrors R V W p q → Mirrors R Y Z sep sep' →
      (∀ e e', Z e e' → W (conv e) (conv' e')) →
      Mirrors R X W (Comb.sepBy1 conv c p sep) (Comb.sepBy1 conv' c' q sep')
  | matchedBy {σ T T' E E' : Type} {V : T → T' → Prop} {W : E → E' → Prop} {p : Parser σ I T E}
      {q : Parser σ J T' E'} : Mirrors R V W p q →
      Mirrors R (Pairs (Slices R) V) W (Comb.matchedBy p) (Comb.matchedBy q)
  | lookAhead {σ T T' E E' : Type} {V : T → T' → Prop} {W : E → E' → Prop} {p : Parser σ I T E}
      {q : Parser σ J T' E'} : Mirrors R V W p q →
      Mirrors R V W (Comb.lookAhead p) (Comb.lookAhead q)

end Chomp.Spec
