import Verif.Spec.Built
import Verif.Spec.Productive

/-
Functions which call themselves or each other. The names of the functions are the elements of a type `K`;
`F p k` is the body of function `k` where a call of function `j` is `p j`. This file contains definitions
only.
-/

namespace Chomp.Spec

/-- One parser for every name. -/
abbrev Fns {K : Type} (σ I : Type) (T E : K → Type) : Type := ∀ k, Parser σ I (T k) (E k)

variable {K : Type} {σ I : Type} {T E : K → Type}

/-- The functions with the bodies `F` if calls may be nested `n` deep: a call which needs more does not
return. -/
def nested (F : Fns σ I T E → Fns σ I T E) : Nat → Fns σ I T E
  | 0 => fun _ _ _ => .div
  | n + 1 => F (nested F n)

/-- `p` are the functions with the bodies `F`: a call returns (or panics) if there is a depth of nesting
which suffices for it. -/
def Means (F : Fns σ I T E → Fns σ I T E) (p : Fns σ I T E) : Prop :=
  ∀ k i w r, r ≠ .div → (p k i w = r ↔ ∃ n, nested F n k i w = r)

/-- `p` returns the same as `p'` wherever it returns. -/
def LessDefined {T' E' : Type} (p p' : Parser σ I T' E') : Prop := ∀ i w, p i w = .div ∨ p i w = p' i w

/-- Bodies assembled from the library, from assembled parsers and from calls. -/
inductive Body (a : Allow) : {T' E' : Type} → (Fns σ I T E → Parser σ I T' E') → Prop
  | call (k : K) : Body a (fun q => q k)
  | const {p : Parser σ I T' E'} : Built a p → Body a (fun _ => p)
  -- src/parse_result.rs
  | bind {p : Fns σ I T E → Parser σ I T1 E1} {conv : E1 → E2}
      {f : Fns σ I T E → T1 → Parser σ I T2 E2} :
      Body a p → (∀ t, Body a (fun q => f q t)) → Body a (fun q => Parser.bind conv (p q) (f q))
  | andThen {p : Fns σ I T E → Parser σ I T1 E1} {conv : E1 → E2} {r : Fns σ I T E → Parser σ I T2 E2} :
      Body a p → Body a r → Body a (fun q => Parser.andThen conv (p q) (r q))
  | map {p : Fns σ I T E → Parser σ I T1 E1} (f : T1 → T2) :
      Body a p → Body a (fun q => Parser.map (p q) f)
  | mapErr {p : Fns σ I T E → Parser σ I T1 E1} (f : E1 → E2) :
      Body a p → Body a (fun q => Parser.mapErr (p q) f)
  | inspect {p : Fns σ I T E → Parser σ I T1 E1} (f : T1 → M σ Unit) :
      (a.mayPanic = false → ∀ t w, f t w ≠ .panic) → Body a p →
      Body a (fun q => Parser.inspect (p q) f)
  | effect {A : Type} {g : M σ A} {k : Fns σ I T E → A → Parser σ I T1 E1} :
      (a.mayPanic = false → ∀ w, g w ≠ .panic) → (∀ x, Body a (fun q => k q x)) →
      Body a (fun q => Parser.effect g (k q))
  | mapM {p : Fns σ I T E → Parser σ I T1 E1} (f : T1 → M σ T2) :
      (a.mayPanic = false → ∀ t w, f t w ≠ .panic) → Body a p → Body a (fun q => Closures.map (p q) f)
  | mapErrM {p : Fns σ I T E → Parser σ I T1 E1} (f : E1 → M σ E2) :
      (a.mayPanic = false → ∀ e w, f e w ≠ .panic) → Body a p →
      Body a (fun q => Closures.mapErr (p q) f)
  -- src/combinators
  | count (n) (c : Collect T1 T2) {p : Fns σ I T E → Parser σ I T1 E1} :
      Body a p → Body a (fun q => Comb.count n c (p q))
  | option {p : Fns σ I T E → Parser σ I T1 E1} (t : T1) :
      Body a p → Body a (fun q => Comb.option (p q) t)
  | or {p r : Fns σ I T E → Parser σ I T1 E1} :
      Body a p → Body a r → Body a (fun q => Comb.or (p q) (r q))
  | many (c : Collect T1 T2) {p : Fns σ I T E → Parser σ I T1 E1} :
      Body a p → Body a (fun q => Comb.many c (p q))
  | many1 (c : Collect T1 T2) {p : Fns σ I T E → Parser σ I T1 E1} :
      Body a p → Body a (fun q => Comb.many1 c (p q))
  | sepBy (conv : N → E1) (c : Collect T1 T2) {p : Fns σ I T E → Parser σ I T1 E1}
      {sep : Fns σ I T E → Parser σ I V N} :
      Body a p → Body a sep → Body a (fun q => Comb.sepBy conv c (p q) (sep q))
  | sepBy1 (conv : N → E1) (c : Collect T1 T2) {p : Fns σ I T E → Parser σ I T1 E1}
      {sep : Fns σ I T E → Parser σ I V N} :
      Body a p → Body a sep → Body a (fun q => Comb.sepBy1 conv c (p q) (sep q))
  /-- `Sync` has to hold whatever the functions do; see `Built` -/
  | manyTill (c : Collect T1 T2) {p : Fns σ I T E → Parser σ I T1 E1}
      {end_ : Fns σ I T E → Parser σ I V N} :
      (a.chunkDependent = false → ∀ q, Sync (p q) (end_ q)) → Body a p → Body a end_ →
      Body a (fun q => Comb.manyTill c (p q) (end_ q))
  | skipMany {p : Fns σ I T E → Parser σ I T1 E1} :
      Body a p → Body a (fun q => Comb.skipMany (p q))
  | skipMany1 {p : Fns σ I T E → Parser σ I T1 E1} :
      Body a p → Body a (fun q => Comb.skipMany1 (p q))
  | matchedBy {p : Fns σ I T E → Parser σ I T1 E1} :
      Body a p → Body a (fun q => Comb.matchedBy (p q))
  | lookAhead {p : Fns σ I T E → Parser σ I T1 E1} :
      Body a p → Body a (fun q => Comb.lookAhead (p q))
  | boundedMany (r) (c : Collect T1 T2) {p : Fns σ I T E → Parser σ I T1 E1} :
      (a.mayPanic = false → Ordered r) → Body a p → Body a (fun q => Bounded.many r c (p q))
  | boundedSkipMany (r) {p : Fns σ I T E → Parser σ I T1 E1} :
      (a.mayPanic = false → Ordered r) → Body a p → Body a (fun q => Bounded.skipMany r (p q))
  | boundedManyTill (r) (c : Collect T1 T2) {p : Fns σ I T E → Parser σ I T1 E1}
      {end_ : Fns σ I T E → Parser σ I V N} :
      a.chunkDependent = true → (a.mayPanic = false → TillRange r) → Body a p → Body a end_ →
      Body a (fun q => Bounded.manyTill r c (p q) (end_ q))

/-- `Guarded u rk g c p`: with functions `k` which consume if `u k`,
* `p` terminates, and a success of `p` consumes an item if `c`, and
* if `g` is a number, then `p` has consumed an item before it calls a function whose rank is not below this
  number. -/
inductive Guarded (u : K → Bool) (rk : K → Nat) :
    Option Nat → Bool → {T' E' : Type} → (Fns σ I T E → Parser σ I T' E') → Prop
  /-- less is known -/
  | weaken {p : Fns σ I T E → Parser σ I T1 E1} :
      Guarded u rk g c p → (∀ r', g' = some r' → ∃ r, g = some r ∧ r ≤ r') → (c' = true → c = true) →
      Guarded u rk g' c' p
  | call (k : K) : (∀ r, g = some r → rk k < r) → Guarded u rk g (u k) (fun q => q k)
  | const {p : Parser σ I T' E'} : Productive c p → Guarded u rk g c (fun _ => p)
  -- src/parse_result.rs
  /-- what follows something which consumes may call whatever it likes -/
  | bind {p : Fns σ I T E → Parser σ I T1 E1} {conv : E1 → E2}
      {f : Fns σ I T E → T1 → Parser σ I T2 E2} :
      Guarded u rk g c p → (∀ t, Guarded u rk (if c then none else g) d (fun q => f q t)) →
      Guarded u rk g (c || d) (fun q => Parser.bind conv (p q) (f q))
  | andThen {p : Fns σ I T E → Parser σ I T1 E1} {conv : E1 → E2} {r : Fns σ I T E → Parser σ I T2 E2} :
      Guarded u rk g c p → Guarded u rk (if c then none else g) d r →
      Guarded u rk g (c || d) (fun q => Parser.andThen conv (p q) (r q))
  | map {p : Fns σ I T E → Parser σ I T1 E1} (f : T1 → T2) :
      Guarded u rk g c p → Guarded u rk g c (fun q => Parser.map (p q) f)
  | mapErr {p : Fns σ I T E → Parser σ I T1 E1} (f : E1 → E2) :
      Guarded u rk g c p → Guarded u rk g c (fun q => Parser.mapErr (p q) f)
  | inspect {p : Fns σ I T E → Parser σ I T1 E1} (f : T1 → M σ Unit) :
      (∀ t, Closure (f t)) → Guarded u rk g c p → Guarded u rk g c (fun q => Parser.inspect (p q) f)
  | effect {A : Type} {x : M σ A} {k : Fns σ I T E → A → Parser σ I T1 E1} :
      Closure x → (∀ x, Guarded u rk g c (fun q => k q x)) →
      Guarded u rk g c (fun q => Parser.effect x (k q))
  | mapM {p : Fns σ I T E → Parser σ I T1 E1} (f : T1 → M σ T2) :
      (∀ t, Closure (f t)) → Guarded u rk g c p → Guarded u rk g c (fun q => Closures.map (p q) f)
  | mapErrM {p : Fns σ I T E → Parser σ I T1 E1} (f : E1 → M σ E2) :
      (∀ e, Closure (f e)) → Guarded u rk g c p → Guarded u rk g c (fun q => Closures.mapErr (p q) f)
  -- src/combinators
  | count (n) (k : Collect T1 T2) {p : Fns σ I T E → Parser σ I T1 E1} :
      Guarded u rk g c p → Guarded u rk g (c && decide (0 < n)) (fun q => Comb.count n k (p q))
  | option {p : Fns σ I T E → Parser σ I T1 E1} (t : T1) :
      Guarded u rk g c p → Guarded u rk g false (fun q => Comb.option (p q) t)
  | or {p r : Fns σ I T E → Parser σ I T1 E1} :
      Guarded u rk g c p → Guarded u rk g d r → Guarded u rk g (c && d) (fun q => Comb.or (p q) (r q))
  | many (k : Collect T1 T2) {p : Fns σ I T E → Parser σ I T1 E1} :
      Guarded u rk g true p → Guarded u rk g false (fun q => Comb.many k (p q))
  | many1 (k : Collect T1 T2) {p : Fns σ I T E → Parser σ I T1 E1} :
      Guarded u rk g true p → Guarded u rk g true (fun q => Comb.many1 k (p q))
  | sepBy (conv : N → E1) (k : Collect T1 T2) {p : Fns σ I T E → Parser σ I T1 E1}
      {sep : Fns σ I T E → Parser σ I V N} : (c = true ∨ d = true) → Guarded u rk g c p →
      Guarded u rk (if c then none else g) d sep →
      Guarded u rk g false (fun q => Comb.sepBy conv k (p q) (sep q))
  | sepBy1 (conv : N → E1) (k : Collect T1 T2) {p : Fns σ I T E → Parser σ I T1 E1}
      {sep : Fns σ I T E → Parser σ I V N} : (c = true ∨ d = true) → Guarded u rk g c p →
      Guarded u rk (if c then none else g) d sep →
      Guarded u rk g c (fun q => Comb.sepBy1 conv k (p q) (sep q))
  | manyTill (k : Collect T1 T2) {p : Fns σ I T E → Parser σ I T1 E1}
      {end_ : Fns σ I T E → Parser σ I V N} : Guarded u rk g true p → Guarded u rk g d end_ →
      Guarded u rk g d (fun q => Comb.manyTill k (p q) (end_ q))
  | skipMany {p : Fns σ I T E → Parser σ I T1 E1} :
      Guarded u rk g true p → Guarded u rk g false (fun q => Comb.skipMany (p q))
  | skipMany1 {p : Fns σ I T E → Parser σ I T1 E1} :
      Guarded u rk g true p → Guarded u rk g true (fun q => Comb.skipMany1 (p q))
  | matchedBy {p : Fns σ I T E → Parser σ I T1 E1} :
      Guarded u rk g c p → Guarded u rk g c (fun q => Comb.matchedBy (p q))
  | lookAhead {p : Fns σ I T E → Parser σ I T1 E1} :
      Guarded u rk g c p → Guarded u rk g false (fun q => Comb.lookAhead (p q))
  | boundedMany (r) (k : Collect T1 T2) {p : Fns σ I T E → Parser σ I T1 E1} :
      (c = true ∨ HasLimit r) → Guarded u rk g c p →
      Guarded u rk g (c && needsOne r) (fun q => Bounded.many r k (p q))
  | boundedSkipMany (r) {p : Fns σ I T E → Parser σ I T1 E1} :
      (c = true ∨ HasLimit r) → Guarded u rk g c p →
      Guarded u rk g (c && needsOne r) (fun q => Bounded.skipMany r (p q))
  | boundedManyTill (r) (k : Collect T1 T2) {p : Fns σ I T E → Parser σ I T1 E1}
      {end_ : Fns σ I T E → Parser σ I V N} :
      (c = true ∨ HasLimit r) → Guarded u rk g c p → Guarded u rk g d end_ →
      Guarded u rk g d (fun q => Bounded.manyTill r k (p q) (end_ q))

/-- `Leads k p`: the first thing `p` does is to call function `k` on the input it was given. -/
inductive Leads (k : K) : {T' E' : Type} → (Fns σ I T E → Parser σ I T' E') → Prop
  | call : Leads k (fun q => q k)
  | bind {p : Fns σ I T E → Parser σ I T1 E1} {conv : E1 → E2}
      {f : Fns σ I T E → T1 → Parser σ I T2 E2} :
      Leads k p → Leads k (fun q => Parser.bind conv (p q) (f q))
  | andThen {p : Fns σ I T E → Parser σ I T1 E1} {conv : E1 → E2} {r : Fns σ I T E → Parser σ I T2 E2} :
      Leads k p → Leads k (fun q => Parser.andThen conv (p q) (r q))
  /-- after something which does not consume -/
  | after (t : T1) {f : Fns σ I T E → T1 → Parser σ I T2 E2} : Leads k (fun q => f q t) →
      Leads k (fun q => Parser.bind id (Parser.ret t) (f q))
  | map {p : Fns σ I T E → Parser σ I T1 E1} (f : T1 → T2) :
      Leads k p → Leads k (fun q => Parser.map (p q) f)
  | mapErr {p : Fns σ I T E → Parser σ I T1 E1} (f : E1 → E2) :
      Leads k p → Leads k (fun q => Parser.mapErr (p q) f)
  | option {p : Fns σ I T E → Parser σ I T1 E1} (t : T1) :
      Leads k p → Leads k (fun q => Comb.option (p q) t)
  | or {p r : Fns σ I T E → Parser σ I T1 E1} : Leads k p → Leads k (fun q => Comb.or (p q) (r q))
  | many (c : Collect T1 T2) {p : Fns σ I T E → Parser σ I T1 E1} :
      c.start.isLeft → Leads k p → Leads k (fun q => Comb.many c (p q))
  | many1 (c : Collect T1 T2) {p : Fns σ I T E → Parser σ I T1 E1} :
      c.start.isLeft → Leads k p → Leads k (fun q => Comb.many1 c (p q))
  | skipMany {p : Fns σ I T E → Parser σ I T1 E1} :
      Leads k p → Leads k (fun q => Comb.skipMany (p q))
  | skipMany1 {p : Fns σ I T E → Parser σ I T1 E1} :
      Leads k p → Leads k (fun q => Comb.skipMany1 (p q))
  | sepBy (conv : N → E1) (c : Collect T1 T2) {p : Fns σ I T E → Parser σ I T1 E1}
      {sep : Fns σ I T E → Parser σ I V N} : c.start.isLeft → Leads k p →
      Leads k (fun q => Comb.sepBy conv c (p q) (sep q))
  | sepBy1 (conv : N → E1) (c : Collect T1 T2) {p : Fns σ I T E → Parser σ I T1 E1}
      {sep : Fns σ I T E → Parser σ I V N} : c.start.isLeft → Leads k p →
      Leads k (fun q => Comb.sepBy1 conv c (p q) (sep q))
  | manyTill (c : Collect T1 T2) {p : Fns σ I T E → Parser σ I T1 E1}
      {end_ : Fns σ I T E → Parser σ I V N} : c.start.isLeft → Leads k end_ →
      Leads k (fun q => Comb.manyTill c (p q) (end_ q))
  | matchedBy {p : Fns σ I T E → Parser σ I T1 E1} :
      Leads k p → Leads k (fun q => Comb.matchedBy (p q))
  | lookAhead {p : Fns σ I T E → Parser σ I T1 E1} :
      Leads k p → Leads k (fun q => Comb.lookAhead (p q))

end Chomp.Spec
