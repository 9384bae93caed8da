import Verif.Model.Ascii
import Verif.Model.Closures

/-
The parsers which can be assembled from the public interface of the library. This file contains
definitions only.

Closures of the user appear as arbitrary functions (`f t` in `bind`), as arbitrary computations on the
captured state (`effect`), and as functions which may have effects, panic or not return (`satisfyM` and so
on).
-/

namespace Chomp.Spec

/-- Which parts of the library may be used. -/
structure Allow where
  /-- `peek`, `eof`, `take_remainder`, and `many_till` unless `Sync` -/
  chunkDependent : Bool
  /-- ranges which are empty, `many_till` with `..n`, number types whose operations panic, closures
  which panic -/
  mayPanic : Bool
  /-- the longest `take`, `string` and `incomplete`, if there is a limit -/
  maxRequest : Option Nat

/-- `n` is not over the limit. -/
def Allow.Permits (a : Allow) (n : Nat) : Prop := ∀ K, a.maxRequest = some K → n ≤ K

/-- `a..b` is fine for `many` and `skip_many`. -/
def Ordered : Bounded.Range → Prop
  | .range a b => a ≤ b
  | _ => True

/-- A range which is fine for `many_till`. -/
def TillRange : Bounded.Range → Prop
  | .range a b => a < b
  | .to _ => False
  | _ => True

/-- Arithmetic never panics. -/
def Total (N : Ascii.Num T) : Prop :=
  (∀ a b, N.add a b ≠ .panic) ∧ (∀ a b, N.mul a b ≠ .panic)

/-- Where `end_` does not know yet, `p` does not either, and `p` does not ask for more than `end_`. -/
def Sync (p : Parser σ I U E) (end_ : Parser σ I V N) : Prop :=
  ∀ b w n w1, end_ ⟨.default, b⟩ w = .ok (.incomplete n, w1) →
    ∃ k w2, p ⟨.default, b⟩ w1 = .ok (.incomplete k, w2) ∧ k ≤ n

/-- Parsers assembled from the library, in a debug build unless another build is given. -/
inductive Built [Build] (a : Allow) : {σ I T E : Type} → Parser σ I T E → Prop
  -- src/input.rs, src/parse_result.rs
  | ret (t : T) : Built a (Parser.ret (σ := σ) (I := I) (E := E) t)
  | err (e : E) : Built a (Parser.err (σ := σ) (I := I) (T := T) e)
  | fromResult (r : Except E T) : Built a (Parser.fromResult (σ := σ) (I := I) r)
  /-- `|i| i.incomplete(n)` with n ≥ 1 -/
  | incomplete (n : Nat) (h : 1 ≤ n) (hk : a.Permits n := by intro K h; cases h) :
      Built a (fun i => pure (i.incomplete n) : Parser σ I T E)
  | bind {p : Parser σ I T E} {conv : E → V} {f : T → Parser σ I U V} :
      Built a p → (∀ t, Built a (f t)) → Built a (Parser.bind conv p f)
  | andThen {p : Parser σ I T E} {conv : E → V} {q : Parser σ I U V} :
      Built a p → Built a q → Built a (Parser.andThen conv p q)
  | map {p : Parser σ I T E} (f : T → U) : Built a p → Built a (Parser.map p f)
  | mapErr {p : Parser σ I T E} (f : E → V) : Built a p → Built a (Parser.mapErr p f)
  | inspect {p : Parser σ I T E} (f : T → M σ Unit) :
      (a.mayPanic = false → ∀ t w, f t w ≠ .panic) → Built a p → Built a (Parser.inspect p f)
  /-- any computation on the captured state -/
  | effect {A : Type} {g : M σ A} {k : A → Parser σ I T E} :
      (a.mayPanic = false → ∀ w, g w ≠ .panic) → (∀ x, Built a (k x)) →
      Built a (Parser.effect g k)
  -- src/parsers.rs
  | any : Built a (Parsers.any (σ := σ) (I := I))
  | satisfy (v) (f : I → Bool) : Built a (Parsers.satisfy (σ := σ) v f)
  | satisfyWith (v) (f : I → T) (p : T → Bool) : Built a (Parsers.satisfyWith (σ := σ) v f p)
  | token [DecidableEq I] (v) (t : I) : Built a (Parsers.token (σ := σ) v t)
  | notToken [DecidableEq I] (v) (t : I) : Built a (Parsers.notToken (σ := σ) v t)
  | peek : a.chunkDependent = true → Built a (Parsers.peek (σ := σ) (I := I))
  | peekNext : Built a (Parsers.peekNext (σ := σ) (I := I))
  | take (n) (hk : a.Permits n := by intro K h; cases h) :
      Built a (Parsers.take (σ := σ) (I := I) n)
  | takeWhile (f : I → Bool) : Built a (Parsers.takeWhile (σ := σ) f)
  | takeWhile1 (v) (f : I → Bool) : Built a (Parsers.takeWhile1 (σ := σ) v f)
  | takeTill (f : I → Bool) : Built a (Parsers.takeTill (σ := σ) f)
  | scan {S : Type} (s : S) (f : S → I → Option S) : Built a (Parsers.scan (σ := σ) s f)
  | runScanner {S : Type} (s : S) (f : S → I → Option S) : Built a (Parsers.runScanner (σ := σ) s f)
  | takeRemainder : a.chunkDependent = true → Built a (Parsers.takeRemainder (σ := σ) (I := I))
  | string [DecidableEq I] (v) (s : List I) (hk : a.Permits s.length := by intro K h; cases h) :
      Built a (Parsers.string (σ := σ) v s)
  | eof (v) : a.chunkDependent = true → Built a (Parsers.eof (σ := σ) (I := I) v)
  -- src/parsers.rs and src/parse_result.rs, with closures and comparisons which have effects
  | mapM {p : Parser σ I T E} (f : T → M σ U) :
      (a.mayPanic = false → ∀ t w, f t w ≠ .panic) → Built a p → Built a (Closures.map p f)
  | mapErrM {p : Parser σ I T E} (f : E → M σ V) :
      (a.mayPanic = false → ∀ e w, f e w ≠ .panic) → Built a p → Built a (Closures.mapErr p f)
  | satisfyM (v) (f : I → M σ Bool) :
      (a.mayPanic = false → ∀ c w, f c w ≠ .panic) → Built a (Closures.satisfy v f)
  | satisfyWithM (v) (f : I → M σ T) (p : T → M σ Bool) :
      (a.mayPanic = false → (∀ c w, f c w ≠ .panic) ∧ ∀ t w, p t w ≠ .panic) →
      Built a (Closures.satisfyWith v f p)
  | tokenM (eq : I → I → M σ Bool) (v) (t : I) :
      (a.mayPanic = false → ∀ c w, eq t c w ≠ .panic) → Built a (Closures.token eq v t)
  | notTokenM (ne : I → I → M σ Bool) (v) (t : I) :
      (a.mayPanic = false → ∀ c w, ne t c w ≠ .panic) → Built a (Closures.notToken ne v t)
  | takeWhileM (f : I → M σ Bool) :
      (a.mayPanic = false → ∀ c w, f c w ≠ .panic) → Built a (Closures.takeWhile f)
  | takeWhile1M (v) (f : I → M σ Bool) :
      (a.mayPanic = false → ∀ c w, f c w ≠ .panic) → Built a (Closures.takeWhile1 v f)
  | takeTillM (f : I → M σ Bool) :
      (a.mayPanic = false → ∀ c w, f c w ≠ .panic) → Built a (Closures.takeTill f)
  | scanM {S : Type} (s : S) (f : S → I → M σ (Option S)) :
      (a.mayPanic = false → ∀ s c w, f s c w ≠ .panic) → Built a (Closures.scan s f)
  | runScannerM {S : Type} (s : S) (f : S → I → M σ (Option S)) :
      (a.mayPanic = false → ∀ s c w, f s c w ≠ .panic) → Built a (Closures.runScanner s f)
  | stringM (ne : I → I → M σ Bool) (v) (s : List I)
      (hk : a.Permits s.length := by intro K h; cases h) :
      (a.mayPanic = false → ∀ t c w, ne t c w ≠ .panic) → Built a (Closures.string ne v s)
  -- src/combinators
  | count (n) (c : Collect U T) {p : Parser σ I U E} : Built a p → Built a (Comb.count n c p)
  | option {p : Parser σ I T E} (t : T) : Built a p → Built a (Comb.option p t)
  | or {p q : Parser σ I T E} : Built a p → Built a q → Built a (Comb.or p q)
  | many (c : Collect U T) {p : Parser σ I U E} : Built a p → Built a (Comb.many c p)
  | many1 (c : Collect U T) {p : Parser σ I U E} : Built a p → Built a (Comb.many1 c p)
  | sepBy (conv : N → E) (c : Collect U T) {p : Parser σ I U E} {sep : Parser σ I V N} :
      Built a p → Built a sep → Built a (Comb.sepBy conv c p sep)
  | sepBy1 (conv : N → E) (c : Collect U T) {p : Parser σ I U E} {sep : Parser σ I V N} :
      Built a p → Built a sep → Built a (Comb.sepBy1 conv c p sep)
  | manyTill (c : Collect U T) {p : Parser σ I U E} {end_ : Parser σ I V N} :
      (a.chunkDependent = false → Sync p end_) → Built a p → Built a end_ →
      Built a (Comb.manyTill c p end_)
  | skipMany {p : Parser σ I T E} : Built a p → Built a (Comb.skipMany p)
  | skipMany1 {p : Parser σ I T E} : Built a p → Built a (Comb.skipMany1 p)
  | matchedBy {p : Parser σ I T E} : Built a p → Built a (Comb.matchedBy p)
  | lookAhead {p : Parser σ I T E} : Built a p → Built a (Comb.lookAhead p)
  | boundedMany (r) (c : Collect U T) {p : Parser σ I U E} :
      (a.mayPanic = false → Ordered r) → Built a p → Built a (Bounded.many r c p)
  | boundedSkipMany (r) {p : Parser σ I T E} :
      (a.mayPanic = false → Ordered r) → Built a p → Built a (Bounded.skipMany r p)
  | boundedManyTill (r) (c : Collect U T) {p : Parser σ I U E} {end_ : Parser σ I V N} :
      a.chunkDependent = true → (a.mayPanic = false → TillRange r) → Built a p → Built a end_ →
      Built a (Bounded.manyTill r c p end_)
  -- src/ascii.rs
  | skipWhitespace : Built a (Ascii.skipWhitespace (σ := σ))
  | digit (v) : Built a (Ascii.digit (σ := σ) v)
  | decimal (v) (N : Ascii.Num T) : (a.mayPanic = false → Total N) →
      Built a (Ascii.decimal (σ := σ) v N)
  | signed (v) (N : Ascii.Num T) {p : Parser σ UInt8 T (Error UInt8)} :
      (a.mayPanic = false → Total N) → Built a p → Built a (Ascii.signed v N p)
  -- functions of the user which call themselves or each other
  /-- a call which does not return -/
  | endless : Built a (fun _ _ => .div : Parser σ I T E)
  /-- a parser which agrees, on any finitely many inputs, with an assembled one (a recursive function and
  its unfoldings, see `Verif/Spec/Recursive.lean`) -/
  | unfolds {p : Parser σ I T E} (q : List (Input I × σ) → Parser σ I T E) :
      (∀ l x, x ∈ l → q l x.1 x.2 = p x.1 x.2) → (∀ l, Built a (q l)) → Built a p

/-- Everything. -/
def everything : Allow := ⟨true, true, none⟩
/-- Nothing that can panic. -/
def panicFree : Allow := ⟨true, false, none⟩
/-- Nothing that depends on where the input is cut. -/
def streaming : Allow := ⟨false, true, none⟩

end Chomp.Spec

namespace Chomp.Spec

/-- Values and errors reported on a slice which is not the last one do not change when more input
arrives, whether or not it is the end of the input. -/
def Stable (p : Parser σ I T E) : Prop :=
  ∀ (b rest : List I) (m : Mode) (w w' : σ),
    (∀ r t, p ⟨.default, b⟩ w = .ok (.data r t, w') →
      r.mode = .default ∧ p ⟨m, b ++ rest⟩ w = .ok (.data ⟨m, r.buf ++ rest⟩ t, w')) ∧
    (∀ r e, p ⟨.default, b⟩ w = .ok (.error r e, w') →
      p ⟨m, b ++ rest⟩ w = .ok (.error (r ++ rest) e, w'))

end Chomp.Spec
