import Verif.Spec.Work

/-
Parsers for which the next item decides what to do. This file contains definitions only.
-/

namespace Chomp.Spec

/-- `x` begins with an item in `A`. -/
def Begins (A : I → Prop) (x : List I) : Prop := ∃ c z, x = c :: z ∧ A c

/-- What is said of a parser. -/
structure Look (I : Type) where
  /-- The items with which it may begin. In front of any other item, or of nothing, it fails or consumes
  nothing. -/
  first : I → Prop
  /-- It may have read on, and gone back to one of these items. -/
  stop : I → Prop
  /-- It may succeed without consuming anything. -/
  empty : Bool
  /-- How often it calls closures where it cannot begin, at most. -/
  out : Nat
  /-- How often it calls closures in a success, at most, apart from a fixed number `a` of calls for each item
  which is consumed. -/
  done : Int
  /-- Likewise if it fails or goes back, apart from `a` calls for each item of the input. -/
  fail : Int

/-- A parser which does not go back. -/
def leaf (first : I → Prop) (empty : Bool) (out : Nat) (done fail : Int) : Look I :=
  ⟨first, fun _ => False, empty, out, done, fail⟩

/-- A parser which consumes nothing and calls nothing. -/
def nothing : Look I := leaf (fun _ => False) true 0 0 0

/-- One call more. -/
def Look.call (L : Look I) : Look I := ⟨L.first, L.stop, L.empty, L.out + 1, L.done + 1, L.fail + 1⟩

/-- `L` says less than `P`. -/
structure Less (P L : Look I) : Prop where
  first : ∀ x, L.first x ↔ P.first x
  stop : ∀ x, P.stop x → L.stop x
  empty : P.empty = true → L.empty = true
  out : P.out ≤ L.out
  done : P.done ≤ L.done
  fail : P.fail ≤ L.fail

/-- One after the other. Where the first one may stop after it has gone back, the second one does not begin. -/
structure Sequence (a : Nat) (P Q L : Look I) : Prop where
  apart : ∀ x, P.stop x → ¬ Q.first x
  first : ∀ x, L.first x ↔ P.first x ∨ (P.empty = true ∧ Q.first x)
  stop : ∀ x, Q.stop x → L.stop x
  skip : Q.empty = true → ∀ x, P.stop x → L.stop x
  empty : P.empty = true → Q.empty = true → L.empty = true
  out : P.out ≤ L.out ∧ (P.empty = true → P.out + Q.out ≤ L.out)
  done : P.done + Q.done ≤ L.done ∧ (Q.empty = true → P.done + Q.out ≤ L.done) ∧
    (P.empty = true → P.out + Q.done ≤ L.done)
  fail : P.fail + Q.out ≤ L.fail ∧ P.done + Q.fail ≤ L.fail ∧ P.done + Q.out ≤ L.fail ∧
    (P.empty = true → P.out + Q.fail ≤ L.fail ∧ P.out ≤ L.fail + a)

/-- One or the other: the next item decides. -/
structure Choice (a : Nat) (P Q L : Look I) : Prop where
  apart : ∀ x, P.first x → ¬ Q.first x
  first : ∀ x, L.first x ↔ P.first x ∨ Q.first x
  stop : ∀ x, P.stop x ∨ Q.stop x → L.stop x
  back : Q.empty = true → ∀ x, P.first x → L.stop x
  empty : P.empty = true ∨ Q.empty = true → L.empty = true
  out : P.out + Q.out ≤ L.out
  done : P.done ≤ L.done ∧
    ((∃ x, Q.first x) → P.out + Q.done ≤ L.done ∧ (P.empty = true → P.out ≤ L.done))
  fail : P.fail + Q.out ≤ L.fail ∧ ((∃ x, Q.first x) → P.out + Q.fail ≤ L.fail ∧ P.out ≤ L.fail + a)

/-- Again and again: where an item may stop after it has gone back, the next one does not begin, and each item
is paid for. -/
structure Repetition (P L : Look I) : Prop where
  consumes : P.empty = false
  apart : ∀ x, P.stop x → ¬ P.first x
  paid : P.done ≤ 0
  first : ∀ x, L.first x ↔ P.first x
  stop : ∀ x, P.stop x ∨ P.first x → L.stop x
  empty : L.empty = true
  out : P.out ≤ L.out
  done : P.done + P.out ≤ L.done
  fail : P.fail + P.out ≤ L.fail ∧ P.done + P.out ≤ L.fail

/-- One run from the input `i` and the state `w`, with the result `r` and the state `w'`, is as `L` says. -/
def AsSaid (m : σ → Nat) (a : Nat) (L : Look I) (i : Input I) (w : σ) (r : ParseResult I T E) (w' : σ) : Prop :=
  (¬ Begins L.first i.buf → m w' ≤ m w + L.out ∧ ∀ j t, r = .data j t → L.empty = true ∧ j.buf = i.buf) ∧
  (Begins L.first i.buf →
    (∀ j t, r = .data j t →
      (j.buf.length < i.buf.length ∨ (L.empty = true ∧ j.buf.length ≤ i.buf.length)) ∧
      ((m w' : Int) + a * j.buf.length ≤ m w + a * i.buf.length + L.done ∨
        (Begins L.stop j.buf ∧ (m w' : Int) ≤ m w + a * i.buf.length + L.fail))) ∧
    ((∀ j t, r ≠ .data j t) → (m w' : Int) ≤ m w + a * i.buf.length + L.fail))

/-- `Predictive m a L p`: according to the text of `p`, the next item decides, and `L` holds. What `m` counts is
measured in units of `a` for each item. -/
inductive Predictive (m : σ → Nat) (a : Nat) : Look I → {T E : Type} → Parser σ I T E → Prop
  /-- what is known already, for instance of a call -/
  | known {p : Parser σ I T E} : Built everything p →
      (∀ i w r w', p i w = .ok (r, w') → AsSaid m a L i w r w') → Predictive m a L p
  | weaken {p : Parser σ I T E} : Less P L → Predictive m a P p → Predictive m a L p
  -- src/input.rs, src/parse_result.rs
  | ret (t : T) : Predictive m a nothing (Parser.ret (σ := σ) (I := I) (E := E) t)
  | err (e : E) : Predictive m a (leaf (fun _ => False) false 0 0 0) (Parser.err (σ := σ) (I := I) (T := T) e)
  | bind {p : Parser σ I T E} {conv : E → V} {f : T → Parser σ I U V} : Sequence a P Q L →
      Predictive m a P p → (∀ t, Predictive m a Q (f t)) → Predictive m a L (Parser.bind conv p f)
  | andThen {p : Parser σ I T E} {conv : E → V} {q : Parser σ I U V} : Sequence a P Q L →
      Predictive m a P p → Predictive m a Q q → Predictive m a L (Parser.andThen conv p q)
  | map {p : Parser σ I T E} (f : T → U) : Predictive m a P p → Predictive m a P (Parser.map p f)
  | mapErr {p : Parser σ I T E} (f : E → V) : Predictive m a P p → Predictive m a P (Parser.mapErr p f)
  | inspect {p : Parser σ I T E} (f : T → M σ Unit) : (∀ t, Counted m (f t)) → Predictive m a P p →
      Predictive m a P.call (Parser.inspect p f)
  | effect {A : Type} {g : M σ A} {k : A → Parser σ I T E} : Counted m g → (∀ x, Predictive m a P (k x)) →
      Predictive m a P.call (Parser.effect g k)
  -- src/parsers.rs
  | any : Predictive m a (leaf (fun _ => True) false 0 (-a) (-a)) (Parsers.any (σ := σ) (I := I))
  | satisfy (v) (f : I → Bool) :
      Predictive m a (leaf (fun c => f c = true) false 0 (-a) (-a)) (Parsers.satisfy (σ := σ) v f)
  | token [DecidableEq I] (v) (t : I) :
      Predictive m a (leaf (fun c => c = t) false 0 (-a) (-a)) (Parsers.token (σ := σ) v t)
  | notToken [DecidableEq I] (v) (t : I) :
      Predictive m a (leaf (fun c => c ≠ t) false 0 (-a) (-a)) (Parsers.notToken (σ := σ) v t)
  | takeWhile (f : I → Bool) :
      Predictive m a (leaf (fun c => f c = true) true 0 (-a) (-a)) (Parsers.takeWhile (σ := σ) f)
  | takeWhile1 (v) (f : I → Bool) :
      Predictive m a (leaf (fun c => f c = true) false 0 (-a) (-a)) (Parsers.takeWhile1 (σ := σ) v f)
  | eof (v) : Predictive m a nothing (Parsers.eof (σ := σ) (I := I) v)
  /-- `A` contains the items which `f` may accept -/
  | satisfyM (v) (f : I → M σ Bool) (A : I → Prop) : (∀ c, Counted m (f c)) →
      (∀ c w w', f c w = .ok (true, w') → A c) →
      Predictive m a (leaf A false 1 (1 - a) (1 - a)) (Closures.satisfy v f)
  | tokenM (eq : I → I → M σ Bool) (v) (t : I) (A : I → Prop) : (∀ c, Counted m (eq t c)) →
      (∀ c w w', eq t c w = .ok (true, w') → A c) →
      Predictive m a (leaf A false 1 (1 - a) (1 - a)) (Closures.token eq v t)
  | takeWhileM (f : I → M σ Bool) (A : I → Prop) : (∀ c, Counted m (f c)) →
      (∀ c w w', f c w = .ok (true, w') → A c) → 1 ≤ a →
      Predictive m a (leaf A true 1 1 0) (Closures.takeWhile f)
  | takeWhile1M (v) (f : I → M σ Bool) (A : I → Prop) : (∀ c, Counted m (f c)) →
      (∀ c w w', f c w = .ok (true, w') → A c) → 1 ≤ a →
      Predictive m a (leaf A false 1 1 0) (Closures.takeWhile1 v f)
  -- src/combinators
  | or {p q : Parser σ I T E} : Choice a P Q L → Predictive m a P p → Predictive m a Q q →
      Predictive m a L (Comb.or p q)
  | option {p : Parser σ I T E} (t : T) : Choice a P nothing L → Predictive m a P p →
      Predictive m a L (Comb.option p t)
  | many {p : Parser σ I U E} : Repetition P L → Predictive m a P p →
      Predictive m a L (Comb.many (Collect.vec U) p)
  | many1 {p : Parser σ I U E} : Repetition P R → Sequence a P R L → Predictive m a P p →
      Predictive m a L (Comb.many1 (Collect.vec U) p)
  | skipMany {p : Parser σ I T E} : Repetition P L → Predictive m a P p → Predictive m a L (Comb.skipMany p)
  | skipMany1 {p : Parser σ I T E} : Repetition P R → Sequence a P R L → Predictive m a P p →
      Predictive m a L (Comb.skipMany1 p)
  | sepBy1 (conv : N → E) {p : Parser σ I U E} {sep : Parser σ I V N} :
      Sequence a S P Q → Repetition Q R → Sequence a P R L → Predictive m a P p → Predictive m a S sep →
      Predictive m a L (Comb.sepBy1 conv (Collect.vec U) p sep)
  | sepBy (conv : N → E) {p : Parser σ I U E} {sep : Parser σ I V N} :
      Sequence a S P Q → Repetition Q R → Sequence a P R X → Choice a X nothing L →
      Predictive m a P p → Predictive m a S sep → Predictive m a L (Comb.sepBy conv (Collect.vec U) p sep)
  | manyTill {p : Parser σ I U E} {end_ : Parser σ I V N} : P.empty = false → Sequence a P L S →
      Choice a D S L → Predictive m a P p → Predictive m a D end_ →
      Predictive m a L (Comb.manyTill (Collect.vec U) p end_)
  | matchedBy {p : Parser σ I T E} : Predictive m a P p → Predictive m a P (Comb.matchedBy p)

/-- `fn v(i) { tick(); or(i, |i| x, |i| [ then sep_by(v, ,) then ]) }`. -/
def lists (v : Bool) (q : Fns Nat Char (fun _ : Unit => Unit) (fun _ => Error Char)) :
    Fns Nat Char (fun _ : Unit => Unit) (fun _ => Error Char) := fun _ =>
  Parser.effect tick fun _ =>
    Comb.or (Parser.map (Parsers.token v 'x') fun _ => ())
      (Parser.andThen id (Parsers.token v '[')
        (Parser.andThen id (Comb.sepBy id (Collect.vec Unit) (q ()) (Parsers.token v ','))
          (Parser.map (Parsers.token v ']') fun _ => ())))

end Chomp.Spec
