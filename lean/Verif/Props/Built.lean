import Verif.Lemmas.Ext
import Verif.Props.Choice
import Verif.Props.Till

/-
C05-C09, C22: every parser which can be assembled from the library. `Spec.Built` (Verif/Spec/Built.lean)
lists the constructions.
-/

namespace Chomp.Props

open Spec

/-- A parser for the examples: lines like `GET 12,13\n`. -/
def exampleLine : Parser Unit UInt8 (List UInt8 × List Int) (Error UInt8) :=
  Parser.bind id (Parsers.takeWhile1 true Ascii.isUppercase) fun name =>
  Parser.andThen id Ascii.skipWhitespace <|
  Parser.bind id (Comb.sepBy id (Collect.vec Int)
    (Ascii.signed true (Ascii.IntTy.num ⟨64, true, false⟩)
      (Ascii.decimal true (Ascii.IntTy.num ⟨64, true, false⟩)))
    (Parsers.token true (44 : UInt8))) fun ns =>
  Parser.andThen id (Comb.skipMany1 (Parsers.token true (10 : UInt8))) <|
  Parser.ret (name, ns)

theorem wrapping_total (bits : Nat) (s : Bool) : Total (Ascii.IntTy.num ⟨bits, s, false⟩) := by
  constructor <;>
  · intro a b
    simp only [Ascii.IntTy.num, Ascii.IntTy.norm]
    split <;> simp

/-- It is in the smallest class: nothing chunk dependent, nothing that panics. -/
theorem exampleLine_built (a : Allow) : Built a exampleLine :=
  .bind (.takeWhile1 _ _) fun _ => .andThen .skipWhitespace <|
    .bind (.sepBy _ _ (.signed _ _ (fun _ => wrapping_total _ _)
      (.decimal _ _ (fun _ => wrapping_total _ _))) (.token _ _)) fun _ =>
    .andThen (.skipMany1 (.token _ _)) (.ret _)

/-! ### C05 locality -/

/-- The remainder is a suffix of the slice, in the same mode. -/
theorem C05_remainder {p : Parser σ I T E} (hp : Built everything p) (i i' : Input I) (t : T)
    (w w' : σ) (h : p i w = .ok (.data i' t, w')) : i'.mode = i.mode ∧ ∃ x, i.buf = x ++ i'.buf := by
  have := Built.good hp i w
  rw [h] at this
  obtain ⟨hm, x, hx⟩ := this
  exact ⟨hm, x, hx.symm⟩

/-- The position of an error is a suffix of the slice. -/
theorem C05_error {p : Parser σ I T E} (hp : Built everything p) (i : Input I) (b : List I) (e : E)
    (w w' : σ) (h : p i w = .ok (.error b e, w')) : ∃ x, i.buf = x ++ b := by
  have := Built.good hp i w
  rw [h] at this
  obtain ⟨x, hx⟩ := this
  exact ⟨x, hx.symm⟩

example : ∃ x, ['a', 'b', 'c'] = x ++ ['c'] :=
  (C05_remainder (.matchedBy (.or (.string true ['x', 'y']) (.take 2)))
    (⟨.default, ['a', 'b', 'c']⟩ : Input Char) ⟨.default, ['c']⟩ (['a', 'b'], ['a', 'b']) () () rfl).2

example (i i' : Input UInt8) (t) (h : exampleLine i () = .ok (.data i' t, ())) :
    i'.mode = i.mode ∧ ∃ x, i.buf = x ++ i'.buf :=
  C05_remainder (exampleLine_built _) _ _ _ _ _ h

/-! ### C06 panics -/

/-- No panics, given non-empty ranges, no `many_till` with `..n`, arithmetic without overflow, and
user closures which do not panic. -/
theorem C06_no_panic {p : Parser σ I T E} (hp : Built panicFree p) (i : Input I) (w : σ) :
    p i w ≠ .panic := by
  intro h
  have := Built.good hp i w
  rw [h] at this
  cases this

example (i : Input UInt8) : exampleLine i () ≠ .panic := C06_no_panic (exampleLine_built _) i ()

/-- `many_till` over `2..5`, `matched_by`, and a closure which counts. -/
example (i : Input Char) (w : Nat) :
    Comb.matchedBy (Parser.inspect (Bounded.manyTill (.range 2 5) (Collect.vec Char)
      (Parsers.notToken true 'x') (Parsers.eof true)) (fun _ => modify (· + 1))) i w ≠ .panic :=
  C06_no_panic (.matchedBy (.inspect _ (fun _ _ _ h => by cases h)
    (.boundedManyTill _ _ rfl (fun _ => by show 2 < 5; omega) (.notToken _ _) (.eof _ rfl)))) i w

/-! ### C07, C08 stability under more input -/

/-- Values and errors on a slice which is not the last one are final. -/
theorem C07_stable {p : Parser σ I T E} (hp : Built streaming p) : Stable p := by
  intro b rest m w w'
  have := Built.ext rfl hp b m rest w
  constructor
  · intro r t h
    rw [h] at this
    exact this
  · intro r e h
    rw [h] at this
    exact this

/-- Panics and endless loops are final too. -/
theorem C07_crash {p : Parser σ I T E} (hp : Built streaming p) (b rest : List I) (m : Mode) (w : σ) :
    (p ⟨.default, b⟩ w = .panic → p ⟨m, b ++ rest⟩ w = .panic) ∧
    (p ⟨.default, b⟩ w = .div → p ⟨m, b ++ rest⟩ w = .div) := by
  have := Built.ext rfl hp b m rest w
  constructor
  · intro h; rw [h] at this; exact this
  · intro h; rw [h] at this; exact this

example : Stable exampleLine := C07_stable (exampleLine_built _)

/-- `many_till(any, token)` is among them: where the end token cannot be decided, `any` cannot
either. -/
example (t : Char) :
    Stable (Comb.manyTill (Collect.vec Char) (Parsers.any (σ := Unit)) (Parsers.token true t)) :=
  C07_stable (.manyTill _ (fun _ b w n w1 h => by
    cases b with
    | nil => rw [Parsers.token_eq] at h; cases h; exact ⟨1, (), rfl, Nat.le_refl _⟩
    | cons c r =>
      rw [Parsers.token_eq] at h
      dsimp only at h
      split at h <;> cases h) .any (.token _ _))

/-- The request is at least one. -/
theorem C08_positive {p : Parser σ I T E} (hp : Built streaming p) (b : List I) (w w' : σ) (n : Nat)
    (h : p ⟨.default, b⟩ w = .ok (.incomplete n, w')) : 1 ≤ n := by
  have := Built.ext rfl hp b .default [] w
  rw [h] at this
  exact this.1

/-- With fewer further items than requested the parser is still incomplete, asks for at least what
is left of the first request, and has had the same effects. -/
theorem C08_truthful {p : Parser σ I T E} (hp : Built streaming p) (b rest : List I) (w w' : σ)
    (n : Nat) (h : p ⟨.default, b⟩ w = .ok (.incomplete n, w')) (hr : rest.length < n) :
    ∃ n', p ⟨.default, b ++ rest⟩ w = .ok (.incomplete n', w') ∧ n ≤ rest.length + n' := by
  have := Built.ext rfl hp b .default rest w
  rw [h] at this
  obtain ⟨n', h1, h2⟩ := this.2 rfl hr
  exact ⟨n', h1, by omega⟩

example : ∃ n', Comb.or (Parsers.string true ['a', 'b', 'c', 'd']) (Parsers.take 2)
    ⟨.default, ['a', 'b'] ++ ['x']⟩ () = .ok (.incomplete n', ()) ∧ 2 ≤ 1 + n' :=
  C08_truthful (σ := Unit) (.or (.string _ _) (.take _)) ['a', 'b'] ['x'] () () 2
    (by unfold Comb.or
        rw [M.bind_ok (Parsers.string_short _ (by simp))]; rfl) (by simp)

/-! ### C66 -/

/-- No request is longer than the longest `take`, `string` or `incomplete` the parser contains. -/
theorem C66_request {a : Allow} {K : Nat} (ha : a.maxRequest = some K) {p : Parser σ I T E}
    (hp : Built a p) (i : Input I) (w w' : σ) (n : Nat) (h : p i w = .ok (.incomplete n, w')) : n ≤ max 1 K := by
  have := Built.good hp i w
  rw [h] at this
  exact this K ha

/-- `GET` or four items, in lines: never more than four are asked for, however often it loops. -/
example (i : Input Char) (n : Nat)
    (h : Comb.many (Collect.vec (List Char)) (Comb.or (Parsers.string true ['G', 'E', 'T'])
      (Parsers.take 4)) i () = .ok (.incomplete n, ())) : n ≤ 4 :=
  C66_request (a := ⟨true, true, some 4⟩) rfl (.many _ (.or (.string _ _ (by intro K h; cases h; decide))
    (.take _ (by intro K h; cases h; decide)))) i () () n h

/-! ### C09 chunk dependence -/

theorem C09_peek : ¬ Stable (Parsers.peek (σ := Unit) (I := Nat)) := by
  intro h
  have := (h [] [1] .default () ()).1 ⟨.default, []⟩ none rfl
  cases this.2

theorem C09_eof (v : Bool) : ¬ Stable (Parsers.eof (σ := Unit) (I := Nat) v) := by
  intro h
  have := (h [] [] .endOfInput () ()).2 [] (Err.unexpected v) (Parsers.eof_eq _ _ _)
  rw [Parsers.eof_eq] at this
  simp at this

theorem C09_take_remainder : ¬ Stable (Parsers.takeRemainder (σ := Unit) (I := Nat)) := by
  intro h
  have := (h [] [1] .default () ()).1 ⟨.default, []⟩ [] (Parsers.takeRemainder_eq _ _)
  rw [Parsers.takeRemainder_eq] at this
  simp at this

/-- An end which takes either 'a' and five more items, or 'b'. -/
def tillEnd : Parser Unit Char (List Char) (Error Char) :=
  Comb.or (Parser.andThen id (Parsers.token true 'a') (Parsers.take 5))
    (Parsers.string true ['b'])

/-- `many_till` treats an incomplete `end` as "not yet": "ab", cut there, is read as the item 'a' and
the end "b", while "abcdef" is the end at once. Both `any` and the end are stable themselves. -/
theorem C09_many_till :
    Stable (Parsers.any (σ := Unit) (I := Char)) ∧ Stable tillEnd ∧
    ¬ Stable (Comb.manyTill (Collect.vec Char) Parsers.any tillEnd) := by
  refine ⟨C07_stable .any, C07_stable (.or (.andThen (.token _ _) (.take _)) (.string _ _)), ?_⟩
  intro h
  have h1 := (h ['a', 'b'] ['c', 'd', 'e', 'f'] .default () ()).1 ⟨.default, []⟩ ['a']
    ((C33_many_till_ok _ _ _ _ _ _ _).mpr
      ⟨⟨.default, ['b']⟩, (), ['b'],
        .cons (r := .incomplete 4) (w1 := ()) (w2 := ()) rfl (by intro b v h; cases h) rfl .nil, rfl⟩)
  have h2 := (C33_many_till_ok (Parsers.any (σ := Unit)) tillEnd
    ⟨.default, ['a', 'b', 'c', 'd', 'e', 'f']⟩ ⟨.default, []⟩ () () []).mpr
      ⟨_, (), ['b', 'c', 'd', 'e', 'f'], .nil, rfl⟩
  rw [show (['a', 'b'] ++ ['c', 'd', 'e', 'f'] : List Char) = ['a', 'b', 'c', 'd', 'e', 'f'] from rfl, h2] at h1
  simp at h1

/-! ### C22 for library-built parsers -/

/-- What `matched_by` returns is what was consumed, for every parser assembled from the library. -/
theorem C22_built {p : Parser σ I T E} (hp : Built everything p) (i i' : Input I) (t : T) (w w' : σ)
    (h : p i w = .ok (.data i' t, w')) :
    ∃ x, i.buf = x ++ i'.buf ∧ Comb.matchedBy p i w = .ok (.data i' (x, t), w') := by
  obtain ⟨_, x, hx⟩ := C05_remainder hp i i' t w w' h
  obtain ⟨m, b⟩ := i
  obtain ⟨m', y⟩ := i'
  dsimp only at hx
  subst hx
  exact ⟨x, rfl, C22_matched_by_ok p m m' x y t w w' h⟩

/-- It panics only where `p` does. -/
theorem C22_no_panic {p : Parser σ I T E} (hp : Built everything p) (i : Input I) (w : σ) :
    Comb.matchedBy p i w = .panic ↔ p i w = .panic := by
  cases h : p i w with
  | ok r =>
    obtain ⟨r, w1⟩ := r
    cases r with
    | data j t =>
      obtain ⟨x, _, hm⟩ := C22_built hp i j t w w1 h
      rw [hm]; simp
    | error b e => rw [C22_matched_by_err p _ _ _ _ _ h]; simp
    | incomplete n => rw [C22_matched_by_incomplete p _ _ _ _ h]; simp
  | _ => unfold Comb.matchedBy; rw [M_bind_of h]; simp

example : ∃ x, ['a', 'b', 'c'] = x ++ ['b', 'c'] ∧
    Comb.matchedBy (Comb.option (Parsers.token true 'a') 'x') ⟨.default, ['a', 'b', 'c']⟩ () =
      .ok (.data ⟨.default, ['b', 'c']⟩ (x, 'a'), ()) :=
  C22_built (p := Comb.option (Parsers.token true 'a') 'x') (.option _ (.token _ _))
    ⟨.default, ['a', 'b', 'c']⟩ ⟨.default, ['b', 'c']⟩ 'a' () () rfl

end Chomp.Props
