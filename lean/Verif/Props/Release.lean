import Verif.Model.Buffer
import Verif.Lemmas.Release
import Verif.Model.Http
import Verif.Props.Built
import Verif.Props.Repeat

/-
C81: parsers and combinators do the same in a release build, where subtraction wraps around instead of
panicking. Everything which does not mention a build is about the debug build; functions whose code does
not subtract do not depend on the build in the first place.
-/

namespace Chomp.Props

open Spec

/-! ### C81 release builds -/

/-- The result `z` of an operation on `usize`, in a build with overflow checks or without. -/
def arith (chk : Bool) (z : Int) : Res Nat :=
  if 0 ≤ z ∧ z < 18446744073709551616 then .ok z.toNat
  else if chk then .panic
  else .ok (z % 18446744073709551616).toNat

/-- What the two builds are: a difference or sum which is a `usize` is the same in both. If it is none, a debug build panics,
and a release build goes on with the one which differs by a multiple of 2⁶⁴. -/
theorem C81_usize (B : Build) (a b : Nat) (ha : a ≤ usizeMax) (hb : b ≤ usizeMax) :
    @usub B a b = arith B.checked ((a : Int) - b) ∧ usubB B.checked a b = arith B.checked ((a : Int) - b) ∧
      uaddB B.checked a b = arith B.checked ((a : Int) + b) := by
  unfold usub usubB uaddB arith
  unfold usizeMax at *
  cases B.checked <;>
  simp only [reduceIte, Bool.false_eq_true] <;>
  refine ⟨?_, ?_, ?_⟩ <;> split <;> split <;> first
    | rfl
    | omega
    | (congr 1; omega)

theorem C81_take (n : Nat) : @Parsers.take .release σ I n = Parsers.take n :=
  Parsers.take_build _ _ n

theorem C81_string [DecidableEq I] (v : Bool) (s : List I) :
    @Parsers.string .release I σ _ v s = Parsers.string v s :=
  Parsers.string_build _ _ v s

theorem C81_string_closure (ne : I → I → M σ Bool) (v : Bool) (s : List I) :
    @Closures.string .release I σ ne v s = Closures.string ne v s :=
  Closures.string_build _ _ ne v s

/-- For every range (also `a..b` with `b ≤ a`), every collection, also one with effects or one which
polls the iterator after its end, and every parser. -/
theorem C81_many (r : Bounded.Range) (k : Driver σ U T) (p : Parser σ I U E) :
    @Bounded.manyWith .release σ U T I E r k p = Bounded.manyWith r k p :=
  Bounded.manyWith_build _ _ r k p

theorem C81_skip_many (r : Bounded.Range) (p : Parser σ I T E) :
    @Bounded.skipMany .release σ I T E r p = Bounded.skipMany r p :=
  Bounded.skipMany_build _ _ r p

theorem C81_many_till (r : Bounded.Range) (k : Driver σ U T) (p : Parser σ I U E)
    (end_ : Parser σ I V N) :
    @Bounded.manyTillWith .release σ U T I E V N r k p end_ = Bounded.manyTillWith r k p end_ :=
  Bounded.manyTillWith_build _ _ r k p end_

theorem C81_sep_by (conv : N → E) (c : Collect U T) (p : Parser σ I U E) (sep : Parser σ I V N) :
    @Comb.sepBy .release N E U T σ I V conv c p sep = Comb.sepBy conv c p sep :=
  Comb.sepBy_build _ _ conv c p sep

theorem C81_sep_by1 (conv : N → E) (c : Collect U T) (p : Parser σ I U E) (sep : Parser σ I V N) :
    @Comb.sepBy1 .release N E U T σ I V conv c p sep = Comb.sepBy1 conv c p sep :=
  Comb.sepBy1_build _ _ conv c p sep

/-- For every parser which leaves a slice whose length is a `usize`, so also for one which leaves some
other, longer slice than it was given: then the difference wraps around to more than the length of the
input, and cutting that much off panics instead. -/
theorem C81_matched_by (p : Parser σ I T E)
    (hp : ∀ i w i' t w', p i w = .ok (.data i' t, w') → i'.buf.length ≤ usizeMax) :
    @Comb.matchedBy .release σ I T E p = Comb.matchedBy p := by
  funext i w
  unfold Comb.matchedBy
  rw [M.bind_apply, M.bind_apply]
  cases h : p i w with
  | ok r =>
    obtain ⟨r, w'⟩ := r
    cases r with
    | data b t =>
      rw [Res.bind_ok, Res.bind_ok]
      dsimp only
      by_cases hl : b.buf.length ≤ i.buf.length
      · rw [usub_build .release .debug hl]
      · have hb := hp _ _ _ _ _ h
        obtain ⟨d, hd, e⟩ := usub_wrap .release rfl (Nat.not_le.1 hl) hb
        have hu : @usub .debug i.buf.length b.buf.length = .panic := by
          unfold usub
          rw [if_neg hl]
          rfl
        have em : usizeMax < 2 ^ 64 := by decide
        have hs : ∀ w : σ, sliceTo i.buf d w = .panic := by
          intro w
          unfold sliceTo
          rw [if_neg (by omega)]
          rfl
        rw [hd, hu]
        show (sliceTo i.buf d >>= fun n => pure (b.ret (n, t))) w' = .panic
        rw [M.bind_apply, hs]
        rfl
    | _ => rfl
  | _ => rfl

/-- What can be assembled from the library is the same in both builds. With this the theorems about
`Built` are about release builds as well. -/
theorem C81_assembled (a : Allow) (p : Parser σ I T E) :
    @Built .release a σ I T E p ↔ Built a p :=
  ⟨Built.build _ _ (.inr fun h => Built.shrinks h), Built.build _ _ (.inl fun h => Built.shrinks h)⟩

/-- `matched_by` around something assembled from the library. -/
theorem C81_matched_by_assembled {a : Allow} {p : Parser σ I T E} (hp : Built a p) :
    @Comb.matchedBy .release σ I T E p = Comb.matchedBy p :=
  Comb.matchedBy_build _ _ (Built.shrinks hp)

/-- The parser of examples/http_parser.rs. -/
theorem C81_http (v : Bool) : @Http.request .release σ v = Http.request v := by
  unfold Http.request Http.requestLine Http.httpVersion Http.messageHeader
  rw [Parsers.string_build .release .debug, Comb.many_build .release .debug,
    Comb.many1_build .release .debug]

/-! ### Cases -/

/-- The two builds do subtract differently. -/
example : usub 2 3 = .panic ∧ @usub .release 2 3 = .ok (2 ^ 64 - 1) := ⟨rfl, rfl⟩

/-- A parser which leaves a longer slice. -/
example (w : Unit) : @Comb.matchedBy .release Unit Char Unit (Error Char)
    (fun i => pure (.data ⟨i.mode, ['a', 'b', 'c']⟩ ())) ⟨.default, ['x']⟩ w = .panic := by
  rw [C81_matched_by]
  · rfl
  · intro i w i' t w' h
    cases h
    show 3 ≤ usizeMax
    decide

/-- Two of the tokens of the release build's `count`. -/
example : @Bounded.manyWith .release Unit Char (List Char) Char (Error Char) (.exactly 2)
    (Collect.vec Char).driver (Parsers.token true 'a') ⟨.default, ['a', 'a', 'a']⟩ () =
      .ok (.data ⟨.default, ['a']⟩ ['a', 'a'], ()) := by
  rw [C81_many]
  exact (C25_count_ok 2 _ _ _ _ _ _).mpr
    ⟨rfl, .cons (i1 := ⟨.default, ['a', 'a']⟩) (w1 := ()) rfl (.cons (w1 := ()) rfl .nil)⟩

/-- A theorem about everything assembled from the library, for a release build. -/
example (i : Input Char) (w : Unit) :
    @Comb.matchedBy .release Unit Char (List Char) (Error Char)
      (@Parsers.take .release Unit Char 3) i w ≠ .panic :=
  C06_no_panic ((C81_assembled _ _).1
    (@Built.matchedBy .release _ _ _ _ _ _ (@Built.take .release _ _ _ 3 fun _ h => by cases h))) i w

end Chomp.Props
