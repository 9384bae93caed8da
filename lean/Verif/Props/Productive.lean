import Verif.Lemmas.Productive
import Verif.Props.Repeat
import Verif.Props.Retry

/-
C69: a check on the text of a parser which shows that it terminates. `Spec.Productive`
(Verif/Spec/Productive.lean) is the check: it looks at the parts of the parser, never at an input.
-/

namespace Chomp.Props

open Spec

/-- A parser which passes the check returns on every slice, in both modes. -/
theorem C69_returns {c : Bool} {p : Parser σ I T E} (hp : Productive c p) (i : Input I) (w : σ) :
    p i w ≠ .div :=
  (Productive.sound hp).2 i w

/-- It does not leave its slice, or otherwise do what is undefined. -/
theorem C69_defined {c : Bool} {p : Parser σ I T E} (hp : Productive c p) (i : Input I) (w : σ) :
    p i w ≠ .ub := by
  intro h
  have := (Productive.sound hp).1 i w
  rw [h] at this
  cases this

/-- If it is marked as consuming, every success consumes. -/
theorem C69_consumes {p : Parser σ I T E} (hp : Productive true p) (i i' : Input I) (t : T) (w w' : σ)
    (h : p i w = .ok (.data i' t, w')) : i'.buf.length < i.buf.length :=
  (Productive.sound hp).1.consumes i w i' t w' h

/-- In particular it does not succeed on an empty slice. -/
theorem C69_empty {p : Parser σ I T E} (hp : Productive true p) (m : Mode) (i' : Input I) (t : T)
    (w w' : σ) : p ⟨m, []⟩ w ≠ .ok (.data i' t, w') := by
  intro h
  exact absurd (C69_consumes hp _ _ _ _ _ h) (Nat.not_lt_zero _)

/-- `Incomplete` asks for something. -/
theorem C69_positive {c : Bool} {p : Parser σ I T E} (hp : Productive c p) (i : Input I) (w w' : σ)
    (n : Nat) (h : p i w = .ok (.incomplete n, w')) : 1 ≤ n := by
  have := (Productive.sound hp).1 i w
  rw [h] at this
  exact this

/-- If it also cannot panic, it has a result. -/
theorem C69_total {c : Bool} {p : Parser σ I T E} (hp : Productive c p) (hb : Built panicFree p)
    (i : Input I) (w : σ) : ∃ r w', p i w = .ok (r, w') := by
  match h : p i w with
  | .ok (r, w') => exact ⟨r, w', rfl⟩
  | .panic => exact absurd h (C06_no_panic hb i w)
  | .ub => exact absurd h (C69_defined hp i w)
  | .div => exact absurd h (C69_returns hp i w)

/-- `parse_only` returns. -/
theorem C69_parse_only {c : Bool} {p : Parser σ I T E} (hp : Productive c p) (b : List I) (w : σ) :
    parseOnly p b w ≠ .div := by
  rw [C10_parse_only]
  exact Productive.ne_div_bind (C69_returns hp _ w) fun _ _ => nofun

/-- So does the retry loop over a `Source`, whatever the source delivers when, if the parser is
assembled from the library, the stream ends, and requests do not overflow. -/
theorem C69_retry {S B I : Type} [DataSource S I] [HonestSource S I] [Buffer B I] [LawfulBuffer B I]
    {rem : S → List I} {errs : S → Nat} (hd : Delivers S rem errs) (chk : Bool) {c : Bool}
    {p : Parser σ I T E} (hp : Productive c p) (K : Nat) (hb : Built ⟨true, true, some K⟩ p)
    (s : Source S B) (h : Usable s) (ha : s.state.automaticFill = true)
    (hl : (ahead rem s).length + max 1 K ≤ usizeMax) (w : σ) : retry chk p s w ≠ .div := by
  refine C53_terminates hd chk hb.anything (fun i w => C69_returns hp i w) s h ha ?_ w
  intro x y w n w' hx hn
  refine ⟨C69_positive hp _ _ _ _ hn, ?_⟩
  have := C66_request rfl hb _ _ _ _ hn
  rw [hx, List.length_append] at hl
  omega

namespace ProductiveEx

/-- The lines of C05: the check goes through the parts, once each. -/
theorem line : Productive true exampleLine :=
  .bind (a := true) (b := false) (.takeWhile1 _ _) fun _ => .weaken <|
    .andThen (a := false) (b := true) .skipWhitespace <|
    .bind (a := false) (b := true) (.sepBy _ _ (.inl rfl) (.signed _ _ (by
        constructor <;> intro a b <;> simp only [Ascii.IntTy.num, Ascii.IntTy.norm] <;> split <;> simp)
      (.decimal _ _ (by
        constructor <;> intro a b <;> simp only [Ascii.IntTy.num, Ascii.IntTy.norm] <;> split <;> simp)))
      (.token _ _)) fun _ =>
    .andThen (a := true) (b := false) (.skipMany1 (.token _ _)) (.ret _)

/-- Any number of lines, up to a line which begins with an `X`. -/
def lines : Parser Unit UInt8 (List (List UInt8 × List Int)) (Error UInt8) :=
  Comb.manyTill (Collect.vec _) exampleLine (Parsers.token true (88 : UInt8))

theorem lines_productive : Productive true lines := .manyTill _ line (.token _ _)

example (i : Input UInt8) : lines i () ≠ .div := C69_returns lines_productive i ()

example (i : Input UInt8) : ∃ r, lines i () = .ok (r, ()) := by
  obtain ⟨r, _, h⟩ := C69_total (σ := Unit) lines_productive
    (.manyTill _ (fun h => nomatch h) (exampleLine_built _) (.token _ _)) i ()
  exact ⟨r, h⟩

example (i i' : Input UInt8) (t) (h : lines i () = .ok (.data i' t, ())) :
    i'.buf.length < i.buf.length := C69_consumes lines_productive i i' t () () h

example (m : Mode) (i') (t) : lines ⟨m, []⟩ () ≠ .ok (.data i' t, ()) :=
  C69_empty lines_productive m i' t () ()

example (b : List UInt8) : parseOnly lines b () ≠ .div := C69_parse_only lines_productive b ()

/-- Runs which meet the hypotheses. -/
example : Comb.lookAhead (Parsers.string true ['a', 'b']) ⟨.default, ['a']⟩ () =
    .ok ((.incomplete 1 : ParseResult Char (List Char) (Error Char)), ()) := by rfl

example : 1 ≤ 1 :=
  C69_positive (p := Comb.lookAhead (Parsers.string true ['a', 'b'])) (.lookAhead (.string _ _))
    ⟨.default, ['a']⟩ () () 1 (by rfl)

example : 1 < 3 :=
  C69_consumes (p := Comb.or (Parsers.string true ['a', 'b']) (Parsers.take 2))
    (.or (a := true) (b := true) (.string true ['a', 'b']) (.take 2)) ⟨.default, ['x', 'y', 'z']⟩ ⟨.default, ['z']⟩
    ['x', 'y'] () () (by rfl)

/-- Repeating what may succeed without consuming is rejected, and rightly so: this one does not
return on an empty slice. -/
example : Comb.many (Collect.vec _) (Parsers.takeWhile (σ := Unit) (fun c : Char => c == ' '))
    ⟨.default, ['x']⟩ () = .div :=
  (C30_non_consuming 0 _ ⟨.default, ['x']⟩ () [] rfl).1

end ProductiveEx

end Chomp.Props
