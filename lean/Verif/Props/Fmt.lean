import Verif.Lemmas.Fmt
import Verif.Lemmas.Basic

/-
C95: messages tell what happened (src/parsers.rs:437-459, 510-521, src/parse_result.rs:295-382, and the derived
`Debug` of `Error`, `ParseError` and `StreamError`).
-/

namespace Chomp.Props
open Chomp.Fmt Chomp.Spec

/-- What is printed tells the value. -/
theorem C95_readable {d : A → Text} (hd : Readable d) (a b : A) : d a = d b ↔ a = b :=
  ⟨readable_inj hd, congrArg d⟩

/-- Integers are readable, in particular bytes. -/
theorem C95_integers : Readable number := number_readable

/-- Slices of what is readable are. -/
theorem C95_slices {d : I → Text} (hd : Readable d) : Readable (slice d) := slice_readable hd

/-- `Debug` of `Error`. -/
theorem C95_debug {d : I → Text} (hd : Readable d) (ph : Text) : Readable (debug ph d) := debug_readable hd ph

/-- `Debug` of `ParseError`. -/
theorem C95_parse_error {d : I → Text} (hd : Readable d) {de : E → Text} (he : Readable de) :
    Readable (parseError d de) := parseError_readable hd he

/-- `Debug` of `StreamError`. -/
theorem C95_stream_error {d : I → Text} (hd : Readable d) {de : E → Text} (he : Readable de)
    {dio : IoError → Text} (hio : Readable dio) : Readable (streamError d de dio) :=
  streamError_readable hd he hio

/-- `Display` of `Error` tells the error, if no item prints like a slice. -/
theorem C95_display {d : I → Text} (hd : Readable d) (hs : ∀ c x, d c ≠ '[' :: x) (e f : Error I) :
    display d e = display d f ↔ e = f := by
  refine ⟨fun h => ?_, congrArg _⟩
  cases e <;> cases f <;> simp [display] at h
  case expected.expected => rw [readable_inj hd h]
  case expected.string => exact absurd h (hs _ _)
  case unexpected.unexpected => rfl
  case string.expected => exact absurd h.symm (hs _ _)
  case string.string => rw [readable_inj (slice_readable hd) h]
  case generic.generic => rfl

/-- Otherwise it need not. -/
theorem C95_display_slices : ∃ e f : Error (List Nat), e ≠ f ∧
    display (slice number) e = display (slice number) f :=
  ⟨.expected [], .string [], nofun, rfl⟩

/-- With the feature `verbose_error` the errors the crate makes name what was wanted, in both ways of printing.
Without it they all read the same. -/
theorem C95_verbose {d : I → Text} (hd : Readable d) (ph : Text) (v : Bool) (c c' : I) :
    (display d (Err.expected v c) = display d (Err.expected v c') ↔ v = false ∨ c = c') ∧
    (debug ph d (Err.expected v c) = debug ph d (Err.expected v c') ↔ v = false ∨ c = c') ∧
    (display d (Err.expected v c) = display d (Err.unexpected v) ↔ v = false) ∧
    (debug ph d (Err.expected v c) = debug ph d (Err.unexpected v) ↔ v = false) := by
  cases v
  · simp [Err.expected, Err.unexpected]
  · refine ⟨?_, ?_, ?_, ?_⟩ <;> simp [Err.expected, Err.unexpected, display, debug]
    · exact C95_readable hd c c'
    · exact C95_readable hd c c'

/-- `description` tells the kind of the error, and no more. -/
theorem C95_description (e f : Error I) : description e = description f ↔
    e = f ∨ (∃ c d, e = .expected c ∧ f = .expected d) ∨ ∃ s t, e = .string s ∧ f = .string t := by
  cases e <;> cases f <;> simp [description]

/-- The functions panic exactly as in `C04_unwrap`; here with a message. -/
theorem C95_panics (de : E → Text) (dt : T → Text) (msg : Text) (r : ParseResult I T E) (w : σ) :
    (∀ t, r.unwrap w = .ok (t, w) ↔ Fmt.unwrap de r = .ok t) ∧
    (r.unwrap w = .panic ↔ ∃ m, Fmt.unwrap de r = .error m) ∧
    (∀ t, r.expect w = .ok (t, w) ↔ Fmt.expect de msg r = .ok t) ∧
    (r.expect w = .panic ↔ ∃ m, Fmt.expect de msg r = .error m) ∧
    (∀ e, r.unwrapErr w = .ok (e, w) ↔ Fmt.unwrapErr dt r = .ok e) ∧
    (r.unwrapErr w = .panic ↔ ∃ m, Fmt.unwrapErr dt r = .error m) := by
  cases r <;> simp [ParseResult.unwrap, ParseResult.expect, ParseResult.unwrapErr, Fmt.unwrap, Fmt.expect,
    Fmt.unwrapErr, M.panic, pure, StateT.pure]

/-- The message of `unwrap` tells whether there was an error or input was missing, which error, and how much
was asked for. -/
theorem C95_unwrap {de : E → Text} (he : ∀ e f, de e = de f → e = f) (r r' : ParseResult I T E) (m : Text)
    (h : Fmt.unwrap de r = .error m) (h' : Fmt.unwrap de r' = .error m) :
    (∃ b b' e, r = .error b e ∧ r' = .error b' e) ∨ ∃ n, r = .incomplete n ∧ r' = .incomplete n := by
  cases r <;> simp [Fmt.unwrap] at h <;> subst h <;> cases r' <;> simp [Fmt.unwrap] at h'
  · rw [he _ _ h']; exact Or.inl ⟨_, _, _, rfl, rfl⟩
  · rw [number_inj h']; exact Or.inr ⟨_, rfl, rfl⟩

/-- The message of `unwrap_err` tells the value, or how much was asked for. -/
theorem C95_unwrap_err {dt : T → Text} (ht : ∀ t u, dt t = dt u → t = u) (r r' : ParseResult I T E) (m : Text)
    (h : Fmt.unwrapErr dt r = .error m) (h' : Fmt.unwrapErr dt r' = .error m) :
    (∃ i i' t, r = .data i t ∧ r' = .data i' t) ∨ ∃ n, r = .incomplete n ∧ r' = .incomplete n := by
  cases r <;> simp [Fmt.unwrapErr] at h <;> subst h <;> cases r' <;> simp [Fmt.unwrapErr] at h'
  · rw [ht _ _ h']; exact Or.inl ⟨_, _, _, rfl, rfl⟩
  · rw [number_inj h']; exact Or.inr ⟨_, rfl, rfl⟩

/-- The message of `expect` tells the error, unless the error prints as "Parser in an incomplete state". It
begins with the given text. -/
theorem C95_expect {de : E → Text} (he : ∀ e f, de e = de f → e = f)
    (hp : ∀ e, de e ≠ text!"Parser in an incomplete state") (msg : Text) (r r' : ParseResult I T E) (m : Text)
    (h : Fmt.expect de msg r = .error m) (h' : Fmt.expect de msg r' = .error m) :
    msg <+: m ∧
    ((∃ b b' e, r = .error b e ∧ r' = .error b' e) ∨ ∃ n n', r = .incomplete n ∧ r' = .incomplete n') := by
  cases r <;> simp [Fmt.expect] at h <;> subst h <;> cases r' <;> simp [Fmt.expect] at h'
  · rw [he _ _ h']; exact ⟨List.prefix_append _ _, Or.inl ⟨_, _, _, rfl, rfl⟩⟩
  · exact absurd h'.symm (hp _)
  · exact absurd h' (hp _)
  · exact ⟨List.prefix_append _ _, Or.inr ⟨_, _, rfl, rfl⟩⟩

/-- It does not tell how much was asked for. -/
theorem C95_expect_incomplete (de : E → Text) (msg : Text) (m n : Nat) :
    Fmt.expect de msg (.incomplete m : ParseResult I T E) =
      Fmt.expect de msg (.incomplete n : ParseResult I T E) := rfl

/-- The errors of the crate meet the hypotheses of `C95_unwrap` and `C95_expect`. -/
theorem C95_errors {d : I → Text} (hd : Readable d) (ph : Text) :
    (∀ e f, debug ph d e = debug ph d f → e = f) ∧ ∀ e, debug ph d e ≠ text!"Parser in an incomplete state" :=
  ⟨fun _ _ => readable_inj (debug_readable hd ph), fun e => by cases e <;> simp [debug]⟩

/-- `token(i, t).unwrap()` with another item in front: the message ends in the item wanted. -/
theorem C95_token [DecidableEq I] [Build] (ph : Text) (d : I → Text) (m : Mode) (t c : I) (s : List I)
    (h : t ≠ c) (w : σ) : ∃ r, Parsers.token true t ⟨m, c :: s⟩ w = .ok (r, w) ∧
      Fmt.unwrap (debug ph d) r =
        .error (text!"called `ParseResult::unwrap` on an error: Expected(" ++ d t ++ [')']) := by
  refine ⟨.error (c :: s) (.expected t), ?_, ?_⟩
  · simp [Parsers.token, h, Input.err, Err.expected, pure, StateT.pure]
  · simp [Fmt.unwrap, debug]

/-- `take(i, n).unwrap()` with too little input: the message tells how much is missing. -/
theorem C95_take [Build] (de : Error I → Text) (m : Mode) (n : Nat) (s : List I) (h : s.length < n) (w : σ) :
    ∃ r, Parsers.take n ⟨m, s⟩ w = .ok (r, w) ∧
      Fmt.unwrap de r = .error (text!"called `ParseResult::unwrap` on an incomplete state (requested " ++
        number (n - s.length) ++ text!" tokens)") := by
  refine ⟨.incomplete (n - s.length), ?_, rfl⟩
  have : ¬ n ≤ s.length := by omega
  simp [Parsers.take, this, usub, Nat.le_of_lt h, Input.incomplete, pure, StateT.pure, bind, StateT.bind, M.lift,
    Res.bind]

namespace FmtExample

/-- `PhantomData` of recent versions of the standard library. -/
def phantom : Text := text!"PhantomData<u8>"

/-- The documentation of `unwrap`, but for a space it has after `Expected`. -/
example : ∃ r, Parsers.token true 98 ⟨.default, [97]⟩ () = .ok (r, ()) ∧ Fmt.unwrap (debug phantom number) r =
    .error (text!"called `ParseResult::unwrap` on an error: Expected(98)") :=
  C95_token phantom number .default 98 97 [] (by decide) ()

example : ∃ r, Parsers.take 2 ⟨.default, [97]⟩ () = .ok (r, ()) ∧ Fmt.unwrap (debug phantom number) r =
    .error (text!"called `ParseResult::unwrap` on an incomplete state (requested 1 tokens)") :=
  C95_take (debug phantom number) .default 2 [97] (by decide) ()

/-- The documentation of `expect`. -/
example : Fmt.expect (debug phantom number) (text!"Wanted character b")
    (.error [97] (.expected 98) : ParseResult Nat Nat (Error Nat)) =
    .error (text!"Wanted character b: Expected(98)") := rfl

/-- The documentation of `unwrap_err`. -/
example : Fmt.unwrapErr number (.data ⟨.default, []⟩ 97 : ParseResult Nat Nat (Error Nat)) =
    .error (text!"called `ParseResult::unwrap_err` on a success state: 97") := rfl

example : display number (.string [102, 111]) = text!"expected [102, 111]" ∧
    display number (.expected 7) = text!"expected 7" ∧ display number .unexpected = text!"unexpected" := ⟨rfl, rfl, rfl⟩

/-- Different errors, different texts: at two levels. -/
example : Readable (parseError number (debug phantom number)) :=
  C95_parse_error C95_integers (C95_debug C95_integers _)

example : parseError number (debug phantom number) (.error [1, 10] (.string [2])) =
    text!"Error([1, 10], String([2]))" := rfl

example : streamError number (debug phantom number) (fun _ => text!"timed out") (.parseError [] (.expected 3)) =
    text!"ParseError([], Expected(3))" := rfl

end FmtExample

end Chomp.Props
