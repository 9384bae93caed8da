import Verif.Lemmas.Twins
import Verif.Lemmas.Settles
import Verif.Model.Http
import Verif.Props.Slice

/-
C75: what errors say has no influence on parsing, in particular the feature `verbose_error` has none, with
one exception: `string` reports another position, and streams go on from there.
-/

namespace Chomp.Props

open Spec

/-- Parsers which differ in their errors only consume and yield the same, have the same effects, ask for
the same amounts, and fail, panic and hang on the same inputs. -/
theorem C75_alike {pos : Bool} {p : Parser σ I T E} {q : Parser σ I T E'} (h : Twins pos p q) :
    Alike pos p q := by
  induction h with
  | self p => exact Twins.refl p
  | alike h => exact h
  | ret t => exact fun i w => .ok _ _ _ (.data ..)
  | err e e' => exact fun i w => .ok _ _ _ (.error _ _ _ _ fun _ => rfl)
  | fromResult r r' h =>
    intro i w
    cases r <;> cases r' <;> cases h
    · exact .ok _ _ _ (.error _ _ _ _ fun _ => rfl)
    · exact .ok _ _ _ (.data ..)
  | bind conv conv' _ _ ihp ihf => exact Twins.parserBind conv conv' ihp ihf
  | andThen conv conv' _ _ ihp ihq => exact Twins.parserBind conv conv' ihp fun _ => ihq
  | map f _ ih =>
    intro i
    exact Twins.BothM.bind (ih i) fun _ _ h => Twins.resultMap h _
  | mapErr f f' _ ih =>
    intro i
    refine Twins.BothM.bind (ih i) ?_
    rintro _ _ (_ | _ | _)
    · exact .pure (.data ..)
    · exact .pure (.error _ _ _ _ (by assumption))
    · exact .pure (.incomplete _)
  | inspect f _ ih =>
    intro i
    exact Twins.BothM.bind (ih i) fun _ _ h => Twins.resultInspect h _
  | effect _ ih => exact fun i => Twins.BothM.seq _ fun a => ih a i
  | satisfy v v' f => exact Twins.satisfy v v' f
  | satisfyWith v v' f p =>
    intro i w
    rw [Parsers.satisfyWith_eq, Parsers.satisfyWith_eq]
    refine .ok _ _ _ ?_
    split
    · exact .incomplete _
    · split
      · exact .data ..
      · exact .error _ _ _ _ fun _ => rfl
  | token v v' t =>
    intro i w
    rw [Parsers.token_eq, Parsers.token_eq]
    refine .ok _ _ _ ?_
    split
    · exact .incomplete _
    · split
      · exact .data ..
      · exact .error _ _ _ _ fun _ => rfl
  | notToken v v' t =>
    intro i w
    rw [Parsers.notToken_eq, Parsers.notToken_eq]
    refine .ok _ _ _ ?_
    split
    · exact .incomplete _
    · split
      · exact .error _ _ _ _ fun _ => rfl
      · exact .data ..
  | takeWhile1 v v' f => exact Twins.takeWhile1 v v' f
  | string v v' s hv =>
    rintro ⟨m, b⟩ w
    rcases Parsers.string_cases s b with hl | ⟨r, rfl⟩ | ⟨x, a, c, s', r, rfl, rfl, hn, hl⟩
    · rw [Parsers.string_short w hl, Parsers.string_short w hl]
      exact .ok _ _ _ (.incomplete _)
    · rw [Parsers.string_match, Parsers.string_match]
      exact .ok _ _ _ (.data ..)
    · rw [Parsers.string_mismatch w hn hl, Parsers.string_mismatch w hn hl]
      exact .ok _ _ _ (.error _ _ _ _ fun h => by rw [hv h])
  | eof v v' =>
    intro i w
    rw [Parsers.eof_eq, Parsers.eof_eq]
    refine .ok _ _ _ ?_
    split
    · exact .data ..
    · exact .error _ _ _ _ fun _ => rfl
  | mapM f _ ih =>
    intro i
    exact Twins.BothM.bind (ih i) fun _ _ h => Twins.resultMap h _
  | mapErrM f f' hf _ ih =>
    intro i
    refine Twins.BothM.bind (ih i) ?_
    rintro _ _ (_ | ⟨b, e, b', e', hb⟩ | _)
    · exact .pure (.data ..)
    · exact Twins.BothM.bind (fun w => hf e e' w) fun _ _ _ => .pure (.error _ _ _ _ hb)
    · exact .pure (.incomplete _)
  | satisfyM v v' f =>
    rintro ⟨m, b⟩
    cases b with
    | nil => exact Twins.BothM.pure (.incomplete _)
    | cons c r =>
      refine Twins.BothM.seq (f c) fun x => ?_
      cases x
      · exact .pure (.error _ _ _ _ fun _ => rfl)
      · exact Twins.BothM.seq (sliceFrom (c :: r) 1) fun _ => .pure (.data ..)
  | satisfyWithM v v' f p =>
    rintro ⟨m, b⟩
    cases b with
    | nil => exact Twins.BothM.pure (.incomplete _)
    | cons c r =>
      refine Twins.BothM.seq (f c) fun t => Twins.BothM.seq (p t) fun x => ?_
      cases x
      · exact .pure (.error _ _ _ _ fun _ => rfl)
      · exact Twins.BothM.seq (sliceFrom (c :: r) 1) fun _ => .pure (.data ..)
  | tokenM eq v v' t =>
    rintro ⟨m, b⟩
    cases b with
    | nil => exact Twins.BothM.pure (.incomplete _)
    | cons c r =>
      refine Twins.BothM.seq (eq t c) fun x => ?_
      cases x
      · exact .pure (.error _ _ _ _ fun _ => rfl)
      · exact Twins.BothM.seq (sliceFrom (c :: r) 1) fun _ => .pure (.data ..)
  | notTokenM ne v v' t =>
    rintro ⟨m, b⟩
    cases b with
    | nil => exact Twins.BothM.pure (.incomplete _)
    | cons c r =>
      refine Twins.BothM.seq (ne t c) fun x => ?_
      cases x
      · exact .pure (.error _ _ _ _ fun _ => rfl)
      · exact Twins.BothM.seq (sliceFrom (c :: r) 1) fun _ => .pure (.data ..)
  | takeWhile1M v v' f =>
    intro i
    refine Twins.BothM.seq (Closures.position _ i.buf) fun x => ?_
    cases x with
    | none => exact Twins.refl (fun i => _) i
    | some n =>
      cases n with
      | zero => exact .pure (.error _ _ _ _ fun _ => rfl)
      | succ n => exact Twins.refl (fun i => _) i
  | stringM ne v v' s hv =>
    intro i w
    rcases Closures.string_both ne s i w with ⟨r, w', h⟩ | ⟨b, w', h⟩ | ⟨x, h⟩
    · rw [h, h]
      refine .ok _ _ _ ?_
      cases r
      · exact .data ..
      · exact .error _ _ _ _ fun _ => rfl
      · exact .incomplete _
    · rw [h, h]
      refine .ok _ _ _ ?_
      cases v <;> cases v' <;> exact .error _ _ _ _ fun h => by first | rfl | cases hv h
    · rw [h, h]
      cases x
      · exact .panic
      · exact .ub
      · exact .div
  | option t _ ih => exact Twins.option t ih
  | or _ _ ihp ihq => exact Twins.or ihp ihq
  | count n c _ ih => exact Twins.manyWith (.exactly n) (Twins.uniform_collect c) ih
  | many c _ ih => exact Twins.manyWith .full (Twins.uniform_collect c) ih
  | many1 c _ ih => exact Twins.manyWith (.from_ 1) (Twins.uniform_collect c) ih
  | sepBy conv conv' c _ _ ihp ihs =>
    exact fun i => Twins.newLocal _ <|
      Twins.manyWith .full (Twins.uniform_collect c) (Twins.sepParser conv conv' ihp ihs) i
  | sepBy1 conv conv' c _ _ ihp ihs =>
    exact fun i => Twins.newLocal _ <|
      Twins.manyWith (.from_ 1) (Twins.uniform_collect c) (Twins.sepParser conv conv' ihp ihs) i
  | manyTill c _ _ ihp ihe => exact Twins.manyTillWith .full (Twins.uniform_collect c) ihp ihe
  | skipMany _ ih => exact Twins.skipMany _ ih
  | skipMany1 _ ih => exact Twins.skipMany _ ih
  | matchedBy _ ih => exact Twins.matchedBy ih
  | lookAhead _ ih => exact Twins.lookAhead ih
  | boundedMany r c _ ih => exact Twins.manyWith r (Twins.uniform_collect c) ih
  | boundedManyConsumer r c _ ih => exact Twins.manyWith r (Twins.uniform_consumer c) ih
  | boundedManyVec r m n _ ih => exact Twins.manyWith r (Twins.uniform_vec m n) ih
  | boundedSkipMany r _ ih => exact Twins.skipMany r ih
  | boundedManyTill r c _ _ ihp ihe => exact Twins.manyTillWith r (Twins.uniform_collect c) ihp ihe
  | boundedManyTillConsumer r c _ _ ihp ihe =>
    exact Twins.manyTillWith r (Twins.uniform_consumer c) ihp ihe
  | boundedManyTillVec r m n _ _ ihp ihe => exact Twins.manyTillWith r (Twins.uniform_vec m n) ihp ihe
  | digit v v' => exact Twins.satisfy v v' _
  | decimal v v' N => exact Twins.parserBind id id (Twins.takeWhile1 v v' _) fun t => Twins.refl _
  | signed v v' N _ ih =>
    intro i
    refine Twins.BothM.bind (R := SameButErrors pos) (Twins.option _ ?_ i) ?_
    · intro i
      exact Twins.BothM.bind (Twins.satisfy v v' _ i) fun _ _ h => Twins.resultMap h _
    · intro r r' h
      refine Twins.resultBind h id id fun i t => ?_
      exact Twins.BothM.bind (R := SameButErrors pos) (ih i) fun _ _ h => Twins.resultMap h _

/-- `parse_only` with parsers which differ in their errors only: the same value, or an error in both
cases. -/
theorem C75_parse_only {pos : Bool} {p : Parser σ I T E} {q : Parser σ I T E'} (h : Twins pos p q)
    (b : List I) (w : σ) : Both (SameOutcome pos) (parseOnly p b w) (parseOnly q b w) := by
  refine Twins.BothM.bind (R := SameButErrors pos) (C75_alike h _) ?_ w
  rintro _ _ (_ | _ | _)
  · exact .pure (.ok _)
  · exact .pure (.error _ _ _ _ (by assumption))
  · exact .pure (.incomplete _)

/-- A `Source` used with parsers which differ in the values of errors only: the same answers, and the
source is left in the same state, whatever the buffer and the underlying source. -/
theorem C75_source {S B : Type} [DataSource S I] [Buffer B I] {p : Parser σ I T E}
    {q : Parser σ I T E'} (h : Twins true p q) (chk : Bool) (s : Source S B) (w : σ) :
    Both SameReply (s.parse chk p w) (s.parse chk q w) := by
  revert w
  unfold Source.parse
  dsimp only
  split <;>
  · refine Twins.BothM.seq _ ?_
    rintro ⟨r, s⟩
    cases r with
    | error e => exact .pure (.ioError ..)
    | ok n =>
      refine .seq _ fun em => ?_
      split
      · exact .pure (.endOfInput _)
      · refine .seq _ fun b => ?_
        refine Twins.BothM.bind (R := SameButErrors true) (C75_alike h _) ?_
        rintro _ _ (_ | ⟨b, e, b', e', hb⟩ | _)
        · exact .seq _ fun _ => .seq _ fun _ => .seq _ fun _ => .pure (.ok ..)
        · cases hb rfl
          exact .seq _ fun _ => .seq _ fun _ => .seq _ fun _ => .pure (.parseError ..)
        · refine .seq _ fun _ => .seq _ fun _ => ?_
          dsimp only
          split
          · exact .pure (.incomplete ..)
          · exact .pure (.retry _)

/-- The same for a `SliceStream`. -/
theorem C75_slice {p : Parser σ I T E} {q : Parser σ I T E'} (h : Twins true p q) (chk : Bool)
    (s : SliceStream I) (w : σ) : Both SameReply (s.parse chk p w) (s.parse chk q w) := by
  revert w
  refine Twins.BothM.seq _ fun em => ?_
  split
  · exact .pure (.endOfInput _)
  · refine .seq _ fun b => ?_
    refine Twins.BothM.bind (R := SameButErrors true) (C75_alike h _) ?_
    rintro _ _ (_ | ⟨b, e, b', e', hb⟩ | _)
    · exact .seq _ fun _ => .seq _ fun _ => .seq _ fun _ => .pure (.ok ..)
    · cases hb rfl
      exact .seq _ fun _ => .seq _ fun _ => .seq _ fun _ => .pure (.parseError ..)
    · exact .seq _ fun _ => .seq _ fun _ => .pure (.incomplete ..)

/-- The exception: after `string` has failed, a stream goes on where the input differs from the string, but
at the beginning of the string if `verbose_error` is on. -/
theorem C75_resume [DecidableEq I] (chk v : Bool) (s : SliceStream I) (h : ValidSlice s)
    (x t r : List I) (a c : I) (hs : unread s = x ++ c :: r) (hn : a ≠ c) (hl : t.length ≤ r.length)
    (w : σ) : ∃ e s', s.parse chk (Parsers.string v (x ++ a :: t)) w =
      .ok ((.error (.parseError (unread s') e), s'), w) ∧
      unread s' = if v then x ++ c :: r else c :: r := by
  have hr := Parsers.string_mismatch (v := v) (m := .endOfInput) w hn hl (x := x)
  rw [← hs] at hr
  obtain ⟨s', h1, _, _, h2⟩ := C42_error chk _ (.string v _ (by rintro K ⟨⟩)) s h
    (by rw [hs]; simp) w _ _ _ hr
  rw [← h2] at h1
  exact ⟨_, s', h1, by rw [h2, hs]⟩

namespace TwinsExample

/-- The parser of the example `http_parser.rs`, compiled with and without `verbose_error`. -/
theorem request : Twins false (Http.request (σ := σ) true) (Http.request false) := by
  have eol : Twins false (Http.endOfLine (σ := σ) true) (Http.endOfLine false) :=
    .or (.andThen _ _ (.token ..) (.andThen _ _ (.token ..) (.ret _))) (.token ..)
  have line : Twins false (Http.requestLine (σ := σ) true) (Http.requestLine false) :=
    .bind _ _ (.takeWhile1 ..) fun _ => .andThen _ _ (.takeWhile1 ..) <|
      .bind _ _ (.takeWhile1 ..) fun _ => .andThen _ _ (.takeWhile1 ..) <|
      .bind _ _ (.andThen _ _ (.string _ _ _ nofun) (.takeWhile1 ..)) fun _ => .ret _
  have headerLine : Twins false (Http.messageHeaderLine (σ := σ) true) (Http.messageHeaderLine false) :=
    .andThen _ _ (.takeWhile1 ..) <| .bind _ _ (.self _) fun _ => .andThen _ _ eol (.ret _)
  have header : Twins false (Http.messageHeader (σ := σ) true) (Http.messageHeader false) :=
    .bind _ _ (.takeWhile1 ..) fun _ => .andThen _ _ (.token ..) <|
      .bind _ _ (.many1 _ headerLine) fun _ => .ret _
  exact .bind _ _ line fun _ => .andThen _ _ eol <| .bind _ _ (.many _ header) fun _ =>
    .andThen _ _ eol (.ret _)

/-- `end_of_line` of the example has no `string`: the positions of errors are the same, too. -/
theorem endOfLine : Twins true (Http.endOfLine (σ := σ) true) (Http.endOfLine false) :=
  .or (.andThen _ _ (.token ..) (.andThen _ _ (.token ..) (.ret _))) (.token ..)

/-- A list of numbers with errors of another type. -/
example : Alike (σ := Unit) true
    (Comb.sepBy1 id (Collect.vec Int) (Ascii.decimal true (Ascii.IntTy.num ⟨8, false, true⟩))
      (Parsers.token true 44))
    (Comb.sepBy1 (fun _ => "no comma") (Collect.vec Int)
      ((Ascii.decimal false (Ascii.IntTy.num ⟨8, false, true⟩)).mapErr fun _ => "no number")
      (Parsers.token false 44)) :=
  C75_alike (.sepBy1 _ _ _ (show Twins true (Ascii.decimal true _) _ from by
    have := Twins.mapErr (pos := true) (σ := Unit) (fun e : Error UInt8 => e)
      (fun _ : Error UInt8 => "no number") (.decimal true false (Ascii.IntTy.num ⟨8, false, true⟩))
    have e : Parser.mapErr (σ := Unit) (Ascii.decimal true (Ascii.IntTy.num ⟨8, false, true⟩))
        (fun e => e) = Ascii.decimal true (Ascii.IntTy.num ⟨8, false, true⟩) := by
      funext i w
      unfold Parser.mapErr
      rw [M.bind_apply]
      match Ascii.decimal true (Ascii.IntTy.num ⟨8, false, true⟩) i w with
      | .ok (.data i t, w) => rfl
      | .ok (.error b e, w) => rfl
      | .ok (.incomplete n, w) => rfl
      | .panic => rfl
      | .ub => rfl
      | .div => rfl
    rwa [e] at this) (.token ..))

/-- `HTXP`, `string(b"HTTP")` fails. -/
example (v : Bool) : ∃ e s', (SliceStream.new [72, 84, 88, 80]).parse true
    (Parsers.string v ([72, 84, 84, 80] : List UInt8)) () =
      .ok ((.error (.parseError (unread s') e), s'), ()) ∧
      unread s' = if v then [72, 84, 88, 80] else [88, 80] :=
  C75_resume true v _ ⟨Nat.zero_le _, by decide⟩ [72, 84] [80] [80] 84 88 rfl (by decide)
    (Nat.le_refl _) ()

end TwinsExample

/-- The parser of the example `http_parser.rs` accepts the same requests, asks for the same amounts of
input and rejects the same inputs with and without `verbose_error`. -/
theorem C75_http : Alike false (Http.request (σ := σ) true) (Http.request false) :=
  C75_alike TwinsExample.request

end Chomp.Props
