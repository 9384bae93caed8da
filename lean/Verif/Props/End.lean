import Verif.Spec.End
import Verif.Props.Retry
import Verif.Props.Limited
import Verif.Lemmas.Derived

/-
C87: what follows the end of the input. The end is remembered, whether it was one or not: `parse` does
not look again, and only `fill` and `reset` make it forget.
-/

set_option linter.unusedSectionVars false

namespace Chomp.Props

open Spec

section
variable {S B I : Type} [DataSource S I] [Buffer B I]

theorem fillRequested_state (chk : Bool) (k : Nat) (s s' : Source S B) (r : Except IoError Nat)
    (h : s.fillRequested chk k = .ok (r, s')) : s'.state = s.state := by
  unfold Source.fillRequested at h
  simp only [Res.bind_eq_ok] at h
  obtain ⟨l, _, h⟩ := h
  split at h
  · simp only [Res.bind_eq_ok] at h
    obtain ⟨_, _, _, _, ⟨⟨_, _, _⟩, _⟩, _, h⟩ := h
    cases h
    rfl
  · cases h; rfl

/-- A call of `parse` on a source which has ended does not read, and changes no flags. -/
theorem parse_ended (chk : Bool) (p : Parser σ I T E) (s s' : Source S B) (he : Ended s) (w w' : σ)
    (r : Except (StreamError I E) T) (hr : s.parse chk p w = .ok ((r, s'), w')) :
    s'.source = s.source ∧ s'.state = s.state := by
  obtain ⟨h1, h2⟩ := he
  rw [Source.parse_eq, if_neg (by simp [h2])] at hr
  replace hr : s.attempt chk p w = _ := hr
  unfold Source.attempt at hr
  rw [M.bind_eq_ok] at hr
  obtain ⟨c, w1, _, hr⟩ := hr
  split at hr
  · cases hr; exact ⟨rfl, rfl⟩
  · rw [M.bind_eq_ok] at hr
    obtain ⟨b, w2, _, hr⟩ := hr
    rw [M.bind_eq_ok] at hr
    obtain ⟨x, w3, _, hr⟩ := hr
    cases x with
    | data i t =>
      dsimp only at hr
      simp only [M.bind_eq_ok] at hr
      obtain ⟨_, _, _, _, _, _, _, _, _, hr⟩ := hr
      cases hr; exact ⟨rfl, rfl⟩
    | error i t =>
      dsimp only at hr
      simp only [M.bind_eq_ok] at hr
      obtain ⟨_, _, _, _, _, _, _, _, _, hr⟩ := hr
      cases hr; exact ⟨rfl, rfl⟩
    | incomplete n =>
      dsimp only at hr
      rw [M.bind_eq_ok] at hr
      obtain ⟨_, w4, _, hr⟩ := hr
      rw [M.bind_eq_ok] at hr
      obtain ⟨_, w5, _, hr⟩ := hr
      split at hr
      · cases hr; exact ⟨rfl, rfl⟩
      · rename_i hn
        exact absurd h1 hn

/-- Once a source has ended, no call of `parse` reads from the data source again, whatever there is to
be read. -/
theorem C87_no_read (chk : Bool) (s s' : Source S B) (he : Ended s) (w w' : σ)
    (hc : ParseCalls chk s w s' w') : s'.source = s.source ∧ s'.state = s.state := by
  induction hc with
  | done => exact ⟨rfl, rfl⟩
  | step p hr _ ih =>
    obtain ⟨h1, h2⟩ := parse_ended chk p _ _ he _ _ _ hr
    obtain ⟨k1, k2⟩ := ih (by unfold Ended; rw [h2]; exact he)
    exact ⟨k1.trans h1, k2.trans h2⟩

/-- `read`, `fill_buf` and `consume` do read, or make room, but the source stays ended. -/
theorem C87_stays (chk : Bool) (s s' : Source S B) (he : Ended s) (w w' : σ)
    (hc : WithoutFill chk s w s' w') : Ended s' := by
  induction hc with
  | done => exact he
  | parse p hr _ ih =>
    exact ih (by unfold Ended; rw [(parse_ended chk p _ _ he _ _ _ hr).2]; exact he)
  | @read s s1 _ _ _ k r hr _ ih =>
    have : s1.state = s.state := by
      have key : ∀ (x : Except IoError Nat) (t : Source S B), t.state = s.state →
          (match x with
            | .error e => .ok (.error e, t)
            | .ok _ => do
              let data ← Buffer.deref t.buffer
              let b ← Buffer.consume chk (min k data.length) t.buffer
              .ok (.ok (data.take (min k data.length)), { t with buffer := b }) :
            Res (Except IoError (List I) × Source S B)) = .ok (r, s1) → s1.state = s.state := by
        intro x t ht h2
        cases x with
        | error e => cases h2; exact ht
        | ok n =>
          dsimp only at h2
          simp only [Res.bind_eq_ok] at h2
          obtain ⟨_, _, _, _, h2⟩ := h2
          cases h2; exact ht
      unfold Source.read at hr
      rw [Res.bind_eq_ok] at hr
      obtain ⟨l, _, hr⟩ := hr
      split at hr
      · rw [Res.bind_eq_ok] at hr
        obtain ⟨⟨x, t⟩, h1, h2⟩ := hr
        exact key x t (fillRequested_state chk k _ _ _ h1) h2
      · exact key (.ok 0) s rfl hr
    exact ih (by unfold Ended; rw [this]; exact he)
  | @fillBuf s s1 _ _ _ r hr _ ih =>
    have : s1.state = s.state := by
      unfold Source.fillBuf at hr
      simp only [Res.bind_eq_ok] at hr
      obtain ⟨⟨x, t⟩, h1, h2⟩ := hr
      have ht : t.state = s.state := fillRequested_state chk _ _ _ _ h1
      cases x with
      | error e => cases h2; exact ht
      | ok n =>
        dsimp only at h2
        simp only [Res.bind_eq_ok] at h2
        obtain ⟨_, _, h2⟩ := h2
        cases h2; exact ht
    exact ih (by unfold Ended; rw [this]; exact he)
  | @consume s s1 _ _ _ k hr _ ih =>
    have : s1.state = s.state := by
      unfold Source.consume at hr
      simp only [Res.bind_eq_ok] at hr
      obtain ⟨_, _, hr⟩ := hr
      cases hr; rfl
    exact ih (by unfold Ended; rw [this]; exact he)
  | setAutofill v _ ih => exact ih he

end

section
variable {S B I : Type} [DataSource S I] [HonestSource S I] [Buffer B I] [LawfulBuffer B I]

/-- How a source ends, 1: `parse` says so, by `EndOfInput` or `Incomplete`. The second hypothesis is met
by all sources which can be reached (`C87_reached`). -/
theorem C87_ends (chk : Bool) (p : Parser σ I T E) (s s' : Source S B) (h : Usable s)
    (hs : s.state.endOfInput = true → s.state.incomplete = false) (w w' : σ)
    (r : Except (StreamError I E) T) (hr : s.parse chk p w = .ok ((r, s'), w'))
    (he : r = .error .endOfInput ∨ ∃ n, r = .error (.incomplete n)) : Ended s' := by
  rw [Source.parse_eq] at hr
  have key : ∀ t : Source S B, Usable t → (t.state.endOfInput = true → t.state.incomplete = false) →
      t.attempt chk p w = .ok ((r, s'), w') → Ended s' := by
    intro t hu ht hr
    by_cases hn : t.state.endOfInput = true ∧ held t = []
    · have : t.attempt chk p w = .ok ((.error .endOfInput, t), w) := by
        unfold Source.attempt
        rw [Source.isEmpty_eq chk t hu, M.bind_ok (M.lift_ok _ _)]
        simp only [hn, and_self, decide_true, if_true]
        rfl
      rw [this] at hr
      cases hr
      exact ⟨hn.1, ht hn.1⟩
    · rw [Source.attempt_eq chk p t w hu hn] at hr
      rw [Res.bind_eq_ok] at hr
      obtain ⟨⟨x, w1⟩, _, hr⟩ := hr
      unfold Source.finish at hr
      cases x with
      | data i v =>
        simp only [Res.bind_eq_ok] at hr
        obtain ⟨_, _, _, _, hr⟩ := hr
        cases hr
        rcases he with he | ⟨_, he⟩ <;> cases he
      | error i v =>
        simp only [Res.bind_eq_ok] at hr
        obtain ⟨_, _, _, _, hr⟩ := hr
        cases hr
        rcases he with he | ⟨_, he⟩ <;> cases he
      | incomplete n =>
        simp only [Res.bind_eq_ok] at hr
        obtain ⟨_, _, hr⟩ := hr
        split at hr
        · rename_i hend
          cases hr
          exact ⟨hend, ht hend⟩
        · cases hr
          rcases he with he | ⟨_, he⟩ <;> cases he
  split at hr
  · rcases C49_fill chk s h with ⟨g, _⟩ | ⟨r1, s1, xs, g1, g2, _, _, _, g5⟩
    · rw [g] at hr; cases hr
    · rw [g1, Res.bind_ok] at hr
      cases r1 with
      | error e =>
        cases hr
        rcases he with he | ⟨_, he⟩ <;> cases he
      | ok n => exact key s1 g2 (fun _ => g5.2.1) hr
  · exact key s h hs hr

/-- How a source ends, 2: `fill` does not get what has been asked for. -/
theorem C87_fill_ends (chk : Bool) (s s' : Source S B) (h : Usable s) (n : Nat)
    (hr : s.fill chk = .ok (.ok n, s')) :
    Ended s' ∧ (held s').length < max 1 s.request ∨
    modeOf s' = .default ∧ s'.state.incomplete = false ∧ max 1 s.request ≤ (held s').length := by
  rcases C49_fill chk s h with ⟨g, _⟩ | ⟨r1, s1, xs, g1, g2, _, _, _, g5⟩
  · rw [g] at hr; cases hr
  · rw [hr] at g1
    cases g1
    rcases g5.2.2.2 with ⟨k1, k2⟩ | ⟨k1, k2, _⟩
    · exact .inr ⟨by simp [modeOf, k2], g5.2.1, k1⟩
    · exact .inl ⟨⟨k2, g5.2.1⟩, k1⟩

/-- A source at its end does not wait for more, after any operations on a new source. -/
theorem C87_reached (chk : Bool) (src : S) (b : B) (hb : LawfulBuffer.Inv b) (s : Source S B) (w w' : σ)
    (out : List I) (hs : SourceHistory chk (Source.withBuffer src b) w out s w')
    (he : s.state.endOfInput = true) : s.state.incomplete = false := by
  have step : ∀ (s s' : Source S B) (w w' : σ) (x : List I), Usable s →
      (s.state.endOfInput = true → s.state.incomplete = false) → SourceStep chk s w x s' w' →
      s'.state.endOfInput = true → s'.state.incomplete = false := by
    intro s s' w w' x hu hi hst
    have ended : Ended s → ∀ s1 : Source S B, WithoutFill chk s w s1 w →
        s1.state.incomplete = false := fun h s1 hw => (C87_stays chk s s1 h w w hw).2
    cases hst with
    | @parse _ _ _ _ _ _ p r _ _ hr _ =>
      obtain ⟨_, _, hf⟩ := C48_parse_frame chk p s s' hu w w' r hr
      have ha : (autofilled chk s).state.endOfInput = true →
          (autofilled chk s).state.incomplete = false := by
        unfold autofilled
        split
        · rcases C49_fill chk s hu with ⟨g, _⟩ | ⟨r1, s1, xs, g1, g2, _, _, _, g5⟩
          · rw [g]; exact hi
          · rw [g1]
            cases r1 with
            | error e => rw [show s1.state = s.state from g5.1]; exact hi
            | ok n => exact fun _ => g5.2.1
        · exact hi
      match r, hf with
      | .ok _, hf => rw [hf.1]; exact ha
      | .error (.parseError _ _), hf => rw [hf.1]; exact ha
      | .error (.incomplete _), hf => rw [hf.1]; exact ha
      | .error .endOfInput, hf => rw [show s' = _ from hf]; exact ha
      | .error (.ioError _), hf => rw [hf.2.1]; exact hi
      | .error .retry, _ =>
        intro he'
        have : Effect p (held s ++ _) w (.error .retry) s' w' :=
          (C48_parse chk ‹Built everything p› s s' hu w w' _ hr).2.choose_spec.2.2
        exact absurd this.1 (by simp [modeOf, he'])
    | @fill _ _ _ r hr =>
      cases r with
      | error e =>
        rcases C49_fill chk s hu with ⟨g, _⟩ | ⟨r1, s1, xs, g1, g2, _, _, _, g5⟩
        · rw [g] at hr; cases hr
        · rw [hr] at g1
          cases g1
          rw [show s'.state = s.state from g5.1]
          exact hi
      | ok n =>
        rcases C87_fill_ends chk s s' hu n hr with g | g
        · exact fun _ => g.1.2
        · exact fun _ => g.2.1
    | read k hr =>
      rcases C56_read chk k s hu with ⟨g, _⟩ | ⟨r1, s1, xs, g1, _, _, g2, _⟩
      · rw [g] at hr; cases hr
      · rw [hr] at g1; cases g1; rw [g2]; exact hi
    | readErr k hr =>
      rcases C56_read chk k s hu with ⟨g, _⟩ | ⟨r1, s1, xs, g1, _, _, g2, _⟩
      · rw [g] at hr; cases hr
      · rw [hr] at g1; cases g1; rw [g2]; exact hi
    | fillBuf hr =>
      rcases C57_fill_buf chk s hu with ⟨g, _⟩ | ⟨r1, s1, xs, g1, _, _, _, g2, _⟩
      · rw [g] at hr; cases hr
      · rw [hr] at g1; cases g1; rw [g2]; exact hi
    | consume k hk hr =>
      obtain ⟨s1, g1, _, _, _, _, g2, _⟩ := C57_consume chk s hu k hk
      rw [hr] at g1; cases g1; rw [g2]; exact hi
    | reset => exact fun _ => rfl
    | setAutofill v => exact hi
  have main : ∀ (s0 : Source S B) (w : σ) (out : List I) (s : Source S B) (w' : σ),
      SourceHistory chk s0 w out s w' → Usable s0 →
      (s0.state.endOfInput = true → s0.state.incomplete = false) →
      s.state.endOfInput = true → s.state.incomplete = false := by
    intro s0 w out s w' hs
    induction hs with
    | done => exact fun _ h => h
    | step hst _ ih =>
      intro hu hi
      exact ih (C48_step chk _ _ hu _ _ _ hst).1 (step _ _ _ _ _ hu hi hst)
  exact main _ _ _ _ _ hs hb nofun he

/-- `EndOfInput` is for ever: the source answers every parser so, without running it, without reading,
and without changing. -/
theorem C87_sticky (chk : Bool) (p : Parser σ I T E) (s s' : Source S B) (h : Usable s)
    (hs : s.state.endOfInput = true → s.state.incomplete = false) (w w' : σ)
    (hr : s.parse chk p w = .ok ((.error .endOfInput, s'), w')) :
    ∀ (chk' : Bool) (τ U F : Type) (q : Parser τ I U F) (x : τ),
      s'.parse chk' q x = .ok ((.error .endOfInput, s'), x) := by
  have he := C87_ends chk p s s' h hs w w' _ hr (.inl rfl)
  have hu : Usable s' ∧ held s' = [] := by
    rw [Source.parse_eq] at hr
    have key : ∀ t : Source S B, Usable t → t.attempt chk p w = .ok ((.error .endOfInput, s'), w') →
        Usable s' ∧ held s' = [] := by
      intro t hu hr
      by_cases hn : t.state.endOfInput = true ∧ held t = []
      · have : t.attempt chk p w = .ok ((.error .endOfInput, t), w) := by
          unfold Source.attempt
          rw [Source.isEmpty_eq chk t hu, M.bind_ok (M.lift_ok _ _)]
          simp only [hn, and_self, decide_true, if_true]
          rfl
        rw [this] at hr
        cases hr
        exact ⟨hu, hn.2⟩
      · rw [Source.attempt_eq chk p t w hu hn, Res.bind_eq_ok] at hr
        obtain ⟨⟨x, w1⟩, _, hr⟩ := hr
        unfold Source.finish at hr
        cases x with
        | data i v =>
          simp only [Res.bind_eq_ok] at hr
          obtain ⟨_, _, _, _, hr⟩ := hr
          cases hr
        | error i v =>
          simp only [Res.bind_eq_ok] at hr
          obtain ⟨_, _, _, _, hr⟩ := hr
          cases hr
        | incomplete n =>
          simp only [Res.bind_eq_ok] at hr
          obtain ⟨_, _, hr⟩ := hr
          split at hr <;> cases hr
    split at hr
    · rcases C49_fill chk s h with ⟨g, _⟩ | ⟨r1, s1, xs, g1, g2, _, _, _, g5⟩
      · rw [g] at hr; cases hr
      · rw [g1, Res.bind_ok] at hr
        cases r1 with
        | error e => cases hr
        | ok n => exact key s1 g2 hr
    · exact key s h hr
  intro chk' τ U F q x
  rw [Source.parse_eq, if_neg (by simp [he.2]), Res.bind_ok]
  dsimp only
  unfold Source.attempt
  rw [Source.isEmpty_eq chk' s' hu.1, M.bind_ok (M.lift_ok _ _)]
  simp only [he.1, hu.2, and_self, decide_true, if_true]
  rfl

/-- More data being available does not change any of this: the calls of `parse` which follow give what
they would have given without it. -/
theorem C87_unnoticed (chk : Bool) (p : Parser σ I T E) (s : Source S B) (h : Usable s) (he : Ended s)
    (more : S) (w : σ) :
    (withMore s more).parse chk p w =
      s.parse chk p w >>= fun r => .ok ((r.1.1, withMore r.1.2 more), r.2) := by
  have h' : Usable (withMore s more) := h
  rw [Source.parse_eq, Source.parse_eq, if_neg (by simp [withMore, he.2]), if_neg (by simp [he.2]),
    Res.bind_ok, Res.bind_ok]
  dsimp only
  by_cases hn : held s = []
  · have e1 : ∀ t : Source S B, Usable t → t.state.endOfInput = true → held t = [] →
        t.attempt chk p w = .ok ((.error .endOfInput, t), w) := by
      intro t h1 h2 h3
      unfold Source.attempt
      rw [Source.isEmpty_eq chk t h1, M.bind_ok (M.lift_ok _ _)]
      simp only [h2, h3, and_self, decide_true, if_true]
      rfl
    rw [e1 s h he.1 hn, e1 (withMore s more) h' he.1 hn]
    rfl
  · rw [Source.attempt_eq chk p s w h (fun g => hn g.2),
      Source.attempt_eq chk p (withMore s more) w h' (fun g => hn g.2),
      show held (withMore s more) = held s from rfl, show modeOf (withMore s more) = modeOf s from rfl]
    cases p ⟨modeOf s, held s⟩ w with
    | ok x =>
      rw [Res.bind_ok, Res.bind_ok]
      obtain ⟨r, w1⟩ := x
      unfold Source.finish
      cases r with
      | data i v =>
        dsimp only
        rw [show held (withMore s more) = held s from rfl,
          show (withMore s more).buffer = s.buffer from rfl]
        cases usubB chk (held s).length i.buf.length with
        | ok d =>
          rw [Res.bind_ok, Res.bind_ok]
          cases Buffer.consume (I := I) chk d s.buffer <;> rfl
        | panic => rfl
        | ub => rfl
        | div => rfl
      | error i v =>
        dsimp only
        rw [show held (withMore s more) = held s from rfl,
          show (withMore s more).buffer = s.buffer from rfl]
        cases usubB chk (held s).length i.length with
        | ok d =>
          rw [Res.bind_ok, Res.bind_ok]
          cases Buffer.consume (I := I) chk d s.buffer <;> rfl
        | panic => rfl
        | ub => rfl
        | div => rfl
      | incomplete n =>
        dsimp only
        rw [show held (withMore s more) = held s from rfl,
          show (withMore s more).state = s.state from rfl, he.1]
        cases uaddB chk (held s).length n <;> rfl
    | panic => rfl
    | ub => rfl
    | div => rfl

/-- The way to go on: `reset`, which keeps what is held, and automatic fill turned on again, which
`reset` has turned off. Then the loop around `parse` gives what the parser gives on what was held,
followed by the new data. -/
theorem C87_resume {rem : S → List I} {errs : S → Nat} (hd : Delivers S rem errs) (chk : Bool)
    {p : Parser Unit I T E} (hp : Built streaming p) (s : Source S B) (h : Usable s) (more : S)
    (hne : held s ++ rem more ≠ []) (hfit : Fits p s.buffer (held s ++ rem more)) :
    let s1 := (withMore s more).reset.setAutofill true
    Agrees rem s1 (p ⟨.endOfInput, held s ++ rem more⟩ ()) (retry chk p s1 ()) :=
  C51_retry hd chk hp _ ⟨h, rfl, nofun, nofun⟩ hne hfit

/-- Or `fill`, with automatic fill on: the same, if the request which was not met fits the buffer. -/
theorem C87_fill {rem : S → List I} {errs : S → Nat} (hd : Delivers S rem errs) (chk : Bool)
    {p : Parser Unit I T E} (hp : Built streaming p) (s s1 : Source S B) (h : Usable s)
    (ha : s.state.automaticFill = true) (hc : LawfulBuffer.CanHold s.buffer (max 1 s.request))
    (more : S) (n : Nat) (hr : (withMore s more).fill chk = .ok (.ok n, s1))
    (hne : held s ++ rem more ≠ [])
    (hfit : Fits p s1.buffer (held s ++ rem more)) :
    Agrees rem s1 (p ⟨.endOfInput, held s ++ rem more⟩ ()) (retry chk p s1 ()) := by
  have h' : Usable (withMore s more) := h
  rcases C49_fill chk _ h' with ⟨g, _⟩ | ⟨r1, s2, xs, g1, g2, g3, g4, g5, g6⟩
  · rw [g] at hr; cases hr
  · rw [hr] at g1
    cases g1
    have hrem : rem more = xs ++ rem s1.source := (g4.rem hd).1
    have hah : ahead rem s1 = held s ++ rem more := by
      unfold ahead
      rw [g5, hrem, List.append_assoc]
      rfl
    have hready : Ready rem s1 := ⟨g2, g6.2.2.1.trans ha,
      fun he => C50_real_end hd chk (withMore s more) s1 h' n hr hc he,
      fun hi => by rw [g6.2.1] at hi; cases hi⟩
    have := C51_retry hd chk hp s1 hready (by rw [hah]; exact hne) (by rw [hah]; exact hfit)
    rw [hah] at this
    exact this

end

/-- An end which was none is remembered as well. With a buffer of two items, a `take_while` of five
takes what is there for all there is (C50), and so do all calls after it: `EndOfInput`, with four items
unread. Reading them with `fill_buf` does not help: the two it gets are taken to be the last ones, and
the match is cut off again. -/
theorem C87_witness (chk : Bool) :
    ∃ (b : FixedSizeBuffer Nat) (s1 s2 s3 s4 : Source (Script Nat) (FixedSizeBuffer Nat)),
    FixedSizeBuffer.withSize 2 = .ok b ∧
    (Source.withBuffer (⟨[.data 1 [1, 1, 1, 1, 2]]⟩ : Script Nat) b).parse chk
      (Parsers.takeWhile (· == 1) : Parser Unit Nat (List Nat) (Error Nat)) () =
      .ok ((.error .retry, s1), ()) ∧
    s1.parse chk (Parsers.takeWhile (· == 1) : Parser Unit Nat (List Nat) (Error Nat)) () =
      .ok ((.ok [1, 1], s2), ()) ∧
    s2.parse chk (Parsers.any : Parser Unit Nat Nat (Error Nat)) () =
      .ok ((.error .endOfInput, s2), ()) ∧ s2.source.rem = [1, 1, 1, 2] ∧
    s2.fillBuf chk = .ok (.ok [1, 1], s3) ∧
    s3.parse chk (Parsers.takeWhile (· == 1) : Parser Unit Nat (List Nat) (Error Nat)) () =
      .ok ((.ok [1, 1], s4), ()) ∧ s4.source.rem = [1, 2] := by
  cases chk
  · exact ⟨_, _, _, _, _, rfl, Source.parse_of_fuel 5 rfl, Source.parse_of_fuel 5 rfl,
      Source.parse_of_fuel 5 rfl, rfl, Source.fillBuf_of_fuel 5 rfl, Source.parse_of_fuel 5 rfl, rfl⟩
  · exact ⟨_, _, _, _, _, rfl, Source.parse_of_fuel 5 rfl, Source.parse_of_fuel 5 rfl,
      Source.parse_of_fuel 5 rfl, rfl, Source.fillBuf_of_fuel 5 rfl, Source.parse_of_fuel 5 rfl, rfl⟩

/-! ### Examples

`take(2)` on a stream of one item, 3, which turns out to have two more, 7 and 8, after the end. -/

namespace ExEnd

open Ex (take2)

/-- The source after `Incomplete`: it holds the 3, and has asked for two items. -/
def s : Source (Script Nat) (FixedSizeBuffer Nat) :=
  ⟨⟨[]⟩, ⟨[some 3, none, none, none], 1, 0⟩, 2, ⟨false, true, true⟩⟩

def more : Script Nat := ⟨[.data 7 [8]]⟩

theorem reached (chk : Bool) : ∃ s0, (Source.withBuffer (⟨[.data 3 []]⟩ : Script Nat)
    (⟨List.replicate 4 none, 0, 0⟩ : FixedSizeBuffer Nat)).parse chk take2 () =
      .ok ((.error .retry, s0), ()) ∧
    s0.parse chk take2 () = .ok ((.error (.incomplete 2), s), ()) := by
  cases chk <;> exact ⟨_, Source.parse_of_fuel 5 rfl, Source.parse_of_fuel 5 rfl⟩

theorem usable0 : Usable (Source.withBuffer (⟨[.data 3 []]⟩ : Script Nat)
    (⟨List.replicate 4 none, 0, 0⟩ : FixedSizeBuffer Nat)) :=
  ((C48_new (S := Script Nat) (B := FixedSizeBuffer Nat)).2.1 4 _ rfl).1

theorem usable : Usable s := by
  obtain ⟨s0, h1, h2⟩ := reached true
  exact (C48_parse true Ex.built s0 s (C48_parse true Ex.built _ s0 usable0 () () _ h1).1 () () _ h2).1

/-- C87_ends, and C87_reached for its hypothesis. -/
example : Ended s := by
  obtain ⟨s0, h1, h2⟩ := reached true
  obtain ⟨x, hx⟩ := C48_parse_step true Ex.built _ s0 usable0 () () _ h1
  exact C87_ends true take2 s0 s (C48_parse true Ex.built _ s0 usable0 () () _ h1).1
    (C87_reached true _ _ usable0 s0 () () _ (.step hx .done)) () () _ h2 (.inr ⟨_, rfl⟩)

/-- C87_unnoticed: `Incomplete` again, with the 7 and the 8 there. -/
example (chk : Bool) : (withMore s more).parse chk take2 () =
    .ok ((.error (.incomplete 2), withMore s more), ()) := by
  rw [C87_unnoticed chk take2 s usable ⟨rfl, rfl⟩ more ()]
  have : s.parse chk take2 () = .ok ((.error (.incomplete 2), s), ()) := by
    cases chk <;> exact Source.parse_of_fuel 5 rfl
  rw [this]
  rfl

theorem fits : Fits take2 s.buffer [3, 7, 8] := by
  refine ⟨fun x y n hx hn => ?_, fun n hn => by cases hn⟩
  match x, hx with
  | [], _ => cases hn; exact (by decide : 2 ≤ 4)
  | [_], _ => cases hn; exact (by decide : 2 ≤ 4)
  | _ :: _ :: _, _ => cases hn

/-- C87_resume: the 3 and the 7, and the 8 is still to come. -/
example (chk : Bool) : ∃ s', retry chk take2 ((withMore s more).reset.setAutofill true) () =
    .ok ((.ok [3, 7], s'), ()) ∧ ahead Script.rem s' = [8] := by
  obtain ⟨s', h1, h2, _⟩ := C87_resume Script.delivers chk
    (show Built streaming take2 from .take 2) s usable more (fun h => by cases h) fits
  exact ⟨s', h1, h2⟩

/-- C87_fill: the same, after `fill` has read both. -/
example (chk : Bool) : ∃ s1 s', (withMore s more).fill chk = .ok (.ok 2, s1) ∧
    retry chk take2 s1 () = .ok ((.ok [3, 7], s'), ()) ∧ ahead Script.rem s' = [8] := by
  have hf : (withMore s more).fill chk = .ok (.ok 2,
      ⟨⟨[]⟩, ⟨[some 3, some 7, some 8, none], 3, 0⟩, 2, ⟨false, false, true⟩⟩) := by
    cases chk <;> exact Source.fill_of_fuel (n := 5) rfl
  obtain ⟨s', h1, h2, _⟩ := C87_fill Script.delivers chk
    (show Built streaming take2 from .take 2) s _ usable rfl (by decide : 2 ≤ 4) more 2 hf
    (fun h => by cases h) fits
  exact ⟨_, s', hf, h1, h2⟩

/-- C87_stays, C87_no_read: after `read` has taken all three items, and more has come, `parse` still
does not look. -/
example (chk : Bool) : ∃ s1, (withMore s more).read chk 3 = .ok (.ok [3, 7, 8], s1) ∧ Ended s1 ∧
    (withMore s1 more).parse chk take2 () = .ok ((.error .endOfInput, withMore s1 more), ()) := by
  have hr : (withMore s more).read chk 3 = .ok (.ok [3, 7, 8],
      ⟨⟨[]⟩, ⟨[some 3, some 7, some 8, none], 3, 3⟩, 2, ⟨false, true, true⟩⟩) := by
    cases chk <;> exact Source.read_of_fuel 5 rfl
  refine ⟨_, hr, C87_stays (σ := Unit) chk _ _ (show Ended (withMore s more) from ⟨rfl, rfl⟩) () ()
    (.read 3 hr .done), ?_⟩
  cases chk <;> exact Source.parse_of_fuel 5 rfl

end ExEnd

end Chomp.Props
