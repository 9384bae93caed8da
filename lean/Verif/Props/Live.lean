import Verif.Lemmas.Live
import Verif.Props.Source

/-
C119: data sources which do something. A call of `read` may change a state shared with the parsers, panic or not
return.
-/

set_option linter.unusedSectionVars false

namespace Chomp.Props

open Spec Spec.Live Live

section
variable {σ S B I : Type} [LiveSource σ S I] [Honest σ S I] [Buffer B I] [LiveBuffer B I] [OneRead B I]
  [LawfulBuffer B I]

/-- `fill`. Unless there is no room for what has been requested, or a read does not return, it returns the number
of items it has appended: exactly those which the reads have yielded, each of them having found the state as the one
before has left it. It stops when the request is satisfied, or when a read has yielded nothing or an error, and says
so by its flags. -/
theorem C119_fill (chk : Bool) (s : Source S B) (h : Usable s) (w : σ) :
    (s.fillLive chk w = .panic ∧
      Buffer.requestSpace chk (max 1 s.request - (held s).length) s.buffer = .panic) ∨
    Fails s.source w (s.fillLive chk w) ∨
    ∃ r s' w' xs, s.fillLive chk w = .ok ((r, s'), w') ∧ Usable s' ∧ s'.request = s.request ∧
      ReadsTo s.source w xs s'.source w' ∧ held s' = held s ++ xs ∧
      match r with
      | .error e => s'.state = s.state ∧ LastReadTo s.source w xs (.error e) s'.source w'
      | .ok n => n = xs.length ∧ s'.state.incomplete = false ∧
          s'.state.automaticFill = s.state.automaticFill ∧
          ((max 1 s.request ≤ (held s').length ∧ s'.state.endOfInput = false) ∨
           ((held s').length < max 1 s.request ∧ s'.state.endOfInput = true ∧
             LastReadTo s.source w xs (.ok 0) s'.source w')) := by
  rcases (fillSource_tracks ⟨0⟩ chk s w).cases with hf | ⟨⟨r, s'⟩, w', hx⟩ | hsame
  · exact .inr (.inl hf)
  · right; right
    obtain ⟨e, he⟩ : ∃ e : IoError, r ≠ .error e := by
      cases r with
      | ok n => exact ⟨⟨0⟩, nofun⟩
      | error e => exact ⟨⟨e.code + 1⟩, fun h => by injection h with h; rw [IoError.mk.injEq] at h; omega⟩
    have hy := (fillSource_tracks e chk s w).of_ok hx
    letI := paired (σ := σ) (S := S) e
    haveI := paired_honest (σ := σ) (S := S) e
    rcases C49_fill chk (pair s w) h with ⟨g, _⟩ | ⟨r1, s1, xs, g1, g2, g3, g4, g5, g6⟩
    · rw [g] at hy; cases hy
    · rw [g1] at hy
      cases hy
      refine ⟨r, s', w', xs, hx, g2, g3, reads_of_paired g4, g5, ?_⟩
      cases r with
      | error e' => exact ⟨g6.1, last_of_paired he g6.2.choose_spec⟩
      | ok n =>
        refine ⟨g6.1, g6.2.1, g6.2.2.1, ?_⟩
        rcases g6.2.2.2 with k1 | ⟨k1, k2, k3⟩
        · exact .inl k1
        · exact .inr ⟨k1, k2, last_of_paired (r := .ok 0) (by intro hc; cases hc) k3.choose_spec⟩
  · letI := paired (σ := σ) (S := S) ⟨0⟩
    haveI := paired_honest (σ := σ) (S := S) ⟨0⟩
    rcases C49_fill chk (pair s w) h with ⟨g, g'⟩ | ⟨r1, s1, xs, g1, _⟩
    · rw [g] at hsame
      left
      generalize Source.fillLive chk s w = z at hsame
      cases hsame
      exact ⟨rfl, g'⟩
    · rw [g1] at hsame
      generalize Source.fillLive chk s w = z at hsame
      cases hsame

/-- If there is enough in the buffer already, `read` is not called. -/
theorem C119_no_read (chk : Bool) (s : Source S B) (h : Usable s) (w : σ)
    (hl : max 1 s.request ≤ (held s).length) :
    s.fillLive chk w = .ok ((.ok 0, { s with state :=
      { s.state with incomplete := false, endOfInput := false } }), w) := by
  have hb : Buffer.len chk s.buffer = .ok (held s).length := LawfulBuffer.len chk h
  unfold Source.fillLive Source.fillRequestedLive
  dsimp only
  rw [M.bind_apply, hb, M.bind_ok (M.lift_ok _ _), if_neg (by omega)]
  rw [M.pure_apply, Res.bind_ok]
  dsimp only
  rw [hb, M.bind_ok (M.lift_ok _ _)]
  simp [hl]

/-- `read`. -/
theorem C119_read (chk : Bool) (k : Nat) (s : Source S B) (h : Usable s) (w : σ) :
    (s.readLive chk k w = .panic ∧ ∃ n, Buffer.requestSpace chk n s.buffer = .panic) ∨
    Fails s.source w (s.readLive chk k w) ∨
    ∃ r s' w' xs, s.readLive chk k w = .ok ((r, s'), w') ∧ Usable s' ∧
      ReadsTo s.source w xs s'.source w' ∧ s'.state = s.state ∧ s'.request = s.request ∧
      match r with
      | .error e => held s' = held s ++ xs ∧ LastReadTo s.source w xs (.error e) s'.source w'
      | .ok ys => ys = (held s ++ xs).take k ∧ held s' = (held s ++ xs).drop k ∧
          (ys.length < k → LastReadTo s.source w xs (.ok 0) s'.source w') := by
  rcases (read_tracks ⟨0⟩ chk k s w).cases with hf | ⟨⟨r, s'⟩, w', hx⟩ | hsame
  · exact .inr (.inl hf)
  · right; right
    obtain ⟨e, he⟩ : ∃ e : IoError, r ≠ .error e := by
      cases r with
      | ok n => exact ⟨⟨0⟩, nofun⟩
      | error e => exact ⟨⟨e.code + 1⟩, fun h => by injection h with h; rw [IoError.mk.injEq] at h; omega⟩
    have hy := (read_tracks e chk k s w).of_ok hx
    letI := paired (σ := σ) (S := S) e
    haveI := paired_honest (σ := σ) (S := S) e
    rcases Source.read_spec chk k (pair s w) h with ⟨g, _⟩ | ⟨e', s1, xs, g1, g2⟩ |
      ⟨n, s1, xs, b, g1, g2, g3, g4, _⟩
    · rw [g] at hy; cases hy
    · rw [g1] at hy
      cases hy
      have := g2.err e' rfl
      exact ⟨.error e', s', w', xs, hx, g2.usable, reads_of_paired g2.reads, g2.state, g2.request_eq, g2.held,
        last_of_paired (by intro hc; cases hc; exact he rfl) this.2⟩
    · rw [g1] at hy
      have e1 : r = .ok ((held s1).take k) := (congrArg Prod.fst (Res.ok.inj hy)).symm
      have e2 : pair s' w' = { s1 with buffer := b } := (congrArg Prod.snd (Res.ok.inj hy)).symm
      subst e1
      have hsrc : s1.source = ⟨s'.source, w'⟩ := (congrArg Source.source e2).symm
      have hbuf : s'.buffer = b := congrArg Source.buffer e2
      have hst : s'.state = s1.state := congrArg Source.state e2
      have hrq : s'.request = s1.request := congrArg Source.request e2
      have hh : held s1 = held s ++ xs := g2.held
      have hr1 := g2.reads
      rw [hsrc] at hr1
      refine ⟨_, s', w', xs, hx, ?_, reads_of_paired hr1, hst.trans g2.state, hrq.trans g2.request_eq, ?_, ?_, ?_⟩
      · show LawfulBuffer.Inv s'.buffer
        rw [hbuf]; exact g3
      · rw [hh]
      · show LawfulBuffer.view s'.buffer = _
        rw [hbuf, g4, hh]
      · intro hlt
        rcases (g2.ok n rfl).2 with k1 | ⟨_, k2⟩
        · rw [List.length_take] at hlt; omega
        · rw [hsrc] at k2
          exact last_of_paired (r := .ok 0) (by intro hc; cases hc) k2
  · letI := paired (σ := σ) (S := S) ⟨0⟩
    haveI := paired_honest (σ := σ) (S := S) ⟨0⟩
    rcases Source.read_spec chk k (pair s w) h with ⟨g, _, g'⟩ | ⟨e', s1, xs, g1, _⟩ | ⟨n, s1, xs, b, g1, _⟩
    · rw [g] at hsame
      left
      generalize Source.readLive chk k s w = z at hsame
      cases hsame
      exact ⟨rfl, _, g'⟩
    · rw [g1] at hsame
      generalize Source.readLive chk k s w = z at hsame
      cases hsame
    · rw [g1] at hsame
      generalize Source.readLive chk k s w = z at hsame
      cases hsame

/-- `fill_buf`. -/
theorem C119_fillBuf (chk : Bool) (s : Source S B) (h : Usable s) (w : σ) :
    (s.fillBufLive chk w = .panic ∧ ∃ n, Buffer.requestSpace chk n s.buffer = .panic) ∨
    Fails s.source w (s.fillBufLive chk w) ∨
    ∃ r s' w' xs, s.fillBufLive chk w = .ok ((r, s'), w') ∧ Usable s' ∧
      ReadsTo s.source w xs s'.source w' ∧ s'.state = s.state ∧ s'.request = s.request ∧
      held s' = held s ++ xs ∧
      match r with
      | .error e => LastReadTo s.source w xs (.error e) s'.source w'
      | .ok ys => ys = held s' := by
  rcases (fillBuf_tracks ⟨0⟩ chk s w).cases with hf | ⟨⟨r, s'⟩, w', hx⟩ | hsame
  · exact .inr (.inl hf)
  · right; right
    obtain ⟨e, he⟩ : ∃ e : IoError, r ≠ .error e := by
      cases r with
      | ok n => exact ⟨⟨0⟩, nofun⟩
      | error e => exact ⟨⟨e.code + 1⟩, fun h => by injection h with h; rw [IoError.mk.injEq] at h; omega⟩
    have hy := (fillBuf_tracks e chk s w).of_ok hx
    letI := paired (σ := σ) (S := S) e
    haveI := paired_honest (σ := σ) (S := S) e
    rcases Source.fillBuf_spec chk (pair s w) h with ⟨g, _⟩ | ⟨e', s1, xs, g1, g2⟩ | ⟨n, s1, xs, g1, g2⟩
    · rw [g] at hy; cases hy
    · rw [g1] at hy
      cases hy
      exact ⟨.error e', s', w', xs, hx, g2.usable, reads_of_paired g2.reads, g2.state, g2.request_eq, g2.held,
        last_of_paired (by intro hc; cases hc; exact he rfl) (g2.err e' rfl).2⟩
    · rw [g1] at hy
      have e1 : r = .ok (held s1) := (congrArg Prod.fst (Res.ok.inj hy)).symm
      have e2 : s1 = pair s' w' := congrArg Prod.snd (Res.ok.inj hy)
      subst e1 e2
      exact ⟨_, s', w', xs, hx, g2.usable, reads_of_paired g2.reads, g2.state, g2.request_eq, g2.held, rfl⟩
  · letI := paired (σ := σ) (S := S) ⟨0⟩
    haveI := paired_honest (σ := σ) (S := S) ⟨0⟩
    rcases Source.fillBuf_spec chk (pair s w) h with ⟨g, _, g'⟩ | ⟨e', s1, xs, g1, _⟩ | ⟨n, s1, xs, g1, _⟩
    · rw [g] at hsame
      left
      generalize Source.fillBufLive chk s w = z at hsame
      cases hsame
      exact ⟨rfl, _, g'⟩
    · rw [g1] at hsame
      generalize Source.fillBufLive chk s w = z at hsame
      cases hsame
    · rw [g1] at hsame
      generalize Source.fillBufLive chk s w = z at hsame
      cases hsame

/-- The filling with which `parse` begins: as `fill`, or nothing. -/
theorem C119_autofill (chk : Bool) (s s1 : Source S B) (h : Usable s) (w w1 : σ) (q : Except IoError Nat)
    (hq : autofill chk s w = .ok ((q, s1), w1)) :
    Usable s1 ∧ s1.request = s.request ∧ ∃ xs, ReadsTo s.source w xs s1.source w1 ∧ held s1 = held s ++ xs := by
  unfold autofill at hq
  split at hq
  · rcases C119_fill chk s h w with ⟨g, _⟩ | g | ⟨r, s', w', xs, g1, g2, g3, g4, g5, _⟩
    · rw [g] at hq; cases hq
    · rw [hq] at g; exact (Fails.not_ok g).elim
    · rw [g1] at hq
      cases hq
      exact ⟨g2, g3, xs, g4, g5⟩
  · cases hq
    exact ⟨h, rfl, [], .done, (List.append_nil _).symm⟩

/-- `parse`. All reads come first; they yield `xs` and leave the state `w1`. Then, unless the reading has failed or
there is nothing left, the parser is run, once, in the state `w1`, on what was held before followed by `xs`. What it
leaves is held afterwards. While and after it runs the source is not touched. -/
theorem C119_parse (chk : Bool) {p : Parser σ I T E} (hp : Built everything p) (s s' : Source S B)
    (h : Usable s) (w w' : σ) (r : Except (StreamError I E) T)
    (hr : s.parseLive chk p w = .ok ((r, s'), w')) :
    Usable s' ∧ ∃ xs q s1 w1, ReadsTo s.source w xs s'.source w1 ∧
      autofill chk s w = .ok ((q, s1), w1) ∧ s1.source = s'.source ∧ held s1 = held s ++ xs ∧
      Effect p (held s ++ xs) w1 r s' w' ∧
      ∀ e, r = .error (.ioError e) ↔ q = .error e := by
  rw [parse_eq] at hr
  cases hq : autofill chk s w with
  | ok x =>
    obtain ⟨⟨q, s1⟩, w1⟩ := x
    rw [hq, Res.bind_ok] at hr
    obtain ⟨h1, _, xs, h2, h3⟩ := C119_autofill chk s s1 h w w1 q hq
    cases q with
    | error e =>
      cases hr
      refine ⟨h1, xs, .error e, s1, w1, h2, rfl, rfl, h3, ⟨h3, rfl⟩, fun e' => ?_⟩
      constructor
      · intro h; cases h; rfl
      · intro h; cases h; rfl
    | ok n =>
      letI : DataSource S I := ⟨fun s _ => (⟨[], .ok 0⟩, s)⟩
      obtain ⟨g1, g2, g3, _⟩ := Source.attempt_effect chk hp s1 w1 w' h1 hr
      refine ⟨g1, xs, .ok n, s1, w1, by rw [g2]; exact h2, rfl, g2.symm, h3, h3 ▸ g3, fun e => ?_⟩
      constructor
      · intro h
        subst h
        exfalso
        unfold Source.attempt at hr
        rw [M.bind_eq_ok] at hr
        obtain ⟨c, w2, _, hr⟩ := hr
        split at hr
        · cases hr
        · rw [M.bind_eq_ok] at hr
          obtain ⟨_, w3, _, hr⟩ := hr
          rw [M.bind_eq_ok] at hr
          obtain ⟨x, w4, _, hr⟩ := hr
          cases x with
          | data i t =>
            dsimp only at hr
            rw [M.bind_eq_ok] at hr
            obtain ⟨_, _, _, hr⟩ := hr
            rw [M.bind_eq_ok] at hr
            obtain ⟨_, _, _, hr⟩ := hr
            rw [M.bind_eq_ok] at hr
            obtain ⟨_, _, _, hr⟩ := hr
            cases hr
          | error i t =>
            dsimp only at hr
            rw [M.bind_eq_ok] at hr
            obtain ⟨_, _, _, hr⟩ := hr
            rw [M.bind_eq_ok] at hr
            obtain ⟨_, _, _, hr⟩ := hr
            rw [M.bind_eq_ok] at hr
            obtain ⟨_, _, _, hr⟩ := hr
            cases hr
          | incomplete n =>
            dsimp only at hr
            rw [M.bind_eq_ok] at hr
            obtain ⟨_, _, _, hr⟩ := hr
            rw [M.bind_eq_ok] at hr
            obtain ⟨_, _, _, hr⟩ := hr
            split at hr <;> cases hr
      · intro h; cases h
  | _ => rw [hq] at hr; cases hr

/-- `parse` is undefined behaviour, or does not return, only if a read is or does not, or the parser, run after all
reads. -/
theorem C119_parse_stops (chk : Bool) (s : Source S B) (h : Usable s) {p : Parser σ I T E}
    (hp : Built everything p) (w : σ) :
    (s.parseLive chk p w = .ub → Fails s.source w (s.parseLive chk p w) ∨
      ∃ q s1 w1 m, autofill chk s w = .ok ((q, s1), w1) ∧ p ⟨m, held s1⟩ w1 = .ub) ∧
    (s.parseLive chk p w = .div → Fails s.source w (s.parseLive chk p w) ∨
      ∃ q s1 w1 m, autofill chk s w = .ok ((q, s1), w1) ∧ p ⟨m, held s1⟩ w1 = .div) := by
  rw [parse_eq]
  have hfill : ∀ o, autofill chk s w = o →
      Fails s.source w o ∨ o = .panic ∨ ∃ q s1 w1, o = .ok ((q, s1), w1) ∧
        ((∃ n, q = .ok n) → (s1.state.incomplete && s1.state.automaticFill) = false) := by
    rintro o rfl
    unfold autofill
    by_cases hc : (s.state.incomplete && s.state.automaticFill) = true
    · rw [if_pos hc]
      rcases C119_fill chk s h w with ⟨g, _⟩ | g | ⟨r, s', w', xs, g1, g2, g3, g4, g5, g6⟩
      · exact .inr (.inl g)
      · exact .inl g
      · refine .inr (.inr ⟨_, _, _, g1, ?_⟩)
        rintro ⟨n, rfl⟩
        rw [g6.2.1]; rfl
    · rw [if_neg hc]
      exact .inr (.inr ⟨_, _, _, rfl, fun _ => by simpa using hc⟩)
  rcases hfill _ rfl with g | g | ⟨q, s1, w1, g1, g2⟩
  · have g' := g
    generalize autofill chk s w = o at g
    cases o with
    | ok a => exact (Fails.not_ok g).elim
    | panic => exact ⟨nofun, nofun⟩
    | ub => exact ⟨fun _ => .inl (Fails.map g .ub), nofun⟩
    | div => exact ⟨nofun, fun _ => .inl (Fails.map g .div)⟩
  · rw [g]; exact ⟨nofun, nofun⟩
  · rw [g1, Res.bind_ok]
    cases q with
    | error e => exact ⟨nofun, nofun⟩
    | ok n =>
      dsimp only
      letI : DataSource S I := ⟨fun s _ => (⟨[], .ok 0⟩, s)⟩
      haveI : HonestSource S I := ⟨fun s k n h => by cases h; exact ⟨Nat.zero_le _, rfl⟩⟩
      have hu := (C119_autofill chk s s1 h w w1 _ g1).1
      have hf := g2 ⟨n, rfl⟩
      have key := C46_source_parse chk s1 hu hp w1
      have e1 : s1.parse chk p w1 = s1.attempt chk p w1 := by
        rw [Source.parse_eq, hf]; rfl
      have e2 : autofilled chk s1 = s1 := by
        unfold autofilled; rw [hf]; rfl
      rw [e1, e2] at key
      exact ⟨fun hk => let ⟨m, hm⟩ := key.1 hk; .inr ⟨_, _, _, m, rfl, hm⟩,
        fun hk => let ⟨m, hm⟩ := key.2 hk; .inr ⟨_, _, _, m, rfl, hm⟩⟩

/-- Every call of `parse` which returns is a step in the sense of C119_step. -/
theorem C119_parse_step (chk : Bool) {p : Parser σ I T E} (hp : Built everything p) (s s' : Source S B)
    (h : Usable s) (w w' : σ) (r : Except (StreamError I E) T)
    (hr : s.parseLive chk p w = .ok ((r, s'), w')) : ∃ x, Step chk s w x s' w' := by
  letI : DataSource S I := ⟨fun s _ => (⟨[], .ok 0⟩, s)⟩
  haveI : HonestSource S I := ⟨fun s k n h => by cases h; exact ⟨Nat.zero_le _, rfl⟩⟩
  obtain ⟨_, xs, q, s1, w1, _, h1, _, h2, h3, _⟩ := C119_parse chk hp s s' h w w' r hr
  obtain ⟨x, hx⟩ := effect_split hp h3
  exact ⟨x, .parse p hp hr h1 (h2.trans hx)⟩

/-- No operation loses, duplicates or reorders items, whatever the reads do to the state: what was held, followed by
what was read, is what was handed out, followed by what is held afterwards. -/
theorem C119_step (chk : Bool) (s s' : Source S B) (h : Usable s) (w w' : σ) (out : List I)
    (hs : Step chk s w out s' w') :
    Usable s' ∧ ∃ xs, Handed σ s.source xs s'.source ∧ held s ++ xs = out ++ held s' := by
  cases hs with
  | parse p hp hr hq hx =>
    obtain ⟨h1, xs, q, s1, w1, h2, h3, _, h4, _⟩ := C119_parse chk hp s s' h w w' _ hr
    rw [hq] at h3
    cases h3
    exact ⟨h1, xs, ReadsTo.handed h2, h4.symm.trans hx⟩
  | fill hr =>
    rcases C119_fill chk s h w with ⟨g, _⟩ | g | ⟨r, s', w', xs, g1, g2, g3, g4, g5, _⟩
    · rw [g] at hr; cases hr
    · rw [hr] at g; exact (Fails.not_ok g).elim
    · rw [g1] at hr; cases hr; exact ⟨g2, xs, ReadsTo.handed g4, g5.symm⟩
  | read k hr =>
    rcases C119_read chk k s h w with ⟨g, _⟩ | g | ⟨r, s', w', xs, g1, g2, g3, _, _, g5⟩
    · rw [g] at hr; cases hr
    · rw [hr] at g; exact (Fails.not_ok g).elim
    · rw [g1] at hr
      cases hr
      refine ⟨g2, xs, ReadsTo.handed g3, ?_⟩
      rw [g5.2.1]
      conv => rhs; rw [g5.1]
      exact (List.take_append_drop k _).symm
  | readErr k hr =>
    rcases C119_read chk k s h w with ⟨g, _⟩ | g | ⟨r, s', w', xs, g1, g2, g3, _, _, g5⟩
    · rw [g] at hr; cases hr
    · rw [hr] at g; exact (Fails.not_ok g).elim
    · rw [g1] at hr
      cases hr
      exact ⟨g2, xs, ReadsTo.handed g3, g5.1.symm⟩
  | fillBuf hr =>
    rcases C119_fillBuf chk s h w with ⟨g, _⟩ | g | ⟨r, s', w', xs, g1, g2, g3, _, _, g5, _⟩
    · rw [g] at hr; cases hr
    · rw [hr] at g; exact (Fails.not_ok g).elim
    · rw [g1] at hr; cases hr; exact ⟨g2, xs, ReadsTo.handed g3, g5.symm⟩
  | consume k hk hr =>
    letI : DataSource S I := ⟨fun s _ => (⟨[], .ok 0⟩, s)⟩
    haveI : HonestSource S I := ⟨fun s k n h => by cases h; exact ⟨Nat.zero_le _, rfl⟩⟩
    obtain ⟨h1, h2, h3⟩ : Usable s' ∧ s'.source = s.source ∧ held s = (held s).take k ++ held s' := by
      obtain ⟨b, g1, g2, g3, _⟩ := LawfulBuffer.consume chk (show LawfulBuffer.Inv s.buffer from h) hk
      unfold Source.consume at hr
      rw [g1] at hr
      cases hr
      refine ⟨g2, rfl, ?_⟩
      rw [show held { s with buffer := b } = (held s).drop k from g3]
      exact (List.take_append_drop k _).symm
    exact ⟨h1, [], by rw [h2]; exact .done, by rw [List.append_nil]; exact h3⟩
  | reset => exact ⟨h, [], .done, List.append_nil _⟩
  | setAutofill v => exact ⟨h, [], .done, List.append_nil _⟩
  | elsewhere => exact ⟨h, [], .done, List.append_nil _⟩

/-- Nor does any sequence of operations. -/
theorem C119_history (chk : Bool) (s s' : Source S B) (h : Usable s) (w w' : σ) (out : List I)
    (hs : History chk s w out s' w') :
    Usable s' ∧ ∃ xs, Handed σ s.source xs s'.source ∧ held s ++ xs = out ++ held s' := by
  induction hs with
  | done => exact ⟨h, [], .done, List.append_nil _⟩
  | step h1 _ ih =>
    obtain ⟨g1, xs, g2, g3⟩ := C119_step chk _ _ h _ _ _ h1
    obtain ⟨k1, ys, k2, k3⟩ := ih g1
    refine ⟨k1, xs ++ ys, Handed.trans g2 k2, ?_⟩
    rw [← List.append_assoc, g3, List.append_assoc, k3, List.append_assoc]

end

/-- `FixedSizeBuffer` and `GrowingBuffer` call `read` once in `fill`, with a slice as long as the room they have
left. -/
theorem C119_buffers [LiveSource σ S I] (chk : Bool) (s : S) (w : σ) :
    (∀ b : FixedSizeBuffer I, b.populated ≤ b.buffer.length →
      ∃ post : ReadOut I → Res (Except IoError Nat × FixedSizeBuffer I),
        LiveBuffer.fill chk s b w = LiveSource.read s (b.buffer.length - b.populated) w >>= fun x =>
          post x.1.1 >>= fun y => .ok ((y.1, x.1.2, y.2), x.2)) ∧
    (∀ b : GrowingBuffer I, b.populated ≤ b.buffer.length →
      ∃ post : ReadOut I → Res (Except IoError Nat × GrowingBuffer I),
        LiveBuffer.fill chk s b w = LiveSource.read s (b.buffer.length - b.populated) w >>= fun x =>
          post x.1.1 >>= fun y => .ok ((y.1, x.1.2, y.2), x.2)) := by
  refine ⟨fun b h => ?_, fun b h => ?_⟩
  · refine ⟨fun out =>
        let b := { b with
          buffer := b.buffer.take b.populated ++ overlay (b.buffer.drop b.populated) out.writes }
        match out.result with
        | .error e => .ok (.error e, b)
        | .ok n => do
          debugAssert chk (b.populated + n ≤ b.buffer.length)
          let p ← uaddB chk b.populated n
          .ok (.ok n, { b with populated := p }), ?_⟩
    show FixedSizeBuffer.fillLive chk s b w = _
    unfold FixedSizeBuffer.fillLive
    rw [if_pos h, M.bind_apply]
    cases LiveSource.read s (b.buffer.length - b.populated) w with
    | ok x =>
      obtain ⟨⟨⟨ws, r⟩, s'⟩, w'⟩ := x
      cases r with
      | error e => rfl
      | ok n =>
        dsimp only [Res.bind_ok]
        rw [M.lift_bind]
        cases debugAssert chk _ with
        | ok u =>
          dsimp only [Res.bind_ok]
          rw [M.lift_bind]
          cases uaddB chk _ _ <;> rfl
        | _ => rfl
    | _ => rfl
  · refine ⟨fun out =>
        let b := { b with
          buffer := b.buffer.take b.populated ++ overlay (b.buffer.drop b.populated) out.writes }
        match out.result with
        | .error e => .ok (.error e, b)
        | .ok n => do
          debugAssert chk (b.populated + n ≤ b.buffer.length)
          let p ← uaddB chk b.populated n
          .ok (.ok n, { b with populated := p }), ?_⟩
    show GrowingBuffer.fillLive chk s b w = _
    unfold GrowingBuffer.fillLive
    rw [if_pos h, M.bind_apply]
    cases LiveSource.read s (b.buffer.length - b.populated) w with
    | ok x =>
      obtain ⟨⟨⟨ws, r⟩, s'⟩, w'⟩ := x
      cases r with
      | error e => rfl
      | ok n =>
        dsimp only [Res.bind_ok]
        rw [M.lift_bind]
        cases debugAssert chk _ with
        | ok u =>
          dsimp only [Res.bind_ok]
          rw [M.lift_bind]
          cases uaddB chk _ _ <;> rfl
        | _ => rfl
    | _ => rfl

/-- A source without effects: the functions here are those of the rest of the model, and leave the state alone. -/
theorem C119_pure [DataSource S I] [Buffer B I] [LiveBuffer B I] [OneRead B I] (chk : Bool) (s : Source S B) (w : σ) :
    letI : LiveSource σ S I := ofPure σ
    s.fillLive chk w = (s.fill chk >>= fun y => .ok (y, w)) ∧
    (∀ k, s.readLive chk k w = (s.read chk k >>= fun y => .ok (y, w))) ∧
    s.fillBufLive chk w = (s.fillBuf chk >>= fun y => .ok (y, w)) ∧
    ∀ {T E} (p : Parser σ I T E), s.parseLive chk p w = s.parse chk p w :=
  ⟨fillSource_pure chk s w, fun k => read_pure chk k s w, fillBuf_pure chk s w, fun p => parse_pure chk p s w⟩

/-- A source made from an iterator calls `next` until it has filled the slice or `next` yields nothing, and not once
more; if a call of `next` does not return, neither does `read`, and there are no other calls. -/
theorem C119_iterator [LiveIter σ J I] (j : J) (k : Nat) (w : σ) :
    ∃ xs j1 w1, Nexts j w xs j1 w1 ∧
      ((xs.length = k ∧ LiveSource.read (⟨j⟩ : IteratorDataSource J) k w =
          .ok ((⟨xs.map some, .ok k⟩, ⟨j1⟩), w1)) ∨
       (xs.length < k ∧ ∃ j' w', LiveIter.next j1 w1 = .ok ((none, j'), w') ∧
          LiveSource.read (⟨j⟩ : IteratorDataSource J) k w =
            .ok ((⟨xs.map some, .ok xs.length⟩, ⟨j'⟩), w')) ∨
       (xs.length < k ∧ Same (LiveIter.next (I := I) j1 w1)
          (LiveSource.read (I := I) (⟨j⟩ : IteratorDataSource J) k w))) := by
  obtain ⟨xs, j1, w1, h1, h2⟩ := iterRead_spec (I := I) k j w
  refine ⟨xs, j1, w1, h1, ?_⟩
  have e : LiveSource.read (I := I) (⟨j⟩ : IteratorDataSource J) k w = (iterReadLive k j w >>= fun x =>
      .ok ((⟨x.1.1.map some, .ok x.1.1.length⟩, ⟨x.1.2⟩), x.2)) := rfl
  rw [e]
  rcases h2 with ⟨h2, h3⟩ | ⟨h2, j', w', h3, h4⟩ | ⟨h2, h3⟩
  · left; rw [h3]; exact ⟨h2, by rw [← h2]; rfl⟩
  · right; left; rw [h4]; exact ⟨h2, j', w', h3, rfl⟩
  · right; right
    refine ⟨h2, ?_⟩
    generalize iterReadLive k j w = z at h3
    generalize LiveIter.next j1 w1 = y at h3
    cases h3 <;> constructor

/-- Such sources are honest; one made from a reader is if the reader is. -/
theorem C119_honest :
    (∀ (σ J I : Type) [LiveIter σ J I], Honest σ (IteratorDataSource J) I) ∧
    ∀ (σ R : Type) [LiveSource σ R UInt8] [Honest σ R UInt8], Honest σ (ReadDataSource R) UInt8 := by
  constructor
  · intro σ J I _
    constructor
    intro s s' k n w w' out h hn
    obtain ⟨xs, j1, w1, _, h2⟩ := C119_iterator (I := I) s.inner k w
    rcases h2 with ⟨h2, h3⟩ | ⟨h2, j', w', h3, h4⟩ | ⟨h2, h3⟩
    · rw [show LiveSource.read s k w = _ from h3] at h
      cases h
      cases hn
      rw [items_map_some _ _ (by rw [h2])]
      exact ⟨Nat.le_refl _, h2⟩
    · rw [show LiveSource.read s k w = _ from h4] at h
      cases h
      cases hn
      rw [items_map_some _ _ rfl]
      exact ⟨Nat.le_of_lt h2, rfl⟩
    · rw [show LiveSource.read (I := I) (⟨s.inner⟩ : IteratorDataSource J) k w = _ from h] at h3
      generalize LiveIter.next j1 w1 = y at h3
      cases h3
  · intro σ R _ _
    constructor
    intro s s' k n w w' out h hn
    obtain ⟨⟨out', r⟩, w1, h1, h2⟩ := M.bind_eq_ok.mp (show (LiveSource.read s.inner k >>= fun x =>
      (pure (x.1, ⟨x.2⟩) : M σ (ReadOut UInt8 × ReadDataSource R))) w = _ from h)
    cases h2
    exact Honest.honest _ _ _ _ _ _ _ h1 hn

/-! ### Examples

A source which yields as many items at a time as the state says, a state which the parser sets: to the item it has
just seen. In the state 9 it panics, in the state 8 it does not return. -/

namespace LiveEx

structure Tape where
  rest : List Nat

instance : LiveSource Nat Tape Nat where
  read s k w :=
    if w = 9 then .panic else if w = 8 then .div
    else .ok ((⟨(s.rest.take (min k w)).map some, .ok (s.rest.take (min k w)).length⟩,
      ⟨s.rest.drop (min k w)⟩), w)

instance : Honest Nat Tape Nat where
  honest s s' k n w w' out h hn := by
    change (if w = 9 then Res.panic else if w = 8 then Res.div else _) = _ at h
    split at h
    · cases h
    · split at h
      · cases h
      · cases h
        cases hn
        rw [items_map_some _ _ rfl]
        exact ⟨by rw [List.length_take]; omega, rfl⟩

def source : Source Tape (FixedSizeBuffer Nat) :=
  Source.withBuffer ⟨[2, 5, 9, 6]⟩ ⟨List.replicate 4 none, 0, 0⟩

theorem usable : Usable source :=
  letI : DataSource Tape Nat := ⟨fun s _ => (⟨[], .ok 0⟩, s)⟩
  haveI : HonestSource Tape Nat := ⟨fun _ _ _ h => by cases h; exact ⟨Nat.zero_le _, rfl⟩⟩
  ((C48_new (S := Tape) (B := FixedSizeBuffer Nat)).2.1 4 _ rfl).1

/-- `satisfy(|c| { *state = c; true })`. -/
abbrev set : Parser Nat Nat Nat (Error Nat) := Closures.satisfy true (fun c _ => .ok (true, c))

theorem built : Built everything set := .satisfyM true _ (by intro h; cases h)

/-- The new source reads one item in the state 1; the parser sets the state to 2. The next call has nothing to
give to the parser, and the one after it reads two items, the parser taking the first and setting the state to 5. -/
theorem run : ∃ s1 s2 s3,
    source.parseLive true set 1 = .ok ((.ok 2, s1), 2) ∧ held s1 = [] ∧ s1.source.rest = [5, 9, 6] ∧
    s1.parseLive true set 2 = .ok ((.error .retry, s2), 2) ∧
    s2.parseLive true set 2 = .ok ((.ok 5, s3), 5) ∧ held s3 = [9] ∧ s3.source.rest = [6] := by
  exact ⟨_, _, _, parse_eval (fill_eval (l := 0) (l' := 1) (d := 1) rfl (by decide) rfl rfl
      (loop_of_fuel (n := 5) rfl) rfl) rfl, rfl, rfl,
    parse_eval rfl rfl,
    parse_eval (fill_eval (l := 0) (l' := 2) (d := 1) rfl (by decide) rfl rfl (loop_of_fuel (n := 5) rfl) rfl) rfl,
    rfl, rfl⟩

/-- C119_parse: the parser has been run in the state left by the reads. -/
example : ∃ s1 xs w1, source.parseLive true set 1 = .ok ((.ok 2, s1), 2) ∧ Usable s1 ∧
    ReadsTo source.source 1 xs s1.source w1 ∧ set ⟨modeOf s1, xs⟩ w1 = .ok (.data ⟨modeOf s1, held s1⟩ 2, 2) := by
  obtain ⟨s1, _, _, h1, _⟩ := run
  obtain ⟨g1, xs, q, s2, w1, g2, _, _, _, g3, _⟩ := C119_parse true built source s1 usable 1 2 _ h1
  exact ⟨s1, xs, w1, h1, g1, g2, g3⟩

/-- C119_history: the three calls. -/
example : ∃ s1 s2 s3 x y z, History true source 1 (x ++ (y ++ (z ++ []))) s3 5 ∧
    held s3 = [9] ∧ s3.source.rest = [6] ∧
    source.parseLive true set 1 = .ok ((.ok 2, s1), 2) ∧ s1.parseLive true set 2 = .ok ((.error .retry, s2), 2) ∧
    ∃ xs, Handed Nat source.source xs s3.source ∧ xs = x ++ (y ++ (z ++ [])) ++ [9] := by
  obtain ⟨s1, s2, s3, h1, _, _, h2, h3, h4, h5⟩ := run
  have step : ∀ (s s' : Source Tape (FixedSizeBuffer Nat)) (w w' : Nat) (r), Usable s →
      s.parseLive true set w = .ok ((r, s'), w') → ∃ x, Step true s w x s' w' ∧ Usable s' := by
    intro s s' w w' r hu h
    obtain ⟨x, hx⟩ := C119_parse_step true built s s' hu w w' r h
    exact ⟨x, hx, (C119_step true s s' hu w w' x hx).1⟩
  obtain ⟨x, k1, u1⟩ := step _ _ _ _ _ usable h1
  obtain ⟨y, k2, u2⟩ := step _ _ _ _ _ u1 h2
  obtain ⟨z, k3, u3⟩ := step _ _ _ _ _ u2 h3
  have hist : History true source 1 (x ++ (y ++ (z ++ []))) s3 5 := .step k1 (.step k2 (.step k3 .done))
  obtain ⟨_, xs, m1, m2⟩ := C119_history true _ _ usable _ _ _ hist
  refine ⟨s1, s2, s3, x, y, z, hist, h4, h5, h1, h2, xs, m1, ?_⟩
  rw [h4] at m2
  exact m2

/-- C119_fill: in the state 9 the read panics, in the state 8 it does not return; `fill` does the same. -/
example : source.fillLive true 9 = .panic ∧ Fails source.source 9 (source.fillLive true 9) := by
  have h : source.fillLive true 9 = .panic :=
    fill_eval_panic (l := 0) (d := 1) rfl (by decide) rfl rfl (loop_of_fuel (n := 5) rfl)
  refine ⟨h, ?_⟩
  rcases C119_fill true source usable 9 with ⟨_, g⟩ | g | ⟨r, s', w', xs, g, _⟩
  · cases g
  · exact g
  · rw [h] at g; cases g

/-- C119_no_read: with an item in the buffer the source is left alone even in the state 9. -/
example : ∃ s3 s4 : Source Tape (FixedSizeBuffer Nat), held s3 = [9] ∧ s3.fillLive true 9 = .ok ((.ok 0, s4), 9) := by
  obtain ⟨s1, s2, s3, h1, _, _, h2, h3, h4, _⟩ := run
  have u1 := (C119_parse true built _ _ usable _ _ _ h1).1
  have u2 := (C119_parse true built _ _ u1 _ _ _ h2).1
  have u3 := (C119_parse true built _ _ u2 _ _ _ h3).1
  have u4 : Usable { s3 with request := 1 } := u3
  have h5 : held { s3 with request := 1 } = [9] := h4
  exact ⟨{ s3 with request := 1 }, _, h5, C119_no_read true _ u4 9 (by rw [h5]; exact Nat.le_refl 1)⟩

/-- A counter which counts the calls of `next` in the state, and panics at the fourth. -/
structure Count where
  i : Nat

instance : LiveIter Nat Count Nat where
  next j w := if w = 3 then .panic else if j.i = 2 then .ok ((none, j), w + 1) else .ok ((some j.i, ⟨j.i + 1⟩), w + 1)

/-- C119_iterator: two items, and a third call which yields nothing. -/
example : LiveSource.read (⟨⟨0⟩⟩ : IteratorDataSource Count) 7 0 =
    .ok ((⟨[some 0, some 1], .ok 2⟩, ⟨⟨2⟩⟩), 3) := rfl

/-- C119_iterator: the slice is full after the second item; there is no third call. -/
example : LiveSource.read (⟨⟨0⟩⟩ : IteratorDataSource Count) 2 0 =
    .ok ((⟨[some 0, some 1], .ok 2⟩, ⟨⟨2⟩⟩), 2) := rfl

/-- C119_iterator: the second call panics. -/
example : LiveSource.read (I := Nat) (⟨⟨0⟩⟩ : IteratorDataSource Count) 2 2 = .panic := rfl

end LiveEx

end Chomp.Props
