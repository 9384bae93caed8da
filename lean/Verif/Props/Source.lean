import Verif.Lemmas.Source
import Verif.Props.Built
import Verif.Props.Buffer
import Verif.Props.Slice
import Verif.Props.Data

/-
C48 to C50, C54, C56, C57, C60: `Source`.

Everything is for an arbitrary source honouring the contract of `DataSource` and for an arbitrary
lawful buffer; `FixedSizeBuffer` and `GrowingBuffer` are lawful (Verif/Lemmas/Buffer.lean).
-/

set_option linter.unusedSectionVars false

namespace Chomp.Props

open Spec

section
variable {S B I : Type} [DataSource S I] [HonestSource S I] [Buffer B I] [LawfulBuffer B I]

/-! ### C48 -/

/-- `buffer()`, `len()` and `is_empty()` show what is held. -/
theorem C48_buffer (chk : Bool) (s : Source S B) (h : Usable s) :
    s.bufferSlice = .ok (held s) ∧ s.len chk = .ok (held s).length ∧
      s.isEmpty chk = .ok (decide (s.state.endOfInput = true ∧ held s = [])) :=
  ⟨LawfulBuffer.deref (show LawfulBuffer.Inv s.buffer from h),
    LawfulBuffer.len chk (show LawfulBuffer.Inv s.buffer from h), Source.isEmpty_eq chk s h⟩

/-- New sources are usable. -/
theorem C48_new :
    (∀ (s : S) (b : B), LawfulBuffer.Inv b → Usable (Source.withBuffer s b) ∧
      held (Source.withBuffer s b) = LawfulBuffer.view b) ∧
    (∀ n (b : FixedSizeBuffer I), FixedSizeBuffer.withSize n = .ok b →
      LawfulBuffer.Inv b ∧ LawfulBuffer.view b = []) ∧
    (∀ extra limit, LawfulBuffer.Inv (GrowingBuffer.withLimit extra limit : GrowingBuffer I) ∧
      LawfulBuffer.view (GrowingBuffer.withLimit extra limit : GrowingBuffer I) = []) := by
  refine ⟨fun _ _ hb => ⟨hb, rfl⟩, fun n b hb => ?_, fun _ _ => ⟨GrowingBuffer.withLimit_inv _ _, rfl⟩⟩
  by_cases h0 : 0 < n
  · by_cases h1 : n ≤ isizeMax
    · obtain ⟨b', g1, g2, g3, _⟩ := FixedSizeBuffer.withSize_inv (I := I) h0 h1
      rw [g1] at hb
      cases hb
      exact ⟨g2, g3⟩
    · simp [FixedSizeBuffer.withSize, assert, h0, h1] at hb
  · simp [FixedSizeBuffer.withSize, assert, h0] at hb

/-- `parse` appends what it reads from the source, runs the parser on everything held, and keeps
exactly the part the parser has not consumed. -/
theorem C48_parse (chk : Bool) {p : Parser σ I T E} (hp : Built everything p) (s s' : Source S B)
    (h : Usable s) (w w' : σ) (r : Except (StreamError I E) T)
    (hr : s.parse chk p w = .ok ((r, s'), w')) :
    Usable s' ∧ ∃ xs, Reads s.source xs s'.source ∧ held (autofilled chk s) = held s ++ xs ∧
      Effect p (held s ++ xs) w r s' w' := by
  rw [Source.parse_eq] at hr
  unfold autofilled
  split at hr
  · rename_i hc
    rw [if_pos hc]
    rcases Source.fill_spec chk s h with ⟨h1, _⟩ | ⟨e, s1, xs, h1, h2⟩ | ⟨n, s1, xs, h1, h2⟩
    · rw [h1] at hr; cases hr
    · rw [h1] at hr ⊢
      cases hr
      exact ⟨h2.usable, xs, h2.reads, h2.held, h2.held, rfl⟩
    · rw [h1] at hr ⊢
      rw [Res.bind_ok] at hr
      dsimp only at hr ⊢
      obtain ⟨g1, g2, g3, _⟩ := Source.attempt_effect chk hp { s1 with state := s1.afterFill } w w'
        h2.usable hr
      refine ⟨g1, xs, by rw [g2]; exact h2.reads, h2.held, ?_⟩
      rw [← h2.held]
      exact g3
  · rename_i hc
    rw [if_neg hc]
    rw [Res.bind_ok] at hr
    dsimp only at hr
    obtain ⟨g1, g2, g3, _⟩ := Source.attempt_effect chk hp s w w' h hr
    refine ⟨g1, [], by rw [g2]; exact .done, by simp, ?_⟩
    rw [List.append_nil]
    exact g3

/-- What `parse` does to the rest of the source. The data source is touched by filling only. Flags and
request stay as they are after filling, except that not enough data is noted, as the request and, if
more may come, as a flag. An I/O error comes from filling, and leaves the flags alone. -/
theorem C48_parse_frame (chk : Bool) (p : Parser σ I T E) (s s' : Source S B) (h : Usable s) (w w' : σ)
    (r : Except (StreamError I E) T) (hr : s.parse chk p w = .ok ((r, s'), w')) :
    s'.source = (autofilled chk s).source ∧ (autofilled chk s).request = s.request ∧
      Frame chk s (autofilled chk s) r s' := by
  have key : ∀ s1 : Source S B, s1.request = s.request → s1.attempt chk p w = .ok ((r, s'), w') →
      s'.source = s1.source ∧ s1.request = s.request ∧ Frame chk s s1 r s' := by
    intro s1 hq hr
    unfold Source.attempt at hr
    rw [M.bind_eq_ok] at hr
    obtain ⟨c, w1, _, hr⟩ := hr
    split at hr
    · cases hr; exact ⟨rfl, hq, rfl⟩
    · rw [M.bind_eq_ok] at hr
      obtain ⟨b, w2, _, hr⟩ := hr
      rw [M.bind_eq_ok] at hr
      obtain ⟨x, w3, _, hr⟩ := hr
      cases x with
      | data i t =>
        dsimp only at hr
        rw [M.bind_eq_ok] at hr
        obtain ⟨_, w4, _, hr⟩ := hr
        rw [M.bind_eq_ok] at hr
        obtain ⟨_, w5, _, hr⟩ := hr
        rw [M.bind_eq_ok] at hr
        obtain ⟨_, w6, _, hr⟩ := hr
        cases hr; exact ⟨rfl, hq, rfl, hq⟩
      | error i t =>
        dsimp only at hr
        rw [M.bind_eq_ok] at hr
        obtain ⟨_, w4, _, hr⟩ := hr
        rw [M.bind_eq_ok] at hr
        obtain ⟨_, w5, _, hr⟩ := hr
        rw [M.bind_eq_ok] at hr
        obtain ⟨_, w6, _, hr⟩ := hr
        cases hr; exact ⟨rfl, hq, rfl, hq⟩
      | incomplete n =>
        dsimp only at hr
        rw [M.bind_eq_ok] at hr
        obtain ⟨_, w4, _, hr⟩ := hr
        rw [M.bind_eq_ok] at hr
        obtain ⟨_, w5, _, hr⟩ := hr
        split at hr
        · rename_i hend
          cases hr; exact ⟨rfl, hq, rfl, rfl, rfl⟩
        · cases hr; exact ⟨rfl, hq, rfl, rfl⟩
  rw [Source.parse_eq] at hr
  unfold autofilled
  split at hr
  · rename_i hc
    rw [if_pos hc]
    rcases Source.fill_spec chk s h with ⟨h1, _⟩ | ⟨e, s1, xs, h1, h2⟩ | ⟨n, s1, xs, h1, h2⟩
    · rw [h1] at hr; cases hr
    · rw [h1] at hr ⊢
      cases hr
      exact ⟨rfl, h2.request_eq, rfl, h2.state, h1⟩
    · rw [h1] at hr ⊢
      rw [Res.bind_ok] at hr
      exact key _ h2.request_eq hr
  · rename_i hc
    rw [if_neg hc]
    rw [Res.bind_ok] at hr
    exact key s rfl hr

/-- The parser has consumed the front. -/
theorem effect_split {p : Parser σ I T E} (hp : Built everything p) {g : List I} {w w' : σ}
    {r : Except (StreamError I E) T} {s' : Source S B} (h : Effect p g w r s' w') :
    ∃ x, g = x ++ held s' := by
  match r, h with
  | .ok t, h => exact (C05_remainder hp _ _ _ _ _ h).2
  | .error (.parseError b e), h => rw [h.2]; exact C05_error hp _ _ _ _ _ h.1
  | .error (.incomplete _), h => exact ⟨[], h.2.1.symm⟩
  | .error .retry, h => exact ⟨[], h.2.1.symm⟩
  | .error .endOfInput, h => exact ⟨[], by rw [h.2.1, h.2.2.1]; rfl⟩
  | .error (.ioError _), h => exact ⟨[], h.1.symm⟩

/-- Every call of `parse` with a parser assembled from the library is a step of a history. -/
theorem C48_parse_step (chk : Bool) {p : Parser σ I T E} (hp : Built everything p) (s s' : Source S B)
    (h : Usable s) (w w' : σ) (r : Except (StreamError I E) T)
    (hr : s.parse chk p w = .ok ((r, s'), w')) : ∃ x, SourceStep chk s w x s' w' := by
  obtain ⟨_, xs, _, h2, h3⟩ := C48_parse chk hp s s' h w w' r hr
  obtain ⟨x, hx⟩ := effect_split hp h3
  exact ⟨x, .parse p hp hr (h2.trans hx)⟩

/-- No operation loses, duplicates or reorders items: what was held, followed by what was read, is
what was handed out, followed by what is held afterwards. -/
theorem C48_step (chk : Bool) (s s' : Source S B) (h : Usable s) (w w' : σ) (out : List I)
    (hs : SourceStep chk s w out s' w') :
    Usable s' ∧ ∃ xs, Reads s.source xs s'.source ∧ held s ++ xs = out ++ held s' := by
  cases hs with
  | parse p hp hr hx =>
    obtain ⟨h1, xs, h2, h3, _⟩ := C48_parse chk hp s s' h w w' _ hr
    exact ⟨h1, xs, h2, h3.symm.trans hx⟩
  | fill hr =>
    rcases Source.fill_spec chk s h with ⟨h1, _⟩ | ⟨e, s1, xs, h1, h2⟩ | ⟨n, s1, xs, h1, h2⟩
    · rw [h1] at hr; cases hr
    · rw [h1] at hr; cases hr; exact ⟨h2.usable, xs, h2.reads, h2.held.symm⟩
    · rw [h1] at hr; cases hr; exact ⟨h2.usable, xs, h2.reads, h2.held.symm⟩
  | read k hr =>
    rcases Source.read_spec chk k s h with ⟨h1, _⟩ | ⟨e, s1, xs, h1, h2⟩ |
      ⟨n, s1, xs, b, h1, h2, h3, h4, _⟩
    · rw [h1] at hr; cases hr
    · rw [h1] at hr; cases hr
    · rw [h1] at hr
      cases hr
      refine ⟨h3, xs, h2.reads, ?_⟩
      rw [← h2.held, show held { s1 with buffer := b } = (held s1).drop k from h4]
      exact (List.take_append_drop k _).symm
  | readErr k hr =>
    rcases Source.read_spec chk k s h with ⟨h1, _⟩ | ⟨e, s1, xs, h1, h2⟩ |
      ⟨n, s1, xs, b, h1, h2, h3, h4, _⟩
    · rw [h1] at hr; cases hr
    · rw [h1] at hr
      cases hr
      exact ⟨h2.usable, xs, h2.reads, h2.held.symm⟩
    · rw [h1] at hr; cases hr
  | fillBuf hr =>
    rcases Source.fillBuf_spec chk s h with ⟨h1, _⟩ | ⟨e, s1, xs, h1, h2⟩ | ⟨n, s1, xs, h1, h2⟩
    · rw [h1] at hr; cases hr
    · rw [h1] at hr; cases hr; exact ⟨h2.usable, xs, h2.reads, h2.held.symm⟩
    · rw [h1] at hr; cases hr; exact ⟨h2.usable, xs, h2.reads, h2.held.symm⟩
  | consume k hk hr =>
    have hb : LawfulBuffer.Inv s.buffer := h
    obtain ⟨b, h1, h2, h3, _⟩ := LawfulBuffer.consume chk hb hk
    unfold Source.consume at hr
    rw [h1] at hr
    cases hr
    refine ⟨h2, [], .done, ?_⟩
    rw [List.append_nil, show held { s with buffer := b } = (held s).drop k from h3,
      List.take_append_drop]
  | reset => exact ⟨h, [], .done, List.append_nil _⟩
  | setAutofill v => exact ⟨h, [], .done, List.append_nil _⟩

/-- Nor does any history of operations. -/
theorem C48_history (chk : Bool) (s s' : Source S B) (h : Usable s) (w w' : σ) (out : List I)
    (hs : SourceHistory chk s w out s' w') :
    Usable s' ∧ ∃ xs, Reads s.source xs s'.source ∧ held s ++ xs = out ++ held s' := by
  induction hs with
  | done => exact ⟨h, [], .done, List.append_nil _⟩
  | step h1 _ ih =>
    obtain ⟨g1, xs, g2, g3⟩ := C48_step chk _ _ h _ _ _ h1
    obtain ⟨k1, ys, k2, k3⟩ := ih g1
    refine ⟨k1, xs ++ ys, g2.trans k2, ?_⟩
    rw [← List.append_assoc, g3, List.append_assoc, k3, List.append_assoc]

/-- In terms of the stream a source delivers: handed out, then held, then still in the source, is the
original stream. -/
theorem C48_stream {rem : S → List I} {errs : S → Nat} (hd : Delivers S rem errs) (chk : Bool)
    (s s' : Source S B) (h : Usable s) (w w' : σ) (out : List I)
    (hs : SourceHistory chk s w out s' w') :
    held s ++ rem s.source = out ++ held s' ++ rem s'.source := by
  obtain ⟨_, xs, h2, h3⟩ := C48_history chk s s' h w w' out hs
  rw [(h2.rem hd).1, ← List.append_assoc, h3]

/-! ### C46, `Source` -/

/-- `parse` is undefined behaviour only if the parser is, and returns unless the parser does not. -/
theorem C46_source_parse (chk : Bool) (s : Source S B) (h : Usable s) {p : Parser σ I T E}
    (hp : Built everything p) (w : σ) :
    (s.parse chk p w = .ub → ∃ m, p ⟨m, held (autofilled chk s)⟩ w = .ub) ∧
    (s.parse chk p w = .div → ∃ m, p ⟨m, held (autofilled chk s)⟩ w = .div) := by
  have att : ∀ s : Source S B, Usable s →
      (s.attempt chk p w = .ub → ∃ m, p ⟨m, held s⟩ w = .ub) ∧
      (s.attempt chk p w = .div → ∃ m, p ⟨m, held s⟩ w = .div) := by
    intro s h
    by_cases hn : s.state.endOfInput = true ∧ held s = []
    · rw [Source.attempt_end chk p s w h hn.1 hn.2]
      exact ⟨by simp, by simp⟩
    · match hf : p ⟨modeOf s, held s⟩ w with
      | .ok (.data i t, w1) =>
        obtain ⟨b, h1, _⟩ := Source.attempt_data chk hp s w w1 h hn hf
        rw [h1]; exact ⟨by simp, by simp⟩
      | .ok (.error i t, w1) =>
        obtain ⟨b, h1, _⟩ := Source.attempt_error chk hp s w w1 h hn hf
        rw [h1]; exact ⟨by simp, by simp⟩
      | .ok (.incomplete n, w1) =>
        rw [Source.attempt_eq chk p s w h hn, hf, Res.bind_ok]
        have : (∃ x, Source.finish chk s ((.incomplete n, w1) : ParseResult I T E × σ) = .ok x) ∨
            Source.finish chk s ((.incomplete n, w1) : ParseResult I T E × σ) = .panic := by
          unfold Source.finish
          dsimp only
          have hu : (∃ m, uaddB chk (held s).length n = .ok m) ∨
              uaddB chk (held s).length n = .panic := by
            unfold uaddB
            repeat' split
            all_goals first | exact .inl ⟨_, rfl⟩ | exact .inr rfl
          rcases hu with ⟨m, hm⟩ | hm
          · rw [hm, Res.bind_ok]
            split
            · exact .inl ⟨_, rfl⟩
            · exact .inl ⟨_, rfl⟩
          · rw [hm]; exact .inr rfl
        rcases this with ⟨x, hx⟩ | hx <;> rw [hx] <;> exact ⟨by simp, by simp⟩
      | .panic => rw [Source.attempt_eq chk p s w h hn, hf]; exact ⟨by simp, by simp⟩
      | .div => exact ⟨by rw [Source.attempt_eq chk p s w h hn, hf]; simp, fun _ => ⟨_, hf⟩⟩
      | .ub => exact ⟨fun _ => ⟨_, hf⟩, by rw [Source.attempt_eq chk p s w h hn, hf]; simp⟩
  unfold autofilled
  rw [Source.parse_eq]
  split
  · rcases Source.fill_spec chk s h with ⟨h1, _⟩ | ⟨e, s1, xs, h1, h2⟩ | ⟨n, s1, xs, h1, h2⟩
    · rw [h1]; exact ⟨by simp, by simp⟩
    · rw [h1]; exact ⟨by simp, by simp⟩
    · rw [h1]
      exact att _ (show Usable { s1 with state := s1.afterFill } from h2.usable)
  · exact att s h

/-- Nor are the other operations; they always return, and panic only if `request_space` does. -/
theorem C46_source_ops (chk : Bool) (s : Source S B) (h : Usable s) :
    ((∃ x, s.fill chk = .ok x) ∨ s.fill chk = .panic ∧ ∃ n, Buffer.requestSpace chk n s.buffer = .panic) ∧
    ((∃ x, s.fillBuf chk = .ok x) ∨
      s.fillBuf chk = .panic ∧ ∃ n, Buffer.requestSpace chk n s.buffer = .panic) ∧
    (∀ k, (∃ x, s.read chk k = .ok x) ∨
      s.read chk k = .panic ∧ ∃ n, Buffer.requestSpace chk n s.buffer = .panic) ∧
    (∀ k, k ≤ (held s).length → ∃ s', s.consume chk k = .ok s') ∧
    ∃ x, s.bufferSlice = .ok x := by
  have hb : LawfulBuffer.Inv s.buffer := h
  refine ⟨?_, ?_, ?_, ?_, ?_⟩
  · rcases Source.fill_spec chk s h with ⟨h1, _, h2⟩ | ⟨e, s1, xs, h1, h2⟩ | ⟨n, s1, xs, h1, h2⟩
    · exact .inr ⟨h1, _, h2⟩
    · exact .inl ⟨_, h1⟩
    · exact .inl ⟨_, h1⟩
  · rcases Source.fillBuf_spec chk s h with ⟨h1, _, h2⟩ | ⟨e, s1, xs, h1, h2⟩ | ⟨n, s1, xs, h1, h2⟩
    · exact .inr ⟨h1, _, h2⟩
    · exact .inl ⟨_, h1⟩
    · exact .inl ⟨_, h1⟩
  · intro k
    rcases Source.read_spec chk k s h with ⟨h1, _, h2⟩ | ⟨e, s1, xs, h1, h2⟩ | ⟨n, s1, xs, b, h1, h2⟩
    · exact .inr ⟨h1, _, h2⟩
    · exact .inl ⟨_, h1⟩
    · exact .inl ⟨_, h1⟩
  · intro k hk
    obtain ⟨b, h1, _⟩ := LawfulBuffer.consume chk hb hk
    exact ⟨{ s with buffer := b }, by unfold Source.consume; rw [h1]; rfl⟩
  · exact ⟨_, LawfulBuffer.deref hb⟩

/-! ### C49 -/

/-- `fill` returns the number of items it has appended. Either it has satisfied the request, and the
end flag is clear; or the source has returned nothing on the last read, and the end flag is set.
INCOMPLETE is cleared in both cases. An I/O error changes no flags and loses no data: what has been
read before the error is in the buffer. It panics only if `request_space` does. -/
theorem C49_fill (chk : Bool) (s : Source S B) (h : Usable s) :
    (s.fill chk = .panic ∧
      Buffer.requestSpace chk (max 1 s.request - (held s).length) s.buffer = .panic) ∨
    ∃ r s' xs, s.fill chk = .ok (r, s') ∧ Usable s' ∧ s'.request = s.request ∧
      Reads s.source xs s'.source ∧ held s' = held s ++ xs ∧
      match r with
      | .error e => s'.state = s.state ∧
          ∃ k, LastRead s.source xs k (.error e) s'.source
      | .ok n => n = xs.length ∧ s'.state.incomplete = false ∧
          s'.state.automaticFill = s.state.automaticFill ∧
          ((max 1 s.request ≤ (held s').length ∧ s'.state.endOfInput = false) ∨
           ((held s').length < max 1 s.request ∧ s'.state.endOfInput = true ∧
             ∃ k, LastRead s.source xs k (.ok 0) s'.source)) := by
  rcases Source.fill_spec chk s h with ⟨h1, _, h2⟩ | ⟨e, s1, xs, h1, h2⟩ | ⟨n, s1, xs, h1, h2⟩
  · exact .inl ⟨h1, h2⟩
  · exact .inr ⟨_, s1, xs, h1, h2.usable, h2.request_eq, h2.reads, h2.held, h2.state,
      _, (h2.err e rfl).2⟩
  · refine .inr ⟨_, _, xs, h1, h2.usable, h2.request_eq, h2.reads, h2.held, ?_⟩
    obtain ⟨g1, g2⟩ := h2.ok n rfl
    refine ⟨g1, rfl, ?_, ?_⟩
    · show s1.state.automaticFill = _
      rw [h2.state]
    · have e : (s1.afterFill).endOfInput = !decide ((held s1).length ≥ max 1 s.request) := by
        rw [← h2.request_eq]; rfl
      rcases g2 with g2 | ⟨g2, g3⟩
      · exact .inl ⟨g2, by rw [e]; simp [g2]⟩
      · exact .inr ⟨g2, by rw [e]; simp; omega, _, g3⟩

/-- If there is enough in the buffer already, nothing is read. -/
theorem C49_no_read (chk : Bool) (s : Source S B) (h : Usable s) (hl : max 1 s.request ≤ (held s).length) :
    s.fill chk = .ok (.ok 0, { s with state :=
      { s.state with incomplete := false, endOfInput := false } }) := by
  rcases Source.fill_spec chk s h with ⟨_, h1, _⟩ | ⟨e, s1, xs, h1, h2⟩ | ⟨n, s1, xs, h1, h2⟩
  · omega
  · have := (h2.none hl).2
    cases this
  · obtain ⟨rfl, e⟩ := h2.none hl
    cases e
    rw [h1]
    simp [Source.afterFill, hl]

/-- `parse` with INCOMPLETE and automatic fill is `fill` followed by `parse`. -/
theorem C49_autofill (chk : Bool) (s : Source S B) (h : Usable s) (p : Parser σ I T E) (w : σ)
    (h1 : s.state.incomplete = true) (h2 : s.state.automaticFill = true) :
    s.parse chk p w = s.fill chk >>= fun x =>
      match x.1 with
      | .error e => .ok ((.error (.ioError e), x.2), w)
      | .ok _ => x.2.parse chk p w := by
  rw [Source.parse_eq, if_pos (by simp [h1, h2])]
  rcases Source.fill_spec chk s h with ⟨g1, _⟩ | ⟨e, s1, xs, g1, g2⟩ | ⟨n, s1, xs, g1, g2⟩
  · rw [g1]; rfl
  · rw [g1]; rfl
  · rw [g1]
    dsimp only [Res.bind_ok]
    rw [Source.parse_eq, if_neg (by simp [Source.afterFill])]
    rfl

/-- A new source fills its buffer before the parser is run for the first time. -/
theorem C49_new (chk : Bool) (x : S) (b : B) (hb : LawfulBuffer.Inv b) (p : Parser σ I T E) (w : σ) :
    (Source.withBuffer x b).parse chk p w = (Source.withBuffer x b).fill chk >>= fun r =>
      match r.1 with
      | .error e => .ok ((.error (.ioError e), r.2), w)
      | .ok _ => r.2.parse chk p w :=
  C49_autofill chk (Source.withBuffer x b) hb p w rfl rfl

/-! ### C50 -/

/-- If the request fits the buffer, the end is signalled only at the real end. -/
theorem C50_real_end {rem : S → List I} {errs : S → Nat} (hd : Delivers S rem errs) (chk : Bool)
    (s s' : Source S B) (h : Usable s) (n : Nat) (hr : s.fill chk = .ok (.ok n, s'))
    (hc : LawfulBuffer.CanHold s.buffer (max 1 s.request)) (he : s'.state.endOfInput = true) :
    rem s'.source = [] := by
  rcases Source.fill_spec chk s h with ⟨g1, _⟩ | ⟨e, s1, xs, g1, g2⟩ | ⟨n, s1, xs, g1, g2⟩
  · rw [g1] at hr; cases hr
  · rw [g1] at hr; cases hr
  · rw [g1] at hr
    cases hr
    have he : (!decide ((held s1).length ≥ max 1 s1.request)) = true := he
    rw [g2.request_eq] at he
    simp only [ge_iff_le, Bool.not_eq_eq_eq_not, Bool.not_true, decide_eq_false_iff_not,
      Nat.not_le] at he
    rcases (g2.ok _ rfl).2 with g3 | ⟨g3, s2, g4, g5, g6, g7⟩
    · omega
    · have hroom : 0 < LawfulBuffer.room s1.buffer := by
        have hl : (held s1).length = (held s).length + xs.length := by rw [g2.held]; simp
        rcases g2.fits hc with k | k <;> omega
      obtain ⟨k1, _, k2⟩ := hd.ok s2 _ 0 g6
      show rem s1.source = []
      apply Classical.byContradiction
      intro hne
      rw [g7, g5, List.nil_append] at k1
      exact absurd (k2 hroom (by rw [k1]; exact hne)) (by omega)

end

/-- An unlimited `GrowingBuffer` can hold any request up to a quarter of the address space. -/
theorem C50_growing [DataSource S I] [HonestSource S I] {rem : S → List I} {errs : S → Nat}
    (hd : Delivers S rem errs) (chk : Bool)
    (s s' : Source S (GrowingBuffer I)) (h : Usable s) (n : Nat) (hr : s.fill chk = .ok (.ok n, s'))
    (hl : s.buffer.limit = 0) (hq : s.request ≤ 2 ^ 62) (he : s'.state.endOfInput = true) :
    rem s'.source = [] :=
  C50_real_end hd chk s s' h n hr ⟨hl, by omega⟩ he

/-- A `FixedSizeBuffer` can hold any request up to its capacity. -/
theorem C50_fixed [DataSource S I] [HonestSource S I] {rem : S → List I} {errs : S → Nat}
    (hd : Delivers S rem errs) (chk : Bool)
    (s s' : Source S (FixedSizeBuffer I)) (h : Usable s) (n : Nat) (hr : s.fill chk = .ok (.ok n, s'))
    (hq : max 1 s.request ≤ s.capacity) (he : s'.state.endOfInput = true) :
    rem s'.source = [] :=
  C50_real_end hd chk s s' h n hr hq he

/-- A `FixedSizeBuffer` smaller than the request: the end is signalled whatever is left in the
source. -/
theorem C50_false_end [DataSource S I] [HonestSource S I] (chk : Bool)
    (s s' : Source S (FixedSizeBuffer I)) (h : Usable s) (n : Nat) (hr : s.fill chk = .ok (.ok n, s'))
    (hq : s.capacity < max 1 s.request) : s'.state.endOfInput = true := by
  rcases C49_fill chk s h with ⟨g, _⟩ | ⟨r, s1, xs, g1, g2, g3, _, g5, g6⟩
  · rw [g] at hr; cases hr
  · rw [hr] at g1
    cases g1
    rcases g6.2.2.2 with ⟨g7, _⟩ | ⟨_, g7, _⟩
    · exfalso
      have hb : LawfulBuffer.Inv s'.buffer := g2
      have k1 : (held s').length ≤ s'.capacity := by
        have h1 : s'.buffer.populated - s'.buffer.used = (held s').length := MemInv.len hb
        have h2 : s'.buffer.populated ≤ s'.buffer.buffer.length := MemInv.populated_le hb
        have h3 : s'.capacity = s'.buffer.buffer.length := rfl
        omega
      have k2 : s'.capacity = s.capacity := by
        rcases Source.fill_spec chk s h with ⟨h1, _⟩ | ⟨e, s1, xs, h1, h2⟩ | ⟨n, s1, xs, h1, h2⟩
        · rw [h1] at hr; cases hr
        · rw [h1] at hr; cases hr
        · rw [h1] at hr
          cases hr
          by_cases hl : (held s).length < max 1 s.request
          · obtain ⟨b1, a1, _, a2⟩ := h2.space hl
            obtain ⟨b2, a3, _, _, a4, _⟩ := FixedSizeBuffer.requestSpace_inv
              (show s.buffer.Inv from h) chk (max 1 s.request - (held s).length)
            rw [show Buffer.requestSpace chk _ s.buffer = FixedSizeBuffer.requestSpace chk _ s.buffer
              from rfl, a3] at a1
            cases a1
            exact a2.trans a4
          · obtain ⟨rfl, _⟩ := h2.none (by omega)
            rfl
      omega
    · exact g7

/-- Then a parser returns a truncated match: here `take_while` stops after two of three matching items,
because the buffer has size two. -/
theorem C50_witness (chk : Bool) :
    ∃ (b : FixedSizeBuffer Nat) (s1 s2 : Source (Script Nat) (FixedSizeBuffer Nat)),
    FixedSizeBuffer.withSize 2 = .ok b ∧
    (Source.withBuffer (⟨[.data 1 [1, 1, 2]]⟩ : Script Nat) b).parse chk
      (Parsers.takeWhile (· == 1) : Parser Unit Nat (List Nat) (Error Nat)) () =
      .ok ((.error .retry, s1), ()) ∧
    s1.parse chk (Parsers.takeWhile (· == 1) : Parser Unit Nat (List Nat) (Error Nat)) () =
      .ok ((.ok [1, 1], s2), ()) ∧ s2.state.endOfInput = true ∧ s2.source.rem = [1, 2] := by
  cases chk
  · exact ⟨_, _, _, rfl, Source.parse_of_fuel 5 rfl, Source.parse_of_fuel 5 rfl, rfl, rfl⟩
  · exact ⟨_, _, _, rfl, Source.parse_of_fuel 5 rfl, Source.parse_of_fuel 5 rfl, rfl, rfl⟩

/-! ### C54 -/

section
variable {S B I : Type} [DataSource S I] [Buffer B I]

/-- Calls of `parse`, with any parsers whatsoever. -/
inductive _root_.Chomp.Spec.ParseCalls (chk : Bool) : Source S B → σ → Source S B → σ → Prop
  | done {s w} : ParseCalls chk s w s w
  | step {T E : Type} {s s1 s2 : Source S B} {w w1 w2 : σ} (p : Parser σ I T E)
      {r : Except (StreamError I E) T} :
      s.parse chk p w = .ok ((r, s1), w1) → ParseCalls chk s1 w1 s2 w2 → ParseCalls chk s w s2 w2

/-- `reset` keeps everything but the flags. -/
theorem C54_reset (s : Source S B) :
    s.reset.buffer = s.buffer ∧ s.reset.source = s.source ∧ s.reset.request = s.request ∧
      s.reset.state = ⟨false, false, false⟩ := ⟨rfl, rfl, rfl, rfl⟩

/-- After it, no call of `parse` ever touches the data source. -/
theorem C54_no_read (chk : Bool) (s s' : Source S B) (w w' : σ)
    (hc : ParseCalls chk s.reset w s' w') :
    s'.source = s.source ∧ s'.state.automaticFill = false ∧ s'.state.endOfInput = false := by
  have main : ∀ (s : Source S B) (w : σ) (s' : Source S B) (w' : σ), ParseCalls chk s w s' w' →
      s.state.automaticFill = false → s.state.endOfInput = false →
      s'.source = s.source ∧ s'.state.automaticFill = false ∧ s'.state.endOfInput = false := by
    intro s w s' w' hc
    induction hc with
    | done => intro h1 h2; exact ⟨rfl, h1, h2⟩
    | step p hr _ ih =>
      intro h1 h2
      rw [Source.parse_eq, if_neg (by simp [h1])] at hr
      obtain ⟨g1, g2, g3⟩ := Source.attempt_source chk p _ _ _ hr
      obtain ⟨k1, k2⟩ := ih (g2.trans h1) (g3.trans h2)
      exact ⟨k1.trans g1, k2⟩
  exact main s.reset w s' w' hc rfl rfl

/-- `set_autofill(true)` turns it on again, and changes nothing else. -/
theorem C54_autofill (s : Source S B) (v : Bool) :
    (s.setAutofill v).state = { s.state with automaticFill := v } ∧
    (s.setAutofill v).buffer = s.buffer ∧ (s.setAutofill v).source = s.source ∧
    (s.setAutofill v).request = s.request := ⟨rfl, rfl, rfl, rfl⟩

/-- `k` calls of `parse` in a row, all returning `Retry`. -/
inductive _root_.Chomp.Spec.Retries (chk : Bool) (p : Parser σ I T E) :
    Nat → Source S B → σ → Source S B → σ → Prop
  | zero {s w} : Retries chk p 0 s w s w
  | succ {k s w s1 w1 s2 w2} : s.parse chk p w = .ok ((.error .retry, s1), w1) →
      Retries chk p k s1 w1 s2 w2 → Retries chk p (k + 1) s w s2 w2

/-- So a parser which needs more than is in the buffer gets `Retry` for ever. -/
theorem C54_stuck [LawfulBuffer B I] (chk : Bool) (s : Source S B) (h : Usable s)
    (p : Parser σ I T E)
    (hp : ∀ w, ∃ n w', p ⟨.default, held s⟩ w = .ok (.incomplete n, w') ∧
      (held s).length + n ≤ usizeMax) (w : σ) (k : Nat) :
    ∃ s' w', Retries chk p k s.reset w s' w' ∧ held s' = held s ∧ s'.source = s.source := by
  have main : ∀ (k : Nat) (s1 : Source S B) (w : σ), Usable s1 → held s1 = held s →
      s1.source = s.source → s1.state.automaticFill = false → s1.state.endOfInput = false →
      ∃ s' w', Retries chk p k s1 w s' w' ∧ held s' = held s ∧ s'.source = s.source := by
    intro k
    induction k with
    | zero => intro s1 w h1 h2 h3 _ _; exact ⟨s1, w, .zero, h2, h3⟩
    | succ k ih =>
      intro s1 w h1 h2 h3 h4 h5
      obtain ⟨n, w1, hn, hu⟩ := hp w
      have hm : modeOf s1 = .default := by simp [modeOf, h5]
      have hr : s1.parse chk p w = .ok ((.error .retry, { s1 with
          request := (held s).length + n, state := { s1.state with incomplete := true } }), w1) := by
        rw [Source.parse_eq, if_neg (by simp [h4])]
        dsimp only [Res.bind_ok]
        rw [Source.attempt_eq chk p s1 w h1 (by simp [h5]), hm, h2, hn, Res.bind_ok]
        unfold Source.finish
        dsimp only
        rw [h2, uaddB_ok hu, Res.bind_ok, h5]
        rfl
      obtain ⟨s', w', g1, g2⟩ := ih { s1 with
          request := (held s).length + n, state := { s1.state with incomplete := true } } w1
          h1 h2 h3 h4 h5
      exact ⟨s', w', .succ hr g1, g2⟩
  exact main k s.reset w h rfl rfl rfl rfl

end

/-! ### C56 -/

section
variable {S B I : Type} [DataSource S I] [HonestSource S I] [Buffer B I] [LawfulBuffer B I]

/-- `read` delivers the next items in order, as many as are wanted and available, and removes exactly
those. It returns nothing for a slice which is not empty only if nothing was held and the source
returned nothing. After an I/O error nothing is lost. Flags are not touched. -/
theorem C56_read (chk : Bool) (k : Nat) (s : Source S B) (h : Usable s) :
    (s.read chk k = .panic ∧ Buffer.requestSpace chk (k - (held s).length) s.buffer = .panic) ∨
    ∃ r s' xs, s.read chk k = .ok (r, s') ∧ Usable s' ∧ Reads s.source xs s'.source ∧
      s'.state = s.state ∧ s'.request = s.request ∧
      match r with
      | .error e => held s' = held s ++ xs ∧ ∃ l, LastRead s.source xs l (.error e) s'.source
      | .ok ys => held s ++ xs = ys ++ held s' ∧ ys.length = min k (held s ++ xs).length ∧
          (ys.length < k → ∃ l, LastRead s.source xs l (.ok 0) s'.source) := by
  rcases Source.read_spec chk k s h with ⟨h1, _, h2⟩ | ⟨e, s1, xs, h1, h2⟩ |
    ⟨n, s1, xs, b, h1, h2, h3, h4, _⟩
  · exact .inl ⟨h1, h2⟩
  · exact .inr ⟨_, s1, xs, h1, h2.usable, h2.reads, h2.state, h2.request_eq, h2.held, _,
      (h2.err e rfl).2⟩
  · refine .inr ⟨_, _, xs, h1, h3, h2.reads, h2.state, h2.request_eq, ?_, ?_, ?_⟩
    · rw [← h2.held, show held { s1 with buffer := b } = (held s1).drop k from h4]
      exact (List.take_append_drop k _).symm
    · rw [← h2.held, List.length_take]
    · intro hl
      rw [List.length_take] at hl
      rcases (h2.ok n rfl).2 with g | ⟨_, g⟩
      · omega
      · exact ⟨_, g⟩

/-- If nothing needs to be read, nothing is. -/
theorem C56_no_read (chk : Bool) (k : Nat) (s : Source S B) (h : Usable s) (hk : k ≤ (held s).length) :
    ∃ s', s.read chk k = .ok (.ok ((held s).take k), s') ∧ s'.source = s.source ∧
      held s' = (held s).drop k := by
  rcases Source.read_spec chk k s h with ⟨_, h1, _⟩ | ⟨e, s1, xs, h1, h2⟩ |
    ⟨n, s1, xs, b, h1, h2, h3, h4, _⟩
  · omega
  · cases (h2.none hk).2
  · obtain ⟨rfl, _⟩ := h2.none hk
    exact ⟨_, h1, rfl, h4⟩

/-- Returning nothing means the end of the stream, if the buffer can hold what is asked for. -/
theorem C56_end {rem : S → List I} {errs : S → Nat} (hd : Delivers S rem errs) (chk : Bool) (k : Nat)
    (s s' : Source S B) (h : Usable s) (hk : 0 < k) (hr : s.read chk k = .ok (.ok [], s'))
    (hc : LawfulBuffer.CanHold s.buffer k) : held s ++ rem s.source = [] := by
  rcases Source.read_spec chk k s h with ⟨h1, _, h2⟩ | ⟨e, s1, xs, h1, h2⟩ |
    ⟨n, s1, xs, b, h1, h2, h3, h4, _⟩
  · rw [h1] at hr; cases hr
  · rw [h1] at hr; cases hr
  · rw [h1] at hr
    simp only [Res.ok.injEq, Prod.mk.injEq, Except.ok.injEq, List.take_eq_nil_iff] at hr
    have h0 : held s1 = [] := hr.1.resolve_left (by omega)
    have h5 : held s = [] ∧ xs = [] := by
      have := h2.held
      rw [h0] at this
      exact List.append_eq_nil_iff.mp this.symm
    have hroom : 0 < LawfulBuffer.room s1.buffer := by
      rcases h2.fits hc with g | g
      · rw [h5.1] at g; simp at g; omega
      · rw [h0] at g; simp at g; omega
    rcases (h2.ok n rfl).2 with g | ⟨_, s2, g4, g5, g6, g7⟩
    · rw [h0] at g; simp at g; omega
    · have := (g4.rem hd).1
      rw [this, h5.1, h5.2]
      apply Classical.byContradiction
      intro hne
      exact absurd ((hd.ok s2 _ 0 g6).2.2 hroom (by simpa using hne)) (by omega)

/-! ### C57 -/

/-- `fill_buf` exposes everything held and consumes nothing. It reads until the buffer is full or the
source returns nothing. -/
theorem C57_fill_buf (chk : Bool) (s : Source S B) (h : Usable s) :
    (s.fillBuf chk = .panic ∧
      Buffer.requestSpace chk (s.capacity - (held s).length) s.buffer = .panic) ∨
    ∃ r s' xs, s.fillBuf chk = .ok (r, s') ∧ Usable s' ∧ Reads s.source xs s'.source ∧
      held s' = held s ++ xs ∧ s'.state = s.state ∧ s'.request = s.request ∧
      match r with
      | .error e => ∃ l, LastRead s.source xs l (.error e) s'.source
      | .ok ys => ys = held s' ∧
          (ys.length < s.capacity → ∃ l, LastRead s.source xs l (.ok 0) s'.source) := by
  rcases Source.fillBuf_spec chk s h with ⟨h1, _, h2⟩ | ⟨e, s1, xs, h1, h2⟩ | ⟨n, s1, xs, h1, h2⟩
  · exact .inl ⟨h1, h2⟩
  · exact .inr ⟨_, s1, xs, h1, h2.usable, h2.reads, h2.held, h2.state, h2.request_eq, _,
      (h2.err e rfl).2⟩
  · refine .inr ⟨_, s1, xs, h1, h2.usable, h2.reads, h2.held, h2.state, h2.request_eq, rfl, ?_⟩
    intro hl
    rcases (h2.ok n rfl).2 with g | ⟨_, g⟩
    · have : s.capacity = Buffer.capacity s.buffer := rfl
      omega
    · exact ⟨_, g⟩

/-- `consume` removes from the front of what `fill_buf` returned. -/
theorem C57_consume (chk : Bool) (s : Source S B) (h : Usable s) (k : Nat) (hk : k ≤ (held s).length) :
    ∃ s', s.consume chk k = .ok s' ∧ Usable s' ∧ held s' = (held s).drop k ∧
      s'.source = s.source ∧ s'.request = s.request ∧ s'.state = s.state ∧ s'.capacity = s.capacity := by
  have hb : LawfulBuffer.Inv s.buffer := h
  obtain ⟨b, h1, h2, h3, _, h4, _⟩ := LawfulBuffer.consume chk hb hk
  exact ⟨{ s with buffer := b }, by unfold Source.consume; rw [h1]; rfl, h2, h3, rfl, rfl, rfl, h4⟩

/-- Consuming more than there is panics in a debug build. -/
theorem C57_consume_over (s : Source S B) (h : Usable s) (k : Nat) (hk : (held s).length < k) :
    s.consume true k = .panic := by
  unfold Source.consume
  rw [LawfulBuffer.consume_over h hk]
  rfl

/-- A buffer without free cells is not filled. -/
theorem C57_full (chk : Bool) (s : Source S B) (h : Usable s) (hc : s.capacity ≤ (held s).length) :
    s.fillBuf chk = .ok (.ok (held s), s) := by
  rcases Source.fillBuf_spec chk s h with ⟨_, h1, h2⟩ | ⟨e, s1, xs, h1, h2⟩ | ⟨n, s1, xs, h1, h2⟩
  · have : s.capacity = Buffer.capacity s.buffer := rfl
    omega
  · cases (h2.none hc).2
  · obtain ⟨rfl, _⟩ := h2.none hc
    exact h1

end

/-- A fresh `GrowingBuffer` has no capacity: `fill_buf` returns the empty slice, which by the
documentation of `BufRead` means the end of the stream, without reading, on any source. -/
theorem C57_growing [DataSource S I] [HonestSource S I] (chk : Bool) (s : S) (extra : Nat → Nat)
    (limit : Nat) :
    (Source.withBuffer s (GrowingBuffer.withLimit extra limit : GrowingBuffer I)).fillBuf chk =
      .ok (.ok [], Source.withBuffer s (GrowingBuffer.withLimit extra limit)) :=
  C57_full chk _ (GrowingBuffer.withLimit_inv _ _) (Nat.zero_le _)

theorem FixedSizeBuffer.room_of_empty {b b1 : FixedSizeBuffer I} (h : b.Inv) (chk : Bool) (n : Nat)
    (h0 : 0 < n) (hs : 0 < b.buffer.length) (hv : LawfulBuffer.view b = [])
    (hr : Buffer.requestSpace chk n b = .ok b1) : 0 < LawfulBuffer.room b1 := by
  have e : FixedSizeBuffer.requestSpace chk n b = _ := FixedSizeBuffer.requestSpace_eq h chk n
  rw [show Buffer.requestSpace chk n b = FixedSizeBuffer.requestSpace chk n b from rfl, e] at hr
  have hl := h.len
  have hv : (List.drop b.used b.data).length = 0 := by
    rw [show List.drop b.used b.data = [] from hv]; rfl
  have h1 := h.used_le
  have hlen := h.copied.2
  simp only [Res.ok.injEq] at hr
  show 0 < b1.buffer.length - b1.populated
  subst hr
  split
  · dsimp only
    rw [hlen]
    omega
  · omega

theorem fillBuf_empty [DataSource S I] [HonestSource S I] [Buffer B I] [LawfulBuffer B I] {rem : S → List I}
    {errs : S → Nat} (hd : Delivers S rem errs) (chk : Bool) (s s' : Source S B) (h : Usable s)
    (hcap : 0 < s.capacity)
    (hroom : ∀ b1, held s = [] → Buffer.requestSpace chk s.capacity s.buffer = .ok b1 → 0 < LawfulBuffer.room b1)
    (hr : s.fillBuf chk = .ok (.ok [], s')) : held s ++ rem s.source = [] := by
  rcases Source.fillBuf_spec chk s h with ⟨h1, _⟩ | ⟨e, s1, xs, h1, h2⟩ | ⟨n, s1, xs, h1, h2⟩
  · rw [h1] at hr; cases hr
  · rw [h1] at hr; cases hr
  · rw [h1] at hr
    simp only [Res.ok.injEq, Prod.mk.injEq, Except.ok.injEq] at hr
    have h0 := hr.1
    have h5 : held s = [] ∧ xs = [] := by
      have := h2.held
      rw [h0] at this
      exact List.append_eq_nil_iff.mp this.symm
    have hc : s.capacity = Buffer.capacity s.buffer := rfl
    have hroom : 0 < LawfulBuffer.room s1.buffer := by
      obtain ⟨b1, g1, g2, _⟩ := h2.space (by rw [h5.1]; exact hcap)
      have := hroom b1 h5.1 (by rw [h5.1] at g1; exact g1)
      rw [h5.2] at g2
      simp at g2
      omega
    rcases (h2.ok n rfl).2 with g | ⟨_, s2, g4, g5, g6, g7⟩
    · rw [h0] at g; simp at g; omega
    · have := (g4.rem hd).1
      rw [this, h5.1, h5.2]
      apply Classical.byContradiction
      intro hne
      exact absurd ((hd.ok s2 _ 0 g6).2.2 hroom (by simpa using hne)) (by omega)

/-- Over a `FixedSizeBuffer`, `fill_buf` returns the empty slice only at the end of the stream. -/
theorem C57_fixed [DataSource S I] [HonestSource S I] {rem : S → List I} {errs : S → Nat}
    (hd : Delivers S rem errs) (chk : Bool) (s s' : Source S (FixedSizeBuffer I)) (h : Usable s)
    (hcap : 0 < s.capacity) (hr : s.fillBuf chk = .ok (.ok [], s')) :
    held s ++ rem s.source = [] :=
  fillBuf_empty hd chk s s' h hcap
    (fun _ h0 hb => FixedSizeBuffer.room_of_empty h chk _ hcap hcap h0 hb) hr

/-- `request_space` up to the capacity moves the contents and does not allocate. -/
theorem growing_request {b : GrowingBuffer I} (h : b.Inv) (hl : b.limit = 0 ∨ b.cap ≤ b.limit)
    (chk : Bool) : ∃ b', Buffer.requestSpace chk (Buffer.capacity b - (LawfulBuffer.view b).length) b = .ok b' ∧
      Buffer.capacity b - (LawfulBuffer.view b).length ≤ LawfulBuffer.room b' := by
  have hc : b.cap = b.buffer.length := h.2
  have hlen := h.1.len
  have h1 := h.1.used_le
  have h2 := h.1.populated_le
  have h3 := h.1.size
  have h4 := isize_lt
  have hv : LawfulBuffer.view b = b.data.drop b.used := rfl
  have hk : Buffer.capacity b = b.buffer.length := rfl
  rw [show Buffer.requestSpace chk (Buffer.capacity b - (LawfulBuffer.view b).length) b =
    GrowingBuffer.requestSpace chk (Buffer.capacity b - (LawfulBuffer.view b).length) b from rfl,
    GrowingBuffer.requestSpace_eq h, hv, hk, if_neg (by rcases hl with hl | hl <;> omega), uaddB_ok (by omega),
    Res.bind_ok, if_neg (by omega)]
  obtain ⟨b', e, _, _, _, _, hr⟩ := GrowingBuffer.shift_inv h chk (b.buffer.length - (b.data.drop b.used).length)
  exact ⟨b', e, hr (by omega)⟩

/-- Over a `GrowingBuffer` which has some capacity and is not above its limit, `fill_buf` returns the
empty slice only at the end of the stream, too. -/
theorem C57_growing_used [DataSource S I] [HonestSource S I] {rem : S → List I} {errs : S → Nat}
    (hd : Delivers S rem errs) (chk : Bool) (s s' : Source S (GrowingBuffer I)) (h : Usable s)
    (hcap : 0 < s.capacity) (hl : s.buffer.limit = 0 ∨ s.capacity ≤ s.buffer.limit)
    (hr : s.fillBuf chk = .ok (.ok [], s')) :
    held s ++ rem s.source = [] := by
  refine fillBuf_empty hd chk s s' h hcap (fun b1 h0 hb => ?_) hr
  obtain ⟨b', e1, e2⟩ := growing_request h (by rw [h.2]; exact hl) chk
  have hv : LawfulBuffer.view s.buffer = [] := h0
  rw [hv] at e1 e2
  rw [show Buffer.capacity s.buffer - ([] : List I).length = s.capacity from rfl] at e1 e2
  rw [hb] at e1
  cases e1
  omega

/-- And so does `read`, with a slice of any length. -/
theorem C56_fixed [DataSource S I] [HonestSource S I] {rem : S → List I} {errs : S → Nat}
    (hd : Delivers S rem errs) (chk : Bool) (k : Nat) (s s' : Source S (FixedSizeBuffer I))
    (h : Usable s) (hcap : 0 < s.capacity) (hk : 0 < k) (hr : s.read chk k = .ok (.ok [], s')) :
    held s ++ rem s.source = [] := by
  rcases Source.read_spec chk k s h with ⟨h1, _, h2⟩ | ⟨e, s1, xs, h1, h2⟩ |
    ⟨n, s1, xs, b, h1, h2, h3, h4, _⟩
  · rw [h1] at hr; cases hr
  · rw [h1] at hr; cases hr
  · rw [h1] at hr
    simp only [Res.ok.injEq, Prod.mk.injEq, Except.ok.injEq, List.take_eq_nil_iff] at hr
    have h0 : held s1 = [] := hr.1.resolve_left (by omega)
    have h5 : held s = [] ∧ xs = [] := by
      have := h2.held
      rw [h0] at this
      exact List.append_eq_nil_iff.mp this.symm
    have hroom : 0 < LawfulBuffer.room s1.buffer := by
      obtain ⟨b1, g1, g2, _⟩ := h2.space (by rw [h5.1]; exact hk)
      have := FixedSizeBuffer.room_of_empty h chk _ (by rw [h5.1]; simpa using hk) hcap h5.1 g1
      rw [h5.2] at g2
      simp at g2
      omega
    rcases (h2.ok n rfl).2 with g | ⟨_, s2, g4, g5, g6, g7⟩
    · rw [h0] at g; simp at g; omega
    · have := (g4.rem hd).1
      rw [this, h5.1, h5.2]
      apply Classical.byContradiction
      intro hne
      exact absurd ((hd.ok s2 _ 0 g6).2.2 hroom (by simpa using hne)) (by omega)

/-! ### C60, `Source` -/

section
variable {S B I : Type} [DataSource S I] [Buffer B I] [LawfulBuffer B I]

/-- The request is exact, as long as it is a `usize`. -/
theorem C60_exact (chk : Bool) (s : Source S B) (h : Usable s) (p : Parser σ I T E) (w w' : σ) (n : Nat)
    (hf : ¬ (s.state.incomplete = true ∧ s.state.automaticFill = true))
    (hn : ¬ (s.state.endOfInput = true ∧ held s = []))
    (hp : p ⟨modeOf s, held s⟩ w = .ok (.incomplete n, w')) (hu : (held s).length + n ≤ usizeMax) :
    ∃ s', s.parse chk p w = .ok ((.error (if s.state.endOfInput = true
        then .incomplete ((held s).length + n) else .retry), s'), w') ∧
      s'.request = (held s).length + n ∧ held s' = held s := by
  have hf' : ¬ (s.state.incomplete && s.state.automaticFill) = true := by simpa using hf
  rw [Source.parse_eq, if_neg hf']
  dsimp only [Res.bind_ok]
  rw [Source.attempt_eq chk p s w h hn, hp, Res.bind_ok]
  unfold Source.finish
  dsimp only
  rw [uaddB_ok hu, Res.bind_ok]
  cases s.state.endOfInput
  · exact ⟨_, rfl, rfl, rfl⟩
  · exact ⟨_, rfl, rfl, rfl⟩

/-- Beyond, a debug build panics and a release build asks for the wrong number. -/
theorem C60_source (s : Source S B) (h : Usable s) (p : Parser σ I T E) (w w' : σ) (n : Nat)
    (hf : ¬ (s.state.incomplete = true ∧ s.state.automaticFill = true))
    (hn : ¬ (s.state.endOfInput = true ∧ held s = []))
    (hp : p ⟨modeOf s, held s⟩ w = .ok (.incomplete n, w')) (hu : usizeMax < (held s).length + n) :
    s.parse true p w = .panic ∧
    ∃ r s', s.parse false p w = .ok ((r, s'), w') ∧ s'.request = ((held s).length + n) % 2 ^ 64 := by
  have hf' : ¬ (s.state.incomplete && s.state.automaticFill) = true := by simpa using hf
  have hu' : ¬ ((held s).length + n ≤ usizeMax) := by omega
  constructor
  · rw [Source.parse_eq, if_neg hf']
    dsimp only [Res.bind_ok]
    rw [Source.attempt_eq _ p s w h hn, hp, Res.bind_ok]
    simp [Source.finish, uaddB, hu']
  · rw [Source.parse_eq, if_neg hf']
    dsimp only [Res.bind_ok]
    rw [Source.attempt_eq _ p s w h hn, hp, Res.bind_ok]
    simp only [Source.finish, uaddB, hu', if_false, Bool.false_eq_true, Res.bind_ok]
    cases s.state.endOfInput
    · exact ⟨_, _, rfl, rfl⟩
    · exact ⟨_, _, rfl, rfl⟩

end

/-- Reachable: `take(1)` then `take(usize::MAX)` on a stream of one item. -/
theorem C60_source_witness : ∃ b : FixedSizeBuffer Nat, FixedSizeBuffer.withSize 8 = .ok b ∧
    (Source.withBuffer (⟨[.data 7 []]⟩ : Script Nat) b).parse true
      (Parser.andThen id (Parsers.take 1) (Parsers.take usizeMax) :
        Parser Unit Nat (List Nat) (Error Nat)) () = .panic :=
  ⟨_, rfl, Source.parse_of_fuel 5 rfl⟩


/-! ### Examples

The theorems above on a source of three items in two pieces, with an I/O error between them, and a
buffer of size four. -/

namespace Ex

def script : Script Nat := ⟨[.data 1 [2], .err ⟨5⟩, .data 3 []]⟩

def source : Source (Script Nat) (FixedSizeBuffer Nat) :=
  Source.withBuffer script ⟨List.replicate 4 none, 0, 0⟩

theorem usable : Usable source := ((C48_new (S := Script Nat) (B := FixedSizeBuffer Nat)).2.1 4 _ rfl).1

abbrev take2 : Parser Unit Nat (List Nat) (Error Nat) := Parsers.take 2

abbrev built : Built everything take2 := .take 2

/-- The first `take(2)` takes all which has been read; the second one gets `Retry`, an I/O error, and
`Incomplete(2)` at the end, which is with one item in the buffer. -/
theorem run (chk : Bool) : ∃ s1 s2 s3 s4,
    source.parse chk take2 () = .ok ((.ok [1, 2], s1), ()) ∧
    s1.parse chk take2 () = .ok ((.error .retry, s2), ()) ∧
    s2.parse chk take2 () = .ok ((.error (.ioError ⟨5⟩), s3), ()) ∧
    s3.parse chk take2 () = .ok ((.error (.incomplete 2), s4), ()) ∧
    held s4 = [3] ∧ Script.rem s4.source = [] ∧ s4.state.endOfInput = true := by
  cases chk
  · exact ⟨_, _, _, _, Source.parse_of_fuel 5 rfl, Source.parse_of_fuel 5 rfl,
      Source.parse_of_fuel 5 rfl, Source.parse_of_fuel 5 rfl, rfl, rfl, rfl⟩
  · exact ⟨_, _, _, _, Source.parse_of_fuel 5 rfl, Source.parse_of_fuel 5 rfl,
      Source.parse_of_fuel 5 rfl, Source.parse_of_fuel 5 rfl, rfl, rfl, rfl⟩

/-- C49: `take(2)` on the new source is run on what has been read. -/
example (chk : Bool) : source.parse chk take2 () = source.fill chk >>= fun r =>
    match r.1 with
    | .error e => .ok ((.error (.ioError e), r.2), ())
    | .ok _ => r.2.parse chk take2 () := C49_new chk script _ usable take2 ()

/-- C48, C46: all four calls are steps of a history, in which the items handed out are 1 and 2. -/
example (chk : Bool) : ∃ s4, SourceHistory chk source () [1, 2] s4 () ∧ Usable s4 ∧ held s4 = [3] := by
  obtain ⟨s1, s2, s3, s4, h1, h2, h3, h4, h5, h6, _⟩ := run chk
  have u1 := (C48_parse chk built source s1 usable () () _ h1).1
  have u2 := (C48_parse chk built s1 s2 u1 () () _ h2).1
  have u3 := (C48_parse chk built s2 s3 u2 () () _ h3).1
  have u4 := (C48_parse chk built s3 s4 u3 () () _ h4).1
  have ⟨x1, g1⟩ := C48_parse_step chk built source s1 usable () () _ h1
  have ⟨x2, g2⟩ := C48_parse_step chk built s1 s2 u1 () () _ h2
  have ⟨x3, g3⟩ := C48_parse_step chk built s2 s3 u2 () () _ h3
  have ⟨x4, g4⟩ := C48_parse_step chk built s3 s4 u3 () () _ h4
  have hist := SourceHistory.step g1 (.step g2 (.step g3 (.step g4 .done)))
  have all := C48_stream Script.delivers chk source s4 usable () () _ hist
  rw [h5, h6, List.append_nil] at all
  have e : [1, 2] ++ [3] = _ := all
  rw [← List.append_cancel_right e] at hist
  exact ⟨s4, hist, u4, h5⟩

/-- The state after an unsuccessful `take(2)` on one item, with one more in the source. -/
def waiting : Source (Script Nat) (FixedSizeBuffer Nat) :=
  { source with
    source := ⟨[.err ⟨5⟩, .data 3 []]⟩, buffer := ⟨[some 1, some 2, none, none], 2, 1⟩, request := 2 }

theorem waiting_usable : Usable waiting :=
  ⟨by decide, rfl, rfl, by decide⟩

/-- C49: `fill` fails, then succeeds, and the next one finds the end. -/
example (chk : Bool) : ∃ s1 s2 s3,
    waiting.fill chk = .ok (.error ⟨5⟩, s1) ∧ held s1 = [2] ∧ s1.state = waiting.state ∧
    s1.fill chk = .ok (.ok 1, s2) ∧ held s2 = [2, 3] ∧ s2.state.endOfInput = false ∧
    s2.fill chk = .ok (.ok 0, s3) ∧ s3.state.endOfInput = false := by
  cases chk
  · exact ⟨_, _, _, Source.fill_of_fuel (n := 5) rfl, rfl, rfl, Source.fill_of_fuel (n := 5) rfl, rfl, rfl,
      Source.fill_of_fuel (n := 5) rfl, rfl⟩
  · exact ⟨_, _, _, Source.fill_of_fuel (n := 5) rfl, rfl, rfl, Source.fill_of_fuel (n := 5) rfl, rfl, rfl,
      Source.fill_of_fuel (n := 5) rfl, rfl⟩

/-- C49: nothing is read if there is enough. -/
example (chk : Bool) : ∃ s', ({ waiting with request := 1 }).fill chk = .ok (.ok 0, s') ∧
    s'.source = waiting.source :=
  ⟨_, C49_no_read chk { waiting with request := 1 } waiting_usable (by decide), rfl⟩

/-- C50: the request of two fits the buffer, so the end is not signalled here; with nothing left in the
source, it is. -/
example (chk : Bool) : ∃ s', ({ waiting with source := ⟨[]⟩ } : Source (Script Nat) (FixedSizeBuffer Nat)).fill chk = .ok (.ok 0, s') ∧
    s'.state.endOfInput = true ∧ max 1 waiting.request ≤ waiting.capacity := by
  cases chk
  · exact ⟨_, Source.fill_of_fuel (n := 5) rfl, rfl, by decide⟩
  · exact ⟨_, Source.fill_of_fuel (n := 5) rfl, rfl, by decide⟩

/-- C50: a request of five does not fit the buffer of size four. -/
example (chk : Bool) : ∃ s', ({ waiting with source := ⟨[.data 1 [2, 3, 4, 5]]⟩, request := 5 } :
      Source (Script Nat) (FixedSizeBuffer Nat)).fill chk =
      .ok (.ok 3, s') ∧ s'.state.endOfInput = true ∧ s'.source.rem = [4, 5] ∧
    waiting.capacity < max 1 5 := by
  cases chk
  · exact ⟨_, Source.fill_of_fuel (n := 5) rfl, rfl, rfl, by decide⟩
  · exact ⟨_, Source.fill_of_fuel (n := 5) rfl, rfl, rfl, by decide⟩

/-- C54: after `reset`, `take(2)` gets `Retry` on the one item held, a thousand times. -/
example (chk : Bool) : ∃ s' w', Retries chk take2 1000 waiting.reset () s' w' ∧ held s' = [2] ∧
    s'.source.rem = [3] := by
  obtain ⟨s', w', h1, h2, h3⟩ := C54_stuck chk waiting waiting_usable take2
    (fun w => ⟨1, w, rfl, by decide⟩) () 1000
  exact ⟨s', w', h1, h2, by rw [h3]; rfl⟩

/-- C56: `read` of three items gets an I/O error, then two; the end comes with an empty result. -/
example (chk : Bool) : ∃ s1 s2 s3 s4,
    waiting.read chk 1 = .ok (.ok [2], s1) ∧ s1.read chk 2 = .ok (.error ⟨5⟩, s2) ∧
    s2.read chk 2 = .ok (.ok [3], s3) ∧ s3.read chk 2 = .ok (.ok [], s4) ∧
    1 ≤ (held waiting).length ∧ held s3 ++ s3.source.rem = [] := by
  cases chk
  · exact ⟨_, _, _, _, Source.read_of_fuel 5 rfl, Source.read_of_fuel 5 rfl, Source.read_of_fuel 5 rfl,
      Source.read_of_fuel 5 rfl, by decide, rfl⟩
  · exact ⟨_, _, _, _, Source.read_of_fuel 5 rfl, Source.read_of_fuel 5 rfl, Source.read_of_fuel 5 rfl,
      Source.read_of_fuel 5 rfl, by decide, rfl⟩

/-- C57: `fill_buf` gets an I/O error, then exposes both items. -/
example (chk : Bool) : ∃ s1 s2 s3,
    waiting.fillBuf chk = .ok (.error ⟨5⟩, s1) ∧ s1.fillBuf chk = .ok (.ok [2, 3], s2) ∧
    s2.consume chk 1 = .ok s3 ∧ held s3 = [3] := by
  cases chk
  · exact ⟨_, _, _, Source.fillBuf_of_fuel 5 rfl, Source.fillBuf_of_fuel 5 rfl, rfl, rfl⟩
  · exact ⟨_, _, _, Source.fillBuf_of_fuel 5 rfl, Source.fillBuf_of_fuel 5 rfl, rfl, rfl⟩

/-- C60: `take(2)` records a request for two items, `take(2^64 - 1)` cannot. -/
example (chk : Bool) : ∃ s', waiting.reset.parse chk take2 () = .ok ((.error .retry, s'), ()) ∧
    s'.request = 2 := by
  obtain ⟨s', h1, h2, _⟩ := C60_exact chk waiting.reset waiting_usable take2 () () 1 (by decide) (by decide)
    rfl (by decide)
  exact ⟨s', h1, h2⟩

end Ex
end Chomp.Props
