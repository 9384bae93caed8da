import Verif.Lemmas.Own
import Verif.Props.Built
import Verif.Props.Retry

/-
C117: `Source` on top of buffers which users write themselves.

What such a buffer has to do is `OwnBuffer` of Verif/Spec/Own.lean. It is less than what the buffers of the crate do: `fill`
may read as often as it likes, claim less than it has read, and return with an error what it has read before.
-/

set_option linter.unusedSectionVars false

namespace Chomp.Props

open Own
open Spec (Built everything streaming autofilled modeOf LastRead retry)

section
variable {S B I : Type} [DataSource S I] [HonestSource S I] [Buffer B I] [OwnBuffer B I]

/-- `fill` keeps all that it reads. It panics only if `request_space` does. The number it returns is not more than what it has
read. It sets the end flag exactly if the request is not satisfied; then the source has returned nothing on the last read,
provided that the buffer can hold the request. An error is that of the last read, and changes no flags. -/
theorem C117_fill (chk : Bool) (s : Source S B) (h : Usable s) :
    (s.fill chk = .panic ∧ Buffer.requestSpace chk (max 1 s.request - (held s).length) s.buffer = .panic) ∨
    ∃ r s' xs, s.fill chk = .ok (r, s') ∧ Usable s' ∧ s'.request = s.request ∧ Reads s.source xs s'.source ∧
      held s' = held s ++ xs ∧ (∀ t, OwnBuffer.Holds s.buffer t → OwnBuffer.Holds s'.buffer t) ∧
      match r with
      | .ok n => n ≤ xs.length ∧ s'.state.incomplete = false ∧ s'.state.automaticFill = s.state.automaticFill ∧
          (s'.state.endOfInput = true ↔ (held s').length < max 1 s.request) ∧
          (s'.state.endOfInput = true → OwnBuffer.Holds s.buffer (max 1 s.request) →
            ∃ k, 0 < k ∧ LastRead s.source xs k (.ok 0) s'.source)
      | .error e => s'.state = s.state ∧ ∃ k, LastRead s.source xs k (.error e) s'.source := by
  rcases fill_spec chk s h with ⟨h1, _, h2⟩ | ⟨e, s1, xs, h1, h2⟩ | ⟨n, s1, xs, h1, h2⟩
  · exact .inl ⟨h1, h2⟩
  · exact .inr ⟨_, s1, xs, h1, h2.usable, h2.request_eq, h2.reads, h2.held, h2.hold, h2.state, h2.err e rfl⟩
  · obtain ⟨g1, g2⟩ := h2.ok n rfl
    have hflag : (afterFill s1).endOfInput = true ↔ (held s1).length < max 1 s.request := by
      show (!decide ((held s1).length ≥ max 1 s1.request)) = true ↔ _
      rw [h2.request_eq]; simp
    refine .inr ⟨_, _, xs, h1, h2.usable, h2.request_eq, h2.reads, h2.held, h2.hold, g1, rfl, ?_, hflag, fun he hc => ?_⟩
    · show s1.state.automaticFill = _
      rw [h2.state]
    · rcases g2 with g2 | g2
      · have := hflag.mp he; omega
      · exact g2 hc

/-- `read` of the `io::Read` interface hands out the front of what is held, after reading if less than `k` items are held. If
it hands out less than `k` items, then the source has returned nothing on the last read, provided that the buffer can
hold `k` items. -/
theorem C117_read (chk : Bool) (k : Nat) (s : Source S B) (h : Usable s) :
    (s.read chk k = .panic ∧ Buffer.requestSpace chk (k - (held s).length) s.buffer = .panic) ∨
    ∃ r s' xs, s.read chk k = .ok (r, s') ∧ Usable s' ∧ s'.state = s.state ∧ s'.request = s.request ∧
      Reads s.source xs s'.source ∧ (k ≤ (held s).length → xs = [] ∧ s'.source = s.source) ∧
      match r with
      | .ok out => out = (held s ++ xs).take k ∧ held s' = (held s ++ xs).drop k ∧
          (out.length < k → OwnBuffer.Holds s.buffer k → ∃ m, 0 < m ∧ LastRead s.source xs m (.ok 0) s'.source)
      | .error e => held s' = held s ++ xs ∧ ∃ m, LastRead s.source xs m (.error e) s'.source := by
  have hx : ∀ {s1 : Source S B} {xs : List I} {r}, Filled k s r s1 xs → k ≤ (held s).length →
      xs = [] ∧ s1.source = s.source := by
    intro s1 xs r h2 hk
    have e := (h2.none hk).1
    have := h2.held
    rw [e] at this
    exact ⟨List.self_eq_append_right.mp this, by rw [e]⟩
  rcases read_spec chk k s h with ⟨h1, _, h2⟩ | ⟨e, s1, xs, h1, h2⟩ | ⟨n, s1, xs, b, h1, h2, h3, h4, _⟩
  · exact .inl ⟨h1, h2⟩
  · exact .inr ⟨_, s1, xs, h1, h2.usable, h2.state, h2.request_eq, h2.reads, hx h2, h2.held, h2.err e rfl⟩
  · refine .inr ⟨_, _, xs, h1, h3, h2.state, h2.request_eq, h2.reads, (fun hk => (hx h2 hk :)), by rw [h2.held], ?_, fun hlt hc => ?_⟩
    · rw [← h2.held]; exact h4
    · rcases (h2.ok n rfl).2 with g | g
      · rw [List.length_take] at hlt; omega
      · exact g hc

/-- `fill_buf` shows all that is held, after reading up to the capacity of the buffer. -/
theorem C117_fillBuf (chk : Bool) (s : Source S B) (h : Usable s) :
    (s.fillBuf chk = .panic ∧
      Buffer.requestSpace chk (Buffer.capacity s.buffer - (held s).length) s.buffer = .panic) ∨
    ∃ r s' xs, s.fillBuf chk = .ok (r, s') ∧ Usable s' ∧ s'.state = s.state ∧ s'.request = s.request ∧
      Reads s.source xs s'.source ∧ held s' = held s ++ xs ∧
      match r with
      | .ok out => out = held s ++ xs
      | .error e => ∃ m, LastRead s.source xs m (.error e) s'.source := by
  rcases fillBuf_spec chk s h with ⟨h1, _, h2⟩ | ⟨e, s1, xs, h1, h2⟩ | ⟨n, s1, xs, h1, h2⟩
  · exact .inl ⟨h1, h2⟩
  · exact .inr ⟨_, s1, xs, h1, h2.usable, h2.state, h2.request_eq, h2.reads, h2.held, h2.err e rfl⟩
  · exact .inr ⟨_, s1, xs, h1, h2.usable, h2.state, h2.request_eq, h2.reads, h2.held, h2.held⟩

/-- `parse` runs the parser on what was held and what it has read, and keeps what the parser leaves. -/
theorem C117_parse (chk : Bool) {p : Parser σ I T E} (hp : Built everything p) (s s' : Source S B)
    (h : Usable s) (w w' : σ) (r : Except (StreamError I E) T) (hr : s.parse chk p w = .ok ((r, s'), w')) :
    Usable s' ∧ ∃ xs, Reads s.source xs s'.source ∧ held (autofilled chk s) = held s ++ xs ∧
      Effect p (held s ++ xs) w r s' w' := by
  rw [Source.parse_eq] at hr
  unfold autofilled
  split at hr
  · rename_i hc
    rw [if_pos hc]
    rcases fill_spec chk s h with ⟨h1, _⟩ | ⟨e, s1, xs, h1, h2⟩ | ⟨n, s1, xs, h1, h2⟩
    · rw [h1] at hr; cases hr
    · rw [h1] at hr ⊢
      cases hr
      exact ⟨h2.usable, xs, h2.reads, h2.held, h2.held, rfl⟩
    · rw [h1] at hr ⊢
      rw [Res.bind_ok] at hr
      dsimp only at hr ⊢
      obtain ⟨g1, g2, g3, _⟩ := attempt_effect chk hp { s1 with state := afterFill s1 } w w' h2.usable hr
      refine ⟨g1, xs, by rw [g2]; exact h2.reads, h2.held, ?_⟩
      rw [← h2.held]
      exact g3
  · rename_i hc
    rw [if_neg hc]
    rw [Res.bind_ok] at hr
    dsimp only at hr
    obtain ⟨g1, g2, g3, _⟩ := attempt_effect chk hp s w w' h hr
    refine ⟨g1, [], by rw [g2]; exact .done, by simp, ?_⟩
    rw [List.append_nil]
    exact g3

/-- Every call of `parse` with a parser assembled from the library is a step of a history. -/
theorem C117_parse_step (chk : Bool) {p : Parser σ I T E} (hp : Built everything p) (s s' : Source S B) (h : Usable s)
    (w w' : σ) (r : Except (StreamError I E) T) (hr : s.parse chk p w = .ok ((r, s'), w')) :
    ∃ x, Step chk s w x s' w' := by
  obtain ⟨_, xs, _, h2, h3⟩ := C117_parse chk hp s s' h w w' r hr
  have hx : ∃ x, held s ++ xs = x ++ held s' := by
    generalize held s ++ xs = g at h3
    match r, h3 with
    | .ok t, h => exact (C05_remainder hp _ _ _ _ _ h).2
    | .error (.parseError b e), h => rw [h.2]; exact C05_error hp _ _ _ _ _ h.1
    | .error (.incomplete _), h => exact ⟨[], h.2.1.symm⟩
    | .error .retry, h => exact ⟨[], h.2.1.symm⟩
    | .error .endOfInput, h => exact ⟨[], by rw [h.2.1, h.2.2.1]; rfl⟩
    | .error (.ioError _), h => exact ⟨[], h.1.symm⟩
  obtain ⟨x, hx⟩ := hx
  exact ⟨x, .parse p hp hr (h2.trans hx)⟩

/-- No operation loses, duplicates or reorders items: what was held, followed by what was read, is what was handed out,
followed by what is held afterwards. -/
theorem C117_step (chk : Bool) (s s' : Source S B) (h : Usable s) (w w' : σ) (out : List I)
    (hs : Step chk s w out s' w') :
    Usable s' ∧ ∃ xs, Reads s.source xs s'.source ∧ held s ++ xs = out ++ held s' := by
  cases hs with
  | parse p hp hr hx =>
    obtain ⟨h1, xs, h2, h3, _⟩ := C117_parse chk hp s s' h w w' _ hr
    exact ⟨h1, xs, h2, h3.symm.trans hx⟩
  | fill hr =>
    rcases fill_spec chk s h with ⟨h1, _⟩ | ⟨e, s1, xs, h1, h2⟩ | ⟨n, s1, xs, h1, h2⟩
    · rw [h1] at hr; cases hr
    · rw [h1] at hr; cases hr; exact ⟨h2.usable, xs, h2.reads, h2.held.symm⟩
    · rw [h1] at hr; cases hr; exact ⟨h2.usable, xs, h2.reads, h2.held.symm⟩
  | read k hr =>
    rcases read_spec chk k s h with ⟨h1, _⟩ | ⟨e, s1, xs, h1, h2⟩ | ⟨n, s1, xs, b, h1, h2, h3, h4, _⟩
    · rw [h1] at hr; cases hr
    · rw [h1] at hr; cases hr
    · rw [h1] at hr
      cases hr
      refine ⟨h3, xs, h2.reads, ?_⟩
      rw [← h2.held, show held { s1 with buffer := b } = (held s1).drop k from h4]
      exact (List.take_append_drop k _).symm
  | readErr k hr =>
    rcases read_spec chk k s h with ⟨h1, _⟩ | ⟨e, s1, xs, h1, h2⟩ | ⟨n, s1, xs, b, h1, h2, h3, h4, _⟩
    · rw [h1] at hr; cases hr
    · rw [h1] at hr
      cases hr
      exact ⟨h2.usable, xs, h2.reads, h2.held.symm⟩
    · rw [h1] at hr; cases hr
  | fillBuf hr =>
    rcases fillBuf_spec chk s h with ⟨h1, _⟩ | ⟨e, s1, xs, h1, h2⟩ | ⟨n, s1, xs, h1, h2⟩
    · rw [h1] at hr; cases hr
    · rw [h1] at hr; cases hr; exact ⟨h2.usable, xs, h2.reads, h2.held.symm⟩
    · rw [h1] at hr; cases hr; exact ⟨h2.usable, xs, h2.reads, h2.held.symm⟩
  | consume k hk hr =>
    have hb : OwnBuffer.Inv s.buffer := h
    obtain ⟨b, h1, h2, h3, _⟩ := OwnBuffer.consume chk hb hk
    unfold Source.consume at hr
    rw [h1] at hr
    cases hr
    refine ⟨h2, [], .done, ?_⟩
    rw [List.append_nil, show held { s with buffer := b } = (held s).drop k from h3, List.take_append_drop]
  | reset => exact ⟨h, [], .done, List.append_nil _⟩
  | setAutofill v => exact ⟨h, [], .done, List.append_nil _⟩

/-- Nor does any history of operations. -/
theorem C117_history (chk : Bool) (s s' : Source S B) (h : Usable s) (w w' : σ) (out : List I)
    (hs : History chk s w out s' w') :
    Usable s' ∧ ∃ xs, Reads s.source xs s'.source ∧ held s ++ xs = out ++ held s' := by
  induction hs with
  | done => exact ⟨h, [], .done, List.append_nil _⟩
  | step h1 _ ih =>
    obtain ⟨g1, xs, g2, g3⟩ := C117_step chk _ _ h _ _ _ h1
    obtain ⟨k1, ys, k2, k3⟩ := ih g1
    refine ⟨k1, xs ++ ys, g2.trans k2, ?_⟩
    rw [← List.append_assoc, g3, List.append_assoc, k3, List.append_assoc]

/-- In terms of the stream a source delivers: handed out, then held, then still in the source, is the original stream. -/
theorem C117_stream {rem : S → List I} {errs : S → Nat} (hd : Delivers S rem errs) (chk : Bool) (s s' : Source S B)
    (h : Usable s) (w w' : σ) (out : List I) (hs : History chk s w out s' w') :
    ahead rem s = out ++ ahead rem s' := by
  obtain ⟨_, xs, h2, h3⟩ := C117_history chk s s' h w w' out hs
  unfold ahead
  rw [(h2.rem hd).1, ← List.append_assoc, h3, List.append_assoc]

/-- The retry loop gives what the parser gives on all of the data at once, and leaves the stream at the same position. -/
theorem C117_retry {rem : S → List I} {errs : S → Nat} (hd : Delivers S rem errs) (chk : Bool) {p : Parser Unit I T E}
    (hp : Built streaming p) (s : Source S B) (h : Ready rem s) (hne : ahead rem s ≠ [])
    (hfit : Fits p s.buffer (ahead rem s)) :
    Agrees rem s (p ⟨.endOfInput, ahead rem s⟩ ()) (retry chk p s ()) :=
  Own.retry_agrees hd chk rfl hp hp.anything s h hne hfit

/-- Two ways to cut the same data, through any two buffers, in debug or release builds: the same answer, and the same position
afterwards. -/
theorem C117_chunking {S' B' : Type} [DataSource S' I] [HonestSource S' I] [Buffer B' I] [OwnBuffer B' I]
    {rem : S → List I} {errs : S → Nat} (hd : Delivers S rem errs) {rem' : S' → List I} {errs' : S' → Nat}
    (hd' : Delivers S' rem' errs') (chk chk' : Bool) {p : Parser Unit I T E} (hp : Built streaming p) (s : Source S B)
    (s' : Source S' B') (h : Ready rem s) (h' : Ready rem' s') (hsame : ahead rem s = ahead rem' s')
    (hne : ahead rem s ≠ []) (hfit : Fits p s.buffer (ahead rem s)) (hfit' : Fits p s'.buffer (ahead rem' s')) :
    (∃ r t r' t', retry chk p s () = .ok ((r, t), ()) ∧ retry chk' p s' () = .ok ((r', t'), ()) ∧
      Spec.SameAnswer r r' ∧ ahead rem t = ahead rem' t' ∧ Ready rem t ∧ Ready rem' t') ∨
    (retry chk p s () = .panic ∧ retry chk' p s' () = .panic) ∨
    (retry chk p s () = .ub ∧ retry chk' p s' () = .ub) ∨
    (retry chk p s () = .div ∧ retry chk' p s' () = .div) := by
  have a := C117_retry hd chk hp s h hne hfit
  have b := C117_retry hd' chk' hp s' h' (by rw [← hsame]; exact hne) hfit'
  rw [← hsame] at b
  match hx : p ⟨.endOfInput, ahead rem s⟩ () with
  | .ok (.data i t, u) =>
    rw [hx] at a b
    obtain ⟨t1, a1, a2, a3⟩ := a
    obtain ⟨t2, b1, b2, b3⟩ := b
    exact .inl ⟨_, _, _, _, a1, b1, rfl, a2.trans b2.symm, a3.1, b3.1⟩
  | .ok (.error _ e, u) =>
    rw [hx] at a b
    obtain ⟨t1, a1, a2, a3⟩ := a
    obtain ⟨t2, b1, b2, b3⟩ := b
    exact .inl ⟨_, _, _, _, a1, b1, rfl, a2.trans b2.symm, a3.1, b3.1⟩
  | .ok (.incomplete n, u) =>
    rw [hx] at a b
    obtain ⟨t1, a1, a2, a3⟩ := a
    obtain ⟨t2, b1, b2, b3⟩ := b
    exact .inl ⟨_, _, _, _, a1, b1, by rw [hsame]; rfl, by rw [a2, b2, hsame], a3.1, b3.1⟩
  | .panic => rw [hx] at a b; exact .inr (.inl ⟨a, b⟩)
  | .ub => rw [hx] at a b; exact .inr (.inr (.inl ⟨a, b⟩))
  | .div => rw [hx] at a b; exact .inr (.inr (.inr ⟨a, b⟩))

/-- New sources are ready, if the buffer can hold something. -/
theorem C117_new (rem : S → List I) (s : S) (b : B) (hb : OwnBuffer.Inv b) (hc : OwnBuffer.Holds b 1) :
    Ready rem (Source.withBuffer s b) ∧ ahead rem (Source.withBuffer s b) = OwnBuffer.view b ++ rem s :=
  ⟨⟨hb, rfl, nofun, fun _ => hc⟩, rfl⟩

/-- The operations other than `parse` always return, and panic only if `request_space` does. -/
theorem C117_returns (chk : Bool) (s : Source S B) (h : Usable s) :
    ((∃ x, s.fill chk = .ok x) ∨ s.fill chk = .panic ∧ ∃ n, Buffer.requestSpace chk n s.buffer = .panic) ∧
    ((∃ x, s.fillBuf chk = .ok x) ∨ s.fillBuf chk = .panic ∧ ∃ n, Buffer.requestSpace chk n s.buffer = .panic) ∧
    (∀ k, (∃ x, s.read chk k = .ok x) ∨
      s.read chk k = .panic ∧ ∃ n, Buffer.requestSpace chk n s.buffer = .panic) ∧
    (∀ k, k ≤ (held s).length → ∃ s', s.consume chk k = .ok s') ∧
    s.bufferSlice = .ok (held s) ∧ s.len chk = .ok (held s).length ∧
    s.isEmpty chk = .ok (decide (s.state.endOfInput = true ∧ held s = [])) := by
  have hb : OwnBuffer.Inv s.buffer := h
  refine ⟨?_, ?_, ?_, ?_, OwnBuffer.deref hb, OwnBuffer.len chk hb, isEmpty_eq chk s h⟩
  · rcases C117_fill chk s h with ⟨h1, h2⟩ | ⟨r, s', xs, h1, _⟩
    · exact .inr ⟨h1, _, h2⟩
    · exact .inl ⟨_, h1⟩
  · rcases C117_fillBuf chk s h with ⟨h1, h2⟩ | ⟨r, s', xs, h1, _⟩
    · exact .inr ⟨h1, _, h2⟩
    · exact .inl ⟨_, h1⟩
  · intro k
    rcases C117_read chk k s h with ⟨h1, h2⟩ | ⟨r, s', xs, h1, _⟩
    · exact .inr ⟨h1, _, h2⟩
    · exact .inl ⟨_, h1⟩
  · intro k hk
    obtain ⟨b, h1, _⟩ := OwnBuffer.consume chk hb hk
    exact ⟨{ s with buffer := b }, by unfold Source.consume; rw [h1]; rfl⟩

/-- `parse` too returns, unless the parser does not. It panics only if `request_space` does, or the parser, or because the
request of the parser does not fit `usize`. -/
theorem C117_parse_returns (chk : Bool) (s : Source S B) (h : Usable s) {p : Parser σ I T E} (hp : Built everything p)
    (w : σ) :
    (s.parse chk p w = .ub → ∃ m, p ⟨m, held (autofilled chk s)⟩ w = .ub) ∧
    (s.parse chk p w = .div → ∃ m, p ⟨m, held (autofilled chk s)⟩ w = .div) ∧
    (s.parse chk p w = .panic → (∃ n, Buffer.requestSpace chk n s.buffer = .panic) ∨
      (∃ m, p ⟨m, held (autofilled chk s)⟩ w = .panic) ∨
      ∃ m n w', p ⟨m, held (autofilled chk s)⟩ w = .ok (.incomplete n, w') ∧
        usizeMax < (held (autofilled chk s)).length + n) := by
  have att : ∀ s : Source S B, Usable s →
      (s.attempt chk p w = .ub → ∃ m, p ⟨m, held s⟩ w = .ub) ∧
      (s.attempt chk p w = .div → ∃ m, p ⟨m, held s⟩ w = .div) ∧
      (s.attempt chk p w = .panic → (∃ m, p ⟨m, held s⟩ w = .panic) ∨
        ∃ m n w', p ⟨m, held s⟩ w = .ok (.incomplete n, w') ∧ usizeMax < (held s).length + n) := by
    intro s h
    by_cases hn : s.state.endOfInput = true ∧ held s = []
    · rw [attempt_end chk p s w h hn.1 hn.2]
      exact ⟨nofun, nofun, nofun⟩
    · match hf : p ⟨modeOf s, held s⟩ w with
      | .ok (.data i t, w1) =>
        obtain ⟨b, h1, _⟩ := attempt_data chk hp s w w1 h hn hf
        rw [h1]; exact ⟨nofun, nofun, nofun⟩
      | .ok (.error i t, w1) =>
        obtain ⟨b, h1, _⟩ := attempt_error chk hp s w w1 h hn hf
        rw [h1]; exact ⟨nofun, nofun, nofun⟩
      | .ok (.incomplete n, w1) =>
        rw [attempt_eq chk p s w h hn, hf, Res.bind_ok]
        by_cases hu : (held s).length + n ≤ usizeMax
        · have : ∃ x, finish chk s ((.incomplete n, w1) : ParseResult I T E × σ) = .ok x := by
            unfold finish
            dsimp only
            rw [uaddB_ok hu, Res.bind_ok]
            split <;> exact ⟨_, rfl⟩
          obtain ⟨x, hx⟩ := this
          rw [hx]; exact ⟨nofun, nofun, nofun⟩
        · have : (∃ x, finish chk s ((.incomplete n, w1) : ParseResult I T E × σ) = .ok x) ∨
              finish chk s ((.incomplete n, w1) : ParseResult I T E × σ) = .panic := by
            unfold finish
            dsimp only
            have hu : (∃ m, uaddB chk (held s).length n = .ok m) ∨ uaddB chk (held s).length n = .panic := by
              unfold uaddB
              repeat' split
              all_goals first | exact .inl ⟨_, rfl⟩ | exact .inr rfl
            rcases hu with ⟨m, hm⟩ | hm
            · rw [hm, Res.bind_ok]
              split <;> exact .inl ⟨_, rfl⟩
            · rw [hm]; exact .inr rfl
          rcases this with ⟨x, hx⟩ | hx
          · rw [hx]; exact ⟨nofun, nofun, nofun⟩
          · rw [hx]; exact ⟨nofun, nofun, fun _ => .inr ⟨_, n, w1, hf, by omega⟩⟩
      | .panic => exact ⟨by rw [attempt_eq chk p s w h hn, hf]; exact nofun,
          by rw [attempt_eq chk p s w h hn, hf]; exact nofun, fun _ => .inl ⟨_, hf⟩⟩
      | .div => exact ⟨by rw [attempt_eq chk p s w h hn, hf]; exact nofun, fun _ => ⟨_, hf⟩,
          by rw [attempt_eq chk p s w h hn, hf]; exact nofun⟩
      | .ub => exact ⟨fun _ => ⟨_, hf⟩, by rw [attempt_eq chk p s w h hn, hf]; exact nofun,
          by rw [attempt_eq chk p s w h hn, hf]; exact nofun⟩
  unfold autofilled
  rw [Source.parse_eq]
  split
  · rcases fill_spec chk s h with ⟨h1, _, h2⟩ | ⟨e, s1, xs, h1, h2⟩ | ⟨n, s1, xs, h1, h2⟩
    · rw [h1]; exact ⟨nofun, nofun, fun _ => .inl ⟨_, h2⟩⟩
    · rw [h1]; exact ⟨nofun, nofun, nofun⟩
    · rw [h1]
      obtain ⟨k1, k2, k3⟩ := att _ (show Usable { s1 with state := afterFill s1 } from h2.usable)
      exact ⟨k1, k2, fun h => .inr (k3 h)⟩
  · obtain ⟨k1, k2, k3⟩ := att s h
    exact ⟨k1, k2, fun h => .inr (k3 h)⟩

/-- The retry loop ends on every finite stream, for every parser which terminates and asks for at least one item; whether or
not its requests fit the buffer. -/
theorem C117_terminates {rem : S → List I} {errs : S → Nat} (hd : Delivers S rem errs) (chk : Bool)
    {p : Parser σ I T E} (hp : Built everything p) (hdiv : ∀ i w, p i w ≠ .div) (s : Source S B)
    (h : Usable s) (ha : s.state.automaticFill = true)
    (hq : ∀ x y w n w', ahead rem s = x ++ y → p ⟨.default, x⟩ w = .ok (.incomplete n, w') →
      1 ≤ n ∧ x.length + n ≤ usizeMax) (w : σ) : retry chk p s w ≠ .div := by
  generalize hm : Own.todo rem errs s = m
  induction m using Nat.strongRecOn generalizing s w with
  | _ m ih =>
    rw [retry_eq]
    match hr : s.parse chk p w with
    | .ok ((r, s'), w') =>
      rw [Res.bind_ok]
      have next : (r = .error .retry ∨ ∃ e, r = .error (.ioError e)) → retry chk p s' w' ≠ .div := by
        intro hn
        obtain ⟨g1, g2, g3, g4⟩ := Own.parse_again hd chk s s' h ha hq hr hn
        exact ih _ (hm ▸ g4) s' g1 g2 (by rw [g3]; exact hq) w' rfl
      match r with
      | .error .retry => exact next (.inl rfl)
      | .error (.ioError e) => exact next (.inr ⟨e, rfl⟩)
      | .error .endOfInput => exact nofun
      | .error (.incomplete n) => exact nofun
      | .error (.parseError b e) => exact nofun
      | .ok t => exact nofun
    | .panic => exact nofun
    | .ub => exact nofun
    | .div =>
      obtain ⟨m, hm⟩ := (C117_parse_returns chk s h hp w).2.1 hr
      exact absurd hm (hdiv _ _)

end

/-! ### Any buffer -/

section
variable {S B I : Type} [DataSource S I] [Buffer B I]

/-- Whatever the methods of the buffer do, as long as they have no undefined behaviour of their own, and whatever the source
and the parser do, no operation of `Source` has undefined behaviour. -/
theorem C117_safe (hb : Harmless B) (chk : Bool) (s : Source S B) :
    s.fill chk ≠ .ub ∧ s.fillBuf chk ≠ .ub ∧ (∀ k, s.read chk k ≠ .ub) ∧ (∀ k, s.consume chk k ≠ .ub) ∧
    s.bufferSlice ≠ .ub ∧ s.len chk ≠ .ub ∧ s.isEmpty chk ≠ .ub ∧
    ∀ {σ T E : Type} (p : Parser σ I T E), (∀ i w, p i w ≠ .ub) → ∀ w, s.parse chk p w ≠ .ub ∧ retry chk p s w ≠ .ub :=
  ⟨Own.fill_safe hb chk s, Own.fillBuf_safe hb chk s, fun k => Own.read_safe hb chk k s, fun k => Own.consume_safe hb chk k s,
    hb.deref s.buffer, hb.len chk s.buffer, Own.isEmpty_safe hb chk s,
    fun p hp w => ⟨Own.parse_safe hb chk p hp s w, Own.retry_safe hb chk p hp s w⟩⟩

/-- The buffers of the crate do what is asked. -/
theorem C117_crate [LawfulBuffer B I] : ∃ o : OwnBuffer B I, o.Inv = LawfulBuffer.Inv (B := B) ∧
    o.view = LawfulBuffer.view ∧ o.Holds = LawfulBuffer.CanHold :=
  ⟨Own.ofLawful, rfl, rfl, rfl⟩

end

/-- What is asked of buffers is needed. With a buffer which claims an item it has not kept, `fill` does not return, or panics
once it has counted `usize::MAX` items, depending on overflow checks. With one which claims to have found nothing without
reading, the retry loop reports the end of the input, though the source has an item. -/
theorem C117_needed [DataSource S I] :
    (∀ s : S, (Source.withBuffer s (⟨⟩ : Claimer I)).fill false = .div ∧
      (Source.withBuffer s (⟨⟩ : Claimer I)).fill true = .panic) ∧
    ∀ chk, ∃ s', retry chk (Parsers.any : Parser Unit Nat Nat (Error Nat))
      (Source.withBuffer (⟨[.data 7 []]⟩ : Script Nat) (⟨⟩ : Idler Nat)) () = .ok ((.error .endOfInput, s'), ()) ∧
      s'.source.rem = [7] := by
  refine ⟨fun s => ⟨?_, ?_⟩, fun chk => ?_⟩
  · rw [Own.fill_fresh _ s (⟨⟩ : Claimer I) rfl rfl, Own.claimer_release]; rfl
  · rw [Own.fill_fresh _ s (⟨⟩ : Claimer I) rfl rfl, Own.claimer_debug s usizeMax 0 (Nat.zero_add _)]; rfl
  · refine ⟨⟨⟨[.data 7 []]⟩, ⟨⟩, 0, ⟨false, true, true⟩⟩, ?_, rfl⟩
    have h1 : (Source.withBuffer (⟨[.data 7 []]⟩ : Script Nat) (⟨⟩ : Idler Nat)).fill chk =
        .ok (.ok 0, ⟨⟨[.data 7 []]⟩, ⟨⟩, 0, ⟨false, true, true⟩⟩) := by
      rw [Own.fill_fresh _ _ (⟨⟩ : Idler Nat) rfl rfl, loop_apply]
      rfl
    rw [retry_eq, Source.parse_eq]
    simp only [Source.withBuffer, Bool.and_self, if_true] at h1 ⊢
    rw [h1]
    rfl

/-! ### Examples -/

namespace Ex

/-- A buffer for five items which reads as much as it can. The word of `C51` is found in it, and the last item is still to
come, whatever errors there are on the way. -/
example (chk : Bool) : ∃ s', retry chk word (Source.withBuffer pieces (⟨[], 5⟩ : Greedy Nat)) () =
    .ok ((.ok [5, 1, 1, 1], s'), ()) ∧ ahead Script.rem s' = [6] := by
  obtain ⟨h1, h2⟩ := C117_new Script.rem pieces (⟨[], 5⟩ : Greedy Nat)
    (show _ ∧ _ from ⟨by decide, by decide⟩) (show _ ∧ _ from ⟨by decide, by decide⟩)
  have := C117_retry Script.delivers chk (word_built.streamed rfl) _ h1 (by rw [h2]; exact nofun) ?_
  · rw [h2] at this
    obtain ⟨s', g1, g2, _⟩ := this
    exact ⟨s', g1, g2⟩
  · rw [h2]
    refine ⟨fun x y n hx hn => ?_, fun n hn => by cases hn⟩
    have e : [1, 1, 1, 9, 5, 6] = x ++ y := hx
    match x, e with
    | [], _ => cases hn; exact ⟨by decide, by decide⟩
    | [_], e => obtain ⟨rfl, _⟩ := List.cons.inj e; cases hn; exact ⟨by decide, by decide⟩
    | [_, _], e =>
      simp only [List.cons_append, List.cons.injEq] at e
      obtain ⟨rfl, rfl, _⟩ := e; cases hn; exact ⟨by decide, by decide⟩
    | [_, _, _], e =>
      simp only [List.cons_append, List.cons.injEq] at e
      obtain ⟨rfl, rfl, rfl, _⟩ := e; cases hn; exact ⟨by decide, by decide⟩
    | [_, _, _, _], e =>
      simp only [List.cons_append, List.cons.injEq] at e
      obtain ⟨rfl, rfl, rfl, rfl, _⟩ := e; cases hn; exact ⟨by decide, by decide⟩
    | _ :: _ :: _ :: _ :: _ :: _, e =>
      simp only [List.cons_append, List.cons.injEq] at e
      obtain ⟨rfl, rfl, rfl, rfl, rfl, e⟩ := e
      cases hn

/-- One call of its `fill` reads twice, and returns with the error what it has read before. -/
example (chk : Bool) : Buffer.fill chk pieces (⟨[], 5⟩ : Greedy Nat) =
    .ok (.error ⟨1⟩, ⟨[.data 1 [9], .err ⟨2⟩, .err ⟨3⟩, .data 5 [6]]⟩, ⟨[1, 1], 5⟩) := rfl

/-- A history: one item is consumed, two are read, all from the buffer; two are left in it. -/
example (chk : Bool) : ∃ s', History chk (Source.withBuffer pieces (⟨[7, 8, 9, 4, 3], 5⟩ : Greedy Nat)) () [7, 8, 9] s' () ∧
    held s' = [4, 3] ∧ ahead Script.rem s' = [4, 3, 1, 1, 1, 9, 5, 6] := by
  have h1 : (Source.withBuffer pieces (⟨[7, 8, 9, 4, 3], 5⟩ : Greedy Nat)).consume chk 1 =
      .ok (Source.withBuffer pieces (⟨[8, 9, 4, 3], 5⟩ : Greedy Nat)) := rfl
  have h2 : (Source.withBuffer pieces (⟨[8, 9, 4, 3], 5⟩ : Greedy Nat)).read chk 2 =
      .ok (.ok [8, 9], Source.withBuffer pieces (⟨[4, 3], 5⟩ : Greedy Nat)) := rfl
  exact ⟨_, .step (.consume 1 (by decide) h1) (.step (.read 2 h2) .done), rfl, rfl⟩

/-- It is none of the lawful buffers, which read once. -/
example : ¬ ∃ o : LawfulBuffer (Greedy Nat) Nat, o.Inv ⟨[], 5⟩ := by
  rintro ⟨o, h⟩
  obtain ⟨b', h1, _⟩ := o.fill true (⟨[.data 1 [], .err ⟨1⟩]⟩ : Script Nat) h
  have h2 := h1.symm.trans (show _ = Res.ok (Except.error (IoError.mk 1), (⟨[]⟩ : Script Nat), (⟨[1], 5⟩ : Greedy Nat)) from rfl)
  generalize o.room ⟨[], 5⟩ = k at h2
  cases k with
  | zero => cases h2
  | succ k => cases h2

/-- The loop ends with it, even if it can hold one item only and the parser asks for two. -/
example (chk : Bool) (s : Script Nat) (hs : s.rem.length + 2 ≤ usizeMax) :
    retry chk (Parsers.take 2 : Parser Unit Nat (List Nat) (Error Nat)) (Source.withBuffer s (⟨[], 1⟩ : Greedy Nat)) () ≠
      .div := by
  refine C117_terminates Script.delivers chk (.take 2) (fun i w h => ?_)
    (Source.withBuffer s (⟨[], 1⟩ : Greedy Nat)) (show 0 ≤ 1 ∧ 1 ≤ usizeMax from ⟨by decide, by decide⟩) rfl (fun x y w n w' hx hn => ?_) ()
  · rw [Parsers.take_eq] at h
    split at h <;> cases h
  · have e := congrArg List.length (show s.rem = x ++ y from hx)
    rw [List.length_append] at e
    rw [Parsers.take_eq] at hn
    split at hn
    · cases hn
    · rename_i hlt
      cases hn
      dsimp only at hlt ⊢
      omega

/-- It has no undefined behaviour. -/
theorem greedy_harmless : Harmless (Greedy Nat) where
  deref _ := nofun
  fill _ _ _ := nofun
  request _ n b := by
    show (if _ then _ else _) ≠ _
    split <;> exact nofun
  consume _ n b := by
    show (if _ then _ else _) ≠ _
    split <;> exact nofun
  len _ _ := nofun

/-- Nor has the buffer which claims what it has not kept. -/
theorem claimer_harmless : Harmless (Claimer Nat) := ⟨fun _ => nofun, fun _ _ _ => nofun, fun _ _ _ => nofun,
  fun _ _ _ => nofun, fun _ _ => nofun⟩

example (chk : Bool) : retry chk (Parsers.take 2 : Parser Unit Nat (List Nat) (Error Nat))
    (Source.withBuffer pieces (⟨⟩ : Claimer Nat)) () ≠ .ub :=
  ((C117_safe claimer_harmless chk _).2.2.2.2.2.2.2 (Parsers.take 2) (fun i w h => by
    rw [Parsers.take_eq] at h
    split at h <;> cases h) ()).2

end Ex

end Chomp.Props
