import Verif.Lemmas.ZeroSized
import Verif.Lemmas.Script
import Verif.Spec.End
import Verif.Props.Source
import Verif.Props.End

/-
C100: a `GrowingBuffer` of items without a size stays empty.
-/

namespace Chomp.Props

open Spec

/-! ### C100 -/

section
variable {S I : Type} [DataSource S I] [HonestSource S I]

/-- Whatever is done with a source over such a buffer: no item is handed out, none is in the buffer, and the
data source keeps all it has. -/
theorem C100_history {rem : S → List I} {errs : S → Nat} (hd : Delivers S rem errs) (chk : Bool) (src : S)
    (limit : Nat) (s : Source S (ZeroBuffer I)) (w w' : σ) (out : List I)
    (hs : SourceHistory chk (Source.withBuffer src (ZeroBuffer.withLimit limit)) w out s w') :
    out = [] ∧ s.bufferSlice = .ok [] ∧ s.capacity = 0 ∧ rem s.source = rem src := by
  have key : ∀ (s0 : Source S (ZeroBuffer I)) (w0 : σ) out s (w' : σ), Usable s0 → SourceHistory chk s0 w0 out s w' →
      Usable s ∧ out = [] ∧ rem s.source = rem s0.source := by
    intro s0 w0 out s w' h0 hs
    induction hs with
    | done => exact ⟨h0, rfl, rfl⟩
    | @step s w x s1 w1 y s2 w2 hstep _ ih =>
      obtain ⟨h1, xs, h2, h3⟩ := C48_step chk s s1 h0 w w1 x hstep
      have hx : x = [] := by
        cases hstep with
        | parse p hp hr hx => exact (List.append_eq_nil_iff.mp (Eq.symm hx)).1
        | fill hr => rfl
        | read k hr =>
          rcases Source.read_spec chk k s h0 with ⟨g1, _⟩ | ⟨e, s1, xs, g1, g2⟩ |
            ⟨n, s1, xs, b, g1, g2, g3, g4, _⟩
          · rw [g1] at hr; cases hr
          · rw [g1] at hr; cases hr
          · rw [g1] at hr
            cases hr
            exact List.take_nil
        | readErr k hr => rfl
        | fillBuf hr => rfl
        | consume k hk hr => exact List.take_nil
        | reset => rfl
        | setAutofill v => rfl
      subst hx
      obtain ⟨g1, g2, g3⟩ := ih h1
      refine ⟨g1, g2, g3.trans ?_⟩
      have hxs : xs = [] := h3
      have := (h2.rem hd).1
      rw [hxs] at this
      exact this.symm
  obtain ⟨h1, h2, h3⟩ := key _ _ _ _ _
    (show Usable (Source.withBuffer src (ZeroBuffer.withLimit limit)) from ZeroBuffer.withLimit_inv limit) hs
  refine ⟨h2, LawfulBuffer.deref h1, ?_, h3⟩
  show s.buffer.inner.buffer.length = 0
  rw [ZeroBuffer.Inv.buffer h1]
  rfl

omit [DataSource S I] [HonestSource S I] in
theorem zero_attempt (chk : Bool) (s : Source S (ZeroBuffer I)) (h : Usable s)
    (he : s.state.endOfInput = true) {σ T E : Type} (p : Parser σ I T E) (w : σ) :
    s.attempt chk p w = .ok ((.error .endOfInput, s), w) := by
  have hb : LawfulBuffer.Inv s.buffer := h
  unfold Source.attempt Source.isEmpty Source.len
  rw [if_pos he, LawfulBuffer.len chk hb]
  rfl

/-- `parse` which waits for items, as a new source does, gets an I/O error or comes to the end. The parser
is not run. -/
theorem C100_parse (chk : Bool) (s : Source S (ZeroBuffer I)) (h : Usable s)
    (ha : s.state.automaticFill = true) (hi : s.state.incomplete = true) (hr : s.request ≤ usizeMax) :
    (∃ e s', Usable s' ∧ s'.state = s.state ∧ s'.request = s.request ∧
      (∀ (rem : S → List I) errs, Delivers S rem errs → rem s'.source = rem s.source ∧
        errs s'.source < errs s.source) ∧
      ∀ {σ T E : Type} (p : Parser σ I T E) (w : σ), s.parse chk p w = .ok ((.error (.ioError e), s'), w)) ∨
    ∃ s', Usable s' ∧ Ended s' ∧ (∀ (rem : S → List I) errs, Delivers S rem errs → rem s'.source = rem s.source) ∧
      ∀ {σ T E : Type} (p : Parser σ I T E) (w : σ), s.parse chk p w = .ok ((.error .endOfInput, s'), w) := by
  have hpos : max 1 s.request ≤ usizeMax := Nat.max_le.mpr ⟨by decide, hr⟩
  have hrem : ∀ (s1 : Source S (ZeroBuffer I)) (xs : List I), held s1 = held s ++ xs → Reads s.source xs s1.source →
      ∀ (rem : S → List I) errs, Delivers S rem errs → rem s1.source = rem s.source := by
    intro s1 xs h1 h2 rem errs hd
    obtain rfl : xs = [] := Eq.symm h1
    exact ((h2.rem hd).1).symm
  rcases Source.fill_spec chk s h with ⟨_, _, h1⟩ | ⟨e, s1, xs, h1, h2⟩ | ⟨n, s1, xs, h1, h2⟩
  · rcases ZeroBuffer.requestSpace_eq h chk (max 1 s.request - (held s).length) with ⟨_, e⟩ | e
    · omega
    · rw [e] at h1; cases h1
  · refine .inl ⟨e, s1, h2.usable, h2.state, h2.request_eq, fun rem errs hd =>
      ⟨hrem s1 xs h2.held h2.reads rem errs hd, (h2.err e rfl).2.errs hd⟩, fun p w => ?_⟩
    rw [Source.parse_eq, if_pos (by rw [ha, hi]; rfl), h1]
    rfl
  · have he : (Source.afterFill s1).endOfInput = true := by
      show (!decide (0 ≥ max 1 s1.request)) = true
      simp only [Bool.not_eq_true', decide_eq_false_iff_not]
      omega
    refine .inr ⟨{ s1 with state := Source.afterFill s1 }, h2.usable, ⟨he, rfl⟩,
      hrem s1 xs h2.held h2.reads, fun p w => ?_⟩
    rw [Source.parse_eq, if_pos (by rw [ha, hi]; rfl), h1, Res.bind_ok]
    exact zero_attempt chk { s1 with state := Source.afterFill s1 } h2.usable he p w

/-- So a loop around `parse` on a new source ends with `EndOfInput`, whatever the parser is and whatever
data there is, and so does every later call. -/
theorem C100_end {rem : S → List I} {errs : S → Nat} (hd : Delivers S rem errs) (chk : Bool) (src : S)
    (limit : Nat) (p : Parser σ I T E) (w : σ) :
    ∃ s', retry chk p (Source.withBuffer src (ZeroBuffer.withLimit limit)) w =
        .ok ((.error .endOfInput, s'), w) ∧ rem s'.source = rem src ∧
      ∀ {τ U F : Type} (q : Parser τ I U F) (x : τ), s'.parse chk q x = .ok ((.error .endOfInput, s'), x) := by
  have key : ∀ n (s : Source S (ZeroBuffer I)), errs s.source ≤ n → Usable s → s.state.automaticFill = true →
      s.state.incomplete = true → s.request ≤ usizeMax →
      ∃ s', retry chk p s w = .ok ((.error .endOfInput, s'), w) ∧ rem s'.source = rem s.source ∧
        Usable s' ∧ Ended s' := by
    intro n
    induction n with
    | zero =>
      intro s hn h ha hi hr
      rcases C100_parse chk s h ha hi hr with ⟨e, s1, _, _, _, h4, _⟩ | ⟨s1, h1, h2, h3, h4⟩
      · have := (h4 rem errs hd).2; omega
      · refine ⟨s1, ?_, h3 rem errs hd, h1, h2⟩
        rw [retry_eq, h4, Res.bind_ok]
        rfl
    | succ n ih =>
      intro s hn h ha hi hr
      rcases C100_parse chk s h ha hi hr with ⟨e, s1, h1, h2, h3, h4, h5⟩ | ⟨s1, h1, h2, h3, h4⟩
      · obtain ⟨g1, g2⟩ := h4 rem errs hd
        obtain ⟨s', f1, f2, f3⟩ := ih s1 (by omega) h1 (by rw [h2]; exact ha) (by rw [h2]; exact hi)
          (by rw [h3]; exact hr)
        refine ⟨s', ?_, f2.trans g1, f3⟩
        rw [retry_eq, h5, Res.bind_ok]
        exact f1
      · refine ⟨s1, ?_, h3 rem errs hd, h1, h2⟩
        rw [retry_eq, h4, Res.bind_ok]
        rfl
  obtain ⟨s', h1, h2, h3, h4⟩ := key _ (Source.withBuffer src (ZeroBuffer.withLimit limit)) (Nat.le_refl _)
    (ZeroBuffer.withLimit_inv limit) rfl rfl (Nat.zero_le _)
  refine ⟨s', h1, h2, fun q x => ?_⟩
  rw [Source.parse_eq, if_neg (by rw [h4.2]; simp), Res.bind_ok]
  exact zero_attempt chk s' h3 h4.1 q x

end

namespace ZeroSizedExample

/-- Two items without a size, and `any`: over a slice it yields the first of them, over a `GrowingBuffer`
there is nothing. -/
example : ((SliceStream.new [(), ()]).parse true (Parsers.any : Parser Unit Unit Unit (Error Unit)) () =
      .ok ((.ok (), ⟨1, [(), ()]⟩), ())) ∧
    ∃ s', retry true (Parsers.any : Parser Unit Unit Unit (Error Unit))
      (Source.withBuffer (⟨[.data () [()]]⟩ : Script Unit) (ZeroBuffer.withLimit 0)) () =
        .ok ((.error .endOfInput, s'), ()) ∧ s'.source.rem = [(), ()] := by
  obtain ⟨s', h1, h2, _⟩ := C100_end (Script.delivers (I := Unit)) true ⟨[.data () [()]]⟩ 0
    (Parsers.any : Parser Unit Unit Unit (Error Unit)) ()
  exact ⟨rfl, s', h1, h2⟩

end ZeroSizedExample

end Chomp.Props
