import Verif.Props.Source

/-
C55: a limited `GrowingBuffer` over its limit.
-/

set_option linter.unusedSectionVars false

namespace Chomp

/-- The capacity is over the limit and the last cell has been filled. -/
def GrowingBuffer.Stuck (b : GrowingBuffer I) : Prop :=
  LawfulBuffer.Inv b ∧ b.limit ≠ 0 ∧ b.limit < b.cap ∧ b.populated = b.cap

/-- Such buffers stay such buffers, and are lawful ones without any room. -/
@[reducible]
def GrowingBuffer.stuckLawful : LawfulBuffer (GrowingBuffer I) I where
  Inv b := b.Stuck
  view b := LawfulBuffer.view b
  room _ := 0
  CanHold _ _ := False
  canHold_le _ h := h
  size h := by
    have := LawfulBuffer.size h.1
    omega
  deref h := LawfulBuffer.deref h.1
  len chk h := LawfulBuffer.len chk h.1
  consume {b n} chk h hn := by
    obtain ⟨b', h1, h2, h3, _, h5, _⟩ := LawfulBuffer.consume chk h.1 hn
    have e : GrowingBuffer.consume chk n b = .ok b' := h1
    unfold GrowingBuffer.consume at e
    have : b'.limit = b.limit ∧ b'.cap = b.cap ∧ b'.populated = b.populated := by
      cases hd : debugAssert chk (decide (b.used + n ≤ b.populated)) with
      | ok u =>
        rw [hd, Res.bind_ok] at e
        cases hu : uaddB chk b.used n with
        | ok u => rw [hu, Res.bind_ok] at e; cases e; exact ⟨rfl, rfl, rfl⟩
        | _ => rw [hu] at e; cases e
      | _ => rw [hd] at e; cases e
    refine ⟨b', h1, ⟨h2, ?_⟩, h3, rfl, h5, fun _ h => h⟩
    rw [this.1, this.2.1, this.2.2]
    exact h.2
  consume_over h hn := LawfulBuffer.consume_over h.1 hn
  request {b} chk n h := by
    refine .inr ⟨b, ?_, h, rfl, Nat.le_refl _, fun _ h => h⟩
    show GrowingBuffer.requestSpace chk n b = .ok b
    unfold GrowingBuffer.requestSpace
    rw [if_pos ⟨h.2.1, h.2.2.1⟩]
  request_fits _ _ h := h.elim
  fill {S b} _ _ chk s h := by
    obtain ⟨b', h1, h2, h3, h4, h5, _⟩ := LawfulBuffer.fill chk s h.1
    have hr : LawfulBuffer.room b = 0 := by
      show b.buffer.length - b.populated = 0
      have := h.1.2
      have := h.2.2.2
      omega
    rw [hr] at h1 h3 h4
    refine ⟨b', h1, ⟨h2, ?_⟩, h3, by omega, h5, fun _ h => h⟩
    have e : GrowingBuffer.fill chk s b = _ := h1
    unfold GrowingBuffer.fill at e
    have e0 : b.buffer.length - b.populated = 0 := hr
    have hz := fun n => (HonestSource.honest s 0 n)
    rw [if_pos (by have := h.1.2; have := h.2.2.2; omega), e0] at e
    dsimp only at e
    generalize DataSource.read s 0 = out at e hz
    obtain ⟨out, s'⟩ := out
    dsimp only at e hz
    cases hres : out.result with
    | error x =>
      rw [hres] at e
      cases e
      exact h.2
    | ok n =>
      have := (hz n hres).1
      have hn : n = 0 := by omega
      subst hn
      rw [hres] at e
      dsimp only at e
      cases hd : debugAssert chk (decide (b.populated + 0 ≤
        (b.buffer.take b.populated ++ overlay (b.buffer.drop b.populated) out.writes).length)) with
      | ok u =>
        rw [hd, Res.bind_ok] at e
        cases hu : uaddB chk b.populated 0 with
        | ok u =>
          rw [hu, Res.bind_ok] at e
          have hle : b.populated + 0 ≤ usizeMax := by
            have := LawfulBuffer.size h.1
            have a1 : b.populated ≤ b.buffer.length := MemInv.populated_le h.1.1
            have a2 : b.buffer.length ≤ isizeMax := MemInv.size h.1.1
            have := isize_lt
            omega
          rw [uaddB_ok hle] at hu
          cases hu
          cases e
          exact h.2
        | _ => rw [hu] at e; cases e
      | _ => rw [hd] at e; cases e

namespace Props

open Spec

section
variable {S B I : Type} [DataSource S I] [HonestSource S I] [Buffer B I] [LawfulBuffer B I]

theorem Filled.no_room (hz : ∀ b : B, LawfulBuffer.Inv b → LawfulBuffer.room b = 0) {chk : Bool}
    {request : Nat} {s s' : Source S B} {r : Except IoError Nat} {xs : List I} (h : Usable s)
    (hf : Source.Filled chk request s r s' xs) : xs = [] := by
  by_cases hl : (held s).length < request
  · obtain ⟨b1, h1, h2, _⟩ := hf.space hl
    rcases LawfulBuffer.request chk (request - (held s).length)
      (show LawfulBuffer.Inv s.buffer from h) with hp | ⟨b2, h3, h4, _⟩
    · rw [hp] at h1; cases h1
    · rw [h1] at h3
      cases h3
      have := hz b1 h4
      exact List.length_eq_zero_iff.mp (by omega)
  · obtain ⟨rfl, _⟩ := hf.none (by omega)
    have := hf.held
    simpa using this

/-- Without room, nothing is ever read. -/
theorem step_no_room (hz : ∀ b : B, LawfulBuffer.Inv b → LawfulBuffer.room b = 0) (chk : Bool)
    {s s' : Source S B} (h : Usable s) {w w' : σ} {out : List I}
    (hs : SourceStep chk s w out s' w') :
    Usable s' ∧ Reads s.source [] s'.source ∧ held s = out ++ held s' := by
  have hu := (C48_step chk s s' h w w' out hs).1
  refine ⟨hu, ?_⟩
  have key : Reads s.source [] s'.source → held s = out ++ held s' →
    Reads s.source [] s'.source ∧ held s = out ++ held s' := fun a b => ⟨a, b⟩
  cases hs with
  | parse p hp hr hx =>
    have hauto : ∀ s1 : Source S B, held (autofilled chk s) = held s1 → held s1 = held s →
        Reads s.source [] s'.source → Reads s.source [] s'.source ∧ held s = out ++ held s' := by
      intro s1 e1 e2 hr
      exact ⟨hr, by rw [← e2, ← e1, hx]⟩
    rw [Source.parse_eq] at hr
    unfold autofilled at hauto
    split at hr
    · rename_i hc
      rw [if_pos hc] at hauto
      rcases Source.fill_spec chk s h with ⟨h1, _⟩ | ⟨e, s1, xs, h1, h2⟩ | ⟨n, s1, xs, h1, h2⟩
      · rw [h1] at hr; cases hr
      · have := Filled.no_room hz h h2
        subst this
        rw [h1] at hr hauto
        cases hr
        exact hauto _ rfl (by rw [h2.held]; simp) h2.reads
      · have := Filled.no_room hz h h2
        subst this
        rw [h1] at hr hauto
        rw [Res.bind_ok] at hr
        obtain ⟨g1, g2, _⟩ := Source.attempt_effect chk hp { s1 with state := s1.afterFill } w w'
          h2.usable hr
        refine hauto s1 rfl (by rw [h2.held]; simp) ?_
        rw [g2]
        exact h2.reads
    · rename_i hc
      rw [if_neg hc] at hauto
      obtain ⟨g1, g2, _⟩ := Source.attempt_effect chk hp s w w' h hr
      refine hauto s rfl rfl ?_
      rw [g2]
      exact .done
  | fill hr =>
    rcases Source.fill_spec chk s h with ⟨h1, _⟩ | ⟨e, s1, xs, h1, h2⟩ | ⟨n, s1, xs, h1, h2⟩
    · rw [h1] at hr; cases hr
    · have := Filled.no_room hz h h2
      subst this
      rw [h1] at hr; cases hr
      exact ⟨h2.reads, by rw [h2.held]; simp⟩
    · have := Filled.no_room hz h h2
      subst this
      rw [h1] at hr; cases hr
      exact ⟨h2.reads, by have := h2.held; rw [List.append_nil] at this; exact this.symm⟩
  | read k hr =>
    rcases Source.read_spec chk k s h with ⟨h1, _⟩ | ⟨e, s1, xs, h1, h2⟩ |
      ⟨n, s1, xs, b, h1, h2, h3, h4, _⟩
    · rw [h1] at hr; cases hr
    · rw [h1] at hr; cases hr
    · have := Filled.no_room hz h h2
      subst this
      rw [h1] at hr
      cases hr
      refine ⟨h2.reads, ?_⟩
      have := h2.held
      rw [List.append_nil] at this
      rw [← this, show held { s1 with buffer := b } = (held s1).drop k from h4]
      exact (List.take_append_drop k _).symm
  | readErr k hr =>
    rcases Source.read_spec chk k s h with ⟨h1, _⟩ | ⟨e, s1, xs, h1, h2⟩ |
      ⟨n, s1, xs, b, h1, h2, h3, h4, _⟩
    · rw [h1] at hr; cases hr
    · have := Filled.no_room hz h h2
      subst this
      rw [h1] at hr
      cases hr
      exact ⟨h2.reads, by rw [h2.held]; simp⟩
    · rw [h1] at hr; cases hr
  | fillBuf hr =>
    rcases Source.fillBuf_spec chk s h with ⟨h1, _⟩ | ⟨e, s1, xs, h1, h2⟩ | ⟨n, s1, xs, h1, h2⟩
    · rw [h1] at hr; cases hr
    · have := Filled.no_room hz h h2
      subst this
      rw [h1] at hr; cases hr
      exact ⟨h2.reads, by rw [h2.held]; simp⟩
    · have := Filled.no_room hz h h2
      subst this
      rw [h1] at hr; cases hr
      exact ⟨h2.reads, by rw [h2.held]; simp⟩
  | consume k hk hr =>
    obtain ⟨_, e, _, _⟩ := C57_consume chk s h k hk
    unfold Source.consume at hr
    obtain ⟨b, h1, h2, h3, _⟩ := LawfulBuffer.consume chk (show LawfulBuffer.Inv s.buffer from h) hk
    rw [h1] at hr
    cases hr
    refine ⟨.done, ?_⟩
    rw [show held { s with buffer := b } = (held s).drop k from h3, List.take_append_drop]
  | reset => exact ⟨.done, rfl⟩
  | setAutofill v => exact ⟨.done, rfl⟩

theorem history_no_room (hz : ∀ b : B, LawfulBuffer.Inv b → LawfulBuffer.room b = 0) (chk : Bool)
    {s s' : Source S B} (h : Usable s) {w w' : σ} {out : List I}
    (hs : SourceHistory chk s w out s' w') :
    Usable s' ∧ Reads s.source [] s'.source ∧ held s = out ++ held s' := by
  induction hs with
  | done => exact ⟨h, .done, rfl⟩
  | step h1 _ ih =>
    obtain ⟨g1, g2, g3⟩ := step_no_room hz chk h h1
    obtain ⟨k1, k2, k3⟩ := ih g1
    exact ⟨k1, g2.trans k2, by rw [g3, k3, List.append_assoc]⟩

end

/-- Whatever is done from now on, no item is read: the buffer is used up and nothing follows, although
the source has more. -/
theorem C55_truncated [DataSource S I] [HonestSource S I] (chk : Bool)
    (s s' : Source S (GrowingBuffer I)) (h : s.buffer.Stuck) (w w' : σ) (out : List I)
    (hs : SourceHistory chk s w out s' w') :
    s'.buffer.Stuck ∧ held s = out ++ held s' ∧
      ∀ rem errs, Delivers S rem errs → rem s'.source = rem s.source := by
  have conv : @SourceHistory S (GrowingBuffer I) I _ _ GrowingBuffer.stuckLawful chk _ s w out s' w' := by
    clear h
    induction hs with
    | done => exact @SourceHistory.done _ _ _ _ _ GrowingBuffer.stuckLawful _ _ _ _
    | step h1 _ ih =>
      refine @SourceHistory.step _ _ _ _ _ GrowingBuffer.stuckLawful _ _ _ _ _ _ _ _ _ _ ?_ ih
      cases h1 with
      | parse p hp hr hx =>
        exact @SourceStep.parse _ _ _ _ _ GrowingBuffer.stuckLawful _ _ _ _ _ _ _ _ p _ _ hp hr hx
      | fill hr => exact @SourceStep.fill _ _ _ _ _ GrowingBuffer.stuckLawful _ _ _ _ _ _ hr
      | read k hr => exact @SourceStep.read _ _ _ _ _ GrowingBuffer.stuckLawful _ _ _ _ _ _ k hr
      | readErr k hr => exact @SourceStep.readErr _ _ _ _ _ GrowingBuffer.stuckLawful _ _ _ _ _ _ k hr
      | fillBuf hr => exact @SourceStep.fillBuf _ _ _ _ _ GrowingBuffer.stuckLawful _ _ _ _ _ _ hr
      | consume k hk hr =>
        exact @SourceStep.consume _ _ _ _ _ GrowingBuffer.stuckLawful _ _ _ _ _ k hk hr
      | reset => exact @SourceStep.reset _ _ _ _ _ GrowingBuffer.stuckLawful _ _ _ _
      | setAutofill v => exact @SourceStep.setAutofill _ _ _ _ _ GrowingBuffer.stuckLawful _ _ _ _ v
  obtain ⟨h1, h2, h3⟩ := @history_no_room S (GrowingBuffer I) I _ _ _ GrowingBuffer.stuckLawful _
    (fun _ _ => rfl) chk s s' h w w' out conv
  refine ⟨h1, h3, fun rem errs hd => ?_⟩
  have := (h2.rem hd).1
  simpa using this.symm

theorem Source.fill_stuck [DataSource S I] [HonestSource S I] (chk : Bool) (s : Source S (GrowingBuffer I))
    (h : s.buffer.Stuck) (h0 : held s = []) : ∃ b', b'.Stuck ∧ LawfulBuffer.view b' = [] ∧
      s.fillRequested chk (max 1 s.request) =
      .ok ((DataSource.read s.source 0).1.result,
        { s with source := (DataSource.read s.source 0).2, buffer := b' }) := by
  have hl : Buffer.len chk s.buffer = .ok 0 := by
    rw [LawfulBuffer.len chk h.1]
    show Res.ok (held s).length = _
    rw [h0]; rfl
  obtain ⟨b1, g1, g2, g3, g4, _⟩ := GrowingBuffer.stuckLawful.fill chk s.source h
  have g1' : Buffer.fill chk s.source s.buffer =
    .ok ((DataSource.read s.source 0).1.result, (DataSource.read s.source 0).2, b1) := g1
  have hq : Buffer.requestSpace chk (max 1 s.request) s.buffer = .ok s.buffer := by
    show GrowingBuffer.requestSpace chk _ _ = _
    unfold GrowingBuffer.requestSpace
    rw [if_pos ⟨h.2.1, h.2.2.1⟩]
  have h1 : 0 < max 1 s.request := by omega
  have hv : LawfulBuffer.view b1 = [] := by
    have e1 : LawfulBuffer.view b1 = held s ++ (DataSource.read s.source 0).1.items := g3
    have e2 : 0 + (DataSource.read s.source 0).1.items.length = 0 := g4
    rw [e1, h0, List.nil_append]
    exact List.eq_nil_of_length_eq_zero (by omega)
  refine ⟨b1, g2, hv, ?_⟩
  have hs : Source.fillStep chk (max 1 s.request) (s.source, s.buffer, 0) () =
      .ok (.inr ((DataSource.read s.source 0).1.result, (DataSource.read s.source 0).2, b1), ()) := by
    show (M.lift (Buffer.len chk s.buffer) >>= _ : M Unit _) () = _
    rw [M.bind_apply, hl]
    show (if 0 < max 1 s.request then _ else _ : M Unit _) () = _
    rw [if_pos h1, M.bind_apply, g1']
    cases hr : (DataSource.read s.source 0).1.result with
    | error e => rfl
    | ok n =>
      have : n = 0 := by have := (HonestSource.honest s.source 0 n hr).1; omega
      subst this
      rfl
  unfold Source.fillRequested
  rw [hl, Res.bind_ok, if_pos h1, usubB_ok (Nat.zero_le _), Res.bind_ok, Nat.sub_zero, hq, Res.bind_ok,
    loop_apply, hs]
  rfl

/-- Once everything held has been consumed, every `parse` with INCOMPLETE and automatic fill asks the source for
nothing and returns `EndOfInput`, whatever is left in the source and whatever the parser; if the source fails on
being asked for nothing, its error is returned. -/
theorem C55_end_of_input [DataSource S I] [HonestSource S I] (chk : Bool)
    (s : Source S (GrowingBuffer I)) (h : s.buffer.Stuck) (h0 : held s = []) (w : σ)
    (p : Parser σ I T E) (h1 : s.state.incomplete = true) (h2 : s.state.automaticFill = true) :
    ∃ s', s.parse chk p w = .ok ((.error (match (DataSource.read s.source 0).1.result with
        | .error e => .ioError e
        | .ok _ => .endOfInput), s'), w) ∧
      s'.source = (DataSource.read s.source 0).2 ∧ s'.buffer.Stuck ∧ held s' = [] := by
  obtain ⟨b', hb1, hb2, hb⟩ := Source.fill_stuck chk s h h0
  have hl : Buffer.len chk b' = .ok 0 := by rw [LawfulBuffer.len chk hb1.1, hb2]; rfl
  rw [C49_autofill chk s h.1 p w h1 h2]
  unfold Source.fill
  dsimp only
  rw [hb, Res.bind_ok]
  dsimp only
  cases hr : (DataSource.read s.source 0).1.result with
  | error e => exact ⟨_, rfl, rfl, hb1, hb2⟩
  | ok n =>
    dsimp only
    rw [hl, Res.bind_ok, Res.bind_ok]
    dsimp only
    generalize hs : (⟨_, b', _, _⟩ : Source S (GrowingBuffer I)) = s1
    have hu : Usable s1 := by rw [← hs]; exact hb1.1
    have ht : s1.state = ⟨false, true, s.state.automaticFill⟩ := by rw [← hs]; simp
    have hv : held s1 = [] := by rw [← hs]; exact hb2
    rw [Source.parse_eq, if_neg (by simp [ht])]
    dsimp only [Res.bind_ok]
    rw [Source.attempt_end chk p s1 w hu (by simp [ht]) hv]
    exact ⟨s1, rfl, by rw [← hs], by rw [← hs]; exact hb1, hv⟩

/-- Reachable: a `GrowingBuffer` limited to one item, with an allocator which gives exactly what it is
asked for, and a source with four items. After the first two items the stream has ended. -/
theorem C55_witness (chk : Bool) : ∃ s1 s2 s3 s4 : Source (Script Nat) (GrowingBuffer Nat),
    (Source.withBuffer (⟨[.data 1 [2, 3, 4]]⟩ : Script Nat)
      (GrowingBuffer.withLimit (fun _ => 0) 1)).parse chk
      (Parsers.take 2 : Parser Unit Nat (List Nat) (Error Nat)) () = .ok ((.error .retry, s1), ()) ∧
    s1.parse chk (Parsers.take 2 : Parser Unit Nat (List Nat) (Error Nat)) () =
      .ok ((.ok [1, 2], s2), ()) ∧
    s2.buffer.Stuck ∧
    s2.parse chk (Parsers.any : Parser Unit Nat Nat (Error Nat)) () = .ok ((.error .retry, s3), ()) ∧
    s3.parse chk (Parsers.any : Parser Unit Nat Nat (Error Nat)) () = .ok ((.error .endOfInput, s4), ()) ∧
    s4.source.rem = [3, 4] := by
  cases chk
  · refine ⟨_, _, _, _, Source.parse_of_fuel 5 rfl, Source.parse_of_fuel 5 rfl, ?_,
      Source.parse_of_fuel 5 rfl, Source.parse_of_fuel 5 rfl, rfl⟩
    exact ⟨(GrowingBuffer.inv_of (data := [1, 2]) ⟨by decide, rfl, rfl, by decide⟩ rfl).1,
      by decide, by decide, by decide⟩
  · refine ⟨_, _, _, _, Source.parse_of_fuel 5 rfl, Source.parse_of_fuel 5 rfl, ?_,
      Source.parse_of_fuel 5 rfl, Source.parse_of_fuel 5 rfl, rfl⟩
    exact ⟨(GrowingBuffer.inv_of (data := [1, 2]) ⟨by decide, rfl, rfl, by decide⟩ rfl).1,
      by decide, by decide, by decide⟩

end Props

end Chomp
