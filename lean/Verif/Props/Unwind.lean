import Verif.Lemmas.Unwind
import Verif.Props.Source
import Verif.Props.Data
import Verif.Lemmas.Main

/-
C84: panics leave streams intact.
-/

set_option linter.unusedSectionVars false

namespace Chomp.Props

open Spec

/-! ### C84: the two models agree -/

section
variable {S B I : Type} [DataSource S I] [Buffer B I] [UBuffer B I] [LawfulBuffer B I]
  [SafeBuffer B I] [UnwindsSafe B I]

theorem agree {x : Res (Option (Except IoError α) × St)} {y : Res (Except IoError α × St)}
    (h : ∀ e, Bridge x (some (.error e)) y) : forget x = y := by
  match x, h with
  | .ok (some a, s), h => exact (h ⟨0⟩).symm
  | .ok (none, s), h =>
    rcases h ⟨0⟩ with h0 | ⟨a, ha, h0⟩
    · exact h0.symm
    · rcases h ⟨1⟩ with h1 | ⟨b, hb, h1⟩
      · exact h1.symm
      · rw [h0] at h1
        cases ha; cases hb; cases h1
  | .panic, h => exact (h ⟨0⟩).symm
  | .ub, h => exact (h ⟨0⟩).symm
  | .div, h => exact (h ⟨0⟩).symm

/-- If the data source does not panic, and a panic is the end, this is `fill` as the other properties
know it. -/
theorem C84_agree_fill (chk : Bool) (s : Source S B) :
    forget (@Source.fillU S B I .calm _ _ chk s) = s.fill chk :=
  agree fun e => @Source.fill_bridge S B I .calm _ _ _ e chk s

theorem C84_agree_read (chk : Bool) (k : Nat) (s : Source S B) :
    forget (@Source.readU S B I .calm _ _ chk k s) = s.read chk k :=
  agree fun e => @Source.read_bridge S B I .calm _ _ _ e chk k s

theorem C84_agree_fillBuf (chk : Bool) (s : Source S B) :
    forget (@Source.fillBufU S B I .calm _ _ chk s) = s.fillBuf chk :=
  agree fun e => @Source.fillBuf_bridge S B I .calm _ _ _ e chk s

theorem C84_agree_consume (chk : Bool) (n : Nat) (s : Source S B) :
    forget (Source.consumeU chk n s) = s.consume chk n >>= fun s' => .ok ((), s') := by
  letI : UDataSource S I := .calm
  rw [Source.consume_eq]
  cases s.consume chk n <;> rfl

/-- The same for `parse` and any parser. -/
theorem C84_agree_parse (chk : Bool) (f : UParser σ I T E) (s : Source S B) (w : σ) :
    forget (@Source.parseU S B I .calm _ _ σ T E chk f (s, w)) = regroup (s.parse chk f.forget w) := by
  have h : ∀ e, Bridge (@Source.parseU S B I .calm _ _ σ T E chk f (s, w)) (some (.error (.ioError e)))
      (regroup (s.parse chk f.forget w)) :=
    fun e => @Source.parse_bridge S B I .calm _ _ _ σ T E e chk f s w
  match hx : @Source.parseU S B I .calm _ _ σ T E chk f (s, w) with
  | .ok (some a, t) => have := h ⟨0⟩; rw [hx] at this; exact this.symm
  | .ok (none, t) =>
    have a0 := h ⟨0⟩
    have a1 := h ⟨1⟩
    rw [hx] at a0 a1
    rcases a0 with h0 | ⟨a, ha, h0⟩
    · exact h0.symm
    · rcases a1 with h1 | ⟨b, hb, h1⟩
      · exact h1.symm
      · rw [h0] at h1
        cases ha; cases hb; cases h1
  | .panic => have := h ⟨0⟩; rw [hx] at this; exact this.symm
  | .ub => have := h ⟨0⟩; rw [hx] at this; exact this.symm
  | .div => have := h ⟨0⟩; rw [hx] at this; exact this.symm

end

/-! ### C84: what is left -/

section
variable {S B I : Type} [UDataSource S I] [UHonest S I] [Buffer B I] [UBuffer B I] [LawfulBuffer B I]
  [SafeBuffer B I] [UnwindsSafe B I]

/-- If `fill` panics, the source is intact: what it held is there, followed by what was handed over before
the call of `read` which panicked. -/
theorem C84_fill (chk : Bool) (s s' : Source S B) (h : Usable s)
    (hr : Source.fillU chk s = .ok (none, s')) : Intact s s' :=
  Source.fill_panics chk s s' h hr

/-- The same for `read` of `io::Read`. -/
theorem C84_read (chk : Bool) (k : Nat) (s s' : Source S B) (h : Usable s)
    (hr : Source.readU chk k s = .ok (none, s')) : Intact s s' :=
  Source.read_panics chk k s s' h hr

/-- The same for `fill_buf` of `io::BufRead`. -/
theorem C84_fillBuf (chk : Bool) (s s' : Source S B) (h : Usable s)
    (hr : Source.fillBufU chk s = .ok (none, s')) : Intact s s' :=
  Source.fillBuf_panics chk s s' h hr

/-- If `consume` panics, it has done nothing. -/
theorem C84_consume (chk : Bool) (n : Nat) (s s' : Source S B)
    (hr : Source.consumeU chk n s = .ok (none, s')) : s' = s :=
  Source.consume_panics chk n s s' hr

/-- If `parse` panics, be it in the data source or in the parser, nothing is lost or consumed. -/
theorem C84_parse (chk : Bool) (f : UParser σ I T E) (s s' : Source S B) (h : Usable s) (w w' : σ)
    (hr : Source.parseU chk f (s, w) = .ok (none, s', w')) :
    Usable s' ∧ s'.request = s.request ∧ s'.state.automaticFill = s.state.automaticFill ∧
      ∃ xs, UReads s.source xs s'.source ∧ held s' = held s ++ xs := by
  rcases Source.parse_panics chk f s s' w w' hr with ⟨_, h1, _⟩ | ⟨⟨n, h1⟩, _⟩
  · obtain ⟨g1, g2, g3, g4⟩ := Source.fill_panics chk s s' h h1
    exact ⟨g1, g2, congrArg _ g3, g4⟩
  · unfold Source.autoU at h1
    split at h1
    · obtain ⟨_, g1, g2, g3, g4⟩ := Source.fill_returns chk s s' h h1
      exact ⟨g1, g2, g3, g4⟩
    · cases h1
      exact ⟨h, rfl, rfl, [], .done, (List.append_nil _).symm⟩

/-- If it was the parser that panicked, the call has left no trace but the automatic `fill`: calling
`parse` again with any parser is as if the first call had not been made. -/
theorem C84_parse_again (chk : Bool) (f : UParser σ I T E) (s s' : Source S B) (h : Usable s) (w w' : σ)
    (hr : Source.parseU chk f (s, w) = .ok (none, s', w'))
    (hf : (s.state.incomplete && s.state.automaticFill) = true → ∀ s1, Source.fillU chk s ≠ .ok (none, s1))
    (g : UParser σ I T' E') (w0 : σ) :
    Source.parseU chk g (s', w0) = Source.parseU chk g (s, w0) := by
  rcases Source.parse_panics chk f s s' w w' hr with ⟨h0, h1, _⟩ | ⟨⟨n, h1⟩, _⟩
  · exact absurd h1 (hf h0 s')
  · rw [Source.parse_eq_U chk g s, h1]
    unfold Source.autoU at h1
    split at h1
    · obtain ⟨g0, _⟩ := Source.fill_returns chk s s' h h1
      rw [Source.parse_eq_U]
      unfold Source.autoU
      rw [g0]
      rfl
    · rename_i hc
      cases h1
      rw [Source.parse_eq_U]
      unfold Source.autoU
      rw [if_neg hc]

/-- If it was the data source that panicked, the call has left no trace but that of `fill`; the next call
starts with `fill` again. -/
theorem C84_parse_refill (chk : Bool) (f : UParser σ I T E) (s s' : Source S B) (h : Usable s) (w w' : σ)
    (hr : Source.parseU chk f (s, w) = .ok (none, s', w'))
    (ha : (s.state.incomplete && s.state.automaticFill) = true) (s1 : Source S B)
    (hf : Source.fillU chk s = .ok (none, s1)) : s' = s1 ∧ w' = w ∧ Intact s s' := by
  rcases Source.parse_panics chk f s s' w w' hr with ⟨_, h1, h2⟩ | ⟨⟨n, h1⟩, _⟩
  · rw [hf] at h1
    cases h1
    exact ⟨rfl, h2, Source.fill_panics chk s s' h hf⟩
  · unfold Source.autoU at h1
    rw [if_pos ha, hf] at h1
    cases h1

/-! ### C84: histories -/

theorem refilled_eq (e : IoError) (chk : Bool) (s s1 : Source S B) {a : Except IoError Nat}
    (h1 : Source.autoU chk s = .ok (some a, s1)) :
    refilled chk s = s1 ∧ @autofilled S B I (UDataSource.failing e) _ chk s = s1 ∧
      (if s.state.incomplete && s.state.automaticFill then @Source.fill S B I (UDataSource.failing e) _ chk s
        else .ok (.ok 0, s)) = .ok (a, s1) := by
  unfold Source.autoU at h1
  unfold refilled autofilled
  split at h1
  · rename_i hc
    have hb := Source.fill_bridge e chk s
    rw [h1] at hb
    rw [if_pos hc, if_pos hc, if_pos hc, h1, hb]
    exact ⟨rfl, rfl, rfl⟩
  · rename_i hc
    cases h1
    rw [if_neg hc, if_neg hc, if_neg hc]
    exact ⟨rfl, rfl, rfl⟩

/-- No operation loses, duplicates or reorders items, even if panics are caught: what was held, followed
by what was read, is what was handed out, followed by what is held afterwards. -/
theorem C84_step (chk : Bool) (s s' : Source S B) (h : Usable s) (w w' : σ) (out : List I)
    (hs : UStep chk s w out s' w') :
    Usable s' ∧ ∃ xs, UReads s.source xs s'.source ∧ held s ++ xs = out ++ held s' := by
  letI : DataSource S I := UDataSource.failing ⟨0⟩
  haveI : HonestSource S I := failing_honest _
  have key : SourceStep chk s w out s' w' →
      Usable s' ∧ ∃ xs, UReads s.source xs s'.source ∧ held s ++ xs = out ++ held s' := by
    intro hk
    obtain ⟨h1, xs, h2, h3⟩ := C48_step chk s s' h w w' out hk
    exact ⟨h1, xs, .of_failing h2, h3⟩
  have intact : Intact s s' → out = [] →
      Usable s' ∧ ∃ xs, UReads s.source xs s'.source ∧ held s ++ xs = out ++ held s' := by
    rintro ⟨h1, _, _, xs, h2, h3⟩ rfl
    exact ⟨h1, xs, h2, h3.symm⟩
  cases hs with
  | parse p f hp hf hr hx =>
    rename_i T E r
    refine key (.parse p (r := r) hp ?_ ?_)
    · rw [@Source.parse_eq S B I (UDataSource.failing ⟨0⟩)]
      rw [Source.parse_eq_U] at hr
      match ha : Source.autoU chk s with
      | .ok (some (.ok n), s1) =>
        rw [(refilled_eq ⟨0⟩ chk s s1 ha).2.2, Res.bind_ok]
        rw [ha] at hr
        have hb := Source.attempt_bridge chk f s1 w
        dsimp only at hr
        rw [hr] at hb
        refine Source.attempt_partly chk f p hf s1 s' w w' r ?_
        match hy : s1.attempt chk f.forget w, hb with
        | .ok ((a, b), c), hb => cases hb; rfl
        | .panic, hb => cases hb
        | .ub, hb => cases hb
        | .div, hb => cases hb
      | .ok (some (.error e), s1) =>
        rw [(refilled_eq ⟨0⟩ chk s s1 ha).2.2, Res.bind_ok]
        rw [ha] at hr
        cases hr
        rfl
      | .ok (none, s1) => rw [ha] at hr; cases hr
      | .panic => rw [ha] at hr; cases hr
      | .ub => rw [ha] at hr; cases hr
      | .div => rw [ha] at hr; cases hr
    · rw [Source.parse_eq_U] at hr
      match ha : Source.autoU chk s with
      | .ok (some a, s1) =>
        rw [(refilled_eq ⟨0⟩ chk s s1 ha).2.1, ← (refilled_eq ⟨0⟩ chk s s1 ha).1]
        exact hx
      | .ok (none, s1) => rw [ha] at hr; cases hr
      | .panic => rw [ha] at hr; cases hr
      | .ub => rw [ha] at hr; cases hr
      | .div => rw [ha] at hr; cases hr
  | parsePanics f hr =>
    obtain ⟨h1, _, _, xs, h2, h3⟩ := C84_parse chk f s s' h w w' hr
    exact ⟨h1, xs, h2, h3.symm⟩
  | fill hr =>
    rename_i r
    cases r with
    | none => exact intact (C84_fill chk s s' h hr) rfl
    | some r =>
      have hb := Source.fill_bridge ⟨0⟩ chk s
      rw [hr] at hb
      exact key (.fill hb)
  | read k hr =>
    have hb := Source.read_bridge ⟨0⟩ chk k s
    rw [hr] at hb
    exact key (.read k hb)
  | readNothing k hr hn =>
    rename_i r
    match r, hr, hn with
    | none, hr, _ => exact intact (C84_read chk k s s' h hr) rfl
    | some (.error e), hr, _ =>
      have hb := Source.read_bridge ⟨0⟩ chk k s
      rw [hr] at hb
      exact key (.readErr k hb)
    | some (.ok xs), _, hn => exact absurd rfl (hn xs)
  | fillBuf hr =>
    rename_i r
    cases r with
    | none => exact intact (C84_fillBuf chk s s' h hr) rfl
    | some r =>
      have hb := Source.fillBuf_bridge ⟨0⟩ chk s
      rw [hr] at hb
      exact key (.fillBuf hb)
  | consume k hk hr =>
    rename_i r
    have hb : LawfulBuffer.Inv s.buffer := h
    obtain ⟨b, g1, _⟩ := LawfulBuffer.consume chk hb (show k ≤ (LawfulBuffer.view s.buffer).length from hk)
    have hc : s.consume chk k = .ok { s with buffer := b } := by unfold Source.consume; rw [g1]; rfl
    rw [Source.consume_eq, hc] at hr
    cases hr
    exact key (.consume k hk hc)
  | consumePanics k hr =>
    cases C84_consume chk k s s' hr
    exact ⟨h, [], .done, List.append_nil _⟩
  | reset => exact key .reset
  | setAutofill v => exact key (.setAutofill v)

theorem UReads.trans {s s1 s2 : S} {xs ys : List I} (h1 : UReads s xs s1) (h2 : UReads s1 ys s2) :
    UReads s (xs ++ ys) s2 := by
  induction h1 with
  | done => exact h2
  | step k _ ih =>
    rw [List.append_assoc]
    exact .step k (ih h2)

/-- The same over any history of operations, of which any number may panic. -/
theorem C84_history (chk : Bool) (s s' : Source S B) (h : Usable s) (w w' : σ) (out : List I)
    (hs : UHistory chk s w out s' w') :
    Usable s' ∧ ∃ xs, UReads s.source xs s'.source ∧ held s ++ xs = out ++ held s' := by
  induction hs with
  | done => exact ⟨h, [], .done, List.append_nil _⟩
  | step h1 _ ih =>
    obtain ⟨g1, xs, g2, g3⟩ := C84_step chk _ _ h _ _ _ h1
    obtain ⟨k1, ys, k2, k3⟩ := ih g1
    refine ⟨k1, xs ++ ys, UReads.trans g2 k2, ?_⟩
    rw [← List.append_assoc, g3, List.append_assoc, k3, List.append_assoc]

end

/-- All of it for a `FixedSizeBuffer`: after any history, of which any number of operations may have
panicked, what was read is what was handed out followed by what is held; and if then a parser panics,
this leaves no trace. -/
theorem C84_fixed [UDataSource S I] [UHonest S I] (chk : Bool) (size : Nat) (b : FixedSizeBuffer I)
    (hb : FixedSizeBuffer.withSize size = .ok b) (s0 : S) (s : Source S (FixedSizeBuffer I)) (w w' : σ)
    (out : List I)
    (h : UHistory chk (Source.withBuffer s0 b) w out s w') :
    (∃ xs, UReads s0 xs s.source ∧ xs = out ++ held s) ∧
    ∀ {T E T' E' : Type} (f : UParser σ I T E) (s1 : Source S (FixedSizeBuffer I)) (w1 : σ),
      Source.parseU chk f (s, w') = .ok (none, s1, w1) →
      ((s.state.incomplete && s.state.automaticFill) = true → ∀ s2, Source.fillU chk s ≠ .ok (none, s2)) →
      ∀ (g : UParser σ I T' E') (w0 : σ), Source.parseU chk g (s1, w0) = Source.parseU chk g (s, w0) := by
  have hi := withSize_inv hb
  obtain ⟨h1, xs, h2, h3⟩ := C84_history chk _ _ (show Usable (Source.withBuffer s0 b) from hi.1) w w' out h
  exact ⟨⟨xs, h2, by rw [← h3, show held (Source.withBuffer s0 b) = [] from hi.2.1]; rfl⟩, fun f s1 w1 hr hf g w0 => C84_parse_again chk f s s1 h1 w' w1 hr hf g w0⟩

/-- And for a `GrowingBuffer`. -/
theorem C84_growing [UDataSource S I] [UHonest S I] (chk : Bool) (extra : Nat → Nat) (limit : Nat) (s0 : S)
    (s : Source S (GrowingBuffer I)) (w w' : σ) (out : List I)
    (h : UHistory chk (Source.withBuffer s0 (GrowingBuffer.withLimit extra limit : GrowingBuffer I)) w out s w') :
    (∃ xs, UReads s0 xs s.source ∧ xs = out ++ held s) ∧
    ∀ {T E T' E' : Type} (f : UParser σ I T E) (s1 : Source S (GrowingBuffer I)) (w1 : σ),
      Source.parseU chk f (s, w') = .ok (none, s1, w1) →
      ((s.state.incomplete && s.state.automaticFill) = true → ∀ s2, Source.fillU chk s ≠ .ok (none, s2)) →
      ∀ (g : UParser σ I T' E') (w0 : σ), Source.parseU chk g (s1, w0) = Source.parseU chk g (s, w0) := by
  obtain ⟨h1, xs, h2, h3⟩ := C84_history chk _ _ (show Usable (Source.withBuffer s0
    (GrowingBuffer.withLimit extra limit : GrowingBuffer I)) from GrowingBuffer.withLimit_inv extra limit) w w' out h
  exact ⟨⟨xs, h2, h3⟩, fun f s1 w1 hr hf g w0 => C84_parse_again chk f s s1 h1 w' w1 hr hf g w0⟩

/-! ### C84: safety -/

/-- No sequence of calls of safe methods is undefined behaviour if panics are caught, whatever the data
source and the parser do before they panic, and all return if the parsers do. -/
theorem C84_safe_fixed [UDataSource S I] [UHonest S I] (chk : Bool) (size : Nat) (b : FixedSizeBuffer I)
    (hb : FixedSizeBuffer.withSize size = .ok b) (s : S) (cs : List (UCall σ I)) (hc : ∀ c ∈ cs, c.Sound)
    (w : σ) : ∃ x, runCaught chk cs (Source.withBuffer s b, w) = .ok x := by
  obtain ⟨s', w', h, _⟩ := caught_calls chk cs hc (Source.withBuffer s b) w
    ⟨show FixedSafe b from .of_inv (withSize_inv hb).1, Nat.zero_le _⟩
  exact ⟨_, h⟩

theorem C84_safe_growing [UDataSource S I] [UHonest S I] (chk : Bool) (extra : Nat → Nat) (limit : Nat)
    (s : S) (cs : List (UCall σ I)) (hc : ∀ c ∈ cs, c.Sound) (w : σ) :
    ∃ x, runCaught chk cs
      (Source.withBuffer s (GrowingBuffer.withLimit extra limit : GrowingBuffer I), w) = .ok x := by
  obtain ⟨s', w', h, _⟩ := caught_calls chk cs hc
    (Source.withBuffer s (GrowingBuffer.withLimit extra limit : GrowingBuffer I)) w
    ⟨show GrowingSafe _ from .of_inv (GrowingBuffer.withLimit_inv extra limit), Nat.zero_le _⟩
  exact ⟨_, h⟩

/-! ### C84: slices -/

/-- Agreement for `SliceStream`. -/
theorem C84_agree_slice (chk : Bool) (f : UParser σ I T E) (s : SliceStream I) (w : σ) :
    forget (SliceStream.parseU chk f (s, w)) = regroup (s.parse chk f.forget w) :=
  SliceStream.parse_forget chk f s w

/-- If `parse` on a `SliceStream` panics, the stream is what it was. -/
theorem C84_slice (chk : Bool) (f : UParser σ I T E) (s s' : SliceStream I) (w w' : σ)
    (hr : SliceStream.parseU chk f (s, w) = .ok (none, s', w')) : s' = s :=
  SliceStream.parse_panics chk f s s' w w' hr

/-! ### C84: data sources -/

theorem iterReadU_length [UIter J I] : ∀ (k : Nat) (j : J), (iterReadU k j).1.length ≤ k := by
  intro k
  induction k with
  | zero => intro j; exact Nat.le_refl 0
  | succ k ih =>
    intro j
    unfold iterReadU
    match UIter.next j with
    | (some (some x), j') => exact Nat.succ_le_succ (ih j')
    | (some none, j') => exact Nat.zero_le _
    | (none, j') => exact Nat.zero_le _

/-- Data sources reading from an iterator keep the contract, whatever the iterator does. -/
instance [UIter J I] : UHonest (IteratorDataSource J) I where
  honest s k n h := by
    have hl := iterReadU_length k s.inner
    have hr : (UDataSource.read s k).1 = ⟨(iterReadU k s.inner).1.map some,
      if (iterReadU k s.inner).2.1 then some (.ok (iterReadU k s.inner).1.length) else none⟩ := rfl
    rw [hr] at h ⊢
    unfold UReadOut.items
    dsimp only at h ⊢
    split at h
    · rename_i hc
      cases h
      rw [if_pos hc]
      refine ⟨hl, ?_⟩
      show (((iterReadU k s.inner).1.map some).take (iterReadU k s.inner).1.length |>.filterMap id).length = _
      rw [List.take_of_length_le (by simp), List.filterMap_map, Function.comp_def]
      simp
    · cases h

/-- Data sources reading from an `io::Read` keep it if the reader does. -/
instance [UDataSource R UInt8] [UHonest R UInt8] : UHonest (ReadDataSource R) UInt8 where
  honest s k n h := UHonest.honest s.inner k n h

/-- A data source which does not panic and keeps the contract. -/
theorem calm_honest [DataSource S I] [HonestSource S I] : @UHonest S I .calm :=
  @UHonest.mk S I .calm <| by
    intro s k n h
    have h' : (DataSource.read s k).1.result = .ok n := Option.some.inj h
    have := HonestSource.honest s k n h'
    unfold ReadOut.items at this
    unfold UReadOut.items
    rw [h] at *
    rw [h'] at this
    exact this

/-- An iterator which does not panic. -/
@[reducible] def calmIter [Iter J I] : UIter J I where
  next j := (some (Iter.next j).1, (Iter.next j).2)

/-- If the iterator does not panic, this is the data source as the other properties know it. -/
theorem C84_agree_iterator [Iter J I] (s : IteratorDataSource J) (k : Nat) :
    @UDataSource.read (IteratorDataSource J) I (@unwindIterator J I calmIter) s k =
      @UDataSource.read (IteratorDataSource J) I .calm s k := by
  have key : ∀ k j, @iterReadU J I calmIter k j = ((iterRead k j).1, true, (iterRead k j).2) := by
    intro k
    induction k with
    | zero => intro j; rfl
    | succ k ih =>
      intro j
      unfold iterReadU iterRead
      rw [show @UIter.next J I calmIter j = (some (Iter.next j).1, (Iter.next j).2) from rfl]
      match Iter.next j with
      | (some x, j') => simp only [ih]
      | (none, j') => rfl
  show (let (xs, b, j) := @iterReadU J I calmIter k s.inner
    (⟨xs.map some, if b then some (.ok xs.length) else none⟩, ⟨j⟩) : UReadOut I × IteratorDataSource J) = _
  rw [key]
  rfl

theorem C84_agree_reader [DataSource R UInt8] (s : ReadDataSource R) (k : Nat) :
    @UDataSource.read (ReadDataSource R) UInt8 (@unwindReader R .calm) s k =
      @UDataSource.read (ReadDataSource R) UInt8 .calm s k := rfl

/-- What an iterator has already yielded in a call of `read` in which it panics later is not handed over,
and the iterator is past it: unlike the contents of the buffer, it is lost. -/
theorem C84_iterator_loses [UIter J I] (s : IteratorDataSource J) (k : Nat) (xs : List I) (j : J)
    (h : iterReadU k s.inner = (xs, false, j)) :
    (UDataSource.read s k).1.result = none ∧ (UDataSource.read s k).1.items = [] ∧
      (UDataSource.read s k).2 = ⟨j⟩ := by
  have : UDataSource.read s k = (⟨xs.map some, none⟩, (⟨j⟩ : IteratorDataSource J)) := by
    show (let (xs, b, j) := iterReadU k s.inner
      (⟨xs.map some, if b then some (.ok xs.length) else none⟩, ⟨j⟩) : UReadOut I × IteratorDataSource J) = _
    rw [h]
    rfl
  rw [this]
  exact ⟨rfl, rfl, rfl⟩

/-! ### Examples -/

namespace UnwindExample

/-- What calls of `read` do: hand over some items, or panic. -/
structure Bomb where
  events : List (Option (List Nat))

def Bomb.read (s : Bomb) (k : Nat) : UReadOut Nat × Bomb :=
  match s.events with
  | [] => (⟨[], some (.ok 0)⟩, s)
  | none :: r => (⟨[some 77], none⟩, ⟨r⟩)
  | some xs :: r => (⟨(xs.take k).map some, some (.ok (xs.take k).length)⟩, ⟨r⟩)

instance : UDataSource Bomb Nat := ⟨Bomb.read⟩

instance : UHonest Bomb Nat where
  honest s k n h := by
    obtain ⟨ev⟩ := s
    change (Bomb.read ⟨ev⟩ k).1.result = _ at h
    change _ ∧ (Bomb.read ⟨ev⟩ k).1.items.length = _
    match ev with
    | [] => cases h; exact ⟨Nat.zero_le _, rfl⟩
    | none :: r => cases h
    | some xs :: r =>
      cases h
      refine ⟨List.length_take_le _ _, ?_⟩
      show (((xs.take k).map some).take (xs.take k).length |>.filterMap id).length = _
      rw [List.take_of_length_le (by simp), List.filterMap_map, Function.comp_def]
      simp

abbrev Src := Source Bomb (FixedSizeBuffer Nat)

/-- Holding one item, four wanted; two more come, then a panic. -/
def before : Src :=
  ⟨⟨[some [2, 3], none, some [4, 5]]⟩, ⟨[some 0, some 1, none, none, none], 2, 1⟩, 4, ⟨true, false, true⟩⟩

def after : Src :=
  ⟨⟨[some [4, 5]]⟩, ⟨[some 0, some 1, some 2, some 3, some 77], 4, 1⟩, 4, ⟨true, false, true⟩⟩

theorem before_usable : Usable before :=
  (FixedSizeBuffer.inv_of (b := before.buffer) (data := [0, 1]) ⟨by decide, rfl, rfl, by decide⟩).1

theorem before_requested (chk : Bool) : Source.fillRequestedU chk 4 before = .ok (none, after) := by
  cases chk <;>
    exact Source.fillRequested_eval (l := 1) (d := 3) rfl (by decide) rfl rfl (loop_of_fuel (n := 5) rfl)

theorem before_fill (chk : Bool) : Source.fillU chk before = .ok (none, after) :=
  Source.fill_none (before_requested chk)

/-- C84: `fill` panics, and the two items read before are there. -/
example (chk : Bool) : Intact before after := C84_fill chk before after before_usable (before_fill chk)

example : held before = [1] ∧ held after = [1, 2, 3] := ⟨rfl, rfl⟩

/-- C84: so does `read`. -/
example (chk : Bool) : Intact before after :=
  C84_read chk 4 before after before_usable (by
    unfold Source.readU
    rw [U.get_bind, show before.len chk = .ok 1 by cases chk <;> rfl, U.look_ok]
    exact U.bind_none (before_requested chk))

/-- C84: and `parse`, before it runs the parser. -/
theorem before_parse (chk : Bool) (f : UParser Nat Nat Unit Unit) :
    Source.parseU chk f (before, 7) = .ok (none, after, 7) := by
  rw [Source.parse_eq_U, show Source.autoU chk before = _ from before_fill chk]

example (chk : Bool) (f : UParser Nat Nat Unit Unit) : Usable after ∧ ∃ xs, held after = held before ++ xs := by
  obtain ⟨h1, _, _, xs, _, h2⟩ := C84_parse chk f before after before_usable 7 7 (before_parse chk f)
  exact ⟨h1, xs, h2⟩

/-- `take_remainder`, but it panics in the first call. -/
def once : UParser Nat Nat (List Nat) (Error Nat) := fun i n =>
  if n = 0 then .ok (none, 1) else .ok (some (.data ⟨i.mode, []⟩ i.buf), n)

theorem once_partly : Partly once Parsers.takeRemainder := by
  intro i w r w' h
  unfold once at h
  split at h
  · cases h
  · cases h; rfl

/-- Three items, none wanted. -/
def ready : Src :=
  ⟨⟨[none]⟩, ⟨[some 0, some 1, some 2, some 3, none], 4, 1⟩, 0, ⟨false, false, true⟩⟩

theorem ready_usable : Usable ready :=
  (FixedSizeBuffer.inv_of (b := ready.buffer) (data := [0, 1, 2, 3]) ⟨by decide, rfl, rfl, by decide⟩).1

theorem ready_parse (chk : Bool) : Source.parseU chk once (ready, 0) = .ok (none, ready, 1) := by
  cases chk <;> rfl

/-- C84: the second try gets everything. -/
example (chk : Bool) : ∃ s', Source.parseU chk once (ready, 1) = .ok (some (.ok [1, 2, 3]), s', 1) := by
  rw [← C84_parse_again chk once ready ready ready_usable 0 1 (ready_parse chk)
    (fun h => absurd h (by decide)) once 1]
  cases chk <;> exact ⟨_, rfl⟩

/-- C84: a history with two panics: in the data source, then in the parser; nothing is missing. -/
example (chk : Bool) : ∃ s', UHistory chk before 0 [1, 2, 3] s' 1 ∧ held s' = [] := by
  refine ⟨⟨⟨[some [4, 5]]⟩, ⟨[some 0, some 1, some 2, some 3, some 77], 4, 4⟩, 4, ⟨true, false, false⟩⟩,
    .step (x := []) (.fill (before_fill chk)) (.step (x := []) (.setAutofill false)
      (.step (x := []) (w1 := 1) (s1 := after.setAutofill false) (.parsePanics once ?_)
        (.step (x := [1, 2, 3]) (y := [])
          (.parse Parsers.takeRemainder once (r := .ok [1, 2, 3]) (.takeRemainder rfl) once_partly ?_ ?_)
          .done))), rfl⟩
  · cases chk <;> rfl
  · cases chk <;> rfl
  · rfl

/-- Panics may be caught in any sequence of calls. -/
def calls : List (UCall Nat Nat) :=
  [.fill, .parse once, .consume usizeMax, .parse once, .fill, .read 5, .buffer]

theorem calls_sound : ∀ c ∈ calls, c.Sound := by
  intro c hc
  have ho : ∀ i w, ∃ x, once i w = .ok x := by
    intro i w
    unfold once
    split <;> exact ⟨_, rfl⟩
  simp only [calls, List.mem_cons, List.not_mem_nil, or_false] at hc
  rcases hc with rfl | rfl | rfl | rfl | rfl | rfl | rfl
  · trivial
  · exact ho
  · trivial
  · exact ho
  · trivial
  · show 5 ≤ isizeMax
    decide
  · trivial

example (chk : Bool) : ∃ x, runCaught chk calls (Source.withBuffer (⟨[some [1], none, none]⟩ : Bomb)
    (⟨[none, none], 0, 0⟩ : FixedSizeBuffer Nat), 0) = .ok x :=
  C84_safe_fixed chk 2 _ rfl _ calls calls_sound 0

example (chk : Bool) : ∃ x, runCaught chk calls (Source.withBuffer (⟨[some [1], none, none]⟩ : Bomb)
    (GrowingBuffer.withLimit (fun _ => 2) 0 : GrowingBuffer Nat), 0) = .ok x :=
  C84_safe_growing chk _ 0 _ calls calls_sound 0

/-- C84: a slice, twice. -/
example (chk : Bool) :
    SliceStream.parseU chk once (SliceStream.new [1, 2, 3], 0) = .ok (none, SliceStream.new [1, 2, 3], 1) ∧
    SliceStream.parseU chk once (SliceStream.new [1, 2, 3], 1) = .ok (some (.ok [1, 2, 3]), ⟨3, [1, 2, 3]⟩, 1) := by
  cases chk <;> exact ⟨rfl, rfl⟩

/-- An iterator; `none` is a panic. -/
structure Items where
  items : List (Option Nat)

def Items.next (j : Items) : Option (Option Nat) × Items :=
  match j.items with
  | [] => (some none, j)
  | x :: r => (x.map some, ⟨r⟩)

instance : UIter Items Nat := ⟨Items.next⟩

def items : Source (IteratorDataSource Items) (FixedSizeBuffer Nat) :=
  Source.withBuffer ⟨⟨[some 1, none, some 3]⟩⟩ ⟨[none, none], 0, 0⟩

/-- C84: in a debug build `consume` panics if asked for too much. -/
example : Source.consumeU true 4 ready = .ok (none, ready) := rfl

end UnwindExample

open UnwindExample in
/-- C84: `fill` wants one item, which the iterator has to give. It reads on, panics, and the item is gone
for good: the next `fill` finds what comes after the panic. -/
theorem C84_iterator_loses_item (chk : Bool) : ∃ s1 s2, Source.fillU chk items = .ok (none, s1) ∧
    Source.fillU chk s1 = .ok (some (.ok 1), s2) ∧ held s2 = [3] := by
  cases chk <;>
    exact ⟨_, _, Source.fill_none (Source.fillRequested_eval (l := 0) (d := 1) rfl (by decide) rfl rfl
        (loop_of_fuel (n := 5) rfl)),
      Source.fill_some (Source.fillRequested_eval (l := 0) (d := 1) rfl (by decide) rfl rfl
        (loop_of_fuel (n := 5) rfl)) (l := 1) rfl, rfl⟩

end Chomp.Props
