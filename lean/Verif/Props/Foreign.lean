import Verif.Lemmas.Slice
import Verif.Props.Source
import Verif.Props.Slice
import Verif.Spec.Foreign

/-
C79: parsers which leave a slice which is not an end of what they were given.

`Input::replace`, `Input::new` and `primitives::input::new` are public and safe (src/input.rs), so there
are such parsers.
-/

set_option linter.unusedSectionVars false

namespace Chomp.Props

open Spec

/-! ### C79 -/

/-- What a stream at position `pos` of `size` items does with a remainder of `r` items: in a debug build
it goes on from there, or panics. -/
theorem advance_ok {pos size l r : Nat} (chk : Bool) (hp : pos ≤ size) (hl : l = size - pos)
    (hs : size ≤ usizeMax) (h : r ≤ l) {K : Nat → Res α} :
    (usubB chk l r >>= fun d => uaddB chk pos d >>= K) = K (size - r) := by
  rw [usubB_ok h, Res.bind_ok, uaddB_ok (by omega), Res.bind_ok,
    show pos + (l - r) = size - r by omega]

/-- In a release build it goes back, -/
theorem advance_back {pos size l r : Nat} (hp : pos ≤ size) (hl : l = size - pos)
    (hs : size ≤ usizeMax) (h : r ≤ size) {K : Nat → Res α} :
    (usubB false l r >>= fun d => uaddB false pos d >>= K) = K (size - r) := by
  by_cases hlt : r ≤ l
  · exact advance_ok false hp hl hs hlt
  · have e : usizeMax < 2 ^ 64 := by decide
    obtain ⟨d, h1, h2⟩ := usubB_wrap (a := l) (b := r) (by omega) (by omega)
    obtain ⟨c, h3, h4⟩ := uaddB_wrap (a := pos) (b := d) (by omega) (by omega)
    rw [h1, Res.bind_ok, h3, Res.bind_ok, show c = size - r by omega]

/-- or to a position outside. -/
theorem advance_out {pos size l r : Nat} (hp : pos ≤ size) (hl : l = size - pos)
    (hs : size ≤ isizeMax) (h : size < r) (hr : r ≤ isizeMax) :
    ∃ c, size < c ∧ c ≤ usizeMax ∧ usubB false size c = .ok r ∧ ∀ {α : Type} {K : Nat → Res α},
      (usubB false l r >>= fun d => uaddB false pos d >>= K) = K c := by
  have e : usizeMax < 2 ^ 64 := by decide
  have e' : 2 ^ 64 ≤ usizeMax + 1 := by decide
  have e1 : isizeMax < 2 ^ 63 := by decide
  obtain ⟨d, h1, h2⟩ := usubB_wrap (a := l) (b := r) (by omega) (by omega)
  obtain ⟨m, h3, h4⟩ := usubB_wrap (a := size) (b := pos + d) (by omega) (by omega)
  refine ⟨pos + d, by omega, by omega, by rw [h3, show m = r by omega], fun {α K} => ?_⟩
  rw [h1, Res.bind_ok, uaddB_ok (by omega), Res.bind_ok]

/-- A `SliceStream` looks at the length of what is left only. In a debug build it panics if it is longer
than what was given. In a release build it then goes back to items which have been consumed before, or to
a position outside of the slice, where every later call panics. -/
theorem C79_slice (p : Parser σ I T E) (s : SliceStream I) (h : ValidSlice s)
    (hu : unread s ≠ []) (w w' : σ) (r : ParseResult I T E) (rest : List I)
    (a : Except (StreamError I E) T) (hr : p ⟨.endOfInput, unread s⟩ w = .ok (r, w'))
    (hl : left r = some (rest, a)) :
    (∀ chk, rest.length ≤ (unread s).length →
      s.parse chk p w = .ok ((a, ⟨s.slice.length - rest.length, s.slice⟩), w')) ∧
    ((unread s).length < rest.length → s.parse true p w = .panic) ∧
    (rest.length ≤ s.slice.length →
      s.parse false p w = .ok ((a, ⟨s.slice.length - rest.length, s.slice⟩), w')) ∧
    (s.slice.length < rest.length → rest.length ≤ isizeMax → ∃ s',
      s.parse false p w = .ok ((a, s'), w') ∧
      ∀ (U F τ : Type) (q : Parser τ I U F) (x : τ), s'.parse false q x = .panic) := by
  have hlen : (unread s).length = s.slice.length - s.pos := by simp [unread]
  have key : ∀ chk, s.parse chk p w =
      usubB chk (unread s).length rest.length >>= fun d => uaddB chk s.pos d >>= fun pos =>
        .ok ((a, ⟨pos, s.slice⟩), w') := by
    intro chk
    rw [SliceStream.parse_eq h, if_neg hu, hr]
    cases r with
    | data i t => cases hl; rfl
    | error b e => cases hl; rfl
    | incomplete n => cases hl
  refine ⟨fun chk hle => ?_, fun hlt => ?_, fun hle => ?_, fun hlt hmax => ?_⟩
  · rw [key, advance_ok chk h.1 hlen h.2 hle]
  · rw [key]
    unfold usubB
    rw [if_neg (by omega), if_pos rfl]
    rfl
  · rw [key, advance_back h.1 hlen h.2 hle]
  · obtain ⟨c, h1, h2, h3, h4⟩ := advance_out h.1 hlen (Nat.le_trans (Nat.le_of_lt hlt) hmax) hlt hmax
    refine ⟨⟨c, s.slice⟩, by rw [key, h4], fun U F τ q x => ?_⟩
    unfold SliceStream.parse SliceStream.isEmpty SliceStream.len
    dsimp only
    rw [h3, Res.bind_ok]
    have : (rest.length == 0) = false := by
      rw [beq_eq_false_iff_ne]; omega
    rw [this]
    unfold sliceFrom
    rw [if_neg (by omega)]
    rfl

section
variable {S B I : Type} [DataSource S I] [HonestSource S I] [Buffer B I] [LawfulBuffer B I]

/-- A `Source` looks at the length only, too, and panics in a debug build if it is longer than what was
given. Any lawful buffer. -/
theorem C79_source (p : Parser σ I T E) (s : Source S B) (h : Usable s)
    (hi : s.state.incomplete = false ∨ s.state.automaticFill = false)
    (hn : ¬ (s.state.endOfInput = true ∧ held s = [])) (w w' : σ) (r : ParseResult I T E)
    (rest : List I) (a : Except (StreamError I E) T)
    (hr : p ⟨modeOf s, held s⟩ w = .ok (r, w')) (hl : left r = some (rest, a)) :
    (∀ chk, rest.length ≤ (held s).length → ∃ s', s.parse chk p w = .ok ((a, s'), w') ∧ Usable s' ∧
      held s' = (held s).drop ((held s).length - rest.length) ∧ s'.source = s.source) ∧
    ((held s).length < rest.length → s.parse true p w = .panic) := by
  have key : ∀ chk, s.parse chk p w =
      usubB chk (held s).length rest.length >>= fun d => Buffer.consume chk d s.buffer >>= fun b =>
        .ok ((a, { s with buffer := b }), w') := by
    intro chk
    rw [Source.parse_eq, if_neg (by rcases hi with e | e <;> simp [e]), Res.bind_ok]
    show s.attempt chk p w = _
    rw [Source.attempt_eq chk p s w h hn, hr]
    cases r with
    | data i t => cases hl; rfl
    | error b e => cases hl; rfl
    | incomplete n => cases hl
  refine ⟨fun chk hle => ?_, fun hlt => ?_⟩
  · have hc : (held s).length - rest.length ≤ (LawfulBuffer.view s.buffer).length :=
      Nat.sub_le _ _
    obtain ⟨b, h1, h2, h3, _⟩ := LawfulBuffer.consume chk (b := s.buffer) h hc
    refine ⟨{ s with buffer := b }, ?_, h2, h3, rfl⟩
    rw [key, usubB_ok hle, Res.bind_ok, h1]
    rfl
  · rw [key]
    unfold usubB
    rw [if_neg (by omega), if_pos rfl]
    rfl

end

section
variable {S I : Type} [DataSource S I] [HonestSource S I]

/-- In a release build: a `FixedSizeBuffer` goes back, up to the beginning of its memory. Beyond that
every later call of `parse` panics. -/
theorem C79_fixed (p : Parser σ I T E) (s : Source S (FixedSizeBuffer I)) (h : Usable s)
    (hi : s.state.incomplete = false ∨ s.state.automaticFill = false)
    (hn : ¬ (s.state.endOfInput = true ∧ held s = [])) (w w' : σ) (r : ParseResult I T E)
    (rest : List I) (a : Except (StreamError I E) T)
    (hr : p ⟨modeOf s, held s⟩ w = .ok (r, w')) (hl : left r = some (rest, a)) :
    (rest.length ≤ s.buffer.populated → s.parse false p w =
      .ok ((a, { s with buffer := { s.buffer with used := s.buffer.populated - rest.length } }), w')) ∧
    (s.buffer.populated < rest.length → rest.length ≤ isizeMax → ∃ s', s.parse false p w =
      .ok ((a, s'), w') ∧
      ∀ (U F τ : Type) (q : Parser τ I U F) (x : τ), s'.parse false q x = .panic) := by
  have hlen : s.buffer.populated - s.buffer.used = (held s).length := MemInv.len h
  have h1 : s.buffer.used ≤ s.buffer.populated := MemInv.used_le h
  have h2 : s.buffer.populated ≤ s.buffer.buffer.length := MemInv.populated_le h
  have h3 : s.buffer.buffer.length ≤ isizeMax := MemInv.size h
  have key : s.parse false p w =
      usubB false (held s).length rest.length >>= fun d => uaddB false s.buffer.used d >>= fun u =>
        .ok ((a, { s with buffer := { s.buffer with used := u } }), w') := by
    rw [Source.parse_eq, if_neg (by rcases hi with e | e <;> simp [e]), Res.bind_ok]
    show s.attempt false p w = _
    rw [Source.attempt_eq false p s w h hn, hr]
    have hc : ∀ d, Buffer.consume false d s.buffer = uaddB false s.buffer.used d >>= fun u =>
        .ok { s.buffer with used := u } := fun d => by
      show FixedSizeBuffer.consume false d s.buffer = _
      unfold FixedSizeBuffer.consume debugAssert
      rfl
    cases r with
    | data i t =>
      cases hl
      show (usubB false (held s).length i.buf.length >>= fun d => Buffer.consume false d s.buffer >>= _) = _
      congr 1
      funext d
      rw [hc]
      cases uaddB false s.buffer.used d <;> rfl
    | error b e =>
      cases hl
      show (usubB false (held s).length rest.length >>= fun d => Buffer.consume false d s.buffer >>= _) = _
      congr 1
      funext d
      rw [hc]
      cases uaddB false s.buffer.used d <;> rfl
    | incomplete n => cases hl
  have hs : s.buffer.populated ≤ usizeMax := Nat.le_trans (Nat.le_trans h2 h3) (by decide)
  refine ⟨fun hle => by rw [key, advance_back h1 hlen.symm hs hle], fun hlt hmax => ?_⟩
  obtain ⟨u, g1, g2, g3, g4⟩ := advance_out h1 hlen.symm (Nat.le_trans h2 h3) hlt hmax
  refine ⟨{ s with buffer := { s.buffer with used := u } }, by rw [key, g4], fun U F τ q x => ?_⟩
  have hlen' : Buffer.len false { s.buffer with used := u } = .ok rest.length := g3
  have hder : Buffer.deref { s.buffer with used := u } = .panic := by
    show subslice s.buffer.buffer u s.buffer.populated = .panic
    unfold subslice
    rw [if_neg (by omega)]
  have hreq : ∀ m, Buffer.requestSpace false m { s.buffer with used := u } = .panic := by
    intro m
    show FixedSizeBuffer.requestSpace false m _ = .panic
    have : ¬ (u ≤ s.buffer.populated) := by omega
    simp [FixedSizeBuffer.requestSpace, assert, this]
  have hatt : ∀ st : Flags, Source.attempt false q
      (⟨s.source, { s.buffer with used := u }, s.request, st⟩ : Source S (FixedSizeBuffer I)) x = .panic := by
    intro st
    unfold Source.attempt Source.isEmpty Source.len
    dsimp only
    rw [hlen', Res.bind_ok, hder]
    have : (rest.length == 0) = false := by
      rw [beq_eq_false_iff_ne]; omega
    rw [this]
    rw [ite_self]
    rfl
  rw [Source.parse_eq]
  split
  · have : Source.fill false { s with buffer := { s.buffer with used := u } } = .panic ∨
        ∃ st n, Source.fill false { s with buffer := { s.buffer with used := u } } =
          .ok (.ok n, { s with buffer := { s.buffer with used := u }, state := st }) := by
      unfold Source.fill Source.fillRequested
      dsimp only
      rw [hlen', Res.bind_ok]
      split
      · rename_i hlt'
        rw [usubB_ok (Nat.le_of_lt hlt'), Res.bind_ok, hreq]
        exact .inl rfl
      · dsimp only [Res.bind_ok]
        rw [hlen']
        exact .inr ⟨_, _, rfl⟩
    rcases this with e | ⟨st, n, e⟩
    · rw [e]; rfl
    · rw [e, Res.bind_ok]
      exact hatt st
  · exact hatt s.state

/-- So does a `GrowingBuffer`. There the next call of `parse` panics as well; it does not lead to undefined
behaviour. -/
theorem C79_growing (p : Parser σ I T E) (s : Source S (GrowingBuffer I)) (h : Usable s)
    (hi : s.state.incomplete = false ∨ s.state.automaticFill = false)
    (hn : ¬ (s.state.endOfInput = true ∧ held s = [])) (w w' : σ) (r : ParseResult I T E)
    (rest : List I) (a : Except (StreamError I E) T)
    (hr : p ⟨modeOf s, held s⟩ w = .ok (r, w')) (hl : left r = some (rest, a)) :
    (rest.length ≤ s.buffer.populated → s.parse false p w =
      .ok ((a, { s with buffer := { s.buffer with used := s.buffer.populated - rest.length } }), w')) ∧
    (s.buffer.populated < rest.length → rest.length ≤ isizeMax → ∃ s', s.parse false p w =
      .ok ((a, s'), w') ∧
      ∀ (U F τ : Type) (q : Parser τ I U F) (x : τ), s'.parse false q x = .panic) := by
  have hlen : s.buffer.populated - s.buffer.used = (held s).length := MemInv.len h.1
  have h1 : s.buffer.used ≤ s.buffer.populated := MemInv.used_le h.1
  have h2 : s.buffer.populated ≤ s.buffer.buffer.length := MemInv.populated_le h.1
  have h3 : s.buffer.buffer.length ≤ isizeMax := MemInv.size h.1
  have key : s.parse false p w =
      usubB false (held s).length rest.length >>= fun d => uaddB false s.buffer.used d >>= fun u =>
        .ok ((a, { s with buffer := { s.buffer with used := u } }), w') := by
    rw [Source.parse_eq, if_neg (by rcases hi with e | e <;> simp [e]), Res.bind_ok]
    show s.attempt false p w = _
    rw [Source.attempt_eq false p s w h hn, hr]
    have hc : ∀ d, Buffer.consume false d s.buffer = uaddB false s.buffer.used d >>= fun u =>
        .ok { s.buffer with used := u } := fun d => by
      show GrowingBuffer.consume false d s.buffer = _
      unfold GrowingBuffer.consume debugAssert
      rfl
    cases r with
    | data i t =>
      cases hl
      show (usubB false (held s).length i.buf.length >>= fun d => Buffer.consume false d s.buffer >>= _) = _
      congr 1
      funext d
      rw [hc]
      cases uaddB false s.buffer.used d <;> rfl
    | error b e =>
      cases hl
      show (usubB false (held s).length rest.length >>= fun d => Buffer.consume false d s.buffer >>= _) = _
      congr 1
      funext d
      rw [hc]
      cases uaddB false s.buffer.used d <;> rfl
    | incomplete n => cases hl
  have hs : s.buffer.populated ≤ usizeMax := Nat.le_trans (Nat.le_trans h2 h3) (by decide)
  refine ⟨fun hle => by rw [key, advance_back h1 hlen.symm hs hle], fun hlt hmax => ?_⟩
  obtain ⟨u, g1, g2, g3, g4⟩ := advance_out h1 hlen.symm (Nat.le_trans h2 h3) hlt hmax
  refine ⟨{ s with buffer := { s.buffer with used := u } }, by rw [key, g4], fun U F τ q x => ?_⟩
  have hlen' : Buffer.len false { s.buffer with used := u } = .ok rest.length := g3
  have hder : Buffer.deref { s.buffer with used := u } = .panic := by
    show subslice s.buffer.buffer u s.buffer.populated = .panic
    unfold subslice
    rw [if_neg (by omega)]
  rw [Source.parse_eq, if_neg (by rcases hi with e | e <;> simp [e]), Res.bind_ok]
  unfold Source.attempt Source.isEmpty Source.len
  dsimp only
  rw [hlen', Res.bind_ok, hder]
  have : (rest.length == 0) = false := by
    rw [beq_eq_false_iff_ne]; omega
  rw [this, ite_self]
  rfl

end

namespace ForeignExample

/-- Two of three items have been consumed. -/
def stream : SliceStream Nat := ⟨2, [1, 2, 3]⟩

/-- A parser which leaves three items from elsewhere: all items come again in a release build, a debug
build panics. -/
example : stream.parse false (leaves (σ := Unit) (E := Unit) [7, 8, 9] 'x') () =
      .ok ((.ok 'x', ⟨0, [1, 2, 3]⟩), ()) ∧
    stream.parse true (leaves (σ := Unit) (E := Unit) [7, 8, 9] 'x') () = .panic :=
  have h := C79_slice (leaves (σ := Unit) (E := Unit) [7, 8, 9] 'x') stream ⟨by decide, by decide⟩
    (by decide) () () _ [7, 8, 9] (.ok 'x') rfl rfl
  ⟨h.2.2.1 (by decide), h.2.1 (by decide)⟩

/-- With four items the stream is lost. -/
example : ∃ s', stream.parse false (leaves (σ := Unit) (E := Unit) [7, 8, 9, 10] 'x') () =
      .ok ((.ok 'x', s'), ()) ∧
    ∀ (U F τ : Type) (q : Parser τ Nat U F) (x : τ), s'.parse false q x = .panic :=
  (C79_slice (leaves (σ := Unit) (E := Unit) [7, 8, 9, 10] 'x') stream ⟨by decide, by decide⟩
    (by decide) () () _ [7, 8, 9, 10] (.ok 'x') rfl rfl).2.2.2 (by decide) (by decide)

/-- Three items in a `FixedSizeBuffer` of four, two of them consumed. -/
def source : Source (Script Nat) (FixedSizeBuffer Nat) :=
  ⟨⟨[]⟩, ⟨[some 1, some 2, some 3, none], 3, 2⟩, 0, ⟨false, false, true⟩⟩

theorem source_usable : Usable source :=
  (FixedSizeBuffer.inv_of (b := source.buffer) (data := [1, 2, 3])
    ⟨by decide, rfl, rfl, by decide⟩).1

example : source.parse false (leaves (σ := Unit) (E := Unit) [7, 8] 'x') () =
      .ok ((.ok 'x', ⟨⟨[]⟩, ⟨[some 1, some 2, some 3, none], 3, 1⟩, 0, ⟨false, false, true⟩⟩), ()) :=
  (C79_fixed (leaves (σ := Unit) (E := Unit) [7, 8] 'x') source source_usable (.inl rfl)
    (fun h => by cases h.1) () () _ [7, 8] (.ok 'x') rfl rfl).1 (by decide)

example : source.parse true (leaves (σ := Unit) (E := Unit) [7, 8] 'x') () = .panic :=
  (C79_source (leaves (σ := Unit) (E := Unit) [7, 8] 'x') source source_usable (.inl rfl)
    (fun h => by cases h.1) () () _ [7, 8] (.ok 'x') rfl rfl).2 (by decide)

/-- Three items in a `GrowingBuffer` of four, two of them consumed. -/
def grown : Source (Script Nat) (GrowingBuffer Nat) :=
  ⟨⟨[]⟩, ⟨[some 1, some 2, some 3, none], 4, 3, 0, 2, fun _ => 0, 1⟩, 0, ⟨false, false, true⟩⟩

theorem grown_usable : Usable grown :=
  (GrowingBuffer.inv_of (b := grown.buffer) (data := [1, 2, 3])
    ⟨by decide, rfl, rfl, by decide⟩ rfl).1

example : ∃ s', grown.parse false (leaves (σ := Unit) (E := Unit) [7, 8, 9, 10] 'x') () =
      .ok ((.ok 'x', s'), ()) ∧
    ∀ (U F τ : Type) (q : Parser τ Nat U F) (x : τ), s'.parse false q x = .panic :=
  (C79_growing (leaves (σ := Unit) (E := Unit) [7, 8, 9, 10] 'x') grown grown_usable (.inl rfl)
    (fun h => by cases h.1) () () _ [7, 8, 9, 10] (.ok 'x') rfl rfl).2 (by decide) (by decide)

end ForeignExample

end Chomp.Props
