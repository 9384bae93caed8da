import Verif.Lemmas.Slice
import Verif.Props.Built
import Verif.Props.Monad

/-
C42, C43, C60 (first part): `SliceStream`.
-/

namespace Chomp.Props

open Spec

/-! ### C42 -/

/-- With nothing left, `parse` returns `EndOfInput` and does not run the parser. -/
theorem C42_end_of_input (chk : Bool) (f : Parser σ I T E) (s : SliceStream I) (h : ValidSlice s)
    (hu : unread s = []) (w : σ) : s.parse chk f w = .ok ((.error .endOfInput, s), w) := by
  rw [SliceStream.parse_eq h, if_pos hu]

/-- And this is the only case in which it returns `EndOfInput`. -/
theorem C42_end_only (chk : Bool) (f : Parser σ I T E) (s s' : SliceStream I) (h : ValidSlice s)
    (w w' : σ) (hr : s.parse chk f w = .ok ((.error .endOfInput, s'), w')) : unread s = [] := by
  apply Classical.byContradiction
  intro hu
  rw [SliceStream.parse_eq h, if_neg hu] at hr
  match hf : f ⟨.endOfInput, unread s⟩ w with
  | .ok (.data i t, w1) =>
    rw [hf] at hr
    simp only [Res.bind_ok] at hr
    cases h1 : usubB chk (unread s).length i.buf.length with
    | ok d =>
      cases h2 : uaddB chk s.pos d <;> simp [h1, h2] at hr
    | _ => simp [h1] at hr
  | .ok (.error b e, w1) =>
    rw [hf] at hr
    simp only [Res.bind_ok] at hr
    cases h1 : usubB chk (unread s).length b.length with
    | ok d =>
      cases h2 : uaddB chk s.pos d <;> simp [h1, h2] at hr
    | _ => simp [h1] at hr
  | .ok (.incomplete n, w1) =>
    rw [hf] at hr
    simp only [Res.bind_ok] at hr
    cases h1 : uaddB chk n (unread s).length <;> simp [h1] at hr
  | .panic => rw [hf] at hr; simp at hr
  | .ub => rw [hf] at hr; simp at hr
  | .div => rw [hf] at hr; simp at hr

/-- Success: the stream moves to the parser's remainder. -/
theorem C42_data (chk : Bool) (p : Parser σ I T E) (hp : Built everything p) (s : SliceStream I)
    (h : ValidSlice s) (hu : unread s ≠ []) (w w' : σ) (i : Input I) (t : T)
    (hr : p ⟨.endOfInput, unread s⟩ w = .ok (.data i t, w')) :
    ∃ s', s.parse chk p w = .ok ((.ok t, s'), w') ∧ ValidSlice s' ∧ s'.slice = s.slice ∧
      unread s' = i.buf := by
  obtain ⟨_, x, hx⟩ := C05_remainder hp _ _ _ _ _ hr
  obtain ⟨pos, h1, h2, h3⟩ := SliceStream.advance h chk x i.buf hx
  refine ⟨{ s with pos := pos }, ?_, h2, rfl, h3⟩
  rw [SliceStream.parse_eq h, if_neg hu, hr]
  simp only [Res.bind_ok]
  rw [← bind_assoc, h1]
  rfl

/-- Failure: it moves to the position of the error. -/
theorem C42_error (chk : Bool) (p : Parser σ I T E) (hp : Built everything p) (s : SliceStream I)
    (h : ValidSlice s) (hu : unread s ≠ []) (w w' : σ) (b : List I) (e : E)
    (hr : p ⟨.endOfInput, unread s⟩ w = .ok (.error b e, w')) :
    ∃ s', s.parse chk p w = .ok ((.error (.parseError b e), s'), w') ∧ ValidSlice s' ∧
      s'.slice = s.slice ∧ unread s' = b := by
  obtain ⟨x, hx⟩ := C05_error hp _ _ _ _ _ hr
  obtain ⟨pos, h1, h2, h3⟩ := SliceStream.advance h chk x b hx
  refine ⟨{ s with pos := pos }, ?_, h2, rfl, h3⟩
  rw [SliceStream.parse_eq h, if_neg hu, hr]
  simp only [Res.bind_ok]
  rw [← bind_assoc, h1]
  rfl

/-- Incomplete: it does not move, and reports how much is needed in total from here. -/
theorem C42_incomplete (chk : Bool) (p : Parser σ I T E) (s : SliceStream I)
    (h : ValidSlice s) (hu : unread s ≠ []) (w w' : σ) (n : Nat)
    (hr : p ⟨.endOfInput, unread s⟩ w = .ok (.incomplete n, w'))
    (hn : n + (unread s).length ≤ usizeMax) :
    s.parse chk p w = .ok ((.error (.incomplete ((unread s).length + n)), s), w') := by
  rw [SliceStream.parse_eq h, if_neg hu, hr]
  simp only [Res.bind_ok]
  rw [uaddB_ok hn, Nat.add_comm]
  rfl

/-- A parser which panics or does not return takes the stream with it. -/
theorem C42_crash (chk : Bool) (p : Parser σ I T E) (s : SliceStream I)
    (h : ValidSlice s) (hu : unread s ≠ []) (w : σ) :
    (p ⟨.endOfInput, unread s⟩ w = .panic → s.parse chk p w = .panic) ∧
    (p ⟨.endOfInput, unread s⟩ w = .div → s.parse chk p w = .div) ∧
    (p ⟨.endOfInput, unread s⟩ w = .ub → s.parse chk p w = .ub) := by
  rw [SliceStream.parse_eq h, if_neg hu]
  refine ⟨fun hr => ?_, fun hr => ?_, fun hr => ?_⟩ <;> rw [hr] <;> rfl

/-- Over any history, what has not been read is a suffix of the original slice. -/
theorem C42_history (chk : Bool) (b : List I) (hb : b.length ≤ usizeMax) (w w' : σ)
    (s' : SliceStream I) (hh : SliceHistory chk (SliceStream.new b) w s' w') :
    ValidSlice s' ∧ s'.slice = b ∧ (∃ x, b = x ++ unread s') ∧
      s'.len chk = .ok (unread s').length ∧ s'.isEmpty chk = .ok (decide (unread s' = [])) := by
  have main : ∀ (s : SliceStream I) (w : σ) (s' : SliceStream I) (w' : σ),
      SliceHistory chk s w s' w' → ValidSlice s → ValidSlice s' ∧ s'.slice = s.slice := by
    intro s w s' w' hh
    induction hh with
    | done => intro h; exact ⟨h, rfl⟩
    | @step T E s s1 s2 w w1 w2 p r hp hr _ ih =>
      intro h
      have key : ValidSlice s1 ∧ s1.slice = s.slice := by
        by_cases hu : unread s = []
        · rw [C42_end_of_input chk p s h hu] at hr
          cases hr
          exact ⟨h, rfl⟩
        · match hf : p ⟨.endOfInput, unread s⟩ w with
          | .ok (.data i t, w1) =>
            obtain ⟨s', h1, h2, h3, _⟩ := C42_data chk p hp s h hu w w1 i t hf
            rw [h1] at hr
            cases hr
            exact ⟨h2, h3⟩
          | .ok (.error b e, w1) =>
            obtain ⟨s', h1, h2, h3, _⟩ := C42_error chk p hp s h hu w w1 b e hf
            rw [h1] at hr
            cases hr
            exact ⟨h2, h3⟩
          | .ok (.incomplete n, w1) =>
            rw [SliceStream.parse_eq h, if_neg hu, hf] at hr
            simp only [Res.bind_ok] at hr
            cases h1 : uaddB chk n (unread s).length with
            | ok m =>
              rw [h1] at hr
              simp only [Res.bind_ok] at hr
              cases hr
              exact ⟨h, rfl⟩
            | _ => simp [h1] at hr
          | .panic => rw [(C42_crash chk p s h hu w).1 hf] at hr; cases hr
          | .div => rw [(C42_crash chk p s h hu w).2.1 hf] at hr; cases hr
          | .ub => rw [(C42_crash chk p s h hu w).2.2 hf] at hr; cases hr
      obtain ⟨g1, g2⟩ := ih key.1
      exact ⟨g1, g2.trans key.2⟩
  obtain ⟨h1, h2⟩ := main _ _ _ _ hh ⟨Nat.zero_le _, hb⟩
  have h2 : s'.slice = b := h2
  refine ⟨h1, h2, ⟨b.take s'.pos, ?_⟩, SliceStream.len_eq h1 chk, ?_⟩
  · unfold unread; rw [h2, List.take_append_drop]
  · rw [SliceStream.isEmpty_eq h1 chk]
    congr 1
    cases unread s' <;> rfl

/-! ### C43 -/

/-- What `parse_only` returns, as `parse` on a stream with `l` items returns it. -/
def asStream (l : Nat) : Except (ParseError I E) T → Except (StreamError I E) T
  | .ok t => .ok t
  | .error (.error b e) => .error (.parseError b e)
  | .error (.incomplete n) => .error (.incomplete (n + l))

/-- `parse` returns what `parse_only` returns on the part not read yet. -/
theorem C43_parse_only (chk : Bool) (p : Parser σ I T E) (hp : Built everything p)
    (s : SliceStream I) (h : ValidSlice s) (hu : unread s ≠ []) (w w' : σ)
    (r : Except (ParseError I E) T) (hr : parseOnly p (unread s) w = .ok (r, w'))
    (hn : ∀ n, r = .error (.incomplete n) → n + (unread s).length ≤ usizeMax) :
    ∃ s', s.parse chk p w = .ok ((asStream (unread s).length r, s'), w') := by
  rw [C10_parse_only] at hr
  match hf : p ⟨.endOfInput, unread s⟩ w with
  | .ok (.data i t, w1) =>
    rw [hf] at hr
    cases hr
    obtain ⟨s', h1, _⟩ := C42_data chk p hp s h hu w _ i t hf
    exact ⟨s', h1⟩
  | .ok (.error b e, w1) =>
    rw [hf] at hr
    cases hr
    obtain ⟨s', h1, _⟩ := C42_error chk p hp s h hu w _ b e hf
    exact ⟨s', h1⟩
  | .ok (.incomplete n, w1) =>
    rw [hf] at hr
    cases hr
    refine ⟨s, ?_⟩
    rw [C42_incomplete chk p s h hu w _ n hf (hn n rfl), Nat.add_comm]
    rfl
  | .panic => rw [hf] at hr; cases hr
  | .div => rw [hf] at hr; cases hr
  | .ub => rw [hf] at hr; cases hr

/-- Success on the stream means success of the parser, with the remainder left in the stream. -/
theorem parse_ok {chk : Bool} {p : Parser σ I T E} (hp : Built everything p) {s s' : SliceStream I}
    (h : ValidSlice s) {w w' : σ} {t : T} (hr : s.parse chk p w = .ok ((.ok t, s'), w')) :
    unread s ≠ [] ∧ ValidSlice s' ∧
      p ⟨.endOfInput, unread s⟩ w = .ok (.data ⟨.endOfInput, unread s'⟩ t, w') := by
  by_cases hu : unread s = []
  · rw [C42_end_of_input chk p s h hu] at hr; cases hr
  · refine ⟨hu, ?_⟩
    match hf : p ⟨.endOfInput, unread s⟩ w with
    | .ok (.data i t, w1) =>
      obtain ⟨s', h1, h2, h3, h4⟩ := C42_data chk p hp s h hu w w1 i t hf
      rw [h1] at hr
      cases hr
      have hm := (C05_remainder hp _ _ _ _ _ hf).1
      refine ⟨h2, ?_⟩
      rw [h4]
      obtain ⟨m, b⟩ := i
      dsimp only at hm
      rw [hm]
    | .ok (.error b e, w1) =>
      obtain ⟨s', h1, _⟩ := C42_error chk p hp s h hu w w1 b e hf
      rw [h1] at hr
      cases hr
    | .ok (.incomplete n, w1) =>
      rw [SliceStream.parse_eq h, if_neg hu, hf] at hr
      simp only [Res.bind_ok] at hr
      cases h1 : uaddB chk n (unread s).length <;> simp [h1] at hr
    | .panic => rw [(C42_crash chk p s h hu w).1 hf] at hr; cases hr
    | .div => rw [(C42_crash chk p s h hu w).2.1 hf] at hr; cases hr
    | .ub => rw [(C42_crash chk p s h hu w).2.2 hf] at hr; cases hr

/-- A sequence of successful parses returns what the same parsers, put together with `bind`, return
on the whole. -/
theorem C43_sequence (chk : Bool) (ps : List (Parser σ I T E)) (hp : ∀ p ∈ ps, Built everything p)
    (s s' : SliceStream I) (h : ValidSlice s) (w w' : σ) (ts : List T)
    (hs : SliceSeq chk ps s w ts s' w') :
    bindAll ps ⟨.endOfInput, unread s⟩ w = .ok (.data ⟨.endOfInput, unread s'⟩ ts, w') := by
  induction hs with
  | done => rfl
  | @step p ps s w t s1 w1 ts s2 w2 h1 _ ih =>
    obtain ⟨_, hv, hr⟩ := parse_ok (hp p (by simp)) h h1
    have := ih (fun q hq => hp q (by simp [hq])) hv
    unfold bindAll Parser.bind
    rw [M.bind_ok hr, ParseResult.bind_data]
    unfold Parser.map
    dsimp only
    rw [M.bind_ok this]
    rfl

/-- And back, if something is left afterwards. (Where nothing is left, `parse` returns `EndOfInput`
also for a parser which would succeed without input.) -/
theorem C43_sequence_back (chk : Bool) (ps : List (Parser σ I T E))
    (hp : ∀ p ∈ ps, Built everything p) (s : SliceStream I) (h : ValidSlice s) (w w' : σ)
    (ts : List T) (i : Input I) (hi : i.buf ≠ [])
    (hs : bindAll ps ⟨.endOfInput, unread s⟩ w = .ok (.data i ts, w')) :
    ∃ s', SliceSeq chk ps s w ts s' w' ∧ unread s' = i.buf := by
  induction ps generalizing s w ts with
  | nil => cases hs; exact ⟨s, .done, rfl⟩
  | cons p ps ih =>
    have hbuilt : ∀ ps : List (Parser σ I T E), (∀ p ∈ ps, Built everything p) →
        Built everything (bindAll ps) := by
      intro ps
      induction ps with
      | nil => intro _; exact .ret _
      | cons p ps ih =>
        intro hp
        exact .bind (hp p (by simp)) (fun t => .map _ (ih (fun q hq => hp q (by simp [hq]))))
    have hu : unread s ≠ [] := by
      intro e
      obtain ⟨_, x, hx⟩ := C05_remainder (hbuilt _ hp) _ _ _ _ _ hs
      dsimp only at hx
      rw [e] at hx
      exact hi (List.append_eq_nil_iff.mp hx.symm).2
    unfold bindAll Parser.bind at hs
    rw [M.bind_eq_ok] at hs
    obtain ⟨r, w1, h1, h2⟩ := hs
    cases r with
    | data j t =>
      rw [ParseResult.bind_data] at h2
      unfold Parser.map at h2
      dsimp only at h2
      rw [M.bind_eq_ok] at h2
      obtain ⟨r, w2, h3, h4⟩ := h2
      cases r with
      | data k us =>
        simp only [ParseResult.map, pure_bind, M.pure_apply, Res.ok.injEq, Prod.mk.injEq,
          ParseResult.data.injEq] at h4
        obtain ⟨⟨rfl, rfl⟩, rfl⟩ := h4
        obtain ⟨s1, g1, g2, _, g4⟩ := C42_data chk p (hp p (by simp)) s h hu w w1 j t h1
        have hm := (C05_remainder (hp p (by simp)) _ _ _ _ _ h1).1
        obtain ⟨m, b⟩ := j
        dsimp only at hm g4
        subst hm
        rw [← g4] at h3
        obtain ⟨s', k1, k2⟩ := ih (fun q hq => hp q (by simp [hq])) s1 g2 w1 us h3
        exact ⟨s', .step g1 k1, k2⟩
      | error b e => simp [ParseResult.map] at h4
      | incomplete n => simp [ParseResult.map] at h4
    | error b e => simp [ParseResult.bind] at h2
    | incomplete n => simp [ParseResult.bind] at h2

/-! ### C60, `SliceStream` -/

/-- When the request and the length together exceed `usize`, a debug build panics, and a release
build reports a meaningless number. -/
theorem C60_slice (p : Parser σ I T E) (s : SliceStream I) (h : ValidSlice s) (hu : unread s ≠ [])
    (w w' : σ) (n : Nat) (hr : p ⟨.endOfInput, unread s⟩ w = .ok (.incomplete n, w'))
    (hn : usizeMax < n + (unread s).length) :
    s.parse true p w = .panic ∧
    s.parse false p w =
      .ok ((.error (.incomplete ((n + (unread s).length) % 2 ^ 64)), s), w') := by
  have hn' : ¬ (n + (unread s).length ≤ usizeMax) := by omega
  constructor <;> rw [SliceStream.parse_eq h, if_neg hu, hr] <;> simp [uaddB, hn']

/-- Reachable: `take(1)` followed by `take(usize::MAX)` on a slice of one item. -/
theorem C60_slice_witness :
    (SliceStream.new [7]).parse true
      (Parser.andThen id (Parsers.take 1) (Parsers.take usizeMax) : Parser Unit Nat (List Nat) (Error Nat))
      () = .panic := by
  refine (C60_slice _ _ ⟨by decide, by decide⟩ (by decide) () () usizeMax ?_ (by decide)).1
  rfl

example : ∃ s', (SliceStream.new ['a', 'b', 'c']).parse true
    (Comb.option (Parsers.token true 'a') 'x') () = .ok ((.ok 'a', s'), ()) ∧ ValidSlice s' ∧
      s'.slice = ['a', 'b', 'c'] ∧ unread s' = ['b', 'c'] :=
  C42_data true _ (.option _ (.token _ _)) (SliceStream.new ['a', 'b', 'c']) ⟨by decide, by decide⟩
    (by decide) () () ⟨.endOfInput, ['b', 'c']⟩ 'a' rfl

example : bindAll [Parsers.any, Parsers.token true 'b'] ⟨.endOfInput, ['a', 'b', 'c']⟩ () =
    .ok (.data ⟨.endOfInput, ['c']⟩ ['a', 'b'], ()) :=
  C43_sequence true [Parsers.any, Parsers.token true 'b']
    (by intro p hp; simp only [List.mem_cons, List.not_mem_nil, or_false] at hp
        rcases hp with rfl | rfl
        · exact .any
        · exact .token _ _)
    (SliceStream.new ['a', 'b', 'c']) ⟨2, ['a', 'b', 'c']⟩ ⟨by decide, by decide⟩ () () ['a', 'b']
    (.step (s1 := ⟨1, ['a', 'b', 'c']⟩) (w1 := ()) rfl (.step rfl .done))

end Chomp.Props
