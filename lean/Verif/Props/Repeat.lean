import Verif.Lemmas.Repeat

/-
C23-C30: repetition (src/combinators/bounded.rs, src/combinators/mod.rs). The specification is
`Spec.RepOutcome` in Verif/Spec/Repeat.lean.
-/

namespace Chomp.Props

open Spec

/-! ### C23 many -/

/-- `many(p)` into a vector: all its outcomes. -/
theorem C23_many (p : Parser σ I U E) (i : Input I) (w : σ)
    (o : Res (ParseResult I (List U) E × σ)) (ho : o ≠ .div) :
    Comb.many (Collect.vec U) p i w = o ↔ RepOutcome p 0 none i w o := by
  unfold Comb.many
  rw [Rep.many_eq (by exact True.intro)]
  exact Rep.core_vec_iff (by intro m h; cases h) ho

/-- It succeeds with `us` iff `us` are the values of successive applications of `p` and the next
application errs, or is incomplete on the last slice. The remainder is in front of the failed
application. -/
theorem C23_many_ok (p : Parser σ I U E) (i i' : Input I) (w w'' : σ) (us : List U) :
    Comb.many (Collect.vec U) p i w = .ok (.data i' us, w'') ↔
      ∃ w', Reps p i w us i' w' ∧
        ((∃ b e, p i' w' = .ok (.error b e, w'')) ∨
         (i'.mode = .endOfInput ∧ ∃ n, p i' w' = .ok (.incomplete n, w''))) := by
  rw [C23_many p i w _ (by simp)]
  constructor
  · intro h
    obtain ⟨w', hr, ⟨hm, _⟩ | ⟨_, _, h⟩⟩ := h.data_inv
    · cases hm
    · exact ⟨w', hr, h⟩
  · rintro ⟨w', hr, ⟨b, e, hp⟩ | ⟨hm, n, hp⟩⟩
    · exact .stop_error hr (by intro m h; cases h) hp (Nat.zero_le _)
    · exact .stop_last hr (by intro m h; cases h) hp (Nat.zero_le _) hm

/-- `many` never errs. -/
theorem C23_many_never_errors (p : Parser σ I U E) (i : Input I) (w w' : σ) (b : List I) (e : E) :
    Comb.many (Collect.vec U) p i w ≠ .ok (.error b e, w') := by
  intro h
  rw [C23_many p i w _ (by simp)] at h
  cases h with
  | error _ _ _ h => simp at h

/-- It is incomplete exactly if some application of `p` is, on a slice which is not the last one. -/
theorem C23_many_incomplete (p : Parser σ I U E) (i : Input I) (w w'' : σ) (n : Nat) :
    Comb.many (Collect.vec U) p i w = .ok (.incomplete n, w'') ↔
      ∃ us i' w', Reps p i w us i' w' ∧ i'.mode = .default ∧ p i' w' = .ok (.incomplete n, w'') := by
  rw [C23_many p i w _ (by simp)]
  constructor
  · intro h
    cases h with
    | incomplete hr _ hp h => exact ⟨_, _, _, hr, by simpa using h, hp⟩
  · rintro ⟨us, i', w', hr, hm, hp⟩
    exact .incomplete hr (by intro m h; cases h) hp (.inr hm)

/-- `p` counts its calls in the captured state: three calls for two items. -/
example : Comb.many (Collect.vec Char)
    (Parser.effect (modify (· + 1)) (fun _ => Parsers.token true 'a'))
    ⟨.default, ['a', 'a', 'b']⟩ (0 : Nat) = .ok (.data ⟨.default, ['b']⟩ ['a', 'a'], 3) :=
  (C23_many_ok _ _ _ _ _ _).mpr
    ⟨2, .cons (i1 := ⟨.default, ['a', 'b']⟩) (w1 := 1) rfl
      (.cons (i1 := ⟨.default, ['b']⟩) (w1 := 2) rfl .nil), .inl ⟨_, _, rfl⟩⟩

/-! ### C24 many with a lower bound -/

theorem C24_many_from (n : Nat) (p : Parser σ I U E) (i : Input I) (w : σ)
    (o : Res (ParseResult I (List U) E × σ)) (ho : o ≠ .div) :
    Bounded.many (.from_ n) (Collect.vec U) p i w = o ↔ RepOutcome p n none i w o := by
  rw [Rep.many_eq (by exact True.intro)]
  exact Rep.core_vec_iff (by intro m h; cases h) ho

theorem C24_many1 (p : Parser σ I U E) (i : Input I) (w : σ)
    (o : Res (ParseResult I (List U) E × σ)) (ho : o ≠ .div) :
    Comb.many1 (Collect.vec U) p i w = o ↔ RepOutcome p 1 none i w o :=
  C24_many_from 1 p i w o ho

/-- On success at least `n` items were read. -/
theorem C24_at_least (n : Nat) (p : Parser σ I U E) (i i' : Input I) (w w' : σ) (us : List U)
    (h : Bounded.many (.from_ n) (Collect.vec U) p i w = .ok (.data i' us, w')) :
    n ≤ us.length := by
  rw [C24_many_from n p i w _ (by simp)] at h
  obtain ⟨w', hr, ⟨hm, _⟩ | ⟨_, hl, h⟩⟩ := h.data_inv
  · cases hm
  · exact hl

/-- `many(0.., p)` is `many(p)`. -/
theorem C24_many_from_zero (c : Collect U T) (p : Parser σ I U E) :
    Bounded.many (.from_ 0) c p = Comb.many c p := by
  unfold Comb.many
  rw [Rep.many_eq (by exact True.intro), Rep.many_eq (by exact True.intro)]
  rfl

/-- The error of the third application is passed on, at its position. -/
example : Bounded.many (.from_ 3) (Collect.vec Char) (Parsers.token true 'a')
    ⟨.default, ['a', 'a', 'b']⟩ () = .ok (.error ['b'] (.expected 'a'), ()) :=
  (C24_many_from 3 _ _ _ _ (by simp)).mpr
    (.error (us := ['a', 'a']) (i' := ⟨.default, ['b']⟩) (w' := ())
      (.cons (i1 := ⟨.default, ['a', 'b']⟩) (w1 := ()) rfl (.cons (w1 := ()) rfl .nil))
      (by intro m h; cases h) rfl (by simp))

/-! ### C25 count -/

theorem C25_count (n : Nat) (p : Parser σ I U E) (i : Input I) (w : σ)
    (o : Res (ParseResult I (List U) E × σ)) (ho : o ≠ .div) :
    Comb.count n (Collect.vec U) p i w = o ↔ RepOutcome p n (some n) i w o := by
  unfold Comb.count
  rw [Rep.many_eq (by exact True.intro)]
  exact Rep.core_vec_iff (by intro m h; cases h; exact Nat.le_refl _) ho

/-- It succeeds iff `p` succeeds `n` times in a row; nothing else is called, so the captured state
and position are those after the last of them. -/
theorem C25_count_ok (n : Nat) (p : Parser σ I U E) (i i' : Input I) (w w' : σ) (us : List U) :
    Comb.count n (Collect.vec U) p i w = .ok (.data i' us, w') ↔
      us.length = n ∧ Reps p i w us i' w' := by
  rw [C25_count n p i w _ (by simp)]
  constructor
  · intro h
    obtain ⟨w1, hr, ⟨hm, rfl⟩ | ⟨hb, hl, h⟩⟩ := h.data_inv
    · cases hm; exact ⟨rfl, hr⟩
    · have := hb _ rfl; omega
  · rintro ⟨rfl, hr⟩
    exact .full hr rfl

/-- `count(0, p)` does not call `p`. -/
theorem C25_count_zero (p : Parser σ I U E) (i : Input I) (w : σ) :
    Comb.count 0 (Collect.vec U) p i w = .ok (.data i [], w) :=
  (C25_count_ok 0 p i i w w []).mpr ⟨rfl, .nil⟩

/-- A failing application is passed on unchanged. -/
theorem C25_count_fails (n : Nat) (p : Parser σ I U E) (i i' : Input I) (w w' w'' : σ)
    (us : List U) (h : Reps p i w us i' w') (hl : us.length < n) :
    (∀ b e, p i' w' = .ok (.error b e, w'') →
      Comb.count n (Collect.vec U) p i w = .ok (.error b e, w'')) ∧
    (∀ k, p i' w' = .ok (.incomplete k, w'') →
      Comb.count n (Collect.vec U) p i w = .ok (.incomplete k, w'')) := by
  have hb : Below us.length (some n) := by intro m e; cases e; exact hl
  exact ⟨fun b e hp => (C25_count n p i w _ (by simp)).mpr (.error h hb hp hl),
    fun k hp => (C25_count n p i w _ (by simp)).mpr (.incomplete h hb hp (.inl hl))⟩

/-- The third `a` is left alone. -/
example : Comb.count 2 (Collect.vec Char) (Parsers.token true 'a')
    ⟨.default, ['a', 'a', 'a']⟩ () = .ok (.data ⟨.default, ['a']⟩ ['a', 'a'], ()) :=
  (C25_count_ok 2 _ _ _ _ _ _).mpr
    ⟨rfl, .cons (i1 := ⟨.default, ['a', 'a']⟩) (w1 := ()) rfl (.cons (w1 := ()) rfl .nil)⟩

/-! ### C26 half-open ranges -/

theorem C26_many_range (a b : Nat) (hab : a < b) (p : Parser σ I U E) (i : Input I) (w : σ)
    (o : Res (ParseResult I (List U) E × σ)) (ho : o ≠ .div) :
    Bounded.many (.range a b) (Collect.vec U) p i w = o ↔
      RepOutcome p a (some (b - 1)) i w o := by
  rw [Rep.many_eq (by exact Nat.le_of_lt hab)]
  exact Rep.core_vec_iff (by intro m h; cases h; simp only [Rep.min]; omega) ho

theorem C26_many_to (b : Nat) (p : Parser σ I U E) (i : Input I) (w : σ)
    (o : Res (ParseResult I (List U) E × σ)) (ho : o ≠ .div) :
    Bounded.many (.to b) (Collect.vec U) p i w = o ↔ RepOutcome p 0 (some (b - 1)) i w o := by
  rw [Rep.many_eq (by exact True.intro)]
  exact Rep.core_vec_iff (by intro m h; cases h; simp only [Rep.min]; omega) ho

/-- The number of items is in the range. -/
theorem C26_in_range (a b : Nat) (hab : a < b) (p : Parser σ I U E) (i i' : Input I) (w w' : σ)
    (us : List U)
    (h : Bounded.many (.range a b) (Collect.vec U) p i w = .ok (.data i' us, w')) :
    a ≤ us.length ∧ us.length < b := by
  rw [C26_many_range a b hab p i w _ (by simp)] at h
  obtain ⟨w1, hr, ⟨hm, rfl⟩ | ⟨hb, hl, h⟩⟩ := h.data_inv
  · simp at hm; omega
  · have := hb _ rfl; omega

/-- Once the limit is reached `p` is not called: its state and position are those after the last
item, whatever `p` would do next. -/
theorem C26_limit (a b : Nat) (hab : a < b) (p : Parser σ I U E) (i i' : Input I) (w w' : σ)
    (us : List U) (h : Reps p i w us i' w') (hl : us.length = b - 1) :
    Bounded.many (.range a b) (Collect.vec U) p i w = .ok (.data i' us, w') ∧
    Bounded.many (.to b) (Collect.vec U) p i w = .ok (.data i' us, w') :=
  ⟨(C26_many_range a b hab p i w _ (by simp)).mpr (.full h (by simp [hl])),
   (C26_many_to b p i w _ (by simp)).mpr (.full h (by simp [hl]))⟩

example : Bounded.many (.range 1 3) (Collect.vec Char) (Parsers.token true 'a')
    ⟨.default, ['a', 'a', 'a', 'a']⟩ () = .ok (.data ⟨.default, ['a', 'a']⟩ ['a', 'a'], ()) :=
  (C26_limit 1 3 (by omega) _ _ _ _ _ _
    (.cons (i1 := ⟨.default, ['a', 'a', 'a']⟩) (w1 := ()) rfl (.cons (w1 := ()) rfl .nil)) rfl).1

/-! ### C27 degenerate ranges -/

/-- A reversed range panics before anything is parsed. -/
theorem C27_reversed (a b : Nat) (hab : b < a) (c : Collect U T) (p : Parser σ I U E)
    (q : Parser σ I V N) (i : Input I) (w : σ) :
    Bounded.many (.range a b) c p i w = .panic ∧
    Bounded.skipMany (.range a b) p i w = .panic ∧
    Bounded.manyTill (.range a b) c p q i w = .panic := by
  have : ¬ a ≤ b := by omega
  simp [Bounded.many, Bounded.manyWith, Bounded.manyRange, Bounded.skipMany, Bounded.skipManyRange, Bounded.manyTill,
    Bounded.manyTillWith, Bounded.manyTillRange, this]

/-- Otherwise `many` panics only if `p` does. -/
theorem C27_not_reversed (a b : Nat) (hab : a < b) (p : Parser σ I U E) (i : Input I) (w : σ)
    (h : Bounded.many (.range a b) (Collect.vec U) p i w = .panic) :
    ∃ us i' w', Reps p i w us i' w' ∧ p i' w' = .panic := by
  rw [C26_many_range a b hab p i w _ (by simp)] at h
  cases h with
  | panic hr _ hp => exact ⟨_, _, _, hr, hp⟩

/-- `many(n..n, p)` with n ≥ 1 never succeeds, whatever it collects into. -/
theorem C27_empty_many (n : Nat) (hn : 1 ≤ n) (c : Collect U T) (p : Parser σ I U E)
    (i i' : Input I) (w w' : σ) (t : T) :
    Bounded.many (.range n n) c p i w ≠ .ok (.data i' t, w') := by
  rw [Rep.many_eq (by exact Nat.le_refl n)]
  unfold Rep.core
  cases c.start with
  | inr t => have : n ≠ 0 := by omega
             simp [Rep.final, Rep.min, Rep.max, this]
  | inl a =>
    dsimp only
    refine loop_inv (f := Rep.step c p) (P := fun s _ => ∃ k, s.2.2.2 = some k ∧ s.2.2.1 = k + 1)
      (Q := fun r => r ≠ .ok (.data i' t, w')) (by simp) ?_
      ⟨n - 1, rfl, by show n = n - 1 + 1; omega⟩
    rintro ⟨a, i, lo, hi⟩ w ⟨k, rfl, rfl⟩
    by_cases hk : k = 0
    · right; subst hk; rw [loop_apply]; simp [Rep.step, Rep.final]
    · cases hp : p i w with
      | ok r =>
        obtain ⟨r, w1⟩ := r
        cases r with
        | data b v =>
          cases hf : c.feed a v with
          | inl a' =>
            left
            refine ⟨_, w1, by simp [Rep.step, hk, hp, hf]; rfl, k - 1, rfl, by simp; omega⟩
          | inr t =>
            right; rw [loop_apply]; simp [Rep.step, hk, hp, hf, Rep.final]
        | error b e => right; rw [loop_apply]; simp [Rep.step, hk, hp]
        | incomplete m => right; rw [loop_apply]; simp [Rep.step, hk, hp, Rep.final]
      | _ => right; rw [loop_apply]; simp [Rep.step, hk, hp]

/-- After n-1 matches `many(n..n, p)` is incomplete without calling `p` again, even on the last
slice, whereas `skip_many(n..n, p)` succeeds there. -/
theorem C27_empty_after (n : Nat) (hn : 1 ≤ n) (p : Parser σ I U E) (i i' : Input I) (w w' : σ)
    (us : List U) (h : Reps p i w us i' w') (hl : us.length = n - 1) :
    Bounded.many (.range n n) (Collect.vec U) p i w = .ok (.incomplete 1, w') ∧
    Bounded.skipMany (.range n n) p i w = .ok (.data i' (), w') := by
  constructor
  · rw [Rep.many_eq (by exact Nat.le_refl n)]
    have := Rep.reps_loop (c := Collect.vec U) h (a := []) (lo := n) (hi := some (n - 1))
      (by intro m e; cases e; omega) (Rep.feeds_vec us [])
    show loop (Rep.step (Collect.vec U) p) ([], i, n, some (n - 1)) w = _
    rw [this, loop_apply]
    have h1 : ¬ (n ≤ us.length) := by omega
    simp [Rep.step, hl, Rep.final]; omega
  · simp only [Bounded.skipMany, Bounded.skipManyRange, Nat.le_refl, if_true, Rep.maxOf_eq]
    have key : ∀ (us : List U) i w, Reps p i w us i' w' → ∀ lo,
        loop (fun (s : Input I × Nat × Nat) => do
          let (i, min, max) := s
          if max == 0 then
            pure (.inr (i.ret ()))
          else
            match ← p i with
            | .data b _ =>
              let min ← Bounded.decSat min
              let max ← Bounded.dec max
              pure (.inl (b, min, max))
            | .error b e =>
              if min == 0 then pure (.inr (i.ret ()))
              else pure (.inr ((i.replace b).err e))
            | .incomplete n =>
              if min == 0 && i.isLastSlice then pure (.inr (i.ret ()))
              else pure (.inr (i.incomplete n))) (i, lo, us.length) w =
          (.ok (.data i' (), w') : Res (ParseResult I Unit E × σ)) := by
      clear h hl us
      intro us i w hr
      induction hr with
      | nil => intro lo; rw [loop_apply]; rfl
      | cons h1 h2 ih =>
        intro lo
        rw [loop_apply]
        simp only [List.length_cons]
        have := ih (lo - 1)
        simpa [M.bind_apply, h1, Rep.decSat_ok, Rep.dec_ok, M.map_apply] using this
    rw [← hl]
    exact key us i w h n

/-- `0..0`, `..0` and `..1` read nothing and do not call `p`. -/
theorem C27_zero (p : Parser σ I U E) (i : Input I) (w : σ) :
    Bounded.many (.range 0 0) (Collect.vec U) p i w = .ok (.data i [], w) ∧
    Bounded.many (.to 0) (Collect.vec U) p i w = .ok (.data i [], w) ∧
    Bounded.many (.to 1) (Collect.vec U) p i w = .ok (.data i [], w) ∧
    Bounded.skipMany (.range 0 0) p i w = .ok (.data i (), w) ∧
    Bounded.skipMany (.to 0) p i w = .ok (.data i (), w) ∧
    Bounded.skipMany (.to 1) p i w = .ok (.data i (), w) := by
  refine ⟨?_, ?_, ?_, ?_, ?_, ?_⟩
  · rw [Rep.many_eq (by exact Nat.le_refl 0)]
    exact Rep.core_vec_of_outcome (by intro m h; exact Nat.zero_le _) (.full .nil rfl)
  · rw [Rep.many_eq (by exact True.intro)]
    exact Rep.core_vec_of_outcome (by intro m h; exact Nat.zero_le _) (.full .nil rfl)
  · rw [Rep.many_eq (by exact True.intro)]
    exact Rep.core_vec_of_outcome (by intro m h; exact Nat.zero_le _) (.full .nil rfl)
  all_goals
    simp only [Bounded.skipMany, Bounded.skipManyRange, Bounded.skipManyTo, Nat.le_refl, if_true]
    rw [loop_apply]; rfl

/-- n = 2: `many(2..2, any)` on three items. -/
example : Bounded.many (.range 2 2) (Collect.vec Char) (Parsers.any (σ := Unit))
      ⟨.endOfInput, ['a', 'b', 'c']⟩ () = .ok (.incomplete 1, ()) ∧
    Bounded.skipMany (.range 2 2) (Parsers.any (σ := Unit))
      ⟨.endOfInput, ['a', 'b', 'c']⟩ () = .ok (.data ⟨.endOfInput, ['b', 'c']⟩ (), ()) :=
  C27_empty_after 2 (by omega) _ _ _ _ _ ['a'] (.cons (w1 := ()) rfl .nil) rfl

/-! ### C28 skip_many -/

/-- Dropping the value of a result. -/
def dropValue : ParseResult I T E → ParseResult I Unit E
  | .data i _ => .data i ()
  | .error b e => .error b e
  | .incomplete n => .incomplete n

/-- `skip_many` does exactly what `many` does (the calls of `p`, the remainder, errors, incomplete
requests, panics, divergence), except for returning the values. -/
theorem C28_skip_many (r : Bounded.Range) (p : Parser σ I U E)
    (hr : match r with
      | .range a b => a < b
      | .exactly _ => ∀ i w w', p i w ≠ .ok (.incomplete 0, w')
      | _ => True) (i : Input I) (w : σ) :
    Bounded.skipMany r p i w =
      (Bounded.many r (Collect.vec U) p i w >>= fun x => .ok (dropValue x.1, x.2)) := by
  have main : ∀ (hok : Rep.ok r),
      Bounded.skipMany r p = Rep.core (Rep.unit U) p (Rep.min r) (Rep.max r) →
      Bounded.skipMany r p i w =
        (Bounded.many r (Collect.vec U) p i w >>= fun x => .ok (dropValue x.1, x.2)) := by
    intro hok h
    rw [h, Rep.core_unit_eq, Rep.many_eq hok]
    congr 1
    funext x
    obtain ⟨x, w'⟩ := x
    cases x <;> rfl
  cases r with
  | range a b =>
    dsimp only at hr
    exact main (by exact Nat.le_of_lt hr) (Rep.skipMany_eq (by show a ≤ b - 1; omega) p)
  | exactly n => exact main True.intro (Rep.skipManyExactly_eq n p hr)
  | from_ n => exact main True.intro (Rep.skipMany_eq (by exact True.intro) p)
  | full => exact main True.intro (Rep.skipMany_eq (by exact True.intro) p)
  | to n => exact main True.intro (Rep.skipMany_eq (by exact True.intro) p)

/-- The unbounded forms of the public interface. -/
theorem C28_skip_many_unbounded (p : Parser σ I U E) (i : Input I) (w : σ) :
    Comb.skipMany p i w =
      (Comb.many (Collect.vec U) p i w >>= fun x => .ok (dropValue x.1, x.2)) ∧
    Comb.skipMany1 p i w =
      (Comb.many1 (Collect.vec U) p i w >>= fun x => .ok (dropValue x.1, x.2)) :=
  ⟨C28_skip_many .full p True.intro i w, C28_skip_many (.from_ 1) p True.intro i w⟩

/-- `any` never reports `Incomplete(0)`. -/
example : ∀ (i : Input Char) (w w' : Unit), Parsers.any i w ≠ .ok (.incomplete 0, w') := by
  intro i w w'; rw [Parsers.any_eq]; cases i.buf <;> simp

/-! ### C29 skip_many and Incomplete(0) -/

/-- `skip_many(n, p)` reports success without having matched anything if `p` reports
`Incomplete(0)`; `many(n, p)` does not. -/
theorem C29_incomplete_zero (n : Nat) (hn : 1 ≤ n) (p : Parser σ I U E) (i : Input I) (w w' : σ)
    (h : p i w = .ok (.incomplete 0, w')) :
    Bounded.skipMany (.exactly n) p i w = .ok (.data i (), w') ∧
    Bounded.many (.exactly n) (Collect.vec U) p i w = .ok (.incomplete 0, w') := by
  constructor
  · simp only [Bounded.skipMany, Bounded.skipManyExactly]
    rw [loop_apply]
    have : n ≠ 0 := by omega
    simp [M.bind_apply, h, this, Input.ret]
  · exact (C25_count_fails n p i i w w w' [] .nil (by simp; omega)).2 0 h

/-- The hypothesis can be met with the public interface: `i.incomplete(0)`. -/
example : Bounded.skipMany (.exactly 3) (fun i => pure (i.incomplete 0) : Parser Unit Char Char Unit)
    ⟨.endOfInput, ['a']⟩ () = .ok (.data ⟨.endOfInput, ['a']⟩ (), ()) :=
  (C29_incomplete_zero 3 (by omega) _ _ _ _ rfl).1

/-! ### C30 termination -/

/-- When repetition into a vector does not terminate: an application of `p` does not return, or the
range has no upper end and `p` succeeds for ever. -/
theorem C30_diverges_iff (r : Bounded.Range) (hr : ∀ a b, r = .range a b → a < b)
    (p : Parser σ I U E) (i : Input I) (w : σ) :
    Bounded.many r (Collect.vec U) p i w = .div ↔
      RepDiverges p (match r with
        | .range _ b => some (b - 1)
        | .to b => some (b - 1)
        | .exactly n => some n
        | _ => none) i w := by
  have hok : Rep.ok r := by
    cases r with
    | range a b => exact Nat.le_of_lt (hr a b rfl)
    | _ => exact True.intro
  rw [Rep.many_eq hok, Rep.core_vec_div_iff]
  · cases r <;> rfl
  · intro m h
    cases r <;> simp [Rep.min, Rep.max] at h ⊢
    · have := hr _ _ rfl; omega
    · omega

theorem Reps_consuming {p : Parser σ I U E}
    (hc : ∀ i w i' u w', p i w = .ok (.data i' u, w') → i'.buf.length < i.buf.length)
    {i w us i' w'} (h : Reps p i w us i' w') : us.length + i'.buf.length ≤ i.buf.length := by
  induction h with
  | nil => simp
  | cons h1 _ ih => have := hc _ _ _ _ _ h1; simp only [List.length_cons]; omega

/-- Every repetition terminates if `p` does and consumes something whenever it succeeds. -/
theorem C30_terminates (r : Bounded.Range) (hr : ∀ a b, r = .range a b → a < b)
    (p : Parser σ I U E) (hp : ∀ i w, p i w ≠ .div)
    (hc : ∀ i w i' u w', p i w = .ok (.data i' u, w') → i'.buf.length < i.buf.length)
    (i : Input I) (w : σ) : Bounded.many r (Collect.vec U) p i w ≠ .div := by
  rw [Ne, C30_diverges_iff r hr]
  rintro (⟨_, _, h⟩ | ⟨_, h⟩)
  · exact hp _ _ h
  · obtain ⟨us, i', w', hl, hr⟩ := h (i.buf.length + 1)
    have := Reps_consuming hc hr
    omega

/-- With an upper limit, `p` need not consume. -/
theorem C30_bounded_terminates (r : Bounded.Range) (hr : ∀ a b, r = .range a b → a < b)
    (hb : r ≠ .full ∧ ∀ n, r ≠ .from_ n) (p : Parser σ I U E) (hp : ∀ i w, p i w ≠ .div)
    (i : Input I) (w : σ) : Bounded.many r (Collect.vec U) p i w ≠ .div := by
  rw [Ne, C30_diverges_iff r hr]
  rintro (⟨_, _, h⟩ | ⟨h, _⟩)
  · exact hp _ _ h
  · cases r <;> simp_all

/-- If `p` succeeds without consuming (and without changing its state), an unbounded repetition
never returns. -/
theorem C30_non_consuming (n : Nat) (p : Parser σ I U E) (i : Input I) (w : σ) (u : U)
    (h : p i w = .ok (.data i u, w)) :
    Comb.many (Collect.vec U) p i w = .div ∧ Comb.many1 (Collect.vec U) p i w = .div ∧
    Bounded.many (.from_ n) (Collect.vec U) p i w = .div ∧
    Comb.skipMany p i w = .div ∧ Comb.skipMany1 p i w = .div := by
  have hf : ∀ n, ∃ us i' w', us.length = n ∧ Reps p i w us i' w' := by
    intro n
    have : ∀ n, Reps p i w (List.replicate n u) i w := by
      intro n
      induction n with
      | zero => exact .nil
      | succ n ih => exact .cons h ih
    exact ⟨_, i, w, by simp, this n⟩
  have h1 : ∀ r : Bounded.Range, (r = .full ∨ ∃ n, r = .from_ n) →
      Bounded.many r (Collect.vec U) p i w = .div := by
    intro r hr
    rw [C30_diverges_iff r (by rintro a b rfl; rcases hr with h | ⟨_, h⟩ <;> cases h)]
    rcases hr with rfl | ⟨n, rfl⟩ <;> exact .forever rfl hf
  have h2 := C28_skip_many_unbounded p i w
  refine ⟨h1 _ (.inl rfl), h1 _ (.inr ⟨_, rfl⟩), h1 _ (.inr ⟨_, rfl⟩), ?_, ?_⟩
  · rw [h2.1, Comb.many, h1 _ (.inl rfl)]; rfl
  · rw [h2.2, Comb.many1, h1 _ (.inr ⟨_, rfl⟩)]; rfl

/-- `any` consumes; `i.ret(0)` does not. -/
example : Comb.many (Collect.vec Char) (Parsers.any (σ := Unit)) ⟨.default, ['a', 'b']⟩ () ≠ .div :=
  C30_terminates .full (by simp) _ (by intro i w; rw [Parsers.any_eq]; simp)
    (by
      intro ⟨m, b⟩ w i' u w' h
      rw [Parsers.any_eq] at h
      cases b with
      | nil => simp at h
      | cons c r => cases h; simp) _ _

example : Comb.many (Collect.vec Nat) (Parser.ret (E := Unit) 0) ⟨.endOfInput, ['a']⟩ () = .div :=
  (C30_non_consuming 0 _ _ _ _ rfl).1

end Chomp.Props
