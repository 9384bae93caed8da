import Verif.Lemmas.Till

/-
C33-C35 and the `many_till` part of C27: repetition until an end parser succeeds
(src/combinators/bounded.rs, src/combinators/mod.rs). The specification is `Spec.TillOutcome` in
Verif/Spec/Till.lean.
-/

namespace Chomp.Props

open Spec

/-! ### C33 many_till -/

/-- `many_till(p, end)` into a vector: all its outcomes. -/
theorem C33_many_till (p : Parser σ I U E) (end_ : Parser σ I V N) (i : Input I) (w : σ)
    (o : Res (ParseResult I (List U) E × σ)) (ho : o ≠ .div) :
    Comb.manyTill (Collect.vec U) p end_ i w = o ↔ TillOutcome p end_ 0 none 1 i w o := by
  unfold Comb.manyTill
  rw [Till.manyTill_eq (by exact True.intro)]
  exact Till.core_vec_iff (by intro m h; cases h) ho

/-- Applications of `p` in a row, before each of which `end_` is tried and fails. -/
inductive RepsTill (p : Parser σ I U E) (end_ : Parser σ I V N) :
    Input I → σ → List U → Input I → σ → Prop
  | nil {i w} : RepsTill p end_ i w [] i w
  | cons {i w r w1 i1 u w2 us i' w'} : end_ i w = .ok (r, w1) → (∀ b v, r ≠ .data b v) →
      p i w1 = .ok (.data i1 u, w2) → RepsTill p end_ i1 w2 us i' w' →
      RepsTill p end_ i w (u :: us) i' w'

theorem RepsTill.snoc {p : Parser σ I U E} {end_ : Parser σ I V N} {i w us i' w' r w1 u i2 w2}
    (h : RepsTill p end_ i w us i' w') (he : end_ i' w' = .ok (r, w1)) (hr : ∀ b v, r ≠ .data b v)
    (hp : p i' w1 = .ok (.data i2 u, w2)) : RepsTill p end_ i w (us ++ [u]) i2 w2 := by
  induction h with
  | nil => exact .cons he hr hp .nil
  | cons h1 h2 h3 _ ih => exact .cons h1 h2 h3 (ih he hp)

theorem test_one_none {end_ : Parser σ I V N} {i w w'} :
    Test end_ 1 i w none w' ↔ ∃ r, end_ i w = .ok (r, w') ∧ ∀ b v, r ≠ .data b v := by
  constructor
  · intro h
    cases h with
    | miss_error h ht => cases ht; exact ⟨_, h, by simp⟩
    | miss_incomplete h ht => cases ht; exact ⟨_, h, by simp⟩
  · rintro ⟨r, h, hr⟩
    cases r with
    | data b v => exact absurd rfl (hr b v)
    | error b e => exact .miss_error h .none
    | incomplete n => exact .miss_incomplete h .none

theorem test_one_some {end_ : Parser σ I V N} {i w i' w'} :
    Test end_ 1 i w (some i') w' ↔ ∃ v, end_ i w = .ok (.data i' v, w') := by
  constructor
  · intro h
    cases h with
    | hit h => exact ⟨_, h⟩
    | miss_error h ht => cases ht
    | miss_incomplete h ht => cases ht
  · rintro ⟨v, h⟩; exact .hit h

theorem tries_zero (hi : Option Nat) (k : Nat) : tries 0 hi 1 k = 1 := by simp [tries]

theorem tillRun_iff {p : Parser σ I U E} {end_ : Parser σ I V N} {i w us i' w'} :
    TillRun p end_ 0 none 1 i w us i' w' ↔ RepsTill p end_ i w us i' w' := by
  constructor
  · intro h
    induction h with
    | nil => exact .nil
    | snoc _ _ ht hp ih =>
      rw [tries_zero] at ht
      obtain ⟨r, he, hr⟩ := test_one_none.mp ht
      exact ih.snoc he hr hp
  · intro h
    have key : ∀ (us0 : List U) i0 w0, TillRun p end_ 0 none 1 i0 w0 us0 i w →
        TillRun p end_ 0 none 1 i0 w0 (us0 ++ us) i' w' := by
      induction h with
      | nil => intro us0 i0 w0 h; simpa using h
      | cons h1 h2 h3 hrest ih =>
        rename_i i w r w1 i1 u w2 us i' w'
        intro us0 i0 w0 h
        have ht : Test end_ (tries 0 none 1 us0.length) i w none w1 := by
          rw [tries_zero]; exact test_one_none.mpr ⟨_, h1, h2⟩
        have := ih _ _ _ (TillRun.snoc h (by intro m h; cases h) ht h3)
        simpa using this
    simpa using key [] i w .nil

/-- It succeeds with `us` iff these are the values of `p` up to the first success of `end_`. -/
theorem C33_many_till_ok (p : Parser σ I U E) (end_ : Parser σ I V N) (i i2 : Input I) (w w2 : σ)
    (us : List U) :
    Comb.manyTill (Collect.vec U) p end_ i w = .ok (.data i2 us, w2) ↔
      ∃ i' w' v, RepsTill p end_ i w us i' w' ∧ end_ i' w' = .ok (.data i2 v, w2) := by
  rw [C33_many_till p end_ i w _ (by simp)]
  constructor
  · intro h
    cases h with
    | done hr ht =>
      rw [tries_zero] at ht
      obtain ⟨v, he⟩ := test_one_some.mp ht
      exact ⟨_, _, v, tillRun_iff.mp hr, he⟩
  · rintro ⟨i', w', v, hr, he⟩
    exact .done (tillRun_iff.mpr hr) (by rw [tries_zero]; exact test_one_some.mpr ⟨v, he⟩)

/-- It fails with the error of `p` where neither `end_` nor `p` succeeds. -/
theorem C33_many_till_error (p : Parser σ I U E) (end_ : Parser σ I V N) (i : Input I) (w w2 : σ)
    (b : List I) (e : E) :
    Comb.manyTill (Collect.vec U) p end_ i w = .ok (.error b e, w2) ↔
      ∃ us i' w' r w1, RepsTill p end_ i w us i' w' ∧ end_ i' w' = .ok (r, w1) ∧
        (∀ b v, r ≠ .data b v) ∧ p i' w1 = .ok (.error b e, w2) := by
  rw [C33_many_till p end_ i w _ (by simp)]
  constructor
  · intro h
    cases h with
    | error hr _ ht hp =>
      rw [tries_zero] at ht
      obtain ⟨r, he, hne⟩ := test_one_none.mp ht
      exact ⟨_, _, _, r, _, tillRun_iff.mp hr, he, hne, hp⟩
  · rintro ⟨us, i', w', r, w1, hr, he, hne, hp⟩
    exact .error (tillRun_iff.mpr hr) (by intro m h; cases h)
      (by rw [tries_zero]; exact test_one_none.mpr ⟨r, he, hne⟩) hp

/-- Likewise for incomplete. In particular, an incomplete `end_` alone never makes it incomplete. -/
theorem C33_many_till_incomplete (p : Parser σ I U E) (end_ : Parser σ I V N) (i : Input I)
    (w w2 : σ) (n : Nat) :
    Comb.manyTill (Collect.vec U) p end_ i w = .ok (.incomplete n, w2) ↔
      ∃ us i' w' r w1, RepsTill p end_ i w us i' w' ∧ end_ i' w' = .ok (r, w1) ∧
        (∀ b v, r ≠ .data b v) ∧ p i' w1 = .ok (.incomplete n, w2) := by
  rw [C33_many_till p end_ i w _ (by simp)]
  constructor
  · intro h
    cases h with
    | limit _ h => cases h
    | incomplete hr _ ht hp =>
      rw [tries_zero] at ht
      obtain ⟨r, he, hne⟩ := test_one_none.mp ht
      exact ⟨_, _, _, r, _, tillRun_iff.mp hr, he, hne, hp⟩
  · rintro ⟨us, i', w', r, w1, hr, he, hne, hp⟩
    exact .incomplete (tillRun_iff.mpr hr) (by intro m h; cases h)
      (by rw [tries_zero]; exact test_one_none.mpr ⟨r, he, hne⟩) hp

/-- Up to the first semicolon, which is consumed. -/
example : Comb.manyTill (Collect.vec Char) (Parsers.any (σ := Unit)) (Parsers.token true ';')
    ⟨.default, ['a', 'b', ';', 'c']⟩ () = .ok (.data ⟨.default, ['c']⟩ ['a', 'b'], ()) :=
  (C33_many_till_ok _ _ _ _ _ _ _).mpr
    ⟨⟨.default, [';', 'c']⟩, (), ';',
      .cons (w1 := ()) (w2 := ()) (i1 := ⟨.default, ['b', ';', 'c']⟩) rfl (by intro b v h; cases h) rfl
        (.cons (w1 := ()) (w2 := ()) rfl (by intro b v h; cases h) rfl .nil), rfl⟩

/-! ### C34 bounded many_till -/

theorem C34_many_till_from (n : Nat) (p : Parser σ I U E) (end_ : Parser σ I V N) (i : Input I)
    (w : σ) (o : Res (ParseResult I (List U) E × σ)) (ho : o ≠ .div) :
    Bounded.manyTill (.from_ n) (Collect.vec U) p end_ i w = o ↔
      TillOutcome p end_ n none 1 i w o := by
  rw [Till.manyTill_eq (by exact True.intro)]
  exact Till.core_vec_iff (by intro m h; cases h) ho

theorem C34_many_till_exactly (n : Nat) (p : Parser σ I U E) (end_ : Parser σ I V N) (i : Input I)
    (w : σ) (o : Res (ParseResult I (List U) E × σ)) (ho : o ≠ .div) :
    Bounded.manyTill (.exactly n) (Collect.vec U) p end_ i w = o ↔
      TillOutcome p end_ n (some n) 1 i w o := by
  rw [Till.manyTill_eq (by exact True.intro)]
  exact Till.core_vec_iff (by intro m h; cases h; exact Nat.le_refl _) ho

/-- With `a..b`, `end_` is tried twice once the limit is reached. -/
theorem C34_many_till_range (a b : Nat) (hab : a < b) (p : Parser σ I U E) (end_ : Parser σ I V N)
    (i : Input I) (w : σ) (o : Res (ParseResult I (List U) E × σ)) (ho : o ≠ .div) :
    Bounded.manyTill (.range a b) (Collect.vec U) p end_ i w = o ↔
      TillOutcome p end_ a (some (b - 1)) 2 i w o := by
  rw [Till.manyTill_eq (by exact Nat.le_of_lt hab)]
  exact Till.core_vec_iff (by intro m h; cases h; simp only [Rep.min]; omega) ho

/-- Values as successive results of `p`, whatever else happened in between to the captured state. -/
inductive Yields (p : Parser σ I U E) : Input I → List U → Input I → Prop
  | nil {i} : Yields p i [] i
  | cons {i w i1 u w1 us i'} : p i w = .ok (.data i1 u, w1) → Yields p i1 us i' →
      Yields p i (u :: us) i'

theorem Yields.snoc {p : Parser σ I U E} {i us i1 w u i2 w2} (h : Yields p i us i1)
    (hp : p i1 w = .ok (.data i2 u, w2)) : Yields p i (us ++ [u]) i2 := by
  induction h with
  | nil => exact .cons hp .nil
  | cons h1 _ ih => exact .cons h1 (ih hp)

theorem tillRun_yields {p : Parser σ I U E} {end_ : Parser σ I V N} {lo hi last i w us i' w'}
    (h : TillRun p end_ lo hi last i w us i' w') :
    Yields p i us i' ∧ ∀ m, hi = some m → us.length ≤ m := by
  refine ⟨?_, Till.TillRun.le h⟩
  induction h with
  | nil => exact .nil
  | snoc _ _ _ hp ih => exact ih.snoc hp

theorem test_some {end_ : Parser σ I V N} {n i w i' w'} (h : Test end_ n i w (some i') w') :
    0 < n ∧ ∃ w1 v, end_ i w1 = .ok (.data i' v, w') := by
  refine ⟨by cases h <;> omega, ?_⟩
  generalize hr : some i' = r at h
  induction h with
  | none => cases hr
  | hit h => cases hr; exact ⟨_, _, h⟩
  | miss_error _ _ ih => exact ih hr
  | miss_incomplete _ _ ih => exact ih hr

theorem outcome_data {p : Parser σ I U E} {end_ : Parser σ I V N} {lo hi last i w i2 us w2}
    (hlh : ∀ m, hi = some m → lo ≤ m)
    (h : TillOutcome p end_ lo hi last i w (.ok (.data i2 us, w2))) :
    lo ≤ us.length ∧ (∀ m, hi = some m → us.length ≤ m) ∧
      ∃ i' w' v, Yields p i us i' ∧ end_ i' w' = .ok (.data i2 v, w2) := by
  cases h with
  | done hr ht =>
    obtain ⟨hy, hm⟩ := tillRun_yields hr
    obtain ⟨h0, w1, v, he⟩ := test_some ht
    refine ⟨?_, hm, _, w1, v, hy, he⟩
    unfold tries at h0
    by_cases h1 : hi = some us.length
    · exact hlh _ h1
    · rw [if_neg h1] at h0
      by_cases h2 : us.length < lo
      · rw [if_pos h2] at h0; omega
      · omega

/-- On success the number of items is in the range and `end_` matched right after them. -/
theorem C34_in_range (a b n : Nat) (hab : a < b) (p : Parser σ I U E) (end_ : Parser σ I V N)
    (i i2 : Input I) (w w2 : σ) (us : List U) :
    (Bounded.manyTill (.exactly n) (Collect.vec U) p end_ i w = .ok (.data i2 us, w2) →
      us.length = n ∧ ∃ i' w' v, Yields p i us i' ∧ end_ i' w' = .ok (.data i2 v, w2)) ∧
    (Bounded.manyTill (.from_ n) (Collect.vec U) p end_ i w = .ok (.data i2 us, w2) →
      n ≤ us.length ∧ ∃ i' w' v, Yields p i us i' ∧ end_ i' w' = .ok (.data i2 v, w2)) ∧
    (Bounded.manyTill (.range a b) (Collect.vec U) p end_ i w = .ok (.data i2 us, w2) →
      a ≤ us.length ∧ us.length < b ∧
        ∃ i' w' v, Yields p i us i' ∧ end_ i' w' = .ok (.data i2 v, w2)) := by
  refine ⟨fun h => ?_, fun h => ?_, fun h => ?_⟩
  · rw [C34_many_till_exactly n p end_ i w _ (by simp)] at h
    obtain ⟨h1, h2, h3⟩ := outcome_data (by intro m h; cases h; exact Nat.le_refl _) h
    have := h2 n rfl
    exact ⟨by omega, h3⟩
  · rw [C34_many_till_from n p end_ i w _ (by simp)] at h
    obtain ⟨h1, _, h3⟩ := outcome_data (by intro m h; cases h) h
    exact ⟨h1, h3⟩
  · rw [C34_many_till_range a b hab p end_ i w _ (by simp)] at h
    obtain ⟨h1, h2, h3⟩ := outcome_data (by intro m h; cases h; omega) h
    have := h2 (b - 1) rfl
    exact ⟨h1, by omega, h3⟩

/-- They panic only if `p` or `end_` does. -/
theorem C34_no_panic (r : Bounded.Range)
    (hr : match r with | .range a b => a < b | .to _ => False | _ => True)
    (p : Parser σ I U E) (end_ : Parser σ I V N) (i : Input I) (w : σ)
    (h : Bounded.manyTill r (Collect.vec U) p end_ i w = .panic) :
    (∃ i' w', p i' w' = .panic) ∨ ∃ i' w', end_ i' w' = .panic := by
  have main : ∀ {lo hi last}, TillOutcome p end_ lo hi last i w .panic →
      (∃ i' w', p i' w' = .panic) ∨ ∃ i' w', end_ i' w' = .panic := by
    intro lo hi last h
    cases h with
    | panic_p _ _ _ hp => exact .inl ⟨_, _, hp⟩
    | panic_end _ _ _ hp => exact .inr ⟨_, _, hp⟩
  cases r with
  | range a b => exact main ((C34_many_till_range a b hr p end_ i w _ (by simp)).mp h)
  | from_ n => exact main ((C34_many_till_from n p end_ i w _ (by simp)).mp h)
  | full => exact main ((C33_many_till p end_ i w _ (by simp)).mp h)
  | exactly n => exact main ((C34_many_till_exactly n p end_ i w _ (by simp)).mp h)
  | to n => exact hr.elim

/-- Before the minimum is reached, `end_` is not called: its behaviour does not matter. -/
theorem C34_end_not_called (a n : Nat) (p : Parser σ I U E) (end_ : Parser σ I V N)
    (i i' : Input I) (w w' w'' : σ) (us : List U) (h' : Reps p i w us i' w') (hl : us.length < n)
    (x : ParseResult I (List U) E)
    (hx : match x with
      | .data _ _ => False
      | .error b e => p i' w' = .ok (.error b e, w'')
      | .incomplete k => p i' w' = .ok (.incomplete k, w'')) :
    Bounded.manyTill (.exactly n) (Collect.vec U) p end_ i w = .ok (x, w'') ∧
    Bounded.manyTill (.from_ n) (Collect.vec U) p end_ i w = .ok (x, w'') ∧
    Bounded.manyTill (.range n (n + 1 + a)) (Collect.vec U) p end_ i w = .ok (x, w'') := by
  have tr : ∀ {hi last}, (∀ m, hi = some m → n ≤ m) → ∀ (us : List U) i' w',
      Reps p i w us i' w' → us.length ≤ n → TillRun p end_ n hi last i w us i' w' := by
    intro hi last hn us i' w' h
    have key : ∀ (us0 : List U) i0 w0, TillRun p end_ n hi last i0 w0 us0 i w →
        (us0 ++ us).length ≤ n → TillRun p end_ n hi last i0 w0 (us0 ++ us) i' w' := by
      clear hx h'
      induction h with
      | nil => intro us0 i0 w0 h _; simpa using h
      | cons h1 hrest ih =>
        rename_i i w i1 u w1 us i' w'
        intro us0 i0 w0 h hl
        simp at hl
        have ht : Test end_ (tries n hi last us0.length) i w none w := by
          have h1 : hi ≠ some us0.length := by intro e; have := hn _ e; omega
          have h2 : us0.length < n := by omega
          simp only [tries, h1, h2, if_true, if_false]
          exact .none
        have := ih (us0 ++ [_]) i0 w0
          (TillRun.snoc h (by intro m e; have := hn m e; omega) ht h1) (by simp; omega)
        simpa using this
    intro hl
    simpa using key [] i w .nil (by simpa using hl)
  have main : ∀ {hi last}, (∀ m, hi = some m → n ≤ m) →
      TillOutcome p end_ n hi last i w (.ok (x, w'')) := by
    intro hi last hn
    have hr := tr (hi := hi) (last := last) hn us i' w' h' (by omega)
    have ht : Test end_ (tries n hi last us.length) i' w' none w' := by
      have h1 : hi ≠ some us.length := by intro e; have := hn _ e; omega
      simp only [tries, h1, hl, if_true, if_false]
      exact .none
    have hb : Below us.length hi := by intro m e; have := hn m e; omega
    cases x with
    | data => exact hx.elim
    | error b e => exact .error hr hb ht hx
    | incomplete k => exact .incomplete hr hb ht hx
  refine ⟨(C34_many_till_exactly n p end_ i w _ (by simp)).mpr (main ?_),
    (C34_many_till_from n p end_ i w _ (by simp)).mpr (main ?_),
    (C34_many_till_range n (n + 1 + a) (by omega) p end_ i w _ (by simp)).mpr (main ?_)⟩
  · intro m h; cases h; exact Nat.le_refl _
  · intro m h; cases h
  · intro m h; cases h; omega

/-- `n` items without `end_` following are reported as incomplete, even on the last slice. -/
theorem C34_limit (n : Nat) (p : Parser σ I U E) (end_ : Parser σ I V N) (i i' : Input I)
    (w w' w'' : σ) (us : List U) (h : Reps p i w us i' w') (hl : us.length = n)
    (r : ParseResult I V N) (he : end_ i' w' = .ok (r, w'')) (hr : ∀ b v, r ≠ .data b v) :
    Bounded.manyTill (.exactly n) (Collect.vec U) p end_ i w = .ok (.incomplete 1, w'') := by
  rw [Till.manyTill_eq (by exact True.intro)]
  show loop (Till.step (Collect.vec U) p end_ 1 _) ([], i, n, some n) w = _
  rw [Till.reps_loop h (by omega) (by omega), loop_apply]
  have : Till.test end_ 1 i' w' = .ok (none, w'') := Till.test_iff.mpr (test_one_none.mpr ⟨r, he, hr⟩)
  simp [Till.step, hl, Till.triesAt, this]

/-- Two items, no semicolon. -/
example : Bounded.manyTill (.exactly 2) (Collect.vec Char) (Parsers.any (σ := Unit))
    (Parsers.token true ';') ⟨.endOfInput, ['a', 'b', 'c']⟩ () = .ok (.incomplete 1, ()) :=
  C34_limit 2 _ _ _ ⟨.endOfInput, ['c']⟩ _ _ _ ['a', 'b']
    (.cons (w1 := ()) rfl (.cons (w1 := ()) rfl .nil)) rfl _ rfl (by intro b v h; cases h)

/-- One to three items, two semicolons at the start: the first one counts as an item. -/
example : Bounded.manyTill (.range 1 4) (Collect.vec Char) (Parsers.any (σ := Unit))
    (Parsers.token true ';') ⟨.default, [';', ';', 'c']⟩ () =
      .ok (.data ⟨.default, ['c']⟩ [';'], ()) :=
  (C34_many_till_range 1 4 (by omega) _ _ _ _ _ (by simp)).mpr
    (.done (us := [';']) (i' := ⟨.default, [';', 'c']⟩) (w' := ())
      (.snoc (us := []) (w' := ()) (w1 := ()) .nil (by intro m h; cases h; simp)
        (by simp [tries]; exact .none) rfl)
      (by simp [tries]; exact .hit (v := ';') rfl))

/-! ### C35 many_till with an upper limit only -/

/-- `many_till(..n, p, end)` compared with what it should be: its successes become panics, unless
exactly n-1 items were read. -/
theorem C35_many_till_to (n : Nat) (p : Parser σ I U E) (end_ : Parser σ I V N) (i : Input I)
    (w : σ) (o : Res (ParseResult I (List U) E × σ)) (ho : o ≠ .div) :
    Bounded.manyTill (.to n) (Collect.vec U) p end_ i w = o ↔
      ∃ o', TillOutcome p end_ 0 (some (n - 1)) 1 i w o' ∧
        o = match o' with
          | .ok (.data _ us, _) => if us.length = n - 1 then o' else .panic
          | _ => o' := by
  rw [Till.manyTill_eq (by exact True.intro)]
  show Till.core (Collect.vec U) p end_ 1 (fun _ hi => hi == some 0) 0 (some (n - 1)) i w = o ↔ _
  rw [Till.core_to_eq]
  have hlh : ∀ m, some (n - 1) = some m → 0 ≤ m := fun m _ => Nat.zero_le m
  constructor
  · intro h
    cases hc : Till.core (Collect.vec U) p end_ 1 (fun lo _ => lo == 0) 0 (some (n - 1)) i w with
    | ok x =>
      obtain ⟨x, w1⟩ := x
      refine ⟨_, (Till.core_vec_iff hlh (by simp)).mp hc, ?_⟩
      rw [hc] at h
      cases x <;> exact h.symm
    | panic =>
      refine ⟨_, (Till.core_vec_iff hlh (by simp)).mp hc, ?_⟩
      rw [hc] at h; exact h.symm
    | ub =>
      refine ⟨_, (Till.core_vec_iff hlh (by simp)).mp hc, ?_⟩
      rw [hc] at h; exact h.symm
    | div => rw [hc] at h; exact absurd h.symm ho
  · rintro ⟨o', ho', rfl⟩
    rw [(Till.core_vec_iff hlh (by rintro rfl; cases ho')).mpr ho']
    match o' with
    | .ok (.data _ _, _) => rfl
    | .ok (.error _ _, _) => rfl
    | .ok (.incomplete _, _) => rfl
    | .panic => rfl
    | .ub => rfl
    | .div => rfl

theorem repsTill_run {p : Parser σ I U E} {end_ : Parser σ I V N} {i w us i' w' m}
    (h : RepsTill p end_ i w us i' w') (hl : us.length ≤ m) :
    TillRun p end_ 0 (some m) 1 i w us i' w' := by
  have key : ∀ (us0 : List U) i0 w0, TillRun p end_ 0 (some m) 1 i0 w0 us0 i w →
      (us0 ++ us).length ≤ m → TillRun p end_ 0 (some m) 1 i0 w0 (us0 ++ us) i' w' := by
    clear hl
    induction h with
    | nil => intro us0 i0 w0 h _; simpa using h
    | cons h1 h2 h3 hrest ih =>
      rename_i i w r w1 i1 u w2 us i' w'
      intro us0 i0 w0 h hl
      simp at hl
      have ht : Test end_ (tries 0 (some m) 1 us0.length) i w none w1 := by
        rw [tries_zero]; exact test_one_none.mpr ⟨_, h1, h2⟩
      have := ih (us0 ++ [_]) i0 w0
        (TillRun.snoc h (by intro m e; cases e; omega) ht h3) (by simp; omega)
      simpa using this
  simpa using key [] i w .nil (by simpa using hl)

/-- If `end_` matches after `k` items, 0 ≤ k < n-1, it panics. -/
theorem C35_panics (n : Nat) (p : Parser σ I U E) (end_ : Parser σ I V N) (i i' i2 : Input I)
    (w w' w2 : σ) (us : List U) (v : V) (h : RepsTill p end_ i w us i' w')
    (he : end_ i' w' = .ok (.data i2 v, w2)) (hl : us.length < n - 1) :
    Bounded.manyTill (.to n) (Collect.vec U) p end_ i w = .panic :=
  (C35_many_till_to n p end_ i w _ (by simp)).mpr
    ⟨_, .done (repsTill_run h (Nat.le_of_lt hl))
      (by rw [tries_zero]; exact test_one_some.mpr ⟨v, he⟩), by
        have : us.length ≠ n - 1 := by omega
        simp [this]⟩

/-- The panic in its simplest form: `end_` matches at once. -/
theorem C35_panics_at_once (n : Nat) (hn : 2 ≤ n) (p : Parser σ I U E) (end_ : Parser σ I V N)
    (i i2 : Input I) (w w2 : σ) (v : V) (he : end_ i w = .ok (.data i2 v, w2)) :
    Bounded.manyTill (.to n) (Collect.vec U) p end_ i w = .panic :=
  C35_panics n p end_ i i i2 w w w2 [] v .nil he (by simp; omega)

/-- It succeeds only after exactly n-1 items (after none if n = 0). -/
theorem C35_success (n : Nat) (p : Parser σ I U E) (end_ : Parser σ I V N) (i i2 : Input I)
    (w w2 : σ) (us : List U)
    (h : Bounded.manyTill (.to n) (Collect.vec U) p end_ i w = .ok (.data i2 us, w2)) :
    us.length = n - 1 := by
  obtain ⟨o', ho', he⟩ := (C35_many_till_to n p end_ i w _ (by simp)).mp h
  match o', he with
  | .ok (.data b us', w'), he =>
    by_cases hl : us'.length = n - 1
    · simp only [hl, if_true] at he; cases he; exact hl
    · simp only [hl, if_false] at he; cases he

/-- ... and then it does. -/
theorem C35_success_at (n : Nat) (p : Parser σ I U E) (end_ : Parser σ I V N) (i i' i2 : Input I)
    (w w' w2 : σ) (us : List U) (v : V) (h : RepsTill p end_ i w us i' w')
    (he : end_ i' w' = .ok (.data i2 v, w2)) (hl : us.length = n - 1) :
    Bounded.manyTill (.to n) (Collect.vec U) p end_ i w = .ok (.data i2 us, w2) :=
  (C35_many_till_to n p end_ i w _ (by simp)).mpr
    ⟨_, .done (repsTill_run h (by omega))
      (by rw [tries_zero]; exact test_one_some.mpr ⟨v, he⟩), by simp [hl]⟩

/-- `many_till(..3, any, token(b';'))` on `";"` and on `"a;"` panics, on `"ab;"` it succeeds. -/
example : Bounded.manyTill (.to 3) (Collect.vec Char) (Parsers.any (σ := Unit))
      (Parsers.token true ';') ⟨.default, [';']⟩ () = .panic ∧
    Bounded.manyTill (.to 3) (Collect.vec Char) (Parsers.any (σ := Unit))
      (Parsers.token true ';') ⟨.default, ['a', ';']⟩ () = .panic ∧
    Bounded.manyTill (.to 3) (Collect.vec Char) (Parsers.any (σ := Unit))
      (Parsers.token true ';') ⟨.default, ['a', 'b', ';']⟩ () =
        .ok (.data ⟨.default, []⟩ ['a', 'b'], ()) :=
  ⟨C35_panics_at_once 3 (by omega) _ _ _ _ _ () ';' rfl,
   C35_panics 3 _ _ _ ⟨.default, [';']⟩ ⟨.default, []⟩ _ () () ['a'] ';'
     (.cons (w1 := ()) (w2 := ()) rfl (by intro b v h; cases h) rfl .nil) rfl (by simp),
   C35_success_at 3 _ _ _ ⟨.default, [';']⟩ _ _ () _ ['a', 'b'] ';'
     (.cons (w1 := ()) (w2 := ()) (i1 := ⟨.default, ['b', ';']⟩) rfl (by intro b v h; cases h) rfl
       (.cons (w1 := ()) (w2 := ()) rfl (by intro b v h; cases h) rfl .nil)) rfl rfl⟩

/-! ### C27 many_till with an empty range -/

/-- `many_till(n..n, p, end)` with n ≥ 1 panics when `end_` matches after n-1 items. -/
theorem C27_empty_till (n : Nat) (hn : 1 ≤ n) (p : Parser σ I U E) (end_ : Parser σ I V N)
    (i i' i2 : Input I) (w w' w2 : σ) (us : List U) (v : V) (h : Reps p i w us i' w')
    (hl : us.length = n - 1) (he : end_ i' w' = .ok (.data i2 v, w2)) :
    Bounded.manyTill (.range n n) (Collect.vec U) p end_ i w = .panic := by
  rw [Till.manyTill_eq (by exact Nat.le_refl n)]
  show loop (Till.step (Collect.vec U) p end_ 2 (fun lo _ => lo == 0)) ([], i, n, some (n - 1)) w = _
  rw [Till.reps_loop h (by omega) (by omega), loop_apply]
  have h1 : n - us.length = 1 := by omega
  have : Till.test end_ 1 i' w' = .ok (some i2, w2) := Till.test_iff.mpr (test_one_some.mpr ⟨v, he⟩)
  rw [h1]
  simp [Till.step, Till.triesAt, this, hl]

/-- It never succeeds. -/
theorem C27_empty_till_never (n : Nat) (hn : 1 ≤ n) (p : Parser σ I U E) (end_ : Parser σ I V N)
    (c : Collect U T) (i i2 : Input I) (w w2 : σ) (t : T) :
    Bounded.manyTill (.range n n) c p end_ i w ≠ .ok (.data i2 t, w2) := by
  rw [Till.manyTill_eq (by exact Nat.le_refl n)]
  unfold Till.core
  cases c.start with
  | inr t => simp
  | inl a =>
    dsimp only
    refine loop_inv (f := Till.step c p end_ 2 (fun lo _ => lo == 0))
      (P := fun s _ => ∃ k, s.2.2.2 = some k ∧ s.2.2.1 = k + 1)
      (Q := fun r => r ≠ .ok (.data i2 t, w2)) (by simp) ?_
      ⟨n - 1, rfl, by show n = n - 1 + 1; omega⟩
    rintro ⟨a, i, lo, hi⟩ w ⟨k, rfl, rfl⟩
    cases ht : Till.test end_ (Till.triesAt 2 (k + 1) (some k)) i w with
    | ok x =>
      obtain ⟨x, w1⟩ := x
      cases x with
      | some b => right; rw [loop_apply]; simp [Till.step, ht]
      | none =>
        by_cases hk : k = 0
        · right; subst hk; rw [loop_apply]; simp [Till.step, ht]
        · cases hp : p i w1 with
          | ok r =>
            obtain ⟨r, w1⟩ := r
            cases r with
            | data b v =>
              cases hf : c.feed a v with
              | inl a' =>
                left
                exact ⟨(a', b, k, some (k - 1)), w1, by simp [Till.step, ht, hk, hp, hf],
                  k - 1, rfl, by dsimp only; omega⟩
              | inr t => right; rw [loop_apply]; simp [Till.step, ht, hk, hp, hf]
            | error b e => right; rw [loop_apply]; simp [Till.step, ht, hk, hp]
            | incomplete n => right; rw [loop_apply]; simp [Till.step, ht, hk, hp]
          | _ => right; rw [loop_apply]; simp [Till.step, ht, hk, hp]
    | _ => right; rw [loop_apply]; simp [Till.step, ht]

example : Bounded.manyTill (.range 2 2) (Collect.vec Char) (Parsers.any (σ := Unit))
    (Parsers.token true ';') ⟨.default, ['a', ';']⟩ () = .panic :=
  C27_empty_till 2 (by omega) _ _ _ ⟨.default, [';']⟩ ⟨.default, []⟩ _ () () ['a'] ';'
    (.cons (w1 := ()) rfl .nil) rfl rfl

end Chomp.Props
