import Verif.Lemmas.SepBy

/-
C31, C32: separated items (src/combinators/mod.rs:182-244). The specification is `Spec.SepOutcome` in
Verif/Spec/SepBy.lean. `conv` is the conversion `From<N> for E` of the error of the separator.
-/

namespace Chomp.Props

open Spec

/-! ### C31 sep_by -/

theorem C31_sep_by (conv : N → E) (p : Parser σ I U E) (sep : Parser σ I V N) (i : Input I) (w : σ)
    (o : Res (ParseResult I (List U) E × σ)) (ho : o ≠ .div) :
    Comb.sepBy conv (Collect.vec U) p sep i w = o ↔
      SepOutcome p (sepThen conv p sep) 0 i w o := by
  unfold Comb.sepBy
  rw [Sep.newLocal_eq, Rep.many_eq (by exact True.intro)]
  exact Sep.sep_iff ho

/-- It succeeds with the values of `p` in order, and the remainder starts where the attempt to read a
separator and one more item failed: such a separator is not consumed. -/
theorem C31_sep_by_ok (conv : N → E) (p : Parser σ I U E) (sep : Parser σ I V N) (i i' : Input I)
    (w w'' : σ) (us : List U) :
    Comb.sepBy conv (Collect.vec U) p sep i w = .ok (.data i' us, w'') ↔
      ∃ w', SepReps p (sepThen conv p sep) i w us i' w' ∧
        ((∃ b e, attempt p (sepThen conv p sep) us i' w' = .ok (.error b e, w'')) ∨
         (i'.mode = .endOfInput ∧
          ∃ n, attempt p (sepThen conv p sep) us i' w' = .ok (.incomplete n, w''))) := by
  rw [C31_sep_by conv p sep i w _ (by simp)]
  constructor
  · intro h
    cases h with
    | stop_error hr hp _ => exact ⟨_, hr, .inl ⟨_, _, hp⟩⟩
    | stop_last hr hp _ hm => exact ⟨_, hr, .inr ⟨hm, _, hp⟩⟩
  · rintro ⟨w', hr, ⟨b, e, hp⟩ | ⟨hm, n, hp⟩⟩
    · exact .stop_error hr hp (Nat.zero_le _)
    · exact .stop_last hr hp (Nat.zero_le _) hm

/-- `sep_by` never errs. -/
theorem C31_never_errors (conv : N → E) (p : Parser σ I U E) (sep : Parser σ I V N) (i : Input I)
    (w w' : σ) (b : List I) (e : E) :
    Comb.sepBy conv (Collect.vec U) p sep i w ≠ .ok (.error b e, w') := by
  intro h
  rw [C31_sep_by conv p sep i w _ (by simp)] at h
  cases h with
  | error _ _ h => simp at h

/-- If the first `p` errs, `sep` is not even called: whatever it does, the result is empty. -/
theorem C31_empty (conv : N → E) (p : Parser σ I U E) (sep : Parser σ I V N) (i : Input I)
    (w w' : σ) (b : List I) (e : E) (h : p i w = .ok (.error b e, w')) :
    Comb.sepBy conv (Collect.vec U) p sep i w = .ok (.data i [], w') :=
  (C31_sep_by conv p sep i w _ (by simp)).mpr (.stop_error .nil h (Nat.zero_le _))

/-- "1,2,;" : the comma before the semicolon is not consumed. -/
example : Comb.sepBy id (Collect.vec Char) (Parsers.satisfy (σ := Unit) true Char.isDigit)
    (Parsers.token true ',') ⟨.default, ['1', ',', '2', ',', ';']⟩ () =
      .ok (.data ⟨.default, [',', ';']⟩ ['1', '2'], ()) :=
  (C31_sep_by_ok _ _ _ _ _ _ _ _).mpr
    ⟨(), .cons (i1 := ⟨.default, [',', '2', ',', ';']⟩) (w1 := ()) rfl (.cons (w1 := ()) rfl .nil),
      .inl ⟨_, _, rfl⟩⟩

/-! ### C32 sep_by1 -/

theorem C32_sep_by1 (conv : N → E) (p : Parser σ I U E) (sep : Parser σ I V N) (i : Input I) (w : σ)
    (o : Res (ParseResult I (List U) E × σ)) (ho : o ≠ .div) :
    Comb.sepBy1 conv (Collect.vec U) p sep i w = o ↔
      SepOutcome p (sepThen conv p sep) 1 i w o := by
  unfold Comb.sepBy1
  rw [Sep.newLocal_eq, Rep.many_eq (by exact True.intro)]
  exact Sep.sep_iff ho

/-- If the first `p` fails, its failure is passed on. -/
theorem C32_first_fails (conv : N → E) (p : Parser σ I U E) (sep : Parser σ I V N) (i : Input I)
    (w w' : σ) :
    (∀ b e, p i w = .ok (.error b e, w') →
      Comb.sepBy1 conv (Collect.vec U) p sep i w = .ok (.error b e, w')) ∧
    (∀ n, p i w = .ok (.incomplete n, w') →
      Comb.sepBy1 conv (Collect.vec U) p sep i w = .ok (.incomplete n, w')) :=
  ⟨fun _ _ h => (C32_sep_by1 conv p sep i w _ (by simp)).mpr (.error .nil h (by simp)),
   fun _ h => (C32_sep_by1 conv p sep i w _ (by simp)).mpr (.incomplete .nil h (by simp))⟩

/-- If it succeeds, it is exactly as `sep_by`. -/
theorem C32_first_succeeds (conv : N → E) (p : Parser σ I U E) (sep : Parser σ I V N)
    (i i1 : Input I) (w w1 : σ) (u : U) (h : p i w = .ok (.data i1 u, w1)) :
    Comb.sepBy1 conv (Collect.vec U) p sep i w = Comb.sepBy conv (Collect.vec U) p sep i w := by
  have key : ∀ o, SepOutcome p (sepThen conv p sep) 1 i w o ↔
      SepOutcome p (sepThen conv p sep) 0 i w o := by
    have hne : ∀ {us i' w'}, SepReps p (sepThen conv p sep) i w us i' w' →
        (∀ b v w'', attempt p (sepThen conv p sep) us i' w' ≠ .ok (.data b v, w'')) →
        1 ≤ us.length := by
      intro us i' w' hr hn
      cases hr with
      | nil => exact absurd h (hn _ _ _)
      | cons => simp
    intro o
    constructor
    · intro ho
      cases ho with
      | stop_error hr hp _ => exact .stop_error hr hp (Nat.zero_le _)
      | stop_last hr hp _ hm => exact .stop_last hr hp (Nat.zero_le _) hm
      | error hr hp hl =>
        have := hne hr (by intro b v w'' h; rw [hp] at h; cases h)
        omega
      | incomplete hr hp hl =>
        have := hne hr (by intro b v w'' h; rw [hp] at h; cases h)
        refine .incomplete hr hp (.inr ?_)
        rcases hl with hl | hl
        · omega
        · exact hl
      | panic hr hp => exact .panic hr hp
      | ub hr hp => exact .ub hr hp
    · intro ho
      cases ho with
      | stop_error hr hp _ =>
        exact .stop_error hr hp (hne hr (by intro b v w'' h; rw [hp] at h; cases h))
      | stop_last hr hp _ hm =>
        exact .stop_last hr hp (hne hr (by intro b v w'' h; rw [hp] at h; cases h)) hm
      | error hr hp hl => omega
      | incomplete hr hp hl =>
        refine .incomplete hr hp (.inr ?_)
        rcases hl with hl | hl
        · omega
        · exact hl
      | panic hr hp => exact .panic hr hp
      | ub hr hp => exact .ub hr hp
  by_cases hd : Comb.sepBy1 conv (Collect.vec U) p sep i w = .div
  · by_cases hd' : Comb.sepBy conv (Collect.vec U) p sep i w = .div
    · rw [hd, hd']
    · exact (C32_sep_by1 conv p sep i w _ hd').mpr ((key _).mpr
        ((C31_sep_by conv p sep i w _ hd').mp rfl))
  · exact ((C31_sep_by conv p sep i w _ hd).mpr ((key _).mp
      ((C32_sep_by1 conv p sep i w _ hd).mp rfl))).symm

/-- At least one item on success. -/
theorem C32_at_least_one (conv : N → E) (p : Parser σ I U E) (sep : Parser σ I V N)
    (i i' : Input I) (w w' : σ) (us : List U)
    (h : Comb.sepBy1 conv (Collect.vec U) p sep i w = .ok (.data i' us, w')) : 1 ≤ us.length := by
  rw [C32_sep_by1 conv p sep i w _ (by simp)] at h
  cases h with
  | stop_error _ _ h => exact h
  | stop_last _ _ h => exact h

example : Comb.sepBy1 id (Collect.vec Char) (Parsers.satisfy (σ := Unit) true Char.isDigit)
    (Parsers.token true ',') ⟨.default, [',', '2']⟩ () =
      .ok (.error [',', '2'] .unexpected, ()) :=
  (C32_first_fails _ _ _ _ _ _).1 _ _ rfl

end Chomp.Props
