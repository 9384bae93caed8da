import Verif.Props.Repeat
import Verif.Props.Till

/-
C27: what the empty ranges `n..n` do, in terms of an exact count.
-/

namespace Chomp.Props

open Spec

variable {σ I T U V E N : Type}

/-- `many(n..n, p)` with n ≥ 1 applies `p` n-1 times, as `many(n-1, p)`, and is incomplete then. -/
theorem C27_empty_is_count (n : Nat) (p : Parser σ I U E) (i : Input I) (w : σ) :
    Bounded.many (.range (n + 1) (n + 1)) (Collect.vec U) p i w =
      (Bounded.many (.exactly n) (Collect.vec U) p i w >>= fun x => .ok (match x.1 with
        | .data _ _ => .incomplete 1
        | .error b e => .error b e
        | .incomplete k => .incomplete k, x.2)) := by
  rw [Rep.many_eq (by exact Nat.le_refl _), Rep.many_eq (by exact True.intro)]
  symm
  show ((loop (Rep.step (Collect.vec U) p) ([], i, n, some n) w) >>= _) =
    loop (Rep.step (Collect.vec U) p) ([], i, n + 1, some n) w
  refine loop_sim (f := Rep.step (Collect.vec U) p) (g := Rep.step (Collect.vec U) p)
    (R := fun s1 w1 s2 w2 => w1 = w2 ∧ ∃ a i k, s1 = (a, i, k, some k) ∧ s2 = (a, i, k + 1, some k))
    (Q := fun r1 r2 => (r1 >>= fun x => .ok (match x.1 with
        | .data _ _ => .incomplete 1
        | .error b e => .error b e
        | .incomplete k => .incomplete k, x.2)) = r2) rfl ?_ ⟨rfl, [], i, n, rfl, rfl⟩
  rintro _ w _ _ ⟨rfl, a, i, k, rfl, rfl⟩
  cases k with
  | zero =>
    right
    rw [loop_apply, loop_apply]
    simp [Rep.step, Rep.final]
  | succ k =>
    cases hp : p i w with
    | ok r =>
      obtain ⟨r, w1⟩ := r
      cases r with
      | data b v =>
        left
        exact ⟨_, w1, _, w1, by simp [Rep.step, hp, Collect.vec], by simp [Rep.step, hp, Collect.vec],
          rfl, v :: a, b, k, rfl, rfl⟩
      | error b e => right; rw [loop_apply, loop_apply]; simp [Rep.step, hp]
      | incomplete m => right; rw [loop_apply, loop_apply]; simp [Rep.step, hp, Rep.final]
    | _ => right; rw [loop_apply, loop_apply]; simp [Rep.step, hp]

/-- `skip_many(n..n, p)` does the same, and succeeds. -/
theorem C27_empty_skip_is_count (n : Nat) (p : Parser σ I U E) (i : Input I) (w : σ) :
    Bounded.skipMany (.range (n + 1) (n + 1)) p i w =
      (Bounded.many (.exactly n) (Collect.vec U) p i w >>= fun x => .ok (dropValue x.1, x.2)) := by
  rw [Rep.many_eq (by exact True.intro)]
  symm
  simp only [Bounded.skipMany, Bounded.skipManyRange, Nat.le_refl, if_true, Rep.maxOf_eq]
  show ((loop (Rep.step (Collect.vec U) p) ([], i, n, some n) w) >>= _) = loop _ (i, n + 1, n) w
  refine loop_sim (f := Rep.step (Collect.vec U) p)
    (R := fun s1 w1 (s2 : Input I × Nat × Nat) w2 => w1 = w2 ∧ ∃ a i k, s1 = (a, i, k, some k) ∧
      s2 = (i, k + 1, k))
    (Q := fun r1 r2 => (r1 >>= fun x => .ok (dropValue x.1, x.2)) = r2) rfl ?_ ⟨rfl, [], i, n, rfl, rfl⟩
  rintro _ w _ _ ⟨rfl, a, i, k, rfl, rfl⟩
  cases k with
  | zero =>
    right
    rw [loop_apply, loop_apply]
    simp [Rep.step, Rep.final, dropValue, Input.ret]
  | succ k =>
    cases hp : p i w with
    | ok r =>
      obtain ⟨r, w1⟩ := r
      cases r with
      | data b v =>
        left
        exact ⟨_, w1, _, w1, by simp [Rep.step, hp, Collect.vec],
          by simp [M.bind_apply, hp, Rep.decSat_ok, Rep.dec_ok, M.map_apply],
          rfl, v :: a, b, k, rfl, rfl⟩
      | error b e =>
        right; rw [loop_apply, loop_apply]
        simp [Rep.step, hp, M.bind_apply, dropValue, Input.replace, Input.err]
      | incomplete m =>
        right; rw [loop_apply, loop_apply]
        simp [Rep.step, hp, Rep.final, M.bind_apply, dropValue, Input.incomplete]
    | _ => right; rw [loop_apply, loop_apply]; simp [Rep.step, hp, M.bind_apply]

/-- `many_till(n..n, p, end)` does the same, then tries `end` once; it panics if `end` matches, and is
incomplete otherwise. -/
theorem C27_empty_till_is_count (n : Nat) (p : Parser σ I U E) (end_ : Parser σ I V N) (i : Input I) (w : σ) :
    Bounded.manyTill (.range (n + 1) (n + 1)) (Collect.vec U) p end_ i w =
      (Bounded.many (.exactly n) (Collect.vec U) p i w >>= fun x => match x.1 with
        | .data i' _ => end_ i' x.2 >>= fun y => (match y.1 with
          | .data _ _ => .panic
          | _ => .ok (.incomplete 1, y.2))
        | .error b e => .ok (.error b e, x.2)
        | .incomplete k => .ok (.incomplete k, x.2)) := by
  rw [Till.manyTill_eq (by exact Nat.le_refl _), Rep.many_eq (by exact True.intro)]
  symm
  show ((loop (Rep.step (Collect.vec U) p) ([], i, n, some n) w) >>= _) =
    loop (Till.step (Collect.vec U) p end_ 2 (fun lo _ => lo == 0)) ([], i, n + 1, some n) w
  refine loop_sim (f := Rep.step (Collect.vec U) p)
    (g := Till.step (Collect.vec U) p end_ 2 (fun lo _ => lo == 0))
    (R := fun s1 w1 s2 w2 => w1 = w2 ∧ ∃ a i k, s1 = (a, i, k, some k) ∧ s2 = (a, i, k + 1, some k))
    (Q := fun r1 r2 => (r1 >>= fun x => match x.1 with
        | .data i' _ => end_ i' x.2 >>= fun y => (match y.1 with
          | .data _ _ => .panic
          | _ => .ok (.incomplete 1, y.2))
        | .error b e => .ok (.error b e, x.2)
        | .incomplete k => .ok (.incomplete k, x.2)) = r2) rfl ?_ ⟨rfl, [], i, n, rfl, rfl⟩
  rintro _ w _ _ ⟨rfl, a, i, k, rfl, rfl⟩
  cases k with
  | zero =>
    right
    rw [loop_apply, loop_apply]
    cases he : end_ i w with
    | ok y =>
      obtain ⟨y, w1⟩ := y
      cases y <;> simp [Rep.step, Rep.final, Till.step, Till.triesAt, Till.test, he]
    | _ => simp [Rep.step, Rep.final, Till.step, Till.triesAt, Till.test, he]
  | succ k =>
    cases hp : p i w with
    | ok r =>
      obtain ⟨r, w1⟩ := r
      cases r with
      | data b v =>
        left
        exact ⟨_, w1, _, w1, by simp [Rep.step, hp, Collect.vec],
          by simp [Till.step, Till.triesAt, Till.test, hp, Collect.vec], rfl, v :: a, b, k, rfl, rfl⟩
      | error b e =>
        right; rw [loop_apply, loop_apply]; simp [Rep.step, hp, Till.step, Till.triesAt, Till.test]
      | incomplete m =>
        right; rw [loop_apply, loop_apply]
        simp [Rep.step, hp, Rep.final, Till.step, Till.triesAt, Till.test]
    | _ => right; rw [loop_apply, loop_apply]; simp [Rep.step, hp, Till.step, Till.triesAt, Till.test]

/-- An upper end of 0 is the same as one of 1. -/
theorem C27_zero_is_one (c : Collect U T) (p : Parser σ I U E) (end_ : Parser σ I V N) :
    Bounded.many (.range 0 0) c p = Bounded.many (.range 0 1) c p ∧
    Bounded.many (.to 0) c p = Bounded.many (.to 1) c p ∧
    Bounded.skipMany (.range 0 0) p = Bounded.skipMany (.range 0 1) p ∧
    Bounded.skipMany (.to 0) p = Bounded.skipMany (.to 1) p ∧
    Bounded.manyTill (.range 0 0) c p end_ = Bounded.manyTill (.range 0 1) c p end_ ∧
    Bounded.manyTill (.to 0) c p end_ = Bounded.manyTill (.to 1) c p end_ :=
  ⟨rfl, rfl, rfl, rfl, rfl, rfl⟩

/-- Unless `a > b`, `many(a..b, p)` and `skip_many(a..b, p)` do not panic by themselves. -/
theorem C27_panics_only_if (a b : Nat) (hab : a ≤ b) (p : Parser σ I U E) (i : Input I) (w : σ)
    (h : Bounded.many (.range a b) (Collect.vec U) p i w = .panic ∨
      Bounded.skipMany (.range a b) p i w = .panic) :
    ∃ us i' w', Reps p i w us i' w' ∧ p i' w' = .panic := by
  have bind_panic : ∀ {α β : Type} {x : Res α} {f : α → Res β}, (x >>= f) = .panic → (∀ a, f a ≠ .panic) →
      x = .panic := by
    intro α β x f hx hf
    cases x with
    | ok a => exact absurd hx (hf a)
    | panic => rfl
    | ub => cases hx
    | div => cases hx
  by_cases hlt : a < b
  · refine C27_not_reversed a b hlt p i w ?_
    rcases h with h | h
    · exact h
    · rw [C28_skip_many (.range a b) p hlt] at h
      exact bind_panic h nofun
  · obtain rfl : a = b := by omega
    cases a with
    | zero =>
      obtain ⟨h1, _, _, h2, _⟩ := C27_zero p i w
      rw [h1, h2] at h
      rcases h with h | h <;> cases h
    | succ n =>
      rw [C27_empty_is_count, C27_empty_skip_is_count] at h
      have : Comb.count n (Collect.vec U) p i w = .panic := by
        rcases h with h | h
        · exact bind_panic h nofun
        · exact bind_panic h nofun
      rw [C25_count n p i w _ (by simp)] at this
      cases this with
      | panic hr _ hp => exact ⟨_, _, _, hr, hp⟩

/-! ### Examples -/

/-- The second item is not read: there is no way to continue. -/
example : Bounded.many (.range 2 2) (Collect.vec Nat) Parsers.any ⟨.endOfInput, [1, 2, 3]⟩ () =
    (.ok (.incomplete 1, ()) : Res (ParseResult Nat (List Nat) (Error Nat) × Unit)) := by
  rw [C27_empty_is_count 1]
  have := (C25_count_ok (σ := Unit) 1 (Parsers.any (I := Nat)) ⟨.endOfInput, [1, 2, 3]⟩ ⟨.endOfInput, [2, 3]⟩
    () () [1]).mpr ⟨rfl, .cons rfl .nil⟩
  have e : Bounded.many (.exactly 1) (Collect.vec Nat) Parsers.any ⟨.endOfInput, [1, 2, 3]⟩ () =
    (.ok (.data ⟨.endOfInput, [2, 3]⟩ [1], ()) : Res (ParseResult Nat (List Nat) (Error Nat) × Unit)) := this
  rw [e]
  rfl

end Chomp.Props
