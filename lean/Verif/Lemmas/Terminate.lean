import Verif.Lemmas.Built

/-
Termination of the common loops.
-/

namespace Chomp

open Spec

/-- A loop whose body returns and whose measure decreases terminates. -/
theorem loop_decreases {f : S → M σ (S ⊕ R)} (μ : S → σ → Nat)
    (hstep : ∀ s w, f s w ≠ .div ∧ ∀ s' w', f s w = .ok (.inl s', w') → μ s' w' < μ s w) :
    ∀ s w, loop f s w ≠ .div := by
  have key : ∀ n s w, μ s w < n → loop f s w ≠ .div := by
    intro n
    induction n with
    | zero => intro s w h; omega
    | succ n ih =>
      intro s w h
      rw [loop_apply]
      cases hf : f s w with
      | ok x =>
        obtain ⟨x, w'⟩ := x
        cases x with
        | inl s' =>
          exact ih s' w' (by have := (hstep s w).2 s' w' hf; omega)
        | inr r => simp
      | div => exact absurd hf (hstep s w).1
      | _ => simp
  intro s w
  exact key (μ s w + 1) s w (by omega)

theorem loop_terminates {f : S → M σ (S ⊕ R)} (μ : S → Nat)
    (hstep : ∀ s w, f s w ≠ .div ∧ ∀ s' w', f s w = .ok (.inl s', w') → μ s' < μ s) :
    ∀ s w, loop f s w ≠ .div :=
  loop_decreases (fun s _ => μ s) hstep

namespace Rep

variable {p : Parser σ I U E}

theorem step_ne_div (hp : ∀ i w, p i w ≠ .div) (c : Collect U T) (s w) :
    step c p s w ≠ .div := by
  obtain ⟨acc, i, lo, hi⟩ := s
  unfold step
  dsimp only
  split
  · simp
  · match h : p i w with
    | .ok (.data b v, w1) => dsimp only [Res.bind_ok]; cases c.feed acc v <;> simp
    | .ok (.error b e, w1) => simp
    | .ok (.incomplete n, w1) => simp
    | .panic => simp
    | .ub => simp
    | .div => exact absurd h (hp i w)

theorem step_inl {c : Collect U T} {s w s' w'} (h : step c p s w = .ok (.inl s', w')) :
    s.2.2.2 ≠ some 0 ∧ s'.2.2.2 = s.2.2.2.map (· - 1) ∧
      ∃ v, p s.2.1 w = .ok (.data s'.2.1 v, w') := by
  obtain ⟨acc, i, lo, hi⟩ := s
  unfold step at h
  dsimp only at h ⊢
  split at h
  · simp at h
  · rename_i h0
    refine ⟨h0, ?_⟩
    match hr : p i w with
    | .ok (.data b v, w1) =>
      rw [hr] at h
      dsimp only [Res.bind_ok] at h
      cases hf : c.feed acc v with
      | inl a' => rw [hf] at h; cases h; exact ⟨rfl, v, rfl⟩
      | inr t => rw [hf] at h; cases h
    | .ok (.error b e, w1) => rw [hr] at h; simp at h
    | .ok (.incomplete n, w1) => rw [hr] at h; simp at h
    | .panic => rw [hr] at h; simp at h
    | .ub => rw [hr] at h; simp at h
    | .div => rw [hr] at h; simp at h

/-- Something which depends on the state, too, decreases. -/
theorem core_decreases (hp : ∀ i w, p i w ≠ .div) (c : Collect U T) (lo : Nat) (hi : Option Nat)
    (μ : Input I → σ → Nat) (h : ∀ i w i' u w', p i w = .ok (.data i' u, w') → μ i' w' < μ i w)
    (i : Input I) (w : σ) : core c p lo hi i w ≠ .div := by
  unfold core
  cases c.start with
  | inr t => simp
  | inl acc =>
    refine loop_decreases (fun s w => μ s.2.1 w) (fun s w => ?_) _ _
    refine ⟨step_ne_div hp c s w, fun s' w' hs => ?_⟩
    obtain ⟨_, _, v, hv⟩ := step_inl hs
    exact h _ _ _ _ _ hv

/-- Either `p` consumes or there is an upper limit. -/
theorem core_terminates (hp : ∀ i w, p i w ≠ .div) (c : Collect U T) (lo : Nat) (hi : Option Nat)
    (h : (∀ i w i' u w', p i w = .ok (.data i' u, w') → i'.buf.length < i.buf.length) ∨ hi ≠ none)
    (i : Input I) (w : σ) : core c p lo hi i w ≠ .div := by
  unfold core
  cases c.start with
  | inr t => simp
  | inl acc =>
    rcases h with h | h
    · refine loop_terminates (fun s => s.2.1.buf.length) ?_ _ _
      intro s w
      refine ⟨step_ne_div hp c s w, fun s' w' hs => ?_⟩
      obtain ⟨_, _, v, hv⟩ := step_inl hs
      exact h _ _ _ _ _ hv
    · obtain ⟨n, rfl⟩ := Option.ne_none_iff_exists'.mp h
      dsimp only
      have key : ∀ n s w, s.2.2.2 = some n → loop (step c p) s w ≠ .div := by
        intro n
        induction n with
        | zero =>
          intro s w hs
          rw [loop_apply]
          cases hf : step c p s w with
          | ok x =>
            obtain ⟨x, w'⟩ := x
            cases x with
            | inl s' => exact absurd hs (step_inl hf).1
            | inr r => simp
          | div => exact absurd hf (step_ne_div hp c s w)
          | _ => simp
        | succ n ih =>
          intro s w hs
          rw [loop_apply]
          cases hf : step c p s w with
          | ok x =>
            obtain ⟨x, w'⟩ := x
            cases x with
            | inl s' => exact ih s' w' (by rw [(step_inl hf).2.1, hs]; rfl)
            | inr r => simp
          | div => exact absurd hf (step_ne_div hp c s w)
          | _ => simp
      exact key n _ _ rfl

theorem skip_terminates (hp : ∀ i w, p i w ≠ .div) (z : Bool) (lo hi : Nat) (i : Input I) (w : σ) :
    loop (skipStep z p) (i, lo, hi) w ≠ .div := by
  refine loop_terminates (fun s => s.2.2) ?_ _ _
  rintro ⟨i, lo, hi⟩ w
  unfold skipStep
  dsimp only
  split
  · simp
  · rename_i h0
    match h : p i w with
    | .ok (.data b v, w1) =>
      refine ⟨by simp, fun s' w' hs => ?_⟩
      cases hs
      dsimp only
      omega
    | .ok (.error b e, w1) => simp
    | .ok (.incomplete n, w1) => simp
    | .panic => simp
    | .ub => simp
    | .div => exact absurd h (hp i w)

end Rep

namespace Till

variable {p : Parser σ I U E} {e : Parser σ I V N}

theorem test_ne_div (he : ∀ i w, e i w ≠ .div) (i : Input I) : ∀ n w, test e n i w ≠ .div := by
  intro n
  induction n with
  | zero => intro w; simp [test]
  | succ n ih =>
    intro w
    unfold test
    match h : e i w with
    | .ok (.data b v, w1) => simp
    | .ok (.error b e, w1) => exact ih w1
    | .ok (.incomplete n, w1) => exact ih w1
    | .panic => simp
    | .ub => simp
    | .div => exact absurd h (he i w)

theorem step_ne_div (hp : ∀ i w, p i w ≠ .div) (he : ∀ i w, e i w ≠ .div) (c : Collect U T)
    (last good s w) : step c p e last good s w ≠ .div := by
  obtain ⟨acc, i, lo, hi⟩ := s
  unfold step
  dsimp only
  match h : test e (triesAt last lo hi) i w with
  | .ok (some j, w0) => simp only [Res.bind_ok]; split <;> simp
  | .ok (none, w0) =>
    simp only [Res.bind_ok]
    split
    · simp
    · match h : p i w0 with
      | .ok (.data b v, w1) => dsimp only [Res.bind_ok]; cases c.feed acc v <;> simp
      | .ok (.error b e, w1) => simp
      | .ok (.incomplete n, w1) => simp
      | .panic => simp
      | .ub => simp
      | .div => exact absurd h (hp i w0)
  | .panic => simp
  | .ub => simp
  | .div => exact absurd h (test_ne_div he _ _ _)

theorem step_inl {c : Collect U T} {last good s w s' w'}
    (h : step c p e last good s w = .ok (.inl s', w')) :
    s.2.2.2 ≠ some 0 ∧ s'.2.2.2 = s.2.2.2.map (· - 1) ∧
      ∃ v w0, p s.2.1 w0 = .ok (.data s'.2.1 v, w') := by
  obtain ⟨acc, i, lo, hi⟩ := s
  unfold step at h
  dsimp only at h ⊢
  match ht : test e (triesAt last lo hi) i w with
  | .ok (some j, w0) =>
    rw [ht] at h
    simp only [Res.bind_ok] at h
    split at h <;> simp at h
  | .ok (none, w0) =>
    rw [ht] at h
    simp only [Res.bind_ok] at h
    split at h
    · simp at h
    · rename_i h0
      refine ⟨h0, ?_⟩
      match hr : p i w0 with
      | .ok (.data b v, w1) =>
        rw [hr] at h
        dsimp only [Res.bind_ok] at h
        cases hf : c.feed acc v with
        | inl a' => rw [hf] at h; cases h; exact ⟨rfl, v, w0, hr⟩
        | inr t => rw [hf] at h; cases h
      | .ok (.error b e, w1) => rw [hr] at h; simp at h
      | .ok (.incomplete n, w1) => rw [hr] at h; simp at h
      | .panic => rw [hr] at h; simp at h
      | .ub => rw [hr] at h; simp at h
      | .div => rw [hr] at h; simp at h
  | .panic => rw [ht] at h; simp at h
  | .ub => rw [ht] at h; simp at h
  | .div => rw [ht] at h; simp at h

theorem core_terminates (hp : ∀ i w, p i w ≠ .div) (he : ∀ i w, e i w ≠ .div) (c : Collect U T)
    (last good) (lo : Nat) (hi : Option Nat)
    (h : (∀ i w i' u w', p i w = .ok (.data i' u, w') → i'.buf.length < i.buf.length) ∨ hi ≠ none)
    (i : Input I) (w : σ) : core c p e last good lo hi i w ≠ .div := by
  unfold core
  cases c.start with
  | inr t => simp
  | inl acc =>
    rcases h with h | h
    · refine loop_terminates (fun s => s.2.1.buf.length) ?_ _ _
      intro s w
      refine ⟨step_ne_div hp he c last good s w, fun s' w' hs => ?_⟩
      obtain ⟨_, _, v, w0, hv⟩ := step_inl hs
      exact h _ _ _ _ _ hv
    · obtain ⟨n, rfl⟩ := Option.ne_none_iff_exists'.mp h
      dsimp only
      have key : ∀ n s w, s.2.2.2 = some n → loop (step c p e last good) s w ≠ .div := by
        intro n
        induction n with
        | zero =>
          intro s w hs
          rw [loop_apply]
          cases hf : step c p e last good s w with
          | ok x =>
            obtain ⟨x, w'⟩ := x
            cases x with
            | inl s' => exact absurd hs (step_inl hf).1
            | inr r => simp
          | div => exact absurd hf (step_ne_div hp he c last good s w)
          | _ => simp
        | succ n ih =>
          intro s w hs
          rw [loop_apply]
          cases hf : step c p e last good s w with
          | ok x =>
            obtain ⟨x, w'⟩ := x
            cases x with
            | inl s' => exact ih s' w' (by rw [(step_inl hf).2.1, hs]; rfl)
            | inr r => simp
          | div => exact absurd hf (step_ne_div hp he c last good s w)
          | _ => simp
      exact key n _ _ rfl

end Till

end Chomp
