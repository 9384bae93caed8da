import Verif.Model.Res

namespace Chomp

@[simp] theorem Res.bind_ok (a : α) (f : α → Res β) : (Res.ok a >>= f) = f a := rfl
@[simp] theorem Res.bind_panic (f : α → Res β) : (Res.panic >>= f) = Res.panic := rfl
@[simp] theorem Res.bind_ub (f : α → Res β) : (Res.ub >>= f) = Res.ub := rfl
@[simp] theorem Res.bind_div (f : α → Res β) : (Res.div >>= f) = Res.div := rfl
@[simp] theorem Res.pure_eq (a : α) : (pure a : Res α) = Res.ok a := rfl

theorem M.bind_apply (x : M σ α) (f : α → M σ β) (w : σ) :
    (x >>= f) w = (x w >>= fun p => f p.1 p.2) := rfl

theorem M.map_apply (f : α → β) (x : M σ α) (w : σ) :
    (f <$> x) w = (x w >>= fun p => .ok (f p.1, p.2)) := rfl

@[simp] theorem M.pure_apply (a : α) (w : σ) : (pure a : M σ α) w = Res.ok (a, w) := rfl

theorem M.bind_ok {x : M σ α} {f : α → M σ β} {w w' : σ} {a : α} (h : x w = .ok (a, w')) :
    (x >>= f) w = f a w' := by
  rw [M.bind_apply, h]; rfl

theorem M.bind_eq_ok {x : M σ α} {f : α → M σ β} {w w'' : σ} {b : β} :
    (x >>= f) w = .ok (b, w'') ↔ ∃ a w', x w = .ok (a, w') ∧ f a w' = .ok (b, w'') := by
  rw [M.bind_apply]
  cases h : x w with
  | ok p =>
    obtain ⟨a, w'⟩ := p
    constructor
    · intro hf; exact ⟨a, w', rfl, hf⟩
    · rintro ⟨a', w1, h1, h2⟩; cases h1; exact h2
  | _ => simp

@[simp] theorem M.panic_apply (w : σ) : (M.panic : M σ α) w = .panic := rfl
@[simp] theorem M.ub_apply (w : σ) : (M.ub : M σ α) w = .ub := rfl

@[simp] theorem M.lift_ok (a : α) (w : σ) : (M.lift (.ok a) : M σ α) w = .ok (a, w) := rfl
@[simp] theorem M.lift_panic (w : σ) : (M.lift (.panic) : M σ α) w = .panic := rfl
@[simp] theorem M.lift_ub (w : σ) : (M.lift (.ub) : M σ α) w = .ub := rfl
@[simp] theorem M.lift_div (w : σ) : (M.lift (.div) : M σ α) w = .div := rfl

theorem M.ext {x y : M σ α} (h : ∀ w, x w = y w) : x = y := funext h

/-- One unfolding of `loop`. -/
theorem loop_apply (step : S → M σ (S ⊕ R)) (s : S) (w : σ) :
    loop step s w = (step s w >>= fun p =>
      match p.1 with
      | .inl s' => loop step s' p.2
      | .inr r => .ok (r, p.2)) := by
  rw [loop, M.bind_apply]
  congr 1
  funext p
  obtain ⟨a, w'⟩ := p
  cases a <;> rfl

/-- Terminating runs of a loop (normal or abnormal). -/
inductive LoopRun (step : S → M σ (S ⊕ R)) : S → σ → Res (R × σ) → Prop
  | brk {s w r w'} : step s w = .ok (.inr r, w') → LoopRun step s w (.ok (r, w'))
  | panic {s w} : step s w = .panic → LoopRun step s w .panic
  | ub {s w} : step s w = .ub → LoopRun step s w .ub
  | cont {s w s' w' o} : step s w = .ok (.inl s', w') → LoopRun step s' w' o → LoopRun step s w o

theorem LoopRun.loop_eq {step : S → M σ (S ⊕ R)} {s w o} (h : LoopRun step s w o) :
    loop step s w = o := by
  induction h with
  | brk h => rw [loop_apply, h]; rfl
  | panic h => rw [loop_apply, h]; rfl
  | ub h => rw [loop_apply, h]; rfl
  | cont h _ ih => rw [loop_apply, h]; exact ih

theorem LoopRun.ne_div {step : S → M σ (S ⊕ R)} {s w o} (h : LoopRun step s w o) : o ≠ .div := by
  induction h <;> simp_all

open Lean.Order in
theorem loop_run {step : S → M σ (S ⊕ R)} :
    ∀ s w, loop step s w ≠ .div → LoopRun step s w (loop step s w) := by
  apply loop.fixpoint_induct step (motive := fun f => ∀ s w, f s w ≠ .div → LoopRun step s w (f s w))
  · refine admissible_pi_apply (fun s (x : M σ R) => ∀ w, x w ≠ .div → LoopRun step s w (x w)) ?_
    intro s
    refine admissible_pi_apply (fun w (x : Res (R × σ)) => x ≠ .div → LoopRun step s w x) ?_
    intro w
    exact admissible_flatOrder (b := (Res.div : Res (R × σ))) _ (by intro h; exact absurd rfl h)
  · intro f ih s w h
    dsimp only at h ⊢
    rw [M.bind_apply] at h ⊢
    cases hs : step s w with
    | ok p =>
      obtain ⟨a, w'⟩ := p
      rw [hs] at h
      cases a with
      | inl s' => exact .cont hs (ih s' w' h)
      | inr r => exact .brk hs
    | panic => exact .panic hs
    | ub => exact .ub hs
    | div => rw [hs] at h; exact absurd rfl h

/-- The loop returns `o` iff there is a terminating run with outcome `o`. -/
theorem loop_eq_iff {step : S → M σ (S ⊕ R)} {s w o} (ho : o ≠ .div) :
    loop step s w = o ↔ LoopRun step s w o :=
  ⟨fun h => h ▸ loop_run s w (h ▸ ho), LoopRun.loop_eq⟩

theorem loop_eq_ok {step : S → M σ (S ⊕ R)} {s w r w'} :
    loop step s w = .ok (r, w') ↔ LoopRun step s w (.ok (r, w')) :=
  loop_eq_iff (by simp)

theorem loop_eq_panic {step : S → M σ (S ⊕ R)} {s w} :
    loop step s w = .panic ↔ LoopRun step s w .panic :=
  loop_eq_iff (by simp)

theorem loop_eq_ub {step : S → M σ (S ⊕ R)} {s w} :
    loop step s w = .ub ↔ LoopRun step s w .ub :=
  loop_eq_iff (by simp)

/-- Mapping the outcome of a run. -/
def Res.mapVal (f : α → β) : Res (α × σ) → Res (β × σ)
  | .ok (a, w) => .ok (f a, w)
  | .panic => .panic
  | .ub => .ub
  | .div => .div

end Chomp
