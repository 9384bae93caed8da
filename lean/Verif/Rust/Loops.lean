import Verif.Rust.Lemmas
import Verif.Lemmas.Adapters

/-
Lemmas about loops in the interpreter and in the model.
-/

namespace Chomp.Rust

open Spec

variable {σ X Y : Type}

/-- Both do the same to the state of the closures, with results related by `P`, or both panic, or neither returns. -/
def Both (P : A → B → Prop) (x : M σ A) (y : M σ B) : Prop :=
  ∀ w, Outcomes (fun a b => P a.1 b.1 ∧ a.2 = b.2) (x w) (y w)

theorem Both.pure {P : A → B → Prop} {a : A} {b : B} (h : P a b) : Both (σ := σ) P (pure a) (pure b) :=
  fun _ => ⟨h, rfl⟩

theorem Both.panic {P : A → B → Prop} : Both (σ := σ) P M.panic M.panic := fun _ => True.intro

theorem Both.bind {P : A → B → Prop} (x : M σ C) {f : C → M σ A} {g : C → M σ B} (h : ∀ c, Both P (f c) (g c)) :
    Both P (x >>= f) (x >>= g) := by
  intro w
  show Outcomes _ (Res.bind (x w) _) (Res.bind (x w) _)
  cases x w with
  | ok a => exact h a.1 a.2
  | _ => exact True.intro

/-- How a loop is left. -/
def leave (e : Stop X Y) (st : List (Val X Y)) : Except (Stop X Y) (Val X Y) × List (Val X Y) :=
  match e with
  | .brk => (.ok .unit, st)
  | .ret v => (.error (.ret v), st)

@[simp] theorem leave_brk (st : List (Val X Y)) : leave .brk st = (.ok .unit, st) := rfl
@[simp] theorem leave_ret (v : Val X Y) (st : List (Val X Y)) : leave (.ret v) st = (.error (.ret v), st) := rfl

/-- One turn of a loop: the cells after it, or how it was left, after which `k` makes of it what `fin` says. -/
def Turn (cells : S → List (Val X Y)) (k : Except (Stop X Y) (Val X Y) × List (Val X Y) → M σ α) (fin : R → α)
    (x : Except (Stop X Y) (Val X Y) × List (Val X Y)) (y : S ⊕ R) : Prop :=
  match y with
  | .inl s => ∃ v, x = (.ok v, cells s)
  | .inr r => ∃ e st, x = (.error e, st) ∧ k (leave e st) = Pure.pure (fin r)

section
variable {cells : S → List (Val X Y)} {k : Except (Stop X Y) (Val X Y) × List (Val X Y) → M σ α} {fin : R → α}

theorem Turn.go (v : Val X Y) {s : S} {st : List (Val X Y)} (h : st = cells s) :
    Both (σ := σ) (Turn cells k fin) (Pure.pure (.ok v, st)) (Pure.pure (.inl s)) := Both.pure ⟨v, by rw [h]⟩

theorem Turn.brk {st : List (Val X Y)} {r : R} (h : k (.ok .unit, st) = Pure.pure (fin r)) :
    Both (σ := σ) (Turn cells k fin) (Pure.pure (.error .brk, st)) (Pure.pure (.inr r)) := Both.pure ⟨_, _, rfl, h⟩

theorem Turn.ret {v : Val X Y} {st : List (Val X Y)} {r : R} (h : k (.error (.ret v), st) = Pure.pure (fin r)) :
    Both (σ := σ) (Turn cells k fin) (Pure.pure (.error (.ret v), st)) (Pure.pure (.inr r)) := Both.pure ⟨_, _, rfl, h⟩

end

theorem at_iterate (body : RM σ X Y (Val X Y)) (step : S → M σ (S ⊕ R)) (cells : S → List (Val X Y))
    (k : Except (Stop X Y) (Val X Y) × List (Val X Y) → M σ α) (fin : R → α)
    (h : ∀ s, Both (Turn cells k fin) (at_ body (cells s)) (step s)) (s : S) :
    at_ (iterate body) (cells s) >>= k = (do let r ← loop step s; pure (fin r)) := by
  funext w
  have hl : Outcomes (fun (a : (Except (Stop X Y) (Val X Y) × List (Val X Y)) × σ) (b : R × σ) =>
      k a.1 = Pure.pure (fin b.1) ∧ a.2 = b.2) (at_ (iterate body) (cells s) w) (loop step s w) := by
    refine loop_sim (fun st w1 s w2 => st = cells s ∧ w1 = w2) (Outcomes _) True.intro (fun st w1 s w2 hR => ?_)
      ⟨rfl, rfl⟩
    obtain ⟨rfl, rfl⟩ := hR
    have hs := h s w1
    rw [loop_apply, loop_apply]
    have he : ∀ p, at_ body (cells s) w1 = .ok p →
        (do let r ← ExceptT.run body (cells s); Pure.pure (turned r) : M σ _) w1 = .ok (turned p.1, p.2) := by
      intro p hp
      show Res.bind (at_ body (cells s) w1) _ = _
      rw [hp]
      rfl
    change _ ∨ Outcomes _ (Res.bind (Res.bind (at_ body (cells s) w1) _) _) (Res.bind (step s w1) _)
    match hb : at_ body (cells s) w1, hg : step s w1, hs with
    | .ok (x, u), .ok (.inl s', u'), hs =>
      obtain ⟨⟨v, rfl⟩, rfl⟩ := hs
      exact .inl ⟨_, _, _, _, he _ hb, rfl, rfl, rfl⟩
    | .ok (x, u), .ok (.inr r, u'), hs =>
      obtain ⟨⟨e, st, rfl, hk⟩, rfl⟩ := hs
      refine .inr ?_
      cases e <;> exact ⟨hk, rfl⟩
    | .panic, .panic, _ => exact .inr True.intro
    | .ub, .ub, _ => exact .inr True.intro
    | .div, .div, _ => exact .inr True.intro
  show Res.bind (at_ (iterate body) (cells s) w) _ = Res.bind (loop step s w) _
  match at_ (iterate body) (cells s) w, loop step s w, hl with
  | .ok (a, u), .ok (b, u'), hl =>
    obtain ⟨h1, rfl⟩ := hl
    exact congrFun h1 u
  | .panic, .panic, _ => rfl
  | .ub, .ub, _ => rfl
  | .div, .div, _ => rfl

end Chomp.Rust
