/-
Outcomes of running Rust code, the state monad over them, and the generic loop.

Nothing in this file corresponds to a particular function of /repo; it fixes the meaning of
"panics", "undefined behaviour", "does not terminate" and of Rust's `loop`.
-/

namespace Chomp

/-- Outcome of running a piece of Rust code.
`ok a`  : it returned `a`;
`panic` : it panicked (`panic!`, `assert!`, `unreachable!`, slice index, checked arithmetic);
`ub`    : it executed undefined behaviour (only possible in the `unsafe` parts of buffer.rs);
`div`   : it runs for ever. -/
inductive Res (α : Type) where
  | ok (a : α)
  | panic
  | ub
  | div
deriving DecidableEq, Repr

namespace Res

/-- Sequencing: everything but `ok` ends the run. -/
def bind (x : Res α) (f : α → Res β) : Res β :=
  match x with
  | ok a => f a
  | panic => panic
  | ub => ub
  | div => div

instance : Monad Res where
  pure := ok
  bind := bind

instance : LawfulMonad Res := LawfulMonad.mk'
  (id_map := by intro α x; cases x <;> rfl)
  (pure_bind := by intros; rfl)
  (bind_assoc := by intro α β γ x f g; cases x <;> rfl)

open Lean.Order in
/-- `div` is the bottom element: the meaning of a loop is the least fixed point. -/
noncomputable instance : CCPO (Res α) :=
  inferInstanceAs (CCPO (FlatOrder (Res.div : Res α)))

open Lean.Order in
noncomputable instance : MonoBind Res where
  bind_mono_left := by
    intro α β a b f h
    cases h with
    | bot => exact FlatOrder.rel.bot
    | refl => exact FlatOrder.rel.refl
  bind_mono_right := by
    intro α β a f g h
    cases a with
    | ok a => exact h a
    | _ => exact FlatOrder.rel.refl

end Res

/-- Computations which may read and write `σ`, the state captured by the user's closures
(`FnMut` captures, `Cell`s and so on). -/
abbrev M (σ : Type) := StateT σ Res

/-- `panic!()` -/
def M.panic : M σ α := fun _ => Res.panic

/-- Undefined behaviour. -/
def M.ub : M σ α := fun _ => Res.ub

/-- Run a computation without captured state inside one that has it. -/
def M.lift (x : Res α) : M σ α := fun w =>
  match x with
  | .ok a => .ok (a, w)
  | .panic => .panic
  | .ub => .ub
  | .div => .div

/-- Rust's `loop { ... }` with loop-carried variables `s`; the body either continues with new
values (`inl`) or breaks with a result (`inr`). -/
def loop {σ S R : Type} (step : S → M σ (S ⊕ R)) (s : S) : M σ R := do
  match ← step s with
  | .inl s' => loop step s'
  | .inr r => pure r
partial_fixpoint

/-- Checked `usize` bounds (64 bit target). -/
def usizeMax : Nat := 2 ^ 64 - 1

/-- The profile the crate is built with: with overflow checks (debug) or without (release). -/
class Build where
  checked : Bool

namespace Build

/-- The debug profile. It is meant wherever no build is mentioned; C81 is about the other one. -/
instance debug : Build := ⟨true⟩

/-- The release profile. -/
abbrev release : Build := ⟨false⟩

end Build

/-- `a - b` on `usize`. -/
def usub [Build] (a b : Nat) : Res Nat :=
  if b ≤ a then .ok (a - b)
  else if Build.checked then .panic else .ok ((a + 2 ^ 64 - b) % 2 ^ 64)

end Chomp
