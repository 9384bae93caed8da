import Verif.Model.Numeric
import Verif.Spec.Ascii

/-
Calculations with a type of numbers, as programs for a calculator with a stack. Definitions only.
-/

namespace Chomp.Numeric

open Spec

/-- A key of the calculator: a number between 0 and 255, or an operation on the two numbers on top. -/
inductive Key where
  | num (n : Nat)
  | mul
  | add
deriving DecidableEq, Repr

/-- The keys for reading digits: 0, and then for each digit, times ten plus the digit. -/
def keys (ds : List UInt8) : List Key :=
  .num 0 :: ds.flatMap fun c => [.num 10, .mul, .num (c.toNat - 48), .add]

/-- Press the keys. The top of the stack is the head of the list; it is the second operand. -/
def press (N : Ops σ T) : List Key → List T → M σ (List T)
  | [], st => pure st
  | .num n :: ks, st => do
    let x ← N.fromU8 (UInt8.ofNat n)
    press N ks (x :: st)
  | .mul :: ks, b :: a :: st => do
    let x ← N.mul a b
    press N ks (x :: st)
  | .add :: ks, b :: a :: st => do
    let x ← N.add a b
    press N ks (x :: st)
  | _, _ => M.ub

/-- What a number of type `T` stands for: `R x z` says that `x` is a representation of `z`, and the operations
keep to this whenever they return. -/
structure Represents (N : Ops σ T) (R : T → Int → Prop) : Prop where
  fromU8 : ∀ b w x w', N.fromU8 b w = .ok (x, w') → R x b.toNat
  fromI8 : ∀ z w x w', N.fromI8 z w = .ok (x, w') → R x z
  add : ∀ a b y z w x w', R a y → R b z → N.add a b w = .ok (x, w') → R x (y + z)
  mul : ∀ a b y z w x w', R a y → R b z → N.mul a b w = .ok (x, w') → R x (y * z)

/-- The operations never panic. -/
structure Calm (N : Ops σ T) : Prop where
  fromU8 : ∀ b w, N.fromU8 b w ≠ .panic
  fromI8 : ∀ z w, N.fromI8 z w ≠ .panic
  add : ∀ a b w, N.add a b w ≠ .panic
  mul : ∀ a b w, N.mul a b w ≠ .panic

/-- What is left of a run of a parser after its number has been multiplied by `s`. -/
def multiplied (N : Ops σ T) (s : T) (x : Res (ParseResult UInt8 T (Error UInt8) × σ)) :
    Res (ParseResult UInt8 T (Error UInt8) × σ) :=
  match x with
  | .ok (.data i n, w) => N.mul s n w >>= fun y => .ok (.data i y.1, y.2)
  | x => x

/-- Operations without effects. -/
def ofNum (N : Ascii.Num T) : Ops σ T where
  fromU8 b := pure (N.fromU8 b)
  fromI8 x := pure (N.fromI8 x)
  add a b := M.lift (N.add a b)
  mul a b := M.lift (N.mul a b)

end Chomp.Numeric
