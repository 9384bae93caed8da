import Verif.Model.Float
import Verif.Spec.Ascii

/-
Floating point numbers. Definitions only.
-/

namespace Chomp.Spec

open Ascii

/-- The distance of two numbers. -/
def dist (a b : Nat) : Nat := (a - b) + (b - a)

/-- The integers which have at most `p` significant bits. -/
def Representable (p n : Nat) : Prop := ∃ m e, m < 2 ^ p ∧ n = m * 2 ^ e

/-- `x` is the floating point number which IEEE 754 takes for the integer `n`: no other is nearer, and if
another is as near, the last of the `p` bits of `x` is zero. -/
structure Nearest (p n x : Nat) : Prop where
  representable : Representable p x
  nearest : ∀ y, Representable p y → dist x n ≤ dist y n
  even : ∀ y, Representable p y → y ≠ x → dist y n = dist x n → Representable (p - 1) x

/-- The value of the type for a number `x` of its precision, which is infinite if `x` is too large. -/
def Capped (t : FloatTy) (neg : Bool) (x : Nat) : Fl :=
  if x < 2 ^ t.top then .fin neg x else .inf neg

/-- The same with the other sign. -/
def negate : Fl → Fl
  | .nan => .nan
  | .inf a => .inf (!a)
  | .fin a x => .fin (!a) x

end Chomp.Spec
