import Verif.Model.Ascii

/-
Floating point types as targets of `decimal` and `signed`: what the bounds at /repo/src/ascii.rs lines
124, 150 and 161 (`ValueFrom<u8>`, `ValueFrom<i8>`, `Add`, `Mul`) are for `f32` and `f64`. Not code of
/repo, but the arithmetic which it is run with: IEEE 754, rounding to nearest, ties to even.

Simplified: only integral values occur. The conversions yield integers, sums and products of integers are
integers, and rounding an integer to a binary floating point number of a precision of at least 8 bits gives
an integer; so fractions and subnormal numbers are left out.
-/

namespace Chomp.Ascii

/-- A binary floating point type: `prec` bits of precision; finite values are below `2 ^ top`. -/
structure FloatTy where
  prec : Nat
  top : Nat
deriving DecidableEq, Repr

/-- `f32`. -/
def f32 : FloatTy := ⟨24, 128⟩
/-- `f64`. -/
def f64 : FloatTy := ⟨53, 1024⟩

/-- A value: the sign and the magnitude. There is a negative zero. -/
inductive Fl where
  | nan
  | inf (neg : Bool)
  | fin (neg : Bool) (mag : Nat)
deriving DecidableEq, Repr

/-- An integer rounded to `p` bits, to nearest, ties to even. -/
def roundNat (p n : Nat) : Nat :=
  if n < 2 ^ p then n
  else
    let u := 2 ^ (Nat.log2 n + 1 - p)
    let q := n / u
    let r := n % u
    if u < 2 * r ∨ (u = 2 * r ∧ q % 2 = 1) then (q + 1) * u else q * u

/-- The result of an operation with the given sign and exact magnitude: too large ones are infinite. -/
def FloatTy.norm (t : FloatTy) (neg : Bool) (n : Nat) : Fl :=
  if roundNat t.prec n < 2 ^ t.top then .fin neg (roundNat t.prec n) else .inf neg

/-- Addition. A sum of zero of numbers of different sign is positive. -/
def FloatTy.add (t : FloatTy) : Fl → Fl → Fl
  | .nan, _ => .nan
  | _, .nan => .nan
  | .inf a, .inf b => if a = b then .inf a else .nan
  | .inf a, .fin _ _ => .inf a
  | .fin _ _, .inf b => .inf b
  | .fin a x, .fin b y =>
    if a = b then t.norm a (x + y)
    else if x = y then .fin false 0
    else if y < x then t.norm a (x - y)
    else t.norm b (y - x)

/-- Multiplication. -/
def FloatTy.mul (t : FloatTy) : Fl → Fl → Fl
  | .nan, _ => .nan
  | _, .nan => .nan
  | .inf a, .inf b => .inf (a != b)
  | .inf a, .fin b y => if y = 0 then .nan else .inf (a != b)
  | .fin a x, .inf b => if x = 0 then .nan else .inf (a != b)
  | .fin a x, .fin b y => t.norm (a != b) (x * y)

/-- The type as a `Num`. Nothing panics. -/
def FloatTy.num (t : FloatTy) : Num Fl where
  fromU8 b := .fin false b.toNat
  fromI8 x := .fin (decide (x < 0)) x.natAbs
  add a b := .ok (t.add a b)
  mul a b := .ok (t.mul a b)

end Chomp.Ascii
