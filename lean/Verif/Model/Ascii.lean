import Verif.Model.Combinators

/-
Model of /repo/src/ascii.rs. Bytes are `UInt8`.
-/

namespace Chomp.Ascii

/-- `is_lowercase`, src/ascii.rs:14-16. -/
def isLowercase (c : UInt8) : Bool := 97 ≤ c && c ≤ 122
/-- `is_uppercase`, src/ascii.rs:20-22. -/
def isUppercase (c : UInt8) : Bool := 65 ≤ c && c ≤ 90
/-- `is_whitespace`, src/ascii.rs:35-37. -/
def isWhitespace (c : UInt8) : Bool := (9 ≤ c && c ≤ 13) || c == 32
/-- `is_horizontal_space`, src/ascii.rs:41-43. -/
def isHorizontalSpace (c : UInt8) : Bool := c == 9 || c == 32
/-- `is_end_of_line`, src/ascii.rs:47-49. -/
def isEndOfLine (c : UInt8) : Bool := c == 10 || c == 13
/-- `is_digit`, src/ascii.rs:53-55. -/
def isDigit (c : UInt8) : Bool := 48 ≤ c && c ≤ 57
/-- `is_alpha`, src/ascii.rs:59-61. -/
def isAlpha (c : UInt8) : Bool := isLowercase c || isUppercase c
/-- `is_alphanumeric`, src/ascii.rs:65-67. -/
def isAlphanumeric (c : UInt8) : Bool := isAlpha c || isDigit c

/-- `skip_whitespace`, src/ascii.rs:82-84. -/
def skipWhitespace : Parser σ UInt8 Unit (Error UInt8) :=
  (Parsers.takeWhile isWhitespace).map (fun _ => ())

/-- `digit`, src/ascii.rs:101-103. -/
def digit (v : Bool) : Parser σ UInt8 UInt8 (Error UInt8) := Parsers.satisfy v isDigit

/-- The operations `decimal` and `signed` need of the number type `T`: `ValueFrom<u8>`,
`ValueFrom<i8>`, `Add`, `Mul` (src/ascii.rs:124, 150, 161). Addition and multiplication may panic. -/
structure Num (T : Type) where
  fromU8 : UInt8 → T
  fromI8 : Int → T
  add : T → T → Res T
  mul : T → T → Res T

/-- A primitive integer type: `bits` wide, signed or not, with or without overflow checks. -/
structure IntTy where
  bits : Nat
  signed : Bool
  checked : Bool
deriving DecidableEq, Repr

/-- smallest value -/
def IntTy.min (t : IntTy) : Int := if t.signed then -(2 ^ (t.bits - 1)) else 0
/-- largest value -/
def IntTy.max (t : IntTy) : Int := if t.signed then 2 ^ (t.bits - 1) - 1 else 2 ^ t.bits - 1

/-- The result of an arithmetic operation with exact result `x`: itself if it fits, otherwise a
panic (overflow checks) or the representative modulo `2^bits`. -/
def IntTy.norm (t : IntTy) (x : Int) : Res Int :=
  if t.min ≤ x ∧ x ≤ t.max then .ok x
  else if t.checked then .panic
  else .ok ((x - t.min) % 2 ^ t.bits + t.min)

/-- Rust's primitive integers as a `Num`. -/
def IntTy.num (t : IntTy) : Num Int where
  fromU8 b := b.toNat
  fromI8 x := x
  add a b := t.norm (a + b)
  mul a b := t.norm (a * b)

/-- `n - b'0'` on `u8`; `to_decimal` is only called on digits (src/ascii.rs:158), where it cannot
overflow; otherwise it panics in a checked build. -/
def digitValue (n : UInt8) : Res UInt8 := if 48 ≤ n then .ok (n - 48) else .panic

/-- `to_decimal`, src/ascii.rs:161-163. -/
def toDecimal (N : Num T) (buf : List UInt8) : Res T :=
  buf.foldlM (fun a n => do
    let x ← N.mul a (N.fromU8 10)
    let d ← digitValue n
    N.add x (N.fromU8 d)) (N.fromU8 0)

/-- `decimal`, src/ascii.rs:150-152. -/
def decimal (v : Bool) (N : Num T) : Parser σ UInt8 T (Error UInt8) :=
  (Parsers.takeWhile1 v isDigit).bind id
    (fun buf i => do
      let x ← M.lift (toDecimal N buf)
      pure (i.ret x))

/-- `signed`, src/ascii.rs:123-131. -/
def signed (v : Bool) (N : Num T) (f : Parser σ UInt8 T (Error UInt8)) :
    Parser σ UInt8 T (Error UInt8) := fun i => do
  let r ← Comb.option
    ((Parsers.satisfy v (fun c => c == 45 || c == 43)).map
      (fun s => N.fromI8 (if s == 43 then 1 else -1)))
    (N.fromI8 1) i
  r.bind id (fun i sign => do
    let q ← f i
    q.map (fun num => M.lift (N.mul sign num)))

end Chomp.Ascii
