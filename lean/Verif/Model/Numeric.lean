import Verif.Model.Closures
import Verif.Model.Ascii

/-
The functions of /repo/src/ascii.rs which read numbers, for any type of numbers: its operations may have
effects, panic, or not return. Verif/Model/Ascii.lean has the same functions for operations without effects;
C118 shows how they are related.
-/

namespace Chomp.Numeric

open Ascii

/-- The operations which `decimal` and `signed` need of the type `T`: `ValueFrom<u8>` and `ValueFrom<i8>`
with `unwrap_ok`, `Add`, `Mul` (src/ascii.rs:124, 150, 161). The errors of `ValueFrom` are of the type
`NoError`, which has no values, so `unwrap_ok` returns what `value_from` did. -/
structure Ops (σ T : Type) where
  fromU8 : UInt8 → M σ T
  fromI8 : Int → M σ T
  add : T → T → M σ T
  mul : T → T → M σ T

/-- `to_decimal`, src/ascii.rs:161-163. Operands are evaluated from left to right, and the converted 10
anew for each digit. -/
def toDecimal (N : Ops σ T) (buf : List UInt8) : M σ T := do
  let zero ← N.fromU8 0
  buf.foldlM (fun a n => do
    let ten ← N.fromU8 10
    let x ← N.mul a ten
    let d ← M.lift (digitValue n)
    let y ← N.fromU8 d
    N.add x y) zero

/-- `decimal`, src/ascii.rs:150-152. -/
def decimal (v : Bool) (N : Ops σ T) : Parser σ UInt8 T (Error UInt8) :=
  (Parsers.takeWhile1 v isDigit).bind id
    (fun buf i => do
      let x ← toDecimal N buf
      pure (i.ret x))

/-- `signed`, src/ascii.rs:123-131. The arguments of `option` are evaluated before it is called, so that the
1 is converted before there is any input. -/
def signed (v : Bool) (N : Ops σ T) (f : Parser σ UInt8 T (Error UInt8)) :
    Parser σ UInt8 T (Error UInt8) := fun i => do
  let one ← N.fromI8 1
  let r ← Comb.option
    (Closures.map (Parsers.satisfy v (fun c => c == 45 || c == 43))
      (fun s => N.fromI8 (if s == 43 then 1 else -1)))
    one i
  r.bind id (fun i sign => do
    let q ← f i
    q.map (fun num => N.mul sign num))

end Chomp.Numeric
