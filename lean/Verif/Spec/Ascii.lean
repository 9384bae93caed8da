import Verif.Model.Ascii

/-
Reading and writing numbers in base 10, and the classes of ASCII characters. Definitions only.
-/

namespace Chomp.Spec

/-- The byte of an ASCII character. -/
def byte (c : Char) : UInt8 := UInt8.ofNat c.toNat

/-- The bytes of an ASCII text. -/
def bytes (s : String) : List UInt8 := s.toList.map byte

/-- The value of a digit string. -/
def value (ds : List UInt8) : Nat := ds.foldl (fun a c => 10 * a + (c.toNat - 48)) 0

/-- `n` in base 10, by Lean's own printer. -/
def printNat (n : Nat) : List UInt8 := (Nat.toDigits 10 n).map byte

/-- `z` in base 10, with a leading '-' if negative. -/
def printInt (z : Int) : List UInt8 :=
  if z < 0 then byte '-' :: printNat z.natAbs else printNat z.natAbs

/-- What follows is no digit, or the input is over. -/
def Ends (m : Mode) (rest : List UInt8) : Prop :=
  match rest with
  | [] => m = .endOfInput
  | c :: _ => ¬ (byte '0' ≤ c ∧ c ≤ byte '9')

/-- `ds` is a maximal run of at least one digit in front of `rest`: it is followed by a character
which is no digit, or by the end of the input. -/
def DigitRun (m : Mode) (ds rest : List UInt8) : Prop :=
  ds ≠ [] ∧ (∀ c ∈ ds, byte '0' ≤ c ∧ c ≤ byte '9') ∧ Ends m rest

/-- The integer types which `decimal` accepts: anything that holds every `u8`. -/
def HoldsU8 (t : Ascii.IntTy) : Prop := if t.signed then 9 ≤ t.bits else 8 ≤ t.bits

instance (t : Ascii.IntTy) : Decidable (HoldsU8 t) := by unfold HoldsU8; infer_instance

instance (m : Mode) (rest : List UInt8) : Decidable (Ends m rest) := by
  unfold Ends; split <;> infer_instance

/-- `x` is the representative of `z` in the type `t`. -/
def Wraps (t : Ascii.IntTy) (z x : Int) : Prop :=
  t.min ≤ x ∧ x ≤ t.max ∧ ∃ k, x = z + k * 2 ^ t.bits

end Chomp.Spec
