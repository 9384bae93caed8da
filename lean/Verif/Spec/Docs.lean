import Verif.Model.Docs
import Verif.Spec.Ascii

/-
What the parsers in the documentation are about. Definitions only.
-/

namespace Chomp.Spec.Docs

open Chomp.Docs

/-- At least one digit. -/
def Digits (ds : List UInt8) : Prop := ds ≠ [] ∧ ∀ c ∈ ds, byte '0' ≤ c ∧ c ≤ byte '9'

/-- `ds` stands for the byte `x`. In a release build (`chk = false`) only the remainder modulo 256 is
kept. -/
def Octet (chk : Bool) (ds : List UInt8) (x : Int) : Prop :=
  Digits ds ∧ if chk then value ds ≤ 255 ∧ x = value ds else x = value ds % 256

instance (ds : List UInt8) : Decidable (Digits ds) := by unfold Digits; infer_instance

instance (chk : Bool) (ds : List UInt8) (x : Int) : Decidable (Octet chk ds x) := by
  unfold Octet; infer_instance

/-- The texts of the levels. -/
def text : Log → List UInt8
  | .error => bytes "ERROR"
  | .warning => bytes "WARN"
  | .info => bytes "INFO"
  | .debug => bytes "DEBUG"

end Chomp.Spec.Docs
