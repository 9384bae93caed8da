import Verif.Spec.Safe
import Verif.Spec.Patient

/-
How much memory a `Source` takes. Definitions only.
-/

namespace Chomp.Spec

variable {S B I T E : Type} [DataSource S I] [Buffer B I] [LawfulBuffer B I]

/-- What is asked for by a call on `s` is at most `R` items in total: a slice to read into is no larger, and
if the parser asks for more, then what it has been given and what it asks for together are no more. Besides,
`consume` is called with no more than there is, and what a parser leaves is no longer than what it has been
given. -/
def SourceCall.Modest (chk : Bool) (R : Nat) (s : Source S B) (w : σ) : SourceCall σ I → Prop
  | .parse p => ∀ r w', p ⟨modeOf (autofilled chk s), held (autofilled chk s)⟩ w = .ok (r, w') →
    match r with
    | .data i _ => i.buf.length ≤ (held (autofilled chk s)).length
    | .error b _ => b.length ≤ (held (autofilled chk s)).length
    | .incomplete n => (held (autofilled chk s)).length + n ≤ R
  | .read k => k ≤ R
  | .consume n => n ≤ (held s).length
  | _ => True

/-- All of the calls are like this, each in the state in which it is made. -/
def Modest (chk : Bool) (R : Nat) : List (SourceCall σ I) → Source S B → σ → Prop
  | [], _, _ => True
  | c :: cs, s, w => c.Modest chk R s w ∧ ∀ s' w', c.run chk s w = .ok (s', w') → Modest chk R cs s' w'

/-- The states in the course of `patient`: `p` is called again and again, as long as it returns a value,
`Retry` or an I/O error. -/
inductive Session (chk : Bool) (p : Parser Unit I T E) (s : Source S B) : Source S B → Prop
  | start : Session chk p s s
  | value {s1 s2 t} : Session chk p s s1 → s1.parse chk p () = .ok ((.ok t, s2), ()) → Session chk p s s2
  | retry {s1 s2} : Session chk p s s1 → s1.parse chk p () = .ok ((.error .retry, s2), ()) →
      Session chk p s s2
  | ioError {s1 s2 e} : Session chk p s s1 → s1.parse chk p () = .ok ((.error (.ioError e), s2), ()) →
      Session chk p s s2

/-- Wherever `p` begins to read a value in this data, it asks for no more than `R` items in total. -/
def Within (R : Nat) (p : Parser Unit I T E) (data : List I) : Prop :=
  ∀ xs rest x y n, Values p data xs rest → rest = x ++ y → p ⟨.default, x⟩ () = .ok (.incomplete n, ()) →
    x.length + n ≤ R

end Chomp.Spec
