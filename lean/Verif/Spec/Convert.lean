import Verif.Model.Convert
import Verif.Spec.SepBy

/-
Small specification for C115: implementations of `From` with effects.
-/

namespace Chomp.Spec

/-- A separator, then an item. `conv` converts the error of the separator: it is called after the separator has failed,
and whatever it does happens there. -/
def sepThenFrom (conv : N → M σ E) (p : Parser σ I U E) (sep : Parser σ I V N) : Parser σ I U E :=
  fun i w => match sep i w with
    | .ok (.data i1 _, w1) => p i1 w1
    | .ok (.error b e, w1) => conv e w1 >>= fun x => .ok (.error b x.1, x.2)
    | .ok (.incomplete n, w1) => .ok (.incomplete n, w1)
    | .panic => .panic
    | .ub => .ub
    | .div => .div

/-- A parser which knows nothing of a counter besides its state. -/
def apart (p : Parser σ I T E) : Parser (σ × Nat) I T E := fun i w => match p i w.1 with
  | .ok (r, w') => .ok (r, (w', w.2))
  | .panic => .panic
  | .ub => .ub
  | .div => .div

/-- An implementation of `From` whose calls are counted. -/
def counted (conv : E → M σ V) : E → M (σ × Nat) V := fun e w => match conv e w.1 with
  | .ok (r, w') => .ok (r, (w', w.2 + 1))
  | .panic => .panic
  | .ub => .ub
  | .div => .div

end Chomp.Spec
