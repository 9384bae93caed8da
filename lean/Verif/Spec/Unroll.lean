import Verif.Model.Basic

namespace Chomp.Spec

/-- Whether this is the end of the input does not change by parsing. -/
def KeepsMode (p : Parser σ I T E) : Prop :=
  ∀ i w i' t w', p i w = .ok (.data i' t, w') → i'.mode = i.mode

/-- On a slice which is not the last one, there is always a verdict. -/
def Decides (p : Parser σ I T E) : Prop :=
  ∀ b w n w', p ⟨.default, b⟩ w ≠ .ok (.incomplete n, w')

end Chomp.Spec
