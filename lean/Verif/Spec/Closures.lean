import Verif.Model.Basic

namespace Chomp.Spec

/-- Not returning normally. -/
inductive Abrupt where
  | panic
  | ub
  | div

/-- the outcome it is -/
def Abrupt.res : Abrupt → Res α
  | .panic => .panic
  | .ub => .ub
  | .div => .div

/-- Asked about these items one after the other, `f` says `ans` each time. The state of the closure is
`w` before and `w'` after. -/
inductive Says (f : I → M σ Bool) (ans : Bool) : List I → σ → σ → Prop
  | nil {w} : Says f ans [] w w
  | cons {c cs w w1 w'} : f c w = .ok (ans, w1) → Says f ans cs w1 w' → Says f ans (c :: cs) w w'

/-- Given these items one after the other, `f` goes from state `s` to state `s'`. -/
inductive Walks (f : S → I → M σ (Option S)) : S → List I → σ → S → σ → Prop
  | nil {s w} : Walks f s [] w s w
  | cons {s c cs w s1 w1 s' w'} :
    f s c w = .ok (some s1, w1) → Walks f s1 cs w1 s' w' → Walks f s (c :: cs) w s' w'

/-- A closure which keeps a list of the items it has been asked about. -/
def logged (f : I → Bool) : I → M (List I) Bool := fun c l => .ok (f c, l ++ [c])

end Chomp.Spec
