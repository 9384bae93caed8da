/-
When printed values can be told apart.
-/

namespace Chomp.Spec

/-- What may come after a printed value within another one. -/
def Closes (x : List Char) : Prop := ∃ c r, x = c :: r ∧ (c = ',' ∨ c = ']' ∨ c = ')')

/-- What is printed tells the value, also if more follows: no value prints as another one and a comma, a bracket
or a parenthesis after it, and each prints something, which does not begin with a closing bracket. -/
structure Readable (d : A → List Char) : Prop where
  tells : ∀ a b x y, Closes x → Closes y → d a ++ x = d b ++ y → a = b
  opens : ∀ a, ∃ c x, d a = c :: x ∧ c ≠ ']'

end Chomp.Spec
