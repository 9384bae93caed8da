/-
What the standard library demands of `Ord`, `PartialEq` and `Hash`.
-/

namespace Chomp.Spec

/-- `cmp` is a total order, and `eq` is equality in it. -/
structure TotalOrder (eq : A → A → Bool) (cmp : A → A → Ordering) : Prop where
  same : ∀ a b, cmp a b = .eq ↔ eq a b = true
  swap : ∀ a b, cmp b a = (cmp a b).swap
  trans : ∀ a b c, cmp a b ≠ .gt → cmp b c ≠ .gt → cmp a c ≠ .gt

/-- `eq` is an equivalence. -/
structure Equal (eq : A → A → Bool) : Prop where
  refl : ∀ a, eq a a = true
  symm : ∀ a b, eq a b = true → eq b a = true
  trans : ∀ a b c, eq a b = true → eq b c = true → eq a c = true

/-- `eq` is identity. -/
def Identity (eq : A → A → Bool) : Prop := ∀ a b, eq a b = true ↔ a = b

/-- What is equal is hashed in the same way. -/
def Hashed (eq : A → A → Bool) (h : A → List Nat) : Prop := ∀ a b, eq a b = true → h a = h b

/-- What is hashed tells the value, also if more is hashed after it. -/
def Told (eq : A → A → Bool) (h : A → List Nat) : Prop :=
  ∀ a b x y, h a ++ x = h b ++ y → eq a b = true ∧ x = y

end Chomp.Spec
