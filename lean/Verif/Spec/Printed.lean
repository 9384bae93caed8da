import Verif.Model.Ascii

/-
Formats: how values are written. And what it means that a parser reads values back. Definitions only.
-/

namespace Chomp.Spec

/-- A format: `R t x` means that `x` is one of the ways to write `t`. -/
abbrev Format (T I : Type) : Type := T → List I → Prop

/-- The parser gets back every value from what was written, if it is followed by something in `F`, and
stops where the text of the value ends. Nothing is said about other inputs. -/
def ReadsBack (R : Format T I) (F : Input I → Prop) (p : Parser σ I T E) : Prop :=
  ∀ t x m y w, R t x → F ⟨m, y⟩ → ∃ w', p ⟨m, x ++ y⟩ w = .ok (.data ⟨m, y⟩ t, w')

/-- The parser fails on inputs in `F`: it errs, or it would need more and there is no more. -/
def Refuses (F : Input I → Prop) (p : Parser σ I T E) : Prop :=
  ∀ i w, F i → (∃ b e w', p i w = .ok (.error b e, w')) ∨
    (i.mode = .endOfInput ∧ ∃ n w', p i w = .ok (.incomplete n, w'))

/-- The parser returns on inputs in `F`, but without a value. -/
def Declines (F : Input I → Prop) (p : Parser σ I T E) : Prop :=
  ∀ i w, F i → ∃ r w', p i w = .ok (r, w') ∧ ∀ j t, r ≠ .data j t

/-- The inputs which begin with a written value, followed by something in `F`. -/
def Before (R : Format T I) (F : Input I → Prop) (i : Input I) : Prop :=
  ∃ t x y, R t x ∧ i.buf = x ++ y ∧ F ⟨i.mode, y⟩

/-- The input goes on with an item for which `f` holds, or it is over. -/
def Next (f : I → Prop) (i : Input I) : Prop :=
  match i.buf with
  | [] => i.mode = .endOfInput
  | c :: _ => f c

/-- Any input. -/
def Anything (_ : Input I) : Prop := True

namespace Format

/-- A single value, written without anything. -/
def nothing (t : T) : Format T I := fun u x => u = t ∧ x = []

/-- An item which is written as it is. -/
def item (f : I → Prop) : Format I I := fun u x => x = [u] ∧ f u

/-- A text which is written as it is. -/
def text (f : List I → Prop) : Format (List I) I := fun u x => x = u ∧ f u

/-- One after the other, the value of the second is what counts; its format may depend on the value of
the first. -/
def seq (R : Format T I) (S : T → Format U I) : Format U I :=
  fun u z => ∃ t x y, z = x ++ y ∧ R t x ∧ S t u y

/-- In one way or the other. -/
def either (R S : Format T I) : Format T I := fun t x => R t x ∨ S t x

/-- Instead of a value, write another one from which it can be computed. -/
def through (f : T → U) (R : Format T I) : Format U I := fun u x => ∃ t, u = f t ∧ R t x

/-- A list, item by item. -/
def list (R : Format T I) : Format (List T) I
  | [], z => z = []
  | t :: ts, z => ∃ x y, z = x ++ y ∧ R t x ∧ list R ts y

/-- A list of which it is known how long it is. -/
def sized (f : Nat → Prop) (R : Format T I) : Format (List T) I := fun ts x => f ts.length ∧ list R ts x

/-- A list with something between the items. -/
def separated (R : Format T I) (S : Format V I) : Format (List T) I
  | [], z => z = []
  | t :: ts, z => ∃ x y, z = x ++ y ∧ R t x ∧ list (seq S fun _ => R) ts y

/-- Followed by something, the value of which does not count. -/
def followed (R : Format T I) (S : Format V I) : Format T I :=
  fun t z => ∃ x y, z = x ++ y ∧ R t x ∧ ∃ v, S v y

/-- Only the text counts, or: there is some value. -/
def some (R : Format T I) : Format Unit I := fun _ x => ∃ t, R t x

/-- The value together with its text. -/
def withText (R : Format T I) : Format (List I × T) I := fun u x => u.1 = x ∧ R u.2 x

end Format

/-- A data source's remaining data is one written value after the other. -/
def Written (R : Format T I) : List T → List I → Prop := Format.list R

end Chomp.Spec
