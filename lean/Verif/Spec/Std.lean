import Verif.Model.Std
import Verif.Spec.Retry

/-
Reading lines and the rest of the data. Definitions only.
-/

namespace Chomp.Spec

variable {S B I : Type} [DataSource S I] [Buffer B I] [LawfulBuffer B I]

/-- The items `ys` have been taken from the front of everything which was to come in `s`, leaving `s'`,
which can be used as before. -/
structure Taken (rem : S → List I) (s : Source S B) (ys : List I) (s' : Source S B) : Prop where
  usable : Usable s'
  items : ahead rem s = ys ++ ahead rem s'
  ready : Ready rem s → Continues rem s s'

/-- Up to and including the first delimiter, if there is one. -/
def upTo [DecidableEq I] (delim : I) : List I → List I
  | [] => []
  | x :: xs => if x = delim then [x] else x :: upTo delim xs

/-- The pieces between delimiters. There is none after a delimiter at the end. -/
def pieces [DecidableEq I] (delim : I) : List I → List (List I)
  | [] => []
  | x :: xs =>
    if x = delim then [] :: pieces delim xs
    else match pieces delim xs with
      | [] => [[x]]
      | l :: ls => (x :: l) :: ls

end Chomp.Spec
