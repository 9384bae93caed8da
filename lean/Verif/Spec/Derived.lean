import Verif.Spec.Buffer
import Verif.Model.Derived

namespace Chomp.Spec

/-- What a slice holds after `ws` has been written to it; `none` leaves an item as it is. -/
def written : List I → List (Option I) → List I
  | _ :: l, some y :: ws => y :: written l ws
  | x :: l, none :: ws => x :: written l ws
  | l, _ => l

/-- A source which writes nothing but the items it hands over. -/
class ExactSource (S : Type) (I : outParam Type) [DataSource S I] : Prop where
  ok : ∀ (s : S) (k n : Nat), (DataSource.read s k).1.result = .ok n →
    (DataSource.read s k).1.writes.length ≤ n
  err : ∀ (s : S) (k : Nat) (e : IoError), (DataSource.read s k).1.result = .error e →
    (DataSource.read s k).1.writes = []

/-- At some time in the history the buffer has been filled up to the end of its memory. -/
def FilledUp [DataSource S I] (chk : Bool) (ops : List BufOp) (s : S) (b : FixedSizeBuffer I) : Prop :=
  ∃ ops1 ops2 s1 b1, ops = ops1 ++ ops2 ∧ runOps chk ops1 (s, b) = .ok (s1, b1) ∧
    b1.populated = Buffer.capacity b1

end Chomp.Spec
