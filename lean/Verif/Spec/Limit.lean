import Verif.Spec.Std
import Verif.Lemmas.Buffer

/-
What can be read through a `GrowingBuffer` with a limit. Definitions only.
-/

namespace Chomp.Spec

variable {S I : Type}

/-- What `fill_buf` can get at: everything which is to come, if the buffer has some capacity and is not above its limit;
above its limit only as much as the rest of the memory can take; without capacity nothing. -/
def reachable (rem : S → List I) (s : Source S (GrowingBuffer I)) : List I :=
  if s.buffer.limit ≠ 0 ∧ s.buffer.limit < s.capacity then
    (ahead rem s).take ((held s).length + LawfulBuffer.room s.buffer)
  else if s.capacity = 0 then []
  else ahead rem s

end Chomp.Spec
