import Verif.Model.Buffer

/-
Data sources which look at the slice they are given. `DataSource` forbids it (src/buffer/data_source.rs:19), but
nothing forbids it to an `io::Read`, which is handed the same slice. In the rest of the model a source is told the
length of the slice only.
-/

namespace Chomp

/-- `DataSource`, src/buffer/data_source.rs:6-22, or `io::Read`. The slice has a cell for each item; `none` is a cell
which has never been written. Reading such a cell is undefined behaviour, which is not part of this definition: it is
given to the source to see what there is to be read. -/
class LookingSource (S : Type) (I : outParam Type) where
  read : S → List (Option I) → ReadOut I × S

/-- `ReadDataSource::read`, src/buffer/data_source.rs:43-50: the slice is passed on. -/
instance [LookingSource R UInt8] : LookingSource (ReadDataSource R) UInt8 where
  read s slice :=
    let (out, r) := LookingSource.read s.inner slice
    (out, ⟨r⟩)

/-- `FixedSizeBuffer::fill`, src/buffer/buffer.rs:122-130. -/
def FixedSizeBuffer.fillLooking [LookingSource S I] (chk : Bool) (s : S) (b : FixedSizeBuffer I) :
    Res (Except IoError Nat × S × FixedSizeBuffer I) :=
  if b.populated ≤ b.buffer.length then
    let (out, s') := LookingSource.read s (b.buffer.drop b.populated)
    let b := { b with
      buffer := b.buffer.take b.populated ++ overlay (b.buffer.drop b.populated) out.writes }
    match out.result with
    | .error e => .ok (.error e, s', b)
    | .ok n => do
      debugAssert chk (b.populated + n ≤ b.buffer.length)
      let p ← uaddB chk b.populated n
      .ok (.ok n, s', { b with populated := p })
  else .panic

/-- `GrowingBuffer::fill`, src/buffer/buffer.rs:229-237. -/
def GrowingBuffer.fillLooking [LookingSource S I] (chk : Bool) (s : S) (b : GrowingBuffer I) :
    Res (Except IoError Nat × S × GrowingBuffer I) :=
  if b.populated ≤ b.buffer.length then
    let (out, s') := LookingSource.read s (b.buffer.drop b.populated)
    let b := { b with
      buffer := b.buffer.take b.populated ++ overlay (b.buffer.drop b.populated) out.writes }
    match out.result with
    | .error e => .ok (.error e, s', b)
    | .ok n => do
      debugAssert chk (b.populated + n ≤ b.buffer.length)
      let p ← uaddB chk b.populated n
      .ok (.ok n, s', { b with populated := p })
  else .panic

/-- The buffers whose `fill` is given above, with their memory and the position where `fill` starts to write
(src/buffer/buffer.rs:62-72 and 174-184). -/
class LookBuffer (B : Type) (I : outParam Type) where
  memory : B → List (Option I)
  start : B → Nat
  fill {S : Type} [LookingSource S I] (chk : Bool) : S → B → Res (Except IoError Nat × S × B)

instance : LookBuffer (FixedSizeBuffer I) I := ⟨(·.buffer), (·.populated), FixedSizeBuffer.fillLooking⟩
instance : LookBuffer (GrowingBuffer I) I := ⟨(·.buffer), (·.populated), GrowingBuffer.fillLooking⟩

end Chomp
